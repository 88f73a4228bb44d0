import Verif.Proofs.ClientBounded
import Verif.Proofs.EndCause

/-!
# A coroutine on the API: how its operations end
-/

namespace Zcc

open Spec

/-- How the operation of a coroutine ends by an event, and the API afterwards. -/
inductive Ends {α : Type} (c : Client α) : ClientEvent → Act → Api → Prop where
  | request {sub command payload expected t r} (ht : c.pend = .call t) (hr : c.api.result t = some r) :
      Ends c .go ⟨.request sub command payload expected, leaveRequest r⟩ c.api
  | build {sub command payload expected e} (h : Obj.fromCommand sub command payload = .error e) :
      Ends c .go ⟨.request sub command payload expected, .error (leaveCoroutine e)⟩ c.api
  | spawn {sub command payload} : Ends c .go ⟨.spawn sub command payload, .ok ()⟩ c.api
  | waitFor {m timeout} : Ends c .go ⟨.waitFor m timeout, .ok c.api.waiterId⟩
      (c.api.step (.register m timeout none))
  | result {w o} (hf : c.api.fut w = .result o) : Ends c .go ⟨.wait w, .ok o⟩ c.api
  | cancelled {w v d} (hw : c.pend = .wait v d) (hf : c.api.fut w = .cancelled) :
      Ends c .go ⟨.wait w, .error .cancelledError⟩ c.api
  | late {w v d} (hw : c.pend = .wait v d) (hf : c.api.fut w = .pending) (hd : d ≤ c.api.now) :
      Ends c .go ⟨.wait w, .error .timeoutError⟩ (c.api.step (.abandon w))
  | interrupted {w v d} (hw : c.pend = .wait v d) :
      Ends c .cancel ⟨.wait w, .error .cancelledError⟩ (c.api.step (.abandon w))
  | connect {r} : Ends c (.connected r) ⟨.connect, r⟩ c.api
  | semaphore {n} : Ends c .go ⟨.semaphore n, .ok ()⟩ c.api
  | coordinator {ieee nwk} : Ends c .go ⟨.coordinator ieee nwk, .ok ()⟩ c.api

/-- What an event does. -/
inductive Stepped {α : Type} (c : Client α) : ClientEvent → Client α → Prop where
  | same {ev c'} (h1 : c'.api = c.api) (h2 : c'.prog = c.prog) (h3 : c'.hist = c.hist)
      (h4 : c'.pend = c.pend) : Stepped c ev c'
  | event {ev c'} (e : Event) (he : ev = .api e ∨ (∃ o, e = .submit o none none) ∨
        ∃ t, ev = .cancel ∧ e = .cancel t ∧ c.pend = .call t)
      (h1 : c'.api = c.api.step e) (h2 : c'.prog = c.prog) (h3 : c'.hist = c.hist)
      (h4 : c'.pend = c.pend) : Stepped c ev c'
  | submit {c' sub command payload expected k o}
      (hp : c.prog = .call (.request sub command payload expected) k)
      (hn : ∀ t, c.pend ≠ .call t) (ho : Obj.fromCommand sub command payload = .ok o)
      (h1 : c'.api = c.api.step (.submit o none expected)) (h2 : c'.prog = c.prog)
      (h3 : c'.hist = c.hist) (h4 : c'.pend = .call c.api.nextTid) : Stepped c .go c'
  | wait {c' w k} (hp : c.prog = .call (.wait w) k) (h1 : c'.api = c.api) (h2 : c'.prog = c.prog)
      (h3 : c'.hist = c.hist) (h4 : c'.pend = .wait w (c.api.now + c.limit w)) : Stepped c .go c'
  | ended {ev c' op k r} (hp : c.prog = .call op k) (he : Ends c ev ⟨op, r⟩ c'.api)
      (h2 : c'.prog = k r) (h3 : c'.hist = c.hist ++ [⟨op, r⟩]) (h4 : c'.pend = .idle) :
      Stepped c ev c'

theorem stepped_advance {α : Type} (c : Client α) {op : Op} {k : Except PyErr op.Ans → Prog α}
    (hp : c.prog = .call op k) : Stepped c .go (c.advance op k) := by
  cases op with
  | request sub command payload expected =>
    unfold Client.advance
    dsimp only
    split
    · rename_i t ht
      split
      · rename_i r hr
        exact .ended hp (.request ht hr) rfl rfl rfl
      · exact .same rfl rfl rfl rfl
    · rename_i hn
      split
      · rename_i e he
        exact .ended hp (.build he) rfl rfl rfl
      · rename_i o ho
        exact .submit hp hn ho rfl rfl rfl rfl
  | spawn sub command payload => exact .ended hp .spawn rfl rfl rfl
  | waitFor m timeout => exact .ended hp .waitFor rfl rfl rfl
  | wait w =>
    unfold Client.advance
    dsimp only
    split
    · rename_i v d hd
      split
      · rename_i o ho
        exact .ended hp (.result ho) rfl rfl rfl
      · rename_i hf
        exact .ended hp (.cancelled hd hf) rfl rfl rfl
      · rename_i hf
        split
        · rename_i hle
          exact .ended hp (.late hd hf hle) rfl rfl rfl
        · exact .same rfl rfl rfl rfl
    · exact .wait hp rfl rfl rfl rfl
  | connect => exact .same rfl rfl rfl rfl
  | semaphore n => exact .ended hp .semaphore rfl rfl rfl
  | coordinator ieee nwk => exact .ended hp .coordinator rfl rfl rfl

theorem client_stepped {α : Type} (c : Client α) (ev : ClientEvent) : Stepped c ev (c.step ev) := by
  cases ev with
  | api e => exact .event e (.inl rfl) rfl rfl rfl rfl
  | go =>
    unfold Client.step
    dsimp only
    split
    · exact stepped_advance c ‹_›
    · exact .same rfl rfl rfl rfl
  | connected r =>
    unfold Client.step
    dsimp only
    split
    · rename_i op k hp
      cases op with
      | connect => exact .ended hp .connect rfl rfl rfl
      | _ => exact .same rfl rfl rfl rfl
    · exact .same rfl rfl rfl rfl
  | spawned =>
    unfold Client.step Client.runSpawned
    dsimp only
    split
    · exact .same rfl rfl rfl rfl
    · split
      · exact .same rfl rfl rfl rfl
      · rename_i o _
        exact .event (.submit o none none) (.inr (.inl ⟨o, rfl⟩)) rfl rfl rfl rfl
  | cancel =>
    unfold Client.step
    dsimp only
    split
    · rename_i op k hp
      cases op with
      | request sub command payload expected =>
        unfold Client.interrupt
        dsimp only
        split
        · rename_i t ht
          exact .event (.cancel t) (.inr (.inr ⟨t, rfl, rfl, ht⟩)) rfl rfl rfl rfl
        · exact .same rfl rfl rfl rfl
      | wait w =>
        unfold Client.interrupt
        dsimp only
        split
        · rename_i v d hd
          exact .ended hp (.interrupted hd) rfl rfl rfl
        · exact .same rfl rfl rfl rfl
      | _ => exact .same rfl rfl rfl rfl
    · exact .same rfl rfl rfl rfl

/-- Induction over executions. -/
theorem client_ind {P : List ClientEvent → Prop} (h0 : P [])
    (h1 : ∀ evs ev, P evs → P (evs ++ [ev])) : ∀ evs, P evs := by
  intro evs
  induction h : evs.length generalizing evs with
  | zero => rw [List.length_eq_zero_iff.mp h]; exact h0
  | succ n ih =>
    rcases List.eq_nil_or_concat evs with rfl | ⟨evs', ev, rfl⟩
    · simp at h
    · rw [List.concat_eq_append] at h ⊢
      exact h1 _ _ (ih evs' (by simpa using h))

/-- Where a list was split that got longer by one. -/
theorem snoc_split {α : Type} {l : List α} {x a : α} {h1 h2 : List α}
    (h : l ++ [x] = h1 ++ a :: h2) : (h1 = l ∧ a = x ∧ h2 = []) ∨ ∃ h2', h2 = h2' ++ [x] ∧ l = h1 ++ a :: h2' := by
  rcases List.eq_nil_or_concat h2 with rfl | ⟨h2', y, rfl⟩
  · obtain ⟨rfl, h3⟩ := List.append_inj' h rfl
    cases h3
    exact .inl ⟨rfl, rfl, rfl⟩
  · have he : l ++ [x] = (h1 ++ a :: h2') ++ [y] := by rw [h]; simp
    obtain ⟨h3, h4⟩ := List.append_inj' he rfl
    cases h4
    exact .inr ⟨h2', by simp, h3⟩

/-- The moment when an operation of the history ended. -/
theorem act_moment {α : Type} (p : Prog α) {a : Act} (evs : List ClientEvent) : ∀ {h1 h2 : List Act},
    (Client.run p evs).hist = h1 ++ a :: h2 → ∃ x ev y k s, evs = x ++ ev :: y ∧
      (Client.run p x).hist = h1 ∧ (Client.run p x).prog = .call a.op k ∧ Ends (Client.run p x) ev a s := by
  induction evs using client_ind with
  | h0 => intro h1 h2 h; cases h1 <;> cases h
  | h1 evs ev ih =>
    intro h1 h2 h
    have old : (Client.run p evs).hist = h1 ++ a :: h2 → ∃ x ev' y k s, evs ++ [ev] = x ++ ev' :: y ∧
        (Client.run p x).hist = h1 ∧ (Client.run p x).prog = .call a.op k ∧
        Ends (Client.run p x) ev' a s := by
      intro h
      obtain ⟨x, ev', y, k, s, rfl, hx⟩ := ih h
      exact ⟨x, ev', y ++ [ev], k, s, by simp, hx⟩
    rw [client_snoc] at h
    cases client_stepped (Client.run p evs) ev with
    | same h1 h2 h3 h4 => exact old (h3 ▸ h)
    | event e he h1 h2 h3 h4 => exact old (h3 ▸ h)
    | submit hp hn ho h1 h2 h3 h4 => exact old (h3 ▸ h)
    | wait hp h1 h2 h3 h4 => exact old (h3 ▸ h)
    | ended hp he h5 h3 h4 =>
      rw [h3] at h
      rcases snoc_split h with ⟨rfl, rfl, rfl⟩ | ⟨h2', rfl, hh⟩
      · exact ⟨evs, ev, [], _, _, rfl, rfl, hp, he⟩
      · obtain ⟨x, ev', y, k, s, rfl, hx⟩ := ih hh
        exact ⟨x, ev', y ++ [ev], k, s, by simp, hx⟩

/-- The API goes through events; the waiters that are registered in them are those of others and those
of the coroutine. -/
theorem client_registers {α : Type} (p : Prog α) (evs : List ClientEvent) :
    ∃ es, (Client.run p evs).api = Api.init.run es ∧ ∀ m timeout q, .register m timeout q ∈ es →
      ClientEvent.api (.register m timeout q) ∈ evs ∨
        q = none ∧ ∃ w, (⟨.waitFor m timeout, .ok w⟩ : Act) ∈ (Client.run p evs).hist := by
  induction evs using client_ind with
  | h0 => exact ⟨[], rfl, fun m timeout q h => by cases h⟩
  | h1 evs ev ih =>
    obtain ⟨es, he, hr⟩ := ih
    rw [client_snoc]
    have keep : ∀ {c' : Client α}, (∀ a ∈ (Client.run p evs).hist, a ∈ c'.hist) →
        ∀ m timeout q, Event.register m timeout q ∈ es →
        ClientEvent.api (.register m timeout q) ∈ evs ++ [ev] ∨
        q = none ∧ ∃ w, (⟨.waitFor m timeout, .ok w⟩ : Act) ∈ c'.hist := by
      intro c' hh m timeout q h
      rcases hr m timeout q h with h | ⟨h1, w, h2⟩
      · exact .inl (List.mem_append_left _ h)
      · exact .inr ⟨h1, w, hh _ h2⟩
    have more : ∀ {c' : Client α} {e : Event}, (∀ a ∈ (Client.run p evs).hist, a ∈ c'.hist) →
        c'.api = (Client.run p evs).api.step e →
        (∀ m timeout q, e = .register m timeout q → ClientEvent.api (.register m timeout q) ∈ evs ++ [ev] ∨
          q = none ∧ ∃ w, (⟨.waitFor m timeout, .ok w⟩ : Act) ∈ c'.hist) →
        ∃ es, c'.api = Api.init.run es ∧ ∀ m timeout q, .register m timeout q ∈ es →
          ClientEvent.api (.register m timeout q) ∈ evs ++ [ev] ∨
            q = none ∧ ∃ w, (⟨.waitFor m timeout, .ok w⟩ : Act) ∈ c'.hist := by
      intro c' e hh h1 h2
      refine ⟨es ++ [e], by rw [h1, he, run_snoc], fun m timeout q h => ?_⟩
      rcases List.mem_append.mp h with h | h
      · exact keep hh m timeout q h
      · exact h2 m timeout q (List.mem_singleton.mp h).symm
    cases client_stepped (Client.run p evs) ev with
    | same h1 h2 h3 h4 => exact ⟨es, h1.trans he, keep (by rw [h3]; exact fun _ h => h)⟩
    | event e hc h1 h2 h3 h4 =>
      refine more (by rw [h3]; exact fun _ h => h) h1 fun m timeout q h => ?_
      rcases hc with rfl | ⟨o, rfl⟩ | ⟨t, -, rfl, -⟩
      · exact .inl (List.mem_append_right _ (by rw [h]; exact .head _))
      · cases h
      · cases h
    | submit hp hn ho h1 h2 h3 h4 =>
      exact more (by rw [h3]; exact fun _ h => h) h1 fun m timeout q h => by cases h
    | wait hp h1 h2 h3 h4 => exact ⟨es, h1.trans he, keep (by rw [h3]; exact fun _ h => h)⟩
    | @ended _ _ op k r hp hend h2 h3 h4 =>
      have hh : ∀ a ∈ (Client.run p evs).hist, a ∈ ((Client.run p evs).step ev).hist := by
        rw [h3]; exact fun _ h => List.mem_append_left _ h
      generalize ha : (⟨op, r⟩ : Act) = a at hend
      obtain ⟨s, hs⟩ : ∃ s, ((Client.run p evs).step ev).api = s := ⟨_, rfl⟩
      rw [hs] at hend
      cases hend with
      | @waitFor m timeout =>
        refine more hh hs fun m' timeout' q h => ?_
        cases h
        exact .inr ⟨rfl, _, by rw [h3, ha]; exact List.mem_append_right _ (.head _)⟩
      | late => exact more hh hs fun m' timeout' q h => by cases h
      | interrupted => exact more hh hs fun m' timeout' q h => by cases h
      | _ => exact ⟨es, hs.trans he, keep hh⟩

/-- A future that has ended stays as it is. -/
theorem client_fut {α : Type} (p : Prog α) (a : List ClientEvent) {w : Nat}
    (h : (Client.run p a).api.fut w ≠ .pending) (b : List ClientEvent) :
    (Client.run p (a ++ b)).api.fut w = (Client.run p a).api.fut w := by
  induction b using client_ind with
  | h0 => rw [List.append_nil]
  | h1 b ev ih =>
    rw [← List.append_assoc, client_snoc]
    rcases client_api (Client.run p (a ++ b)) ev with h' | ⟨e, h'⟩
    · rw [h']; exact ih
    · rw [h', futStay_step _ e w (by rw [ih]; exact h), ih]

end Zcc
