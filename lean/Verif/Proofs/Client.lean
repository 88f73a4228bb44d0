import Verif.Spec.Client
import Verif.Proofs.Resolved
import Verif.Props.Runtime
import Verif.Proofs.StartZnp

/-!
# A coroutine on the API: the invariant
-/

namespace Zcc

open Spec

/-- `o` is the object of the request that the coroutine is in, with these expected status values. -/
def InRequest {α : Type} (p : Prog α) (o : Obj) (e : Option (List Int)) : Prop :=
  ∃ sub command payload k, p = .call (.request sub command payload e) k ∧
    Obj.fromCommand sub command payload = .ok o

/-- The invariant. `past` is the log up to the end of the last operation. -/
structure ClientInv {α : Type} (p : Prog α) (evs : List ClientEvent) (past : List Entry)
    (c : Client α) : Prop where
  fed : p.feed c.hist = some c.prog
  api : Inv c.api
  res : Res c.api.log
  lent : ∀ w, Lent w c.api.log → ∃ o e, ClientEvent.api (.submit o (some w) e) ∈ evs
  log : past <+: c.api.log
  call : ∀ t, c.pend = .call t → ∃ o e, InRequest c.prog o e ∧
    .submitted t o none e ∈ c.api.log ∧ ∀ b, .sent t b ∉ past
  trace : Unshared evs c.hist → Traced past c.hist

theorem unshared_mono {evs evs' : List ClientEvent} {h h' : List Act} (he : ∀ e ∈ evs, e ∈ evs')
    (hh : ∀ a ∈ h, a ∈ h') (hu : Unshared evs' h') : Unshared evs h :=
  fun o w e hm r hr => hu o w e (he _ hm) r (hh _ hr)

theorem sub_tail {α : Type} {a : α} {l p s : List α} (h : (a :: l).Sublist (p ++ s)) (ha : a ∉ p) :
    (a :: l).Sublist s := by
  induction p with
  | nil => exact h
  | cons x p ih =>
    refine ih ?_ (fun hm => ha (.tail _ hm))
    cases h with
    | cons _ h => exact h
    | cons_cons _ h => exact absurd (.head _) ha

theorem leaveRequest_assert {α : Type} {r : Except PyErr α} (h : NoAssert r) :
    NoAssert (leaveRequest r) := by
  cases r with
  | ok a => exact noAssert_ok _
  | error e =>
    intro h'
    apply h
    cases e <;> cases h'
    rfl

/-- What a finished call shows in the log. -/
theorem request_logged {s : Api} (i : Inv s) {past seg : List Entry} (hl : s.log = past ++ seg)
    {t : Nat} {sub : Subsystem} {command : String} {payload : Payload} {e : Option (List Int)}
    {o : Obj} (ho : Obj.fromCommand sub command payload = .ok o)
    (hs : .submitted t o none e ∈ s.log) (hp : ∀ b, .sent t b ∉ past)
    {r : Except PyErr (Option Obj)} (hf : .finished t r ∈ s.log) :
    RequestLogged seg sub command payload e (leaveRequest r) := by
  obtain ⟨k, hk, hko, hkw, hke⟩ := (i.log.subIff t o none e).mp hs
  obtain ⟨k', hk', hpc⟩ := (i.log.fin t _).mp hf
  rw [hk] at hk'; cases hk'
  have written : ∀ {b}, .sent t b ∈ s.log → WrittenAs o b := by
    intro b hb
    obtain ⟨k', h4, _, h5⟩ := i.log.sentStarted t b hb
    rw [hk] at h4; cases h4
    rw [hko] at h5
    exact encode_ok h5
  have out := i.resp.done t k _ hk hpc
  match r, out with
  | .ok (some rsp), ⟨m, to, b, f, h1, h2, h3, h4⟩ =>
    rw [hko] at h1 h4
    refine ⟨o, t, b, f, ho, written (h3.subset (by simp)), ?_, ?_⟩
    · rcases ownWaiter_answers h1 h2 with ⟨h5, h⟩ | ⟨h5, h6, h7⟩
      · refine .inl ⟨h5, h, ?_⟩
        have := h4 h5
        rw [hke] at this
        exact badStatus_none.mp this
      · exact .inr ⟨h5, h6, h7⟩
    · rw [hl] at h3
      have := sub_tail h3 (hp b)
      exact (List.sublist_append_left [Entry.sent t b, .received f rsp] [_]).trans this
  | .ok none, ⟨h1, h2, b, h3⟩ =>
    rw [hko] at h1 h2
    refine ⟨o, t, b, ho, written (h3.subset (by simp)), h1, not_isReset h2, ?_⟩
    rw [hl] at h3
    exact (sub_tail h3 (hp b)).subset (.head _)
  | .error err, h =>
    have hne : NoAssert (.error err : Except PyErr (Option Obj)) := by
      intro he
      cases he
      rcases h with ⟨_, h | h | h | ⟨h, _⟩⟩ | ⟨_, _, h | h⟩ | ⟨_, m, to, b, f, o, z, _, _, _, _, h | ⟨h, _⟩⟩
      · cases h
      · cases h
      · exact noAssert_encode _ h
      · cases h
      · cases h
      · cases h
      · cases h
      · cases h
    have := leaveRequest_assert hne
    intro he
    exact this (by show Except.error _ = _; rw [he])

theorem feed_answer {α : Type} {p : Prog α} {h : List Act} {op : Op}
    {k : Except PyErr op.Ans → Prog α} (hf : p.feed h = some (.call op k))
    (r : Except PyErr op.Ans) : p.feed (h ++ [⟨op, r⟩]) = some (k r) := by
  rw [feed_append, hf]
  simp

/-- The API moves on by an event that lends no waiter. -/
theorem ClientInv.moved {α : Type} {p : Prog α} {evs : List ClientEvent} {past : List Entry}
    {c : Client α} (i : ClientInv p evs past c) {e : Event} {c' : Client α}
    (hl : ∀ o w x, e = .submit o (some w) x → ClientEvent.api e ∈ evs)
    (h1 : c'.api = c.api.step e) (h2 : c'.prog = c.prog) (h3 : c'.hist = c.hist)
    (h4 : c'.pend = c.pend) : ClientInv p evs past c' := by
  have g := grows_step c.api e
  refine ⟨by rw [h3, h2]; exact i.fed, by rw [h1]; exact i.api.step e,
    by rw [h1]; exact res_step i.api i.res e, ?_, by rw [h1]; exact i.log.trans g.log, ?_,
    by rw [h3]; exact i.trace⟩
  · intro w hw
    rw [h1] at hw
    obtain ⟨t, o, x, hw⟩ := hw
    rcases sub_new hw with hw | hw
    · exact i.lent w ⟨t, o, x, hw⟩
    · exact ⟨o, x, hw.1 ▸ hl o w x hw.1⟩
  · intro t ht
    rw [h4] at ht
    obtain ⟨o, x, ho, hs, hn⟩ := i.call t ht
    exact ⟨o, x, h2 ▸ ho, by rw [h1]; exact g.log.subset hs, hn⟩

/-- The operation has ended. -/
theorem ClientInv.answered {α : Type} {p : Prog α} {evs : List ClientEvent} {past : List Entry}
    {c c' : Client α} (i : ClientInv p evs past c) {op : Op} {k : Except PyErr op.Ans → Prog α}
    (hp : c.prog = .call op k) {r : Except PyErr op.Ans}
    (hl : ∀ seg, c.api.log = past ++ seg → Unshared evs (c.hist ++ [⟨op, r⟩]) →
      Logged past seg ⟨op, r⟩)
    (h1 : c'.api = c.api) (h2 : c'.prog = k r) (h3 : c'.hist = c.hist ++ [⟨op, r⟩])
    (h4 : c'.pend = .idle) : ClientInv p evs c'.api.log c' := by
  obtain ⟨seg, hseg⟩ := i.log
  refine ⟨?_, by rw [h1]; exact i.api, by rw [h1]; exact i.res, by rw [h1]; exact i.lent,
    List.prefix_refl _, (fun t ht => by rw [h4] at ht; cases ht), ?_⟩
  · rw [h3, h2]
    have := i.fed
    rw [hp] at this
    exact feed_answer this r
  · intro hu
    rw [h3] at hu ⊢
    rw [h1, ← hseg]
    exact .snoc (i.trace (unshared_mono (fun _ h => h) (fun _ h => List.mem_append_left _ h) hu))
      (hl seg hseg.symm hu)

theorem ClientInv.mono {α : Type} {p : Prog α} {evs evs' : List ClientEvent} {past : List Entry}
    {c : Client α} (i : ClientInv p evs past c) (he : ∀ e ∈ evs, e ∈ evs') :
    ClientInv p evs' past c :=
  ⟨i.fed, i.api, i.res, fun w hw => by
    obtain ⟨o, e, h⟩ := i.lent w hw
    exact ⟨o, e, he _ h⟩, i.log, i.call,
   fun hu => i.trace (unshared_mono he (fun _ h => h) hu)⟩

theorem submit_logged (s : Api) (o : Obj) (e : Option (List Int)) :
    .submitted s.nextTid o none e ∈ (s.step (.submit o none e)).log := by
  have h : .submitted s.nextTid o none e ∈ (s.enqueue o none e).log :=
    List.mem_append_right _ (.head _)
  rw [Api.step]
  split
  · exact (grows_grant _).log.subset h
  · exact h

theorem result_logged {s : Api} (i : Inv s) {t : Nat} {r : Except PyErr (Option Obj)}
    (h : s.result t = some r) : .finished t r ∈ s.log := by
  unfold Api.result at h
  split at h
  · rename_i k hk
    split at h
    · rename_i hpc
      cases h
      exact (i.log.fin t _).mpr ⟨k, hk, hpc⟩
    · cases h
  · cases h

theorem client_advance {α : Type} {p : Prog α} {evs : List ClientEvent} {past : List Entry}
    {c : Client α} (i : ClientInv p evs past c) {op : Op} {k : Except PyErr op.Ans → Prog α}
    (hp : c.prog = .call op k) : ∃ past', ClientInv p evs past' (c.advance op k) := by
  cases op with
  | request sub command payload expected =>
    unfold Client.advance
    dsimp only
    split
    · rename_i t ht
      split
      · rename_i r hr
        obtain ⟨o, e, ⟨sub', command', payload', k', hp', ho⟩, hs, hn⟩ := i.call t ht
        rw [hp] at hp'
        cases hp'
        exact ⟨_, i.answered hp (fun seg hseg _ =>
          request_logged i.api hseg ho hs hn (result_logged i.api hr)) rfl rfl rfl rfl⟩
      · exact ⟨_, i⟩
    · split
      · rename_i e he
        refine ⟨_, i.answered hp (fun seg hseg _ => ?_) rfl rfl rfl rfl⟩
        have h := leaveRequest_assert (noAssert_fromCommand sub command payload)
        rw [he] at h
        exact fun h' => h (by rw [show leaveRequest (.error e : Except PyErr Obj) = .error (leaveCoroutine e) from rfl, h'])
      · rename_i o ho
        have i' := i.moved (e := .submit o none expected)
          (c' := { c with api := c.api.step (.submit o none expected) })
          (fun o w x h => by cases h) rfl rfl rfl rfl
        refine ⟨past, i'.fed, i'.api, i'.res, i'.lent, i'.log, ?_, i'.trace⟩
        intro t ht
        cases ht
        refine ⟨o, expected, ⟨sub, command, payload, k, hp, ho⟩, submit_logged _ _ _, fun b hb => ?_⟩
        obtain ⟨k', hk', -⟩ := i.api.log.sentStarted _ b (i.log.subset hb)
        have := (i.api.lock.tid c.api.nextTid).mp ⟨k', hk'⟩
        omega
  | spawn sub command payload =>
    exact ⟨_, i.answered hp (fun _ _ _ => trivial) rfl rfl rfl rfl⟩
  | waitFor m timeout =>
    have i' := i.moved (e := .register m timeout none)
      (c' := { c with api := c.api.step (.register m timeout none) })
      (fun o w x h => by cases h) rfl rfl rfl rfl
    refine ⟨_, i'.answered (c' := Client.advance c (.waitFor m timeout) k) hp (fun seg hseg _ => ?_)
      rfl rfl rfl rfl⟩
    refine ⟨c.api.waiterId, c.api.now, rfl, ?_⟩
    obtain ⟨seg0, h0⟩ := i.log
    have h1 : (c.api.step (.register m timeout none)).log = past ++ (seg0 ++ [.registered
        { id := c.api.waiterId, matcher := m, timeout, sequence := none } c.api.now]) := by
      rw [← List.append_assoc, h0]
      rfl
    have h2 := List.append_cancel_left (hseg.symm.trans h1)
    rw [h2]
    exact List.mem_append_right _ (.head _)
  | wait w =>
    unfold Client.advance
    dsimp only
    split
    · split
      · rename_i o ho
        refine ⟨_, i.answered hp (fun seg hseg hu => ?_) rfl rfl rfl rfl⟩
        rcases i.res w o ((i.api.wait.resIff w o).mpr ho) with ⟨x, time, f, h1, h2, h3⟩ | hl
        · refine ⟨x, time, f, h1, (match_true _ _).mp h2, ?_⟩
          rw [← hseg]
          exact (List.sublist_append_left [Entry.registered x time, .received f o] [_]).trans h3
        · obtain ⟨o', e, hm⟩ := i.lent w hl
          exact absurd (List.mem_append_right _ (.head _)) (hu o' w e hm (.ok o))
      · exact ⟨_, i.answered hp (r := .error .cancelledError) (fun _ _ _ => trivial) rfl rfl rfl rfl⟩
      · split
        · have i' := i.moved (e := .abandon w) (c' := { c with api := c.api.step (.abandon w) })
            (fun o w x h => by cases h) rfl rfl rfl rfl
          exact ⟨_, i'.answered hp (r := .error .timeoutError) (fun _ _ _ => trivial) rfl rfl rfl rfl⟩
        · exact ⟨_, i⟩
    · exact ⟨past, i.fed, i.api, i.res, i.lent, i.log, (fun t ht => by cases ht), i.trace⟩
  | connect => exact ⟨_, i⟩
  | semaphore n => exact ⟨_, i.answered hp (fun _ _ _ => trivial) rfl rfl rfl rfl⟩
  | coordinator ieee nwk => exact ⟨_, i.answered hp (fun _ _ _ => trivial) rfl rfl rfl rfl⟩

theorem client_interrupt {α : Type} {p : Prog α} {evs : List ClientEvent} {past : List Entry}
    {c : Client α} (i : ClientInv p evs past c) {op : Op} {k : Except PyErr op.Ans → Prog α}
    (hp : c.prog = .call op k) : ∃ past', ClientInv p evs past' (c.interrupt op k) := by
  cases op with
  | request sub command payload expected =>
    unfold Client.interrupt
    dsimp only
    split
    · rename_i t ht
      exact ⟨_, i.moved (e := .cancel t) (fun o w x h => by cases h) rfl rfl rfl rfl⟩
    · exact ⟨_, i⟩
  | wait w =>
    unfold Client.interrupt
    dsimp only
    split
    · have i' := i.moved (e := .abandon w) (c' := { c with api := c.api.step (.abandon w) })
        (fun o w x h => by cases h) rfl rfl rfl rfl
      exact ⟨_, i'.answered hp (r := .error .cancelledError) (fun _ _ _ => trivial) rfl rfl rfl rfl⟩
    · exact ⟨_, i⟩
  | spawn sub command payload => exact ⟨_, i⟩
  | waitFor m timeout => exact ⟨_, i⟩
  | connect => exact ⟨_, i⟩
  | semaphore n => exact ⟨_, i⟩
  | coordinator ieee nwk => exact ⟨_, i⟩

theorem client_step {α : Type} {p : Prog α} {evs : List ClientEvent} {past : List Entry}
    {c : Client α} (i : ClientInv p evs past c) (ev : ClientEvent) :
    ∃ past', ClientInv p (evs ++ [ev]) past' (c.step ev) := by
  have i := i.mono (evs' := evs ++ [ev]) (fun _ h => List.mem_append_left _ h)
  cases ev with
  | api e => exact ⟨_, i.moved (e := e) (fun _ _ _ _ => List.mem_append_right _ (.head _)) rfl rfl rfl rfl⟩
  | go =>
    unfold Client.step
    dsimp only
    split
    · exact client_advance i ‹_›
    · exact ⟨_, i⟩
  | connected r =>
    unfold Client.step
    dsimp only
    split
    · rename_i op k hp
      cases op with
      | connect => exact ⟨_, i.answered hp (fun _ _ _ => trivial) rfl rfl rfl rfl⟩
      | _ => exact ⟨_, i⟩
    · exact ⟨_, i⟩
  | spawned =>
    unfold Client.step Client.runSpawned
    dsimp only
    split
    · exact ⟨_, i⟩
    · split
      · exact ⟨_, i.fed, i.api, i.res, i.lent, i.log, i.call, i.trace⟩
      · rename_i o _
        exact ⟨_, i.moved (e := .submit o none none) (fun o w x h => by cases h) rfl rfl rfl rfl⟩
  | cancel =>
    unfold Client.step
    dsimp only
    split
    · exact client_interrupt i ‹_›
    · exact ⟨_, i⟩

theorem client_snoc {α : Type} (p : Prog α) (evs : List ClientEvent) (ev : ClientEvent) :
    Client.run p (evs ++ [ev]) = (Client.run p evs).step ev := by
  simp [Client.run, List.foldl_append]

theorem client_inv_from {α : Type} {p : Prog α} (evs : List ClientEvent) :
    ∀ {evs0 : List ClientEvent} {past : List Entry} {c : Client α}, ClientInv p evs0 past c →
      ∃ past', ClientInv p (evs0 ++ evs) past' (evs.foldl Client.step c) := by
  induction evs with
  | nil => intro evs0 past c i; exact ⟨past, by simpa using i⟩
  | cons ev evs ih =>
    intro evs0 past c i
    obtain ⟨past', i'⟩ := client_step i ev
    have := ih i'
    rw [List.append_assoc] at this
    exact this

theorem client_inv {α : Type} (p : Prog α) (evs : List ClientEvent) :
    ∃ past, ClientInv p evs past (Client.run p evs) :=
  client_inv_from evs (evs0 := []) ⟨feed_nil p, inv_init, res_init,
    (fun w h => by obtain ⟨_, _, _, h⟩ := h; cases h), List.nil_prefix, (fun t h => by cases h),
    fun _ => .nil⟩

/-! ## What a trace implies -/

theorem Spec.Traced.genuine {L : List Entry} {h : List Act} (ht : Traced L h) : ∀ a ∈ h, Genuine a := by
  induction ht with
  | nil => intro a ha; cases ha
  | snoc ht hl ih =>
    intro a ha
    rcases List.mem_append.mp ha with ha | ha
    · exact ih a ha
    · rw [List.mem_singleton] at ha
      subst ha
      obtain ⟨op, r⟩ := a
      cases op with
      | request sub command payload expected =>
        refine ⟨fun he => ?_, fun o z ho ht' hz => ?_⟩
        · subst he
          exact hl rfl
        · subst ho
          obtain ⟨o', t, b, f, -, -, hacc, -⟩ := hl
          rcases hacc with ⟨-, -, hs⟩ | ⟨-, -, hc, -⟩
          · obtain ⟨z', hz', hmem⟩ := hs _ hz
            cases hz'
            exact hmem
          · rw [ht'] at hc
            cases hc
      | _ => trivial

/-- Where an operation of the history is in the log. -/
theorem Spec.Traced.at {L : List Entry} {h : List Act} (ht : Traced L h) {h1 h2 : List Act} {a : Act}
    (he : h = h1 ++ a :: h2) : ∃ past seg rest, L = past ++ seg ++ rest ∧ Traced past h1 ∧
      Logged past seg a := by
  induction ht generalizing h2 with
  | nil =>
    cases h1 <;> cases he
  | snoc ht hl ih =>
    rename_i past seg h a'
    rcases List.eq_nil_or_concat h2 with rfl | ⟨h2', x, rfl⟩
    · have := List.append_inj' he rfl
      obtain ⟨rfl, h3⟩ := this
      cases h3
      exact ⟨past, seg, [], by simp, ht, hl⟩
    · have he' : h ++ [a'] = (h1 ++ a :: h2') ++ [x] := by rw [he]; simp
      obtain ⟨h3, h4⟩ := List.append_inj' he' rfl
      obtain ⟨past', seg', rest, h5, h6, h7⟩ := ih h3
      exact ⟨past', seg', rest ++ seg, by rw [h5]; simp, h6, h7⟩

theorem Spec.Traced.faithful {L : List Entry} {h : List Act} (ht : Traced L h)
    (hid : (L.filterMap Entry.regId).Nodup) : Faithful h := by
  intro before m timeout w between o after he
  obtain ⟨p1, s1, r1, e1, -, w', time', hw', hreg⟩ := ht.at (h1 := before)
    (h2 := between ++ ⟨.wait w, .ok o⟩ :: after) (a := ⟨.waitFor m timeout, .ok w⟩) (by rw [he]; simp)
  obtain ⟨p2, s2, r2, e2, -, x, time, f, hx, hans, hsub⟩ :=
    ht.at (h1 := before ++ ⟨.waitFor m timeout, .ok w⟩ :: between) he
  cases hw'
  have m1 : Entry.registered { id := w, matcher := m, timeout, sequence := none } time' ∈ L := by
    rw [e1]; exact List.mem_append_left _ (List.mem_append_right _ hreg)
  have m2 : Entry.registered x time ∈ L := by
    rw [e2]; exact List.mem_append_left _ (hsub.subset (.head _))
  by_cases heq : Entry.registered { id := w, matcher := m, timeout, sequence := none } time' =
      .registered x time
  · cases heq
    exact hans
  · rcases sub_total m1 m2 heq with hs | hs
    · exact absurd hx.symm (pairwise_of_sub (f := Entry.regId) (R := (· ≠ ·)) hid hs rfl rfl)
    · exact absurd hx (pairwise_of_sub (f := Entry.regId) (R := (· ≠ ·)) hid hs rfl rfl)

/-! ## Everything written was asked for -/

/-- The operation builds the object `o`. -/
def Builds (op : Op) (o : Obj) : Prop :=
  ∃ sub command payload, ((∃ e, op = .request sub command payload e) ∨ op = .spawn sub command payload) ∧
    Obj.fromCommand sub command payload = .ok o

/-- `op` is an operation that the coroutine may come to. -/
def Reaches {α : Type} (p : Prog α) (op : Op) : Prop := ∃ h r, Runs p (h ++ [⟨op, r⟩])

/-- Calls come from the coroutine or from others. -/
structure OwnInv {α : Type} (p : Prog α) (evs : List ClientEvent) (c : Client α) : Prop where
  fed : p.feed c.hist = some c.prog
  spawned : ∀ x ∈ c.spawned, Reaches p (.spawn x.1 x.2.1 x.2.2)
  own : ∀ t o w e, .submitted t o w e ∈ c.api.log →
    ClientEvent.api (.submit o w e) ∈ evs ∨ ∃ op, Reaches p op ∧ Builds op o

theorem reaches_of {α : Type} {p : Prog α} {h : List Act} {op : Op} {k : Except PyErr op.Ans → Prog α}
    (hf : p.feed h = some (.call op k)) : Reaches p op :=
  ⟨h, .error .exception, k (.error .exception), feed_answer hf _⟩

/-- The API moves on. -/
theorem OwnInv.moved {α : Type} {p : Prog α} {evs : List ClientEvent} {c c' : Client α}
    (i : OwnInv p evs c) {e : Event}
    (hl : ∀ o w x, e = .submit o w x → ClientEvent.api e ∈ evs ∨ ∃ op, Reaches p op ∧ Builds op o)
    (h1 : c'.api = c.api.step e) (h2 : c'.prog = c.prog) (h3 : c'.hist = c.hist)
    (h4 : ∀ x ∈ c'.spawned, x ∈ c.spawned) : OwnInv p evs c' := by
  refine ⟨by rw [h3, h2]; exact i.fed, fun x hx => i.spawned x (h4 x hx), fun t o w x h => ?_⟩
  rw [h1] at h
  rcases sub_new h with h | ⟨h, -⟩
  · exact i.own t o w x h
  · exact h ▸ hl o w x h

/-- The operation has ended. -/
theorem OwnInv.answered {α : Type} {p : Prog α} {evs : List ClientEvent} {c c' : Client α}
    (i : OwnInv p evs c) {op : Op} {k : Except PyErr op.Ans → Prog α} (hp : c.prog = .call op k)
    {r : Except PyErr op.Ans} (h1 : c'.api = c.api) (h2 : c'.prog = k r)
    (h3 : c'.hist = c.hist ++ [⟨op, r⟩])
    (h4 : ∀ x ∈ c'.spawned, x ∈ c.spawned ∨ op = .spawn x.1 x.2.1 x.2.2) : OwnInv p evs c' := by
  have hf := i.fed
  rw [hp] at hf
  refine ⟨by rw [h3, h2]; exact feed_answer hf r, fun x hx => ?_, by rw [h1]; exact i.own⟩
  rcases h4 x hx with h | h
  · exact i.spawned x h
  · exact h ▸ reaches_of hf

theorem own_advance {α : Type} {p : Prog α} {evs : List ClientEvent} {c : Client α}
    (i : OwnInv p evs c) {op : Op} {k : Except PyErr op.Ans → Prog α}
    (hp : c.prog = .call op k) : OwnInv p evs (c.advance op k) := by
  have hf := i.fed
  rw [hp] at hf
  cases op with
  | request sub command payload expected =>
    unfold Client.advance
    dsimp only
    split
    · split
      · exact i.answered hp rfl rfl rfl (fun _ h => .inl h)
      · exact i
    · split
      · exact i.answered hp rfl rfl rfl (fun _ h => .inl h)
      · rename_i o ho
        refine i.moved (e := .submit o none expected) (fun o' w x h => ?_) rfl rfl rfl (fun _ h => h)
        cases h
        exact .inr ⟨_, reaches_of hf, sub, command, payload, .inl ⟨_, rfl⟩, ho⟩
  | spawn sub command payload =>
    refine i.answered hp rfl rfl rfl (fun x h => ?_)
    rcases List.mem_append.mp h with h | h
    · exact .inl h
    · rw [List.mem_singleton] at h
      subst h
      exact .inr rfl
  | waitFor m timeout =>
    have i' := i.moved (e := .register m timeout none)
      (c' := { c with api := c.api.step (.register m timeout none) })
      (fun o w x h => by cases h) rfl rfl rfl (fun _ h => h)
    exact i'.answered (c' := Client.advance c (.waitFor m timeout) k) hp rfl rfl rfl (fun _ h => .inl h)
  | wait w =>
    unfold Client.advance
    dsimp only
    split
    · split
      · exact i.answered hp rfl rfl rfl (fun _ h => .inl h)
      · exact i.answered hp (r := .error .cancelledError) rfl rfl rfl (fun _ h => .inl h)
      · split
        · have i' := i.moved (e := .abandon w) (c' := { c with api := c.api.step (.abandon w) })
            (fun o w x h => by cases h) rfl rfl rfl (fun _ h => h)
          exact i'.answered hp (r := .error .timeoutError) rfl rfl rfl (fun _ h => .inl h)
        · exact i
    · exact ⟨i.fed, i.spawned, i.own⟩
  | connect => exact i
  | semaphore n => exact i.answered hp rfl rfl rfl (fun _ h => .inl h)
  | coordinator ieee nwk => exact i.answered hp rfl rfl rfl (fun _ h => .inl h)

theorem own_interrupt {α : Type} {p : Prog α} {evs : List ClientEvent} {c : Client α}
    (i : OwnInv p evs c) {op : Op} {k : Except PyErr op.Ans → Prog α}
    (hp : c.prog = .call op k) : OwnInv p evs (c.interrupt op k) := by
  cases op with
  | request sub command payload expected =>
    unfold Client.interrupt
    dsimp only
    split
    · rename_i t ht
      exact i.moved (e := .cancel t) (fun o w x h => by cases h) rfl rfl rfl (fun _ h => h)
    · exact i
  | wait w =>
    unfold Client.interrupt
    dsimp only
    split
    · have i' := i.moved (e := .abandon w) (c' := { c with api := c.api.step (.abandon w) })
        (fun o w x h => by cases h) rfl rfl rfl (fun _ h => h)
      exact i'.answered hp (r := .error .cancelledError) rfl rfl rfl (fun _ h => .inl h)
    · exact i
  | _ => exact i

theorem own_step {α : Type} {p : Prog α} {evs : List ClientEvent} {c : Client α}
    (i : OwnInv p evs c) (ev : ClientEvent) : OwnInv p (evs ++ [ev]) (c.step ev) := by
  have i : OwnInv p (evs ++ [ev]) c := ⟨i.fed, i.spawned, fun t o w e h => by
    rcases i.own t o w e h with h | h
    · exact .inl (List.mem_append_left _ h)
    · exact .inr h⟩
  cases ev with
  | api e =>
    exact i.moved (e := e) (fun _ _ _ _ => .inl (List.mem_append_right _ (.head _))) rfl rfl rfl
      (fun _ h => h)
  | go =>
    unfold Client.step
    dsimp only
    split
    · exact own_advance i ‹_›
    · exact i
  | connected r =>
    unfold Client.step
    dsimp only
    split
    · rename_i op k hp
      cases op with
      | connect => exact i.answered hp rfl rfl rfl (fun _ h => .inl h)
      | _ => exact i
    · exact i
  | spawned =>
    unfold Client.step Client.runSpawned
    dsimp only
    split
    · exact i
    · rename_i x rest hx
      split
      · exact ⟨i.fed, fun y hy => i.spawned y (by rw [hx]; exact .tail _ hy), i.own⟩
      · rename_i o ho
        refine i.moved (e := .submit o none none) (fun o' w y h => ?_) rfl rfl rfl
          (fun y hy => by rw [hx]; exact .tail _ hy)
        cases h
        exact .inr ⟨_, i.spawned x (by rw [hx]; exact .head _), _, _, _, .inr rfl, ho⟩
  | cancel =>
    unfold Client.step
    dsimp only
    split
    · exact own_interrupt i ‹_›
    · exact i

theorem own_inv_from {α : Type} {p : Prog α} (evs : List ClientEvent) :
    ∀ {evs0 : List ClientEvent} {c : Client α}, OwnInv p evs0 c →
      OwnInv p (evs0 ++ evs) (evs.foldl Client.step c) := by
  induction evs with
  | nil => intro evs0 c i; simpa using i
  | cons ev evs ih =>
    intro evs0 c i
    have := ih (own_step i ev)
    rw [List.append_assoc] at this
    exact this

theorem own_inv {α : Type} (p : Prog α) (evs : List ClientEvent) :
    OwnInv p evs (Client.run p evs) :=
  own_inv_from evs (evs0 := []) ⟨feed_nil p, (fun x h => by cases h), (fun t o w e h => by cases h)⟩

theorem op_frame {sub : Subsystem} {command : String} {payload : Payload}
    {expected : Option (List Int)} {o : Obj} (ho : Obj.fromCommand sub command payload = .ok o)
    {f : Frame} (hf : o.toUnpiFrame = .ok f) :
    (Op.request sub command payload expected).frame = some f := by
  show ((Obj.fromCommand sub command payload).bind Obj.toUnpiFrame).toOption = _
  rw [ho]
  show (o.toUnpiFrame).toOption = _
  rw [hf]
  rfl

/-- The frame of an operation that built `o`. -/
theorem builds_frame {op : Op} {o : Obj} (hb : Builds op o) {f : Frame} (hf : o.toUnpiFrame = .ok f) :
    op.frame = some f := by
  obtain ⟨sub, command, payload, h | h, ho⟩ := hb
  · obtain ⟨e, rfl⟩ := h
    exact op_frame ho hf
  · subst h
    exact op_frame (expected := none) ho hf

/-- What was written was submitted. -/
theorem sent_submitted {s : Api} (i : Inv s) {t : Nat} {b : List UInt8} (h : .sent t b ∈ s.log) :
    ∃ o w e, .submitted t o w e ∈ s.log ∧ WrittenAs o b := by
  obtain ⟨k, hk, -, he⟩ := i.log.sentStarted t b h
  exact ⟨k.obj, k.waiterId, k.expected, (i.log.subIff _ _ _ _).mpr ⟨k, hk, rfl, rfl, rfl⟩, encode_ok he⟩

theorem written_frame {sub : Subsystem} {command : String} {payload : Payload}
    {expected : Option (List Int)} {o : Obj} {b : List UInt8}
    (ho : Obj.fromCommand sub command payload = .ok o) (hw : WrittenAs o b) :
    ∃ f, (Op.request sub command payload expected).frame = some f ∧ Gateway.send f = .ok b := by
  obtain ⟨f, h1, h2⟩ := hw
  exact ⟨f, op_frame ho h1, h2⟩

/-- The requests that succeeded are in the log in their order. -/
theorem Spec.Traced.written {L : List Entry} {h : List Act} (ht : Traced L h) :
    ∃ bs : List (List UInt8), (answered h).map Gateway.send = bs.map .ok ∧
      bs.Sublist (writes L) := by
  induction ht with
  | nil => exact ⟨[], rfl, .slnil⟩
  | snoc ht hl ih =>
    rename_i past seg h a
    obtain ⟨bs, h1, h2⟩ := ih
    have key : ∃ bs : List (List UInt8), (answered [a]).map Gateway.send = bs.map .ok ∧ bs.Sublist (writes seg) := by
      obtain ⟨op, r⟩ := a
      cases op with
      | request sub command payload expected =>
        have single : ∀ {o t b r'}, Obj.fromCommand sub command payload = .ok o → WrittenAs o b →
            Entry.sent t b ∈ seg → r = .ok r' →
            ∃ bs : List (List UInt8), (answered [⟨.request sub command payload expected, r⟩]).map Gateway.send = bs.map .ok ∧
              bs.Sublist (writes seg) := by
          intro o t b r' ho hw hm hr
          obtain ⟨f, h3, h4⟩ := written_frame (expected := expected) ho hw
          refine ⟨[b], ?_, ?_⟩
          · subst hr
            show (([⟨.request sub command payload expected, .ok r'⟩] : List Act).filterMap
              (fun a => if a.answered then a.op.frame else none)).map Gateway.send = _
            rw [List.filterMap_cons_some (b := f) (by exact h3)]
            simp [h4]
          · rw [List.singleton_sublist]
            exact List.mem_filterMap.mpr ⟨_, hm, rfl⟩
        match r, hl with
        | .ok (some rsp), ⟨o, t, b, f, ho, hw, _, hs⟩ => exact single ho hw (hs.subset (.head _)) rfl
        | .ok none, ⟨o, t, b, ho, hw, _, _, hs⟩ => exact single ho hw hs rfl
        | .error e, _ => exact ⟨[], rfl, List.nil_sublist _⟩
      | _ => exact ⟨[], rfl, List.nil_sublist _⟩
    obtain ⟨bs', h3, h4⟩ := key
    refine ⟨bs ++ bs', ?_, ?_⟩
    · unfold answered at *
      rw [List.filterMap_append, List.map_append, h1, h3, List.map_append]
    · unfold writes at *
      rw [List.filterMap_append]
      exact h2.append h4

theorem regs_nodup {s : Api} (i : Inv s) : (s.log.filterMap Entry.regId).Nodup := by
  rw [i.wait.regs]
  exact List.nodup_range

/-- A message that answers a waiter comes after everything that happened before the waiter was
registered. -/
theorem Spec.Traced.wait_after {L : List Entry} {h : List Act} (ht : Traced L h)
    (hid : (L.filterMap Entry.regId).Nodup) {before between after : List Act} {m : Matcher}
    {timeout w : Nat} {o : Obj}
    (he : h = before ++ ⟨.waitFor m timeout, .ok w⟩ :: between ++ ⟨.wait w, .ok o⟩ :: after) :
    ∃ past later rest f, L = past ++ later ++ rest ∧ Traced past before ∧
      Traced (past ++ later) (before ++ ⟨.waitFor m timeout, .ok w⟩ :: between ++ [⟨.wait w, .ok o⟩]) ∧
      Answers m o ∧ .received f o ∈ later := by
  have hans := ht.faithful hid before m timeout w between o after he
  obtain ⟨p2, s2, r2, e2, t2, hl2⟩ :=
    ht.at (h1 := before ++ ⟨.waitFor m timeout, .ok w⟩ :: between) he
  obtain ⟨x, time, f, hx, -, hsub⟩ := id hl2
  obtain ⟨p1, s1, r1, e1, t1, w', time', hw', hreg⟩ := t2.at (h1 := before) (h2 := between) rfl
  cases hw'
  have t3 := t2.snoc hl2
  rw [e1] at hsub t3
  have e3 : p1 ++ s1 ++ r1 ++ s2 = p1 ++ (s1 ++ r1 ++ s2) := by simp
  rw [e3] at hsub t3
  refine ⟨p1, s1 ++ r1 ++ s2, r2, f, by rw [e2, e1]; simp, t1, t3, hans, ?_⟩
  have hnot : Entry.registered x time ∉ p1 := by
    intro hm
    have hs : [Entry.registered x time,
        .registered { id := w, matcher := m, timeout, sequence := none } time'].Sublist L := by
      rw [e2, e1, show p1 ++ s1 ++ r1 ++ s2 ++ r2 = p1 ++ (s1 ++ (r1 ++ s2 ++ r2)) by simp]
      exact List.Sublist.append (List.singleton_sublist.mpr hm)
        (List.singleton_sublist.mpr (List.mem_append_left _ hreg))
    exact pairwise_of_sub (f := Entry.regId) (R := (· ≠ ·)) hid hs rfl rfl hx
  exact (sub_tail hsub hnot).subset (by simp)

/-- A request that succeeded was written while it lasted. -/
theorem logged_sent {past seg : List Entry} {a : Act} (hl : Logged past seg a) (hs : Succeeded a)
    {f : Frame} (hf : a.op.frame = some f) {b : List UInt8} (hb : Gateway.send f = .ok b) :
    ∃ t, Entry.sent t b ∈ seg := by
  obtain ⟨⟨r, hr⟩, hsp⟩ := hs
  obtain ⟨op, ans⟩ := a
  cases op with
  | request sub command payload expected =>
    have hr : ans = .ok r := hr
    rw [hr] at hl
    have key : ∀ {o : Obj} {bs : List UInt8},
        Obj.fromCommand sub command payload = .ok o → WrittenAs o bs → bs = b := by
      intro o bs ho hw
      obtain ⟨fr, h3, h4⟩ := written_frame (expected := expected) ho hw
      cases h3.symm.trans hf
      exact Except.ok.inj (h4.symm.trans hb)
    match r, hl with
    | some rsp, ⟨o, t, bs, f', ho, hw, _, hs⟩ => exact ⟨t, key ho hw ▸ hs.subset (.head _)⟩
    | none, ⟨o, t, bs, ho, hw, _, _, hs⟩ => exact ⟨t, key ho hw ▸ hs⟩
  | spawn sub command payload => cases hsp
  | _ => cases hf

end Zcc
