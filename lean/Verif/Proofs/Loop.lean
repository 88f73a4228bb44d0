import Verif.Spec.Loop
import Verif.Proofs.Boot
import Verif.Proofs.ClientBounded

/-! # Lemmas about the reconnect loop over the serial port -/

namespace Zcc
open Spec

theorem loop_snoc (l : Loop) (es : List LoopEvent) (e : LoopEvent) : l.run (es ++ [e]) = (l.run es).step e := by
  unfold Loop.run; rw [List.foldl_append]; rfl

theorem loop_append (l : Loop) (es es' : List LoopEvent) : l.run (es ++ es') = (l.run es).run es' := by
  unfold Loop.run; rw [List.foldl_append]

theorem loopChunks_append (es es' : List LoopEvent) : loopChunks (es ++ es') = loopChunks es ++ loopChunks es' := by
  unfold loopChunks; rw [List.filterMap_append]

theorem boot_snoc (b : Boot) (es : List BootEvent) (e : BootEvent) : b.run (es ++ [e]) = (b.run es).step e := by
  rw [boot_append]; rfl

/-! ## What an execution is made of -/

/-- Before the port is connected. -/
def Unconnected (app : App) (o : Options) (d : Nat) (seen : List LoopEvent) (b : Boot) : Prop :=
  b = (Boot.init app o true).run (.client (.api (.tick d)) :: seen.filterMap whileOpening)

theorem Unconnected.snoc {app : App} {o : Options} {d : Nat} {seen : List LoopEvent} {b : Boot}
    (h : Unconnected app o d seen b) {x : LoopEvent} {y : BootEvent} (hy : whileOpening x = some y) :
    Unconnected app o d (seen ++ [x]) (b.step y) := by
  unfold Unconnected at *
  rw [List.filterMap_append, ← List.cons_append]
  simp only [List.filterMap_cons, List.filterMap_nil, hy]
  rw [boot_snoc, ← h]

theorem Unconnected.idle {app : App} {o : Options} {d : Nat} {seen : List LoopEvent} {b : Boot}
    (h : Unconnected app o d seen b) {x : LoopEvent} (hx : whileOpening x = none) :
    Unconnected app o d (seen ++ [x]) b := by
  unfold Unconnected at *
  rw [List.filterMap_append]
  simp only [List.filterMap_cons, List.filterMap_nil, hx, List.append_nil]
  exact h

/-- `connection_made` was called, and the loop waits until `t`. -/
def Settling (seen : List LoopEvent) (now t : Nat) : Prop :=
  ∃ opening settling, seen = opening ++ .made :: settling ∧ .made ∉ opening ∧ now + 1000 = t + ticksIn settling ∧
    ∀ a b, settling = a ++ .settled :: b → ticksIn a < 1000

theorem ticksIn_append (a b : List LoopEvent) : ticksIn (a ++ b) = ticksIn a + ticksIn b := by
  unfold ticksIn; rw [List.map_append, List.sum_append]

theorem Settling.snoc {seen : List LoopEvent} {now t : Nat} (h : Settling seen now t) (e : LoopEvent)
    (he : e = .settled → now < t) : Settling (seen ++ [e]) (now + ticksIn [e]) t := by
  obtain ⟨p, s, rfl, h1, h2, h3⟩ := h
  refine ⟨p, s ++ [e], by simp, h1, by rw [ticksIn_append]; omega, ?_⟩
  intro a b hab
  rcases List.eq_nil_or_concat b with rfl | ⟨b, y, rfl⟩
  · obtain ⟨rfl, h⟩ := List.append_inj' hab rfl
    have := he (List.cons.inj h).1
    omega
  · rw [List.concat_eq_append, ← List.cons_append, ← List.append_assoc] at hab
    exact h3 a b (List.append_inj' hab rfl).1

theorem Unconnected.connected {app : App} {o : Options} {d : Nat} {seen : List LoopEvent} {b : Boot} {now t : Nat}
    (h : Unconnected app o d seen b) (hs : Settling seen now t) (ht : t ≤ now) :
    Attempt app o d (seen ++ [.settled])
      ((b.step (.client (.api (.setUart true)))).step (.client (.connected (.ok ())))) := by
  obtain ⟨p, s, rfl, h1, h2, h3⟩ := hs
  refine ⟨p, s, [], ⟨rfl, h1, by omega, h3⟩, ?_⟩
  rw [h, List.filterMap_nil, boot_snoc, bootOpening, boot_snoc]

theorem Spec.Attempt.snoc {app : App} {o : Options} {d : Nat} {seen : List LoopEvent} {b : Boot}
    (h : Attempt app o d seen b) {x : LoopEvent} {y : BootEvent} (hy : whileStarted x = some y) :
    Attempt app o d (seen ++ [x]) (b.step y) := by
  obtain ⟨p, s, t, ⟨rfl, h1⟩, h2⟩ := h
  refine ⟨p, s, t ++ [x], ⟨by simp, h1⟩, ?_⟩
  rw [List.filterMap_append, ← List.cons_append, ← List.append_assoc]
  simp only [List.filterMap_cons, List.filterMap_nil, hy]
  rw [boot_snoc, ← h2]

theorem Spec.Attempt.idle {app : App} {o : Options} {d : Nat} {seen : List LoopEvent} {b : Boot}
    (h : Attempt app o d seen b) {x : LoopEvent} (hx : whileStarted x = none) : Attempt app o d (seen ++ [x]) b := by
  obtain ⟨p, s, t, ⟨rfl, h1⟩, h2⟩ := h
  refine ⟨p, s, t ++ [x], ⟨by simp, h1⟩, ?_⟩
  rw [List.filterMap_append]
  simp only [List.filterMap_cons, List.filterMap_nil, hx, List.append_nil]
  exact h2

theorem portChunks_opening (es : List LoopEvent) : portChunks (es.filterMap whileOpening) = loopChunks es := by
  induction es with
  | nil => rfl
  | cons e es ih =>
    cases e with
    | bytes c => exact congrArg (c :: ·) ih
    | _ => exact ih

theorem portChunks_started (es : List LoopEvent) : portChunks (es.filterMap whileStarted) = loopChunks es := by
  induction es with
  | nil => rfl
  | cons e es ih =>
    cases e with
    | bytes c => exact congrArg (c :: ·) ih
    | client x =>
      cases x with
      | api x => cases x <;> exact ih
      | _ => exact ih
    | _ => exact ih

/-- What an attempt sees. -/
theorem Spec.Phases.sees {seen opening settling talking : List LoopEvent} (d : Nat)
    (h : Phases seen opening settling talking) :
    let before := bootOpening d opening settling
    let after := talking.filterMap whileStarted
    (∀ r, .client (.connected r) ∉ before) ∧ .client (.api (.setUart true)) ∈ before ∧
    portChunks (before ++ after) = loopChunks seen ∧
    (∀ e, BootEvent.client e ∈ before → (∃ ms, e = .api (.tick ms)) ∨ e = .api (.setUart true)) ∧
    ∀ e, BootEvent.client e ∈ after → (∃ ms, e = .api (.tick ms) ∧ .tick ms ∈ seen) ∨ .client e ∈ seen := by
  obtain ⟨rfl, -⟩ := h
  have hbefore : ∀ e, BootEvent.client e ∈ bootOpening d opening settling →
      (∃ ms, e = .api (.tick ms)) ∨ e = .api (.setUart true) := by
    intro e he
    unfold bootOpening at he
    rcases List.mem_append.mp he with he | he
    · rcases List.mem_cons.mp he with he | he
      · cases he; exact .inl ⟨d, rfl⟩
      · obtain ⟨x, -, hx⟩ := List.mem_filterMap.mp he
        cases x with
        | tick ms => cases hx; exact .inl ⟨ms, rfl⟩
        | _ => cases hx
    · cases List.mem_singleton.mp he; exact .inr rfl
  refine ⟨?_, List.mem_append_right _ (.head _), ?_, hbefore, ?_⟩
  · intro r hr
    rcases hbefore _ hr with ⟨ms, h⟩ | h <;> cases h
  · rw [portChunks_append, bootOpening, portChunks_append, List.append_assoc, loopChunks_append]
    show portChunks ((opening ++ .made :: settling).filterMap whileOpening) ++ (portChunks _ ++ _) = _ ++ loopChunks talking
    rw [portChunks_opening, portChunks_started]
    rfl
  · intro e he
    obtain ⟨x, hx, hx'⟩ := List.mem_filterMap.mp he
    have hm : x ∈ opening ++ .made :: settling ++ .settled :: talking :=
      List.mem_append_right _ (.tail _ hx)
    cases x with
    | tick ms => cases hx'; exact .inl ⟨ms, rfl, hm⟩
    | client x =>
      cases x with
      | api x => cases x <;> first | (cases hx'; exact .inr hm) | cases hx'
      | _ => cases hx'; exact .inr hm
    | _ => cases hx'

/-- A start-up whose connection fails raises what that raised. -/
theorem connect_fails (app : App) (o : Options) (d : Nat) (e : PyErr) :
    (((Boot.init app o true).step (.client (.api (.tick d)))).step (.client (.connected (.error e)))).client.prog =
      .raise e := rfl

theorem loop_client (l : Loop) (x : ClientEvent) :
    l.step (.client x) = l ∨ l.pc = .started ∧ l.step (.client x) = l.after (l.boot.step (.client x)) := by
  have h : ∀ y : ClientEvent, (match l.pc with
      | .started => l.after (l.boot.step (.client y))
      | _ => l) = l ∨ l.pc = .started ∧ (match l.pc with
      | .started => l.after (l.boot.step (.client y))
      | _ => l) = l.after (l.boot.step (.client y)) := by
    intro y
    split
    · exact .inr ⟨by assumption, rfl⟩
    · exact .inl rfl
  cases x with
  | api e =>
    cases e with
    | tick ms => exact .inl rfl
    | _ => exact h _
  | _ => exact h _

/-- While start-up talks to the radio. -/
theorem loop_client' {l : Loop} (hp : l.pc = .started) (x : ClientEvent) :
    l.step (.client x) = l ∧ whileStarted (.client x) = none ∨
    l.step (.client x) = l.after (l.boot.step (.client x)) ∧ whileStarted (.client x) = some (.client x) := by
  have h : ∀ y : ClientEvent, (match l.pc with
      | .started => l.after (l.boot.step (.client y))
      | _ => l) = l.after (l.boot.step (.client y)) := by
    intro y
    rw [hp]
  cases x with
  | api e =>
    cases e with
    | tick ms => exact .inl ⟨rfl, rfl⟩
    | _ => exact .inr ⟨h _, rfl⟩
  | _ => exact .inr ⟨h _, rfl⟩

theorem loop_client_of {l : Loop} (h : l.pc ≠ .started) (x : ClientEvent) : l.step (.client x) = l :=
  (loop_client l x).resolve_right fun h' => h h'.1

theorem after_begun (l : Loop) (b : Boot) : (l.after b).begun = l.begun ∧ (l.after b).now = l.now := by
  unfold Loop.after
  repeat' split
  all_goals exact ⟨rfl, rfl⟩

/-- At most one attempt begins with an event. -/
theorem begun_step (l : Loop) (e : LoopEvent) : (l.step e).begun = l.begun ∨
    ∃ t, l.pc = .sleeping t ∧ t ≤ l.now ∧ (l.step e).begun = l.begun ++ [l.now] := by
  cases e with
  | client x =>
    rcases loop_client l x with h | ⟨-, h⟩
    · rw [h]; exact .inl rfl
    · rw [h]; exact .inl (after_begun _ _).1
  | wake opens d =>
    unfold Loop.step
    dsimp only
    split
    · rename_i t hp
      split
      · refine .inr ⟨t, hp, ‹_›, ?_⟩
        cases opens with
        | none => rfl
        | some x => exact (after_begun _ _).1
      · exact .inl rfl
    · exact .inl rfl
  | settled =>
    unfold Loop.step
    dsimp only
    split
    · split
      · exact .inl (after_begun _ _).1
      · exact .inl rfl
    · exact .inl rfl
  | _ => unfold Loop.step; dsimp only; split <;> exact .inl rfl

/-- The attempt `b` raised `e`. -/
def FailedIn (l0 : Loop) (o : Options) (es : List LoopEvent) (x : Boot × PyErr) : Prop :=
  (∃ pre d post, es = pre ++ .wake (some x.2) d :: post ∧
    (l0.run (pre ++ [.wake (some x.2) d])).failed = (l0.run pre).failed ++ [x]) ∨
  ∃ pre d mid post, es = pre ++ .wake none d :: (mid ++ post) ∧ During l0 pre d mid ∧
    Attempt (l0.run pre).boot.app o d mid x.1 ∧ x.1.client.prog = .raise x.2 ∧
    (l0.run (pre ++ .wake none d :: mid)).failed = (l0.run pre).failed ++ [x]

theorem FailedIn.snoc {l0 : Loop} {o : Options} {es : List LoopEvent} {x : Boot × PyErr}
    (h : FailedIn l0 o es x) (e : LoopEvent) : FailedIn l0 o (es ++ [e]) x := by
  rcases h with ⟨pre, d, post, h, h'⟩ | ⟨pre, d, mid, post, h, h'⟩
  · exact .inl ⟨pre, d, post ++ [e], by rw [h]; simp, h'⟩
  · exact .inr ⟨pre, d, mid, post ++ [e], by rw [h]; simp, h'⟩

/-- The attempt `b` returned. -/
def ReturnedIn (l0 : Loop) (o : Options) (es : List LoopEvent) (b : Boot) : Prop :=
  ∃ pre d mid post, es = pre ++ .wake none d :: (mid ++ post) ∧ During l0 pre d mid ∧
    Attempt (l0.run pre).boot.app o d mid b ∧ b.client.prog = .ret ()

theorem ReturnedIn.snoc {l0 : Loop} {o : Options} {es : List LoopEvent} {b : Boot}
    (h : ReturnedIn l0 o es b) (e : LoopEvent) : ReturnedIn l0 o (es ++ [e]) b := by
  obtain ⟨pre, d, mid, post, h, h'⟩ := h
  exact ⟨pre, d, mid, post ++ [e], by rw [h]; simp, h'⟩

/-- The attempt that began after `pre` is going on in the state `l`. -/
def Since (l0 : Loop) (es pre : List LoopEvent) (d : Nat) (mid : List LoopEvent) (l : Loop) : Prop :=
  es = pre ++ .wake none d :: mid ∧ During l0 pre d mid ∧ l.failed = (l0.run pre).failed

/-- What an execution of the loop is made of. -/
structure LoopInv (l0 : Loop) (o : Options) (es : List LoopEvent) (l : Loop) : Prop where
  options : l.options = o
  failed : ∀ x ∈ l.failed, FailedIn l0 o es x
  now : match l.pc with
    | .sleeping _ => True
    | .opening => ∃ pre d mid, Since l0 es pre d mid l ∧
        Unconnected (l0.run pre).boot.app o d mid l.boot ∧ .made ∉ mid
    | .settling t => ∃ pre d mid, Since l0 es pre d mid l ∧
        Unconnected (l0.run pre).boot.app o d mid l.boot ∧ Settling mid l.now t
    | .started => (∃ op k, l.boot.client.prog = .call op k) ∧ ∃ pre d mid, Since l0 es pre d mid l ∧
        Attempt (l0.run pre).boot.app o d mid l.boot
    | .ended r => r = .error .cancelledError ∨ r = .ok () ∧ ReturnedIn l0 o es l.boot

theorem loop_after {l0 : Loop} {o : Options} {es : List LoopEvent} {l : Loop} {b : Boot}
    (ho : l.options = o) (hf : ∀ x ∈ l.failed, FailedIn l0 o es x) (hp : l.pc = .started)
    {pre mid : List LoopEvent} {d : Nat} (he : Since l0 es pre d mid l) (hrun : l0.run es = l.after b)
    (ha : Attempt (l0.run pre).boot.app o d mid b) : LoopInv l0 o es (l.after b) := by
  obtain ⟨he, hd, hl⟩ := he
  rw [he] at hrun
  unfold Loop.after at hrun ⊢
  rcases hc : b.client.prog with a | e | ⟨op, k⟩ <;> rw [hc] at hrun
  · refine ⟨ho, hf, ?_⟩
    exact .inr ⟨rfl, pre, d, mid, [], by rw [List.append_nil]; exact he, hd, ha, hc⟩
  · dsimp only at hrun ⊢
    split
    · rename_i h
      exact ⟨ho, hf, .inl (by rw [h])⟩
    · rename_i h
      rw [if_neg h] at hrun
      refine ⟨ho, ?_, trivial⟩
      intro x hx
      rcases List.mem_append.mp hx with hx | hx
      · exact hf x hx
      · cases List.mem_singleton.mp hx
        refine .inr ⟨pre, d, mid, [], by rw [List.append_nil]; exact he, hd, ha, hc, ?_⟩
        rw [hrun, ← hl]
  · refine ⟨ho, hf, ?_⟩
    show match l.pc with
      | .sleeping _ => True
      | .opening => _
      | .settling _ => _
      | .started => _
      | .ended r => _
    rw [hp]
    exact ⟨⟨op, k, hc⟩, pre, d, mid, ⟨he, hd, hl⟩, ha⟩

theorem Since.snoc {l0 : Loop} {es pre mid : List LoopEvent} {d : Nat} {l : Loop} (h : Since l0 es pre d mid l)
    (hl : l = l0.run es) (hp : ∀ t, l.pc ≠ .sleeping t) (e : LoopEvent) {l' : Loop} (hl' : l'.failed = l.failed) :
    Since l0 (es ++ [e]) pre d (mid ++ [e]) l' := by
  obtain ⟨h1, ⟨h2, h3⟩, h4⟩ := h
  refine ⟨by rw [h1]; simp, ⟨h2, ?_⟩, hl'.trans h4⟩
  rw [show pre ++ .wake none d :: (mid ++ [e]) = es ++ [e] by rw [h1]; simp, loop_snoc, ← hl]
  rcases begun_step l e with h | ⟨t, ht, -⟩
  · rw [h, hl, h1]; exact h3
  · exact absurd ht (hp t)

theorem loopInv_step {l0 : Loop} {o : Options} {es : List LoopEvent} {l : Loop} (h : LoopInv l0 o es l)
    (hl : l = l0.run es) (e : LoopEvent) : LoopInv l0 o (es ++ [e]) (l.step e) := by
  obtain ⟨ho, hf, hn⟩ := h
  have hf' : ∀ x ∈ l.failed, FailedIn l0 o (es ++ [e]) x := fun x hx => (hf x hx).snoc e
  rcases hp : l.pc with t | _ | t | _ | r <;> rw [hp] at hn
  · -- asleep
    have keep : ∀ l' : Loop, l'.options = l.options → l'.failed = l.failed → (∃ t, l'.pc = .sleeping t) →
        LoopInv l0 o (es ++ [e]) l' := by
      intro l' h1 h2 ⟨t, h3⟩
      exact ⟨h1.trans ho, by rw [h2]; exact hf', by rw [h3]; trivial⟩
    cases e with
    | wake opens d =>
      unfold Loop.step; rw [hp]; dsimp only
      split
      · cases opens with
        | none =>
          have hb : (l0.run (es ++ [.wake none d])).begun = (l0.run es).begun ++ [(l0.run es).now] := by
            rw [loop_snoc, ← hl]
            unfold Loop.step; rw [hp]; dsimp only
            rw [if_pos (by assumption)]
          refine ⟨ho, hf', es, d, [], ⟨rfl, ⟨hb, hb⟩, by rw [hl]⟩, ?_, by simp⟩
          show _ = _
          rw [← hl, ho]; rfl
        | some x =>
          dsimp only
          unfold Loop.after
          rw [connect_fails]; dsimp only
          split
          · rename_i hx; exact ⟨ho, hf', .inl (by rw [hx])⟩
          · refine ⟨ho, ?_, trivial⟩
            intro y hy
            rcases List.mem_append.mp hy with hy | hy
            · exact hf' y hy
            · cases List.mem_singleton.mp hy
              refine .inl ⟨es, d, [], rfl, ?_⟩
              rw [loop_snoc, ← hl]
              unfold Loop.step; rw [hp]; dsimp only
              rw [if_pos (by assumption)]
              unfold Loop.after
              rw [connect_fails]; dsimp only
              rw [if_neg (by assumption)]
      · exact keep _ rfl rfl ⟨t, by first | rfl | exact hp⟩
    | tick ms => unfold Loop.step; rw [hp]; exact keep _ rfl rfl ⟨t, by first | rfl | exact hp⟩
    | made => unfold Loop.step; rw [hp]; exact keep _ rfl rfl ⟨t, by first | rfl | exact hp⟩
    | settled => unfold Loop.step; rw [hp]; exact keep _ rfl rfl ⟨t, by first | rfl | exact hp⟩
    | bytes c => unfold Loop.step; rw [hp]; exact keep _ rfl rfl ⟨t, by first | rfl | exact hp⟩
    | cancel => unfold Loop.step; rw [hp]; exact ⟨ho, hf', .inl rfl⟩
    | client x =>
      rw [loop_client_of (by rw [hp]; simp)]
      exact keep _ rfl rfl ⟨t, by first | rfl | exact hp⟩
  · -- the port is opened
    obtain ⟨pre, d, mid, he, ha, hm⟩ := hn
    have he' : ∀ l', l'.failed = l.failed → Since l0 (es ++ [e]) pre d (mid ++ [e]) l' := fun l' hl' =>
      he.snoc hl (by rw [hp]; simp) e hl'
    have keep : ∀ l' : Loop, l'.options = l.options → l'.failed = l.failed → l'.pc = .opening → e ≠ .made →
        Unconnected (l0.run pre).boot.app o d (mid ++ [e]) l'.boot → LoopInv l0 o (es ++ [e]) l' := by
      intro l' h1 h2 h3 h4 h5
      refine ⟨h1.trans ho, by rw [h2]; exact hf', ?_⟩
      rw [h3]
      exact ⟨pre, d, _, he' _ h2, h5, by simpa using ⟨hm, fun h => h4 h.symm⟩⟩
    cases e with
    | wake opens d' => unfold Loop.step; rw [hp]; exact keep l rfl rfl hp (by simp) (ha.idle rfl)
    | tick ms => unfold Loop.step; rw [hp]; exact keep _ rfl rfl (by first | rfl | exact hp) (by simp) (ha.snoc (x := .tick ms) (y := .client (.api (.tick ms))) rfl)
    | made =>
      unfold Loop.step; rw [hp]
      refine ⟨ho, hf', pre, d, _, he' _ rfl, ha.idle rfl, mid, [], rfl, hm, rfl, ?_⟩
      intro a b h
      simp at h
    | settled => unfold Loop.step; rw [hp]; exact keep _ rfl rfl (by first | rfl | exact hp) (by simp) (ha.idle rfl)
    | bytes c => unfold Loop.step; rw [hp]; exact keep _ rfl rfl (by first | rfl | exact hp) (by simp) (ha.snoc (x := .bytes c) (y := .bytes c) rfl)
    | cancel => unfold Loop.step; rw [hp]; exact ⟨ho, hf', .inl rfl⟩
    | client x =>
      rw [loop_client_of (by rw [hp]; simp)]
      exact keep _ rfl rfl (by first | rfl | exact hp) (by simp) (ha.idle rfl)
  · -- the loop waits for a second
    obtain ⟨pre, d, mid, he, ha, hm⟩ := hn
    have he' : ∀ l', l'.failed = l.failed → Since l0 (es ++ [e]) pre d (mid ++ [e]) l' := fun l' hl' =>
      he.snoc hl (by rw [hp]; simp) e hl'
    have keep : ∀ l' : Loop, l'.options = l.options → l'.failed = l.failed → l'.pc = .settling t →
        l'.now = l.now + ticksIn [e] → (e = .settled → l.now < t) →
        Unconnected (l0.run pre).boot.app o d (mid ++ [e]) l'.boot → LoopInv l0 o (es ++ [e]) l' := by
      intro l' h1 h2 h3 h4 h5 h6
      refine ⟨h1.trans ho, by rw [h2]; exact hf', ?_⟩
      rw [h3]
      exact ⟨pre, d, _, he' _ h2, h6, by rw [h4]; exact hm.snoc e h5⟩
    cases e with
    | wake opens d' => unfold Loop.step; rw [hp]; exact keep l rfl rfl (by first | rfl | exact hp) rfl (by simp) (ha.idle rfl)
    | tick ms => unfold Loop.step; rw [hp]; exact keep _ rfl rfl (by first | rfl | exact hp) rfl (by simp) (ha.snoc (x := .tick ms) (y := .client (.api (.tick ms))) rfl)
    | made => unfold Loop.step; rw [hp]; exact keep _ rfl rfl (by first | rfl | exact hp) rfl (by simp) (ha.idle rfl)
    | settled =>
      unfold Loop.step; rw [hp]; dsimp only
      split
      · refine loop_after (l := { l with pc := .started }) ho hf' rfl (he' _ rfl) ?_ (ha.connected hm (by assumption))
        rw [loop_snoc, ← hl]
        unfold Loop.step; rw [hp]; dsimp only
        rw [if_pos (by assumption)]
      · exact keep _ rfl rfl (by first | rfl | exact hp) rfl (fun _ => by omega) (ha.idle rfl)
    | bytes c => unfold Loop.step; rw [hp]; exact keep _ rfl rfl (by first | rfl | exact hp) rfl (by simp) (ha.snoc (x := .bytes c) (y := .bytes c) rfl)
    | cancel => unfold Loop.step; rw [hp]; exact ⟨ho, hf', .inl rfl⟩
    | client x =>
      rw [loop_client_of (by rw [hp]; simp)]
      exact keep _ rfl rfl (by first | rfl | exact hp) rfl (by simp) (ha.idle rfl)
  · -- start-up talks to the radio
    obtain ⟨⟨op, k, hcall⟩, pre, d, mid, he, ha⟩ := hn
    have he' : ∀ l', l'.failed = l.failed → Since l0 (es ++ [e]) pre d (mid ++ [e]) l' := fun l' hl' =>
      he.snoc hl (by rw [hp]; simp) e hl'
    have keep : ∀ l' : Loop, l'.options = l.options → l'.failed = l.failed → l'.pc = .started →
        (∃ op k, l'.boot.client.prog = .call op k) →
        Attempt (l0.run pre).boot.app o d (mid ++ [e]) l'.boot → LoopInv l0 o (es ++ [e]) l' := by
      intro l' h1 h2 h3 h4 h5
      refine ⟨h1.trans ho, by rw [h2]; exact hf', ?_⟩
      rw [h3]; exact ⟨h4, pre, d, _, he' _ h2, h5⟩
    cases e with
    | wake opens d' => unfold Loop.step; rw [hp]; exact keep l rfl rfl (by first | rfl | exact hp) ⟨op, k, hcall⟩ (ha.idle rfl)
    | tick ms =>
      unfold Loop.step; rw [hp]
      exact keep _ rfl rfl (by first | rfl | exact hp) ⟨op, k, hcall⟩ (ha.snoc (x := .tick ms) (y := .client (.api (.tick ms))) rfl)
    | made => unfold Loop.step; rw [hp]; exact keep _ rfl rfl (by first | rfl | exact hp) ⟨op, k, hcall⟩ (ha.idle rfl)
    | settled => unfold Loop.step; rw [hp]; exact keep _ rfl rfl (by first | rfl | exact hp) ⟨op, k, hcall⟩ (ha.idle rfl)
    | bytes c =>
      unfold Loop.step; rw [hp]
      refine keep _ rfl rfl (by first | rfl | exact hp) ⟨op, k, ?_⟩ (ha.snoc (x := .bytes c) (y := .bytes c) rfl)
      show (l.boot.step (.bytes c)).client.prog = _
      unfold Boot.step; dsimp only
      split <;> exact hcall
    | cancel => unfold Loop.step; rw [hp]; exact keep _ rfl rfl (by first | rfl | exact hp) ⟨op, k, hcall⟩ (ha.idle rfl)
    | client x =>
      rcases loop_client' hp x with ⟨hs, hx⟩ | ⟨hs, hx⟩
      · rw [hs]; exact keep _ rfl rfl hp ⟨op, k, hcall⟩ (ha.idle hx)
      · rw [hs]
        exact loop_after ho hf' hp (he' _ rfl) (by rw [loop_snoc, ← hl, hs]) (ha.snoc hx)
  · -- ended
    have keep : ∀ l' : Loop, l'.options = l.options → l'.failed = l.failed → l'.pc = .ended r → l'.boot = l.boot →
        LoopInv l0 o (es ++ [e]) l' := by
      intro l' h1 h2 h3 h4
      refine ⟨h1.trans ho, by rw [h2]; exact hf', ?_⟩
      rw [h3, h4]
      exact hn.imp id fun h => ⟨h.1, h.2.snoc e⟩
    cases e with
    | client x =>
      rw [loop_client_of (by rw [hp]; simp)]
      exact keep _ rfl rfl (by first | rfl | exact hp) rfl
    | _ => unfold Loop.step; rw [hp]; exact keep _ rfl rfl (by first | rfl | exact hp) rfl

theorem loopInv_run (app : App) (o : Options) (es : List LoopEvent) :
    LoopInv (Loop.init app o) o es ((Loop.init app o).run es) := by
  suffices ∀ (es' es : List LoopEvent), LoopInv (Loop.init app o) o es ((Loop.init app o).run es) →
      LoopInv (Loop.init app o) o (es ++ es') ((Loop.init app o).run (es ++ es')) from
    this es [] ⟨rfl, (fun x h => by cases h), trivial⟩
  intro es'
  induction es' with
  | nil => intro es h; rwa [List.append_nil]
  | cons e es' ih =>
    intro es h
    rw [List.append_cons]
    refine ih _ ?_
    rw [loop_snoc]
    exact loopInv_step h rfl e

/-! ## When the next attempt begins -/

/-- A start-up that is not connected: nothing has happened in its API. -/
def Idle (o : Options) (b : Boot) : Prop :=
  ∃ evs n, b.client = Client.run (startup o true) evs ∧
    b.client = { prog := startup o true, api := { Api.init with now := n } }

theorem Idle.closed {o : Options} {b : Boot} (h : Idle o b) : b.client.isOpen = false := by
  obtain ⟨evs, n, -, h⟩ := h
  rw [h]; rfl

theorem Idle.tick {o : Options} {b : Boot} (h : Idle o b) (ms : Nat) :
    Idle o (b.step (.client (.api (.tick ms)))) := by
  obtain ⟨evs, n, h1, h2⟩ := h
  have e : (b.step (.client (.api (.tick ms)))).client = b.client.step (.api (.tick ms)) := rfl
  refine ⟨evs ++ [.api (.tick ms)], n + ms, ?_, ?_⟩
  · rw [e, client_snoc, ← h1]
  · rw [e, h2]; rfl

theorem Idle.bytes {o : Options} {b : Boot} (h : Idle o b) (c : List UInt8) : Idle o (b.step (.bytes c)) := by
  have e : (b.step (.bytes c)).client = b.client := by
    unfold Boot.step
    dsimp only
    rw [if_neg (by rw [h.closed]; exact Bool.false_ne_true)]
  unfold Idle
  rw [e]; exact h

theorem idle_init (app : App) (o : Options) : Idle o (Boot.init app o true) := ⟨[], 0, rfl, rfl⟩

theorem Unconnected.quiet {app : App} {o : Options} {d : Nat} {seen : List LoopEvent} {b : Boot}
    (h : Unconnected app o d seen b) : Idle o b := by
  have h2 : ∀ e, BootEvent.client e ∈ .client (.api (.tick d)) :: seen.filterMap whileOpening →
      ∃ ms, e = .api (.tick ms) := by
    intro e he
    rcases List.mem_cons.mp he with he | he
    · cases he; exact ⟨d, rfl⟩
    · obtain ⟨x, -, hx⟩ := List.mem_filterMap.mp he
      cases x with
      | tick ms => cases hx; exact ⟨ms, rfl⟩
      | _ => cases hx
  rw [h]
  suffices ∀ (es : List BootEvent), (∀ e, BootEvent.client e ∈ es → ∃ ms, e = .api (.tick ms)) →
      ∀ b, Idle o b → Idle o (b.run es) from this _ h2 _ (idle_init app o)
  intro es
  induction es with
  | nil => intro _ b h; exact h
  | cons e es ih =>
    intro h b hb
    refine ih (fun x hx => h x (.tail _ hx)) (b.step e) ?_
    cases e with
    | bytes c => exact hb.bytes c
    | client e =>
      obtain ⟨ms, rfl⟩ := h e (.head _)
      exact hb.tick ms

/-- A start-up that talks to the radio ends at `T` at the latest (on the clock of its API). -/
def Talks (o : Options) (T : Nat) (b : Boot) : Prop :=
  ∃ evs, b.client = Client.run (startup o true) evs ∧ b.client.isOpen = true ∧ Budget T b.client

theorem Idle.connected {o : Options} {b : Boot} (h : Idle o b) :
    Talks o (b.client.api.now + 502000)
      ((b.step (.client (.api (.setUart true)))).step (.client (.connected (.ok ())))) ∧
    ((b.step (.client (.api (.setUart true)))).step (.client (.connected (.ok ())))).client.api.now =
      b.client.api.now := by
  obtain ⟨evs, n, h1, h2⟩ := h
  have e : ((b.step (.client (.api (.setUart true)))).step (.client (.connected (.ok ())))).client =
      (b.client.step (.api (.setUart true))).step (.connected (.ok ())) := rfl
  obtain ⟨k, hs, ht⟩ := takes_startup o true
  have hc : ∀ c : Client Unit, c.prog = startup o true →
      c.step (.connected (.ok ())) = c.answer .connect k (.ok ()) := by
    intro c hc
    unfold Client.step
    rw [hc, hs]; rfl
  have e' := hc (b.client.step (.api (.setUart true))) (by rw [h2]; rfl)
  refine ⟨⟨evs ++ [.api (.setUart true)] ++ [.connected (.ok ())], ?_, ?_, ?_⟩, ?_⟩
  · rw [client_snoc, client_snoc, ← h1]; rfl
  · rw [e, e', h2]; rfl
  · rw [e, e', h2]
    refine ⟨0, 502000, 0, ⟨n, ?_, Nat.le_refl _, ?_⟩, ht _ _, ?_, ?_⟩
    · intro h k w d hk; cases hk
    · exact Nat.le_refl _
    · intro w d h; cases h
    · show n + 0 + 502000 + 0 + 0 ≤ n + 502000
      omega
  · rw [e, e', h2]; rfl

/-- What an event of others adds. -/
def BootEvent.adds : BootEvent → Nat
  | .client e => e.adds
  | .bytes _ => 0

/-- One event of a coroutine that has not ended. -/
theorem budget_one {p : Prog Unit} {evs : List ClientEvent} {T : Nat} (hne : ¬ Ended (Client.run p evs))
    (h : Budget T (Client.run p evs)) (e : ClientEvent)
    (htick : ∀ ms, e = .api (.tick ms) → ClientResting (Client.run p evs) ms) :
    Budget (T + e.adds) (Client.run p (evs ++ [e])) := by
  obtain ⟨es, hes⟩ := client_events p evs
  rw [client_snoc]
  exact h.step (by rw [hes]; exact Zcc.inv_run es) (by rw [hes]; exact settled_run settled_init es)
    (client_task p evs) hne e htick

theorem Talks.step {o : Options} {T : Nat} {b : Boot} (h : Talks o T b) (hne : ¬ Ended b.client) (e : BootEvent)
    (htick : ∀ ms, e = .client (.api (.tick ms)) → ClientResting b.client ms) : Talks o (T + e.adds) (b.step e) := by
  obtain ⟨evs, h1, h2, h3⟩ := h
  cases e with
  | bytes c =>
    obtain ⟨fs, k1, -, -⟩ := boot_any c b.buffer b.client.api b.app b.effects
    have hst : (b.step (.bytes c)).client = Client.run (startup o true) (evs ++ fs.map fun f => .api (.frame f)) := by
      rw [client_frames, ← h1, ← k1]
      unfold Boot.step
      dsimp only
      rw [if_pos h2]
    rw [h1] at h3 hne
    refine ⟨_, hst, ?_, ?_⟩
    · have : (b.step (.bytes c)).client.hist = b.client.hist := by rw [hst, client_frames, ← h1]
      unfold Client.isOpen at *
      rw [this]; exact h2
    · rw [hst]
      clear hst k1
      suffices ∀ (fs : List Frame) evs, ¬ Ended (Client.run (startup o true) evs) →
          Budget T (Client.run (startup o true) evs) →
          Budget T (Client.run (startup o true) (evs ++ fs.map fun f => .api (.frame f))) from this fs evs hne h3
      intro fs
      induction fs with
      | nil => intro evs _ h; rwa [List.map_nil, List.append_nil]
      | cons f fs ih =>
        intro evs hne h
        rw [List.map_cons, List.append_cons]
        refine ih _ ?_ ?_
        · rw [client_snoc]; exact hne
        · exact budget_one hne h (.api (.frame f)) fun ms h => by cases h
  | client e =>
    rcases boot_client b e [] with ⟨hs, -, -⟩ | ⟨hs, -, -⟩
    · rw [hs]
      obtain ⟨x, y, z, q1, q2, q3, q4⟩ := h3
      exact ⟨evs, h1, h2, x, y, z, q1, q2, q3, Nat.le_trans q4 (Nat.le_add_right _ _)⟩
    · have hst : (b.step (.client e)).client = Client.run (startup o true) (evs ++ [e]) := by
        rw [hs, client_snoc, ← h1]
      refine ⟨_, hst, by rw [hs]; exact isOpen_step h2 e, ?_⟩
      rw [hst]
      rw [h1] at h3 hne htick
      exact budget_one hne h3 e fun ms h => htick ms (by rw [h])

theorem Talks.now {o : Options} {T : Nat} {b : Boot} (h : Talks o T b) : b.client.api.now ≤ T := by
  obtain ⟨evs, -, -, x, y, z, -, -, -, h⟩ := h
  omega

/-- What an event of others adds. -/
def LoopEvent.adds : LoopEvent → Nat
  | .client e => e.adds
  | _ => 0

/-- The next attempt begins at `T` at the latest, or the loop ends. -/
def Pace (o : Options) (T : Nat) (l : Loop) : Prop :=
  match l.pc with
  | .sleeping t => l.now ≤ t ∧ t ≤ T
  | .opening => l.now + 508000 ≤ T ∧ Idle o l.boot
  | .settling t => l.now ≤ t ∧ t + 507000 ≤ T ∧ Idle o l.boot
  | .started => ¬ Ended l.boot.client ∧
      ∃ T', Talks o T' l.boot ∧ l.now + T' + 5000 ≤ T + l.boot.client.api.now
  | .ended _ => True

theorem Pace.mono {o : Options} {T T' : Nat} {l : Loop} (h : Pace o T l) (ht : T ≤ T') : Pace o T' l := by
  unfold Pace at *
  split at h
  · exact ⟨h.1, by omega⟩
  · exact ⟨by omega, h.2⟩
  · exact ⟨h.1, by omega, h.2.2⟩
  · obtain ⟨h1, x, h2, h3⟩ := h; exact ⟨h1, x, h2, by omega⟩
  · trivial

theorem pace_after {o : Options} {T T' : Nat} {l : Loop} {b : Boot} (hp : l.pc = .started) (h : Talks o T' b)
    (ht : l.now + T' + 5000 ≤ T + b.client.api.now) : Pace o T (l.after b) := by
  have := h.now
  unfold Loop.after
  rcases hc : b.client.prog with a | e | ⟨op, k⟩
  · trivial
  · dsimp only
    split
    · trivial
    · refine ⟨Nat.le_add_right _ _, ?_⟩
      show l.now + 5000 ≤ T
      omega
  · show Pace o T { l with boot := b }
    unfold Pace
    dsimp only
    rw [hp]
    refine ⟨?_, T', h, ht⟩
    rintro (⟨a, ha⟩ | ⟨a, ha⟩) <;> rw [hc] at ha <;> cases ha

theorem boot_now (b : Boot) (e : BootEvent) (he : ∀ ms, e ≠ .client (.api (.tick ms))) :
    (b.step e).client.api.now = b.client.api.now := by
  cases e with
  | bytes c =>
    unfold Boot.step
    dsimp only
    split
    · obtain ⟨fs, k1, -, -⟩ := boot_any c b.buffer b.client.api b.app b.effects
      show (Gateway.dataReceived Stack.handler ⟨b.buffer, b.client.api, b.app, b.effects⟩ c).1.api.1.now = _
      rw [k1]
      generalize b.client.api = s
      clear k1
      induction fs generalizing s with
      | nil => rfl
      | cons f fs ih =>
        show ((s.step (.frame f)).run _).now = _
        rw [ih, now_step _ _ (by simp)]
    · rfl
  | client e =>
    rcases boot_client b e [] with ⟨hs, -, -⟩ | ⟨hs, -, -⟩
    · rw [hs]
    · rw [hs]
      show (b.client.step e).api.now = _
      generalize b.client = c at *
      cases e with
      | api e => exact now_step _ _ fun ms h => he ms (by rw [h])
      | go =>
        unfold Client.step
        dsimp only
        split
        · unfold Client.advance
          repeat' split
          all_goals first | rfl | exact now_step _ _ (by simp)
        · rfl
      | connected r =>
        unfold Client.step
        dsimp only
        split
        · rename_i op k hp
          cases op <;> rfl
        · rfl
      | spawned =>
        show (Client.runSpawned c).api.now = _
        unfold Client.runSpawned
        split
        · rfl
        · split
          · rfl
          · exact now_step _ _ (by simp)
      | cancel =>
        unfold Client.step
        dsimp only
        split
        · unfold Client.interrupt
          repeat' split
          all_goals first | rfl | exact now_step _ _ (by simp)
        · rfl

theorem pace_sum {a n t T x y z : Nat} (hz : z = x + y) (h : a ≤ t) (h' : t + z ≤ T) :
    a + (n + x) + y ≤ T + 0 + n := by
  omega

theorem pace_step {o : Options} {T : Nat} {l : Loop} (h : Pace o T l) (e : LoopEvent)
    (hr : ∀ ms, e = .tick ms → LoopResting l ms) (hb : (l.step e).begun = l.begun) :
    Pace o (T + e.adds) (l.step e) := by
  have h0 := h
  unfold Pace at h
  rcases hp : l.pc with t | _ | t | _ | r <;> rw [hp] at h
  · cases e with
    | wake opens d =>
      unfold Loop.step at hb ⊢
      rw [hp] at hb ⊢
      dsimp only at hb ⊢
      split at hb
      · exfalso
        cases opens with
        | none =>
          have := congrArg List.length hb
          simp at this
        | some x =>
          dsimp only at hb
          unfold Loop.after at hb
          rw [connect_fails] at hb
          dsimp only at hb
          split at hb <;>
            · have := congrArg List.length hb
              simp at this
      · rw [if_neg ‹_›]; exact h0
    | tick ms =>
      have := hr ms rfl
      unfold LoopResting at this
      rw [hp] at this
      have e : l.step (.tick ms) = { l with now := l.now + ms } := by unfold Loop.step; rw [hp]
      rw [e]
      unfold Pace
      dsimp only
      rw [hp]
      exact ⟨this, h.2⟩
    | client x =>
      rw [loop_client_of (by rw [hp]; simp)]
      exact h0.mono (Nat.le_add_right _ _)
    | cancel => unfold Loop.step; rw [hp]; trivial
    | _ => unfold Loop.step; rw [hp]; exact h0
  · cases e with
    | tick ms =>
      have := hr ms rfl
      unfold LoopResting at this
      rw [hp] at this
      exact this.elim
    | made =>
      unfold Loop.step; rw [hp]
      refine ⟨Nat.le_add_right _ _, ?_, h.2⟩
      show l.now + 1000 + 507000 ≤ T
      omega
    | bytes c =>
      have e : l.step (.bytes c) = { l with boot := l.boot.step (.bytes c) } := by unfold Loop.step; rw [hp]
      rw [e]
      unfold Pace
      dsimp only
      rw [hp]
      exact ⟨h.1, h.2.bytes c⟩
    | client x =>
      rw [loop_client_of (by rw [hp]; simp)]
      exact h0.mono (Nat.le_add_right _ _)
    | cancel => unfold Loop.step; rw [hp]; trivial
    | _ => unfold Loop.step; rw [hp]; exact h0
  · cases e with
    | tick ms =>
      have := hr ms rfl
      unfold LoopResting at this
      rw [hp] at this
      have e : l.step (.tick ms) =
          { l with now := l.now + ms, boot := l.boot.step (.client (.api (.tick ms))) } := by
        unfold Loop.step; rw [hp]
      rw [e]
      unfold Pace
      dsimp only
      rw [hp]
      exact ⟨this, h.2.1, h.2.2.tick ms⟩
    | settled =>
      unfold Loop.step
      rw [hp]
      dsimp only
      split
      · rename_i hle
        obtain ⟨h1, h2, h3⟩ := h
        obtain ⟨h4, h5⟩ := h3.connected
        refine pace_after (l := { l with pc := .started }) rfl h4 ?_
        rw [h5]
        exact pace_sum (by decide) h1 h2
      · exact h0
    | bytes c =>
      have e : l.step (.bytes c) = { l with boot := l.boot.step (.bytes c) } := by unfold Loop.step; rw [hp]
      rw [e]
      unfold Pace
      dsimp only
      rw [hp]
      exact ⟨h.1, h.2.1, h.2.2.bytes c⟩
    | client x =>
      rw [loop_client_of (by rw [hp]; simp)]
      exact h0.mono (Nat.le_add_right _ _)
    | cancel => unfold Loop.step; rw [hp]; trivial
    | _ => unfold Loop.step; rw [hp]; exact h0
  · obtain ⟨hne, T', h1, h2⟩ := h
    cases e with
    | tick ms =>
      have hr' := hr ms rfl
      unfold LoopResting at hr'
      rw [hp] at hr'
      have e : l.step (.tick ms) =
          { l with now := l.now + ms, boot := l.boot.step (.client (.api (.tick ms))) } := by
        unfold Loop.step; rw [hp]
      rw [e]
      have h3 := h1.step hne (.client (.api (.tick ms))) fun m hm => by cases hm; exact hr'
      unfold Pace
      dsimp only
      rw [hp]
      refine ⟨hne, T', h3, ?_⟩
      show l.now + ms + T' + 5000 ≤ T + 0 + (l.boot.client.api.now + ms)
      omega
    | bytes c =>
      have e : l.step (.bytes c) = { l with boot := l.boot.step (.bytes c) } := by unfold Loop.step; rw [hp]
      rw [e]
      have h3 := h1.step hne (.bytes c) fun m hm => by cases hm
      unfold Pace
      dsimp only
      rw [hp]
      refine ⟨?_, T', h3, ?_⟩
      · have : (l.boot.step (.bytes c)).client.prog = l.boot.client.prog := by
          unfold Boot.step; dsimp only; split <;> rfl
        unfold Ended at *
        rw [this]; exact hne
      · rw [boot_now _ _ (by simp)]
        exact h2
    | client x =>
      rcases loop_client l x with hs | ⟨-, hs⟩
      · rw [hs]; exact h0.mono (Nat.le_add_right _ _)
      · by_cases hx : ∃ ms, x = .api (.tick ms)
        · obtain ⟨ms, rfl⟩ := hx
          exact h0.mono (Nat.le_add_right _ _)
        · have hx : ∀ ms, x ≠ .api (.tick ms) := fun ms h => hx ⟨ms, h⟩
          rw [hs]
          have h3 := h1.step hne (.client x) fun m hm => by cases hm; exact absurd rfl (hx m)
          refine pace_after hp h3 ?_
          rw [boot_now _ _ (fun ms h => by cases h; exact hx ms rfl)]
          show l.now + (T' + x.adds) + 5000 ≤ T + x.adds + l.boot.client.api.now
          omega
    | _ => unfold Loop.step; rw [hp]; exact h0
  · cases e with
    | client x =>
      rw [loop_client_of (by rw [hp]; simp)]
      exact h0.mono (Nat.le_add_right _ _)
    | tick ms =>
      have e : l.step (.tick ms) = { l with now := l.now + ms } := by unfold Loop.step; rw [hp]
      rw [e]
      unfold Pace
      dsimp only
      rw [hp]; trivial
    | _ => unfold Loop.step; rw [hp]; exact h0

theorem begun_run (l : Loop) (es : List LoopEvent) : l.begun <+: (l.run es).begun := by
  induction es generalizing l with
  | nil => exact List.prefix_refl _
  | cons e es ih =>
    refine List.IsPrefix.trans ?_ (ih (l.step e))
    rcases begun_step l e with h | ⟨t, -, -, h⟩
    · rw [h]; exact List.prefix_refl _
    · rw [h]; exact List.prefix_append _ _

theorem keepsUp_tail {l : Loop} {e : LoopEvent} {es : List LoopEvent} (h : LoopKeepsUp l (e :: es)) :
    LoopKeepsUp (l.step e) es := by
  intro a ms b he
  exact h (e :: a) ms b (by rw [he]; rfl)

theorem loopOthers_cons (e : LoopEvent) (es : List LoopEvent) : loopOthers (e :: es) = e.adds + loopOthers es := by
  cases e with
  | client x =>
    cases x with
    | api x => cases x <;> rfl
    | _ => rfl
  | _ => rfl

/-- Until the next attempt begins. -/
theorem pace_run {o : Options} (es : List LoopEvent) : ∀ {l : Loop} {T : Nat}, Pace o T l → LoopKeepsUp l es →
    (l.run es).begun.length = l.begun.length → Pace o (T + loopOthers es) (l.run es) := by
  induction es with
  | nil => intro l T h _ _; exact h
  | cons e es ih =>
    intro l T h hk hl
    have hb : (l.step e).begun = l.begun := by
      rcases begun_step l e with h | ⟨t, -, -, h⟩
      · exact h
      · have := (begun_run (l.step e) es).length_le
        have hl : ((l.step e).run es).begun.length = l.begun.length := hl
        rw [h, List.length_append, List.length_singleton] at this
        omega
    have h1 := pace_step h e (fun ms he => hk [] ms es (by rw [he]; rfl)) hb
    have h2 := ih h1 (keepsUp_tail hk) (by rw [hb]; exact hl)
    rw [loopOthers_cons, ← Nat.add_assoc]
    exact h2

/-! ## The time between two attempts -/

/-- Two attempts are five seconds apart. -/
structure Spaced (l : Loop) : Prop where
  pairs : l.begun.Pairwise (· + 5000 ≤ ·)
  first : ∀ x ∈ l.begun, 5000 ≤ x
  past : ∀ x ∈ l.begun, x ≤ l.now
  rest : ∀ t, l.pc = .sleeping t → 5000 ≤ t ∧ ∀ x ∈ l.begun, x + 5000 ≤ t

theorem spaced_after {l : Loop} (h : Spaced { l with pc := .started }) (hp : ∀ t, l.pc ≠ .sleeping t) (b : Boot) :
    Spaced (l.after b) := by
  obtain ⟨h1, h2, h3, -⟩ := h
  unfold Loop.after
  rcases b.client.prog with a | e | ⟨op, k⟩
  · exact ⟨h1, h2, h3, fun t ht => by cases ht⟩
  · dsimp only
    split
    · exact ⟨h1, h2, h3, fun t ht => by cases ht⟩
    · refine ⟨h1, h2, h3, ?_⟩
      intro t ht
      cases ht
      exact ⟨Nat.le_add_left _ _, fun x hx => Nat.add_le_add_right (h3 x hx) _⟩
  · exact ⟨h1, h2, h3, fun t ht => absurd ht (hp t)⟩

theorem spaced_step {l : Loop} (h : Spaced l) (e : LoopEvent) : Spaced (l.step e) := by
  have hkeep : ∀ l' : Loop, l'.begun = l.begun → l.now ≤ l'.now →
      (∀ t, l'.pc = .sleeping t → l.pc = .sleeping t) → Spaced l' := by
    intro l' k1 k2 k3
    refine ⟨by rw [k1]; exact h.pairs, by rw [k1]; exact h.first, ?_, ?_⟩
    · rw [k1]; intro x hx; exact Nat.le_trans (h.past x hx) k2
    · rw [k1]; intro t ht; exact h.rest t (k3 t ht)
  cases e with
  | client x =>
    rcases loop_client l x with hs | ⟨hp, hs⟩
    · rw [hs]; exact h
    · rw [hs]
      exact spaced_after (hkeep _ rfl (Nat.le_refl _) fun t ht => by cases ht) (by rw [hp]; simp) _
  | tick ms =>
    unfold Loop.step
    dsimp only
    split <;> exact hkeep _ rfl (Nat.le_add_right _ _) fun t ht => ht
  | wake opens d =>
    unfold Loop.step
    dsimp only
    split
    · rename_i t hp
      split
      · rename_i hle
        obtain ⟨hl1, hl2⟩ := h.rest t hp
        have k1 : (l.begun ++ [l.now]).Pairwise (· + 5000 ≤ ·) := by
          rw [List.pairwise_append]
          refine ⟨h.pairs, List.pairwise_singleton _ _, ?_⟩
          intro a ha b hb
          cases List.mem_singleton.mp hb
          exact Nat.le_trans (hl2 a ha) hle
        have k2 : ∀ x ∈ l.begun ++ [l.now], 5000 ≤ x := by
          intro x hx
          rcases List.mem_append.mp hx with hx | hx
          · exact h.first x hx
          · cases List.mem_singleton.mp hx; exact Nat.le_trans hl1 hle
        have k3 : ∀ x ∈ l.begun ++ [l.now], x ≤ l.now + d := by
          intro x hx
          rcases List.mem_append.mp hx with hx | hx
          · exact Nat.le_trans (h.past x hx) (Nat.le_add_right _ _)
          · cases List.mem_singleton.mp hx; exact Nat.le_add_right _ _
        cases opens with
        | none => exact ⟨k1, k2, k3, fun t ht => by cases ht⟩
        | some e =>
          dsimp only
          unfold Loop.after
          rw [connect_fails]
          dsimp only
          split
          · exact ⟨k1, k2, k3, fun t ht => by cases ht⟩
          · refine ⟨k1, k2, k3, ?_⟩
            intro t ht
            cases ht
            exact ⟨Nat.le_add_left _ _, fun x hx => Nat.add_le_add_right (k3 x hx) _⟩
      · exact h
    · exact h
  | made =>
    unfold Loop.step
    dsimp only
    split
    · exact hkeep _ rfl (Nat.le_refl _) fun t ht => by cases ht
    · exact h
  | settled =>
    unfold Loop.step
    dsimp only
    split
    · split
      · exact spaced_after (l := { l with pc := .started })
          (hkeep _ rfl (Nat.le_refl _) fun t ht => by cases ht) (fun t ht => by cases ht) _
      · exact h
    · exact h
  | bytes c =>
    unfold Loop.step
    dsimp only
    split <;> exact hkeep _ rfl (Nat.le_refl _) fun t ht => ht
  | cancel =>
    unfold Loop.step
    dsimp only
    split
    · exact hkeep _ rfl (Nat.le_refl _) fun t ht => by cases ht
    · exact hkeep _ rfl (Nat.le_refl _) fun t ht => by cases ht
    · exact hkeep _ rfl (Nat.le_refl _) fun t ht => by cases ht
    · exact h

theorem spaced_run (app : App) (o : Options) (es : List LoopEvent) : Spaced ((Loop.init app o).run es) := by
  suffices ∀ (es : List LoopEvent) (l : Loop), Spaced l → Spaced (l.run es) from
    this es _ ⟨List.Pairwise.nil, (fun x h => by cases h), (fun x h => by cases h), fun t h => by
      cases h; exact ⟨Nat.le_refl _, fun x h => by cases h⟩⟩
  intro es
  induction es with
  | nil => intro l h; exact h
  | cons e es ih => intro l h; exact ih _ (spaced_step h e)

/-- While the loop sleeps it has no port, and it does not oversleep. -/
def Dormant (l : Loop) : Prop :=
  ∀ t, l.pc = .sleeping t → l.boot.client.api.uart = false ∧ t ≤ l.now + 5000

theorem dormant_after {l : Loop} (hp : ∀ t, l.pc ≠ .sleeping t) (b : Boot) : Dormant (l.after b) := by
  unfold Loop.after
  rcases b.client.prog with a | e | ⟨op, k⟩
  · exact fun t ht => by cases ht
  · dsimp only
    split
    · exact fun t ht => by cases ht
    · intro t ht
      cases ht
      exact ⟨rfl, Nat.le_refl _⟩
  · exact fun t ht => absurd ht (hp t)

theorem dormant_step {l : Loop} (h : Dormant l) (e : LoopEvent) : Dormant (l.step e) := by
  cases e with
  | client x =>
    rcases loop_client l x with hs | ⟨hp, hs⟩
    · rw [hs]; exact h
    · rw [hs]; exact dormant_after (by rw [hp]; simp) _
  | tick ms =>
    unfold Loop.step
    dsimp only
    split
    · rename_i hp; intro t ht; rw [show l.pc = _ from ht] at hp; cases hp
    · rename_i hp; intro t ht; rw [show l.pc = _ from ht] at hp; cases hp
    · rename_i hp; intro t ht; rw [show l.pc = _ from ht] at hp; cases hp
    · intro t ht
      obtain ⟨h1, h2⟩ := h t ht
      refine ⟨h1, ?_⟩
      show t ≤ l.now + ms + 5000
      omega
  | wake opens d =>
    unfold Loop.step
    dsimp only
    split
    · split
      · cases opens with
        | none => exact fun t ht => by cases ht
        | some e =>
          dsimp only
          unfold Loop.after
          rw [connect_fails]
          dsimp only
          split
          · exact fun t ht => by cases ht
          · intro t ht
            cases ht
            exact ⟨rfl, Nat.le_refl _⟩
      · exact h
    · exact h
  | made =>
    unfold Loop.step
    dsimp only
    split
    · exact fun t ht => by cases ht
    · exact h
  | settled =>
    unfold Loop.step
    dsimp only
    split
    · split
      · exact dormant_after (l := { l with pc := .started }) (fun t ht => by cases ht) _
      · exact h
    · exact h
  | bytes c =>
    unfold Loop.step
    dsimp only
    split
    · rename_i hp; intro t ht; rw [show l.pc = _ from ht] at hp; cases hp
    · rename_i hp; intro t ht; rw [show l.pc = _ from ht] at hp; cases hp
    · rename_i hp; intro t ht; rw [show l.pc = _ from ht] at hp; cases hp
    · exact h
  | cancel =>
    unfold Loop.step
    dsimp only
    split
    · exact fun t ht => by cases ht
    · exact fun t ht => by cases ht
    · exact fun t ht => by cases ht
    · exact h

theorem dormant_run (app : App) (o : Options) (es : List LoopEvent) : Dormant ((Loop.init app o).run es) := by
  suffices ∀ (es : List LoopEvent) (l : Loop), Dormant l → Dormant (l.run es) from
    this es _ fun t h => by cases h; exact ⟨rfl, Nat.le_refl _⟩
  intro es
  induction es with
  | nil => intro l h; exact h
  | cons e es ih => intro l h; exact ih _ (dormant_step h e)

/-- A loop that keeps up is not late. -/
def Timely (l : Loop) : Prop := ∀ t, l.pc = .sleeping t → l.now ≤ t

theorem timely_after {l : Loop} (hp : ∀ t, l.pc ≠ .sleeping t) (b : Boot) : Timely (l.after b) := by
  unfold Loop.after
  rcases b.client.prog with a | e | ⟨op, k⟩
  · exact fun t ht => by cases ht
  · dsimp only
    split
    · exact fun t ht => by cases ht
    · intro t ht
      cases ht
      exact Nat.le_add_right _ _
  · exact fun t ht => absurd ht (hp t)

theorem timely_step {l : Loop} (h : Timely l) (e : LoopEvent) (hr : ∀ ms, e = .tick ms → LoopResting l ms) :
    Timely (l.step e) := by
  cases e with
  | client x =>
    rcases loop_client l x with hs | ⟨hp, hs⟩
    · rw [hs]; exact h
    · rw [hs]; exact timely_after (by rw [hp]; simp) _
  | tick ms =>
    have hr := hr ms rfl
    unfold Loop.step
    unfold LoopResting at hr
    dsimp only
    split
    · rename_i hp; intro t ht; rw [show l.pc = _ from ht] at hp; cases hp
    · rename_i hp; intro t ht; rw [show l.pc = _ from ht] at hp; cases hp
    · rename_i hp; intro t ht; rw [show l.pc = _ from ht] at hp; cases hp
    · intro t ht
      rw [show l.pc = _ from ht] at hr
      exact hr
  | wake opens d =>
    unfold Loop.step
    dsimp only
    split
    · split
      · cases opens with
        | none => exact fun t ht => by cases ht
        | some e =>
          dsimp only
          unfold Loop.after
          rw [connect_fails]
          dsimp only
          split
          · exact fun t ht => by cases ht
          · intro t ht
            cases ht
            exact Nat.le_add_right _ _
      · exact h
    · exact h
  | made =>
    unfold Loop.step
    dsimp only
    split
    · exact fun t ht => by cases ht
    · exact h
  | settled =>
    unfold Loop.step
    dsimp only
    split
    · split
      · exact timely_after (l := { l with pc := .started }) (fun t ht => by cases ht) _
      · exact h
    · exact h
  | bytes c =>
    unfold Loop.step
    dsimp only
    split
    · rename_i hp; intro t ht; rw [show l.pc = _ from ht] at hp; cases hp
    · rename_i hp; intro t ht; rw [show l.pc = _ from ht] at hp; cases hp
    · rename_i hp; intro t ht; rw [show l.pc = _ from ht] at hp; cases hp
    · exact h
  | cancel =>
    unfold Loop.step
    dsimp only
    split
    · exact fun t ht => by cases ht
    · exact fun t ht => by cases ht
    · exact fun t ht => by cases ht
    · exact h

theorem timely_run (app : App) (o : Options) (es : List LoopEvent) (hk : LoopKeepsUp (Loop.init app o) es) :
    Timely ((Loop.init app o).run es) := by
  suffices ∀ (es : List LoopEvent) (l : Loop), LoopKeepsUp l es → Timely l → Timely (l.run es) from
    this es _ hk fun t h => by cases h; exact Nat.zero_le _
  intro es
  induction es with
  | nil => intro l _ h; exact h
  | cons e es ih =>
    intro l hk h
    exact ih _ (keepsUp_tail hk) (timely_step h e fun ms he => hk [] ms es (by rw [he]; rfl))

theorem Pace.now {o : Options} {T : Nat} {l : Loop} (h : Pace o T l) (hp : ∀ r, l.pc ≠ .ended r) : l.now ≤ T := by
  unfold Pace at h
  split at h
  · omega
  · omega
  · omega
  · obtain ⟨-, T', h1, h2⟩ := h
    have := h1.now
    omega
  · exact absurd ‹_› (hp _)

/-! ## How the loop goes on -/

/-- The application as the last attempt left it. -/
def lastApp (app : App) (failed : List (Boot × PyErr)) : App :=
  match failed.getLast? with
  | none => app
  | some x => x.1.app

/-- What is behind the states in which no attempt is going on. -/
structure Fate (app : App) (l : Loop) : Prop where
  failed : ∀ x ∈ l.failed, x.2 ≠ .cancelledError
  asleep : ∀ t, l.pc = .sleeping t → l.boot.app = lastApp app l.failed ∧
    ((∃ op k, l.boot.client.prog = .call op k) ∨ ∃ e, l.boot.client.prog = .raise e ∧ e ≠ .cancelledError)
  ended : ∀ r, l.pc = .ended r → r = .ok () ∧ l.boot.client.prog = .ret () ∨
    r = .error .cancelledError ∧ ∀ u, l.boot.client.prog ≠ .ret u

theorem close_app (b : Boot) : (b.step (.client (.api (.setUart false)))).app = b.app := by
  show (((b.client.step (.api (.setUart false))).hist.drop b.client.hist.length).foldl App.learn b.app) = b.app
  rw [show (b.client.step (.api (.setUart false))).hist = b.client.hist from rfl, List.drop_length]
  rfl

theorem fate_after {app : App} {l : Loop} (hf : ∀ x ∈ l.failed, x.2 ≠ .cancelledError)
    (hp : (∀ t, l.pc ≠ .sleeping t) ∧ ∀ r, l.pc ≠ .ended r) (b : Boot) : Fate app (l.after b) := by
  unfold Loop.after
  rcases hc : b.client.prog with a | e | ⟨op, k⟩
  · exact ⟨hf, fun t ht => (by cases ht), fun r hr => by cases hr; exact .inl ⟨rfl, hc⟩⟩
  · dsimp only
    split
    · rename_i h
      refine ⟨hf, fun t ht => (by cases ht), fun r hr => ?_⟩
      cases hr
      refine .inr ⟨by rw [h], fun u hu => ?_⟩
      rw [show b.client.prog = _ from hu] at hc
      cases hc
    · rename_i h
      refine ⟨?_, ?_, fun r hr => by cases hr⟩
      · intro x hx
        rcases List.mem_append.mp hx with hx | hx
        · exact hf x hx
        · cases List.mem_singleton.mp hx; exact h
      · intro t ht
        refine ⟨?_, .inr ⟨e, hc, h⟩⟩
        unfold lastApp
        rw [List.getLast?_append, List.getLast?_singleton]
        exact close_app b
  · exact ⟨hf, fun t ht => absurd ht (hp.1 t), fun r hr => absurd hr (hp.2 r)⟩

theorem Idle.waiting {o : Options} {b : Boot} (h : Idle o b) : ∃ op k, b.client.prog = .call op k := by
  obtain ⟨evs, n, -, h⟩ := h
  obtain ⟨k, hk, -⟩ := takes_startup o true
  exact ⟨_, k, by rw [h]; exact hk⟩

theorem fate_step {app : App} {l : Loop} (h : Fate app l)
    (hn : l.pc = .opening ∨ (∃ t, l.pc = .settling t) → ∃ op k, l.boot.client.prog = .call op k) (e : LoopEvent) :
    Fate app (l.step e) := by
  have hkeep : ∀ l' : Loop, l'.failed = l.failed → (∀ t, l'.pc = .sleeping t → ∃ t, l.pc = .sleeping t) →
      (∀ r, l'.pc = .ended r → l.pc = .ended r) →
      ((∃ t, l.pc = .sleeping t) ∨ (∃ r, l.pc = .ended r) → l'.boot = l.boot) → Fate app l' := by
    intro l' k1 k2 k3 k4
    refine ⟨by rw [k1]; exact h.failed, ?_, ?_⟩
    · intro t ht
      obtain ⟨t', ht'⟩ := k2 t ht
      rw [k1, k4 (.inl ⟨t', ht'⟩)]
      exact h.asleep t' ht'
    · intro r hr
      rw [k4 (.inr ⟨r, k3 r hr⟩)]
      exact h.ended r (k3 r hr)
  cases e with
  | client x =>
    rcases loop_client l x with hs | ⟨hp, hs⟩
    · rw [hs]; exact h
    · rw [hs]; exact fate_after h.failed (by rw [hp]; exact ⟨fun t ht => (by cases ht), fun r hr => by cases hr⟩) _
  | tick ms =>
    unfold Loop.step
    dsimp only
    split
    · rename_i hp
      exact hkeep _ rfl (fun t ht => ⟨t, ht⟩) (fun r hr => hr)
        (by rw [hp]; rintro (⟨t, ht⟩ | ⟨t, ht⟩) <;> cases ht)
    · rename_i hp
      exact hkeep _ rfl (fun t ht => ⟨t, ht⟩) (fun r hr => hr)
        (by rw [hp]; rintro (⟨t, ht⟩ | ⟨t, ht⟩) <;> cases ht)
    · rename_i hp
      exact hkeep _ rfl (fun t ht => ⟨t, ht⟩) (fun r hr => hr)
        (by rw [hp]; rintro (⟨t, ht⟩ | ⟨t, ht⟩) <;> cases ht)
    · exact hkeep _ rfl (fun t ht => ⟨t, ht⟩) (fun r hr => hr) fun _ => rfl
  | wake opens d =>
    unfold Loop.step
    dsimp only
    split
    · split
      · cases opens with
        | none => exact ⟨h.failed, fun t ht => (by cases ht), fun r hr => by cases hr⟩
        | some e =>
          dsimp only
          unfold Loop.after
          rw [connect_fails]
          dsimp only
          split
          · rename_i he
            refine ⟨h.failed, fun t ht => (by cases ht), fun r hr => ?_⟩
            cases hr
            refine .inr ⟨by rw [he], fun u hu => ?_⟩
            have hu : Prog.raise e = .ret u := hu
            cases hu
          · rename_i he
            refine ⟨?_, ?_, fun r hr => by cases hr⟩
            · intro x hx
              rcases List.mem_append.mp hx with hx | hx
              · exact h.failed x hx
              · cases List.mem_singleton.mp hx; exact he
            · intro t ht
              refine ⟨?_, .inr ⟨e, rfl, he⟩⟩
              unfold lastApp
              rw [List.getLast?_append, List.getLast?_singleton]
              exact close_app _
      · exact h
    · exact h
  | made =>
    unfold Loop.step
    dsimp only
    split
    · exact ⟨h.failed, fun t ht => (by cases ht), fun r hr => by cases hr⟩
    · exact h
  | settled =>
    unfold Loop.step
    dsimp only
    split
    · split
      · exact fate_after (l := { l with pc := .started }) h.failed
          ⟨fun t ht => (by cases ht), fun r hr => by cases hr⟩ _
      · exact h
    · exact h
  | bytes c =>
    unfold Loop.step
    dsimp only
    split
    · rename_i hp
      exact hkeep _ rfl (fun t ht => ⟨t, ht⟩) (fun r hr => hr)
        (by rw [hp]; rintro (⟨t, ht⟩ | ⟨t, ht⟩) <;> cases ht)
    · rename_i hp
      exact hkeep _ rfl (fun t ht => ⟨t, ht⟩) (fun r hr => hr)
        (by rw [hp]; rintro (⟨t, ht⟩ | ⟨t, ht⟩) <;> cases ht)
    · rename_i hp
      exact hkeep _ rfl (fun t ht => ⟨t, ht⟩) (fun r hr => hr)
        (by rw [hp]; rintro (⟨t, ht⟩ | ⟨t, ht⟩) <;> cases ht)
    · exact h
  | cancel =>
    have hend : (∀ u, l.boot.client.prog ≠ .ret u) → Fate app { l with pc := .ended (.error .cancelledError) } :=
      fun hu => ⟨h.failed, fun t ht => (by cases ht), fun r hr => by cases hr; exact .inr ⟨rfl, hu⟩⟩
    unfold Loop.step
    dsimp only
    split
    · rename_i t hp
      refine hend fun u hu => ?_
      rcases (h.asleep t hp).2 with ⟨op, k, hk⟩ | ⟨e, hk, -⟩ <;> rw [hu] at hk <;> cases hk
    · rename_i hp
      obtain ⟨op, k, hk⟩ := hn (.inl hp)
      exact hend fun u hu => by rw [hu] at hk; cases hk
    · rename_i t hp
      obtain ⟨op, k, hk⟩ := hn (.inr ⟨t, hp⟩)
      exact hend fun u hu => by rw [hu] at hk; cases hk
    · exact h

theorem loopBusy_run (app : App) (o : Options) (es : List LoopEvent)
    (h : ((Loop.init app o).run es).pc = .opening ∨ (∃ t, ((Loop.init app o).run es).pc = .settling t)) :
    ∃ op k, ((Loop.init app o).run es).boot.client.prog = .call op k := by
  have hn := (loopInv_run app o es).now
  rcases h with h | ⟨t, h⟩ <;> rw [h] at hn
  · obtain ⟨pre, d, mid, -, hn⟩ := hn
    exact hn.1.quiet.waiting
  · obtain ⟨pre, d, mid, -, hn⟩ := hn
    exact hn.1.quiet.waiting

theorem fate_run (app : App) (o : Options) (es : List LoopEvent) : Fate app ((Loop.init app o).run es) := by
  suffices ∀ (es' es : List LoopEvent), Fate app ((Loop.init app o).run es) →
      Fate app ((Loop.init app o).run (es ++ es')) from
    this es [] ⟨(fun x h => by cases h), fun t ht => ⟨rfl, .inl (idle_init app o).waiting⟩, fun r hr => by cases hr⟩
  intro es'
  induction es' with
  | nil => intro es h; rwa [List.append_nil]
  | cons e es' ih =>
    intro es h
    rw [List.append_cons]
    refine ih _ ?_
    rw [loop_snoc]
    exact fate_step h (loopBusy_run app o es) e

end Zcc
