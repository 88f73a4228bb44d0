import Verif.Proofs.Stack
import Verif.Props.Timely

/-!
# A connection: requests and the bytes of their answers
-/

namespace Zcc

open Spec

/-- A waiting call goes on waiting, or it ends. -/
theorem waiting_step {s : Api} (i : Inv s) {t : Nat} {k : Task} {w d : Nat}
    (hk : s.tasks t = some k) (hpc : k.pc = .waiting w d) (e : Event) :
    (s.step e).tasks t = some k ∨ ∃ r, (s.step e).tasks t = some { k with pc := .done r } := by
  by_cases he : e ≠ .wake t ∧ e ≠ .timeout t ∧ e ≠ .cancel t
  · exact .inl (started_step i hk (by rw [hpc]; simp) e he)
  have hfin : ∀ (s' : Api) r, s'.tasks t = some k →
      (s'.finish t r).tasks t = some { k with pc := .done r } := by
    intro s' r hk
    rw [finish_pc hk]
  by_cases h1 : e = .wake t
  · subst h1
    rw [Api.step, hk]
    dsimp only
    rw [hpc]
    dsimp only
    split
    · refine .inr ?_
      unfold Api.conclude
      split
      · split
        · exact ⟨_, hfin _ _ hk⟩
        · split
          · exact ⟨_, hfin _ _ hk⟩
          · split
            · exact ⟨_, hfin _ _ (by rw [(setResult_fields _ _ _).1]; exact hk)⟩
            · exact ⟨_, hfin _ _ hk⟩
      · exact ⟨_, hfin _ _ hk⟩
    · exact .inl hk
  by_cases h2 : e = .timeout t
  · subst h2
    rw [Api.step, hk]
    dsimp only
    rw [hpc]
    dsimp only
    split
    · exact .inr ⟨_, hfin _ _ hk⟩
    · exact .inl hk
  have h3 : e = .cancel t := by
    apply Classical.byContradiction
    intro h3; exact he ⟨h1, h2, h3⟩
  subst h3
  rw [Api.step, hk]
  dsimp only
  rw [hpc]
  exact .inr ⟨_, hfin _ _ hk⟩

/-- A finished call keeps its outcome. -/
theorem done_kept {s : Api} (i : Inv s) {t : Nat} {k : Task} {r : Except PyErr (Option Obj)}
    (hk : s.tasks t = some k) (hpc : k.pc = .done r) (es : List Event) :
    .finished t r ∈ (s.run es).log ∧ ∀ r', .finished t r' ∈ (s.run es).log → r' = r := by
  have h1 : .finished t r ∈ (s.run es).log :=
    (grows_run s es).log.subset ((i.log.fin t r).mpr ⟨k, hk, hpc⟩)
  refine ⟨h1, fun r' h2 => ?_⟩
  have i' := inv_run_from i es
  obtain ⟨k1, h3, h4⟩ := (i'.log.fin t r).mp h1
  obtain ⟨k2, h5, h6⟩ := (i'.log.fin t r').mp h2
  rw [h3] at h5; cases h5
  rw [h4] at h6
  simpa using h6.symm

/-- As long as its time limit is not over, a waiting call waits, or it has ended otherwise than by a
timeout. -/
theorem waiting_run (es : List Event) : ∀ s : Api, Inv s → ∀ t k w d, s.tasks t = some k →
    k.pc = .waiting w d → (s.run es).now < d →
    (s.run es).tasks t = some k ∨
      ∃ r, (s.run es).tasks t = some { k with pc := .done r } ∧ r ≠ .error .timeoutError := by
  induction es with
  | nil => intro s _ t k w d hk _ _; exact .inl hk
  | cons e es ih =>
    intro s i t k w d hk hpc hn
    have hrun : s.run (e :: es) = (s.step e).run es := rfl
    rw [hrun] at hn ⊢
    rcases waiting_step i hk hpc e with h | ⟨r, h⟩
    · exact ih _ (i.step e) t k w d h hpc hn
    · refine .inr ⟨r, ?_, ?_⟩
      · have hm := (done_kept (i.step e) h rfl es).1
        obtain ⟨k', h1, h2⟩ := ((inv_run_from (i.step e) es).log.fin t r).mp hm
        have hs : Entry.submitted t k.obj k.waiterId k.expected ∈ ((s.step e).run es).log :=
          (grows_run _ es).log.subset (((i.step e).log.subIff _ _ _ _).mpr ⟨_, h, rfl, rfl, rfl⟩)
        obtain ⟨k2, h3, h4, h5, h6⟩ := ((inv_run_from (i.step e) es).log.subIff _ _ _ _).mp hs
        rw [h1] at h3; cases h3
        rw [h1]
        obtain ⟨a, b, c, p⟩ := k'
        simp only at h2 h4 h5 h6
        subst h2 h4 h5 h6
        rfl
      · intro hr
        subst hr
        rcases timedOut_step h rfl with h' | ⟨k3, w3, d3, h4, h5, _, h7, _⟩
        · rw [hk] at h'
          have := congrArg Task.pc (Option.some.inj h')
          rw [hpc] at this; simp at this
        · rw [hk] at h4; cases h4
          rw [hpc] at h5; cases h5
          have h8 := (grows_step s e).now
          have h9 := (grows_run (s.step e) es).now
          omega

/-- A chunk of bytes brings the API some frames. -/
theorem chunk_frames (c : List UInt8) : ∀ s : Stack, ∃ fs : List Frame,
    (s.step (.bytes c)).api = s.api.run (fs.map .frame) := by
  induction c with
  | nil => intro s; exact ⟨[], rfl⟩
  | cons x c ih =>
    intro s
    have hafter : ∀ f, (s.after f).api = s.api.run [.frame f] := fun f => receive_api s.api s.app f
    rcases hw : Parser.write s.buffer x with ⟨b', e | _ | f⟩
    · have hstep : s.step (.bytes (x :: c)) = { s with buffer := b', raised := s.raised ++ [e] } := by
        simp only [Stack.step, Gateway.dataReceived, hw, Option.toList]
      rw [hstep]
      exact ⟨[], rfl⟩
    · have hstep : s.step (.bytes (x :: c)) = ({ s with buffer := b' } : Stack).step (.bytes c) := by
        simp only [Stack.step, Gateway.dataReceived, hw]
      rw [hstep]
      exact ih _
    · rcases hr : (receive s.api s.app f).2.raised with _ | e
      · have hstep : s.step (.bytes (x :: c)) = ({ s.after f with buffer := b' } : Stack).step (.bytes c) := by
          have hh : Stack.handler (s.api, s.app, s.effects) f =
              (((receive s.api s.app f).1, (receive s.api s.app f).2.app,
                s.effects ++ (receive s.api s.app f).2.effects), none) := by
            unfold Stack.handler
            dsimp only
            rw [hr]
          simp only [Stack.step, Gateway.dataReceived, hw, hh, Stack.after]
        obtain ⟨h, hh⟩ := ih ({ s.after f with buffer := b' } : Stack)
        rw [hstep]
        refine ⟨f :: h, hh.trans ?_⟩
        show (s.after f).api.run (h.map .frame) = _
        rw [hafter f]; rfl
      · have hstep : s.step (.bytes (x :: c)) =
            { s.after f with buffer := b', raised := s.raised ++ [e] } := by
          have hh : Stack.handler (s.api, s.app, s.effects) f =
              (((receive s.api s.app f).1, (receive s.api s.app f).2.app,
                s.effects ++ (receive s.api s.app f).2.effects), some e) := by
            unfold Stack.handler
            dsimp only
            rw [hr]
          simp only [Stack.step, Gateway.dataReceived, hw, hh, Stack.after, Option.toList]
        rw [hstep]
        exact ⟨[f], hafter f⟩

theorem run_api (es : List StackEvent) : ∀ s : Stack, ∃ h, (s.run es).api = s.api.run h := by
  induction es with
  | nil => intro s; exact ⟨[], rfl⟩
  | cons e es ih =>
    intro s
    have : ∃ h, (s.step e).api = s.api.run h := by
      cases e with
      | bytes c => obtain ⟨fs, h⟩ := chunk_frames c s; exact ⟨_, h⟩
      | api e =>
        by_cases hf : ∃ f, e = .frame f
        · obtain ⟨f, rfl⟩ := hf
          exact ⟨[], rfl⟩
        · refine ⟨[e], ?_⟩
          cases e <;> first | rfl | exact absurd ⟨_, rfl⟩ hf
    obtain ⟨h, hh⟩ := this
    obtain ⟨h', hh'⟩ := ih (s.step e)
    refine ⟨h ++ h', ?_⟩
    rw [api_run_append, ← hh]; exact hh'

theorem stack_run_append (s : Stack) (es es' : List StackEvent) :
    s.run (es ++ es') = (s.run es).run es' := by
  unfold Stack.run; rw [List.foldl_append]

theorem others_append (es es' : List StackEvent) : others (es ++ es') = others es ++ others es' := by
  induction es with
  | nil => rfl
  | cons e es ih => cases e <;> simp [others, ih]

theorem arrived_append (es es' : List StackEvent) : arrived (es ++ es') = arrived es ++ arrived es' := by
  induction es with
  | nil => rfl
  | cons e es ih => cases e <;> simp [arrived, ih]

/-- The messages are in the API's execution. -/
theorem weave_mem (es : List StackEvent) : ∀ (groups : List (List Item)) (items : List Item),
    groups.flatten = items → groups.length = chunks es →
    ∀ i ∈ items, Event.frame (received i.frame) ∈ weave es groups := by
  induction es with
  | nil =>
    intro groups items hg hl i hi
    have : groups = [] := List.length_eq_zero_iff.mp hl
    subst this
    rw [← hg] at hi; simp at hi
  | cons e es ih =>
    intro groups items hg hl i hi
    cases e with
    | bytes c =>
      cases groups with
      | nil => simp [chunks] at hl
      | cons g gs =>
        rw [weave]
        rw [← hg, List.flatten_cons] at hi
        rcases List.mem_append.mp hi with h | h
        · exact List.mem_append_left _ (List.mem_map.mpr ⟨i, h, rfl⟩)
        · refine List.mem_append_right _ (ih gs _ rfl ?_ i h)
          simpa [chunks] using hl
    | api e =>
      have := ih groups items hg hl i hi
      cases e <;> simp only [weave, List.mem_cons, this, or_true]

/-- The waiters registered in the woven execution. -/
theorem weave_register (es : List StackEvent) : ∀ groups m to q, Event.register m to q ∈ weave es groups →
    Event.register m to q ∈ others es := by
    induction es with
    | nil => intro groups m to q h; simp [weave] at h
    | cons e es ih =>
      intro groups m to q h
      cases e with
      | bytes c =>
        cases groups with
        | nil => exact ih _ m to q h
        | cons g gs =>
          rw [weave] at h
          rcases List.mem_append.mp h with h | h
          · obtain ⟨_, _, h⟩ := List.mem_map.mp h; cases h
          · exact ih _ m to q h
      | api e =>
        by_cases hf : ∃ f, e = .frame f
        · obtain ⟨f, rfl⟩ := hf
          exact .tail _ (ih groups m to q h)
        · have hw : weave (.api e :: es) groups = e :: weave es groups := by
            cases e <;> first | rfl | exact absurd ⟨_, rfl⟩ hf
          rw [hw] at h
          cases h with
          | head => exact .head _
          | tail _ h => exact .tail _ (ih groups m to q h)

/-- The API of a connection goes through an execution in which only the waiters are registered that
somebody registers. -/
theorem run_registers (es : List StackEvent) : ∀ s : Stack,
    ∃ h, (s.run es).api = s.api.run h ∧ ∀ m to q, .register m to q ∈ h → .register m to q ∈ others es := by
  induction es with
  | nil => intro s; exact ⟨[], rfl, fun m to q h => by cases h⟩
  | cons e es ih =>
    intro s
    have : ∃ h, (s.step e).api = s.api.run h ∧
        ∀ m to q, .register m to q ∈ h → .register m to q ∈ others [e] := by
      cases e with
      | bytes c =>
        obtain ⟨fs, h⟩ := chunk_frames c s
        refine ⟨fs.map .frame, h, fun m to q hm => ?_⟩
        obtain ⟨_, _, h⟩ := List.mem_map.mp hm
        cases h
      | api e =>
        by_cases hf : ∃ f, e = .frame f
        · obtain ⟨f, rfl⟩ := hf
          exact ⟨[], rfl, fun m to q h => by cases h⟩
        · refine ⟨[e], ?_, fun m to q h => h⟩
          cases e <;> first | rfl | exact absurd ⟨_, rfl⟩ hf
    obtain ⟨h, hh, hr⟩ := this
    obtain ⟨h', hh', hr'⟩ := ih (s.step e)
    refine ⟨h ++ h', ?_, fun m to q hm => ?_⟩
    · rw [api_run_append, ← hh]; exact hh'
    · have ho : others (e :: es) = others [e] ++ others es := others_append [e] es
      rw [ho]
      rcases List.mem_append.mp hm with hm | hm
      · exact List.mem_append_left _ (hr m to q hm)
      · exact List.mem_append_right _ (hr' m to q hm)

end Zcc
