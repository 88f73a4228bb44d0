import Verif.Proofs.AppRestart
import Verif.Props.AppBounded

/-!
# C73 across restarts: a call ends in bounded time, whatever becomes of its connection

`Spec.Moment` lets time pass for all connections alike; `Spec.workEverywhere` is the work that is left in all
of them.
-/

namespace Zcc
open Spec

theorem cur_step_le (s : AppSys) (e : AppEvent) : s.cur ≤ (s.step e).cur := by
  by_cases h : e = .newApi
  · subst h; exact Nat.le_succ _
  · rw [cur_step s e h]; exact Nat.le_refl _

theorem cur_run_le : ∀ (es : List AppEvent) (s : AppSys), s.cur ≤ (s.run es).cur
  | [], _ => Nat.le_refl _
  | e :: es, s => Nat.le_trans (cur_step_le s e) (cur_run_le es (s.step e))

theorem workAdded_append (a b : List AppEvent) : workAdded (a ++ b) = workAdded a + workAdded b := by
  unfold workAdded
  rw [List.map_append, List.sum_append]

theorem workAdded_pass (m d : Nat) : workAdded ((Moment.passes d).events m) = 0 := by
  show workAdded ((List.range m).map fun i => AppEvent.api i (.tick d)) = 0
  induction m with
  | zero => rfl
  | succ m ih => rw [List.range_succ, List.map_append, workAdded_append, ih]; rfl

theorem tasks_length (es : List AppEvent) : ∀ s : AppSys, AInv s →
    s.tasks.length ≤ (s.run es).tasks.length := by
  induction es with
  | nil => intro s _; exact Nat.le_refl _
  | cons e es ih =>
    intro s hi
    refine Nat.le_trans ?_ (ih (s.step e) (hi.step e))
    rcases (app_tasks_step hi e).2 with h | ⟨c, k, _, h, _⟩
    · rw [h]; exact Nat.le_refl _
    · rw [h, List.length_append]; exact Nat.le_add_right ..

theorem loaded_run {m n : Nat} (ms : List Moment) : ∀ (D : Nat) (es : List AppEvent),
    AllKeepUp m es ms → SameClock ms → (AppSys.init.run (es ++ timeline m ms)).cur < m →
    Loaded m D (AppSys.init.run es) → n < (AppSys.init.run es).tasks.length →
    (∀ r, ¬ EndedWith (AppSys.init.run (es ++ timeline m ms)) n r) →
    elapsed ms ≤ D + workAdded (timeline m ms) := by
  induction ms with
  | nil => intro D es _ _ _ _ _ _; exact Nat.zero_le _
  | cons x ms ih =>
    intro D es hk hc hm j hn hf
    have hsplit : es ++ timeline m (x :: ms) = (es ++ x.events m) ++ timeline m ms := by
      show es ++ (x.events m ++ timeline m ms) = _
      rw [List.append_assoc]
    have hkn := List.getElem?_eq_getElem hn
    have hd : ∀ y, (AppSys.init.run es).tasks[n].pc ≠ .done y := by
      intro y hy
      refine hf y ⟨_, ?_, hy⟩
      rw [app_run_append]
      exact done_run hy _ _ hkn
    have hcur : (AppSys.init.run es).cur < m := by
      rw [app_run_append] at hm
      exact Nat.lt_of_le_of_lt (cur_run_le _ _) hm
    have hwork : workAdded (timeline m (x :: ms)) = workAdded (x.events m) + workAdded (timeline m ms) :=
      workAdded_append _ _
    have next : ∀ D', Loaded m D' (AppSys.init.run (es ++ x.events m)) →
        elapsed ms ≤ D' + workAdded (timeline m ms) := by
      intro D' j'
      refine ih D' (es ++ x.events m) ?_ (fun i d h => hc i d (List.mem_cons_of_mem _ h)) ?_ j' ?_ ?_
      · intro a d b h
        have := hk (x :: a) d b (by rw [h]; rfl)
        rwa [show es ++ timeline m (x :: a) = (es ++ x.events m) ++ timeline m a by
          show es ++ (x.events m ++ timeline m a) = _
          rw [List.append_assoc]] at this
      · rw [← hsplit]; exact hm
      · rw [app_run_append]
        exact Nat.lt_of_lt_of_le hn (tasks_length _ _ (ainv_run es))
      · rw [← hsplit]; exact hf
    cases x with
    | happens e =>
      have j' := j.step (ainv_run es) (rested_run es) hcur e fun i d h =>
        hc i d (by rw [h]; exact List.mem_cons_self)
      have h1 := next (D + bringsApp e) (by
        show Loaded m _ (AppSys.init.run (es ++ [e]))
        rw [app_run_snoc]; exact j')
      have h2 : workAdded ((Moment.happens e).events m) = bringsApp e := by
        show workAdded [e] = _
        rw [workAdded_cons]; rfl
      have h3 : elapsed (.happens e :: ms) = elapsed ms := by
        unfold elapsed
        rw [List.map_cons, List.sum_cons]
        exact Nat.zero_add _
      rw [hwork, h2, h3]
      omega
    | passes d =>
      have hk0 := hk [] d ms rfl
      dsimp only at hk0
      rw [show es ++ timeline m [] = es from List.append_nil _] at hk0
      obtain ⟨h0, j'⟩ := j.pass (ainv_run es) (rested_run es) (limit_pos es) (settled_app es) hkn hd d
        (fun i hi => ⟨(hk0.1 i hi).1, fun t k w u a b => ((hk0.1 i hi).2 t k w u a b).2⟩) hk0.2
      have h1 := next (D - d) (by
        rw [app_run_append, later_run (rested_run es)]; exact j')
      have h3 : elapsed (.passes d :: ms) = d + elapsed ms := by
        unfold elapsed
        rw [List.map_cons, List.sum_cons]
      rw [hwork, workAdded_pass, h3]
      omega

/-- **C73.** The connection may be replaced any number of times, before and meanwhile: if the event loop keeps
up, a call ends before all the work at hand, in the current and in the replaced connections, is done. (`m`: any
number of connections that is large enough.) -/
theorem c73_restarts (es : List AppEvent) (ms : List Moment) (m n : Nat) (c : Call)
    (hc : IsCall (AppSys.init.run es) n c) (hm : (AppSys.init.run (es ++ timeline m ms)).cur < m)
    (hk : AllKeepUp m es ms) (hs : SameClock ms)
    (hn : workEverywhere m (AppSys.init.run es) + workAdded (timeline m ms) < elapsed ms) :
    ∃ r, EndedWith (AppSys.init.run (es ++ timeline m ms)) n r := by
  refine Classical.byContradiction fun h => ?_
  obtain ⟨k, hkn, _⟩ := hc
  have hcur : (AppSys.init.run es).cur < m := by
    rw [app_run_append] at hm
    exact Nat.lt_of_le_of_lt (cur_run_le _ _) hm
  have := loaded_run ms _ es hk hs hm (loaded_start (ainv_run es) (dozing_run es) (placed_run es) hcur)
    (List.getElem?_eq_some_iff.mp hkn).1 fun r hr => h ⟨r, hr⟩
  omega

/-- What `AllKeepUp` asks for, as a program. -/
def allPrompt (m : Nat) (s : AppSys) (d : Nat) : Bool :=
  ((List.range m).all fun i => promptly (s.api i) d) && s.tasks.all fun k => match k.pc with
    | .waiting .. => s.sem k.sem == 0
    | .sleeping i u => decide ((s.api i).now + d ≤ u)
    | _ => true

def allKeepUpCheck (m : Nat) (s : AppSys) : List Moment → Bool
  | [] => true
  | .happens e :: ms => allKeepUpCheck m (s.step e) ms
  | .passes d :: ms => allPrompt m s d && allKeepUpCheck m (s.run ((Moment.passes d).events m)) ms

theorem allKeepUp_of (m : Nat) (ms : List Moment) : ∀ es,
    allKeepUpCheck m (AppSys.init.run es) ms = true → AllKeepUp m es ms := by
  induction ms with
  | nil => intro es _ a d b h; simp at h
  | cons x ms ih =>
    intro es h a d b he
    rcases a with _ | ⟨y, a⟩
    · simp only [List.nil_append, List.cons.injEq] at he
      dsimp only
      rw [show es ++ timeline m [] = es from List.append_nil _]
      rw [he.1, allKeepUpCheck, Bool.and_eq_true, allPrompt, Bool.and_eq_true, List.all_eq_true,
        List.all_eq_true] at h
      refine ⟨fun i hi => promptly_sound ((ainv_run es).api i) (h.1.1 i (List.mem_range.mpr hi)), fun k hk => ?_⟩
      have := h.1.2 k hk
      rcases hp : k.pc with ⟨o, w⟩ | ⟨j, t⟩ | ⟨j, u⟩ | r
      · rw [hp] at this; simpa using this
      · trivial
      · rw [hp] at this; simpa using this
      · trivial
    · simp only [List.cons_append, List.cons.injEq] at he
      have h2 := ih (es ++ x.events m) (by
        cases x with
        | happens e => rw [allKeepUpCheck] at h; rw [Moment.events, app_run_snoc]; exact h
        | passes d =>
          rw [allKeepUpCheck, Bool.and_eq_true] at h
          rw [app_run_append]; exact h.2) a d b he.2
      dsimp only at h2 ⊢
      rw [← he.1]
      rwa [show es ++ timeline m (x :: a) = (es ++ x.events m) ++ timeline m a by
        show es ++ (x.events m ++ timeline m a) = _
        rw [List.append_assoc]]

def sameClock : List Moment → Bool
  | [] => true
  | .happens (.api _ (.tick _)) :: _ => false
  | _ :: ms => sameClock ms

theorem sameClock_of {ms : List Moment} (h : sameClock ms = true) : SameClock ms := by
  induction ms with
  | nil => intro i d h; cases h
  | cons x ms ih =>
    intro i d hm
    have hrest : sameClock ms = true := by
      cases x with
      | passes d => exact h
      | happens e =>
        cases e with
        | api i e => cases e <;> first | exact h | cases h
        | _ => exact h
    rcases List.mem_cons.mp hm with h1 | h1
    · rw [← h1] at h; cases h
    · exact ih hrest i d h1

/-- The port is lost: two calls are in the old API, one waits for their semaphore. The driver reconnects (with
a stick of another kind), and a fourth call is made. The stick stays silent. -/
def exReplaced : List Moment :=
  [.passes 1000, .happens (.api 1 (.setUart false)), .happens .newApi, .happens (.newSemaphore 1),
   .happens (.call exToggle), .happens (.enter 3), .passes 5000, .happens (.api 1 (.timeout 0)),
   .happens (.api 1 .grant), .happens (.enter 2), .passes 1000, .happens (.api 2 (.timeout 0)),
   .happens (.api 2 .grant), .passes 6000, .happens (.api 2 (.timeout 1)), .passes 12000]

example : ∃ r, EndedWith (AppSys.init.run (exGate ++ timeline 3 exReplaced)) 2 r :=
  c73_restarts exGate exReplaced 3 2 exToggle (isCall_iff.mpr (by decide +kernel)) (by decide +kernel)
    (allKeepUp_of _ _ _ (by decide +kernel)) (sameClock_of (by decide +kernel)) (by decide +kernel)

end Zcc
