import Verif.Proofs.Progress
import Verif.Props.Requests
import Verif.Props.Runtime
import Verif.Proofs.Reply

/-!
# C71: no call of the application is stuck
-/

namespace Zcc
open Spec

/-- One step towards the end. -/
theorem progress (es : List AppEvent) (n : Nat) (k : AppTask)
    (hk : (AppSys.init.run es).tasks[n]? = some k) (hd : ∀ r, k.pc ≠ .done r) :
    ∃ es', (∀ e ∈ es', Unaided e) ∧
      totalRank (AppSys.init.run (es ++ es')).tasks < totalRank (AppSys.init.run es).tasks ∧
      (AppSys.init.run (es ++ es')).tasks.length = (AppSys.init.run es).tasks.length := by
  -- a sleeping call
  by_cases hsl : ∃ (n : Nat) (k : AppTask) (i d : Nat), (AppSys.init.run es).tasks[n]? = some k ∧
      k.pc = .sleeping i d
  · obtain ⟨n, k, i, d, hk, hpc⟩ := hsl
    refine ⟨[.api i (.tick d), .wakeUp n], fun e he => ?_, ?_⟩
    · simp only [List.mem_cons, List.not_mem_nil, or_false] at he
      rcases he with rfl | rfl <;> trivial
    · rw [app_run_append]
      generalize AppSys.init.run es = s at *
      have hn := nearer_apiStep s i (.tick d)
      have hk' : (s.apiStep i (.tick d)).tasks[n]? = some k := by
        unfold AppSys.apiStep
        rw [settle_get { s with api := upd s.api i ((s.api i).step (.tick d)) } n k hk]
        unfold AppTask.settle
        rw [hpc]
      have hnow : d ≤ ((s.apiStep i (.tick d)).api i).now := by
        rw [apiStep_api, if_pos rfl]
        exact Nat.le_add_left ..
      show totalRank (AppSys.step (s.apiStep i (.tick d)) (.wakeUp n)).tasks < _ ∧
        (AppSys.step (s.apiStep i (.tick d)) (.wakeUp n)).tasks.length = _
      generalize s.apiStep i (.tick d) = s' at *
      rw [AppSys.step, hk']
      dsimp only
      rw [hpc]
      dsimp only
      rw [if_pos hnow]
      have hr : ({ k with pc := .done k.call.success } : AppTask).rank < k.rank := by
        unfold AppTask.rank; rw [hpc]; exact Nat.zero_lt_one
      have hn2 := nearer_set hk' (k' := { k with pc := .done k.call.success }) (Nat.le_of_lt hr)
      refine ⟨?_, (hn.trans hn2).1⟩
      exact (hn.trans hn2).total_lt hk
        (List.getElem?_set_self (List.getElem?_eq_some_iff.mp hk').1) hr
  by_cases hin : ∃ (n : Nat) (k : AppTask) (i t : Nat), (AppSys.init.run es).tasks[n]? = some k ∧
      k.pc = .inApi i t
  · obtain ⟨n, k, i, t, hk, hpc⟩ := hin
    have ai := ainv_run es
    obtain ⟨E0, hE0⟩ := ai.proj i
    obtain ⟨E, hE1, hE2, hE3⟩ := c30_no_deadlock E0
    refine ⟨E.map (.api i), fun e he => ?_, ?_⟩
    · obtain ⟨x, hx, rfl⟩ := List.mem_map.mp he
      rcases hE1 x hx with ⟨_, rfl⟩ | ⟨_, rfl⟩ | ⟨_, rfl⟩ | rfl <;> trivial
    · have hrest := rested_run (es ++ E.map (.api i))
      have ai' := ainv_run (es ++ E.map (.api i))
      rw [app_run_append] at hrest ai' ⊢
      have hrun := api_run i E (AppSys.init.run es)
      generalize AppSys.init.run es = s at *
      refine ⟨?_, hrun.2.1⟩
      obtain ⟨k', hk', hle⟩ := hrun.2.2 n k hk
      refine hrun.2.total_lt hk hk' ?_
      have hr2 : k.rank = 2 := by unfold AppTask.rank; rw [hpc]
      rcases Nat.lt_or_ge k'.rank k.rank with h | h
      · exact h
      · -- still in the same request: impossible, it is over
        exfalso
        obtain ⟨k2, c1, _, c3, _⟩ := app_moves_run (E.map (.api i)) s ai n k hk
        rw [hk'] at c1; cases c1
        have hran : k.ran = some (i, t) := by
          have := (ai.tasks k (List.mem_of_getElem? hk)).pc
          rw [hpc] at this; exact this
        have hran' := c3 _ hran
        have hm' := List.mem_of_getElem? hk'
        have hpc' : k'.pc = .inApi i t := by
          rcases hp : k'.pc with ⟨o, w⟩ | ⟨i', t'⟩ | ⟨i', d⟩ | r
          · rw [show k'.rank = 3 by unfold AppTask.rank; rw [hp]] at hle; omega
          · have := (ai'.tasks k' hm').pc
            rw [hp] at this
            have : k'.ran = some (i', t') := this
            rw [hran'] at this; cases this; rfl
          · rw [show k'.rank = 1 by unfold AppTask.rank; rw [hp]] at h; omega
          · rw [show k'.rank = 0 by unfold AppTask.rank; rw [hp]] at h; omega
        have hapi : (s.run (E.map (.api i))).api i = Api.init.run (E0 ++ E) := by
          rw [hrun.1, hE0, Zcc.run_append]
        obtain ⟨o, w, _, hsub⟩ := (ai'.tasks k' hm').ran i t hran'
        rw [hapi] at hsub
        obtain ⟨r, hr⟩ := hE3 t o w none hsub
        obtain ⟨A, hA, hAp⟩ := ((Zcc.inv_run (E0 ++ E)).log.fin t r).mp hr
        have hst := hrest k' hm'
        rw [← hapi] at hA
        have := congrArg AppTask.pc hst
        unfold AppTask.settle at this
        rw [hpc'] at this; dsimp only at this; rw [hA] at this; dsimp only at this; rw [hAp] at this
        cases r with
        | ok x =>
          dsimp only at this
          split at this
          · cases this
          · cases this
        | error e => cases this
  · -- everybody waits at a gate
    have ai := ainv_run es
    rcases hpc : k.pc with ⟨o, w⟩ | ⟨i, t⟩ | ⟨i, d⟩ | r
    · refine ⟨[.enter n], fun e he => ?_, ?_⟩
      · rw [List.mem_singleton] at he; subst he; trivial
      · have hlim := limits_run es
        rw [app_run_append]
        show totalRank ((AppSys.init.run es).enter n).tasks < _ ∧ ((AppSys.init.run es).enter n).tasks.length = _
        generalize AppSys.init.run es = s at *
        have hg := ai.semLt k (List.mem_of_getElem? hk) hd
        have hcount : s.tasks.countP (AppTask.inside k.sem) = 0 := by
          rw [List.countP_eq_zero]
          intro x hx hi
          obtain ⟨m, hm⟩ := List.getElem?_of_mem hx
          unfold AppTask.inside at hi
          rcases hxp : x.pc with _ | ⟨i, t⟩ | ⟨i, d⟩ | _
          · rw [hxp] at hi; simp at hi
          · exact hin ⟨m, x, i, t, hm, hxp⟩
          · exact hsl ⟨m, x, i, d, hm, hxp⟩
          · rw [hxp] at hi; simp at hi
        have hpos : s.sem k.sem ≠ 0 := by
          have h1 := ai.sem k.sem
          rw [hcount] at h1
          rw [hlim.1] at hg
          have h2 := hlim.2 k.sem _ (List.getElem?_eq_getElem hg)
          split at h2 <;> omega
        have hlt : n < s.tasks.length := (List.getElem?_eq_some_iff.mp hk).1
        unfold AppSys.enter
        rw [hk]
        dsimp only
        rw [hpc]
        dsimp only
        rw [if_neg hpos]
        have hr : ∀ (x : AppTask), x.rank ≤ 2 → x.rank < k.rank := fun x hx => by
          have : k.rank = 3 := by unfold AppTask.rank; rw [hpc]
          omega
        have h1 := nearer_set hk (k' := { k with pc := .inApi s.cur (s.api s.cur).nextTid, ran := some (s.cur, (s.api s.cur).nextTid) })
          (Nat.le_of_lt (hr _ (Nat.le_refl _)))
        refine ⟨?_, ?_⟩
        · refine Nat.lt_of_le_of_lt (nearer_settle _).total ?_
          exact h1.total_lt hk (List.getElem?_set_self hlt) (hr _ (Nat.le_refl _))
        · rw [(nearer_settle _).1]
          exact h1.1
    · exact absurd ⟨n, k, i, t, hk, hpc⟩ hin
    · exact absurd ⟨n, k, i, d, hk, hpc⟩ hsl
    · exact absurd hpc (hd r)

/-- **C71.** Whatever happened before, with nothing but time limits, pauses and calls going on when they
can (no message of the radio, no cancellation, no restart), every call of the application ends. -/
theorem c71_no_deadlock (es : List AppEvent) :
    ∃ es', (∀ e ∈ es', Unaided e) ∧
      ∀ n c, IsCall (AppSys.init.run es) n c → ∃ r, EndedWith (AppSys.init.run (es ++ es')) n r := by
  suffices h : ∀ (m : Nat) (es : List AppEvent), totalRank (AppSys.init.run es).tasks ≤ m →
      ∃ es', (∀ e ∈ es', Unaided e) ∧
        (AppSys.init.run (es ++ es')).tasks.length = (AppSys.init.run es).tasks.length ∧
        ∀ k ∈ (AppSys.init.run (es ++ es')).tasks, ∃ r, k.pc = .done r by
    obtain ⟨es', h1, h2, h3⟩ := h _ es (Nat.le_refl _)
    refine ⟨es', h1, fun n c ⟨k, hk, _⟩ => ?_⟩
    have hlt : n < (AppSys.init.run (es ++ es')).tasks.length := by
      rw [h2]; exact (List.getElem?_eq_some_iff.mp hk).1
    obtain ⟨r, hr⟩ := h3 _ (List.getElem_mem hlt)
    exact ⟨r, _, List.getElem?_eq_getElem hlt, hr⟩
  intro m
  induction m with
  | zero =>
    intro es h
    refine ⟨[], fun e he => (List.not_mem_nil he).elim, by rw [List.append_nil], ?_⟩
    rw [List.append_nil]
    intro k hk
    have hz : k.rank = 0 := by
      have : k.rank ≤ totalRank (AppSys.init.run es).tasks :=
        rank_le_total hk
      omega
    unfold AppTask.rank at hz
    rcases hp : k.pc with _ | _ | _ | r
    · rw [hp] at hz; cases hz
    · rw [hp] at hz; cases hz
    · rw [hp] at hz; cases hz
    · exact ⟨r, rfl⟩
  | succ m ih =>
    intro es h
    by_cases hall : ∀ k ∈ (AppSys.init.run es).tasks, ∃ r, k.pc = .done r
    · exact ⟨[], fun e he => (List.not_mem_nil he).elim, by rw [List.append_nil], by rw [List.append_nil]; exact hall⟩
    · have : ∃ k ∈ (AppSys.init.run es).tasks, ∀ r, k.pc ≠ .done r := by
        apply Classical.byContradiction
        intro hc
        refine hall fun k hk => ?_
        apply Classical.byContradiction
        intro hn
        exact hc ⟨k, hk, fun r hr => hn ⟨r, hr⟩⟩
      obtain ⟨k, hk, hd⟩ := this
      obtain ⟨n, hn⟩ := List.getElem?_of_mem hk
      obtain ⟨e1, a1, a2, a3⟩ := progress es n k hn hd
      obtain ⟨e2, b1, b2, b3⟩ := ih (es ++ e1) (by omega)
      refine ⟨e1 ++ e2, fun e he => ?_, ?_, ?_⟩
      · rcases List.mem_append.mp he with h | h
        · exact a1 e h
        · exact b1 e h
      · rw [← List.append_assoc, b2, a3]
      · rw [← List.append_assoc]; exact b3

/-- Three calls, two places, a silent radio: each ends by its time limit of 6 s, one after the other. -/
example : (∀ e ∈ ([.api 1 (.tick 6000), .api 1 (.timeout 0), .api 1 .grant, .enter 2, .api 1 (.tick 6000),
      .api 1 (.timeout 1), .api 1 .grant, .api 1 (.tick 6000), .api 1 (.timeout 2)] : List AppEvent), Unaided e) ∧
    ((AppSys.init.run exGate).tasks.map (fun k => match k.pc with | .done _ => true | _ => false)) =
      [false, false, false] ∧
    ((AppSys.init.run (exGate ++ [.api 1 (.tick 6000), .api 1 (.timeout 0), .api 1 .grant, .enter 2,
      .api 1 (.tick 6000), .api 1 (.timeout 1), .api 1 .grant, .api 1 (.tick 6000),
      .api 1 (.timeout 2)])).tasks.map (fun k => match k.pc with | .done _ => true | _ => false)) =
      [true, true, true] := by
  refine ⟨?_, by decide +kernel, by decide +kernel⟩
  intro e he
  simp only [List.mem_cons, List.not_mem_nil, or_false] at he
  rcases he with rfl | rfl | rfl | rfl | rfl | rfl | rfl | rfl | rfl <;> trivial

end Zcc
