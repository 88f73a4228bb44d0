import Verif.Proofs.Accepted
import Verif.Props.Refusal
import Verif.Props.Timely

/-!
# A request that the radio accepts: C92

C72 tells how a refused request ends, which is not always with the radio's status. A request that is
accepted has no such troubles.
-/

namespace Zcc
open Spec

/-- **C92.** If the radio answers the written request of a call with status 0 only, the call ends with
success, `TimeoutError` or cancelled, whatever else happens: restarts, replies, other calls. -/
theorem c92_accepted (es : List AppEvent) (n : Nat) (c : Call) (o : Obj) (r : Result) (b : List UInt8)
    (hc : IsCall (AppSys.init.run es) n c) (ho : c.obj = .ok o)
    (hw : Wrote (AppSys.init.run es) n b) (he : EndedWith (AppSys.init.run es) n r)
    (ha : ∀ z, Answered (AppSys.init.run es) n o z → z = 0) :
    r = successOf c ∨ r = .raised .timeoutError ∨ r = .raised .cancelledError := by
  obtain ⟨k, hk, rfl⟩ := hc
  obtain ⟨k', hk', hr⟩ := he
  rw [hk] at hk'; cases hk'
  obtain ⟨k', i, t, hk', hran, hsent⟩ := hw
  rw [hk] at hk'; cases hk'
  rcases written_call_ends (ainv_run es) hk hr hran hsent with h | ⟨o', z, h1, h2, h3⟩ | h | h | h
  · exact .inl (h.trans (success_of _))
  · rw [ho] at h1; cases h1
    exact absurd (ha z h2) h3
  · exact .inr (.inl h.1)
  · exact .inr (.inr h.1)
  · exact .inr (.inr h.1)

/-- A node descriptor request that is written 3 s later; meanwhile the application has connected
again, and the node's reply to an earlier request has arrived. Almost 6 s later the radio accepts it. -/
def exAcceptedBefore : List AppEvent :=
  [.newApi, .newSemaphore 0, .call exAsk6, .api 1 (.tick 3000), .api 1 (.frame exAnswer)]

@[inherit_doc exAcceptedBefore]
def exAcceptedBetween : List AppEvent := [.call exAsk, .newApi, .api 1 (.tick 5999)]

@[inherit_doc exAcceptedBefore]
def exAccepted : List AppEvent :=
  exAcceptedBefore ++ [.enter 0] ++ exAcceptedBetween ++ [.api 1 (.frame (Frame.of .SRSP .ZDO 2 [0]))] ++
    [.api 1 (.wake 0)]

theorem exAccepted_zero {o : Obj} (z : Int) (h : Answered (AppSys.init.run exAccepted) 0 o z) : z = 0 := by
  have hst : statusesOf (AppSys.init.run exAccepted) 0 = [some (.int 0)] := by decide +kernel
  have := answered_statuses h
  rw [hst] at this
  simpa using this

theorem exAccepted_call : IsCall (AppSys.init.run exAccepted) 0 exAsk6 :=
  ⟨_, rfl, rfl⟩

/-- `c92_accepted` for it, with the other hypotheses met. -/
example (o : Obj) (ho : exAsk6.obj = .ok o) (r : Result) (he : EndedWith (AppSys.init.run exAccepted) 0 r) :
    r = .returned 0 "message send success" ∨ r = .raised .timeoutError ∨ r = .raised .cancelledError :=
  c92_accepted exAccepted 0 exAsk6 o r [0xFE, 4, 0x25, 2, 0x11, 0x11, 0x11, 0x11, 0x23] exAccepted_call ho
    (wrote_iff.mpr (by decide +kernel)) he exAccepted_zero

/-- **C92.** If, after the request of an ordinary call was written (by event `ev`), a response to it
arrives within six seconds, the radio's responses have status 0, and nobody cancels the call, then the
call ends with success or not yet. -/
theorem c92_success (es₀ es₁ es₂ : List AppEvent) (ev : AppEvent) (f : Frame) (n i t : Nat) (c : Call)
    (o rsp : Obj) (es : List AppEvent) (hes : es = es₀ ++ [ev] ++ es₁ ++ [.api i (.frame f)] ++ es₂)
    (hc : IsCall (AppSys.init.run es) n c) (hord : Ordinary c) (ho : c.obj = .ok o)
    (hw : WrittenBetween (AppSys.init.run es₀) (AppSys.init.run (es₀ ++ [ev])) n i t)
    (htime : ((AppSys.init.run (es₀ ++ [ev] ++ es₁)).api i).now <
      ((AppSys.init.run (es₀ ++ [ev])).api i).now + 6000)
    (hf : Obj.fromUnpiFrame f = .ok rsp) (hrsp : ResponseTo o rsp)
    (ha : ∀ z, Answered (AppSys.init.run es) n o z → z = 0)
    (hn : NotCancelled es n i t)
    (hreg : ∀ m to q, .api i (.register m to q) ∈ es → StartupMatcher m ∧ q = none)
    (r : Result) (he : EndedWith (AppSys.init.run es) n r) : r = successOf c := by
  obtain ⟨k, hk, rfl⟩ := hc
  obtain ⟨k', hk', hr⟩ := he
  rw [hk] at hk'; cases hk'
  have e0 : (AppSys.init.run (es₀ ++ [ev])) = (AppSys.init.run es₀).step ev := app_run_append _ _ _
  have inv := ainv_run es
  have inv1 := ainv_run (es₀ ++ [ev])
  obtain ⟨⟨k₁, b, hk₁, hran₁, hsent₁⟩, hnew⟩ := hw
  -- the call is the same later
  have hes1 : AppSys.init.run es =
      (AppSys.init.run (es₀ ++ [ev])).run (es₁ ++ [.api i (.frame f)] ++ es₂) := by
    rw [← app_run_append, hes]; simp
  obtain ⟨k₂, hk₂, hcall, hran₂, -⟩ := app_moves_run (es₁ ++ [.api i (.frame f)] ++ es₂) _ inv1 n k₁ hk₁
  rw [← hes1, hk] at hk₂; cases hk₂
  have hran := hran₂ _ hran₁
  have hsent : .sent t b ∈ ((AppSys.init.run es).api i).log := by
    rw [hes1]; exact (app_grows i _ _).log.mem hsent₁
  -- the request waits when it has been written
  have hwait : JustWritten ((AppSys.init.run (es₀ ++ [ev])).api i) t := by
    rw [e0] at hsent₁ ⊢
    rcases app_api_step (AppSys.init.run es₀) ev i with h | ⟨e, -, h⟩
    · rw [h] at hsent₁; exact absurd hsent₁ (hnew b)
    · rw [h] at hsent₁ ⊢
      rcases sent_step hsent₁ with h | h
      · exact absurd h (hnew b)
      · exact h
  obtain ⟨A, hA, hAw⟩ := hwait
  have hAo : A.obj = o := by
    obtain ⟨o', w, h1, h2⟩ := (inv1.tasks k₁ (List.mem_of_getElem? hk₁)).ran i t hran₁
    obtain ⟨A', h3, h4, -⟩ := ((inv1.api i).log.subIff t o' w none).mp h2
    rw [hA] at h3; cases h3
    rw [← hcall, ho] at h1; cases h1
    exact h4
  have hS := (ordinary_obj hord ho).1
  obtain ⟨w, d, hpc, hd⟩ := hAw (by rw [hAo]; exact hS)
  -- the API's own execution
  obtain ⟨E₁, p1, q1⟩ := app_proj_from i (es₀ ++ [ev]) AppSys.init
  obtain ⟨E₂, p2, q2⟩ := app_proj_from i es₁ (AppSys.init.run (es₀ ++ [ev]))
  obtain ⟨E₃, p3, q3⟩ := app_proj_from i es₂ (AppSys.init.run (es₀ ++ [ev] ++ es₁ ++ [.api i (.frame f)]))
  have p2' : (AppSys.init.run (es₀ ++ [ev] ++ es₁)).api i = Api.init.run (E₁ ++ E₂) := by
    rw [app_run_append, p2, p1]; exact (List.foldl_append ..).symm
  have p3' : (AppSys.init.run es).api i = Api.init.run (E₁ ++ E₂ ++ [.frame f] ++ E₃) := by
    rw [hes, app_run_append, p3, app_run_append _ (es₀ ++ [ev] ++ es₁)]
    show Api.run (((AppSys.init.run (es₀ ++ [ev] ++ es₁)).apiStep i (.frame f)).api i) E₃ = _
    rw [apiStep_api, if_pos rfl, p2', ← run_snoc]
    exact (List.foldl_append ..).symm
  have notime : .finished t (.error .timeoutError) ∉ ((AppSys.init.run es).api i).log := by
    have hlt : ((AppSys.init.run (es₀ ++ [ev])).api i |>.run E₂).now < d := by
      rw [← p2, ← app_run_append]; omega
    rcases waiting_run E₂ _ (inv1.api i) t A w d hA hpc hlt with h | ⟨r', h, hne⟩
    · rw [p3']
      rw [← p2, ← app_run_append, p2'] at h hlt
      refine c54_in_time (E₁ ++ E₂) E₃ f rsp t w d A ?_ h hpc (by omega) hf (.inl ⟨by rw [hAo]; exact hS, by rw [hAo]; exact hrsp⟩)
      intro m to q hm
      refine hreg m to q ?_
      rw [hes]
      rcases List.mem_append.mp hm with hm | hm
      · exact List.mem_append_left _ (List.mem_append_left _ (List.mem_append_left _ (q1 m to q hm)))
      · exact List.mem_append_left _ (List.mem_append_left _ (List.mem_append_right _ (q2 m to q hm)))
    · intro hfin
      have i2 := (ainv_run (es₀ ++ [ev] ++ es₁)).api i
      rw [← p2, ← app_run_append] at h
      have h1 := (i2.log.fin t r').mpr ⟨_, h, rfl⟩
      have h2 : .finished t r' ∈ ((AppSys.init.run es).api i).log := by
        have hes2 : AppSys.init.run es =
            (AppSys.init.run (es₀ ++ [ev] ++ es₁)).run ([.api i (.frame f)] ++ es₂) := by
          rw [← app_run_append, hes]; simp
        rw [hes2]; exact (app_grows i _ _).log.mem h1
      obtain ⟨B, hB, hBp⟩ := ((inv.api i).log.fin t _).mp hfin
      obtain ⟨C, hC, hCp⟩ := ((inv.api i).log.fin t _).mp h2
      rw [hB] at hC; cases hC
      rw [hBp] at hCp; cases hCp
      exact hne rfl
  rcases written_call_ends inv hk hr hran hsent with h | ⟨o', z, h1, h2, h3⟩ | h | h | ⟨h, x, hx⟩
  · exact h.trans (success_of _)
  · rw [ho] at h1; cases h1
    exact absurd (ha z h2) h3
  · exact absurd h.2 notime
  · exfalso
    obtain ⟨B, hB, hBp⟩ := ((inv.api i).log.fin t _).mp h.2
    have := api_cancelled es AppSys.init ainv_init k hk hran hn B hB hBp
    cases this
  · exfalso
    rw [h] at hr
    have := app_cancelled es AppSys.init ainv_init k hk hran hr hx hn.1
    cases this

/-- `c92_success` for the execution above: the call has ended, with success. -/
example : exAsk6.obj.toOption.isSome = true ∧
    EndedWith (AppSys.init.run exAccepted) 0 (.returned 0 "message send success") ∧
    ∀ o, exAsk6.obj = .ok o → ∀ r, EndedWith (AppSys.init.run exAccepted) 0 r →
      r = .returned 0 "message send success" := by
  refine ⟨by decide +kernel, endedWith_iff.mpr (by decide +kernel), fun o ho r he => ?_⟩
  have hobj : exAsk6.obj = .ok (exAsk6.obj.toOption.getD default) := by decide +kernel
  rw [hobj] at ho; cases ho
  have hdec : Obj.fromUnpiFrame (Frame.of .SRSP .ZDO 2 [0]) =
      .ok ((Obj.fromUnpiFrame (Frame.of .SRSP .ZDO 2 [0])).toOption.getD default) := by decide +kernel
  refine c92_success exAcceptedBefore exAcceptedBetween [.api 1 (.wake 0)] (.enter 0)
    (Frame.of .SRSP .ZDO 2 [0]) 0 1 0 exAsk6 _ _ exAccepted rfl exAccepted_call (.inr (by decide)) hobj
    ⟨?_, ?_⟩ (by decide +kernel) hdec ⟨by decide +kernel, by decide +kernel, by decide +kernel⟩ exAccepted_zero ?_ ?_ r he
  · exact ⟨_, [0xFE, 4, 0x25, 2, 0x11, 0x11, 0x11, 0x11, 0x23], rfl, by decide +kernel, by decide +kernel⟩
  · intro b hb
    have : ((AppSys.init.run exAcceptedBefore).api 1).log.all (fun e => match e with
      | .sent .. => false
      | _ => true) = true := by decide +kernel
    exact absurd (List.all_eq_true.mp this _ hb) (by simp)
  · constructor <;> simp [exAccepted, exAcceptedBefore, exAcceptedBetween]
  · intro m to q h
    simp [exAccepted, exAcceptedBefore, exAcceptedBetween] at h

end Zcc
