import Verif.Proofs.Refusal
import Verif.Props.Reply

/-!
# How a call ends whose request was written: C72

`es₁` is what happened before the call, `es₂` what happens afterwards: any other calls, frames,
time-outs, cancellations.
-/

namespace Zcc
open Spec

/-- The ways in which call `n` (not permit join) should end once its request is written: with the status
that the radio answered, too late, or cancelled. -/
def ProperEnd (s : AppSys) (n : Nat) (c : Call) (r : Result) : Prop :=
  (∃ o z m, r = .returned z m ∧ c.obj = .ok o ∧ Answered s n o z ∧
    (z = 0 ↔ m = "message send success" ∨ m = "broadcast send success")) ∨
  r = .raised .timeoutError ∨ r = .raised .cancelledError

theorem properEnd_of {s : AppSys} {n : Nat} {c : Call} {r : Result} (hp : ∀ time, c ≠ .permit time)
    (h : (∃ o, c.obj = .ok o ∧ Answered s n o 0 ∧ r = c.success) ∨
      (∃ o z, c.obj = .ok o ∧ Answered s n o z ∧ z ≠ 0 ∧ r = c.failure (.commandError z)) ∨
      r = .raised .timeoutError ∨ r = .raised .cancelledError) : ProperEnd s n c r := by
  rcases h with ⟨o, h1, h2, rfl⟩ | ⟨o, z, h1, h2, h3, rfl⟩ | h | h
  · left
    cases c with
    | request => exact ⟨o, 0, _, rfl, h1, h2, by simp⟩
    | mrequest => exact ⟨o, 0, _, rfl, h1, h2, by simp⟩
    | broadcast => exact ⟨o, 0, _, rfl, h1, h2, by simp⟩
    | permit time => exact absurd rfl (hp time)
  · left
    cases c with
    | request => exact ⟨o, z, _, rfl, h1, h2, by simp [h3]⟩
    | mrequest => exact ⟨o, z, _, rfl, h1, h2, by simp [h3]⟩
    | broadcast => exact ⟨o, z, _, rfl, h1, h2, by simp [h3]⟩
    | permit time => exact absurd rfl (hp time)
  · exact .inr (.inl h)
  · exact .inr (.inr h)

theorem begin_unawaited {s : AppSys} {c : Call}
    (h : c.wantsReply = none ∨ ∃ o q, c.obj = .ok o ∧ c.wantsReply = some q ∧
      (responseWaiter o (some q) = .ok none ∨ ∃ e, responseWaiter o (some q) = .error e)) :
    Unawaited s.tasks.length (s.step (.call c)) := by
  have fin : ∀ (s' : AppSys) k, s'.tasks = s.tasks ++ [k] → (∀ o x, k.pc = .waiting o x → x = none) →
      k.ran = none → Unawaited s.tasks.length s' := by
    intro s' k hs hw hr
    refine ⟨k, by rw [hs]; simp, hw, fun j t h => ?_⟩
    rw [hr] at h; cases h
  show Unawaited s.tasks.length (s.begin c)
  have hgate : ∀ o, (s.gate c o none).ran = none := by
    intro o; unfold AppSys.gate; split <;> rfl
  unfold AppSys.begin
  rcases h with h | ⟨o, q, ho, hq, h | ⟨e, h⟩⟩
  · split
    · exact fin _ _ rfl (by intro o x h; cases h) rfl
    · rw [h]
      exact fin _ _ rfl (fun o x hx => gate_waiting hx) (hgate _)
  · rw [ho]; dsimp only; rw [hq]; dsimp only
    unfold Api.createResponseWaiter
    rw [h]
    refine fin _ _ rfl (fun o x hx => gate_waiting hx) (hgate _)
  · rw [ho]; dsimp only; rw [hq]; dsimp only
    unfold Api.createResponseWaiter
    rw [h]
    exact fin _ _ rfl (by intro o x h; cases h) rfl

theorem unawaited_ends {s : AppSys} (i : AInv s) {n : Nat} {k : AppTask} {r : Result} {b : List UInt8}
    (hk : s.tasks[n]? = some k) (hr : k.pc = .done r) (hc : Ordinary k.call) (hw : Wrote s n b)
    (hu : Unawaited n s) :
    (∃ o, k.call.obj = .ok o ∧ Answered s n o 0 ∧ r = k.call.success) ∨
    (∃ o z, k.call.obj = .ok o ∧ Answered s n o z ∧ z ≠ 0 ∧ r = k.call.failure (.commandError z)) ∨
    r = .raised .timeoutError ∨ r = .raised .cancelledError := by
  rcases written_ends i hk hr hc hw with h | h | h | h | ⟨j, t, a, h1, h2, h3, -, -⟩
  · exact .inl h
  · exact .inr (.inl h)
  · exact .inr (.inr (.inl h))
  · exact .inr (.inr (.inr h))
  · exfalso
    obtain ⟨k', hk', -, hran⟩ := hu
    rw [hk] at hk'; cases hk'
    obtain ⟨o, e, hsub⟩ := hran j t h1
    obtain ⟨a', ha', -, hw', -⟩ := ((i.api j).log.subIff _ _ _ _).mp hsub
    rw [h2] at ha'; cases ha'
    rw [hw'] at h3; cases h3

theorem call_kept {es₁ es₂ : List AppEvent} {s₀ s : AppSys} {c : Call} (h₀ : s₀ = AppSys.init.run es₁)
    (hs : s = AppSys.init.run (es₁ ++ .call c :: es₂)) :
    s = (s₀.step (.call c)).run es₂ ∧
    ∀ k, s.tasks[s₀.tasks.length]? = some k → k.call = c := by
  have hrun : s = (s₀.step (.call c)).run es₂ := by
    rw [hs, app_run_append, ← h₀]; rfl
  refine ⟨hrun, fun k hk => ?_⟩
  have ha : AInv s₀ := h₀ ▸ ainv_run es₁
  obtain ⟨k0, b1, b2⟩ := begin_call s₀ c
  obtain ⟨k1, b3, b4, -⟩ := app_moves_run es₂ _ (ha.step _) _ k0 b1
  rw [← hrun, hk] at b3
  cases b3
  exact b4.trans b2

/-- **C72.** A call that expects no reply (`request` with `expect_reply=False`, `broadcast`) and has
written its request ends with the status that the radio answered, too late, or cancelled, whatever
happens meanwhile. -/
theorem c72_unawaited (es₁ es₂ : List AppEvent) (s₀ s : AppSys) (c : Call) (r : Result) (b : List UInt8)
    (h₀ : s₀ = AppSys.init.run es₁) (hs : s = AppSys.init.run (es₁ ++ .call c :: es₂))
    (hc : Ordinary c)
    (hkind : (∃ nwk profile cluster srcEp dstEp q data,
        c = .request nwk profile cluster srcEp dstEp q data false) ∨
      ∃ profile cluster srcEp dstEp radius q data address,
        c = .broadcast profile cluster srcEp dstEp radius q data address)
    (hw : Wrote s s₀.tasks.length b) (hr : EndedWith s s₀.tasks.length r) :
    ProperEnd s s₀.tasks.length c r := by
  obtain ⟨hrun, hcall⟩ := call_kept h₀ hs
  have ha : AInv s₀ := h₀ ▸ ainv_run es₁
  have hsi : AInv s := hs ▸ ainv_run _
  have hwant : c.wantsReply = none ∧ ∀ time, c ≠ .permit time := by
    rcases hkind with ⟨_, _, _, _, _, _, _, rfl⟩ | ⟨_, _, _, _, _, _, _, _, rfl⟩ <;>
      exact ⟨rfl, by simp⟩
  obtain ⟨k, hk, hpc⟩ := hr
  have hu : Unawaited s₀.tasks.length s := by
    rw [hrun]
    exact unawaited_run es₂ _ (ha.step _) (begin_unawaited (.inl hwant.1))
  have := unawaited_ends hsi hk hpc (by rw [hcall k hk]; exact hc) hw hu
  rw [hcall k hk] at this
  exact properEnd_of hwant.2 this

/-- **C72.** The same for permit join, which returns nothing if the radio answered with status 0 and
raises `CommandError` with any other status. -/
theorem c72_permit (es₁ es₂ : List AppEvent) (s₀ s : AppSys) (time : Int) (r : Result) (b : List UInt8)
    (h₀ : s₀ = AppSys.init.run es₁) (hs : s = AppSys.init.run (es₁ ++ .call (.permit time) :: es₂))
    (hw : Wrote s s₀.tasks.length b) (hr : EndedWith s s₀.tasks.length r) :
    ∃ o, (Call.permit time).obj = .ok o ∧
      ((r = .none ∧ Answered s s₀.tasks.length o 0) ∨
       (∃ z, r = .raised (.commandError z) ∧ z ≠ 0 ∧ Answered s s₀.tasks.length o z) ∨
       r = .raised .timeoutError ∨ r = .raised .cancelledError) := by
  obtain ⟨hrun, hcall⟩ := call_kept h₀ hs
  have ha : AInv s₀ := h₀ ▸ ainv_run es₁
  have hsi : AInv s := hs ▸ ainv_run _
  obtain ⟨k, hk, hpc⟩ := hr
  have hu : Unawaited s₀.tasks.length s := by
    rw [hrun]
    exact unawaited_run es₂ _ (ha.step _) (begin_unawaited (.inl rfl))
  have := unawaited_ends hsi hk hpc (by rw [hcall k hk]; trivial) hw hu
  rw [hcall k hk] at this
  obtain ⟨o, ho, -⟩ := wrote_obj hsi ⟨k, hk, hcall k hk⟩ hw
  refine ⟨o, ho, ?_⟩
  rcases this with ⟨o', h1, h2, h3⟩ | ⟨o', z, h1, h2, h3, h4⟩ | h | h
  · rw [ho] at h1; cases h1
    exact .inl ⟨h3, h2⟩
  · rw [ho] at h1; cases h1
    exact .inr (.inl ⟨z, h4, h3, h2⟩)
  · exact .inr (.inr (.inl h))
  · exact .inr (.inr (.inr h))

/-- **C72 (partial).** A call that expects a reply and has written its request ends with the status
that the radio answered, too late, or cancelled. Missing: calls that were made before a restart
(`hcur`, see `c72_refuted_restart`) or disturbed by one that was (`hold`, `hused`), calls that end more
than 10.1 s after they were made (`htime`, see `c72_refuted_slow`), and calls whose reply comes before
the refusal (`hnone`); they can end with a `KeyError`. `hpriv`: nobody else uses the id of the waiter. -/
theorem c72_outcome_partial (es₁ es₂ : List AppEvent) (s₀ s : AppSys) (c : Call) (r : Result)
    (b : List UInt8)
    (h₀ : s₀ = AppSys.init.run es₁) (hs : s = AppSys.init.run (es₁ ++ .call c :: es₂))
    (hc : Ordinary c) (hp : ∀ time, c ≠ .permit time)
    (hcur : s.cur = s₀.cur)
    (hold : ∀ k ∈ s₀.tasks, ∀ o j w, k.pc = .waiting o (some (j, w)) → j = s₀.cur)
    (hused : ∀ t o x, .submitted t o (some (s₀.api s₀.cur).waiterId) x ∉ (s₀.api s₀.cur).log)
    (hpriv : ∀ e, .api s₀.cur e ∈ es₂ → e ≠ .abandon (s₀.api s₀.cur).waiterId ∧
      ∀ o x, e ≠ .submit o (some (s₀.api s₀.cur).waiterId) x)
    (hnone : ∀ f o, .api s₀.cur (.frame f) ∈ es₂ → Obj.fromUnpiFrame f = .ok o →
      ∀ x ∈ ((s₀.step (.call c)).api s₀.cur).waiters, x.id = (s₀.api s₀.cur).waiterId →
        ¬ Answers x.matcher o)
    (htime : (s.api s₀.cur).now < (s₀.api s₀.cur).now + 10100)
    (hw : Wrote s s₀.tasks.length b) (hr : EndedWith s s₀.tasks.length r) :
    ProperEnd s s₀.tasks.length c r := by
  obtain ⟨hrun, hcall⟩ := call_kept h₀ hs
  have ha : AInv s₀ := h₀ ▸ ainv_run es₁
  have hsi : AInv s := hs ▸ ainv_run _
  obtain ⟨o, ho, -⟩ := wrote_obj hsi (by
    obtain ⟨k, hk, -⟩ := hr
    exact ⟨k, hk, hcall k hk⟩) hw
  obtain ⟨k, hk, hpc⟩ := hr
  have hlone : Unawaited s₀.tasks.length (s₀.step (.call c)) → ProperEnd s s₀.tasks.length c r := by
    intro hu
    have hu : Unawaited s₀.tasks.length s := by rw [hrun]; exact unawaited_run es₂ _ (ha.step _) hu
    have := unawaited_ends hsi hk hpc (by rw [hcall k hk]; exact hc) hw hu
    rw [hcall k hk] at this
    exact properEnd_of hp this
  rcases hq : c.wantsReply with _ | q
  · exact hlone (begin_unawaited (.inl hq))
  rcases hrw : responseWaiter o (some q) with e | _ | ⟨m, q'⟩
  · exact hlone (begin_unawaited (.inr ⟨o, q, ho, hq, .inr ⟨e, hrw⟩⟩))
  · exact hlone (begin_unawaited (.inr ⟨o, q, ho, hq, .inl hrw⟩))
  obtain ⟨hinv, hreg⟩ := reply_begin ha ho hq hrw hold hused
  have hb : s₀.step (.call c) = { s₀ with
      api := upd s₀.api s₀.cur { ((s₀.api s₀.cur).waitFor m timeoutDefault q').2 with
        ext := (s₀.api s₀.cur).waiterId :: (s₀.api s₀.cur).ext }
      tasks := s₀.tasks ++ [s₀.gate c o (some (s₀.cur, (s₀.api s₀.cur).waiterId))] } := by
    show s₀.begin c = _
    unfold AppSys.begin
    rw [ho]
    dsimp only
    rw [hq]
    dsimp only
    unfold Api.createResponseWaiter
    rw [hrw]
    rfl
  have hapi : (s₀.step (.call c)).api s₀.cur = { ((s₀.api s₀.cur).waitFor m timeoutDefault q').2 with
        ext := (s₀.api s₀.cur).waiterId :: (s₀.api s₀.cur).ext } := by rw [hb]; exact upd_same _ _ _
  have hours : Ours s₀.cur (s₀.api s₀.cur).waiterId s₀.tasks.length (s₀.step (.call c)) := by
    refine ⟨s₀.gate c o (some (s₀.cur, (s₀.api s₀.cur).waiterId)), by rw [hb]; simp,
      fun o x hx => gate_waiting hx, fun j t h => ?_⟩
    unfold AppSys.gate at h
    split at h <;> cases h
  have hclean : Clean s₀.cur (s₀.api s₀.cur).waiterId (s₀.step (.call c)) := by
    intro t a b ha' hwid
    rw [hapi] at ha'
    have ha' : (s₀.api s₀.cur).tasks t = some a := ha'
    exact absurd (((ha.api s₀.cur).log.subIff _ _ _ _).mpr ⟨a, ha', rfl, hwid, rfl⟩) (hused _ _ _)
  obtain ⟨E, hE, -⟩ := app_proj_from s₀.cur (es₁ ++ [.call c]) AppSys.init
  have hE : (s₀.step (.call c)).api s₀.cur = Api.init.run E := by
    rw [← show (AppSys.init.run (es₁ ++ [.call c])).api s₀.cur = Api.init.run E from hE, app_run_append, ← h₀]
    rfl
  have hwtab : (⟨(s₀.api s₀.cur).waiterId, m, 10000, q'⟩ : Waiter) ∈
      ((s₀.step (.call c)).api s₀.cur).waiters := by
    rw [hapi]; exact List.mem_append_right _ (.head _)
  obtain ⟨⟨k', hk', -, hran⟩, hclean⟩ := refusal_run
    (x := ⟨(s₀.api s₀.cur).waiterId, m, 10000, q'⟩) rfl es₂ _
    (ha.step _) ⟨E, hE⟩ hinv hours hclean hreg (by
      intro ev hev
      match ev, hev with
      | .api j e, hev =>
        intro hj
        subst hj
        refine ⟨(hpriv e hev).1, (hpriv e hev).2, fun f' o' he ho' hans => ?_⟩
        subst he
        exact hnone f' o' hev ho' _ hwtab rfl hans
      | .call _, _ | .enter _, _ | .wakeUp _, _ | .cancel _, _ | .newApi, _ | .newSemaphore _, _ =>
        exact True.intro) (by rw [← hrun]; exact hcur) (by
      rw [← hrun]; show _ < _ + 10000 + 100; omega)
  rw [← hrun] at hk' hran hclean
  rw [hk] at hk'; cases hk'
  have hfin := written_ends hsi hk hpc (by rw [hcall k hk]; exact hc) hw
  rw [hcall k hk] at hfin
  rcases hfin with h | h | h | h | ⟨j, t, a, h1, h2, -, h4, h5⟩
  · exact properEnd_of hp (.inl h)
  · exact properEnd_of hp (.inr (.inl h))
  · exact properEnd_of hp (.inr (.inr (.inl h)))
  · exact properEnd_of hp (.inr (.inr (.inr h)))
  · exfalso
    obtain ⟨rfl, o', e, hsub⟩ := hran j t h1
    obtain ⟨a', ha', -, hw', -⟩ := ((hsi.api _).log.subIff _ _ _ _).mp hsub
    rw [h2] at ha'; cases ha'
    exact hclean t a b h2 hw' h4 h5

/-! ### Examples and refutations -/

/-- Node descriptor of 0x1111 with transaction number 6. -/
def exAsk6 : Call := .request 0x1111 0 2 0 0 6 [6, 0x11, 0x11] true

/-- The call gets its turn 100 ms later, the radio refuses it; another call and another node's reply
come in between. -/
def exRefusedSoon : List AppEvent :=
  [.api 1 (.tick 100), .enter 0, .call exAsk, .api 1 (.frame exAnswer), .api 1 (.frame exRefusal), .api 1 (.wake 0)]

/-- The hypotheses of `c72_outcome_partial` hold for this execution: nothing was there before, the call
was written, and it ends with the radio's status. -/
example : Ordinary exAsk6 ∧
    (AppSys.init.run ([.newApi, .newSemaphore 0] ++ .call exAsk6 :: exRefusedSoon)).cur =
      (AppSys.init.run [.newApi, .newSemaphore 0]).cur ∧
    (AppSys.init.run [.newApi, .newSemaphore 0]).tasks.length = 0 ∧
    ((AppSys.init.run [.newApi, .newSemaphore 0]).api 1).log.length = 0 ∧
    (∀ f o, .api 1 (.frame f) ∈ exRefusedSoon → Obj.fromUnpiFrame f = .ok o →
      ∀ x ∈ (((AppSys.init.run [.newApi, .newSemaphore 0]).step (.call exAsk6)).api 1).waiters,
        ¬ Answers x.matcher o) ∧
    ((AppSys.init.run ([.newApi, .newSemaphore 0] ++ .call exAsk6 :: exRefusedSoon)).api 1).now = 100 ∧
    Wrote (AppSys.init.run ([.newApi, .newSemaphore 0] ++ .call exAsk6 :: exRefusedSoon)) 0
      [0xFE, 4, 0x25, 2, 0x11, 0x11, 0x11, 0x11, 0x23] ∧
    EndedWith (AppSys.init.run ([.newApi, .newSemaphore 0] ++ .call exAsk6 :: exRefusedSoon)) 0
      (.returned 1 "Couldn't enqueue send data request: ") := by
  refine ⟨.inr (by decide), by decide +kernel, by decide +kernel, by decide +kernel, ?_, by decide +kernel,
    wrote_iff.mpr (by decide +kernel), endedWith_iff.mpr (by decide +kernel)⟩
  intro f o hf ho x hx
  have hall : exRefusedSoon.all (fun ev => match ev with
      | .api _ (.frame f) => match Obj.fromUnpiFrame f with
        | .ok o => decide (∀ x ∈ (((AppSys.init.run [.newApi, .newSemaphore 0]).step
            (.call exAsk6)).api 1).waiters, ¬ Answers x.matcher o)
        | .error _ => true
      | _ => true) = true := by decide +kernel
  have := List.all_eq_true.mp hall _ hf
  dsimp only at this
  rw [ho] at this
  exact of_decide_eq_true this x hx

/-- A broadcast and a permit join, both refused (`c72_unawaited`, `c72_permit`). -/
example :
    Wrote (AppSys.init.run ([.newApi, .newSemaphore 0] ++ .call (.permit 60) ::
      [.enter 0, .api 1 (.frame (Frame.of .SRSP .ZDO 0x36 [2])), .api 1 (.wake 0)])) 0
      [0xFE, 5, 0x25, 0x36, 15, 0xFC, 0xFF, 60, 0, 0x26] ∧
    EndedWith (AppSys.init.run ([.newApi, .newSemaphore 0] ++ .call (.permit 60) ::
      [.enter 0, .api 1 (.frame (Frame.of .SRSP .ZDO 0x36 [2])), .api 1 (.wake 0)])) 0
      (.raised (.commandError 2)) :=
  ⟨wrote_iff.mpr (by decide +kernel), endedWith_iff.mpr (by decide +kernel)⟩

/-- The call waits for its turn, the application starts again, the call gets its turn and is refused. -/
def exRefusedLater : List AppEvent :=
  [.newApi, .newSemaphore 0, .enter 0, .api 2 (.frame exRefusal), .api 2 (.wake 0)]

/-- Another call is in the way and times out after 6 s, our request is refused 4.2 s later. -/
def exRefusedSlow : List AppEvent :=
  [.enter 0, .enter 1, .api 1 (.tick 6000), .api 1 (.timeout 0), .api 1 .grant, .api 1 (.tick 4200),
   .api 1 (.timer 1), .api 1 (.frame exRefusal), .api 1 (.wake 1)]

/-- The reply arrives before the refusal. -/
def exRefusedReplied : List AppEvent :=
  [.enter 0, .api 1 (.frame (Frame.of .AREQ .ZDO 0x82
    [0x11, 0x11, 0, 0x11, 0x11, 1, 0x40, 0x8E, 0x5F, 0x11, 80, 160, 0, 0, 0, 160, 0, 0])), .api 1 (.frame exRefusal),
   .api 1 (.wake 0)]

theorem improper {s : AppSys} {n : Nat} {c : Call} {k : String} : ¬ ProperEnd s n c (.raised (.keyError k)) := by
  rintro (⟨o, z, m, h, -⟩ | h | h) <;> cases h

/-- **C72 (refuted).** Across a restart: the id of the waiter is one of the old `API` object. The radio
refuses the request with status 1 (the only message that arrives), and the caller gets a `KeyError`. -/
theorem c72_refuted_restart :
    Wrote (AppSys.init.run ([.newApi, .newSemaphore 0] ++ .call exAsk6 :: exRefusedLater)) 0
      [0xFE, 4, 0x25, 2, 0x11, 0x11, 0x11, 0x11, 0x23] ∧
    statusesOf (AppSys.init.run ([.newApi, .newSemaphore 0] ++ .call exAsk6 :: exRefusedLater)) 0 =
      [some (.int 1)] ∧
    EndedWith (AppSys.init.run ([.newApi, .newSemaphore 0] ++ .call exAsk6 :: exRefusedLater)) 0
      (.raised (.keyError "waiter")) :=
  ⟨wrote_iff.mpr (by decide +kernel), by decide +kernel, endedWith_iff.mpr (by decide +kernel)⟩

/-- **C72 (refuted).** Without a restart, if the call waits long for its turn: its waiter has expired. -/
theorem c72_refuted_slow :
    Wrote (AppSys.init.run ([.newApi, .newSemaphore 0, .call exAsk] ++ .call exAsk6 :: exRefusedSlow)) 1
      [0xFE, 4, 0x25, 2, 0x11, 0x11, 0x11, 0x11, 0x23] ∧
    statusesOf (AppSys.init.run ([.newApi, .newSemaphore 0, .call exAsk] ++ .call exAsk6 :: exRefusedSlow)) 1 =
      [some (.int 1)] ∧
    EndedWith (AppSys.init.run ([.newApi, .newSemaphore 0, .call exAsk] ++ .call exAsk6 :: exRefusedSlow)) 1
      (.raised (.keyError "waiter")) :=
  ⟨wrote_iff.mpr (by decide +kernel), by decide +kernel, endedWith_iff.mpr (by decide +kernel)⟩

/-- **C72 (refuted).** If the node's reply (to an earlier request, say) arrives before the refusal. -/
theorem c72_refuted_replied :
    Wrote (AppSys.init.run ([.newApi, .newSemaphore 0] ++ .call exAsk6 :: exRefusedReplied)) 0
      [0xFE, 4, 0x25, 2, 0x11, 0x11, 0x11, 0x11, 0x23] ∧
    statusesOf (AppSys.init.run ([.newApi, .newSemaphore 0] ++ .call exAsk6 :: exRefusedReplied)) 0 =
      [some (.int 1)] ∧
    EndedWith (AppSys.init.run ([.newApi, .newSemaphore 0] ++ .call exAsk6 :: exRefusedReplied)) 0
      (.raised (.keyError "waiter")) :=
  ⟨wrote_iff.mpr (by decide +kernel), by decide +kernel, endedWith_iff.mpr (by decide +kernel)⟩

/-- **C72 (refuted)** as stated: not every call that wrote its request ends properly. -/
theorem c72_refuted :
    ¬ ∀ (es₁ es₂ : List AppEvent) (c : Call) (r : Result) (b : List UInt8), Ordinary c →
      (∀ time, c ≠ .permit time) →
      Wrote (AppSys.init.run (es₁ ++ .call c :: es₂)) (AppSys.init.run es₁).tasks.length b →
      EndedWith (AppSys.init.run (es₁ ++ .call c :: es₂)) (AppSys.init.run es₁).tasks.length r →
      ProperEnd (AppSys.init.run (es₁ ++ .call c :: es₂)) (AppSys.init.run es₁).tasks.length c r := by
  intro h
  exact improper (h [.newApi, .newSemaphore 0] exRefusedLater exAsk6 _ _ (.inr (by decide)) (by simp [exAsk6])
    c72_refuted_restart.1 c72_refuted_restart.2.2)

end Zcc
