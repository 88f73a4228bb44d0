import Verif.Proofs.Cluster

/-!
# Properties of the API under concurrency, C18 - C24, C26 - C31

All executions are covered: `es` is an arbitrary list of events (calls, frames, timeouts,
cancellations, timers, passing time, opening and closing of the port), and `Api.init.run es` is
the state they lead to. Statements are about the log of that state: what was submitted, written,
received, returned.
-/

namespace Zcc
open Spec

/-! ## Concrete executions used in the examples -/

/-- SYS `version` request. -/
def exVersion : Obj :=
  { commandType := .SREQ, subsystem := .SYS, command := "version", commandId := 2, payload := [],
    parameters := [] }

/-- SYS `osalNvDelete` request (its response carries a status). -/
def exDelete : Obj :=
  { commandType := .SREQ, subsystem := .SYS, command := "osalNvDelete", commandId := 18,
    payload := [("id", .int 0x0F00), ("len", .int 1)],
    parameters := [("id", .UINT16), ("len", .UINT16)] }

/-- SYS `resetReq`. -/
def exReset : Obj :=
  { commandType := .AREQ, subsystem := .SYS, command := "resetReq", commandId := 0,
    payload := [("type", .int 1)], parameters := [("type", .UINT8)] }

/-- A non-reset asynchronous command. -/
def exAreq : Obj :=
  { commandType := .AREQ, subsystem := .ZDO, command := "autoFindDestination", commandId := 65,
    payload := [("endpoint", .int 3)], parameters := [("endpoint", .UINT8)] }

/-- Response to `version`. -/
def exVersionRsp : Frame := Frame.of .SRSP .SYS 2 [2, 1, 2, 7, 1, 0, 0, 0, 0]
/-- Response to `osalNvDelete` with this status. -/
def exDeleteRsp (status : UInt8) : Frame := Frame.of .SRSP .SYS 18 [status]
/-- Reset indication. -/
def exResetInd : Frame := Frame.of .AREQ .SYS 128 [0, 2, 1, 2, 7, 1]

/-- Two callers at once; both are served, one after the other. -/
def exTwo : List Event :=
  [.setUart true, .submit exVersion none none, .submit exDelete none none,
   .frame exVersionRsp, .wake 0, .grant, .frame (exDeleteRsp 0), .wake 1]

/-! ## C18 -/

/-- **C18.** Between two writes to the serial port, the call that made the first one has finished:
it got its response, an error, a timeout, or was cancelled. -/
theorem c18_one_at_a_time (es : List Event) (t1 t2 : Nat) (b1 b2 : List UInt8)
    (h : [Entry.sent t1 b1, .sent t2 b2].Sublist (Api.init.run es).log) :
    ∃ r, [Entry.sent t1 b1, .finished t1 r, .sent t2 b2].Sublist (Api.init.run es).log :=
  (inv_run es).log.serial _ _ _ _ h

/-- **C18**, at any moment: two calls that have both written their request and both not finished
are the same call. -/
theorem c18_at_most_one_outstanding (es : List Event) (t1 t2 : Nat) (b1 b2 : List UInt8)
    (h1 : .sent t1 b1 ∈ (Api.init.run es).log) (h2 : .sent t2 b2 ∈ (Api.init.run es).log)
    (n1 : ∀ r, .finished t1 r ∉ (Api.init.run es).log)
    (n2 : ∀ r, .finished t2 r ∉ (Api.init.run es).log) : t1 = t2 := by
  by_cases he : Entry.sent t1 b1 = .sent t2 b2
  · cases he; rfl
  · rcases sub_total h1 h2 he with h | h
    · obtain ⟨r, hr⟩ := c18_one_at_a_time es _ _ _ _ h
      exact absurd (hr.subset (by simp)) (n1 r)
    · obtain ⟨r, hr⟩ := c18_one_at_a_time es _ _ _ _ h
      exact absurd (hr.subset (by simp)) (n2 r)

example : [Entry.sent 0 [0xFE, 0, 0x21, 2, 0x23],
      .sent 1 [0xFE, 4, 0x21, 18, 0x00, 0x0F, 1, 0, 0x39]].Sublist (Api.init.run exTwo).log := by
  decide +kernel

/-! ## C19 -/

/-- **C19.** Of two calls that both wrote their request, the one submitted first wrote first. -/
theorem c19_submission_order (es : List Event) (t1 t2 : Nat) (o1 o2 : Obj) (w1 w2 : Option Nat)
    (e1 e2 : Option (List Int)) (b1 b2 : List UInt8)
    (hs : [Entry.submitted t1 o1 w1 e1, .submitted t2 o2 w2 e2].Sublist (Api.init.run es).log)
    (h1 : .sent t1 b1 ∈ (Api.init.run es).log) (h2 : .sent t2 b2 ∈ (Api.init.run es).log) :
    [Entry.sent t1 b1, .sent t2 b2].Sublist (Api.init.run es).log := by
  have i := inv_run es
  have hlt : t1 < t2 :=
    pairwise_of_sub (f := Entry.subId) (by rw [i.log.subs]; exact range_pairwise _) hs rfl rfl
  have hne : Entry.sent t1 b1 ≠ .sent t2 b2 := by
    intro h; cases h; omega
  rcases sub_total h1 h2 hne with h | h
  · exact h
  · have := pairwise_of_sub (f := Entry.sentId) i.log.sentSorted h rfl rfl
    omega

/-- **C19.** No call writes twice. -/
theorem c19_written_once (es : List Event) (t : Nat) (b b' : List UInt8) :
    ¬ [Entry.sent t b, .sent t b'].Sublist (Api.init.run es).log := by
  intro h
  have := pairwise_of_sub (f := Entry.sentId) (inv_run es).log.sentSorted h rfl rfl
  omega

/-- **C19.** Nobody is skipped: when a call writes its request, every call submitted before it has
finished, and either wrote its request or ended with an error that prevents writing (cancelled,
port closed, not encodable, not a request). -/
theorem c19_not_skipped (es : List Event) (t1 t2 : Nat) (o1 o2 : Obj) (w1 w2 : Option Nat)
    (e1 e2 : Option (List Int)) (b2 : List UInt8)
    (hs : [Entry.submitted t1 o1 w1 e1, .submitted t2 o2 w2 e2].Sublist (Api.init.run es).log)
    (h2 : .sent t2 b2 ∈ (Api.init.run es).log) :
    ∃ r, [Entry.finished t1 r, .sent t2 b2].Sublist (Api.init.run es).log ∧
      ((∃ b1, .sent t1 b1 ∈ (Api.init.run es).log ∧ WrittenAs o1 b1) ∨
        ∃ e, r = .error e ∧ Unsendable o1 e) := by
  have i := inv_run es
  have hlt : t1 < t2 :=
    pairwise_of_sub (f := Entry.subId) (by rw [i.log.subs]; exact range_pairwise _) hs rfl rfl
  obtain ⟨r, hr⟩ := i.log.before t2 b2 h2 t1 hlt
  refine ⟨r, hr, ?_⟩
  obtain ⟨k, hk, ho, _, _⟩ := (i.log.subIff t1 o1 w1 e1).mp (hs.subset (by simp))
  obtain ⟨k', hk', hpc⟩ := (i.log.fin t1 r).mp (hr.subset (by simp))
  rw [hk] at hk'; cases hk'
  have out := i.resp.done t1 k r hk hpc
  have sentCase : ∀ b, Entry.sent t1 b ∈ (Api.init.run es).log →
      ∃ b1, .sent t1 b1 ∈ (Api.init.run es).log ∧ WrittenAs o1 b1 := by
    intro b hb
    obtain ⟨k', h1, _, h3⟩ := i.log.sentStarted t1 b hb
    rw [hk] at h1; cases h1
    rw [ho] at h3
    exact ⟨b, hb, encode_ok h3⟩
  match r, out with
  | .ok (some o), ⟨m, to, b, f, _, _, h3, _⟩ => exact .inl (sentCase b (h3.subset (by simp)))
  | .ok none, ⟨_, _, b, h3⟩ => exact .inl (sentCase b (h3.subset (by simp)))
  | .error e, .inl ⟨_, h⟩ =>
    refine .inr ⟨e, rfl, ?_⟩
    rw [ho] at h
    rcases h with h | h | h | h
    · exact .inl h
    · exact .inr (.inl h)
    · rcases encode_error h with h | h
      · exact .inr (.inr (.inl h))
      · exact .inr (.inr (.inr (.inl h)))
    · exact .inr (.inr (.inr (.inr h)))
  | .error e, .inr (.inl ⟨⟨b, h⟩, _⟩) => exact .inl (sentCase b h)
  | .error e, .inr (.inr ⟨_, m, to, b, f, o, z, _, _, _, h, _⟩) =>
    exact .inl (sentCase b (h.subset (by simp)))

example : [Entry.submitted 0 exVersion none none, .submitted 1 exDelete none none].Sublist
    (Api.init.run exTwo).log := by decide +kernel

/-- A caller cancelled while queued is skipped, the next one is served. -/
example : (Api.init.run [.setUart true, .submit exVersion none none, .submit exDelete none none,
      .submit exVersion none none, .cancel 1, .frame exVersionRsp, .wake 0, .grant]).log.filterMap
        Entry.sentId = [0, 2] := by decide +kernel

example : [Entry.sent 0 [0xFE, 0, 0x21, 2, 0x23],
      .sent 1 [0xFE, 4, 0x21, 18, 0x00, 0x0F, 1, 0, 0x39]].Sublist (Api.init.run exTwo).log :=
  c19_submission_order exTwo 0 1 exVersion exDelete none none none none _ _
    (by decide +kernel) (by decide +kernel) (by decide +kernel)

/-! ## C20 -/

/-- **C20.** What a synchronous request returns is the synchronous response to its own command,
decoded from a frame that arrived after the request was written. -/
theorem c20_own_response (es : List Event) (t : Nat) (o : Obj) (w : Option Nat)
    (e : Option (List Int)) (r : Option Obj) (hs : .submitted t o w e ∈ (Api.init.run es).log)
    (ho : o.commandType = .SREQ) (hf : .finished t (.ok r) ∈ (Api.init.run es).log) :
    ∃ rsp b f, r = some rsp ∧ ResponseTo o rsp ∧ WrittenAs o b ∧ Obj.fromUnpiFrame f = .ok rsp ∧
      [Entry.sent t b, .received f rsp, .finished t (.ok (some rsp))].Sublist
        (Api.init.run es).log := by
  have i := inv_run es
  obtain ⟨k, hk, hko, _, _⟩ := (i.log.subIff t o w e).mp hs
  obtain ⟨k', hk', hpc⟩ := (i.log.fin t _).mp hf
  rw [hk] at hk'; cases hk'
  have out := i.resp.done t k _ hk hpc
  match r, out with
  | some rsp, ⟨m, to, b, f, h1, h2, h3, _⟩ =>
    refine ⟨rsp, b, f, rfl, ?_, ?_, i.resp.recv f rsp (h3.subset (by simp)), h3⟩
    · rw [hko] at h1
      rcases ownWaiter_answers h1 h2 with ⟨_, h⟩ | ⟨h, _⟩
      · exact h
      · rw [ho] at h; simp at h
    · obtain ⟨k', h4, _, h5⟩ := i.log.sentStarted t b (h3.subset (by simp))
      rw [hk] at h4; cases h4
      rw [hko] at h5
      exact encode_ok h5
  | none, ⟨h, _⟩ => rw [hko, ho] at h; simp at h

/-- Each call finishes at most once. -/
theorem c20_finishes_once (es : List Event) (t : Nat) (r r' : Except PyErr (Option Obj)) :
    ¬ [Entry.finished t r, .finished t r'].Sublist (Api.init.run es).log := by
  intro h
  exact absurd rfl (pairwise_of_sub (f := Entry.finId) (R := (· ≠ ·)) (inv_run es).log.finNodup h rfl rfl)

example : ∃ rsp, Entry.finished 1 (.ok (some rsp)) ∈ (Api.init.run exTwo).log ∧
    rsp.payload = [("status", .int 0)] := by
  refine ⟨{ commandType := .SRSP, subsystem := .SYS, command := "osalNvDelete", commandId := 18,
            payload := [("status", .int 0)], parameters := [("status", .UINT8)] }, ?_, rfl⟩
  decide +kernel

/-- The answer of another command is not taken. -/
example : (Api.init.run [.setUart true, .submit exVersion none none, .frame (exDeleteRsp 0),
    .wake 0]).log.filterMap Entry.finId = [] := by decide +kernel

example (r : Option Obj) (h : .finished 0 (.ok r) ∈ (Api.init.run exTwo).log) :
    ∃ rsp, r = some rsp ∧ ResponseTo exVersion rsp := by
  obtain ⟨rsp, _, _, h1, h2, _⟩ :=
    c20_own_response exTwo 0 exVersion none none r (by decide +kernel) rfl h
  exact ⟨rsp, h1, h2⟩

/-! ## C21 -/

/-- `rsp` is the response to call `t` (request `o`), received after `t` wrote it and before `t`
finished with `r`. -/
def GotResponse (L : List Entry) (t : Nat) (o rsp : Obj) (r : Except PyErr (Option Obj)) : Prop :=
  ResponseTo o rsp ∧ ∃ b f, Obj.fromUnpiFrame f = .ok rsp ∧
    [Entry.sent t b, .received f rsp, .finished t r].Sublist L

/-- **C21 (partial).** The outcome of a synchronous request: it succeeds with a response whose
status (if it has one) is among the expected ones; or it fails with the number of a status that is
not; or it timed out or was cancelled; or it was never written; or (the flaw, see `c29_refuted`)
the status was unexpected but the caller's response waiter is gone, and a `KeyError` is raised.
Missing: the last case should be a `CommandError`, too. -/
theorem c21_status_partial (es : List Event) (t : Nat) (o : Obj) (w : Option Nat)
    (e : Option (List Int)) (r : Except PyErr (Option Obj))
    (hs : .submitted t o w e ∈ (Api.init.run es).log)
    (ho : o.commandType = .SREQ) (hf : .finished t r ∈ (Api.init.run es).log) :
    (∃ rsp, r = .ok (some rsp) ∧ StatusOk e rsp ∧ GotResponse (Api.init.run es).log t o rsp r) ∨
    (∃ rsp z, r = .error (.commandError z) ∧ rsp.payload.lookup "status" = some (.int z) ∧
      z ∉ e.getD [0] ∧ GotResponse (Api.init.run es).log t o rsp r) ∨
    (∃ rsp z, r = .error (.keyError "waiter") ∧ w.isSome ∧
      rsp.payload.lookup "status" = some (.int z) ∧
      z ∉ e.getD [0] ∧ GotResponse (Api.init.run es).log t o rsp r) ∨
    r = .error .timeoutError ∨ r = .error .cancelledError ∨
    ∃ err, r = .error err ∧ Unsendable o err ∧ ∀ b, .sent t b ∉ (Api.init.run es).log := by
  have i := inv_run es
  obtain ⟨k, hk, hko, hkw, hke⟩ := (i.log.subIff t o w e).mp hs
  obtain ⟨k', hk', hpc⟩ := (i.log.fin t _).mp hf
  rw [hk] at hk'; cases hk'
  have out := i.resp.done t k _ hk hpc
  match r, out with
  | .ok (some rsp), ⟨m, to, b, f, h1, h2, h3, h4⟩ =>
    rw [hko] at h1 h4
    refine .inl ⟨rsp, rfl, ?_, ?_, b, f, i.resp.recv f rsp (h3.subset (by simp)), h3⟩
    · have := h4 ho
      rw [hke] at this
      exact badStatus_none.mp this
    · rcases ownWaiter_answers h1 h2 with ⟨_, h⟩ | ⟨h, _⟩
      · exact h
      · rw [ho] at h; simp at h
  | .ok none, ⟨h, _⟩ => rw [hko, ho] at h; simp at h
  | .error err, .inl ⟨hn, h⟩ =>
    refine .inr (.inr (.inr (.inr (.inr ⟨err, rfl, ?_, hn⟩))))
    rw [hko] at h
    rcases h with h | h | h | h
    · exact .inl h
    · exact .inr (.inl h)
    · rcases encode_error h with h | h
      · exact .inr (.inr (.inl h))
      · exact .inr (.inr (.inr (.inl h)))
    · exact .inr (.inr (.inr (.inr h)))
  | .error err, .inr (.inl ⟨_, _, h⟩) =>
    rcases h with rfl | rfl
    · exact .inr (.inr (.inr (.inr (.inl rfl))))
    · exact .inr (.inr (.inr (.inl rfl)))
  | .error err, .inr (.inr ⟨_, m, to, b, f, rsp, z, h1, h2, h3, h4, h5⟩) =>
    rw [hko] at h1
    have hdec := i.resp.recv f rsp (h4.subset (by simp))
    have hresp : ResponseTo o rsp := by
      rcases ownWaiter_answers h1 h2 with ⟨_, h⟩ | ⟨h, _⟩
      · exact h
      · rw [ho] at h; simp at h
    rw [hke] at h3
    have hbad := badStatus_some h3 (fun v hv => by
      obtain ⟨z, hz, _⟩ := status_int hdec hresp.1 hv
      exact ⟨z, hz⟩)
    rcases h5 with rfl | ⟨rfl, h6⟩
    · exact .inr (.inl ⟨rsp, z, rfl, hbad.1, hbad.2, hresp, b, f, hdec, h4⟩)
    · rw [hkw] at h6
      exact .inr (.inr (.inl ⟨rsp, z, rfl, h6, hbad.1, hbad.2, hresp, b, f, hdec, h4⟩))

/-- **C21**: when the response of a waiting call is there and the call runs again, a call without
response waiter succeeds exactly if the status is expected (or there is none), and raises
`CommandError` with that status otherwise. -/
theorem c21_decides (es : List Event) (t w d : Nat) (k : Task) (rsp : Obj)
    (hk : (Api.init.run es).tasks t = some k) (hpc : k.pc = .waiting w d)
    (hf : (Api.init.run es).fut w = .result rsp) (ho : k.obj.commandType = .SREQ)
    (hw : k.waiterId = none) :
    (StatusOk k.expected rsp ∧ (Api.init.run (es ++ [.wake t])).log =
      (Api.init.run es).log ++ [.finished t (.ok (some rsp))]) ∨
    (∃ z, rsp.payload.lookup "status" = some (.int z) ∧ z ∉ k.expected.getD [0] ∧
      (Api.init.run (es ++ [.wake t])).log =
        (Api.init.run es).log ++ [.finished t (.error (.commandError z))]) := by
  have i := inv_run es
  obtain ⟨_, _, _, _, m, to, hown, _, hres⟩ := i.resp.live t k w d hk hpc
  obtain ⟨hm, b, f, hsub⟩ := hres rsp hf
  have hdec := i.resp.recv f rsp (hsub.subset (by simp))
  have hresp : rsp.commandType = .SRSP := by
    rcases ownWaiter_answers hown hm with ⟨_, h⟩ | ⟨h, _⟩
    · exact h.1
    · rw [ho] at h; simp at h
  have hstep : Api.init.run (es ++ [.wake t]) = (Api.init.run es).conclude t k rsp := by
    rw [run_snoc]
    simp only [Api.step]
    rw [hk]; dsimp only; rw [hpc]; dsimp only; rw [hf]
  rw [hstep]
  unfold Api.conclude
  rw [if_pos ho]
  rcases hb : badStatus k.expected rsp with _ | z
  · exact .inl ⟨badStatus_none.mp hb, rfl⟩
  · right
    have hbad := badStatus_some hb (fun v hv => by
      obtain ⟨z, hz, _⟩ := status_int hdec hresp hv
      exact ⟨z, hz⟩)
    refine ⟨z, hbad.1, hbad.2, ?_⟩
    dsimp only
    rw [hw]
    rfl

/-- Success, refusal and an expected non-zero status. -/
example :
    (Api.init.run [.setUart true, .submit exDelete none none, .frame (exDeleteRsp 9),
      .wake 0]).log.getLast? = some (.finished 0 (.error (.commandError 9))) ∧
    ((Api.init.run [.setUart true, .submit exDelete none (some [0, 9]), .frame (exDeleteRsp 9),
      .wake 0]).log.getLast?.any fun
        | .finished 0 (.ok (some o)) => o.payload == [("status", .int 9)]
        | _ => false) = true := by decide +kernel

/-- A refusal: the hypotheses of C21 hold, and the case is the second. -/
example : ∃ rsp, rsp.payload.lookup "status" = some (.int 9) ∧
    GotResponse (Api.init.run [.setUart true, .submit exDelete none none, .frame (exDeleteRsp 9),
      .wake 0]).log 0 exDelete rsp (.error (.commandError 9)) := by
  rcases c21_status_partial [.setUart true, .submit exDelete none none, .frame (exDeleteRsp 9),
    .wake 0] 0 exDelete none none (.error (.commandError 9)) (by decide +kernel) rfl
    (by decide +kernel) with ⟨_, h, _⟩ | ⟨rsp, z, h, h1, _, h3⟩ | ⟨_, _, h, _⟩ | h | h | ⟨_, h, _, hn⟩
  · cases h
  · cases h; exact ⟨rsp, h1, h3⟩
  · cases h
  · cases h
  · cases h
  · exact absurd (by decide +kernel) (hn [0xFE, 4, 0x21, 18, 0x00, 0x0F, 1, 0, 0x39])

/-! ## C22 -/

/-- **C22.** A waiter gets at most one result. -/
theorem c22_resolved_once (es : List Event) (w : Nat) (o o' : Obj) :
    ¬ [Entry.resolved w o, .resolved w o'].Sublist (Api.init.run es).log := by
  intro h
  exact absurd rfl (pairwise_of_sub (f := Entry.resId) (R := (· ≠ ·))
    (inv_run es).wait.resNodup h rfl rfl)

/-- **C22.** Whoever has a result is not in the table, then or later. -/
theorem c22_resolved_gone (es es' : List Event) (w : Nat) (o : Obj)
    (h : .resolved w o ∈ (Api.init.run es).log) :
    ∀ x ∈ (Api.init.run (es ++ es')).waiters, x.id ≠ w := by
  have hm : Entry.resolved w o ∈ (Api.init.run (es ++ es')).log := by
    rw [run_append]; exact (grows_run _ es').log.subset h
  have i := (inv_run (es ++ es')).wait
  exact i.resOut w o ((i.resIff w o).mp hm)

/-- **C22.** Ids are given out in increasing order, so no two waiters share one. -/
theorem c22_ids_increase (es : List Event) (x y : Waiter) (tx ty : Nat)
    (h : [Entry.registered x tx, .registered y ty].Sublist (Api.init.run es).log) : x.id < y.id :=
  pairwise_of_sub (f := Entry.regId)
    (by rw [(inv_run es).wait.regs]; exact range_pairwise _) h rfl rfl

/-- **C22.** A waiter that left the table never comes back. -/
theorem c22_never_back (es es' : List Event) (x : Waiter) (time : Nat)
    (hr : .registered x time ∈ (Api.init.run es).log)
    (hn : ∀ y ∈ (Api.init.run es).waiters, y.id ≠ x.id) :
    ∀ y ∈ (Api.init.run (es ++ es')).waiters, y.id ≠ x.id := by
  intro y hy he
  rw [run_append] at hy
  have hlt : x.id < (Api.init.run es).waiterId := by
    have : x.id ∈ (Api.init.run es).log.filterMap Entry.regId :=
      List.mem_filterMap.mpr ⟨_, hr, rfl⟩
    rw [(inv_run es).wait.regs] at this
    simpa using this
  rcases (grows_run _ es').tab y hy with h | h
  · exact hn y h he
  · omega

/-- **C22.** Only registered waiters get results. -/
theorem c22_only_registered (es : List Event) (w : Nat) (o : Obj)
    (h : .resolved w o ∈ (Api.init.run es).log) :
    ∃ x time, .registered x time ∈ (Api.init.run es).log ∧ x.id = w := by
  have i := (inv_run es).wait
  have hf := (i.resIff w o).mp h
  have hlt : w < (Api.init.run es).waiterId := by
    apply Decidable.byContradiction
    intro hge
    rw [i.fresh w (by omega)] at hf
    simp at hf
  have : w ∈ (Api.init.run es).log.filterMap Entry.regId := by rw [i.regs]; simpa using hlt
  obtain ⟨e, he, hw⟩ := List.mem_filterMap.mp this
  cases e with
  | registered x time => exact ⟨x, time, he, by simpa [Entry.regId] using hw⟩
  | _ => simp [Entry.regId] at hw

example : (Api.init.run exTwo).log.filterMap Entry.resId = [0, 1] ∧
    (Api.init.run exTwo).waiters = [] := by decide +kernel

/-- The waiter of the first call has its result and never returns, whatever happens then. -/
example (es' : List Event) : ∀ x ∈ (Api.init.run (exTwo.take 4 ++ es')).waiters, x.id ≠ 0 := by
  have h : ((Api.init.run (exTwo.take 4)).log.filterMap fun
      | .resolved w o => if w = 0 then some o else none
      | _ => none) ≠ [] := by decide +kernel
  obtain ⟨o, ho⟩ := List.exists_mem_of_ne_nil _ h
  obtain ⟨e, he, hw⟩ := List.mem_filterMap.mp ho
  cases e <;> simp at hw
  obtain ⟨rfl, rfl⟩ := hw
  exact c22_resolved_gone (exTwo.take 4) es' 0 _ he

example (x y : Waiter) (h : [Entry.registered x 0, .registered y 5000].Sublist
    (Api.init.run [.register ⟨.AREQ, .AF, "incomingMsg", []⟩ 1000 none, .tick 5000,
      .register ⟨.AREQ, .AF, "incomingMsg", []⟩ 1000 none]).log) : x.id < y.id :=
  c22_ids_increase _ x y 0 5000 h

/-- Both registrations are there. -/
example : [Entry.registered ⟨0, ⟨.AREQ, .AF, "incomingMsg", []⟩, 1000, none⟩ 0,
      .registered ⟨1, ⟨.AREQ, .AF, "incomingMsg", []⟩, 1000, none⟩ 5000].Sublist
    (Api.init.run [.register ⟨.AREQ, .AF, "incomingMsg", []⟩ 1000 none, .tick 5000,
      .register ⟨.AREQ, .AF, "incomingMsg", []⟩ 1000 none]).log := by decide +kernel

/-- A waiter that expired does not return. -/
example (es' : List Event) : ∀ y ∈ (Api.init.run
    ([.register ⟨.AREQ, .AF, "incomingMsg", []⟩ 1000 none, .tick 1100, .timer 0] ++ es')).waiters,
    y.id ≠ 0 :=
  c22_never_back [.register ⟨.AREQ, .AF, "incomingMsg", []⟩ 1000 none, .tick 1100, .timer 0] es'
    ⟨0, ⟨.AREQ, .AF, "incomingMsg", []⟩, 1000, none⟩ 0 (by decide +kernel) (by decide +kernel)

/-! ## C23 -/

/-- **C23.** Every waiter in the table has its timer pending, due at its timeout plus 0.1 s. -/
theorem c23_timer_pending (es : List Event) (x : Waiter) (hx : x ∈ (Api.init.run es).waiters) :
    ∃ time, .registered x time ∈ (Api.init.run es).log ∧
      (x.id, time + x.timeout + 100) ∈ (Api.init.run es).timers :=
  (inv_run es).wait.regW x hx

/-- **C23.** When a due timer fires, its waiter is out of the table. -/
theorem c23_timer_removes (es : List Event) (w due : Nat)
    (ht : (w, due) ∈ (Api.init.run es).timers) (hd : due ≤ (Api.init.run es).now) :
    ∀ x ∈ (Api.init.run (es ++ [.timer w])).waiters, x.id ≠ w := by
  have i := inv_run es
  rw [run_snoc]
  simp only [Api.step]
  split
  · unfold Api.timerCallback
    split
    · rename_i o hf
      exact i.wait.resOut w o hf
    · exact pop_not_mem _ w
  · rename_i hnone
    rw [List.find?_eq_none] at hnone
    exact absurd (hnone _ ht) (by simp [hd])

/-- **C23.** If no due timer is left unfired, no waiter is older than its timeout plus 0.1 s. -/
theorem c23_not_overdue (es : List Event)
    (hrun : ∀ p ∈ (Api.init.run es).timers, (Api.init.run es).now < p.2) (x : Waiter)
    (hx : x ∈ (Api.init.run es).waiters) :
    ∃ time, .registered x time ∈ (Api.init.run es).log ∧
      (Api.init.run es).now < time + x.timeout + 100 := by
  obtain ⟨time, h1, h2⟩ := c23_timer_pending es x hx
  exact ⟨time, h1, hrun _ h2⟩

/-- The caller timed out after 6 s; the waiter is still there, until the timer fires. -/
example :
    (Api.init.run [.setUart true, .submit exVersion none none, .tick 6000,
      .timeout 0]).waiters.length = 1 ∧
    (Api.init.run [.setUart true, .submit exVersion none none, .tick 6000, .timeout 0]).timers
      = [(0, 6100)] ∧
    (Api.init.run [.setUart true, .submit exVersion none none, .tick 6000, .timeout 0, .tick 100,
      .timer 0]).waiters = [] := by decide +kernel

example : ∀ x ∈ (Api.init.run ([.setUart true, .submit exVersion none none, .tick 6000, .timeout 0,
    .tick 100] ++ [.timer 0])).waiters, x.id ≠ 0 :=
  c23_timer_removes [.setUart true, .submit exVersion none none, .tick 6000, .timeout 0, .tick 100]
    0 6100 (by decide +kernel) (by decide +kernel)

/-! ## C24 -/

/-- **C24**, one reply: the oldest waiter that asks for it gets it, with its transaction number;
all others stay as they are. -/
theorem c24_oldest (es : List Event) (f : Frame) (o : Obj) (pre post : List Waiter) (w : Waiter)
    (n : Int) (hd : Obj.fromUnpiFrame f = .ok o)
    (hW : (Api.init.run es).waiters = pre ++ w :: post)
    (hpre : ∀ x ∈ pre, Comparable x.matcher o ∧ ¬ Answers x.matcher o)
    (hw : Answers w.matcher o) (hs : w.sequence = some n) (hn : n ≠ 0) :
    (Api.init.run (es ++ [.frame f])).waiters = pre ++ post ∧
    (Api.init.run (es ++ [.frame f])).log.getLast? = some (.handed { o with sequence := some n }) ∧
    ((Api.init.run es).fut w.id = .pending →
      (Api.init.run (es ++ [.frame f])).fut w.id = .result o) ∧
    ∀ v, v ≠ w.id → (Api.init.run (es ++ [.frame f])).fut v = (Api.init.run es).fut v := by
  have i := inv_run es
  have hids := i.wait.ids
  rw [hW] at hids
  rw [run_snoc]
  simp only [Api.step]
  generalize Api.init.run es = s at *
  have hml : Api.matchLoop o s.waiters { s with log := s.log ++ [.received f o] } =
      ((({ s with log := s.log ++ [.received f o] } : Api).pop w.id).setResult w.id o,
        .ok w.sequence) := by
    rw [hW]
    exact matchLoop_first o w post pre _
      (fun x hx => match_false (hpre x hx).1 (hpre x hx).2)
      ((match_true _ _).mpr hw) (by rw [hs]; simpa [truthySeq] using hn)
  unfold Api.dataReceived
  rw [hd]
  dsimp only
  rw [hml]
  dsimp only
  refine ⟨?_, ?_, ?_, ?_⟩
  · rw [(setResult_fields _ _ _).2.2.1]
    show s.waiters.filter _ = _
    rw [hW, pop_split hids]
  · rw [hs]; simp
  · intro hp
    unfold Api.setResult
    rw [show (Api.pop { s with log := s.log ++ [Entry.received f o] } w.id).fut w.id = s.fut w.id
      from rfl, hp]
    exact upd_same _ _ _
  · intro v hv
    unfold Api.setResult
    split
    · show upd s.fut w.id _ v = _
      simp [upd, hv]
    · rfl

/-- **C24**, whole histories: if all requests waiting with matcher `m` carry a non-zero transaction
number, no other waiter asks for the same messages, and comparing never fails, then the transaction
numbers given to the replies are those a first-come-first-served queue would give. -/
theorem c24_kth (es : List Event) (m : Matcher)
    (tagged : ∀ x time, .registered x time ∈ (Api.init.run es).log → x.matcher = m →
      ∃ n, x.sequence = some n ∧ n ≠ 0)
    (comparable : ∀ x time f o, .registered x time ∈ (Api.init.run es).log →
      .received f o ∈ (Api.init.run es).log → Comparable x.matcher o)
    (exclusive : ∀ x time f o, .registered x time ∈ (Api.init.run es).log →
      .received f o ∈ (Api.init.run es).log → Answers m o → x.matcher ≠ m →
      ¬ Answers x.matcher o) :
    handedTags m (Api.init.run es).log = fifoTags [] (fifoOps m (Api.init.run es).log) :=
  (fifo_run es Api.init inv_init ⟨rfl, rfl⟩ ⟨tagged, comparable, exclusive⟩).tags

/-- ZDO `nodeDescReq` to the device 0x1234. -/
def exNodeDesc : Obj :=
  { commandType := .SREQ, subsystem := .ZDO, command := "nodeDescReq", commandId := 2,
    payload := [("dstaddr", .int 0x1234), ("nwkaddrofinterest", .int 0x1234)],
    parameters := [("dstaddr", .UINT16), ("nwkaddrofinterest", .UINT16)] }

/-- The answer of 0x1234. -/
def exNodeDescRsp : Frame :=
  Frame.of .AREQ .ZDO 130 [0x34, 0x12, 0, 0x34, 0x12, 1, 0x40, 0x8E, 0, 0, 0x52, 0, 0, 0, 0x52, 0, 0, 0]

/-- What `nodeDescReq` to 0x1234 waits for. -/
def exNodeDescMatcher : Matcher := ⟨.AREQ, .ZDO, "nodeDescRsp", [("srcaddr", .int 0x1234)]⟩

/-- Three requests, one of which expires, and three replies: tags 5, 7 and none. -/
def exFifo : List Event :=
  [.registerResponse exNodeDesc (some 5), .tick 5000, .registerResponse exNodeDesc (some 6),
   .tick 1000, .registerResponse exNodeDesc (some 7), .frame exNodeDescRsp, .tick 9100, .timer 1,
   .frame exNodeDescRsp, .frame exNodeDescRsp]

example : handedTags exNodeDescMatcher (Api.init.run exFifo).log = [some 5, some 7, none] ∧
    ((Api.init.run exFifo).log.all fun e => (Api.init.run exFifo).log.all fun e' =>
      match e, e' with
      | .registered x _, .received _ o => decide (x.matcher = exNodeDescMatcher ∧
          Comparable x.matcher o ∧ Answers exNodeDescMatcher o)
      | _, _ => true) = true := by
  decide +kernel

/-- **C24 (refuted for transaction number 0).** Two requests with transaction number 0 wait for the
same reply: one reply resolves both, and is handed on without a transaction number. -/
theorem c24_refuted :
    ∃ es m, (∀ x time, .registered x time ∈ (Api.init.run es).log →
        x.matcher = m ∧ x.sequence = some 0) ∧
      handedTags m (Api.init.run es).log = [none] ∧
      fifoTags [] (fifoOps m (Api.init.run es).log) = [some 0] ∧
      (Api.init.run es).log.filterMap Entry.resId = [0, 1] := by
  refine ⟨[.registerResponse exNodeDesc (some 0), .registerResponse exNodeDesc (some 0),
    .frame exNodeDescRsp], exNodeDescMatcher, ?_, ?_⟩
  · intro x time h
    have : ∀ e ∈ (Api.init.run [.registerResponse exNodeDesc (some 0),
        .registerResponse exNodeDesc (some 0), .frame exNodeDescRsp]).log,
        (match e with
          | .registered x _ => decide (x.matcher = exNodeDescMatcher ∧ x.sequence = some 0)
          | _ => true) = true := by decide +kernel
    simpa using this _ h
  · decide +kernel

/-- What it decodes to. -/
def exNodeDescObj : Obj :=
  { commandType := .AREQ, subsystem := .ZDO, command := "nodeDescRsp", commandId := 130,
    payload := [("srcaddr", .int 0x1234), ("status", .int 0), ("nwkaddr", .int 0x1234),
      ("logicaltype_cmplxdescavai_userdescavai", .int 1), ("apsflags_freqband", .int 0x40),
      ("maccapflags", .int 0x8E), ("manufacturercode", .int 0), ("maxbuffersize", .int 0x52),
      ("maxintransfersize", .int 0), ("servermask", .int 0x5200), ("maxouttransfersize", .int 0),
      ("descriptorcap", .int 0)],
    parameters := [("srcaddr", .UINT16), ("status", .UINT8), ("nwkaddr", .UINT16),
      ("logicaltype_cmplxdescavai_userdescavai", .UINT8), ("apsflags_freqband", .UINT8),
      ("maccapflags", .UINT8), ("manufacturercode", .UINT16), ("maxbuffersize", .UINT8),
      ("maxintransfersize", .UINT16), ("servermask", .UINT16), ("maxouttransfersize", .UINT16),
      ("descriptorcap", .UINT8)] }

/-- Two waiters ask for the same reply: the older one gets it, the other stays. -/
example : ((Api.init.run ((exFifo.take 3) ++ [.frame exNodeDescRsp])).waiters.map (·.id)) = [1] := by
  obtain ⟨h, _⟩ := c24_oldest (exFifo.take 3) exNodeDescRsp exNodeDescObj []
    [⟨1, exNodeDescMatcher, 10000, some 6⟩] ⟨0, exNodeDescMatcher, 10000, some 5⟩ 5
    (by decide +kernel) (by decide +kernel) (by intro x hx; cases hx) (by decide +kernel) rfl
    (by decide)
  rw [h]; rfl

/-! ## C26 -/

/-- **C26.** A message that no waiter asks for leaves the waiters and their futures alone. -/
theorem c26_unrelated (s : Api) (f : Frame) (o : Obj) (hd : Obj.fromUnpiFrame f = .ok o)
    (hn : ∀ x ∈ s.waiters, ¬ Answers x.matcher o) :
    (s.step (.frame f)).waiters = s.waiters ∧ (s.step (.frame f)).fut = s.fut ∧
    (s.step (.frame f)).timers = s.timers := by
  have key : ∀ (ws : List Waiter) (s : Api), (∀ x ∈ ws, ¬ Answers x.matcher o) →
      (Api.matchLoop o ws s).1 = s := by
    intro ws
    induction ws with
    | nil => intro s _; rfl
    | cons w ws ih =>
      intro s h
      rw [Api.matchLoop]
      split
      · rfl
      · exact ih s (fun x hx => h x (List.mem_cons_of_mem _ hx))
      · rename_i ht
        exact absurd ((match_true _ _).mp ht) (h w List.mem_cons_self)
  have hk := key s.waiters { s with log := s.log ++ [.received f o] } hn
  simp only [Api.step]
  unfold Api.dataReceived
  rw [hd]
  dsimp only
  split
  · rename_i heq; rw [heq] at hk; dsimp only at hk ⊢; subst hk; exact ⟨rfl, rfl, rfl⟩
  · rename_i heq; rw [heq] at hk; dsimp only at hk ⊢; subst hk; exact ⟨rfl, rfl, rfl⟩

/-- **C26.** A message only removes or resolves waiters that ask for exactly it. -/
theorem c26_only_answered (s : Api) (f : Frame) (o : Obj) (hd : Obj.fromUnpiFrame f = .ok o) :
    (∀ x ∈ s.waiters, x ∉ (s.step (.frame f)).waiters →
      ∃ y ∈ s.waiters, y.id = x.id ∧ Answers y.matcher o) ∧
    (∀ w, (s.step (.frame f)).fut w ≠ s.fut w →
      ∃ y ∈ s.waiters, y.id = w ∧ Answers y.matcher o ∧ s.fut w = .pending ∧
        (s.step (.frame f)).fut w = .result o) := by
  have hk := matchLoop_effect o s.waiters { s with log := s.log ++ [.received f o] }
  simp only [Api.step]
  unfold Api.dataReceived
  rw [hd]
  dsimp only
  split
  · rename_i heq; rw [heq] at hk; exact hk
  · rename_i heq; rw [heq] at hk; exact hk

/-- **C26.** In an execution, that waiter is the one that left. -/
theorem c26_left_was_answered (es : List Event) (f : Frame) (o : Obj)
    (hd : Obj.fromUnpiFrame f = .ok o) (x : Waiter) (hx : x ∈ (Api.init.run es).waiters)
    (hn : x ∉ (Api.init.run (es ++ [.frame f])).waiters) : Answers x.matcher o := by
  rw [run_snoc] at hn
  obtain ⟨y, hy, he, ha⟩ := (c26_only_answered _ f o hd).1 x hx hn
  have hids := (inv_run es).wait.ids
  have : y = x := by
    obtain ⟨n, hl, rfl⟩ := List.mem_iff_getElem.mp hx
    obtain ⟨n', hn', rfl⟩ := List.mem_iff_getElem.mp hy
    rw [List.pairwise_iff_getElem] at hids
    have key : ∀ a b (ha : a < (Api.init.run es).waiters.length)
        (hb : b < (Api.init.run es).waiters.length), a < b →
        (Api.init.run es).waiters[a].id < (Api.init.run es).waiters[b].id := by
      intro a b ha hb hab
      have := hids a b (by simpa using ha) (by simpa using hb) hab
      simpa using this
    rcases Nat.lt_trichotomy n n' with h | h | h
    · have := key _ _ hl hn' h; omega
    · subst h; rfl
    · have := key _ _ hn' hl h; omega
  rw [← this]; exact ha

/-- **C26.** A frame that does not decode changes nothing. -/
theorem c26_undecodable (s : Api) (f : Frame) (e : PyErr) (hd : Obj.fromUnpiFrame f = .error e) :
    s.step (.frame f) = s := by
  simp only [Api.step, Api.dataReceived, hd]

/-- The response to `version` is not what the node descriptor waiter asks for. -/
example : ∃ o, Obj.fromUnpiFrame exVersionRsp = .ok o ∧
    ((Api.init.run [.registerResponse exNodeDesc (some 5)]).waiters.all
      fun x => decide (¬ Answers x.matcher o)) = true ∧
    (Api.init.run [.registerResponse exNodeDesc (some 5)]).waiters ≠ [] := by
  refine ⟨{ commandType := .SRSP, subsystem := .SYS, command := "version", commandId := 2,
            payload := [("transportrev", .int 2), ("product", .int 1), ("majorrel", .int 2),
      ("minorrel", .int 7), ("maintrel", .int 1), ("revision", .int 0)],
            parameters := [("transportrev", .UINT8), ("product", .UINT8), ("majorrel", .UINT8),
      ("minorrel", .UINT8), ("maintrel", .UINT8), ("revision", .UINT32)] }, ?_⟩
  decide +kernel

/-- This `nodeDescRsp` is of the right kind but from another device: nothing happens. -/
example : (Api.init.run [.registerResponse exNodeDesc (some 5),
    .frame (Frame.of .AREQ .ZDO 130 [0x35, 0x12, 0, 0x35, 0x12, 1, 0x40, 0x8E, 0, 0, 0x52, 0, 0, 0,
      0x52, 0, 0, 0])]).waiters =
    (Api.init.run [.registerResponse exNodeDesc (some 5)]).waiters := by decide +kernel

/-- A node descriptor leaves a waiter for incoming messages alone, and the waiter that it removes
asked for it. -/
example : ((Api.init.run [.register ⟨.AREQ, .AF, "incomingMsg", []⟩ 1000 none]).step
      (.frame exNodeDescRsp)).waiters =
    (Api.init.run [.register ⟨.AREQ, .AF, "incomingMsg", []⟩ 1000 none]).waiters :=
  (c26_unrelated _ exNodeDescRsp exNodeDescObj (by decide +kernel) (by decide +kernel)).1

example : Answers exNodeDescMatcher exNodeDescObj :=
  c26_left_was_answered [.registerResponse exNodeDesc (some 5)] exNodeDescRsp exNodeDescObj
    (by decide +kernel) ⟨0, exNodeDescMatcher, 10000, some 5⟩ (by decide +kernel) (by decide +kernel)

/-- A node descriptor cut off in the middle. -/
example (s : Api) : s.step (.frame (Frame.of .AREQ .ZDO 130 [0x34])) = s :=
  c26_undecodable s _ .overflowError (by decide +kernel)

/-! ## C27 -/

/-- The matchers that start_znp.py gives to `wait_for` directly (lines 138, 153, 207): without
payload, or the state of a `stateChangeInd`. -/
def StartupMatcher (m : Matcher) : Prop :=
  m.payload = [] ∨ ∃ v, m = ⟨.AREQ, .ZDO, "stateChangeInd", [("state", v)]⟩

theorem startup_comparable {m : Matcher} (h : StartupMatcher m) {f : Frame} {r : Obj}
    (hr : Obj.fromUnpiFrame f = .ok r) : Comparable m r := by
  rcases h with h | ⟨v, rfl⟩
  · intro _ _ _ p hp
    rw [h] at hp; simp at hp
  · intro h1 h2 h3 p hp
    simp only [List.mem_singleton] at hp
    subst hp
    dsimp only at h1 h2 h3 ⊢
    obtain ⟨cs, c, hcs, hc, hn, hpar⟩ := decoded_areq hr h1.symm h2.symm
    have : cs = defZDO := by simpa [definition] using hcs.symm
    subst this
    apply payload_has hr
    rw [hpar]
    exact zdo_state_dec c hc (hn.trans h3.symm)

/-- **C27.** If waiters are registered only through requests, `create_response_waiter` and the
startup code, every received message that decodes is compared with all of them without an
exception, and handed on. -/
theorem c27_matching_never_raises (es : List Event)
    (hreg : ∀ m to q, .register m to q ∈ es → StartupMatcher m) (f : Frame) (o : Obj)
    (hd : Obj.fromUnpiFrame f = .ok o) :
    ∃ q, ((Api.init.run es).dataReceived f).2 = .ok { o with sequence := q } := by
  have hs : RegsSat (fun m _ => ∀ f r, Obj.fromUnpiFrame f = .ok r → Comparable m r)
      (Api.init.run es).log := by
    refine regsSat_run (fun o m to h f r _ => own_comparable h r)
      (fun o q m q' h f r hr => response_comparable h hr) es Api.init (fun x t h => by
        simp [Api.init] at h) ?_
    intro e he m to q heq f r hr
    subst heq
    exact startup_comparable (hreg m to q he) hr
  have hW : ∀ x ∈ (Api.init.run es).waiters, Comparable x.matcher o := by
    intro x hx
    obtain ⟨time, h, _⟩ := (inv_run es).wait.regW x hx
    exact hs x time h f o hd
  obtain ⟨q, hq⟩ := matchLoop_no_error o (Api.init.run es).waiters
    { Api.init.run es with log := (Api.init.run es).log ++ [.received f o] } hW
  refine ⟨q, ?_⟩
  unfold Api.dataReceived
  rw [hd]
  dsimp only
  split
  · rename_i heq; rw [heq] at hq; simp at hq
  · rename_i heq; rw [heq] at hq; simp at hq; subst hq; rfl

example : StartupMatcher ⟨.AREQ, .ZDO, "stateChangeInd", [("state", .int 9)]⟩ ∧
    StartupMatcher ⟨.AREQ, .AF, "incomingMsg", []⟩ := ⟨.inr ⟨_, rfl⟩, .inl rfl⟩

/-- A waiter for a field that the message does not have does raise. -/
example : ((Api.init.run [.register ⟨.AREQ, .ZDO, "nodeDescRsp", [("x", .int 1)]⟩ 1000 none]).dataReceived
    exNodeDescRsp).2 = .error (.keyError "x") := by decide +kernel

/-! ## C28 -/

/-- **C28.** For a data request the response waiter expects the data confirm with the same
transaction id. -/
theorem c28_data_confirm (s : Api) (o : Obj) (q : Option Int) (v : Val)
    (ho : o.commandType = .SREQ) (hc : o.command = "dataRequest" ∨ o.command = "dataRequestExt")
    (hv : o.payload.lookup "transid" = some v) :
    ∃ w : Waiter, (s.createResponseWaiter o q).2 = .ok (some w.id) ∧
      (s.createResponseWaiter o q).1.waiters = s.waiters ++ [w] ∧ w.timeout = 10000 ∧
      ∀ r, Answers w.matcher r ↔ r.commandType = .AREQ ∧ r.subsystem = .AF ∧
        r.command = "dataConfirm" ∧ r.payload.lookup "transid" = some v := by
  have hpre : strStartsWith o.command "dataRequest" = true := by
    rcases hc with h | h <;> rw [h] <;> decide +kernel
  have hr : responseWaiter o q = .ok (some (⟨.AREQ, .AF, "dataConfirm", [("transid", v)]⟩, none)) := by
    unfold responseWaiter
    rw [if_pos ⟨ho, hpre⟩]
    unfold dictGet
    rw [hv]
    rfl
  refine ⟨⟨s.waiterId, ⟨.AREQ, .AF, "dataConfirm", [("transid", v)]⟩, 10000, none⟩, ?_, ?_, rfl, ?_⟩
  · unfold Api.createResponseWaiter; rw [hr]; rfl
  · unfold Api.createResponseWaiter; rw [hr]; rfl
  · intro r
    unfold Answers
    simp only [List.mem_singleton, forall_eq]
    constructor
    · rintro ⟨h1, h2, h3, h4⟩; exact ⟨h1.symm, h2.symm, h3.symm, h4⟩
    · rintro ⟨h1, h2, h3, h4⟩; exact ⟨h1.symm, h2.symm, h3.symm, h4⟩

/-- **C28.** For a ZDO `...Req` request made from a cluster message the response waiter expects
the `...Rsp` indication from the destination, tagged with the given transaction number, with a time
limit of 10 s; except for three commands. -/
theorem c28_zdo_response_partial (s : Api) {nwk profile cluster srcEp dstEp sequence radius : Int}
    {data : List UInt8} {addrMode : Option Int} (hp : profile ≠ 260) {o : Obj}
    (h : Obj.fromCluster nwk profile cluster srcEp dstEp sequence data radius addrMode = .ok o)
    (ho : o.commandType = .SREQ) (base : List Char)
    (hb : o.command = String.ofList (base ++ ['R', 'e', 'q']))
    (hr : ∃ d, InTable .ZDO d ∧ d.name = String.ofList (base ++ ['R', 's', 'p']))
    (hx : o.command ∉ undirected) (q : Option Int) :
    ∃ w : Waiter, (s.createResponseWaiter o q).2 = .ok (some w.id) ∧
      (s.createResponseWaiter o q).1.waiters = s.waiters ++ [w] ∧ w.timeout = 10000 ∧
      w.sequence = q ∧
      ∀ r, Answers w.matcher r ↔ r.commandType = .AREQ ∧ r.subsystem = .ZDO ∧
        r.command = String.ofList (base ++ ['R', 's', 'p']) ∧
        r.payload.lookup "srcaddr" = some (.int nwk) := by
  have hrw := (zdo_responseWaiter hp h ho base hb hr q).1 hx
  refine ⟨⟨s.waiterId, ⟨.AREQ, .ZDO, String.ofList (base ++ ['R', 's', 'p']),
    [("srcaddr", .int nwk)]⟩, 10000, q⟩, ?_, ?_, rfl, rfl, ?_⟩
  · unfold Api.createResponseWaiter; rw [hrw]; rfl
  · unfold Api.createResponseWaiter; rw [hrw]; rfl
  · intro r
    unfold Answers
    simp only [List.mem_singleton, forall_eq]
    constructor
    · rintro ⟨h1, h2, h3, h4⟩; exact ⟨h1.symm, h2.symm, h3.symm, h4⟩
    · rintro ⟨h1, h2, h3, h4⟩; exact ⟨h1.symm, h2.symm, h3.symm, h4⟩

/-- **C28.** For these three it always fails, with a `KeyError`. -/
theorem c28_undirected_fails (s : Api) {nwk profile cluster srcEp dstEp sequence radius : Int}
    {data : List UInt8} {addrMode : Option Int} (hp : profile ≠ 260) {o : Obj}
    (h : Obj.fromCluster nwk profile cluster srcEp dstEp sequence data radius addrMode = .ok o)
    (hx : o.command ∈ undirected) (q : Option Int) :
    (s.createResponseWaiter o q).2 = .error (.keyError "dstaddr") := by
  have key : responseWaiter o q = .error (.keyError "dstaddr") := by
    obtain ⟨c, payload, ⟨cs, hcs, hmem⟩, _, _, _, ho⟩ := fromCluster_zdo_ok hp h
    have hcs' : cs = defZDO := by simpa [definition] using hcs.symm
    have hc : o.command = c.name := by rw [ho]
    have hS : o.commandType = .SREQ := by
      rw [ho]; exact zdo_undirected_dec c (hcs' ▸ hmem) (hc ▸ hx)
    have hu := hx
    simp only [undirected, List.mem_cons, List.not_mem_nil, or_false] at hu
    rcases hu with hu | hu | hu
    · exact (zdo_responseWaiter hp h hS "nwkAddr".toList (by rw [hu]; decide +kernel)
        (zdo_exists "nwkAddrRsp" (by decide +kernel) _ (by decide +kernel)) q).2 hx
    · exact (zdo_responseWaiter hp h hS "ieeeAddr".toList (by rw [hu]; decide +kernel)
        (zdo_exists "ieeeAddrRsp" (by decide +kernel) _ (by decide +kernel)) q).2 hx
    · exact (zdo_responseWaiter hp h hS "serverDisc".toList (by rw [hu]; decide +kernel)
        (zdo_exists "serverDiscRsp" (by decide +kernel) _ (by decide +kernel)) q).2 hx
  unfold Api.createResponseWaiter
  rw [key]

/-- **C28.** Nothing is registered for messages that are not synchronous requests. -/
theorem c28_others (s : Api) (o : Obj) (q : Option Int) (ho : o.commandType ≠ .SREQ) :
    s.createResponseWaiter o q = (s, .ok none) := by
  unfold Api.createResponseWaiter responseWaiter
  rw [if_neg (fun h => ho h.1), if_neg (fun h => ho h.1)]
  rfl

/-- Node descriptor request, as zigpy gives it to the application: transaction number and body. -/
example : ∃ o, Obj.fromCluster 0x1234 0 2 0 0 7 [7, 0x34, 0x12] = .ok o ∧
    o.commandType = .SREQ ∧ o.command = String.ofList ("nodeDesc".toList ++ ['R', 'e', 'q']) ∧
    o.command ∉ undirected := by
  refine ⟨{ exNodeDesc with sequence := some 7 }, ?_⟩
  decide +kernel

/-- **C28 (refuted).** zigpy's network address request (transaction number, address, request type,
start index) makes `create_response_waiter` raise. -/
theorem c28_refuted : ∃ o, Obj.fromCluster 0xFFFD 0 0 0 0 7 [7, 1, 2, 3, 4, 5, 6, 7, 8, 0, 0] = .ok o ∧
    (Api.init.createResponseWaiter o (some 7)).2 = .error (.keyError "dstaddr") := by
  have h : ∃ o, Obj.fromCluster 0xFFFD 0 0 0 0 7 [7, 1, 2, 3, 4, 5, 6, 7, 8, 0, 0] = .ok o ∧
      o.command = "nwkAddrReq" := by
    rcases hf : Obj.fromCluster 0xFFFD 0 0 0 0 7 [7, 1, 2, 3, 4, 5, 6, 7, 8, 0, 0] with e | o
    · exfalso
      have : (Obj.fromCluster 0xFFFD 0 0 0 0 7 [7, 1, 2, 3, 4, 5, 6, 7, 8, 0, 0]).toOption.isSome
        = true := by decide +kernel
      rw [hf] at this
      simp [Except.toOption] at this
    · refine ⟨o, rfl, ?_⟩
      have : (Obj.fromCluster 0xFFFD 0 0 0 0 7 [7, 1, 2, 3, 4, 5, 6, 7, 8, 0, 0]).toOption.map
        (·.command) = some "nwkAddrReq" := by decide +kernel
      rw [hf] at this
      simpa [Except.toOption] using this
  obtain ⟨o, h1, h2⟩ := h
  exact ⟨o, h1, c28_undirected_fails _ (by decide) h1 (by rw [h2]; decide) _⟩

/-- A node descriptor request made by `from_cluster`, whatever the state of the API. -/
example (s : Api) : ∃ w : Waiter,
    (s.createResponseWaiter { exNodeDesc with sequence := some 7 } (some 7)).2 = .ok (some w.id) ∧
    ∀ r, Answers w.matcher r ↔ r.commandType = .AREQ ∧ r.subsystem = .ZDO ∧
      r.command = "nodeDescRsp" ∧ r.payload.lookup "srcaddr" = some (.int 0x1234) := by
  obtain ⟨w, h1, _, _, _, h2⟩ := c28_zdo_response_partial s (nwk := 0x1234) (profile := 0)
    (cluster := 2) (srcEp := 0) (dstEp := 0) (sequence := 7) (radius := 30) (addrMode := none)
    (data := [7, 0x34, 0x12]) (by decide) (o := { exNodeDesc with sequence := some 7 })
    (by decide +kernel) rfl "nodeDesc".toList (by decide +kernel)
    ⟨⟨"nodeDescRsp", 130, .AREQ, exNodeDescObj.parameters, none⟩, ⟨defZDO, rfl, by decide +kernel⟩,
      by decide +kernel⟩ (by decide +kernel) (some 7)
  exact ⟨w, h1, h2⟩

/-- A unicast message with transaction number 7. -/
example : ∃ w : Waiter, (Api.init.createResponseWaiter
      { commandType := .SREQ, subsystem := .AF, command := "dataRequest", commandId := 1,
        payload := [("dstaddr", .int 0x1234), ("transid", .int 7)], parameters := [] } (some 7)).2 = .ok (some w.id) ∧
    ∀ r, Answers w.matcher r ↔ r.commandType = .AREQ ∧ r.subsystem = .AF ∧
      r.command = "dataConfirm" ∧ r.payload.lookup "transid" = some (.int 7) := by
  obtain ⟨w, h1, -, -, h2⟩ := c28_data_confirm Api.init
    { commandType := .SREQ, subsystem := .AF, command := "dataRequest", commandId := 1,
      payload := [("dstaddr", .int 0x1234), ("transid", .int 7)], parameters := [] } (some 7) (.int 7) rfl (.inl rfl) rfl
  exact ⟨w, h1, h2⟩

/-! ## C29 -/

/-- **C29 (partial).** After a call failed with `CommandError`, its response waiter is not in the
table, then or later. Missing: that every refusal gives a `CommandError`; see `c29_refuted`. -/
theorem c29_refused_partial (es : List Event) (t w : Nat) (o : Obj) (e : Option (List Int)) (z : Int)
    (hs : .submitted t o (some w) e ∈ (Api.init.run es).log)
    (hf : .finished t (.error (.commandError z)) ∈ (Api.init.run es).log) :
    ∀ x ∈ (Api.init.run es).waiters, x.id ≠ w := by
  have i := inv_run es
  obtain ⟨k, hk, _, hw, _⟩ := (i.log.subIff _ _ _ _).mp hs
  obtain ⟨k', hk', hpc⟩ := (i.log.fin _ _).mp hf
  rw [hk] at hk'; cases hk'
  exact (ref_run es Api.init inv_init ref_init t k w z hk hpc hw).2

/-- **C29 (partial).** If the response waiter is still registered when the call ends, the call does
not end with the `KeyError`. -/
theorem c29_keyerror_only_if_gone (es : List Event) (e : Event) (t w : Nat) (o : Obj)
    (ex : Option (List Int)) (b : List UInt8) (r : Except PyErr (Option Obj))
    (hs : .submitted t o (some w) ex ∈ (Api.init.run es).log)
    (hb : .sent t b ∈ (Api.init.run es).log)
    (hn : ∀ r, .finished t r ∉ (Api.init.run es).log)
    (hf : .finished t r ∈ (Api.init.run (es ++ [e])).log)
    (hx : ∃ x ∈ (Api.init.run es).waiters, x.id = w) : r ≠ .error (.keyError "waiter") := by
  have i := inv_run es
  have i' := inv_run (es ++ [e])
  obtain ⟨k, hk, _, hw, _⟩ := (i.log.subIff _ _ _ _).mp hs
  obtain ⟨k', hk', hpc'⟩ := (i'.log.fin _ _).mp hf
  rw [run_snoc] at hk'
  obtain ⟨pc, hpc⟩ := task_kept i hk e
  rw [hpc] at hk'
  cases hk'
  dsimp only at hpc'
  subst hpc'
  obtain ⟨k2, hk2, hq, _⟩ := i.log.sentStarted t b hb
  rw [hk] at hk2; cases hk2
  have hnd : k.pc ≠ .done r := fun h => hn r ((i.log.fin t r).mpr ⟨k, hk, h⟩)
  rcases finishing i hk hq hnd hpc with ⟨w', d, rsp, _, _, _, hc⟩ | ⟨_, h⟩ | ⟨_, h⟩
  · rw [hc] at hpc
    obtain ⟨x, hx1, hx2⟩ := hx
    exact conclude_gone hk hw (by rw [List.any_eq_true]; exact ⟨x, hx1, by simp [hx2]⟩) hpc
  · rw [h]; simp
  · rw [h]; simp

/-- Refusal of a node descriptor request. -/
def exRefusal : Frame := Frame.of .SRSP .ZDO 2 [1]

/-- The normal case: the waiter is still there. -/
def exRefused : List Event :=
  [.setUart true, .registerResponse exNodeDesc (some 5), .submit exNodeDesc (some 0) none,
   .frame exRefusal, .wake 0]

example : Entry.finished 0 (.error (.commandError 1)) ∈ (Api.init.run exRefused).log ∧
    (Api.init.run exRefused).waiters = [] := by decide +kernel

/-- **C29, C21 (refuted).** The request waits more than 4.1 s for another one (which times out), its
response waiter expires while it waits for its own response, then the radio refuses it: the caller
gets `KeyError`, not `CommandError`. -/
theorem c29_refuted :
    ∃ es, .submitted 1 exNodeDesc (some 0) none ∈ (Api.init.run es).log ∧
      (∃ rsp r, GotResponse (Api.init.run es).log 1 exNodeDesc rsp r ∧
        rsp.payload.lookup "status" = some (.int 1)) ∧
      .finished 1 (.error (.keyError "waiter")) ∈ (Api.init.run es).log := by
  refine ⟨[.setUart true, .registerResponse exNodeDesc (some 5), .submit exVersion none none,
    .submit exNodeDesc (some 0) none, .tick 6000, .timeout 0, .grant, .tick 4200, .timer 0,
    .frame exRefusal, .wake 1], by decide +kernel, ?_, by decide +kernel⟩
  refine ⟨{ commandType := .SRSP, subsystem := .ZDO, command := "nodeDescReq", commandId := 2,
            payload := [("status", .int 1)], parameters := [("status", .UINT8)] },
    .error (.keyError "waiter"), ⟨⟨rfl, rfl, rfl⟩,
      [0xFE, 4, 0x25, 2, 0x34, 0x12, 0x34, 0x12, 0x23], exRefusal, ?_, ?_⟩, rfl⟩
  · decide +kernel
  · decide +kernel

example : ∀ x ∈ (Api.init.run exRefused).waiters, x.id ≠ 0 :=
  c29_refused_partial exRefused 0 0 exNodeDesc none 1 (by decide +kernel) (by decide +kernel)

/-! ## C30 -/

/-- **C30.** The lock is held exactly by a call that wrote its request and has not finished; so it
is free as soon as a call ends, however it ends. -/
theorem c30_holder (es : List Event) (t : Nat) : (Api.init.run es).holder = some t ↔
    (∃ b, .sent t b ∈ (Api.init.run es).log) ∧ ∀ r, .finished t r ∉ (Api.init.run es).log := by
  have i := inv_run es
  have hset := settled_run settled_init es
  constructor
  · intro h
    obtain ⟨k, hk, ha⟩ := (i.lock.hIff t).mp h
    constructor
    · rcases hp : k.pc with _ | _ | ⟨w, d⟩ | r
      · rw [hp] at ha; exact ha.elim
      · exact absurd hp (hset t k hk)
      · exact (i.resp.live t k w d hk hp).2.2.2.1
      · rw [hp] at ha; exact ha.elim
    · intro r hr
      obtain ⟨k', hk', hp⟩ := (i.log.fin t r).mp hr
      rw [hk] at hk'; cases hk'
      rw [hp] at ha; exact ha
  · rintro ⟨⟨b, hb⟩, hn⟩
    rcases i.log.sentDone t b hb with h | ⟨r, hr⟩
    · exact h
    · exact absurd (hr.subset (by simp)) (hn r)

/-- **C30.** If the lock is free, the first waiting call can take it at once. -/
theorem c30_next (es : List Event) (t : Nat) (q : List Nat)
    (hh : (Api.init.run es).holder = none) (hq : (Api.init.run es).queue = t :: q) :
    (Api.init.run (es ++ [.grant])).queue = q := by
  rw [run_snoc]; exact grant_queue (inv_run es) hh hq

/-- **C30.** From every state, time limits and lock grants alone (no help from the radio, no
cancellation) lead to a state in which every call ever submitted has ended and the lock is free. -/
theorem c30_no_deadlock (es : List Event) : ∃ es',
    (∀ e ∈ es', (∃ ms, e = .tick ms) ∨ (∃ t, e = .wake t) ∨ (∃ t, e = .timeout t) ∨ e = .grant) ∧
    (Api.init.run (es ++ es')).holder = none ∧
    ∀ t o w e, .submitted t o w e ∈ (Api.init.run (es ++ es')).log →
      ∃ r, .finished t r ∈ (Api.init.run (es ++ es')).log := by
  obtain ⟨es', h1, h2, h3⟩ := drain _ (Api.init.run es) (inv_run es)
    (settled_run settled_init es) (Nat.le_refl _)
  refine ⟨es', h1, ?_, ?_⟩
  · rw [run_append]; exact h2
  · intro t o w e hs
    have i := inv_run (es ++ es')
    have hset := settled_run settled_init (es ++ es')
    obtain ⟨k, hk, _⟩ := (i.log.subIff _ _ _ _).mp hs
    rcases hp : k.pc with _ | _ | ⟨w', d⟩ | r
    · have := (i.lock.qIff t).mpr ⟨k, hk, hp⟩
      rw [run_append, h3] at this; simp at this
    · exact absurd hp (hset t k hk)
    · have := (i.lock.hIff t).mpr ⟨k, hk, by rw [hp]; trivial⟩
      rw [run_append, h2] at this; simp at this
    · exact ⟨r, (i.log.fin t r).mpr ⟨k, hk, hp⟩⟩

/-- One call waits for its response, one for the lock. -/
example : (Api.init.run (exTwo.take 3)).holder = some 0 ∧ (Api.init.run (exTwo.take 3)).queue = [1] ∧
    (Api.init.run (exTwo.take 5)).holder = none := by decide +kernel

example : (Api.init.run (exTwo.take 5 ++ [.grant])).queue = [] :=
  c30_next (exTwo.take 5) 1 [] (by decide +kernel) (by decide +kernel)

/-! ## C31 -/

/-- **C31.** A reset returns only a reset indication that arrived after it was written. -/
theorem c31_reset (es : List Event) (t : Nat) (o : Obj) (w : Option Nat) (e : Option (List Int))
    (r : Option Obj) (hs : .submitted t o w e ∈ (Api.init.run es).log)
    (ho : o.commandType = .AREQ) (hr : IsReset o)
    (hf : .finished t (.ok r) ∈ (Api.init.run es).log) :
    ∃ ind b f, r = some ind ∧ ind.commandType = .AREQ ∧ ind.subsystem = .SYS ∧
      ind.command = "resetInd" ∧ WrittenAs o b ∧ Obj.fromUnpiFrame f = .ok ind ∧
      [Entry.sent t b, .received f ind, .finished t (.ok (some ind))].Sublist
        (Api.init.run es).log := by
  have i := inv_run es
  obtain ⟨k, hk, hko, _, _⟩ := (i.log.subIff t o w e).mp hs
  obtain ⟨k', hk', hpc⟩ := (i.log.fin t _).mp hf
  rw [hk] at hk'; cases hk'
  have out := i.resp.done t k _ hk hpc
  match r, out with
  | some ind, ⟨m, to, b, f, h1, h2, h3, _⟩ =>
    rw [hko] at h1
    rcases ownWaiter_answers h1 h2 with ⟨h, _⟩ | ⟨_, _, h4, h5, h6⟩
    · rw [ho] at h; simp at h
    · obtain ⟨k', h7, _, h8⟩ := i.log.sentStarted t b (h3.subset (by simp))
      rw [hk] at h7; cases h7
      rw [hko] at h8
      exact ⟨ind, b, f, rfl, h4, h5, h6, encode_ok h8, i.resp.recv f ind (h3.subset (by simp)), h3⟩
  | none, ⟨_, h, _⟩ => rw [hko] at h; exact absurd hr (not_isReset h)

/-- **C31.** Another asynchronous request, submitted while nobody uses the port, is written and
returns at once; no waiter is registered. -/
theorem c31_areq_at_once (es : List Event) (o : Obj) (e : Option (List Int)) (b : List UInt8)
    (ho : o.commandType = .AREQ) (hr : ¬ IsReset o) (hb : WrittenAs o b)
    (hu : (Api.init.run es).uart = true) (hh : (Api.init.run es).holder = none)
    (hq : (Api.init.run es).queue = []) :
    (Api.init.run (es ++ [.submit o none e])).log = (Api.init.run es).log ++
      [.submitted (Api.init.run es).nextTid o none e, .sent (Api.init.run es).nextTid b,
       .finished (Api.init.run es).nextTid (.ok none)] ∧
    (Api.init.run (es ++ [.submit o none e])).waiters = (Api.init.run es).waiters := by
  have hir : o.isResetCommand = false := by
    rcases h : o.isResetCommand with _ | _
    · rfl
    · exfalso
      apply hr
      simp [Obj.isResetCommand] at h
      rcases h with h | h
      · exact .inl ⟨h.2, h.1⟩
      · exact .inr ⟨h.2, h.1⟩
  have hown : ownWaiter o = none := by
    unfold ownWaiter
    rw [if_neg (by rw [ho]; simp), if_neg (by rw [hir]; simp)]
  obtain ⟨f, hf1, hf2⟩ := hb
  rw [run_snoc]
  generalize Api.init.run es = s at *
  simp only [Api.step, Option.all_none, if_true]
  rw [if_pos ⟨hh, hq⟩]
  unfold Api.grant Api.enqueue
  simp only [hh, hq, List.nil_append, upd_same]
  unfold Api.start
  rw [hf1]
  dsimp only
  rw [hown]
  dsimp only
  rw [if_pos ho]
  unfold Api.uartSend
  simp only [Api.setPc, upd_same, hu, if_true, hf2]
  unfold Api.finish
  simp [Api.setPc, upd_same]

/-- **C31.** Messages that are not requests (polls and responses) are never written, and submitting
them never succeeds. -/
theorem c31_not_a_request (es : List Event) (t : Nat) (o : Obj) (w : Option Nat)
    (e : Option (List Int)) (hs : .submitted t o w e ∈ (Api.init.run es).log)
    (h1 : o.commandType ≠ .SREQ) (h2 : o.commandType ≠ .AREQ) :
    (∀ b, .sent t b ∉ (Api.init.run es).log) ∧
    ∀ r, .finished t (.ok r) ∉ (Api.init.run es).log := by
  have i := inv_run es
  obtain ⟨k, hk, hko, _, _⟩ := (i.log.subIff t o w e).mp hs
  have hown : ownWaiter o = none := by
    unfold ownWaiter
    rw [if_neg h1, if_neg (fun h => h2 h.1)]
  have hok : ∀ r, .finished t (.ok r) ∉ (Api.init.run es).log := by
    intro r hf
    obtain ⟨k', hk', hpc⟩ := (i.log.fin t _).mp hf
    rw [hk] at hk'; cases hk'
    have out := i.resp.done t k _ hk hpc
    match r, out with
    | some ind, ⟨m, to, b, f, h, _⟩ => rw [hko, hown] at h; simp at h
    | none, ⟨h, _⟩ => rw [hko] at h; exact h2 h
  refine ⟨?_, hok⟩
  intro b hb
  rcases i.log.sentDone t b hb with h | ⟨r, hr⟩
  · obtain ⟨k', hk', ha⟩ := (i.lock.hIff t).mp h
    rw [hk] at hk'; cases hk'
    rcases hp : k.pc with _ | _ | ⟨w, d⟩ | r
    · rw [hp] at ha; exact ha
    · exact absurd hp (settled_run settled_init es t k hk)
    · obtain ⟨_, _, _, _, m, to, h, _⟩ := i.resp.live t k w d hk hp
      rw [hko, hown] at h; simp at h
    · rw [hp] at ha; exact ha
  · obtain ⟨k', hk', hpc⟩ := (i.log.fin t r).mp (hr.subset (by simp))
    rw [hk] at hk'; cases hk'
    have out := i.resp.done t k _ hk hpc
    match r, out with
    | .ok r, _ => exact hok r (hr.subset (by simp))
    | .error err, .inl ⟨h, _⟩ => exact h b hb
    | .error err, .inr (.inl ⟨_, h, _⟩) => rw [hko, hown] at h; simp at h
    | .error err, .inr (.inr ⟨h, _⟩) => rw [hko] at h; exact h1 h

/-- Reset: an early indication does not count, a later one does. -/
example :
    (Api.init.run [.setUart true, .frame exResetInd, .submit exReset none none, .wake 0]).log.filterMap
      Entry.finId = [] ∧
    (Api.init.run [.setUart true, .submit exReset none none, .frame exResetInd, .wake 0]).log.filterMap
      Entry.finId = [0] := by decide +kernel

example : (Api.init.run [.setUart true, .submit exAreq none none]).log =
    [.submitted 0 exAreq none none, .sent 0 [0xFE, 1, 0x45, 65, 3, 6], .finished 0 (.ok none)] := by
  decide +kernel

example (r : Option Obj) (h : .finished 0 (.ok r) ∈ (Api.init.run [.setUart true,
    .submit exReset none none, .frame exResetInd, .wake 0]).log) :
    ∃ ind, r = some ind ∧ ind.command = "resetInd" := by
  obtain ⟨ind, _, _, h1, _, _, h2, _⟩ := c31_reset [.setUart true, .submit exReset none none,
    .frame exResetInd, .wake 0] 0 exReset none none r (by decide +kernel) rfl (.inl ⟨rfl, rfl⟩) h
  exact ⟨ind, h1, h2⟩

example : (Api.init.run ([.setUart true] ++ [.submit exAreq none none])).log =
    [] ++ [.submitted 0 exAreq none none, .sent 0 [0xFE, 1, 0x45, 65, 3, 6],
      .finished 0 (.ok none)] :=
  (c31_areq_at_once [.setUart true] exAreq none [0xFE, 1, 0x45, 65, 3, 6] rfl
    (by unfold IsReset; decide +kernel) ⟨Frame.of .AREQ .ZDO 65 [3], by decide +kernel, by decide +kernel⟩
    (by decide +kernel) (by decide +kernel) (by decide +kernel)).1

end Zcc
