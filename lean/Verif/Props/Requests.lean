import Verif.Proofs.AppRuntime
import Verif.Proofs.Reply

/-!
# Properties of outgoing requests, C36 - C41

All executions of the application are covered: `es` is an arbitrary list of events (calls of
`request`, `mrequest`, `broadcast` and `permit_ncp`, cancellations, restarts, and everything that
can happen in the APIs), `AppSys.init.run es` is the state they lead to.
-/

namespace Zcc
open Spec

/-- For the examples: how a call ended. -/
def resultOf (s : AppSys) (n : Nat) : Option Result :=
  s.tasks[n]?.bind fun k => match k.pc with
    | .done r => some r
    | _ => none

theorem endedWith_iff {s : AppSys} {n : Nat} {r : Result} :
    EndedWith s n r ↔ resultOf s n = some r := by
  unfold EndedWith resultOf
  rcases s.tasks[n]? with _ | k
  · simp
  · simp only [Option.some.injEq, Option.bind_some]
    constructor
    · rintro ⟨k', rfl, h⟩; rw [h]
    · intro h
      refine ⟨k, rfl, ?_⟩
      split at h
      · rename_i heq; rw [heq]; cases h; rfl
      · cases h

theorem isCall_iff {s : AppSys} {n : Nat} {c : Call} :
    IsCall s n c ↔ (s.tasks[n]?.map (·.call)) = some c := by
  unfold IsCall
  rcases s.tasks[n]? with _ | k <;> simp

/-- For the examples: what a call wrote. -/
def writesOf (s : AppSys) (n : Nat) : List (List UInt8) :=
  match s.tasks[n]?.bind (·.ran) with
  | some (i, t) => (s.api i).log.filterMap fun
    | .sent t' b => if t' = t then some b else none
    | _ => none
  | none => []

theorem wrote_iff {s : AppSys} {n : Nat} {b : List UInt8} : Wrote s n b ↔ b ∈ writesOf s n := by
  unfold Wrote writesOf
  rcases s.tasks[n]? with _ | k
  · simp
  · rcases hr : k.ran with _ | ⟨i, t⟩
    · simp [hr]
    · simp only [Option.some.injEq, Option.bind_some, hr, List.mem_filterMap]
      constructor
      · rintro ⟨k', i', t', rfl, h1, h2⟩
        rw [hr] at h1; cases h1
        exact ⟨_, h2, by simp⟩
      · rintro ⟨e, h1, h2⟩
        split at h2
        · split at h2
          · rename_i h; cases h2; cases h
            exact ⟨k, i, _, rfl, hr, h1⟩
          · cases h2
        · cases h2

/-! ## Every call -/

/-- No call of the application writes more than once. -/
theorem c36_at_most_once (es : List AppEvent) (n i t : Nat) (k : AppTask)
    (_hk : (AppSys.init.run es).tasks[n]? = some k) (_hr : k.ran = some (i, t))
    (b b' : List UInt8) : ¬ [Entry.sent t b, .sent t b'].Sublist ((AppSys.init.run es).api i).log := by
  obtain ⟨as, ha⟩ := (ainv_run es).proj i
  rw [ha]
  intro h
  have := pairwise_of_sub (f := Entry.sentId) (inv_run as).log.sentSorted h rfl rfl
  omega

/-- Two calls of the application never share a write. -/
theorem c36_own_write (es : List AppEvent) (n n' i t : Nat) (k k' : AppTask)
    (hk : (AppSys.init.run es).tasks[n]? = some k) (hk' : (AppSys.init.run es).tasks[n']? = some k')
    (hr : k.ran = some (i, t)) (hr' : k'.ran = some (i, t)) : n = n' := by
  have hnd := (ainv_run es).nodup
  generalize (AppSys.init.run es).tasks = l at *
  induction l generalizing n n' with
  | nil => simp at hk
  | cons x l ih =>
    rw [List.filterMap_cons] at hnd
    rcases n with _ | n <;> rcases n' with _ | n'
    · rfl
    · exfalso
      simp only [List.getElem?_cons_zero, Option.some.injEq, List.getElem?_cons_succ] at hk hk'
      subst hk
      rw [hr] at hnd
      exact (List.nodup_cons.mp hnd).1 (List.mem_filterMap.mpr ⟨k', List.mem_of_getElem? hk', hr'⟩)
    · exfalso
      simp only [List.getElem?_cons_zero, Option.some.injEq, List.getElem?_cons_succ] at hk hk'
      subst hk'
      rw [hr'] at hnd
      exact (List.nodup_cons.mp hnd).1 (List.mem_filterMap.mpr ⟨k, List.mem_of_getElem? hk, hr⟩)
    · simp only [List.getElem?_cons_succ] at hk hk'
      have hnd' : (l.filterMap (·.ran)).Nodup := by
        split at hnd
        · exact hnd
        · exact (List.nodup_cons.mp hnd).2
      rw [ih n n' hk hk' hnd']

/-! ## C36 -/

/-- **C36.** All that a unicast ZCL request ever writes is its `dataRequest` frame, and only if its
fields fit. -/
theorem c36_unicast_bytes (es : List AppEvent) (n : Nat) (nwk cluster srcEp dstEp sequence : Int)
    (data : List UInt8) (er : Bool) (b : List UInt8)
    (hc : IsCall (AppSys.init.run es) n (.request nwk 260 cluster srcEp dstEp sequence data er))
    (hw : Wrote (AppSys.init.run es) n b) :
    UnicastFits nwk cluster srcEp dstEp sequence data ∧
      b = wire (unicastFrame nwk cluster srcEp dstEp sequence data) := by
  obtain ⟨o, ho, hb⟩ := wrote_obj (ainv_run es) hc hw
  rw [Call.obj, fromCluster_unicast] at ho
  cases ho
  exact (unicast_written _ _ _ _ _ _ _).mp hb

/-- **C36.** A unicast ZCL request that returned (with success or with a status) has written its
frame. With `c36_at_most_once`: exactly once. -/
theorem c36_unicast_written (es : List AppEvent) (n : Nat)
    (nwk cluster srcEp dstEp sequence z : Int) (data : List UInt8) (er : Bool) (m : String)
    (hc : IsCall (AppSys.init.run es) n (.request nwk 260 cluster srcEp dstEp sequence data er))
    (hr : EndedWith (AppSys.init.run es) n (.returned z m)) :
    Wrote (AppSys.init.run es) n (wire (unicastFrame nwk cluster srcEp dstEp sequence data)) := by
  obtain ⟨b, hb⟩ := returned_wrote (ainv_run es) hr (fun e => by simp)
  have := (c36_unicast_bytes es n _ _ _ _ _ _ _ _ hc hb).2
  rwa [this] at hb

/-- **C36.** A unicast ZCL request whose data has more than 245 bytes, or whose fields do not fit,
writes nothing and can only end with an exception. -/
theorem c36_unfit_raises (es : List AppEvent) (n : Nat) (nwk cluster srcEp dstEp sequence : Int)
    (data : List UInt8) (er : Bool) (hf : ¬ UnicastFits nwk cluster srcEp dstEp sequence data)
    (hc : IsCall (AppSys.init.run es) n (.request nwk 260 cluster srcEp dstEp sequence data er)) :
    (∀ b, ¬ Wrote (AppSys.init.run es) n b) ∧
      ∀ r, EndedWith (AppSys.init.run es) n r → ∃ e, r = .raised e := by
  have h1 : ∀ b, ¬ Wrote (AppSys.init.run es) n b := fun b hb =>
    hf (c36_unicast_bytes es n _ _ _ _ _ _ _ _ hc hb).1
  refine ⟨h1, fun r hr => ?_⟩
  rcases r with ⟨z, m⟩ | _ | e
  · obtain ⟨b, hb⟩ := returned_wrote (ainv_run es) hr (fun e => by simp)
    exact absurd hb (h1 b)
  · obtain ⟨b, hb⟩ := returned_wrote (ainv_run es) hr (fun e => by simp)
    exact absurd hb (h1 b)
  · exact ⟨e, rfl⟩

theorem unicast_waiter (nwk cluster srcEp dstEp sequence radius : Int) (data : List UInt8)
    (q : Option Int) (e : PyErr) :
    responseWaiter (unicastObj nwk cluster srcEp dstEp sequence data radius) q ≠ .error e := by
  unfold responseWaiter
  rw [if_pos ⟨rfl, show strStartsWith "dataRequest" "dataRequest" = true by decide +kernel⟩]
  intro h; cases h

theorem ext_waiter (mode nwk cluster srcEp dstEp sequence radius : Int) (data : List UInt8)
    (q : Option Int) (e : PyErr) :
    responseWaiter (extObj mode nwk cluster srcEp dstEp sequence radius data) q ≠ .error e := by
  unfold responseWaiter
  rw [if_pos ⟨rfl, show strStartsWith "dataRequestExt" "dataRequest" = true by decide +kernel⟩]
  intro h; cases h

/-- Fewer calls than allowed are past the newest gate. -/
def PlaceFree (s : AppSys) : Prop :=
  s.tasks.countP (fun k => k.sem == s.nsem - 1 && PastGate k) < s.limit (s.nsem - 1)

theorem placeFree_sem {s : AppSys} (i : AInv s) (h : PlaceFree s) : s.sem (s.nsem - 1) ≠ 0 := by
  have h1 := i.sem (s.nsem - 1)
  have h2 : s.tasks.countP (AppTask.inside (s.nsem - 1)) =
      s.tasks.countP (fun k => k.sem == s.nsem - 1 && PastGate k) := by
    apply List.countP_congr
    intro k hk
    rw [inside_iff, past_eq i hk]
    simp
  unfold PlaceFree at h
  omega

/-- **C36.** When the application has been started, there is a place at the gate, the port is open
and the radio is not busy, a unicast ZCL request that fits is written at once. -/
theorem c36_unicast_sent (es : List AppEvent) (nwk cluster srcEp dstEp sequence : Int)
    (data : List UInt8) (er : Bool) (hf : UnicastFits nwk cluster srcEp dstEp sequence data)
    (hn : (AppSys.init.run es).nsem ≠ 0) (hp : PlaceFree (AppSys.init.run es))
    (hu : ((AppSys.init.run es).api (AppSys.init.run es).cur).uart = true)
    (hh : ((AppSys.init.run es).api (AppSys.init.run es).cur).holder = none)
    (hq : ((AppSys.init.run es).api (AppSys.init.run es).cur).queue = []) :
    Wrote (AppSys.init.run (es ++ [.call (.request nwk 260 cluster srcEp dstEp sequence data er),
        .enter (AppSys.init.run es).tasks.length])) (AppSys.init.run es).tasks.length
      (wire (unicastFrame nwk cluster srcEp dstEp sequence data)) := by
  rw [app_run_append]
  refine call_writes (o := unicastObj nwk cluster srcEp dstEp sequence data 30) ?_ rfl ?_ hn
    (placeFree_sem (ainv_run es) hp) ?_ hu hh hq
  · rw [Call.obj, fromCluster_unicast]
  · exact (unicast_written _ _ _ _ _ _ _).mpr ⟨hf, rfl⟩
  · intro q _ e; exact unicast_waiter _ _ _ _ _ _ _ _ e

/-- A started application. -/
def exStarted : List AppEvent := [.newApi, .newSemaphore 1]

/-- On/off toggle to 0x1234, endpoint 1. -/
def exToggle : Call := .request 0x1234 260 6 1 1 7 [1, 7, 2] true

/-- Response to `dataRequest`. -/
def exDataRsp (status : UInt8) : Frame := Frame.of .SRSP .AF 1 [status]

/-- The request is written, the radio accepts it. -/
def exRequest : List AppEvent :=
  exStarted ++ [.call exToggle, .enter 0, .api 1 (.frame (exDataRsp 0)), .api 1 (.wake 0)]

example : wire (unicastFrame 0x1234 6 1 1 7 [1, 7, 2]) =
    [0xFE, 13, 0x24, 0x01, 0x34, 0x12, 1, 1, 6, 0, 7, 0, 30, 3, 1, 7, 2, 0x16] := by decide +kernel

example : ((AppSys.init.run exRequest).tasks.map (fun k => (k.ran, match k.pc with
    | .done r => some r | _ => none))) =
    [(some (1, 0), some (.returned 0 "message send success"))] ∧
    .sent 0 (wire (unicastFrame 0x1234 6 1 1 7 [1, 7, 2])) ∈ ((AppSys.init.run exRequest).api 1).log := by
  decide +kernel

/-- The hypotheses of `c36_unicast_sent` hold after start-up. -/
example : UnicastFits 0x1234 6 1 1 7 [1, 7, 2] ∧ (AppSys.init.run exStarted).nsem ≠ 0 ∧
    (AppSys.init.run exStarted).tasks.countP (fun k => k.sem == 0 && PastGate k) < 16 ∧
    ((AppSys.init.run exStarted).api 1).uart = true ∧
    ((AppSys.init.run exStarted).api 1).holder = none := by decide +kernel

example : ¬ UnicastFits 0x1234 6 1 1 7 (List.replicate 246 0) := by decide +kernel

/-- `exRequest` and a second call, which is refused. -/
def exTwoCalls : List AppEvent :=
  exRequest ++ [.call exToggle, .enter 1, .api 1 (.frame (exDataRsp 0xCD)), .api 1 (.wake 1)]

/-- The calls have different requests of the API, so different writes; each has written once. -/
example (k : AppTask) (h : (AppSys.init.run exTwoCalls).tasks[1]? = some k) : k.ran ≠ some (1, 0) := by
  intro hr
  have h0 : ∃ k', (AppSys.init.run exTwoCalls).tasks[0]? = some k' ∧ k'.ran = some (1, 0) := by
    have : ((AppSys.init.run exTwoCalls).tasks[0]?.bind (·.ran)) = some (1, 0) := by decide +kernel
    rcases h : (AppSys.init.run exTwoCalls).tasks[0]? with _ | k'
    · rw [h] at this; cases this
    · rw [h] at this; exact ⟨k', rfl, this⟩
  obtain ⟨k', h1, h2⟩ := h0
  exact absurd (c36_own_write exTwoCalls 0 1 1 0 k' k h1 h h2 hr) (by decide)

example : Wrote (AppSys.init.run exTwoCalls) 1 (wire (unicastFrame 0x1234 6 1 1 7 [1, 7, 2])) :=
  c36_unicast_written exTwoCalls 1 _ _ _ _ _ 0xCD _ true "Couldn't enqueue send data request: "
    (isCall_iff.mpr (by decide +kernel)) (endedWith_iff.mpr (by decide +kernel))

/-- 246 bytes do not fit: the call has got its turn, writes nothing and fails. -/
example : (∀ b, ¬ Wrote (AppSys.init.run (exStarted ++ [.call (.request 0x1234 260 6 1 1 7
      (List.replicate 246 0) true), .enter 0])) 0 b) ∧
    EndedWith (AppSys.init.run (exStarted ++ [.call (.request 0x1234 260 6 1 1 7
      (List.replicate 246 0) true), .enter 0])) 0 (.raised .valueError) :=
  ⟨(c36_unfit_raises _ 0 0x1234 6 1 1 7 (List.replicate 246 0) true (by decide +kernel)
      (isCall_iff.mpr (by decide +kernel))).1, endedWith_iff.mpr (by decide +kernel)⟩

/-! ## C37 -/

/-- **C37.** All that a ZCL multicast ever writes is its `dataRequestExt` frame: address mode 1,
the group, endpoint 255, source endpoint 1 if none is given, radius 30. -/
theorem c37_multicast_bytes (es : List AppEvent) (n : Nat) (group cluster srcEp sequence hops : Int)
    (data b : List UInt8)
    (hc : IsCall (AppSys.init.run es) n (.mrequest group 260 cluster srcEp sequence data hops))
    (hw : Wrote (AppSys.init.run es) n b) :
    ExtFits group cluster (if srcEp = 0 then 1 else srcEp) 255 sequence 30 data ∧
      b = wire (extFrame 1 group cluster (if srcEp = 0 then 1 else srcEp) 255 sequence 30 data) := by
  obtain ⟨o, ho, hb⟩ := wrote_obj (ainv_run es) hc hw
  rw [Call.obj, fromCluster_ext] at ho
  cases ho
  exact (ext_written 1 _ _ _ _ _ _ _ _).mp hb

/-- **C37.** All that a ZCL broadcast ever writes is its `dataRequestExt` frame: address mode 2,
the broadcast address, the given endpoints and radius. -/
theorem c37_broadcast_bytes (es : List AppEvent) (n : Nat)
    (cluster srcEp dstEp radius sequence address : Int) (data b : List UInt8)
    (hc : IsCall (AppSys.init.run es) n
      (.broadcast 260 cluster srcEp dstEp radius sequence data address))
    (hw : Wrote (AppSys.init.run es) n b) :
    ExtFits address cluster srcEp dstEp sequence radius data ∧
      b = wire (extFrame 2 address cluster srcEp dstEp sequence radius data) := by
  obtain ⟨o, ho, hb⟩ := wrote_obj (ainv_run es) hc hw
  rw [Call.obj, fromCluster_ext] at ho
  cases ho
  exact (ext_written 2 _ _ _ _ _ _ _ _).mp hb

/-- **C37.** Both have written their frame if they returned. -/
theorem c37_multicast_written (es : List AppEvent) (n : Nat)
    (group cluster srcEp sequence hops z : Int) (data : List UInt8) (m : String)
    (hc : IsCall (AppSys.init.run es) n (.mrequest group 260 cluster srcEp sequence data hops))
    (hr : EndedWith (AppSys.init.run es) n (.returned z m)) :
    Wrote (AppSys.init.run es) n
      (wire (extFrame 1 group cluster (if srcEp = 0 then 1 else srcEp) 255 sequence 30 data)) := by
  obtain ⟨b, hb⟩ := returned_wrote (ainv_run es) hr (fun e => by simp)
  have := (c37_multicast_bytes es n _ _ _ _ _ _ _ hc hb).2
  rwa [this] at hb

@[inherit_doc c37_multicast_written]
theorem c37_broadcast_written (es : List AppEvent) (n : Nat)
    (cluster srcEp dstEp radius sequence address z : Int) (data : List UInt8) (m : String)
    (hc : IsCall (AppSys.init.run es) n
      (.broadcast 260 cluster srcEp dstEp radius sequence data address))
    (hr : EndedWith (AppSys.init.run es) n (.returned z m)) :
    Wrote (AppSys.init.run es) n
      (wire (extFrame 2 address cluster srcEp dstEp sequence radius data)) := by
  obtain ⟨b, hb⟩ := returned_wrote (ainv_run es) hr (fun e => by simp)
  have := (c37_broadcast_bytes es n _ _ _ _ _ _ _ _ hc hb).2
  rwa [this] at hb

/-- **C37.** A broadcast that does not fit is never written and can only end with an exception. -/
theorem c37_unfit_raises (es : List AppEvent) (n : Nat)
    (cluster srcEp dstEp radius sequence address : Int) (data : List UInt8)
    (hf : ¬ ExtFits address cluster srcEp dstEp sequence radius data)
    (hc : IsCall (AppSys.init.run es) n
      (.broadcast 260 cluster srcEp dstEp radius sequence data address)) :
    (∀ b, ¬ Wrote (AppSys.init.run es) n b) ∧
      ∀ r, EndedWith (AppSys.init.run es) n r → ∃ e, r = .raised e := by
  have h1 : ∀ b, ¬ Wrote (AppSys.init.run es) n b := fun b hb =>
    hf (c37_broadcast_bytes es n _ _ _ _ _ _ _ _ hc hb).1
  refine ⟨h1, fun r hr => ?_⟩
  rcases r with ⟨z, m⟩ | _ | e
  · obtain ⟨b, hb⟩ := returned_wrote (ainv_run es) hr (fun e => by simp)
    exact absurd hb (h1 b)
  · obtain ⟨b, hb⟩ := returned_wrote (ainv_run es) hr (fun e => by simp)
    exact absurd hb (h1 b)
  · exact ⟨e, rfl⟩

/-- **C37.** A multicast that does not fit is never written and can only end with an exception. -/
theorem c37_multicast_unfit_raises (es : List AppEvent) (n : Nat)
    (group cluster srcEp sequence hops : Int) (data : List UInt8)
    (hf : ¬ ExtFits group cluster (if srcEp = 0 then 1 else srcEp) 255 sequence 30 data)
    (hc : IsCall (AppSys.init.run es) n (.mrequest group 260 cluster srcEp sequence data hops)) :
    (∀ b, ¬ Wrote (AppSys.init.run es) n b) ∧
      ∀ r, EndedWith (AppSys.init.run es) n r → ∃ e, r = .raised e := by
  have h1 : ∀ b, ¬ Wrote (AppSys.init.run es) n b := fun b hb =>
    hf (c37_multicast_bytes es n _ _ _ _ _ _ _ hc hb).1
  refine ⟨h1, fun r hr => ?_⟩
  rcases r with ⟨z, m⟩ | _ | e
  · obtain ⟨b, hb⟩ := returned_wrote (ainv_run es) hr (fun e => by simp)
    exact absurd hb (h1 b)
  · obtain ⟨b, hb⟩ := returned_wrote (ainv_run es) hr (fun e => by simp)
    exact absurd hb (h1 b)
  · exact ⟨e, rfl⟩

/-- **C37.** With a free place, an open port and an idle radio they are written at once. -/
theorem c37_multicast_sent (es : List AppEvent) (group cluster srcEp sequence hops : Int)
    (data : List UInt8)
    (hf : ExtFits group cluster (if srcEp = 0 then 1 else srcEp) 255 sequence 30 data)
    (hn : (AppSys.init.run es).nsem ≠ 0) (hp : PlaceFree (AppSys.init.run es))
    (hu : ((AppSys.init.run es).api (AppSys.init.run es).cur).uart = true)
    (hh : ((AppSys.init.run es).api (AppSys.init.run es).cur).holder = none)
    (hq : ((AppSys.init.run es).api (AppSys.init.run es).cur).queue = []) :
    Wrote (AppSys.init.run (es ++ [.call (.mrequest group 260 cluster srcEp sequence data hops),
        .enter (AppSys.init.run es).tasks.length])) (AppSys.init.run es).tasks.length
      (wire (extFrame 1 group cluster (if srcEp = 0 then 1 else srcEp) 255 sequence 30 data)) := by
  rw [app_run_append]
  refine call_writes (o := extObj 1 group cluster (if srcEp = 0 then 1 else srcEp) 255 sequence 30 data)
    ?_ rfl ?_ hn (placeFree_sem (ainv_run es) hp) ?_ hu hh hq
  · rw [Call.obj, fromCluster_ext]; rfl
  · exact (ext_written 1 _ _ _ _ _ _ _ _).mpr ⟨hf, rfl⟩
  · intro q _ e; exact ext_waiter _ _ _ _ _ _ _ _ _ e

@[inherit_doc c37_multicast_sent]
theorem c37_broadcast_sent (es : List AppEvent)
    (cluster srcEp dstEp radius sequence address : Int) (data : List UInt8)
    (hf : ExtFits address cluster srcEp dstEp sequence radius data)
    (hn : (AppSys.init.run es).nsem ≠ 0) (hp : PlaceFree (AppSys.init.run es))
    (hu : ((AppSys.init.run es).api (AppSys.init.run es).cur).uart = true)
    (hh : ((AppSys.init.run es).api (AppSys.init.run es).cur).holder = none)
    (hq : ((AppSys.init.run es).api (AppSys.init.run es).cur).queue = []) :
    Wrote (AppSys.init.run (es ++ [.call
          (.broadcast 260 cluster srcEp dstEp radius sequence data address),
        .enter (AppSys.init.run es).tasks.length])) (AppSys.init.run es).tasks.length
      (wire (extFrame 2 address cluster srcEp dstEp sequence radius data)) := by
  rw [app_run_append]
  refine call_writes (o := extObj 2 address cluster srcEp dstEp sequence radius data)
    ?_ rfl ?_ hn (placeFree_sem (ainv_run es) hp) ?_ hu hh hq
  · rw [Call.obj, fromCluster_ext]; rfl
  · exact (ext_written 2 _ _ _ _ _ _ _ _).mpr ⟨hf, rfl⟩
  · intro q hq; cases hq

/-- **C37 (refuted in one respect).** The `hops` argument of a multicast is not sent as its radius:
a multicast limited to one hop is written with radius 30. -/
theorem c37_hops_refuted :
    ¬ ∀ (es : List AppEvent) (n : Nat) (group cluster srcEp sequence hops z : Int)
        (data : List UInt8) (m : String),
      IsCall (AppSys.init.run es) n (.mrequest group 260 cluster srcEp sequence data hops) →
      EndedWith (AppSys.init.run es) n (.returned z m) →
      Wrote (AppSys.init.run es) n
        (wire (extFrame 1 group cluster (if srcEp = 0 then 1 else srcEp) 255 sequence hops data)) := by
  intro h
  let es : List AppEvent := exStarted ++ [.call (.mrequest 5 260 6 1 7 [1, 7, 2] 1), .enter 0,
    .api 1 (.frame (Frame.of .SRSP .AF 2 [9])), .api 1 (.wake 0)]
  have hc : IsCall (AppSys.init.run es) 0 (.mrequest 5 260 6 1 7 [1, 7, 2] 1) :=
    isCall_iff.mpr (by decide +kernel)
  have hw := h es 0 5 6 1 7 1 9 [1, 7, 2] "Couldn't enqueue send data multicast: " hc
    (endedWith_iff.mpr (by decide +kernel))
  have := (c37_multicast_bytes es 0 _ _ _ _ _ _ _ hc hw).2
  revert this
  decide +kernel

/-- Multicast to group 5; broadcast with radius 0. Both are accepted, sleep 0.2 s and return. -/
example :
    ((AppSys.init.run (exStarted ++ [.call (.mrequest 5 260 6 0 7 [1, 7, 2] 0), .enter 0,
      .api 1 (.frame (Frame.of .SRSP .AF 2 [0])), .api 1 (.wake 0), .api 1 (.tick 200),
      .wakeUp 0])).tasks.map (fun k => match k.pc with | .done r => some r | _ => none)) =
    [some (.returned 0 "message send success")] ∧
    ((AppSys.init.run (exStarted ++ [.call (.broadcast 260 6 1 255 0 7 [1, 7, 2] 0xFFFD), .enter 0,
      .api 1 (.frame (Frame.of .SRSP .AF 2 [0])), .api 1 (.wake 0), .api 1 (.tick 200),
      .wakeUp 0])).tasks.map (fun k => match k.pc with | .done r => some r | _ => none)) =
    [some (.returned 0 "broadcast send success")] := by decide +kernel

example : wire (extFrame 2 0xFFFD 6 1 255 7 0 [1, 7, 2]) =
    [0xFE, 23, 0x24, 0x02, 2, 0xFD, 0xFF, 0, 0, 0, 0, 0, 0, 255, 0, 0, 1, 6, 0, 7, 0, 0, 3, 0,
     1, 7, 2, 0xC9] := by decide +kernel

example : ExtFits 5 6 1 255 7 30 [1, 7, 2] ∧ ¬ ExtFits 5 6 1 255 7 256 [1, 7, 2] := by
  decide +kernel

/-- A multicast to group 5 that the radio refuses, a broadcast that it accepts. -/
def exMany : List AppEvent := exStarted ++
  [.call (.mrequest 5 260 6 0 7 [1, 7, 2] 0), .call (.broadcast 260 6 1 255 0 8 [1, 8, 2] 0xFFFD),
    .enter 0, .api 1 (.frame (Frame.of .SRSP .AF 2 [9])), .api 1 (.wake 0), .enter 1,
    .api 1 (.frame (Frame.of .SRSP .AF 2 [0])), .api 1 (.wake 1), .api 1 (.tick 200), .wakeUp 1]

example : Wrote (AppSys.init.run exMany) 0 (wire (extFrame 1 5 6 1 255 7 30 [1, 7, 2])) :=
  c37_multicast_written exMany 0 5 6 0 7 0 9 _ "Couldn't enqueue send data multicast: "
    (isCall_iff.mpr (by decide +kernel)) (endedWith_iff.mpr (by decide +kernel))

example : Wrote (AppSys.init.run exMany) 1 (wire (extFrame 2 0xFFFD 6 1 255 8 0 [1, 8, 2])) :=
  c37_broadcast_written exMany 1 6 1 255 0 8 0xFFFD 0 _ "broadcast send success"
    (isCall_iff.mpr (by decide +kernel)) (endedWith_iff.mpr (by decide +kernel))

/-- A radius or a transaction number that does not fit into a byte. -/
example : (∀ b, ¬ Wrote (AppSys.init.run (exStarted ++ [.call (.broadcast 260 6 1 255 256 8 [1, 8, 2]
      0xFFFD), .enter 0])) 0 b) ∧
    (∀ b, ¬ Wrote (AppSys.init.run (exStarted ++ [.call (.mrequest 5 260 6 0 256 [1, 8, 2] 0),
      .enter 0])) 0 b) :=
  ⟨(c37_unfit_raises _ 0 6 1 255 256 8 0xFFFD [1, 8, 2] (by decide +kernel)
      (isCall_iff.mpr (by decide +kernel))).1,
    (c37_multicast_unfit_raises _ 0 5 6 0 256 0 [1, 8, 2] (by decide +kernel)
      (isCall_iff.mpr (by decide +kernel))).1⟩

/-- After start-up both are written at once. -/
example : Wrote (AppSys.init.run (exStarted ++ [.call (.mrequest 5 260 6 0 7 [1, 7, 2] 0), .enter 0])) 0
      (wire (extFrame 1 5 6 1 255 7 30 [1, 7, 2])) ∧
    Wrote (AppSys.init.run (exStarted ++ [.call (.broadcast 260 6 1 255 0 8 [1, 8, 2] 0xFFFD),
      .enter 0])) 0 (wire (extFrame 2 0xFFFD 6 1 255 8 0 [1, 8, 2])) :=
  ⟨c37_multicast_sent exStarted 5 6 0 7 0 [1, 7, 2] (by decide +kernel) (by decide +kernel)
      (show List.countP _ _ < _ by decide +kernel) (by decide +kernel) (by decide +kernel)
      (by decide +kernel),
    c37_broadcast_sent exStarted 6 1 255 0 8 0xFFFD [1, 8, 2] (by decide +kernel) (by decide +kernel)
      (show List.countP _ _ < _ by decide +kernel) (by decide +kernel) (by decide +kernel)
      (by decide +kernel)⟩

/-! ## C38 -/

/-- Arguments of a ZDO request that is sent by `request`, `mrequest` or `broadcast`: what zigpy
passes down, transaction number first. -/
def IsZdoCall (c : Call) (nwk profile cluster : Int) (data : List UInt8) : Prop :=
  (∃ srcEp dstEp sequence er, c = .request nwk profile cluster srcEp dstEp sequence data er) ∨
  (∃ srcEp sequence hops, c = .mrequest nwk profile cluster srcEp sequence data hops) ∨
  (∃ srcEp dstEp radius sequence, c = .broadcast profile cluster srcEp dstEp radius sequence data nwk)

theorem zdoCall_obj {c : Call} {nwk profile cluster : Int} {data : List UInt8}
    (h : IsZdoCall c nwk profile cluster data) :
    ∃ srcEp dstEp sequence radius addrMode,
      c.obj = Obj.fromCluster nwk profile cluster srcEp dstEp sequence data radius addrMode := by
  rcases h with ⟨_, _, _, _, rfl⟩ | ⟨_, _, _, rfl⟩ | ⟨_, _, _, _, rfl⟩
  · exact ⟨_, _, _, _, _, rfl⟩
  · exact ⟨_, _, _, _, _, rfl⟩
  · exact ⟨_, _, _, _, _, rfl⟩

/-- **C38 (partial).** For the requests of the Zigbee device profile listed in `ZdoBody` (node,
power, simple, complex, user and match descriptor, active endpoints, bind and unbind with extended
address, the network management requests, leave and permit join), with any well-formed body and
anything after it: all that is ever written is the MT command of the same number with the
destination address and the body.
Missing: the other requests zigpy can send, see `c38_refuted`. -/
theorem c38_zdo_bytes_partial (es : List AppEvent) (n : Nat) (c : Call) (nwk profile : Int)
    (cluster : Nat) (tsn : UInt8) (body trailing b : List UInt8) (hp : profile ≠ 260)
    (hb : ZdoBody cluster body) (hz : IsZdoCall c nwk profile cluster (tsn :: (body ++ trailing)))
    (hc : IsCall (AppSys.init.run es) n c) (hw : Wrote (AppSys.init.run es) n b) :
    b = wire (zdoFrame nwk cluster body) := by
  obtain ⟨o, ho, f, hf, hs⟩ := wrote_obj (ainv_run es) hc hw
  obtain ⟨srcEp, dstEp, sequence, radius, addrMode, he⟩ := zdoCall_obj hz
  rw [he] at ho
  obtain ⟨_, _, _, _, hn, _, _⟩ := fromCluster_zdo_ok hp ho
  obtain ⟨o', h1, h2, _⟩ := zdo_written hb nwk profile srcEp dstEp sequence tsn radius addrMode hp hn
    trailing
  rw [ho] at h1; cases h1
  rw [h2] at hf; cases hf
  rw [Gateway.send, toBuffer_eq] at hs
  split at hs
  · cases hs; rfl
  · cases hs

/-- **C38.** They are written if the call returned. -/
theorem c38_zdo_written_partial (es : List AppEvent) (n : Nat) (c : Call) (nwk profile : Int)
    (cluster : Nat) (tsn : UInt8) (body trailing : List UInt8) (hp : profile ≠ 260)
    (hb : ZdoBody cluster body) (hz : IsZdoCall c nwk profile cluster (tsn :: (body ++ trailing)))
    (hc : IsCall (AppSys.init.run es) n c) (z : Int) (m : String)
    (hr : EndedWith (AppSys.init.run es) n (.returned z m)) :
    Wrote (AppSys.init.run es) n (wire (zdoFrame nwk cluster body)) := by
  obtain ⟨b, hw⟩ := returned_wrote (ainv_run es) hr (fun e => by simp)
  have := c38_zdo_bytes_partial es n c nwk profile cluster tsn body trailing b hp hb hz hc hw
  rwa [this] at hw

/-- **C38.** With a free place, an open port and an idle radio they are written at once, unless the
frame would be too long (match descriptor requests with very many clusters), with or without
expecting a reply. -/
theorem c38_zdo_sent_partial (es : List AppEvent) (nwk profile srcEp dstEp sequence : Int)
    (cluster : Nat) (tsn : UInt8) (body trailing : List UInt8) (er : Bool) (hp : profile ≠ 260)
    (hb : ZdoBody cluster body) (hnwk : IsUInt 2 nwk)
    (hlen : (zdoFrame nwk cluster body).data.length ≤ 255)
    (hn : (AppSys.init.run es).nsem ≠ 0) (hpl : PlaceFree (AppSys.init.run es))
    (hu : ((AppSys.init.run es).api (AppSys.init.run es).cur).uart = true)
    (hh : ((AppSys.init.run es).api (AppSys.init.run es).cur).holder = none)
    (hq : ((AppSys.init.run es).api (AppSys.init.run es).cur).queue = []) :
    Wrote (AppSys.init.run (es ++ [.call (.request nwk profile cluster srcEp dstEp sequence
          (tsn :: (body ++ trailing)) er),
        .enter (AppSys.init.run es).tasks.length])) (AppSys.init.run es).tasks.length
      (wire (zdoFrame nwk cluster body)) := by
  obtain ⟨o, h1, h2, h3⟩ := zdo_written hb nwk profile srcEp dstEp sequence tsn 30 none hp hnwk
    trailing
  rw [app_run_append]
  refine call_writes (o := o) h1 h3 ⟨_, h2, ?_⟩ hn (placeFree_sem (ainv_run es) hpl) ?_ hu hh hq
  · rw [Gateway.send, toBuffer_eq, if_pos]
    obtain ⟨c, hc, rfl, _⟩ := zdoBody_cases hb
    have h4 := (table_misc (s := .ZDO) ⟨_, rfl, hc⟩).1
    exact ⟨by omega, h4⟩
  · intro q _ e; exact zdo_waiter hb hp h1 _ e

/-- **C38.** For every other cluster number and body, whatever is written is a ZDO command with this
number, and its bytes are the destination address followed by the body, cut off somewhere (neither
reordered nor invented). The only exception are the neighbour tables of `mgmtLqiRsp`, which is not
a request. -/
theorem c38_zdo_prefix (es : List AppEvent) (n : Nat) (c : Call) (nwk profile cluster : Int)
    (data b : List UInt8) (hp : profile ≠ 260) (hl : cluster ≠ 0xB1)
    (hz : IsZdoCall c nwk profile cluster data)
    (hc : IsCall (AppSys.init.run es) n c) (hw : Wrote (AppSys.init.run es) n b) :
    ∃ f : Frame, b = wire f ∧ f.subsystem = .ZDO ∧ (f.commandId : Int) = cluster ∧
      f.data <+: (if cluster = 0x36 then [if nwk = 0xFFFC then 15 else 2] else []) ++
        le16 nwk.toNat ++ data.drop 1 := by
  obtain ⟨o, ho, f, hf, hs⟩ := wrote_obj (ainv_run es) hc hw
  obtain ⟨srcEp, dstEp, sequence, radius, addrMode, he⟩ := zdoCall_obj hz
  rw [he] at ho
  have hlqi : ∀ p ∈ o.parameters, p.2 ≠ .LIST_NEIGHBOR_LQI := by
    obtain ⟨cmd, payload, ⟨cs, h1, h2⟩, hid, _, _, rfl⟩ := fromCluster_zdo_ok hp ho
    cases h1
    have : ∀ c ∈ defZDO, c.id ≠ 0xB1 → ∀ p ∈ c.request, p.2 ≠ .LIST_NEIGHBOR_LQI := by
      decide +kernel
    exact this cmd h2 (by omega)
  obtain ⟨h1, h2, h3⟩ := zdo_prefix hp ho hf hlqi
  refine ⟨f, ?_, h1, h2, h3⟩
  rw [Gateway.send, toBuffer_eq] at hs
  split at hs
  · cases hs; rfl
  · cases hs

/-- **C38 (refuted).** It does not hold for every request cluster. The broadcast network address
request (cluster 0) for the device 11:22:33:44:55:66:77:88 is written, but its body is cut off and
shifted, as the MT command has no destination address: the radio asks for the device
33:44:55:66:77:88:FF:FD. -/
theorem c38_refuted :
    ¬ ∀ (es : List AppEvent) (n : Nat) (c : Call) (nwk : Int) (cluster : Nat) (tsn : UInt8)
        (body : List UInt8) (z : Int) (m : String), cluster < 0x40 →
      IsZdoCall c nwk 0 cluster (tsn :: body) → IsCall (AppSys.init.run es) n c →
      EndedWith (AppSys.init.run es) n (.returned z m) →
      Wrote (AppSys.init.run es) n (wire (zdoFrame nwk cluster body)) := by
  intro h
  let body : List UInt8 := [0x88, 0x77, 0x66, 0x55, 0x44, 0x33, 0x22, 0x11, 0, 0]
  let c : Call := .broadcast 0 0 0 0 0 7 (7 :: body) 0xFFFD
  let es : List AppEvent := exStarted ++ [.call c, .enter 0,
    .api 1 (.frame (Frame.of .SRSP .ZDO 0 [9])), .api 1 (.wake 0)]
  have hc : IsCall (AppSys.init.run es) 0 c :=
    isCall_iff.mpr (by decide +kernel)
  have hz : IsZdoCall c 0xFFFD 0 (0 : Nat) (7 :: body) := .inr (.inr ⟨0, 0, 0, 7, rfl⟩)
  have hw := h es 0 c 0xFFFD 0 7 body 9 "Couldn't enqueue send data request for broadcast: "
    (by decide) hz hc
    (endedWith_iff.mpr (by decide +kernel))
  rw [wrote_iff] at hw
  revert hw
  decide +kernel

/-- What is written instead. -/
example : .sent 0 [0xFE, 10, 0x25, 0, 0xFD, 0xFF, 0x88, 0x77, 0x66, 0x55, 0x44, 0x33, 0x22, 0x11,
      0xA5] ∈
    ((AppSys.init.run (exStarted ++ [.call (.broadcast 0 0 0 0 0 7
      [7, 0x88, 0x77, 0x66, 0x55, 0x44, 0x33, 0x22, 0x11, 0, 0] 0xFFFD), .enter 0])).api 1).log := by
  decide +kernel

/-- What was written by a call was made from the bytes that the parameters are read from. -/
theorem wrote_zdo_of {es : List AppEvent} {n : Nat} {c : Call} {nwk profile : Int}
    {cluster : Nat} {tsn : UInt8} {body trailing b : List UInt8} (hp : profile ≠ 260)
    (hb : (cluster = 0 ∧ body.length = 8) ∨ (cluster = 1 ∧ body.length = 2))
    (hz : IsZdoCall c nwk profile cluster (tsn :: (body ++ trailing)))
    (hc : IsCall (AppSys.init.run es) n c) (hw : Wrote (AppSys.init.run es) n b) :
    b = wire (zdoFrame nwk cluster body) := by
  obtain ⟨o, ho, f, hf, hs⟩ := wrote_obj (ainv_run es) hc hw
  obtain ⟨srcEp, dstEp, sequence, radius, addrMode, he⟩ := zdoCall_obj hz
  rw [he] at ho
  obtain ⟨_, _, _, _, hn, _, _⟩ := fromCluster_zdo_ok hp ho
  obtain ⟨o', h1, h2, _⟩ := zdo_written_of (zdoAddress_cases hb) nwk profile srcEp dstEp sequence
    tsn radius addrMode hp hn trailing
  rw [ho] at h1; cases h1
  rw [h2] at hf; cases hf
  rw [Gateway.send, toBuffer_eq] at hs
  split at hs
  · cases hs; rfl
  · cases hs

/-- **C38.** What is written of a network address request (cluster 0) for the device with the address
`ieee`: the radio reads the address of the destination followed by the first six bytes of `ieee` as the
address to look for, and the last two bytes of `ieee` as kind of request and start index. -/
theorem c38_nwk_addr (es : List AppEvent) (n : Nat) (c : Call) (nwk profile : Int)
    (tsn kind start : UInt8) (ieee b : List UInt8) (hp : profile ≠ 260) (hi : ieee.length = 8)
    (hz : IsZdoCall c nwk profile 0 (tsn :: (ieee ++ [kind, start])))
    (hc : IsCall (AppSys.init.run es) n c) (hw : Wrote (AppSys.init.run es) n b) :
    b = wire (.of .SREQ .ZDO 0 (le16 nwk.toNat ++ ieee)) :=
  wrote_zdo_of (cluster := 0) hp (.inl ⟨rfl, hi⟩) hz hc hw

/-- **C38.** What is written of an IEEE address request (cluster 1) about the device with the short
address `lo`, `hi`: the radio looks for the address of the destination (for zigpy the same device),
with the bytes of the short address as kind of request and start index. -/
theorem c38_ieee_addr (es : List AppEvent) (n : Nat) (c : Call) (nwk profile : Int)
    (tsn lo hi kind start : UInt8) (b : List UInt8) (hp : profile ≠ 260)
    (hz : IsZdoCall c nwk profile 1 [tsn, lo, hi, kind, start])
    (hc : IsCall (AppSys.init.run es) n c) (hw : Wrote (AppSys.init.run es) n b) :
    b = wire (.of .SREQ .ZDO 1 (le16 nwk.toNat ++ [lo, hi])) :=
  wrote_zdo_of (cluster := 1) (body := [lo, hi]) hp (.inr ⟨rfl, rfl⟩) hz hc hw

/-- It happens: a request for the address of the device 0x1234, without expecting a reply. -/
example : IsCall (AppSys.init.run (exStarted ++ [.call (.request 0x1234 0 1 0 0 7
      [7, 0x34, 0x12, 0, 0] false), .enter 0])) 0 (.request 0x1234 0 1 0 0 7
      [7, 0x34, 0x12, 0, 0] false) ∧
    Wrote (AppSys.init.run (exStarted ++ [.call (.request 0x1234 0 1 0 0 7
      [7, 0x34, 0x12, 0, 0] false), .enter 0])) 0
      (wire (.of .SREQ .ZDO 1 [0x34, 0x12, 0x34, 0x12])) :=
  ⟨isCall_iff.mpr (by decide +kernel), wrote_iff.mpr (by decide +kernel)⟩

/-- **C38.** The network and IEEE address requests and the server discovery request never work when
a reply is expected: the call fails with a `KeyError` before it sends anything. -/
theorem c38_undirected_raises (s : AppSys) (nwk profile cluster srcEp dstEp sequence : Int)
    (data : List UInt8) (hp : profile ≠ 260) (o : Obj)
    (ho : Obj.fromCluster nwk profile cluster srcEp dstEp sequence data = .ok o)
    (hu : o.command ∈ undirected) :
    EndedWith (s.step (.call (.request nwk profile cluster srcEp dstEp sequence data true)))
      s.tasks.length (.raised (.keyError "dstaddr")) := by
  have key : ∀ a : Api, (a.createResponseWaiter o (some sequence)).2 = .error (.keyError "dstaddr") := by
    intro a
    obtain ⟨c, payload, ⟨cs, hcs, hmem⟩, _, _, _, he⟩ := fromCluster_zdo_ok hp ho
    cases hcs
    have hc : o.command = c.name := by rw [he]
    have hS : o.commandType = .SREQ := by
      rw [he]; exact zdo_undirected_dec c hmem (hc ▸ hu)
    have hx := hu
    simp only [undirected, List.mem_cons, List.not_mem_nil, or_false] at hu
    have : responseWaiter o (some sequence) = .error (.keyError "dstaddr") := by
      rcases hu with hu | hu | hu
      · exact (zdo_responseWaiter hp ho hS "nwkAddr".toList (by rw [hu]; decide +kernel)
          (zdo_exists "nwkAddrRsp" (by decide +kernel) _ (by decide +kernel)) _).2 hx
      · exact (zdo_responseWaiter hp ho hS "ieeeAddr".toList (by rw [hu]; decide +kernel)
          (zdo_exists "ieeeAddrRsp" (by decide +kernel) _ (by decide +kernel)) _).2 hx
      · exact (zdo_responseWaiter hp ho hS "serverDisc".toList (by rw [hu]; decide +kernel)
          (zdo_exists "serverDiscRsp" (by decide +kernel) _ (by decide +kernel)) _).2 hx
    unfold Api.createResponseWaiter
    rw [this]
  have hk := key (s.api s.cur)
  rw [AppSys.step]
  unfold AppSys.begin
  rw [Call.obj, ho]
  simp only [Call.wantsReply, if_true]
  rcases hcr : (s.api s.cur).createResponseWaiter o (some sequence) with ⟨a, x⟩
  rw [hcr] at hk
  subst hk
  refine ⟨{ call := .request nwk profile cluster srcEp dstEp sequence data true,
            pc := .done (.raised (.keyError "dstaddr")) }, ?_, rfl⟩
  show (s.tasks ++ [_])[s.tasks.length]? = _
  rw [List.getElem?_append_right (Nat.le_refl _), Nat.sub_self]
  rfl

/-- A call whose message cannot be made fails at once and writes nothing. -/
theorem unmade_call (es : List AppEvent) {c : Call} {e : PyErr} (he : c.obj = .error e) :
    EndedWith (AppSys.init.run (es ++ [.call c])) (AppSys.init.run es).tasks.length
        (.raised (leaveCoroutine e)) ∧
      ∀ es' b, ¬ Wrote (AppSys.init.run (es ++ [.call c] ++ es')) (AppSys.init.run es).tasks.length b := by
  have h1 : (AppSys.init.run (es ++ [.call c])).tasks[(AppSys.init.run es).tasks.length]? =
      some { call := c, pc := .done (.raised (leaveCoroutine e)) } := by
    rw [app_run_snoc, AppSys.step]
    unfold AppSys.begin
    rw [he]
    show ((AppSys.init.run es).tasks ++ [_])[(AppSys.init.run es).tasks.length]? = _
    rw [List.getElem?_append_right (Nat.le_refl _), Nat.sub_self]
    rfl
  refine ⟨⟨_, h1, rfl⟩, fun es' b hw => ?_⟩
  have hc : IsCall (AppSys.init.run (es ++ [.call c] ++ es')) (AppSys.init.run es).tasks.length c := by
    rw [app_run_append]
    obtain ⟨k, hk, hkc, _⟩ := app_moves_run es' _ (ainv_run (es ++ [.call c])) _ _ h1
    exact ⟨k, hk, hkc⟩
  obtain ⟨o, ho, _⟩ := wrote_obj (ainv_run _) hc hw
  rw [he] at ho; cases ho

/-- **C38.** A body that is cut off is never sent: the call fails at once with `OverflowError` and
writes nothing. -/
theorem c38_short_raises (es : List AppEvent) (c : Call) (nwk profile : Int) (cluster : Nat)
    (tsn : UInt8) (body rest : List UInt8) (hp : profile ≠ 260) (hb : ZdoBody cluster (body ++ rest))
    (hr : rest ≠ []) (hz : IsZdoCall c nwk profile cluster (tsn :: body)) :
    EndedWith (AppSys.init.run (es ++ [.call c])) (AppSys.init.run es).tasks.length
        (.raised .overflowError) ∧
      ∀ es' b, ¬ Wrote (AppSys.init.run (es ++ [.call c] ++ es')) (AppSys.init.run es).tasks.length b := by
  obtain ⟨srcEp, dstEp, sequence, radius, addrMode, he⟩ := zdoCall_obj hz
  exact unmade_call es (he.trans (zdo_short_of (zdoBody_cases hb) rfl hr _ _ _ _ _ _ _ _ hp))

/-- **C38.** A bind or unbind request with a group address as target (address mode 1) is never sent: the
MT command has an extended address and an endpoint there, so the call fails with `OverflowError`. -/
theorem c38_group_raises (es : List AppEvent) (c : Call) (nwk profile : Int) (cluster : Nat)
    (tsn ep c0 c1 lo hi : UInt8) (src : List UInt8) (hp : profile ≠ 260) (hcl : cluster ∈ [0x21, 0x22])
    (hs : src.length = 8)
    (hz : IsZdoCall c nwk profile cluster (tsn :: (src ++ [ep, c0, c1, 1, lo, hi]))) :
    EndedWith (AppSys.init.run (es ++ [.call c])) (AppSys.init.run es).tasks.length
        (.raised .overflowError) ∧
      ∀ es' b, ¬ Wrote (AppSys.init.run (es ++ [.call c] ++ es')) (AppSys.init.run es).tasks.length b := by
  obtain ⟨srcEp, dstEp, sequence, radius, addrMode, he⟩ := zdoCall_obj hz
  exact unmade_call es (he.trans
    (zdo_short_of (zdoGroup_cases hcl hs ep c0 c1 lo hi) rfl (by decide) _ _ _ _ _ _ _ _ hp))

/-- Binding cluster 6 of endpoint 1 to group 5; a simple descriptor request without its endpoint. -/
example : EndedWith (AppSys.init.run (exStarted ++ [.call (.request 0x1234 0 0x21 0 0 7
      [7, 1, 2, 3, 4, 5, 6, 7, 8, 1, 6, 0, 1, 5, 0] true)])) 0 (.raised .overflowError) ∧
    EndedWith (AppSys.init.run (exStarted ++ [.call (.request 0x1234 0 4 0 0 7
      [7, 0x34, 0x12] true)])) 0 (.raised .overflowError) :=
  ⟨(c38_group_raises exStarted _ 0x1234 0 0x21 7 1 6 0 5 0 [1, 2, 3, 4, 5, 6, 7, 8] (by decide)
      (by decide) rfl (.inl ⟨_, _, _, _, rfl⟩)).1,
    (c38_short_raises exStarted _ 0x1234 0 4 7 [0x34, 0x12] [1] (by decide)
      (.simple 0x34 0x12 1) (by decide) (.inl ⟨_, _, _, _, rfl⟩)).1⟩

/-- **C38.** A request whose cluster number is not the number of a ZDO command of the radio fails at
once with `RuntimeError` (what a `StopIteration` inside a coroutine becomes) and writes nothing. -/
theorem c38_unknown_raises (es : List AppEvent) (c : Call) (nwk profile cluster : Int)
    (data : List UInt8) (hp : profile ≠ 260) (hz : IsZdoCall c nwk profile cluster data)
    (hu : ∀ cmd, InTable .ZDO cmd → (cmd.id : Int) ≠ cluster) :
    EndedWith (AppSys.init.run (es ++ [.call c])) (AppSys.init.run es).tasks.length
        (.raised .runtimeError) ∧
      ∀ es' b, ¬ Wrote (AppSys.init.run (es ++ [.call c] ++ es')) (AppSys.init.run es).tasks.length b := by
  obtain ⟨srcEp, dstEp, sequence, radius, addrMode, he⟩ := zdoCall_obj hz
  exact unmade_call es (he.trans (fromCluster_zdo_unknown hu _ _ _ _ _ _ _ _ hp))

/-- The system server discovery request has the number 0x0C, the radio's table has no 0x10. -/
example : EndedWith (AppSys.init.run (exStarted ++ [.call (.request 0x1234 0 0x10 0 0 7 [7] true)])) 0
    (.raised .runtimeError) :=
  (c38_unknown_raises exStarted _ 0x1234 0 0x10 [7] (by decide) (.inl ⟨_, _, _, _, rfl⟩)
    (by
      rintro cmd ⟨cs, h1, h2⟩
      cases h1
      exact (by decide +kernel : ∀ cmd ∈ defZDO, (cmd.id : Int) ≠ 0x10) cmd h2)).1

/-- Node descriptor request to 0x1234 with a permit-join request to all routers. -/
example : ZdoBody 2 [0x34, 0x12] ∧ ZdoBody 0x36 [60, 0] ∧
    wire (zdoFrame 0x1234 2 [0x34, 0x12]) = [0xFE, 4, 0x25, 2, 0x34, 0x12, 0x34, 0x12, 0x23] ∧
    wire (zdoFrame 0xFFFC 0x36 [60, 0]) = [0xFE, 5, 0x25, 0x36, 15, 0xFC, 0xFF, 60, 0, 0x26] := by
  refine ⟨.desc _ (by decide) _ _, .permit _ _, ?_⟩
  decide +kernel

example : IsZdoCall (.request 0x1234 0 2 0 0 7 [7, 0x34, 0x12] true) 0x1234 0 2
    (7 :: ([0x34, 0x12] ++ [])) := .inl ⟨_, _, _, _, rfl⟩

example : ∃ o, Obj.fromCluster 0x1234 0 1 0 0 7 [7, 0x34, 0x12, 0, 0] = .ok o ∧
    o.command ∈ undirected := ⟨_, rfl, by decide +kernel⟩

/-- A node descriptor request, refused by the radio, and a bind request at once. -/
def exNode : List AppEvent := exStarted ++ [.call (.request 0x1234 0 2 0 0 7 [7, 0x34, 0x12] true),
  .enter 0, .api 1 (.frame (Frame.of .SRSP .ZDO 2 [9])), .api 1 (.wake 0)]

example : Wrote (AppSys.init.run exNode) 0 (wire (zdoFrame 0x1234 2 [0x34, 0x12])) :=
  c38_zdo_written_partial exNode 0 (.request 0x1234 0 2 0 0 7 [7, 0x34, 0x12] true) 0x1234 0 2 7
    [0x34, 0x12] [] (by decide)
    (.desc _ (by decide) _ _) (.inl ⟨_, _, _, _, rfl⟩) (isCall_iff.mpr (by decide +kernel)) 9
    "Couldn't enqueue send data request: " (endedWith_iff.mpr (by decide +kernel))

example : Wrote (AppSys.init.run (exNode ++ [.call (.request 0x1234 0 0x21 0 0 8
      (8 :: ([1, 2, 3, 4, 5, 6, 7, 8, 1, 6, 0, 3, 11, 12, 13, 14, 15, 16, 17, 18, 1] ++ [])) true),
      .enter 1])) 1
    (wire (zdoFrame 0x1234 0x21 [1, 2, 3, 4, 5, 6, 7, 8, 1, 6, 0, 3, 11, 12, 13, 14, 15, 16, 17, 18, 1])) :=
  c38_zdo_sent_partial exNode 0x1234 0 0 0 8 0x21 8 _ [] true (by decide)
    (.bind 0x21 (by decide) [1, 2, 3, 4, 5, 6, 7, 8] [11, 12, 13, 14, 15, 16, 17, 18] 1 6 0 1 rfl rfl)
    (by decide) (by decide +kernel) (by decide +kernel) (show List.countP _ _ < _ by decide +kernel)
    (by decide +kernel) (by decide +kernel) (by decide +kernel)

/-- What was written consists of the address and the body. -/
example : ∃ f : Frame, [0xFE, 4, 0x25, 2, 0x34, 0x12, 0x34, 0x12, 0x23] = wire f ∧ f.subsystem = .ZDO ∧
      (f.commandId : Int) = 2 ∧ f.data <+: [0x34, 0x12, 0x34, 0x12] :=
  c38_zdo_prefix exNode 0 (.request 0x1234 0 2 0 0 7 [7, 0x34, 0x12] true) 0x1234 0 2
    [7, 0x34, 0x12] _ (by decide) (by decide) (.inl ⟨_, _, _, _, rfl⟩)
    (isCall_iff.mpr (by decide +kernel)) (wrote_iff.mpr (by decide +kernel))

example : EndedWith ((AppSys.init.run exStarted).step
      (.call (.request 0x1234 0 1 0 0 7 [7, 0x34, 0x12, 0, 0] true)))
    0 (.raised (.keyError "dstaddr")) :=
  c38_undirected_raises (AppSys.init.run exStarted) 0x1234 0 1 0 0 7 [7, 0x34, 0x12, 0, 0] (by decide)
    _ rfl (by decide +kernel)

/-! ## C39 -/

/-- **C39.** All that permit join ever writes is the broadcast permit-join request with the given
duration, and only if that is between 0 and 254. -/
theorem c39_permit_bytes (es : List AppEvent) (n : Nat) (time : Int) (b : List UInt8)
    (hc : IsCall (AppSys.init.run es) n (.permit time)) (hw : Wrote (AppSys.init.run es) n b) :
    0 ≤ time ∧ time ≤ 254 ∧ b = wire (permitFrame time) := by
  obtain ⟨o, ho, f, hf, hs⟩ := wrote_obj (ainv_run es) hc hw
  have ht : 0 ≤ time ∧ time ≤ 254 := by
    by_cases h : 0 ≤ time ∧ time ≤ 254
    · exact h
    · rw [Call.obj, if_neg h] at ho; cases ho
  obtain ⟨o', h1, h2, _⟩ := permit_obj time ht
  rw [ho] at h1; cases h1
  rw [h2] at hf; cases hf
  rw [Gateway.send, toBuffer_eq] at hs
  split at hs
  · cases hs; exact ⟨ht.1, ht.2, rfl⟩
  · cases hs

/-- **C39.** Permit join that returned has written its frame. -/
theorem c39_permit_written (es : List AppEvent) (n : Nat) (time : Int)
    (hc : IsCall (AppSys.init.run es) n (.permit time))
    (hr : EndedWith (AppSys.init.run es) n .none) :
    Wrote (AppSys.init.run es) n (wire (permitFrame time)) := by
  obtain ⟨b, hw⟩ := returned_wrote (ainv_run es) hr (fun e => by simp)
  have := (c39_permit_bytes es n time b hc hw).2.2
  rwa [this] at hw

/-- **C39.** Any other duration is refused with an `AssertionError`, at once. -/
theorem c39_permit_refused (s : AppSys) (time : Int) (ht : time < 0 ∨ 254 < time) :
    s.step (.call (.permit time)) = { s with tasks := s.tasks ++
      [{ call := .permit time, pc := .done (.raised .assertionError) }] } := by
  rw [AppSys.step]
  unfold AppSys.begin
  rw [Call.obj, if_neg (by omega)]
  rfl

/-- **C39.** With a free place, an open port and an idle radio it is written at once. -/
theorem c39_permit_sent (es : List AppEvent) (time : Int) (ht : 0 ≤ time ∧ time ≤ 254)
    (hn : (AppSys.init.run es).nsem ≠ 0) (hpl : PlaceFree (AppSys.init.run es))
    (hu : ((AppSys.init.run es).api (AppSys.init.run es).cur).uart = true)
    (hh : ((AppSys.init.run es).api (AppSys.init.run es).cur).holder = none)
    (hq : ((AppSys.init.run es).api (AppSys.init.run es).cur).queue = []) :
    Wrote (AppSys.init.run (es ++ [.call (.permit time),
        .enter (AppSys.init.run es).tasks.length])) (AppSys.init.run es).tasks.length
      (wire (permitFrame time)) := by
  obtain ⟨o, h1, h2, h3⟩ := permit_obj time ht
  rw [app_run_append]
  refine call_writes (o := o) h1 h3 ⟨_, h2, ?_⟩ hn (placeFree_sem (ainv_run es) hpl) ?_ hu hh hq
  · rw [Gateway.send, toBuffer_eq, if_pos]
    exact ⟨show 5 < 256 by decide, show 0x36 < 256 by decide⟩
  · intro q hq; cases hq

example : wire (permitFrame 60) = [0xFE, 5, 0x25, 0x36, 15, 0xFC, 0xFF, 60, 0, 0x26] ∧
    ((AppSys.init.run (exStarted ++ [.call (.permit 60), .enter 0,
      .api 1 (.frame (Frame.of .SRSP .ZDO 0x36 [0])), .api 1 (.wake 0), .call (.permit 255)])).tasks.map
        (fun k => match k.pc with | .done r => some r | _ => none)) =
    [some .none, some (.raised .assertionError)] := by decide +kernel

/-- Permit join for a minute, accepted; for 255 seconds, refused. -/
def exPermit : List AppEvent := exStarted ++ [.call (.permit 60), .enter 0,
  .api 1 (.frame (Frame.of .SRSP .ZDO 0x36 [0])), .api 1 (.wake 0)]

example : Wrote (AppSys.init.run exPermit) 0 (wire (permitFrame 60)) :=
  c39_permit_written exPermit 0 60 (isCall_iff.mpr (by decide +kernel))
    (endedWith_iff.mpr (by decide +kernel))

example : EndedWith ((AppSys.init.run exPermit).step (.call (.permit 255))) 1
    (.raised .assertionError) := by
  rw [c39_permit_refused (AppSys.init.run exPermit) 255 (.inr (by decide))]
  exact endedWith_iff.mpr (by decide +kernel)

/-! ## C40 -/

/-- **C40.** Of the calls that use the semaphore made at one start-up, never more than 16 (radio of
product 1, Z-Stack 3.x.0) or 2 (others) are past the gate. -/
theorem c40_bounded_per_start (es : List AppEvent) (g : Nat) (product : Int)
    (hg : (starts es)[g]? = some product) :
    (AppSys.init.run es).tasks.countP (fun k => k.sem == g && PastGate k) ≤
      if product = 1 then 16 else 2 := by
  have i := ainv_run es
  rw [← (limits_run es).2 g product hg, ← i.sem g]
  have : (AppSys.init.run es).tasks.countP (fun k => k.sem == g && PastGate k) =
      (AppSys.init.run es).tasks.countP (AppTask.inside g) := by
    apply List.countP_congr
    intro k hk
    rw [inside_iff, past_eq i hk]
    simp
  omega

/-- **C40 (partial).** If the application was started once, never more than 16 (2) calls in total
are past the gate. Missing: after a restart, see `c40_refuted`. -/
theorem c40_bounded_partial (es : List AppEvent) (product : Int) (hs : starts es = [product]) :
    (AppSys.init.run es).tasks.countP PastGate ≤ if product = 1 then 16 else 2 := by
  have i := ainv_run es
  have h0 := c40_bounded_per_start es 0 product (by rw [hs]; rfl)
  have : (AppSys.init.run es).tasks.countP (fun k => k.sem == 0 && PastGate k) =
      (AppSys.init.run es).tasks.countP PastGate := by
    apply List.countP_congr
    intro k hk
    simp only [Bool.and_eq_true, beq_iff_eq, and_iff_right_iff_imp]
    intro hp
    have hlt := i.semLt k hk (fun r hr => by
      unfold PastGate at hp; rw [hr] at hp; simp at hp)
    rw [(limits_run es).1, hs] at hlt
    simp at hlt
    exact hlt
  omega

/-- **C40.** Before the first start-up no call is past the gate. -/
theorem c40_none_before_start (es : List AppEvent) (hs : starts es = []) :
    (AppSys.init.run es).tasks.countP PastGate = 0 := by
  have i := ainv_run es
  rw [List.countP_eq_zero]
  intro k hk hp
  have hlt := i.semLt k hk (fun r hr => by
    unfold PastGate at hp; rw [hr] at hp; simp at hp)
  rw [(limits_run es).1, hs] at hlt
  simp at hlt

/-- **C40.** A place that is not taken can be had: if fewer calls than allowed are past the gate, a
waiting call that gets its turn goes through. So finished, failed and cancelled calls, which are not
past the gate any more, have given back their places. -/
theorem c40_place_can_be_had (es : List AppEvent) (n : Nat) (k : AppTask) (o : Obj)
    (w : Option (Nat × Nat)) (product : Int)
    (hk : (AppSys.init.run es).tasks[n]? = some k) (hpc : k.pc = .waiting o w)
    (hg : (starts es)[k.sem]? = some product)
    (hfree : (AppSys.init.run es).tasks.countP (fun k' => k'.sem == k.sem && PastGate k') <
      if product = 1 then 16 else 2) :
    ∃ k', (AppSys.init.run (es ++ [.enter n])).tasks[n]? = some k' ∧ k'.call = k.call ∧
      ∃ t w', k'.ran = some ((AppSys.init.run es).cur, t) ∧ k.call.obj = .ok o ∧
        .submitted t o w' none ∈
          ((AppSys.init.run (es ++ [.enter n])).api (AppSys.init.run es).cur).log := by
  have i := ainv_run es
  rw [← (limits_run es).2 _ product hg, ← i.sem k.sem] at hfree
  have : (AppSys.init.run es).tasks.countP (fun k' => k'.sem == k.sem && PastGate k') =
      (AppSys.init.run es).tasks.countP (AppTask.inside k.sem) := by
    apply List.countP_congr
    intro k' hk'
    rw [inside_iff, past_eq i hk']
    simp
  obtain ⟨k', h1, h2, h3, h4⟩ := enter_ran hk hpc (by omega)
  have hobj : k.call.obj = .ok o := by
    have := (i.tasks k (List.mem_of_getElem? hk)).pc
    rw [hpc] at this
    exact this.2.1
  rw [app_run_append]
  refine ⟨k', h1, h2, _, w.map Prod.snd, h3, hobj, ?_⟩
  show _ ∈ (((AppSys.init.run es).enter n).api _).log
  rw [h4, upd_same]
  exact submit_log _ _ _

/-- **C40.** When all places are taken, a waiting call goes on waiting. -/
theorem c40_full_waits (es : List AppEvent) (n : Nat) (k : AppTask) (product : Int)
    (hk : (AppSys.init.run es).tasks[n]? = some k)
    (hg : (starts es)[k.sem]? = some product)
    (hfull : (AppSys.init.run es).tasks.countP (fun k' => k'.sem == k.sem && PastGate k') =
      if product = 1 then 16 else 2) :
    (AppSys.init.run (es ++ [.enter n])) = AppSys.init.run es := by
  have i := ainv_run es
  rw [← (limits_run es).2 _ product hg, ← i.sem k.sem] at hfull
  have : (AppSys.init.run es).tasks.countP (fun k' => k'.sem == k.sem && PastGate k') =
      (AppSys.init.run es).tasks.countP (AppTask.inside k.sem) := by
    apply List.countP_congr
    intro k' hk'
    rw [inside_iff, past_eq i hk']
    simp
  rw [app_run_append]
  show (AppSys.init.run es).enter n = _
  unfold AppSys.enter
  rw [hk]
  dsimp only
  split
  · rw [if_pos (by omega)]
  · rfl

/-- **C40 (refuted).** After a restart the old and the new semaphore are both in use: three calls
are past the gate although both radios allow two. -/
theorem c40_refuted :
    ¬ ∀ es : List AppEvent, (∀ product ∈ starts es, product = 0) →
      (AppSys.init.run es).tasks.countP PastGate ≤ 2 := by
  intro h
  have := h ([.newApi, .newSemaphore 0, .call exToggle, .call exToggle, .enter 0, .enter 1,
    .newApi, .newSemaphore 0, .call exToggle, .enter 2]) (by decide)
  revert this
  decide +kernel

/-- Two calls are past the gate of a Z-Stack 1.2 radio, the third waits; it goes on when the first
one is cancelled. -/
def exGate : List AppEvent :=
  [.newApi, .newSemaphore 0, .call exToggle, .call exToggle, .call exToggle, .enter 0, .enter 1,
   .enter 2]

example : ((AppSys.init.run exGate).tasks.map PastGate) = [true, true, false] ∧
    ((AppSys.init.run (exGate ++ [.cancel 0, .enter 2])).tasks.map PastGate) = [false, true, true] ∧
    starts exGate = [0] := by decide +kernel

/-- At most two calls, and exactly two in `exGate`. -/
example : (AppSys.init.run exGate).tasks.countP PastGate ≤ 2 ∧
    (AppSys.init.run exGate).tasks.countP PastGate = 2 :=
  ⟨c40_bounded_partial exGate 0 (by decide +kernel), by decide +kernel⟩

/-- Before start-up a call fails at once. -/
example : (AppSys.init.run [.call exToggle, .enter 0]).tasks.countP PastGate = 0 :=
  c40_none_before_start _ (by decide)

/-- The third call does not get through; when the first is cancelled, it does. -/
example : AppSys.init.run (exGate ++ [.enter 2]) = AppSys.init.run exGate := by
  have h : ∃ k, (AppSys.init.run exGate).tasks[2]? = some k ∧ k.sem = 0 := by
    have : ((AppSys.init.run exGate).tasks[2]?.map (·.sem)) = some 0 := by decide +kernel
    rcases h : (AppSys.init.run exGate).tasks[2]? with _ | k
    · rw [h] at this; cases this
    · rw [h] at this; exact ⟨k, rfl, by simpa using this⟩
  obtain ⟨k, hk, hs⟩ := h
  exact c40_full_waits exGate 2 k 0 hk (by rw [hs]; decide +kernel) (by rw [hs]; decide +kernel)

example : ∃ k k' : AppTask, (AppSys.init.run (exGate ++ [.cancel 0])).tasks[2]? = some k ∧
    (AppSys.init.run (exGate ++ [.cancel 0] ++ [.enter 2])).tasks[2]? = some k' ∧ k'.call = k.call := by
  have h : ∃ k o w, (AppSys.init.run (exGate ++ [.cancel 0])).tasks[2]? = some k ∧ k.sem = 0 ∧
      k.pc = .waiting o w := by
    have : ((AppSys.init.run (exGate ++ [.cancel 0])).tasks[2]?.bind fun k => match k.pc with
        | .waiting _ _ => some k.sem | _ => none) = some 0 := by decide +kernel
    rcases h : (AppSys.init.run (exGate ++ [.cancel 0])).tasks[2]? with _ | k
    · rw [h] at this; cases this
    · rw [h] at this
      rw [Option.bind_some] at this
      split at this
      · rename_i o w hp; exact ⟨k, o, w, h, by simpa using this, hp⟩
      · cases this
  obtain ⟨k, o, w, hk, hs, hp⟩ := h
  obtain ⟨k', h1, h2, _⟩ := c40_place_can_be_had _ 2 k o w 0 hk hp (by rw [hs]; decide +kernel)
    (by rw [hs]; decide +kernel)
  exact ⟨k, k', hk, h1, h2⟩

/-! ## C41 -/

/-- **C41 (partial).** `request`, `mrequest` and `broadcast` of the usual profiles return a status
only if the radio answered this kind of command with this status after the request was written; the
success message is returned exactly with status 0. Missing: commands that have no answer, see
`c41_refuted`. -/
theorem c41_truthful_partial (es : List AppEvent) (n : Nat) (c : Call) (z : Int) (m : String)
    (ho : Ordinary c) (hc : IsCall (AppSys.init.run es) n c)
    (hr : EndedWith (AppSys.init.run es) n (.returned z m)) :
    ∃ o, c.obj = .ok o ∧ Answered (AppSys.init.run es) n o z ∧
      (z = 0 ↔ m = "message send success" ∨ m = "broadcast send success") := by
  have i := ainv_run es
  obtain ⟨k, hk, rfl⟩ := hc
  obtain ⟨k', hk', hpc⟩ := hr
  rw [hk] at hk'; cases hk'
  have hend := ended_inv i hk hpc
  generalize hres : Result.returned z m = r at hend
  cases hend with
  | accepted j t x h1 h2 =>
    obtain ⟨o, h3, h4⟩ := answered_of i hk ho h1 h2
    have hz : z = 0 ∧ (m = "message send success" ∨ m = "broadcast send success") := by
      revert hres
      cases k.call <;> intro hres <;> cases hres
      · exact ⟨rfl, .inl rfl⟩
      · exact ⟨rfl, .inl rfl⟩
      · exact ⟨rfl, .inr rfl⟩
    obtain ⟨rfl, hm⟩ := hz
    exact ⟨o, h3, h4, by simp [hm]⟩
  | failed j t e h1 h2 =>
    have hz : e = .commandError z ∧ m ≠ "message send success" ∧ m ≠ "broadcast send success" := by
      unfold Call.failure at hres
      split at hres
      · cases hres; exact ⟨rfl, by decide, by decide⟩
      · cases hres; exact ⟨rfl, by decide, by decide⟩
      · cases hres; exact ⟨rfl, by decide, by decide⟩
      · cases hres
    obtain ⟨rfl, hm1, hm2⟩ := hz
    obtain ⟨o, h3, h4, h5⟩ := refused_of i hk h1 h2
    refine ⟨o, h3, h4, ?_⟩
    constructor
    · intro h; exact absurd h h5
    · rintro (h | h)
      · exact absurd h hm1
      · exact absurd h hm2
  | cancelled _ => cases hres
  | rejected e _ _ => cases hres

/-- **C41.** The same for permit join: it returns only if the radio answered with status 0. -/
theorem c41_permit (es : List AppEvent) (n : Nat) (time : Int)
    (hc : IsCall (AppSys.init.run es) n (.permit time))
    (hr : EndedWith (AppSys.init.run es) n .none) :
    ∃ o, (Call.permit time).obj = .ok o ∧ Answered (AppSys.init.run es) n o 0 := by
  have i := ainv_run es
  obtain ⟨k, hk, hkc⟩ := hc
  obtain ⟨k', hk', hpc⟩ := hr
  rw [hk] at hk'; cases hk'
  have hend := ended_inv i hk hpc
  generalize hres : Result.none = r at hend
  cases hend with
  | accepted j t x h1 h2 =>
    obtain ⟨o, h3, h4⟩ := answered_of i hk (by rw [hkc]; trivial) h1 h2
    exact ⟨o, by rw [← hkc]; exact h3, h4⟩
  | failed j t e h1 h2 =>
    exfalso
    unfold Call.failure at hres
    split at hres <;> cases hres
  | cancelled _ => cases hres
  | rejected e _ _ => cases hres

/-- **C41 (refuted).** A request for cluster 0x41 outside of the Home Automation profile becomes an
MT command without answer: the call reports success although the radio never said anything. -/
theorem c41_refuted :
    ¬ ∀ (es : List AppEvent) (n : Nat) (c : Call) (z : Int) (m : String),
      IsCall (AppSys.init.run es) n c → EndedWith (AppSys.init.run es) n (.returned z m) →
      ∃ o, c.obj = .ok o ∧ Answered (AppSys.init.run es) n o z := by
  intro h
  let c : Call := .request 0x1234 0 0x41 0 0 7 [7, 3] false
  let es : List AppEvent := exStarted ++ [.call c, .enter 0]
  obtain ⟨o, _, k, i, t, b, f, rsp, hk, hr, _, _, _, hs⟩ :=
    h es 0 c 0 "message send success" (isCall_iff.mpr (by decide +kernel))
      (endedWith_iff.mpr (by decide +kernel))
  have hrun : (AppSys.init.run es).tasks[0]?.bind (·.ran) = some (1, 0) := by decide +kernel
  rw [hk, Option.bind_some, hr] at hrun
  cases hrun
  have hm : Entry.received f rsp ∈ ((AppSys.init.run es).api 1).log := hs.subset (by simp)
  have : ((AppSys.init.run es).api 1).log.all (fun e => match e with
      | .received _ _ => false | _ => true) = true := by decide +kernel
  have := List.all_eq_true.mp this _ hm
  cases this

example : Ordinary exToggle ∧ IsCall (AppSys.init.run exRequest) 0 exToggle ∧
    EndedWith (AppSys.init.run exRequest) 0 (.returned 0 "message send success") :=
  ⟨.inl rfl, isCall_iff.mpr (by decide +kernel), endedWith_iff.mpr (by decide +kernel)⟩

/-- Refused with status 0xCD: the caller gets this status. -/
example : ((AppSys.init.run (exStarted ++ [.call exToggle, .enter 0,
      .api 1 (.frame (exDataRsp 0xCD)), .api 1 (.wake 0)])).tasks.map
        (fun k => match k.pc with | .done r => some r | _ => none)) =
    [some (.returned 0xCD "Couldn't enqueue send data request: ")] := by decide +kernel

/-- The radio has answered both: the call that returned the status 0xCD and permit join. -/
example : ∃ o, exToggle.obj = .ok o ∧ Answered (AppSys.init.run exTwoCalls) 1 o 0xCD := by
  obtain ⟨o, h1, h2, _⟩ := c41_truthful_partial exTwoCalls 1 exToggle 0xCD
    "Couldn't enqueue send data request: " (.inl rfl) (isCall_iff.mpr (by decide +kernel))
    (endedWith_iff.mpr (by decide +kernel))
  exact ⟨o, h1, h2⟩

example : ∃ o, (Call.permit 60).obj = .ok o ∧ Answered (AppSys.init.run exPermit) 0 o 0 :=
  c41_permit exPermit 0 60 (isCall_iff.mpr (by decide +kernel)) (endedWith_iff.mpr (by decide +kernel))

end Zcc
