import Verif.Model.Runtime

/-!
# Outgoing calls of the application: /repo/zigpy_cc/zigbee/application.py:88-107, 139-321

`request`, `mrequest`, `broadcast` and `permit_ncp` as concurrent calls, on top of the API model.
As in `Verif/Model/Runtime.lean` an execution is a list of events, an event that is not possible
has no effect.
-/

namespace Zcc

/-- `AddressMode`, types.py:21-26. -/
def addrGroup : Int := 1
@[inherit_doc addrGroup] def addr16Bit : Int := 2
@[inherit_doc addrGroup] def addrBroadcast : Int := 15

/-- A call of the application, with the arguments that matter.
`request` (application.py:211-222; `nwk` is `device.nwk`, `use_ieee` is ignored by the code; the
decorator `retryable_request` of zigpy is not modelled, it only repeats the call),
`mrequest` (lines 139-150; `src_ep=None` behaves like 0; `non_member_radius` is ignored),
`broadcast` (lines 256-267; `grpid` is ignored), `permit_ncp` (line 312). -/
inductive Call where
  | request (nwk profile cluster srcEp dstEp sequence : Int) (data : List UInt8)
      (expectReply : Bool)
  | mrequest (group profile cluster srcEp sequence : Int) (data : List UInt8) (hops : Int)
  | broadcast (profile cluster srcEp dstEp radius sequence : Int) (data : List UInt8)
      (address : Int)
  | permit (time : Int)
  deriving DecidableEq, Inhabited

/-- The request object of a call: application.py:239-241 (`request`), 181-190 (`mrequest`),
283-293 (`broadcast`), 313-321 and api.py:116 (`permit_ncp`).
Simplification: `permit_ncp` builds the object after it passed the semaphore; it does not depend on
any state, so the model builds it before. -/
def Call.obj : Call → Except PyErr Obj
  | .request nwk profile cluster srcEp dstEp sequence data _ =>
    Obj.fromCluster nwk profile cluster srcEp dstEp sequence data
  | .mrequest group profile cluster srcEp sequence data _ =>
    Obj.fromCluster group profile cluster (if srcEp = 0 then 1 else srcEp) 0xFF sequence data
      (addrMode := some addrGroup)
  | .broadcast profile cluster srcEp dstEp radius sequence data address =>
    Obj.fromCluster address profile cluster srcEp dstEp sequence data (radius := radius)
      (addrMode := some addr16Bit)
  | .permit time =>
    if 0 ≤ time ∧ time ≤ 254 then
      Obj.fromCommand .ZDO "mgmtPermitJoinReq"
        [("addrmode", .int addrBroadcast), ("dstaddr", .int allRoutersAndCoordinator),
         ("duration", .int time), ("tcsignificance", .int 0)]
    else .error .assertionError

/-- An exception that leaves a coroutine: `StopIteration` becomes `RuntimeError` (PEP 479). -/
def leaveCoroutine : PyErr → PyErr
  | .stopIteration => .runtimeError
  | e => e

/-- Whether the call creates a response waiter and for which transaction number:
application.py:192 (`mrequest`), 243-244 (`request`). -/
def Call.wantsReply : Call → Option Int
  | .request _ _ _ _ _ sequence _ expectReply => if expectReply then some sequence else none
  | .mrequest _ _ _ _ sequence _ _ => some sequence
  | _ => none

/-- Whether the call sleeps 0.2 s before it leaves the semaphore: application.py:203, 302. -/
def Call.settles : Call → Bool
  | .mrequest .. | .broadcast .. => true
  | _ => false

/-- How a call of the application ends: with the tuple `(status, message)` (the error messages are
modelled without the text of the exception, which is appended), with `None` (`permit_ncp`), or with
an exception. -/
inductive Result where
  | returned (status : Int) (message : String)
  | none
  | raised (e : PyErr)
  deriving DecidableEq, Inhabited

/-- The result of a call whose request was accepted: application.py:208 (`mrequest`), 254
(`request`), 310 (`broadcast`), 321 (`permit_ncp`). -/
def Call.success : Call → Result
  | .request .. | .mrequest .. => .returned 0 "message send success"
  | .broadcast .. => .returned 0 "broadcast send success"
  | .permit _ => .none

/-- The result of a call whose API request raised: `CommandError` is turned into its status
(application.py:205-206, 251-252, 304-308) except by `permit_ncp`. -/
def Call.failure : Call → PyErr → Result
  | .request .., .commandError z => .returned z "Couldn't enqueue send data request: "
  | .mrequest .., .commandError z => .returned z "Couldn't enqueue send data multicast: "
  | .broadcast .., .commandError z => .returned z "Couldn't enqueue send data request for broadcast: "
  | _, e => .raised (leaveCoroutine e)

/-- Program point of a call: waiting for the semaphore with its object and response waiter (API
number and waiter id), in `request_raw` (API number and call number there), in `asyncio.sleep(0.2)`
(API number and end on the clock of that API), ended. -/
inductive AppPc where
  | waiting (o : Obj) (waiter : Option (Nat × Nat))
  | inApi (api tid : Nat)
  | sleeping (api wakeAt : Nat)
  | done (r : Result)

/-- A call, the semaphore it uses (number), and (not in the program) its `request_raw` call. -/
structure AppTask where
  call : Call
  sem : Nat := 0
  ran : Option (Nat × Nat) := none
  pc : AppPc

/-- The application. `startup` (application.py:92, 104) replaces `_api` and `_semaphore`, so there
may be several of both: `api i` is the `i`th, `cur` the current `_api`; `sem g` is the `_value` of
the `g`th semaphore, `limit g` its initial value (not in the program), `nsem` their number; the
current `_semaphore` is the last one. -/
structure AppSys where
  api : Nat → Api := fun _ => Api.init
  cur : Nat := 0
  sem : Nat → Nat := fun _ => 0
  limit : Nat → Nat := fun _ => 0
  nsem : Nat := 0
  tasks : List AppTask := []

/-- The events. -/
inductive AppEvent where
  /-- something happens in the `i`th API (see `Event`): radio messages, timeouts, calls from
  elsewhere (start-up, LED), opening and closing of the port, ... -/
  | api (i : Nat) (e : Event)
  /-- a call begins and runs up to the semaphore -/
  | call (c : Call)
  /-- waiting call number `n` gets past the semaphore -/
  | enter (n : Nat)
  /-- the sleep of call `n` is over -/
  | wakeUp (n : Nat)
  /-- call `n` is cancelled -/
  | cancel (n : Nat)
  /-- `startup` connects a new API object, application.py:92 (api.py:92-96) -/
  | newApi
  /-- `startup` creates a new semaphore for a radio of this product, application.py:101-104 -/
  | newSemaphore (product : Int)

/-- The number of concurrent requests, application.py:101. -/
def concurrent (product : Int) : Nat := if product = 1 then 16 else 2

/-- The call is past the semaphore `g`. -/
def AppTask.inside (g : Nat) (k : AppTask) : Bool :=
  k.sem == g && match k.pc with
    | .inApi .. | .sleeping .. => true
    | _ => false

/-- The call after its API call has returned or raised: application.py:197-208, 249-254, 296-310,
321. -/
def AppTask.settle (api : Nat → Api) (k : AppTask) : AppTask :=
  match k.pc with
  | .inApi i t =>
    match (api i).tasks t with
    | some a =>
      match a.pc with
      | .done (.ok _) =>
        if k.call.settles then { k with pc := .sleeping i ((api i).now + 200) }
        else { k with pc := .done k.call.success }
      | .done (.error e) => { k with pc := .done (k.call.failure e) }
      | _ => k
    | none => k
  | _ => k

/-- Calls whose API call is over go on; each call that leaves the `async with` block increments the
value of its semaphore. -/
def AppSys.settle (s : AppSys) : AppSys :=
  { s with
    tasks := s.tasks.map (AppTask.settle s.api)
    sem := fun g => s.sem g +
      s.tasks.countP (fun k => k.inside g && !(k.settle s.api).inside g) }

/-- An event in one of the APIs, and what it makes of the calls. -/
def AppSys.apiStep (s : AppSys) (i : Nat) (e : Event) : AppSys :=
  AppSys.settle { s with api := upd s.api i ((s.api i).step e) }

/-- `self._semaphore` for a call that got to the `async with`: `AttributeError` before the first
start-up created it. -/
def AppSys.gate (s : AppSys) (c : Call) (o : Obj) (waiter : Option (Nat × Nat)) : AppTask :=
  if s.nsem = 0 then { call := c, pc := .done (.raised .attributeError) }
  else { call := c, sem := s.nsem - 1, pc := .waiting o waiter }

/-- A call from its beginning to the semaphore: application.py:180-196, 238-248, 282-295,
313-320.
Simplification: `_api` is `None` before the first start-up; the model has an API with closed port
instead. The calls end with `AttributeError` in both cases, as there is no semaphore either. -/
def AppSys.begin (s : AppSys) (c : Call) : AppSys :=
  match c.obj with
  | .error e => { s with tasks := s.tasks ++ [{ call := c, pc := .done (.raised (leaveCoroutine e)) }] }
  | .ok o =>
    match c.wantsReply with
    | none => { s with tasks := s.tasks ++ [s.gate c o none] }
    | some q =>
      match (s.api s.cur).createResponseWaiter o (some q) with
      | (_, .error e) =>
        { s with tasks := s.tasks ++ [{ call := c, pc := .done (.raised (leaveCoroutine e)) }] }
      | (a, .ok w) =>
        { s with api := upd s.api s.cur a,
                 tasks := s.tasks ++ [s.gate c o (w.map (fun w => (s.cur, w)))] }

/-- Waiting call `n` takes a place of its semaphore and calls `request_raw` of the API that is
current now: application.py:196-197, 248-249, 295-296, 320-321 (`self._api` is looked up after the
semaphore). The place is free only if the value is positive. (`asyncio.Semaphore` is fair; the model
lets any waiting call go first, which only adds executions.) The response waiter's id may be one of
an API that has been replaced meanwhile; it is handed to the current API all the same. -/
def AppSys.enter (s : AppSys) (n : Nat) : AppSys :=
  match s.tasks[n]? with
  | some k =>
    match k.pc with
    | .waiting o waiter =>
      if s.sem k.sem = 0 then s
      else
        let a := s.api s.cur
        AppSys.settle
          { s with
            api := upd s.api s.cur (a.step (.submit o (waiter.map Prod.snd) none))
            sem := upd s.sem k.sem (s.sem k.sem - 1)
            tasks := s.tasks.set n
              { k with pc := .inApi s.cur a.nextTid, ran := some (s.cur, a.nextTid) } }
    | _ => s
  | none => s

/-- Call `n` leaves the semaphore and ends. -/
def AppSys.leave (s : AppSys) (n : Nat) (k : AppTask) (r : Result) : AppSys :=
  { s with sem := upd s.sem k.sem (s.sem k.sem + 1),
           tasks := s.tasks.set n { k with pc := .done r } }

/-- One event. -/
def AppSys.step (s : AppSys) : AppEvent → AppSys
  | .api i e => s.apiStep i e
  | .call c => s.begin c
  | .enter n => s.enter n
  | .wakeUp n =>
    match s.tasks[n]? with
    | some k =>
      match k.pc with
      | .sleeping i wakeAt =>
        if wakeAt ≤ (s.api i).now then s.leave n k k.call.success else s
      | _ => s
    | none => s
  | .cancel n =>
    match s.tasks[n]? with
    | some k =>
      match k.pc with
      | .waiting .. =>
        { s with tasks := s.tasks.set n { k with pc := .done (.raised .cancelledError) } }
      | .inApi i t => s.apiStep i (.cancel t)
      | .sleeping .. => s.leave n k (.raised .cancelledError)
      | .done _ => s
    | none => s
  | .newApi =>
    { s with cur := s.cur + 1,
             api := upd s.api (s.cur + 1) ((s.api (s.cur + 1)).step (.setUart true)) }
  | .newSemaphore product =>
    { s with sem := upd s.sem s.nsem (concurrent product),
             limit := upd s.limit s.nsem (concurrent product), nsem := s.nsem + 1 }

/-- An execution. -/
def AppSys.run (s : AppSys) (es : List AppEvent) : AppSys := es.foldl AppSys.step s

/-- The application before its first start-up. -/
def AppSys.init : AppSys := {}

end Zcc
