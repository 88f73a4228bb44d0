import Verif.Model.Api

/-!
# The API as a transition system: concurrent callers of /repo/zigpy_cc/api.py

An execution is a list of events. Each event is one atomic piece of work of the event loop. An
event that is not possible in the current state has no effect, so every list of events is an
execution and all executions are covered.
-/

namespace Zcc

/-- The events. -/
inductive Event where
  /-- somebody calls `request_raw(obj, waiter_id, expected_status)`, api.py:119 (also through
  `request`, api.py:113-117, which builds `obj` first). `waiter_id` can be any number: a call of the
  application may bring one that another API object gave out -/
  | submit (o : Obj) (waiterId : Option Nat) (expected : Option (List Int))
  /-- the lock is free and wakes the first waiting call (`asyncio.Lock` is FIFO) -/
  | grant
  /-- a frame arrives: `data_received`, api.py:233 -/
  | frame (f : Frame)
  /-- call `t` resumes because its waiter got a result, api.py:141 -/
  | wake (t : Nat)
  /-- `asyncio.wait_for` (api.py:47) of call `t` times out and cancels the future -/
  | timeout (t : Nat)
  /-- call `t` is cancelled by its caller -/
  | cancel (t : Nat)
  /-- the `call_later` callback of waiter `w` runs, api.py:215-229 -/
  | timer (w : Nat)
  /-- time passes -/
  | tick (ms : Nat)
  /-- the port is opened or closed: `connect`, api.py:103, `close`, api.py:105-108 -/
  | setUart (isOpen : Bool)
  /-- somebody calls `wait_for` directly (start_znp.py:138, 153, 207) -/
  | register (m : Matcher) (timeout : Nat) (sequence : Option Int)
  /-- somebody calls `create_response_waiter`, api.py:173 -/
  | registerResponse (o : Obj) (sequence : Option Int)
  /-- whoever waits for a directly registered waiter gives up (timeout or cancellation of
  `waiter.wait()`, api.py:46-47) -/
  | abandon (w : Nat)

/-- A new call of `request_raw` queues for the lock, api.py:120. -/
def Api.enqueue (s : Api) (o : Obj) (waiterId : Option Nat) (expected : Option (List Int)) : Api :=
  { s with
    tasks := upd s.tasks s.nextTid (some { obj := o, waiterId, expected, pc := .queued })
    nextTid := s.nextTid + 1
    queue := s.queue ++ [s.nextTid]
    log := s.log ++ [.submitted s.nextTid o waiterId expected] }

/-- If the lock is free, the first call in the queue takes it and starts. -/
def Api.grant (s : Api) : Api :=
  match s.holder, s.queue with
  | none, t :: q =>
    match s.tasks t with
    | some k => (({ s with holder := some t, queue := q } : Api).setPc t .running).start t k.obj
    | none => s
  | _, _ => s

/-- One event. -/
def Api.step (s : Api) : Event → Api
  | .submit o waiterId expected =>
    -- a free lock without waiters is taken at once
    if s.holder = none ∧ s.queue = [] then (s.enqueue o waiterId expected).grant
    else s.enqueue o waiterId expected
  | .grant => s.grant
  | .frame f => (s.dataReceived f).1
  | .wake t =>
    match s.tasks t with
    | some k =>
      match k.pc with
      | .waiting w _ =>
        match s.fut w with
        | .result o => s.conclude t k o
        | _ => s
      | _ => s
    | none => s
  | .timeout t =>
    match s.tasks t with
    | some k =>
      match k.pc with
      | .waiting w deadline =>
        if s.fut w = .pending ∧ deadline ≤ s.now then
          { s.finish t (.error .timeoutError) with fut := upd s.fut w .cancelled }
        else s
      | _ => s
    | none => s
  | .cancel t =>
    match s.tasks t with
    | some k =>
      match k.pc with
      | .queued =>
        { s.setPc t (.done (.error .cancelledError)) with
          queue := s.queue.filter (fun x => x != t),
          log := s.log ++ [.finished t (.error .cancelledError)] }
      | .waiting w _ =>
        { s.finish t (.error .cancelledError) with
          fut := if s.fut w = .pending then upd s.fut w .cancelled else s.fut }
      | _ => s
    | none => s
  | .timer w =>
    match s.timers.find? (fun x => x.1 == w && decide (x.2 ≤ s.now)) with
    | some x => ({ s with timers := s.timers.erase x } : Api).timerCallback w
    | none => s
  | .tick ms => { s with now := s.now + ms }
  | .setUart b => { s with uart := b }
  | .register m timeout sequence =>
    let r := s.waitFor m timeout sequence
    { r.2 with ext := r.1 :: r.2.ext }
  | .registerResponse o sequence => (s.createResponseWaiter o sequence).1
  | .abandon w =>
    if w ∈ s.ext ∧ s.fut w = .pending then { s with fut := upd s.fut w .cancelled } else s

/-- An execution: the state after a list of events. -/
def Api.run (s : Api) (es : List Event) : Api := es.foldl Api.step s

/-- The state of a new API object (api.py:77-84). -/
def Api.init : Api := { uart := false }

end Zcc
