import Verif.Model.ZpiObject

/-!
# The API object: /repo/zigpy_cc/api.py

State of one `API` instance together with the asyncio objects its coroutines live on. Code between
two `await`s runs atomically (one event loop thread), so each such piece of code is one function
on the state. `Verif/Model/Runtime.lean` puts them together into a transition system.
-/

namespace Zcc

/-- `Matcher`, api.py:21-26. A `payload` of `None` or `{}` is the empty list (line 66 treats both
alike). -/
structure Matcher where
  commandType : CommandType
  subsystem : Subsystem
  command : String
  payload : Payload
  deriving DecidableEq, Repr, Inhabited

/-- `Waiter`, api.py:29-44, without its future: futures are kept in `Api.fut` by waiter id,
because they outlive the waiter's stay in the table. -/
structure Waiter where
  id : Nat
  matcher : Matcher
  timeout : Nat
  sequence : Option Int
  deriving DecidableEq, Repr, Inhabited

/-- The state of a waiter's `asyncio` future. -/
inductive Fut where
  | pending
  | result (o : Obj)
  | cancelled
  deriving DecidableEq, Repr, Inhabited

/-- Where a `request_raw` coroutine is (api.py:119-171). -/
inductive Pc where
  /-- suspended in `async with self._lock` (line 120) -/
  | queued
  /-- holds the lock and runs the code of `_request_raw` up to its `await` (lines 124-141, 164) -/
  | running
  /-- holds the lock, suspended in `waiter.wait()` (lines 141, 164) of waiter `w`, whose
  `asyncio.wait_for` time limit is `deadline` -/
  | waiting (w : Nat) (deadline : Nat)
  /-- returned (`none` is `None`) or raised -/
  | done (r : Except PyErr (Option Obj))
  deriving DecidableEq, Inhabited

/-- One call of `request_raw(obj, waiter_id, expected_status)`, api.py:119. -/
structure Task where
  obj : Obj
  waiterId : Option Nat
  expected : Option (List Int)
  pc : Pc
  deriving DecidableEq, Inhabited

/-- What can be observed of an API object, in the order in which it happens. This log is not part
of the program; properties are stated on it. -/
inductive Entry where
  /-- `request_raw(obj, waiter_id, expected_status)` was called (call number `t`) -/
  | submitted (t : Nat) (o : Obj) (waiterId : Option Nat) (expected : Option (List Int))
  /-- call `t` wrote these bytes to the serial port -/
  | sent (t : Nat) (bytes : List UInt8)
  /-- call `t` returned or raised -/
  | finished (t : Nat) (r : Except PyErr (Option Obj))
  /-- frame `f` was received and decoded to the message `o` -/
  | received (f : Frame) (o : Obj)
  /-- waiter `w` was created at that time -/
  | registered (w : Waiter) (time : Nat)
  /-- a waiter's future got its result -/
  | resolved (w : Nat) (o : Obj)
  /-- a waiter left the table without a matching message (timer or refused request) -/
  | dropped (w : Nat)
  /-- a message was handed to the application (with the transaction number it was given) -/
  | handed (o : Obj)
  deriving DecidableEq, Inhabited

/-- The `API` instance (api.py:77-84) and its asyncio surroundings.
`waiters` is the dict `_waiters` in insertion order, `waiterId` is `_waiter_id`, `holder` and
`queue` are the state of the `asyncio.Lock` `_lock` (FIFO), `uart` tells whether `_uart` is set,
`timers` are the pending `call_later` callbacks of `wait_for` (waiter id and due time in ms),
`now` is the loop's clock in ms, `tasks` are the `request_raw` calls so far.
`ext` (not in the program) lists the waiters that were not created by `_request_raw` for itself. -/
structure Api where
  waiters : List Waiter := []
  waiterId : Nat := 0
  fut : Nat → Fut := fun _ => .pending
  timers : List (Nat × Nat) := []
  now : Nat := 0
  uart : Bool := true
  tasks : Nat → Option Task := fun _ => none
  nextTid : Nat := 0
  holder : Option Nat := none
  queue : List Nat := []
  ext : List Nat := []
  log : List Entry := []

/-- Function update. -/
def upd {β : Type} (f : Nat → β) (i : Nat) (v : β) : Nat → β := fun j => if j = i then v else f j

/-- `Waiter.match`, api.py:66-69: the loop over the expected payload; `obj.payload[f]` raises
`KeyError` if the message lacks the field. -/
def matchPayload (payload : Payload) : Payload → Except PyErr Bool
  | [] => .ok true
  | (f, v) :: rest => do
    let x ← dictGet payload f
    if v ≠ x then return false else matchPayload payload rest

/-- `Waiter.match`, api.py:57-71. -/
def Matcher.match (m : Matcher) (o : Obj) : Except PyErr Bool :=
  if m.commandType ≠ o.commandType ∨ m.subsystem ≠ o.subsystem ∨ m.command ≠ o.command then
    .ok false
  else matchPayload o.payload m.payload

/-- Python truthiness of `waiter.sequence` (api.py:245): `None` and `0` are false. -/
def truthySeq : Option Int → Bool
  | none => false
  | some n => n != 0

/-- `self._waiters.pop(id)`, api.py:148, 225, 243. -/
def Api.pop (s : Api) (w : Nat) : Api := { s with waiters := s.waiters.filter (fun x => x.id != w) }

/-- A waiter leaves the table without a matching message, api.py:148, 225. -/
def Api.drop (s : Api) (w : Nat) : Api := { s.pop w with log := s.log ++ [.dropped w] }

/-- `Waiter.set_result`, api.py:49-55: only a pending future gets the result. -/
def Api.setResult (s : Api) (w : Nat) (o : Obj) : Api :=
  match s.fut w with
  | .pending => { s with fut := upd s.fut w (.result o), log := s.log ++ [.resolved w o] }
  | _ => s

/-- The loop of `data_received`, api.py:240-247, over the remaining waiters of the snapshot. The
result holds the transaction number given to the message (`obj.sequence`, line 246) and the
exception raised by `match`, if any.
Simplification: waiters resolved by the message share the message object, so they would see the
sequence set afterwards; nothing reads it there, and the model stores the message without it. -/
def Api.matchLoop (o : Obj) : List Waiter → Api → Api × Except PyErr (Option Int)
  | [], s => (s, .ok none)
  | w :: ws, s =>
    match w.matcher.match o with
    | .error e => (s, .error e)
    | .ok false => Api.matchLoop o ws s
    | .ok true =>
      let s := (s.pop w.id).setResult w.id o
      if truthySeq w.sequence then (s, .ok w.sequence) else Api.matchLoop o ws s

/-- `API.data_received`, api.py:233-247: decode, resolve waiters. The second component is the
message (with its transaction number) that is handed to `handle_znp` (line 252), or the exception
raised before that. What `handle_znp` does is modelled in `Verif/Model/App.lean`; the handlers of
line 255 only log. -/
def Api.dataReceived (s : Api) (f : Frame) : Api × Except PyErr Obj :=
  match Obj.fromUnpiFrame f with
  | .error e => (s, .error e)
  | .ok o =>
    let s := { s with log := s.log ++ [.received f o] }
    match Api.matchLoop o s.waiters s with
    | (s, .error e) => (s, .error e)
    | (s, .ok seq) =>
      ({ s with log := s.log ++ [.handed { o with sequence := seq }] }, .ok { o with sequence := seq })

/-- `Timeouts`, types.py:15-18, in milliseconds. -/
def timeoutSREQ : Nat := 6000
@[inherit_doc timeoutSREQ] def timeoutReset : Nat := 30000
@[inherit_doc timeoutSREQ] def timeoutDefault : Nat := 10000

/-- `API.wait_for`, api.py:194-231: new waiter with the next id, and its timer. -/
def Api.waitFor (s : Api) (m : Matcher) (timeout : Nat) (sequence : Option Int) : Nat × Api :=
  let w : Waiter := { id := s.waiterId, matcher := m, timeout, sequence }
  (w.id,
   { s with
      waiters := s.waiters ++ [w]
      waiterId := s.waiterId + 1
      timers := s.timers ++ [(w.id, s.now + timeout + 100)]
      log := s.log ++ [.registered w s.now] })

/-- The timer callback of `wait_for`, api.py:215-227 (`call_later` of line 229). -/
def Api.timerCallback (s : Api) (w : Nat) : Api :=
  match s.fut w with
  | .result _ => s
  | _ => s.drop w

/-- Python `str.replace("Req", "Rsp")` (api.py:183), on characters. -/
def replaceReq : List Char → List Char
  | 'R' :: 'e' :: 'q' :: rest => 'R' :: 's' :: 'p' :: replaceReq rest
  | c :: rest => c :: replaceReq rest
  | [] => []

/-- What `create_response_waiter` (api.py:173-192) decides: the matcher and the sequence of the
waiter to create, or `None` (lines 191-192), or an exception (missing payload field lines 178 and
186, subsystem without entry line 184). -/
def responseWaiter (o : Obj) (sequence : Option Int) :
    Except PyErr (Option (Matcher × Option Int)) :=
  if o.commandType = .SREQ ∧ strStartsWith o.command "dataRequest" = true then do
    let transid ← dictGet o.payload "transid"
    return some ({ commandType := .AREQ, subsystem := .AF, command := "dataConfirm",
                   payload := [("transid", transid)] }, none)
  else if o.commandType = .SREQ ∧ strEndsWith o.command "Req" = true then do
    let rsp := String.ofList (replaceReq o.command.toList)
    let cmds ← definitionGet o.subsystem
    if cmds.any (fun c => rsp == c.name) then do
      let dstaddr ← dictGet o.payload "dstaddr"
      return some ({ commandType := .AREQ, subsystem := .ZDO, command := rsp,
                     payload := [("srcaddr", dstaddr)] }, sequence)
    else return none
  else return none

/-- `API.create_response_waiter`, api.py:173-192. -/
def Api.createResponseWaiter (s : Api) (o : Obj) (sequence : Option Int) :
    Api × Except PyErr (Option Nat) :=
  match responseWaiter o sequence with
  | .error e => (s, .error e)
  | .ok none => (s, .ok none)
  | .ok (some (m, q)) =>
    let r := s.waitFor m timeoutDefault q
    ({ r.2 with ext := r.1 :: r.2.ext }, .ok (some r.1))

/-- The waiter `_request_raw` creates for its own answer and its time limit: api.py:130-139 for
SREQ, 158-161 for resets; `none` for other requests. -/
def ownWaiter (o : Obj) : Option (Matcher × Nat) :=
  if o.commandType = .SREQ then
    some ({ commandType := .SRSP, subsystem := o.subsystem, command := o.command, payload := [] },
      if o.command = "bdbStartCommissioning" ∨ o.command = "startupFromApp" then 20000
      else timeoutSREQ)
  else if o.commandType = .AREQ ∧ o.isResetCommand = true then
    some ({ commandType := .AREQ, subsystem := .SYS, command := "resetInd", payload := [] },
      timeoutReset)
  else none

/-- Move call `t` to another program point. -/
def Api.setPc (s : Api) (t : Nat) (pc : Pc) : Api :=
  match s.tasks t with
  | some k => { s with tasks := upd s.tasks t (some { k with pc }) }
  | none => s

/-- Call `t`, which holds the lock, returns or raises: `async with` releases the lock
(api.py:120). -/
def Api.finish (s : Api) (t : Nat) (r : Except PyErr (Option Obj)) : Api :=
  { s.setPc t (.done r) with holder := none, log := s.log ++ [.finished t r] }

/-- `self._uart.send(frame)`, api.py:140, 163, 167 (uart.py:137-141): `AttributeError` if there is
no gateway. -/
def Api.uartSend (s : Api) (t : Nat) (f : Frame) : Except PyErr Api :=
  if s.uart then
    match Gateway.send f with
    | .error e => .error e
    | .ok bytes => .ok { s with log := s.log ++ [.sent t bytes] }
  else .error .attributeError

/-- The code of `_request_raw` from its start to its first `await` or its end, api.py:124-141,
158-164, 166-171, for call `t` with object `o`. -/
def Api.start (s : Api) (t : Nat) (o : Obj) : Api :=
  match o.toUnpiFrame with
  | .error e => s.finish t (.error e)
  | .ok frame =>
    match ownWaiter o with
    | some (m, timeout) =>
      let r := s.waitFor m timeout none
      match r.2.uartSend t frame with
      | .error e => r.2.finish t (.error e)
      | .ok s => s.setPc t (.waiting r.1 (s.now + timeout))
    | none =>
      if o.commandType = .AREQ then
        match s.uartSend t frame with
        | .error e => s.finish t (.error e)
        | .ok s => s.finish t (.ok none)
      else s.finish t (.error .exception)

/-- `result.payload["status"] not in expected_status`, api.py:142-146: the offending status, if
any. (`status` is a `UINT8` in every response of the table; the last line is never reached.) -/
def badStatus (expected : Option (List Int)) (o : Obj) : Option Int :=
  match o.payload.lookup "status" with
  | none => none
  | some (.int z) => if z ∈ expected.getD [0] then none else some z
  | some _ => some (-1)

/-- `_request_raw` after `await waiter.wait()` returned `result`: api.py:142-157 for SREQ, 164 for
resets. -/
def Api.conclude (s : Api) (t : Nat) (k : Task) (result : Obj) : Api :=
  if k.obj.commandType = .SREQ then
    match badStatus k.expected result with
    | none => s.finish t (.ok (some result))
    | some z =>
      match k.waiterId with
      | none => s.finish t (.error (.commandError z))
      | some w =>
        if s.waiters.any (fun x => x.id == w) then
          ((s.drop w).setResult w result).finish t (.error (.commandError z))
        else s.finish t (.error (.keyError "waiter"))
  else s.finish t (.ok (some result))

end Zcc
