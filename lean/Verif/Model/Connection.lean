import Verif.Model.StartZnp

/-!
# Connections: /repo/zigpy_cc/uart.py:112-212, api.py:74-111, 274-299, application.py:69-117

Each `API` object opens at most one serial port and has its own `Gateway`; both together are a `Link`
here. The coroutines `startup`, `reconnect` and `probe` are tasks; between two `await`s a task runs
without interruption. Time is in milliseconds.
-/

namespace Zcc.Conn

open Zcc

/-! ## Port selection -/

/-- What `serial.tools.list_ports` knows about a port: device, description, hardware id. -/
structure PortInfo where
  device : String
  description : String
  hwid : String
  deriving DecidableEq, Repr, Inhabited

/-- The text begins with the pattern. -/
def startsWith : List Char → List Char → Bool
  | [], _ => true
  | _ :: _, [] => false
  | p :: ps, c :: cs => p == c && startsWith ps cs

/-- `re.search` for a pattern without special characters. -/
def searchFor (p : List Char) : List Char → Bool
  | [] => startsWith p []
  | c :: cs => startsWith p (c :: cs) || searchFor p cs

/-- `usb_regexp` with `re.I`, uart.py:30: one of two literal texts, upper or lower case. -/
def regexp (text : String) : Bool :=
  searchFor "0451:".toList (text.toList.map Char.toLower) ||
  searchFor "1a86:7523".toList (text.toList.map Char.toLower)

/-- `serial.tools.list_ports.grep(usb_regexp)`: device, description or hardware id matches. -/
def grep (ports : List PortInfo) : List PortInfo :=
  ports.filter (fun p => regexp p.device || regexp p.description || regexp p.hwid)

/-- `detect_port`, uart.py:163-173. -/
def detectPort (ports : List PortInfo) : Except PyErr PortInfo :=
  match grep ports with
  | [] => .error .serialException
  | [d] => .ok d
  | _ :: _ :: _ => .error .serialException

/-- `SCHEMA_DEVICE`, config.py:15-23; `flow_control` is `"hardware"`, `"software"` or `None`. -/
structure DeviceConfig where
  path : String
  baudrate : Int
  flowControl : Option String
  deriving DecidableEq, Repr, Inhabited

/-- The arguments of `create_serial_connection`, uart.py:196-205, that depend on the configuration. -/
structure Settings where
  url : String
  baudrate : Int
  xonxoff : Bool
  rtscts : Bool
  deriving DecidableEq, Repr, Inhabited

/-- The first part of `connect`, uart.py:183-193. -/
def portSettings (ports : List PortInfo) (config : DeviceConfig) : Except PyErr Settings := do
  let port ← if config.path = "auto" then (detectPort ports).map (·.device) else .ok config.path
  let flow :=
    if config.flowControl = some "hardware" then (false, true)
    else if config.flowControl = some "software" then (true, false)
    else (false, false)
  return { url := port, baudrate := config.baudrate, xonxoff := flow.1, rtscts := flow.2 }

/-! ## State -/

/-- The serial transport: not yet opened; open; closing (`connection_lost` will be called); closed. -/
inductive Transport where
  | none | opened | closing | closed
  deriving DecidableEq, Repr

/-- An `API` object with its `Gateway`. -/
structure Link where
  /-- the task that made it (no state of the code) -/
  owner : Nat := 0
  transport : Transport := .none
  /-- `connection_made` has been called: `_connected_future` has its result -/
  made : Bool := false
  /-- `Gateway._open` -/
  isOpen : Bool := false
  /-- `API._uart` is set -/
  uart : Bool := false
  /-- `API._app` is set -/
  app : Bool := false
  deriving DecidableEq, Repr

/-- The coroutines. -/
inductive Kind where
  /-- `ControllerApplication.startup(auto_form)`, called by the user -/
  | startup (autoForm : Bool)
  | reconnect
  | probe
  deriving DecidableEq, Repr

/-- How a coroutine ended (`startup` and `reconnect` return `None`, written `true` here). -/
inductive Outcome where
  | returned (b : Bool)
  | raised (e : PyErr)
  deriving DecidableEq, Repr

/-- Where a coroutine is suspended: not started; in `sleep(5)` until the given time; in
`await connected_future`; in `sleep(1)` until the given time; in another operation of `startup` or
`_probe`; ended. -/
inductive Pc where
  | ready
  | waking (t : Nat)
  | connecting
  | settling (t : Nat)
  | running
  | done (o : Outcome)
  deriving DecidableEq, Repr

structure Task where
  kind : Kind := .probe
  pc : Pc := .ready
  /-- the `API` object of the current attempt, if it got that far -/
  link : Option Nat := none
  /-- operations of the current attempt that ended -/
  hist : List Act := []
  /-- time limit of a probe -/
  deadline : Nat := 0

/-- What can be observed. -/
inductive Note where
  /-- a serial port was opened -/
  | opened (l : Nat) (s : Settings)
  /-- `transport.close()` was called -/
  | closed (l : Nat)
  /-- `ControllerApplication.connection_lost` was called -/
  | reported (l : Nat)
  /-- `API.connection_lost` raised `AttributeError` in the callback -/
  | unreported (l : Nat)
  /-- the byte 0xEF was written -/
  | wakeup (l : Nat)
  deriving DecidableEq, Repr

structure St where
  now : Nat := 0
  nlinks : Nat := 0
  links : Nat → Link := fun _ => {}
  ntasks : Nat := 0
  tasks : Nat → Task := fun _ => {}
  /-- `ControllerApplication._api` -/
  api : Option Nat := none
  log : List Note := []

/-- The configuration of the application. -/
structure Config where
  device : DeviceConfig
  options : Options

def upd {α : Type} (f : Nat → α) (i : Nat) (a : α) : Nat → α := fun j => if j = i then a else f j

namespace St

def setLink (s : St) (l : Nat) (k : Link) : St := { s with links := upd s.links l k }

def setTask (s : St) (t : Nat) (k : Task) : St := { s with tasks := upd s.tasks t k }

def setPc (s : St) (t : Nat) (pc : Pc) : St := s.setTask t { s.tasks t with pc := pc }

def note (s : St) (n : Note) : St := { s with log := s.log ++ [n] }

/-- `API.close`, api.py:105-108, with `Gateway.close`, uart.py:130-132. The transport calls
`connection_lost` later, once. -/
def closeLink (s : St) (l : Nat) : St :=
  let k := s.links l
  if k.uart then
    (s.setLink l { k with
      isOpen := false
      uart := false
      transport := if k.transport = .opened then .closing else k.transport }).note (.closed l)
  else s

/-- `if self._api is not None: self._api.close()`, application.py:78-79. -/
def closeApi (s : St) : St :=
  match s.api with
  | some l => s.closeLink l
  | none => s

/-- `api.close()` of a probe, api.py:292 (before `connect` the object has no port). -/
def closeOwn (s : St) (t : Nat) : St :=
  match (s.tasks t).link with
  | some l => s.closeLink l
  | none => s

/-- A new task: `asyncio.create_task` or a call by the user. -/
def spawn (s : St) (k : Kind) : St :=
  { s with ntasks := s.ntasks + 1
           tasks := upd s.tasks s.ntasks { kind := k, deadline := s.now + 2000 } }

end St

/-- `_probe`, api.py:296-299, with `version`, api.py:259-263. -/
def probeProg : Prog Unit := do
  Prog.op .connect
  let version ← Prog.request .SYS "version" []
  match version with
  | none => .raise .attributeError
  | some _ => return ()

/-- What a task runs (a reconnect: what it tries): application.py:82, 88; api.py:279. -/
def program (c : Config) : Kind → Prog Unit
  | .startup autoForm => startup c.options autoForm
  | .reconnect => startup c.options true
  | .probe => probeProg

/-- The coroutine returns. `probe`, api.py:280, 291-292; `reconnect`, application.py:83. -/
def St.finish (s : St) (t : Nat) : St :=
  match (s.tasks t).kind with
  | .probe => (s.closeOwn t).setPc t (.done (.returned true))
  | _ => s.setPc t (.done (.returned true))

/-- Exceptions that `probe` turns into `False`, api.py:281-285 (`CommandError` is a
`ZigbeeException`). -/
def probeFails : PyErr → Bool
  | .timeoutError | .serialException | .commandError _ => true
  | _ => false

/-- An exception leaves `startup` or `_probe`. `probe`, api.py:281-294; `reconnect`,
application.py:77-86: any exception but `CancelledError` (a `BaseException`) leads to the next round. -/
def St.fail (s : St) (t : Nat) (e : PyErr) : St :=
  match (s.tasks t).kind with
  | .startup _ => s.setPc t (.done (.raised e))
  | .reconnect =>
    if e = .cancelledError then s.setPc t (.done (.raised e))
    else s.closeApi.setPc t (.waking (s.now + 5000))
  | .probe =>
    (s.closeOwn t).setPc t
      (.done (if probeFails e then .returned false else .raised e))

/-- The current operation of the task ended like this, and it runs to the next one. Nothing happens if
this is not its operation. -/
def St.resume (c : Config) (s : St) (t : Nat) (a : Act) : St :=
  let k := s.tasks t
  match (program c k.kind).feed (k.hist ++ [a]) with
  | none => s
  | some (.call ..) => s.setTask t { k with pc := .running, hist := k.hist ++ [a] }
  | some (.ret _) => (s.setTask t { k with pc := .running, hist := k.hist ++ [a] }).finish t
  | some (.raise e) => (s.setTask t { k with pc := .running, hist := k.hist ++ [a] }).fail t e

/-- `API(config)`, api.py:77-84, 277, and `connect` up to the first suspension, api.py:101-103,
uart.py:176-207: opening the port happens at once, may raise (`opens`), and takes `d` ms. -/
def St.connect (c : Config) (s : St) (t : Nat) (ports : List PortInfo) (opens : Option PyErr)
    (d : Nat) : St :=
  let l := s.nlinks
  let k := s.tasks t
  let s := { s with nlinks := l + 1, now := s.now + d }
  match portSettings ports c.device, opens with
  | .ok x, none =>
    ((s.setLink l { owner := t, transport := .opened }).setTask t
      { k with pc := .connecting, link := some l, hist := [] }).note (.opened l x)
  | .ok _, some e =>
    ((s.setLink l { owner := t }).setTask t { k with pc := .connecting, link := some l, hist := [] }).resume
      c t ⟨.connect, .error e⟩
  | .error e, _ =>
    ((s.setLink l { owner := t }).setTask t { k with pc := .connecting, link := some l, hist := [] }).resume
      c t ⟨.connect, .error e⟩

/-- The task continues at the beginning of its body or after `sleep(5)`. -/
def St.begin (c : Config) (s : St) (t : Nat) (ports : List PortInfo) (opens : Option PyErr)
    (d : Nat) : St :=
  match (s.tasks t).kind, (s.tasks t).pc with
  | .reconnect, .ready => s.closeApi.setPc t (.waking (s.now + 5000))
  | .reconnect, .waking u => if u ≤ s.now then s.connect c t ports opens d else s
  | .startup _, .ready => s.connect c t ports opens d
  | .probe, .ready => s.connect c t ports opens d
  | _, _ => s

/-- `connect` returns: api.py:103; for the application also api.py:95, application.py:92. -/
def St.connected (c : Config) (s : St) (t : Nat) : St :=
  match (s.tasks t).link, (s.tasks t).kind with
  | some l, .probe => (s.setLink l { s.links l with uart := true }).resume c t ⟨.connect, .ok ()⟩
  | some l, _ =>
    { s.setLink l { s.links l with uart := true, app := true } with api := some l }.resume c t
      ⟨.connect, .ok ()⟩
  | none, _ => s

/-- `Gateway.connection_lost`, uart.py:157-160, `API.connection_lost`, api.py:110-111,
`ControllerApplication.connection_lost`, application.py:73-74. -/
def St.lost (s : St) (l : Nat) : St :=
  let k := s.links l
  let s := s.setLink l { k with transport := .closed }
  if k.isOpen then
    if k.app then (s.spawn .reconnect).note (.reported l) else s.note (.unreported l)
  else s

inductive Ev where
  /-- time passes -/
  | tick (d : Nat)
  /-- the user calls `startup` -/
  | startup (autoForm : Bool)
  /-- the user calls `probe` -/
  | probe
  /-- the user calls `shutdown`, application.py:69-71 (`None.close()` raises, nothing changes) -/
  | shutdown
  /-- a task starts or wakes up from `sleep(5)`: the ports there are, whether opening raises, how long
  it takes -/
  | begin (t : Nat) (ports : List PortInfo) (opens : Option PyErr) (d : Nat)
  /-- the event loop calls `connection_made`, uart.py:122-128 -/
  | made (l : Nat)
  /-- the task resumes after `await connected_future`, uart.py:207-210 -/
  | write (t : Nat)
  /-- the task wakes up from `sleep(1)`, uart.py:210-212 -/
  | settled (t : Nat)
  /-- another operation of the task ends -/
  | act (t : Nat) (a : Act)
  /-- the task is cancelled -/
  | cancel (t : Nat)
  /-- the time limit of a probe strikes -/
  | timeout (t : Nat)
  /-- the serial connection breaks -/
  | break (l : Nat)
  /-- the event loop calls `connection_lost` -/
  | lost (l : Nat)

/-- One step. Events that are not possible change nothing. -/
def step (c : Config) (s : St) : Ev → St
  | .tick d => { s with now := s.now + d }
  | .startup autoForm => s.spawn (.startup autoForm)
  | .probe => s.spawn .probe
  | .shutdown => s.closeApi
  | .begin t ports opens d => if t < s.ntasks then s.begin c t ports opens d else s
  | .made l =>
    let k := s.links l
    if k.transport = .opened ∧ k.made = false then
      s.setLink l { k with made := true, isOpen := true }
    else s
  | .write t =>
    match (s.tasks t).link, (s.tasks t).pc with
    | some l, .connecting =>
      if (s.links l).made then (s.setPc t (.settling (s.now + 1000))).note (.wakeup l) else s
    | _, _ => s
  | .settled t =>
    match (s.tasks t).pc with
    | .settling u => if u ≤ s.now then s.connected c t else s
    | _ => s
  | .act t a => if (s.tasks t).pc = .running then s.resume c t a else s
  | .cancel t =>
    match (s.tasks t).pc with
    | .done _ => s
    | _ => if t < s.ntasks then s.fail t .cancelledError else s
  | .timeout t =>
    match (s.tasks t).kind, (s.tasks t).pc with
    | _, .done _ => s
    | .probe, _ => if t < s.ntasks ∧ (s.tasks t).deadline ≤ s.now then s.fail t .timeoutError else s
    | _, _ => s
  | .break l =>
    let k := s.links l
    if k.transport = .opened ∧ k.made then s.setLink l { k with transport := .closing } else s
  | .lost l => if (s.links l).transport = .closing then s.lost l else s

/-- An execution from the beginning. -/
def run (c : Config) (evs : List Ev) : St := evs.foldl (step c) {}

end Zcc.Conn
