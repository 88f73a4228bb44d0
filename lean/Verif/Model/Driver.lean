import Verif.Model.App
import Verif.Model.AppRuntime

/-!
# The whole driver: serial ports, gateways, APIs, application

The parts of `Model/Uart`, `Model/Runtime`, `Model/App` and `Model/AppRuntime` joined: bytes come
from the ports, messages go to zigpy, and zigpy's calls run meanwhile.
-/

namespace Zcc

/-- The driver. `sys` has the API objects, semaphores and calls (application.py:92, 104, 139-321),
`buffer i` is the parser of the `i`th API's gateway (uart.py:116; each `connect` makes a new one,
uart.py:176-212), `app` what `handle_znp` uses, `leds` the tasks that `set_led` created and that have
not begun, each with its API and mode (application.py:398-404; `self._api.request` is looked up
when the task is created). Not in the program: `effects`, the application's calls so far, and
`raised`, the exceptions that left `Gateway.data_received` (the event loop logs them). -/
structure Driver where
  sys : AppSys := AppSys.init
  buffer : Nat → List UInt8 := fun _ => []
  app : App := {}
  leds : List (Nat × Int) := []
  effects : List Effect := []
  raised : List PyErr := []

/-- The events of the driver. -/
inductive DriverEvent where
  /-- the `i`th port delivers bytes: `Gateway.data_received`, uart.py:143 -/
  | bytes (i : Nat) (chunk : List UInt8)
  /-- the oldest LED task begins, application.py:400-404 -/
  | led
  /-- zigpy's table of devices is changed: devices are loaded or removed, or the coordinator is
  entered (application.py:117) -/
  | devices (ds : List Device)
  /-- anything else (see `AppEvent`): calls, timers, time, start-up, ... -/
  | sys (e : AppEvent)

/-- The LED tasks among the application's calls. -/
def ledTasks (i : Nat) (es : List Effect) : List (Nat × Int) :=
  es.filterMap fun
    | .led mode => some (i, mode)
    | _ => none

/-- `self._api.data_received(frame)`, uart.py:152, for the gateway of the `i`th API: api.py:233-257
with application.py:323-394. All APIs have the same application. -/
def Driver.handler (i : Nat) : Handler (AppSys × App × List Effect) := fun s f =>
  let r := receive (s.1.api i) s.2.1 f
  ((s.1.apiStep i (.frame f), r.2.app, s.2.2 ++ r.2.effects), r.2.raised)

/-- `API.data_received`, api.py:233-257, for an API whose `API.new` (api.py:91-96) has not returned:
nobody has the object yet, so it has no waiters, and `_app` is `None` (line 251). The message is only
decoded. -/
def Driver.earlyHandler : Handler Unit := fun s f =>
  match Obj.fromUnpiFrame f with
  | .error e => (s, some e)
  | .ok _ => (s, none)

/-- One event. A port delivers bytes as soon as it is open, also while `uart.connect` sleeps for one
second (uart.py:210); the numbers above `cur` are the ports that are being connected. Frames come from the
ports, so `.sys (.api _ (.frame _))` does not occur. `startup` sets `self.version` just before the semaphore
(application.py:99-104). -/
def Driver.step (d : Driver) : DriverEvent → Driver
  | .bytes i chunk =>
    if i ≤ d.sys.cur then
      let r := Gateway.dataReceived (Driver.handler i) ⟨d.buffer i, d.sys, d.app, []⟩ chunk
      { sys := r.1.api.1
        buffer := upd d.buffer i r.1.buffer
        app := r.1.api.2.1
        leds := d.leds ++ ledTasks d.sys.cur r.1.api.2.2
        effects := d.effects ++ r.1.api.2.2
        raised := d.raised ++ r.2.toList }
    else
      let r := Gateway.dataReceived Driver.earlyHandler ⟨d.buffer i, ()⟩ chunk
      { d with buffer := upd d.buffer i r.1.buffer, raised := d.raised ++ r.2.toList }
  | .led =>
    match d.leds with
    | [] => d
    | (i, mode) :: rest =>
      match Obj.fromCommand .UTIL "ledControl" [("ledid", .int 3), ("mode", .int mode)] with
      | .ok o => { d with leds := rest, sys := d.sys.apiStep i (.submit o none none) }
      | .error _ => { d with leds := rest }
  | .devices ds => { d with app := { d.app with devices := ds } }
  | .sys (.api _ (.frame _)) => d
  | .sys (.newSemaphore product) =>
    { d with sys := d.sys.step (.newSemaphore product), app := { d.app with product := some product } }
  | .sys e => { d with sys := d.sys.step e }

/-- An execution of the driver. -/
def Driver.run (d : Driver) (es : List DriverEvent) : Driver := es.foldl Driver.step d

/-- The driver before its first start-up. -/
def Driver.init : Driver := {}

end Zcc
