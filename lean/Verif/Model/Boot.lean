import Verif.Model.Client
import Verif.Model.Stack
import Verif.Model.Driver

/-!
# Start-up over the serial port: uart.py:112-212, api.py:91-257, application.py:88-117

`Model/Client` runs the start-up of the application (or another coroutine) on an API that receives
frames from nowhere. Here the frames come from the bytes of the port, and the messages also go to the
application, as in `Model/Stack`.
-/

namespace Zcc

/-- A start-up. `client` is the coroutine and the API object that it makes, `buffer` the parser of the
gateway (uart.py:116), `app` what `handle_znp` uses. Not in the program: `effects`, the application's
calls so far, and `raised`, the exceptions that left `Gateway.data_received` (the event loop logs them).
The LED tasks that `handle_znp` makes are calls of others here (`.client (.api (.submit ..))`). -/
structure Boot where
  client : Client Unit
  buffer : List UInt8 := []
  app : App := {}
  effects : List Effect := []
  raised : List PyErr := []

/-- The events of a start-up. -/
inductive BootEvent where
  /-- the serial port delivers bytes: `Gateway.data_received`, uart.py:143 -/
  | bytes (chunk : List UInt8)
  /-- anything else (see `ClientEvent`) -/
  | client (e : ClientEvent)

/-- `API.new` has returned (application.py:92): the API has its application (api.py:95). -/
def Client.isOpen {α : Type} (c : Client α) : Bool :=
  c.hist.any fun
    | ⟨.connect, .ok _⟩ => true
    | _ => false

/-- What `startup` does to the application when an operation has ended: `self.version` is the payload of
the answer (application.py:99, api.py:259-263; only `product` is used by `handle_znp`), the coordinator
goes into the table of devices (application.py:117; an assignment to a dict: an entry with the same
address is replaced). -/
def App.learn (a : App) : Act → App
  | ⟨.request .SYS "version" [] none, .ok (some v)⟩ =>
    match v.payload.lookup "product" with
    | some (.int p) => { a with product := some p }
    | _ => a
  | ⟨.coordinator (.eui ieee) (.int nwk), .ok _⟩ => a.handleJoin nwk ieee
  | _ => a

/-- One event. A port delivers bytes as soon as it is open, also while `uart.connect` sleeps for one second
(uart.py:210); until `API.new` has returned the messages are only decoded (`Driver.earlyHandler`).
Frames come from the port, so `.client (.api (.frame _))` does not occur. -/
def Boot.step (b : Boot) : BootEvent → Boot
  | .bytes chunk =>
    if b.client.isOpen then
      let r := Gateway.dataReceived Stack.handler ⟨b.buffer, b.client.api, b.app, b.effects⟩ chunk
      { client := { b.client with api := r.1.api.1 }
        buffer := r.1.buffer
        app := r.1.api.2.1
        effects := r.1.api.2.2
        raised := b.raised ++ r.2.toList }
    else
      let r := Gateway.dataReceived Driver.earlyHandler ⟨b.buffer, ()⟩ chunk
      { b with buffer := r.1.buffer, raised := b.raised ++ r.2.toList }
  | .client (.api (.frame _)) => b
  | .client e =>
    let c := b.client.step e
    { b with client := c, app := (c.hist.drop b.client.hist.length).foldl App.learn b.app }

/-- An execution. -/
def Boot.run (b : Boot) (es : List BootEvent) : Boot := es.foldl Boot.step b

/-- `startup` of an application is called, application.py:88. -/
def Boot.init (app : App) (options : Options) (autoForm : Bool) : Boot :=
  { client := { prog := startup options autoForm }, app }

end Zcc
