import Verif.Model.Connection
import Verif.Model.Client

/-!
# A probe over the serial port: api.py:274-299, uart.py:112-212

`Model/Connection` has the probes among the other tasks of the driver, with operations that end in any
way. Here is one probe with the bytes of its port. The API object is a local variable of `probe`: nobody
else uses it, and it has no application (api.py:82).
-/

namespace Zcc

/-- Where the probe is suspended: not begun; in `await connected_future` (uart.py:207); in `sleep(1)` until
the given time (uart.py:210); in `version` (api.py:299); ended. -/
inductive ProbePc where
  | ready
  | opening
  | settling (t : Nat)
  | asking
  | ended (o : Conn.Outcome)
  deriving DecidableEq

/-- A probe that is called at time 0. `client` is the coroutine `_probe` with the API object, `buffer` the
parser of the gateway, `port` tells whether the serial port is open. Not in the program: `woken`, the
wake-up byte has been written, and `raised`, the exceptions that left `Gateway.data_received`. -/
structure Probe where
  client : Client Unit := { prog := Conn.probeProg }
  buffer : List UInt8 := []
  pc : ProbePc := .ready
  port : Bool := false
  woken : Bool := false
  raised : List PyErr := []

/-- The events. -/
inductive ProbeEvent where
  /-- time passes -/
  | tick (ms : Nat)
  /-- `_probe` begins: selecting and opening the port may raise (`opens`) and takes `d` ms -/
  | begin (opens : Option PyErr) (d : Nat)
  /-- `connection_made` is called (uart.py:122-128), `connect` goes on and writes the wake-up byte
  (uart.py:209) -/
  | made
  /-- `sleep(1)` is over -/
  | settled
  /-- the port delivers bytes -/
  | bytes (chunk : List UInt8)
  /-- `version` begins its request, or goes on after it -/
  | go
  /-- `_request_raw` goes on because its waiter has a result (api.py:141) -/
  | wake
  /-- the time limit of the request strikes (api.py:47) -/
  | expire
  /-- the `call_later` callback of waiter `w` runs (api.py:215-229) -/
  | timer (w : Nat)
  /-- the time limit of the probe strikes (api.py:279) -/
  | timeout
  /-- the probe is cancelled -/
  | cancel

/-- `API.data_received`, api.py:233-257, without an application (line 251). -/
def Probe.handler : Handler Api := fun s f =>
  match s.dataReceived f with
  | (s, .error e) => (s, some e)
  | (s, .ok _) => (s, none)

/-- `COMMAND_TIMEOUT`, api.py:18, 279: the time limit of a probe. -/
def probeLimit : Nat := 2000

/-- The probe ends with `o`: `api.close()`, api.py:292, 105-108. -/
def Probe.finish (p : Probe) (o : Conn.Outcome) : Probe :=
  { p with
    client := p.client.step (.api (.setUart false))
    port := if p.client.api.uart then false else p.port
    pc := .ended o }

/-- `_probe` has come to the state `c`, api.py:278-294. -/
def Probe.after (p : Probe) (c : Client Unit) : Probe :=
  match c.prog with
  | .call .. => { p with client := c }
  | .ret _ => { p with client := c }.finish (.returned true)
  | .raise e =>
    { p with client := c }.finish (if Conn.probeFails e then .returned false else .raised e)

/-- An exception is thrown into the probe while it is suspended: the time limit or a cancellation. -/
def Probe.throw (p : Probe) (e : PyErr) : Probe :=
  { p with client := p.client.step .cancel }.finish
    (if Conn.probeFails e then .returned false else .raised e)

/-- One event; those that are not possible change nothing. -/
def Probe.step (p : Probe) : ProbeEvent → Probe
  | .tick ms => { p with client := p.client.step (.api (.tick ms)) }
  | .begin opens d =>
    match p.pc with
    | .ready =>
      let c := p.client.step (.api (.tick d))
      match opens with
      | none => { p with client := c, pc := .opening, port := true }
      | some e => p.after (c.step (.connected (.error e)))
    | _ => p
  | .made =>
    match p.pc with
    | .opening => { p with pc := .settling (p.client.api.now + 1000), woken := true }
    | _ => p
  | .settled =>
    match p.pc with
    | .settling t =>
      if t ≤ p.client.api.now then
        { p with pc := .asking }.after
          ((p.client.step (.api (.setUart true))).step (.connected (.ok ())))
      else p
    | _ => p
  | .bytes chunk =>
    if p.port then
      let r := Gateway.dataReceived Probe.handler ⟨p.buffer, p.client.api⟩ chunk
      { p with
        client := { p.client with api := r.1.api }
        buffer := r.1.buffer
        raised := p.raised ++ r.2.toList }
    else p
  | .go =>
    match p.pc with
    | .asking => p.after (p.client.step .go)
    | _ => p
  | .wake =>
    match p.pc with
    | .asking => { p with client := p.client.step (.api (.wake 0)) }
    | _ => p
  | .expire =>
    match p.pc with
    | .asking => { p with client := p.client.step (.api (.timeout 0)) }
    | _ => p
  | .timer w => { p with client := p.client.step (.api (.timer w)) }
  | .timeout =>
    match p.pc with
    | .ended _ => p
    | _ => if probeLimit ≤ p.client.api.now then p.throw .timeoutError else p
  | .cancel =>
    match p.pc with
    | .ended _ => p
    | _ => p.throw .cancelledError

/-- An execution. -/
def Probe.run (es : List ProbeEvent) : Probe := es.foldl Probe.step {}

end Zcc
