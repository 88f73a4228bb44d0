import Verif.Model.Boot

/-!
# The reconnect loop over the serial port: application.py:76-117, uart.py:176-212, api.py:91-108

`Model/Connection` has the loop with operations that end in any way; `Model/Boot` has one start-up on a
port. Here the loop goes through start-ups of `Model/Boot`, each with a new port, gateway and API object,
on one clock. There is one loop; what a second one could do to it (close its port, `c52_refuted`) is an
event of others (`.client (.api (.setUart false))`).
-/

namespace Zcc

/-- Where the loop is suspended: in `sleep(5)` until the given time (application.py:80); in
`await connected_future` (uart.py:207); in `sleep(1)` until the given time (uart.py:210); in another
operation of `startup`; ended. -/
inductive LoopPc where
  | sleeping (t : Nat)
  | opening
  | settling (t : Nat)
  | started
  | ended (r : Except PyErr Unit)

/-- The loop. `boot` is the current attempt, or the latest (before the first one: not begun); its `app` is
the state of the application. Not in the program: `begun`, when the attempts began, and `failed`, the
attempts that raised. -/
structure Loop where
  options : Options
  now : Nat := 0
  pc : LoopPc
  boot : Boot
  begun : List Nat := []
  failed : List (Boot × PyErr) := []

/-- The events. -/
inductive LoopEvent where
  /-- time passes -/
  | tick (ms : Nat)
  /-- `sleep(5)` is over; selecting and opening the port may raise (`opens`) and takes `d` ms -/
  | wake (opens : Option PyErr) (d : Nat)
  /-- `connection_made` is called (uart.py:122-128), the loop goes on and writes the wake-up byte
  (uart.py:209) -/
  | made
  /-- `sleep(1)` is over -/
  | settled
  /-- the port delivers bytes -/
  | bytes (chunk : List UInt8)
  /-- anything else that happens to the coroutine or in the API of the current attempt -/
  | client (e : ClientEvent)
  /-- the loop is cancelled while it sleeps or waits for the port -/
  | cancel

/-- `reconnect` begins, application.py:76-80. -/
def Loop.init (app : App) (options : Options) : Loop :=
  { options, pc := .sleeping 5000, boot := Boot.init app options true }

/-- `startup` has come to the state `b`, application.py:81-86. If it has raised, the loop closes the port
and sleeps again; `CancelledError` is a `BaseException` and ends the loop. -/
def Loop.after (l : Loop) (b : Boot) : Loop :=
  match b.client.prog with
  | .call .. => { l with boot := b }
  | .ret _ => { l with boot := b, pc := .ended (.ok ()) }
  | .raise e =>
    if e = .cancelledError then { l with boot := b, pc := .ended (.error e) }
    else
      { l with
        boot := b.step (.client (.api (.setUart false)))
        pc := .sleeping (l.now + 5000)
        failed := l.failed ++ [(b, e)] }

/-- One event; those that are not possible change nothing. -/
def Loop.step (l : Loop) : LoopEvent → Loop
  | .tick ms =>
    match l.pc with
    | .opening | .settling _ | .started =>
      { l with now := l.now + ms, boot := l.boot.step (.client (.api (.tick ms))) }
    | _ => { l with now := l.now + ms }
  | .wake opens d =>
    match l.pc with
    | .sleeping t =>
      if t ≤ l.now then
        let b := (Boot.init l.boot.app l.options true).step (.client (.api (.tick d)))
        let l := { l with now := l.now + d, begun := l.begun ++ [l.now] }
        match opens with
        | none => { l with boot := b, pc := .opening }
        | some e => l.after (b.step (.client (.connected (.error e))))
      else l
    | _ => l
  | .made =>
    match l.pc with
    | .opening => { l with pc := .settling (l.now + 1000) }
    | _ => l
  | .settled =>
    match l.pc with
    | .settling t =>
      if t ≤ l.now then
        { l with pc := .started }.after
          ((l.boot.step (.client (.api (.setUart true)))).step (.client (.connected (.ok ()))))
      else l
    | _ => l
  | .bytes chunk =>
    match l.pc with
    | .opening | .settling _ | .started => { l with boot := l.boot.step (.bytes chunk) }
    | _ => l
  | .client (.api (.tick _)) => l
  | .client e =>
    match l.pc with
    | .started => l.after (l.boot.step (.client e))
    | _ => l
  | .cancel =>
    match l.pc with
    | .sleeping _ | .opening | .settling _ => { l with pc := .ended (.error .cancelledError) }
    | _ => l

/-- An execution. -/
def Loop.run (l : Loop) (es : List LoopEvent) : Loop := es.foldl Loop.step l

end Zcc
