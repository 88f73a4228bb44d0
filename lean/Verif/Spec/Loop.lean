import Verif.Model.Loop
import Verif.Spec.Boot
import Verif.Spec.Blame

/-! # Specification vocabulary for the reconnect loop over the serial port -/

namespace Zcc.Spec

open Zcc

/-- The chunks of bytes that arrive. -/
def loopChunks (es : List LoopEvent) : List (List UInt8) :=
  es.filterMap fun
    | .bytes c => some c
    | _ => none

/-- The messages handed to the API in an execution. -/
def handed (evs : List ClientEvent) : List Frame :=
  evs.filterMap fun
    | .api (.frame f) => some f
    | _ => none

/-- The time limits of the calls that others make. -/
def loopOthers (es : List LoopEvent) : Nat :=
  (es.map fun e => match e with | .client (.api (.submit o _ _)) => limit o | _ => 0).sum

/-- The event loop has nothing left to do before `ms` have passed: the sleeping loop is not due, a port
that was opened is reported at once, and while `startup` talks to the radio `ClientResting` holds. -/
def LoopResting (l : Loop) (ms : Nat) : Prop :=
  match l.pc with
  | .sleeping t => l.now + ms ≤ t
  | .opening => False
  | .settling t => l.now + ms ≤ t
  | .started => ClientResting l.boot.client ms
  | .ended _ => True

/-- The event loop keeps up: time passes only when nothing is left to do at the moment. -/
def LoopKeepsUp (l : Loop) (es : List LoopEvent) : Prop :=
  ∀ a ms b, es = a ++ .tick ms :: b → LoopResting (l.run a) ms

/-- The time that passes. -/
def ticksIn (es : List LoopEvent) : Nat :=
  (es.map fun e => match e with | .tick ms => ms | _ => 0).sum

/-- What an event of the loop is for the start-up, before the port is connected: bytes and time. -/
def whileOpening : LoopEvent → Option BootEvent
  | .tick ms => some (.client (.api (.tick ms)))
  | .bytes c => some (.bytes c)
  | _ => none

/-- The same, when the port is connected: also what happens to the coroutine and its API. -/
def whileStarted : LoopEvent → Option BootEvent
  | .tick ms => some (.client (.api (.tick ms)))
  | .bytes c => some (.bytes c)
  | .client (.api (.tick _)) => none
  | .client e => some (.client e)
  | _ => none

/-- Of the events `seen` since the port was opened, `opening` are those before `connection_made` was called;
`settling` those until the loop went on, at the first occasion after a second; `talking` the others. -/
def Phases (seen opening settling talking : List LoopEvent) : Prop :=
  seen = opening ++ .made :: settling ++ .settled :: talking ∧ .made ∉ opening ∧ 1000 ≤ ticksIn settling ∧
  ∀ a b, settling = a ++ .settled :: b → ticksIn a < 1000

/-- What happens in a start-up before the port is connected, if opening the port takes `d` ms. -/
def bootOpening (d : Nat) (opening settling : List LoopEvent) : List BootEvent :=
  .client (.api (.tick d)) :: (opening ++ .made :: settling).filterMap whileOpening ++
    [.client (.api (.setUart true))]

/-- `Attempt app o d seen b`: `b` is a start-up that began with the application in the state `app`, on a new
port and a new API object. The port was opened, which took `d` ms, and connected, and `seen` is what has
happened since it was opened. -/
def Attempt (app : App) (o : Options) (d : Nat) (seen : List LoopEvent) (b : Boot) : Prop :=
  ∃ opening settling talking, Phases seen opening settling talking ∧
    b = (Boot.init app o true).run (bootOpening d opening settling ++ .client (.connected (.ok ())) ::
      talking.filterMap whileStarted)

/-- After `pre` the loop opens a port, and no other attempt begins during `mid`. -/
def During (l0 : Loop) (pre : List LoopEvent) (d : Nat) (mid : List LoopEvent) : Prop :=
  (l0.run (pre ++ [.wake none d])).begun = (l0.run pre).begun ++ [(l0.run pre).now] ∧
  (l0.run (pre ++ .wake none d :: mid)).begun = (l0.run pre).begun ++ [(l0.run pre).now]

end Zcc.Spec
