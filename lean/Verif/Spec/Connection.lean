import Verif.Model.Connection
import Verif.Spec.Start

/-!
# What connections should do
-/

namespace Zcc.Spec

open Conn

/-- The text contains the pattern, ignoring case. -/
def Mentions (text pattern : String) : Prop :=
  ∃ a b, text.toList.map Char.toLower = a ++ pattern.toList ++ b

/-- A Texas Instruments device (vendor 0451) or a QinHeng HL-340 (1a86:7523), by one of the texts that
describe the port. -/
def IsStick (p : PortInfo) : Prop :=
  ∃ text ∈ [p.device, p.description, p.hwid], Mentions text "0451:" ∨ Mentions text "1a86:7523"

/-- The serial port of this connection is open. -/
def Open (s : St) (l : Nat) : Prop := (s.links l).transport = .opened

/-- The connection was made by the application (not by a probe). -/
def OfApp (s : St) (l : Nat) : Prop :=
  l < s.nlinks ∧ (s.tasks (s.links l).owner).kind ≠ .probe

/-- The task is a start-up or reconnect loop that has not ended. -/
def Active (s : St) (t : Nat) : Prop :=
  t < s.ntasks ∧ (s.tasks t).kind ≠ .probe ∧ ∀ o, (s.tasks t).pc ≠ .done o

/-- The task is in the middle of opening its port: the port is open, `connect` has not returned. -/
def Opening (s : St) (t : Nat) : Prop :=
  (s.tasks t).pc = .connecting ∨ ∃ u, (s.tasks t).pc = .settling u

/-- The port is open, or it broke and the application is not told yet. -/
def Live (s : St) (l : Nat) : Prop :=
  (s.links l).transport = .opened ∨ ((s.links l).transport = .closing ∧ (s.links l).isOpen = true)

/-- The event does not interfere with a start-up or reconnect loop: no connection is lost while one is
under way, the user calls `startup` only if none is
under way and no connection is there, and neither cancels one nor calls `shutdown` meanwhile. -/
def Orderly (s : St) : Ev → Prop
  | .startup _ => (∀ t, ¬ Active s t) ∧ ∀ l, OfApp s l → ¬ Live s l
  | .lost l => (s.links l).isOpen = true → (s.links l).app = true → ∀ t, ¬ Active s t
  | .cancel t => (s.tasks t).kind = .probe
  | .shutdown => ∀ t, ¬ Active s t
  | _ => True

/-- All events of the execution are like this. -/
def OrderlyRun (c : Config) (evs : List Ev) : Prop :=
  ∀ a ev b, evs = a ++ ev :: b → Orderly (run c a) ev

/-- A timeout, a serial error or an error status of the radio. -/
def RadioError (e : PyErr) : Prop :=
  e = .timeoutError ∨ e = .serialException ∨ ∃ status, e = .commandError status

/-- The task was cancelled, or its time limit struck, while it was opening its port. -/
def Struck (c : Config) (evs : List Ev) (t : Nat) : Prop :=
  ∃ a ev b, evs = a ++ ev :: b ∧ (ev = .cancel t ∨ ev = .timeout t) ∧ Opening (run c a) t

/-- An event of the execution wrote the wake-up byte to the port of this connection, which was open
by then, and at least 1000 ms passed since. -/
def Woken (c : Config) (evs : List Ev) (l : Nat) : Prop :=
  ∃ a ev b, evs = a ++ ev :: b ∧ (run c (a ++ [ev])).log = (run c a).log ++ [.wakeup l] ∧
    (∃ x, Note.opened l x ∈ (run c a).log) ∧ (run c a).now + 1000 ≤ (run c evs).now

/-- How many losses were reported to the application. -/
def lossesReported (log : List Note) : Nat :=
  log.countP (fun | .reported _ => true | _ => false)

/-- How many reconnect loops were started. -/
def loopsBegun (s : St) : Nat :=
  (List.range s.ntasks).countP (fun t => (s.tasks t).kind = .reconnect)

end Zcc.Spec
