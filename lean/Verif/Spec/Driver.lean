import Verif.Model.Driver
import Verif.Spec.Stack
import Verif.Spec.Client

/-!
# Specification vocabulary for the whole driver
-/

namespace Zcc.Spec

open Zcc

/-- All the bytes that arrive at port `j` in an execution. -/
def arrivedAt (j : Nat) : List DriverEvent → List UInt8
  | [] => []
  | .bytes i c :: es => if i = j then c ++ arrivedAt j es else arrivedAt j es
  | _ :: es => arrivedAt j es

/-- One port of the driver as a connection. -/
def port (d : Driver) (j : Nat) : Stack := ⟨d.buffer j, d.sys.api j, d.app, d.effects, d.raised⟩

/-- The product that a start-up reads in this event. -/
def productRead : DriverEvent → Option Int
  | .sys (.newSemaphore p) => some p
  | _ => none

/-- The events that do not come from the driver itself. -/
def outside : List DriverEvent → List AppEvent
  | [] => []
  | .sys (.api _ (.frame _)) :: es => outside es
  | .sys e :: es => e :: outside es
  | _ :: es => outside es

/-- Events that the driver brings about: a frame arrives at an API, an LED request is made. -/
def Internal : AppEvent → Prop
  | .api _ (.frame _) => True
  | .api _ (.submit o none none) => o.subsystem = .UTIL ∧ o.command = "ledControl"
  | _ => False

/-- The list is an interleaving of the events from outside with internal events. -/
inductive Interleaved : List AppEvent → List AppEvent → Prop
  | nil : Interleaved [] []
  | outer (e : AppEvent) {out all : List AppEvent} (h : Interleaved out all) :
      Interleaved (e :: out) (e :: all)
  | inner (e : AppEvent) (hi : Internal e) {out all : List AppEvent} (h : Interleaved out all) :
      Interleaved out (e :: all)

/-- Calls come with transaction numbers that are bytes, zigpy's table of devices is a dict. Nobody
calls `create_response_waiter` but the application's calls. -/
structure Regular (es : List DriverEvent) : Prop where
  calls : ∀ c q, .sys (.call c) ∈ es → c.wantsReply = some q → 0 ≤ q ∧ q < 256
  responses : ∀ i o q, .sys (.api i (.registerResponse o q)) ∉ es
  devices : ∀ ds, .devices ds ∈ es → DistinctIeee ds

/-- The request that switches the LED. -/
def LedRequest (o : Obj) : Prop := o.subsystem = .UTIL ∧ o.command = "ledControl"

instance (o : Obj) : Decidable (LedRequest o) := inferInstanceAs (Decidable (_ ∧ _))

/-- The LED requests in a log of an API, in order. -/
def ledRequests (L : List Entry) : List Obj := (submissions L).filter fun o => decide (LedRequest o)

/-- The LED modes among the application's calls, in order. -/
def ledModes (es : List Effect) : List Int :=
  es.filterMap fun
    | .led mode => some mode
    | _ => none

/-- What is decided about the LED in an execution: each mode among the application's calls, with the
API that is current at that moment. -/
def ledDecisions (d : Driver) : List DriverEvent → List (Nat × Int)
  | [] => []
  | e :: es => (ledModes ((d.step e).effects.drop d.effects.length)).map (fun mode => (d.sys.cur, mode)) ++
      ledDecisions (d.step e) es

end Zcc.Spec
