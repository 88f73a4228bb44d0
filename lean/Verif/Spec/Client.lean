import Verif.Model.Client
import Verif.Spec.Runtime
import Verif.Spec.Start

/-!
# Specification of a coroutine on the API: what its operations look like in the log
-/

namespace Zcc.Spec

open Zcc

/-- `rsp` is an acceptable answer to the request `o`: the response to its command with an expected
status, or, if `o` resets the radio, the notification of a reset. -/
def Accepted (o : Obj) (expected : Option (List Int)) (rsp : Obj) : Prop :=
  (o.commandType = .SREQ ∧ ResponseTo o rsp ∧ StatusOk expected rsp) ∨
  (o.commandType = .AREQ ∧ IsReset o ∧ rsp.commandType = .AREQ ∧ rsp.subsystem = .SYS ∧
    rsp.command = "resetInd")

/-- What a request that ended with `r` shows in the log: it was written to the port, then an
acceptable answer was received (unless none is due), all while the operation lasted. -/
def RequestLogged (seg : List Entry) (sub : Subsystem) (command : String) (payload : Payload)
    (expected : Option (List Int)) : Except PyErr (Option Obj) → Prop
  | .ok (some rsp) => ∃ o t bytes f, Obj.fromCommand sub command payload = .ok o ∧
      WrittenAs o bytes ∧ Accepted o expected rsp ∧
      [Entry.sent t bytes, .received f rsp].Sublist seg
  | .ok none => ∃ o t bytes, Obj.fromCommand sub command payload = .ok o ∧ WrittenAs o bytes ∧
      o.commandType = .AREQ ∧ ¬ IsReset o ∧ Entry.sent t bytes ∈ seg
  | .error e => e ≠ .assertionError

/-- What an operation shows in the log; `past` is the log when it began, `seg` what was added until
it ended. A waiter is registered with what it waits for; what a wait returns is a message that was
received after the waiter was registered and that is what the waiter asks for. -/
def Logged (past seg : List Entry) : Act → Prop
  | ⟨.request sub command payload expected, r⟩ => RequestLogged seg sub command payload expected r
  | ⟨.waitFor m timeout, r⟩ =>
    ∃ w time, r = .ok w ∧ .registered { id := w, matcher := m, timeout, sequence := none } time ∈ seg
  | ⟨.wait w, .ok o⟩ => ∃ x time f, x.id = w ∧ Answers x.matcher o ∧
      [Entry.registered x time, .received f o].Sublist (past ++ seg)
  | _ => True

/-- The operations of the history follow each other in the log. -/
inductive Traced : List Entry → List Act → Prop where
  | nil : Traced [] []
  | snoc {past seg : List Entry} {h : List Act} {a : Act} (ht : Traced past h)
      (hl : Logged past seg a) : Traced (past ++ seg) (h ++ [a])

/-- Nobody passes to `request_raw` the id of a waiter that the coroutine waits for (callers pass the
ids of waiters that they created). -/
def Unshared (evs : List ClientEvent) (h : List Act) : Prop :=
  ∀ o w e, ClientEvent.api (.submit o (some w) e) ∈ evs → ∀ r, (⟨.wait w, r⟩ : Act) ∉ h

/-- A wait returns what its waiter was registered for. -/
def Faithful (h : List Act) : Prop :=
  ∀ before m timeout w between o after,
    h = before ++ ⟨.waitFor m timeout, .ok w⟩ :: between ++ ⟨.wait w, .ok o⟩ :: after → Answers m o

/-- A request that succeeded. -/
def _root_.Zcc.Act.answered : Act → Bool
  | ⟨.request .., .ok _⟩ => true
  | _ => false

/-- The frames of the requests that succeeded, in order. -/
def answered (h : List Act) : List Frame :=
  h.filterMap (fun a => if a.answered then a.op.frame else none)

/-- What was written to the port, in order. -/
def writes (L : List Entry) : List (List UInt8) :=
  L.filterMap (fun | .sent _ b => some b | _ => none)

/-- The command object that an operation makes, to be sent by the coroutine itself or by a task. -/
def commanded : Op → Option Obj
  | .request sub command payload _ => (Obj.fromCommand sub command payload).toOption
  | .spawn sub command payload => (Obj.fromCommand sub command payload).toOption
  | _ => none

/-- The command objects of the operations that have ended. -/
def commands (h : List Act) : List Obj := h.filterMap (fun a => commanded a.op)

/-- The objects that were passed to `request_raw`, in order. -/
def submissions (L : List Entry) : List Obj :=
  L.filterMap (fun | .submitted _ o _ _ => some o | _ => none)

/-- The objects of the tasks that have not begun to run. -/
def unsent {α : Type} (c : Client α) : List Obj :=
  c.spawned.filterMap (fun x => (Obj.fromCommand x.1 x.2.1 x.2.2).toOption)

/-- The object of the request that the coroutine is suspended in. -/
def current {α : Type} (c : Client α) : List Obj :=
  match c.pend, c.prog with
  | .call _, .call op _ => (commanded op).toList
  | _, _ => []

/-- Nobody else makes requests. -/
def Alone (evs : List ClientEvent) : Prop := ∀ o w e, ClientEvent.api (.submit o w e) ∉ evs

/-- The coroutine has returned or raised. -/
def Ended {α : Type} (c : Client α) : Prop :=
  (∃ a, c.prog = .ret a) ∨ ∃ e, c.prog = .raise e

/-- Nothing is left to do in the API at the moment, and no time limit is over before `ms` have
passed: the lock is not free while calls are waiting for it, and the call that holds it has no
response yet. -/
def Resting (s : Api) (ms : Nat) : Prop :=
  (s.holder = none → s.queue = []) ∧
  ∀ t k w d, s.tasks t = some k → k.pc = .waiting w d → s.fut w = .pending ∧ s.now + ms ≤ d

/-- The same for the coroutine and the tasks it created: they have begun, it is suspended in an
operation that has not ended, and the time limit of its wait is not over before `ms` have passed.
(How long `connect` takes is up to the operating system.) -/
def ClientResting {α : Type} (c : Client α) (ms : Nat) : Prop :=
  Resting c.api ms ∧ c.spawned = [] ∧
  (∀ op k, c.prog = .call op k → op ≠ .connect → c.pend ≠ .idle) ∧
  (∀ t, c.pend = .call t → c.api.result t = none) ∧
  ∀ w d, c.pend = .wait w d → c.api.fut w = .pending ∧ c.api.now + ms ≤ d

/-- After `evs1` the event loop keeps up during `evs2`: time passes only when nothing is left to do
at the moment. -/
def ClientKeepsUp {α : Type} (p : Prog α) (evs1 evs2 : List ClientEvent) : Prop :=
  ∀ a ms b, evs2 = a ++ .api (.tick ms) :: b → ClientResting (Client.run p (evs1 ++ a)) ms

/-- The sum of the time limits of the calls that others make. -/
def othersLimits (evs : List ClientEvent) : Nat :=
  (evs.map fun ev => match ev with | .api (.submit o _ _) => limit o | _ => 0).sum

end Zcc.Spec
