import Verif.Model.Runtime

/-!
# Specification vocabulary for the API under concurrency

Written without the model's matching and status functions.
-/

namespace Zcc.Spec

open Zcc

/-- The message `o` is what the matcher `m` asks for. -/
def Answers (m : Matcher) (o : Obj) : Prop :=
  m.commandType = o.commandType ∧ m.subsystem = o.subsystem ∧ m.command = o.command ∧
  ∀ p ∈ m.payload, o.payload.lookup p.1 = some p.2

instance (m : Matcher) (o : Obj) : Decidable (Answers m o) := by unfold Answers; infer_instance

/-- If `o` is of the kind `m` asks for, it has all the fields `m` asks about. -/
def Comparable (m : Matcher) (o : Obj) : Prop :=
  m.commandType = o.commandType → m.subsystem = o.subsystem → m.command = o.command →
  ∀ p ∈ m.payload, (o.payload.lookup p.1).isSome

instance (m : Matcher) (o : Obj) : Decidable (Comparable m o) := by
  unfold Comparable; infer_instance

/-- The status of the message, if it has one, is among the expected ones (only 0 by default). -/
def StatusOk (expected : Option (List Int)) (o : Obj) : Prop :=
  ∀ v, o.payload.lookup "status" = some v → ∃ z : Int, v = .int z ∧ z ∈ expected.getD [0]

/-- `rsp` is the synchronous response to the command of `req`. -/
def ResponseTo (req rsp : Obj) : Prop :=
  rsp.commandType = .SRSP ∧ rsp.subsystem = req.subsystem ∧ rsp.command = req.command

/-- The two commands that reset the radio. -/
def IsReset (o : Obj) : Prop :=
  (o.subsystem = .SYS ∧ o.command = "resetReq") ∨ (o.subsystem = .SAPI ∧ o.command = "systemReset")

/-- What call `o` waits for. -/
def AwaitedBy (o rsp : Obj) : Prop :=
  (o.commandType = .SREQ ∧ ResponseTo o rsp) ∨
  (o.commandType = .AREQ ∧ rsp.commandType = .AREQ ∧ rsp.subsystem = .SYS ∧ rsp.command = "resetInd")

/-- `bytes` is the wire image of the request. -/
def WrittenAs (o : Obj) (bytes : List UInt8) : Prop :=
  ∃ f, o.toUnpiFrame = .ok f ∧ Gateway.send f = .ok bytes

/-- Reasons for which a call never writes its request: cancelled before its turn, no open port,
not encodable, or of a type that is not a request. -/
def Unsendable (o : Obj) (e : PyErr) : Prop :=
  e = .cancelledError ∨ e = .attributeError ∨ o.toUnpiFrame = .error e ∨
  (∃ f, o.toUnpiFrame = .ok f ∧ Gateway.send f = .error e) ∨
  (e = .exception ∧ o.commandType ≠ .SREQ ∧ o.commandType ≠ .AREQ)

/-- The time limit of a call once its request is written (ms): 30 s for a reset, 20 s for the two
commands that form a network, 6 s for other synchronous requests; other calls do not wait. -/
def limit (o : Obj) : Nat :=
  if o.commandType = .SREQ then
    if o.command = "bdbStartCommissioning" ∨ o.command = "startupFromApp" then 20000 else 6000
  else if o.commandType = .AREQ ∧
      ((o.subsystem = .SYS ∧ o.command = "resetReq") ∨
        (o.subsystem = .SAPI ∧ o.command = "systemReset")) then 30000
  else 0

/-- The sum of the time limits of the calls up to number `t` that were submitted and have not ended
according to `L`. -/
def limitsAhead (t : Nat) (L : List Entry) : Nat :=
  (L.map fun e => match e with
    | .submitted u o _ _ =>
      if u ≤ t ∧ (L.all fun x => match x with | .finished v _ => v != u | _ => true) = true
      then limit o else 0
    | _ => 0).sum

/-- After `es1` the event loop keeps up during `es2`: time passes only when nothing is left to do at
the moment, that is, the lock is not free while calls are waiting for it, the call that holds it has
no response yet, and its time limit is not over before that time has passed. -/
def KeepsUp (es1 es2 : List Event) : Prop :=
  ∀ a ms b, es2 = a ++ .tick ms :: b →
    ((Api.init.run (es1 ++ a)).holder = none → (Api.init.run (es1 ++ a)).queue = []) ∧
    ∀ t k w d, (Api.init.run (es1 ++ a)).tasks t = some k → k.pc = .waiting w d →
      (Api.init.run (es1 ++ a)).fut w = .pending ∧ (Api.init.run (es1 ++ a)).now + ms ≤ d

/-- Whether the API has an open port after these events. -/
def portOpen (es : List Event) : Bool :=
  es.foldl (fun b e => match e with | .setUart b' => b' | _ => b) false

/-- All calls that were made have ended. -/
def AllEnded (L : List Entry) : Prop :=
  ∀ t o w e, .submitted t o w e ∈ L → ∃ r, .finished t r ∈ L

/-- How many calls were made. -/
def callsMade (L : List Entry) : Nat :=
  L.countP fun e => match e with | .submitted .. => true | _ => false

/-- The calls that wrote a request, in the order of writing. -/
def writers (L : List Entry) : List Nat :=
  L.filterMap fun e => match e with | .sent t _ => some t | _ => none

/-- All bytes written to the port by requests, in order. -/
def writtenBytes (L : List Entry) : List UInt8 :=
  (L.map fun e => match e with | .sent _ b => b | _ => []).flatten

/-- `o` is a synchronous request with this command. -/
def IsRequest (sub : Subsystem) (cmd : String) (o : Obj) : Prop :=
  o.commandType = .SREQ ∧ o.subsystem = sub ∧ o.command = cmd

instance (sub : Subsystem) (cmd : String) (o : Obj) : Decidable (IsRequest sub cmd o) := by
  unfold IsRequest; infer_instance

/-- `o` is a response to this command. -/
def IsAnswer (sub : Subsystem) (cmd : String) (o : Obj) : Prop :=
  o.commandType = .SRSP ∧ o.subsystem = sub ∧ o.command = cmd

instance (sub : Subsystem) (cmd : String) (o : Obj) : Decidable (IsAnswer sub cmd o) := by
  unfold IsAnswer; infer_instance

/-- According to `L`, call `t` is a request with this command. -/
def requestIn (sub : Subsystem) (cmd : String) (L : List Entry) (t : Nat) : Bool :=
  L.any fun e => match e with
    | .submitted u o _ _ => u == t && decide (IsRequest sub cmd o)
    | _ => false

/-- The calls that wrote a request with this command, in the order of writing. -/
def asked (sub : Subsystem) (cmd : String) (L : List Entry) : List Nat :=
  L.filterMap fun e => match e with
    | .sent t _ => if requestIn sub cmd L t then some t else none
    | _ => none

/-- The responses to this command, in the order of their arrival. -/
def answers (sub : Subsystem) (cmd : String) (L : List Entry) : List Obj :=
  L.filterMap fun e => match e with
    | .received _ o => if IsAnswer sub cmd o then some o else none
    | _ => none

/-- According to `L`, call `t` was given up: it timed out or was cancelled. -/
def gaveUp (L : List Entry) (t : Nat) : Bool :=
  L.any fun e => match e with
    | .finished u (.error .timeoutError) => u == t
    | .finished u (.error .cancelledError) => u == t
    | _ => false

/-- According to `L`, call `t` ended with a response. -/
def Responded (L : List Entry) (t : Nat) : Prop :=
  (∃ rsp, .finished t (.ok (some rsp)) ∈ L) ∨ ∃ z, .finished t (.error (.commandError z)) ∈ L

/-- According to `L`, call `t` ended because of the response `rsp`: it returned it or raised its
status. -/
def RespondedBy (L : List Entry) (t : Nat) (rsp : Obj) : Prop :=
  .finished t (.ok (some rsp)) ∈ L ∨
  ∃ z, .finished t (.error (.commandError z)) ∈ L ∧ rsp.payload.lookup "status" = some (.int z)

/-- What happens to the queue of waiting requests of one kind. -/
inductive FifoOp where
  /-- waiter `id` for a request with this transaction number joins -/
  | ask (id : Nat) (tag : Option Int)
  /-- a reply arrives -/
  | reply
  /-- waiter `id` gives up -/
  | leave (id : Nat)

/-- The transaction numbers that a first-come-first-served queue gives to the replies. -/
def fifoTags : List (Nat × Option Int) → List FifoOp → List (Option Int)
  | _, [] => []
  | q, .ask id tag :: ops => fifoTags (q ++ [(id, tag)]) ops
  | [], .reply :: ops => none :: fifoTags [] ops
  | (_, tag) :: q, .reply :: ops => tag :: fifoTags q ops
  | q, .leave id :: ops => fifoTags (q.filter (fun x => x.1 != id)) ops

/-- The log read as a history of the queue of waiters with matcher `m`. -/
def fifoOps (m : Matcher) : List Entry → List FifoOp
  | [] => []
  | .registered w _ :: L =>
    if w.matcher = m then .ask w.id w.sequence :: fifoOps m L else fifoOps m L
  | .handed o :: L => if Answers m o then .reply :: fifoOps m L else fifoOps m L
  | .dropped w :: L => .leave w :: fifoOps m L
  | _ :: L => fifoOps m L

/-- The transaction numbers of the messages answering `m` that were handed to the application. -/
def handedTags (m : Matcher) : List Entry → List (Option Int)
  | [] => []
  | .handed o :: L => if Answers m o then o.sequence :: handedTags m L else handedTags m L
  | _ :: L => handedTags m L

end Zcc.Spec
