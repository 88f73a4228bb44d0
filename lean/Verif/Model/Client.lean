import Verif.Model.StartZnp
import Verif.Model.AppRuntime

/-!
# A coroutine on top of the API

Start-up (`Verif/Model/StartZnp.lean`) is a tree of operations; this file runs such a tree on the
API of `Verif/Model/Runtime.lean`, next to everybody else who uses that API. It says what the
operations of start-up do: api.py:113-117 (`request`), 194-231 (`wait_for`), 46-47
(`Waiter.wait`), and `asyncio.create_task` (start_znp.py:154-158, application.py:400-404).
As in `Verif/Model/Runtime.lean` an execution is a list of events, and an event that is not
possible has no effect.
-/

namespace Zcc

/-- What the coroutine is suspended in: nothing yet, call `t` of `request_raw` (api.py:117), or
`asyncio.wait_for` of a waiter's future with a time limit (api.py:47). -/
inductive Pend where
  | idle
  | call (t : Nat)
  | wait (w : Nat) (deadline : Nat)
  deriving DecidableEq

/-- A coroutine and the API it uses. `prog` is what remains to be done, `limit` the `timeout` of the
waiters it created (api.py:43), `spawned` the tasks it created that have not begun to run.
`hist` (not in the program) lists the operations that have ended.
Simplification: one API object. `connect` (application.py:92) sets `_api` before anything else
uses it; that a second start-up may replace it meanwhile is the subject of
`Verif/Model/Connection.lean`. -/
structure Client (α : Type) where
  api : Api := Api.init
  prog : Prog α
  hist : List Act := []
  pend : Pend := .idle
  limit : Nat → Nat := fun _ => 0
  spawned : List (Subsystem × String × Payload) := []

/-- The events. -/
inductive ClientEvent where
  /-- something happens in the API: radio messages, time, calls of others, ... -/
  | api (e : Event)
  /-- the coroutine runs: it begins an operation, or goes on if its operation has ended -/
  | go
  /-- `API.new` returns or raises (application.py:92) -/
  | connected (r : Except PyErr Unit)
  /-- the first of the created tasks begins to run -/
  | spawned
  /-- the coroutine is cancelled -/
  | cancel

/-- The result of call `t` of `request_raw`, if it has ended. -/
def Api.result (s : Api) (t : Nat) : Option (Except PyErr (Option Obj)) :=
  match s.tasks t with
  | some k =>
    match k.pc with
    | .done r => some r
    | _ => none
  | none => none

/-- An exception that leaves the coroutine `request` (PEP 479). -/
def leaveRequest {α : Type} : Except PyErr α → Except PyErr α
  | .ok a => .ok a
  | .error e => .error (leaveCoroutine e)

/-- The operation has ended with `r`, the coroutine continues with `k`. -/
def Client.answer {α : Type} (c : Client α) (op : Op) (k : Except PyErr op.Ans → Prog α)
    (r : Except PyErr op.Ans) : Client α :=
  { c with prog := k r, hist := c.hist ++ [⟨op, r⟩], pend := .idle }

/-- The coroutine begins its operation, or continues after it.
`request`: build the object, queue for the lock (api.py:116-117, 120), later take the result; in the
program the coroutine continues at once when `request_raw` ends, here anything may happen in
between.
`wait`: `asyncio.wait_for` returns the future's result, or cancels the future when the time is up
(api.py:47); awaiting a cancelled future raises `CancelledError`. -/
def Client.advance {α : Type} (c : Client α) :
    (op : Op) → (Except PyErr op.Ans → Prog α) → Client α
  | .request sub command payload expected, k =>
    match c.pend with
    | .call t =>
      match c.api.result t with
      | some r => c.answer (.request sub command payload expected) k (leaveRequest r)
      | none => c
    | _ =>
      match Obj.fromCommand sub command payload with
      | .error e =>
        c.answer (.request sub command payload expected) k (.error (leaveCoroutine e))
      | .ok o =>
        { c with api := c.api.step (.submit o none expected), pend := .call c.api.nextTid }
  | .spawn sub command payload, k =>
    { c.answer (.spawn sub command payload) k (.ok ()) with
      spawned := c.spawned ++ [(sub, command, payload)] }
  | .waitFor m timeout, k =>
    { c.answer (.waitFor m timeout) k (.ok c.api.waiterId) with
      api := c.api.step (.register m timeout none)
      limit := upd c.limit c.api.waiterId timeout }
  | .wait w, k =>
    match c.pend with
    | .wait _ deadline =>
      match c.api.fut w with
      | .result o => c.answer (.wait w) k (.ok o)
      | .cancelled => c.answer (.wait w) k (.error .cancelledError)
      | .pending =>
        if deadline ≤ c.api.now then
          { c.answer (.wait w) k (.error .timeoutError) with api := c.api.step (.abandon w) }
        else c
    | _ => { c with pend := .wait w (c.api.now + c.limit w) }
  | .connect, _ => c
  | .semaphore n, k => c.answer (.semaphore n) k (.ok ())
  | .coordinator ieee nwk, k => c.answer (.coordinator ieee nwk) k (.ok ())

/-- A cancellation reaches the operation that the coroutine is suspended in: `request_raw` ends with
`CancelledError` (the coroutine takes it with the next `go`), `wait_for` cancels the future. -/
def Client.interrupt {α : Type} (c : Client α) :
    (op : Op) → (Except PyErr op.Ans → Prog α) → Client α
  | .request .., _ =>
    match c.pend with
    | .call t => { c with api := c.api.step (.cancel t) }
    | _ => c
  | .wait w, k =>
    match c.pend with
    | .wait .. =>
      { c.answer (.wait w) k (.error .cancelledError) with api := c.api.step (.abandon w) }
    | _ => c
  | _, _ => c

/-- `connect` ends. -/
def Client.connected {α : Type} (c : Client α) (r : Except PyErr Unit) :
    (op : Op) → (Except PyErr op.Ans → Prog α) → Client α
  | .connect, k => c.answer .connect k r
  | _, _ => c

/-- The first created task begins to run: `znp.request(...)`, api.py:113-117. If that raises at once,
nobody notices. -/
def Client.runSpawned {α : Type} (c : Client α) : Client α :=
  match c.spawned with
  | [] => c
  | x :: rest =>
    match Obj.fromCommand x.1 x.2.1 x.2.2 with
    | .error _ => { c with spawned := rest }
    | .ok o => { c with api := c.api.step (.submit o none none), spawned := rest }

/-- One event. -/
def Client.step {α : Type} (c : Client α) : ClientEvent → Client α
  | .api e => { c with api := c.api.step e }
  | .go =>
    match c.prog with
    | .call op k => c.advance op k
    | _ => c
  | .connected r =>
    match c.prog with
    | .call op k => c.connected r op k
    | _ => c
  | .spawned => c.runSpawned
  | .cancel =>
    match c.prog with
    | .call op k => c.interrupt op k
    | _ => c

/-- The coroutine `p` after a list of events, on a new API object. -/
def Client.run {α : Type} (p : Prog α) (evs : List ClientEvent) : Client α :=
  evs.foldl Client.step { prog := p }

end Zcc
