import Verif.Proofs.Client
import Verif.Proofs.Stick

/-!
# A radio on the wire

For the examples: a radio that answers with frames, and the events of a coroutine that talks to it
over the API.
-/

namespace Zcc.Radio

open Zcc Spec

/-- The synchronous response to a frame. -/
def srsp (f : Frame) (data : List UInt8) : Frame := Frame.of .SRSP f.subsystem f.commandId data

/-- An item as it is read. -/
def item (m : Nv) (i : Nat) : List UInt8 :=
  UInt8.ofNat ((m i).getD []).length :: (m i).getD []

/-- The messages with which the radio, in device state `state`, reacts to a frame. -/
def react (state : UInt8) (m : Nv) (f : Frame) : List Frame :=
  match f.subsystem, f.commandId, f.data with
  | .SYS, 0x00, _ => [Frame.of .AREQ .SYS 0x80 [0, 2, 1, 2, 7, 1]]
  | .SYS, 0x01, _ => [srsp f [0x79, 0x01]]
  | .SYS, 0x02, _ => [srsp f [2, 1, 2, 7, 1, 0x10, 0x86, 0x33, 0x01]]
  | .SYS, 0x08, lo :: hi :: _ => [srsp f (0 :: item m (lo.toNat + 256 * hi.toNat))]
  | .SAPI, 0x04, [id] => [srsp f ([0, id] ++ item m id.toNat)]
  | .UTIL, 0x00, _ => [srsp f ([0, 1, 2, 3, 4, 5, 6, 7, 8, 0, 0, 7, state, 0])]
  | .ZDO, 0x40, _ => [srsp f [0], Frame.of .AREQ .ZDO 0xC0 [9]]
  | .APP_CNF, 0x05, [4] => [srsp f [0], Frame.of .AREQ .ZDO 0xC0 [9]]
  | .ZDO, 0x05, _ => [srsp f [0], Frame.of .AREQ .ZDO 0x85 [0, 0, 0, 0, 0, 1, 1]]
  | .ZDO, 0x4A, _ => [srsp f [0, 0x84, 0x0B, 0]]
  | _, _, _ => [srsp f [0]]

/-- The frames that answer an operation. -/
def reacts (state : UInt8) (m : Nv) (op : Op) : List ClientEvent :=
  match op.frame with
  | some f => (react state m f).map (fun f => .api (.frame f))
  | none => []

/-- The events by which the next operation of the coroutine comes to its end. -/
def next {α : Type} (state : UInt8) (m : Nv) (c : Client α) : List ClientEvent :=
  match c.prog with
  | .call (.request sub command payload e) _ =>
    [.go] ++ reacts state m (.request sub command payload e) ++
      [.api (.wake c.api.nextTid), .go]
  | .call (.spawn sub command payload) _ =>
    [.go, .spawned] ++ reacts state m (.spawn sub command payload) ++
      [.api (.wake c.api.nextTid)]
  | .call (.wait _) _ => [.go, .go]
  | .call .connect _ => [.api (.setUart true), .connected (.ok ())]
  | _ => [.go]

/-- The memory after the next operation. -/
def memory {α : Type} (m : Nv) (c : Client α) : Nv :=
  match c.prog with
  | .call op _ => Stick.after m op.frame
  | _ => m

/-- The events of the first `n` operations. -/
def events {α : Type} (state : UInt8) : Nat → Nv → Client α → List ClientEvent
  | 0, _, _ => []
  | n + 1, m, c =>
    let es := next state m c
    es ++ events state n (memory m c) (es.foldl Client.step c)

/-- All events of a coroutine on an open port. -/
def session {α : Type} (state : UInt8) (n : Nat) (m : Nv) (p : Prog α) : List ClientEvent :=
  .api (.setUart true) :: events state n m (Client.step { prog := p } (.api (.setUart true)))

/-- The coroutine has returned. -/
def done {α : Type} [DecidableEq α] (a : α) : Prog α → Bool
  | .ret b => decide (b = a)
  | _ => false

theorem done_eq {α : Type} [DecidableEq α] {a : α} {p : Prog α} (h : done a p = true) : p = .ret a := by
  cases p with
  | ret b => exact congrArg _ (of_decide_eq_true h)
  | _ => cases h

/-- The number of the operations is not needed: nobody else makes requests. -/
def alone (evs : List ClientEvent) : Bool :=
  evs.all (fun | .api (.submit ..) => false | _ => true)

theorem alone_alone {evs : List ClientEvent} (h : alone evs = true) : Alone evs := by
  intro o w e hm
  have := List.all_eq_true.mp h _ hm
  cases this

theorem alone_unshared {evs : List ClientEvent} {h : List Act} (ha : Alone evs) : Unshared evs h :=
  fun o w e hm => absurd hm (ha o (some w) e)

end Zcc.Radio
