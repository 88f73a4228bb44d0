import Verif.Model.Boot
import Verif.Spec.Stack
import Verif.Spec.Wire

/-! # Specification vocabulary for start-up over the serial port -/

namespace Zcc.Spec

open Zcc

/-- All the bytes that arrive. -/
def portBytes : List BootEvent → List UInt8
  | [] => []
  | .bytes c :: es => c ++ portBytes es
  | .client _ :: es => portBytes es

/-- The chunks in which they arrive. -/
def portChunks : List BootEvent → List (List UInt8)
  | [] => []
  | .bytes c :: es => c :: portChunks es
  | .client _ :: es => portChunks es

/-- The other events. Frames come from the port only. -/
def portless : List BootEvent → List ClientEvent
  | [] => []
  | .bytes _ :: es => portless es
  | .client (.api (.frame _)) :: es => portless es
  | .client e :: es => e :: portless es

/-- What others do with the API. Frames come from the port only. -/
def othersUse (es : List BootEvent) : List Event :=
  (portless es).filterMap fun
    | .api e => some e
    | _ => none

/-- The execution with the messages that each chunk of bytes completes (one group per chunk) instead of
the bytes. -/
def portWeave : List BootEvent → List (List Frame) → List ClientEvent
  | [], _ => []
  | .bytes _ :: es, g :: gs => g.map (fun f => .api (.frame f)) ++ portWeave es gs
  | .bytes _ :: es, [] => portWeave es []
  | .client (.api (.frame _)) :: es, gs => portWeave es gs
  | .client e :: es, gs => e :: portWeave es gs

/-- The two indications that switch the LED: ZDO_PERMIT_JOIN_IND and ZDO_MGMT_PERMIT_JOIN_RSP. -/
def LedFrame (f : Frame) : Prop :=
  f.commandType = .AREQ ∧ f.subsystem = .ZDO ∧ (f.commandId = 0xCB ∨ f.commandId = 0xB6)

/-- A message that can be received and handled: it has data, decodes, and can be encoded again if it is an
indication. -/
def Sound (f : Frame) : Prop := Fits f ∧ f.data ≠ [] ∧ Handleable f

/-- The bytes on the wire: each message preceded by noise. -/
def portStream (items : List (List UInt8 × Frame)) : List UInt8 :=
  items.flatMap fun p => p.1 ++ wire p.2

/-- The messages that are complete in the first `n` bytes of `portStream items`. -/
def inFirst : List (List UInt8 × Frame) → Nat → List Frame
  | [], _ => []
  | x :: items, n =>
    if (x.1 ++ wire x.2).length ≤ n then received x.2 :: inFirst items (n - (x.1 ++ wire x.2).length) else []

/-- The messages that each chunk of `portStream items` completes, when `n` bytes have arrived before. -/
def perChunk (items : List (List UInt8 × Frame)) : Nat → List (List UInt8) → List (List Frame)
  | _, [] => []
  | n, c :: cs => (inFirst items (n + c.length)).drop (inFirst items n).length ::
    perChunk items (n + c.length) cs

/-- While the application does not know the version of the radio, no message that switches the LED arrives.
`b` is the state when the port is connected, `es` what happens then; of the messages `items` the first `n`
bytes have arrived before. -/
def NoLedYet (b : Boot) (es : List BootEvent) (items : List (List UInt8 × Frame)) (n : Nat) : Prop :=
  ∀ a chunk z, es = a ++ .bytes chunk :: z → (b.run a).app.product = none →
    ∀ f ∈ inFirst items (n + (portBytes a).length + chunk.length), ¬ LedFrame f

/-- The coordinator's addresses, when start-up enters it into zigpy's table. -/
def enters : Act → Option (List UInt8 × Int)
  | ⟨.coordinator (.eui ieee) (.int nwk), .ok _⟩ => some (ieee, nwk)
  | _ => none

/-- `Chronicle entered devices items effects devices'`: a `Story` in which the devices of `entered` are
entered into the table, one after the other, at any time; the entry of a device that is there is
replaced. -/
inductive Chronicle : List (List UInt8 × Int) → List Device → List Item → List Effect → List Device → Prop
  | story (ds : List Device) (items : List Item) (es : List Effect) (ds' : List Device)
      (h : Story ds items es ds') : Chronicle [] ds items es ds'
  | entry (ieee : List UInt8) (nwk : Int) (entered : List (List UInt8 × Int))
      (ds ds1 ds2 ds' : List Device) (items items' : List Item) (es es' : List Effect)
      (h : Story ds items es ds1)
      (h1 : ∀ d, d ∈ ds2 ↔ d = ⟨ieee, nwk⟩ ∨ (d ∈ ds1 ∧ d.ieee ≠ ieee)) (h2 : DistinctIeee ds2)
      (h' : Chronicle entered ds2 items' es' ds') :
      Chronicle ((ieee, nwk) :: entered) ds (items ++ items') (es ++ es') ds'

end Zcc.Spec
