import Verif.Model.Stack
import Verif.Spec.App
import Verif.Spec.Codec

/-!
# Specification vocabulary for a whole connection

What the radio puts on the wire, and what zigpy is to be told about it.
-/

namespace Zcc.Spec

open Zcc

/-- What the radio says. -/
inductive Item where
  /-- an incoming application message -/
  | report (m : AppMessage) (trailing : List UInt8)
  /-- an incoming application message in the extended form -/
  | reportExt (m : AppMessage) (mode : UInt8) (addr : List UInt8) (panId : UInt16)
  /-- a device announcement -/
  | announce (src nwk : UInt16) (ieee : List UInt8) (caps : UInt8) (trailing : List UInt8)
  /-- anything else -/
  | other (f : Frame)

/-- The frame that says it. -/
def Item.frame : Item → Frame
  | .report m trailing => m.frame trailing
  | .reportExt m mode addr panId => m.frameExt mode addr panId
  | .announce src nwk ieee caps trailing => announcement src nwk ieee caps trailing
  | .other f => f

/-- The frame decodes to a message, and if this is an indication, it can be encoded again (of the
indications in the table, all but eight of the MAC layer, see C56). -/
def Handleable (f : Frame) : Prop :=
  ∃ o, Obj.fromUnpiFrame f = .ok o ∧ (f.commandType = .AREQ → ∀ p ∈ o.parameters, Writable p.2)

/-- The item is well-formed, and it is an `other` only if it is none of the other kinds. -/
def Item.Proper : Item → Prop
  | .report m trailing => Fits (m.frame trailing)
  | .reportExt m mode addr panId =>
    Fits (m.frameExt mode addr panId) ∧ mode.toNat ∈ [0, 1, 2, 3, 15] ∧ addr.length = 8
  | .announce src nwk ieee caps trailing =>
    Fits (announcement src nwk ieee caps trailing) ∧ ieee.length = 8
  | .other f =>
    Fits f ∧ f.data ≠ [] ∧ Handleable f ∧
    ¬ (f.commandType = .AREQ ∧ f.subsystem = .AF ∧ (f.commandId = 0x81 ∨ f.commandId = 0x82)) ∧
    ¬ (f.commandType = .AREQ ∧ f.subsystem = .ZDO ∧ f.commandId = 0xC1)

/-- The bytes on the wire: each item preceded by noise, and noise at the end. -/
def onWire (items : List (List UInt8 × Item)) (tail : List UInt8) : List UInt8 :=
  items.flatMap (fun p => p.1 ++ wire p.2.frame) ++ tail

/-- All the bytes that arrive in an execution. -/
def arrived : List StackEvent → List UInt8
  | [] => []
  | .bytes c :: es => c ++ arrived es
  | .api _ :: es => arrived es

/-- The other events of an execution. -/
def others : List StackEvent → List Event
  | [] => []
  | .bytes _ :: es => others es
  | .api e :: es => e :: others es

/-- How many chunks of bytes arrive in an execution. -/
def chunks : List StackEvent → Nat
  | [] => 0
  | .bytes _ :: es => chunks es + 1
  | .api _ :: es => chunks es

/-- The execution of the API: the events of the connection, with the messages that each chunk of
bytes completes (one group per chunk) instead of the bytes. -/
def weave : List StackEvent → List (List Item) → List Event
  | [], _ => []
  | .bytes _ :: es, g :: gs => g.map (fun i => .frame (received i.frame)) ++ weave es gs
  | .bytes _ :: es, [] => weave es []
  | .api (.frame _) :: es, gs => weave es gs
  | .api e :: es, gs => e :: weave es gs

/-- What an indication that is neither an application message nor an announcement can cause: an LED
command, or a message from endpoint 0 to endpoint 0 (ZDO) that begins with a transaction number. -/
def ZdoEffect : Effect → Prop
  | .led _ => True
  | .radioDetails _ lqi rssi => lqi = .int 0 ∧ rssi = 0
  | .message _ profile _ srcEp dstEp data =>
    profile = 260 ∧ srcEp = .int 0 ∧ dstEp = .int 0 ∧ ∃ tsn body, data = .bytes (tsn :: body)
  | .join .. => False

/-- `Story devices items effects devices'`: what zigpy is told when the radio says `items`, in
order; its device table is `devices` before and `devices'` after. -/
inductive Story : List Device → List Item → List Effect → List Device → Prop
  | done (ds : List Device) : Story ds [] [] ds
  /-- a message of a known device is handed over -/
  | known (ds : List Device) (m : AppMessage) (trailing : List UInt8) (d : Device)
      (hd : FirstWithNwk ds m.src.toNat d) (rest : List Item) (es : List Effect)
      (ds' : List Device) (h : Story ds rest es ds') :
      Story ds (.report m trailing :: rest)
        (handOver d m.lqi.toNat m.cluster.toNat m.srcEp.toNat m.dstEp.toNat m.data ++ es) ds'
  /-- a message of an unknown device is not -/
  | unknown (ds : List Device) (m : AppMessage) (trailing : List UInt8)
      (hd : ∀ d ∈ ds, d.nwk ≠ m.src.toNat) (rest : List Item) (es : List Effect)
      (ds' : List Device) (h : Story ds rest es ds') :
      Story ds (.report m trailing :: rest) es ds'
  /-- a message in the extended form is not either (C32) -/
  | ext (ds : List Device) (m : AppMessage) (mode : UInt8) (addr : List UInt8) (panId : UInt16)
      (rest : List Item) (es : List Effect) (ds' : List Device) (h : Story ds rest es ds') :
      Story ds (.reportExt m mode addr panId :: rest) es ds'
  /-- the announced device joins under the announced address, no other device is touched, and the
  announcement is handed over -/
  | join (ds ds1 : List Device) (src nwk : UInt16) (ieee : List UInt8) (caps : UInt8)
      (trailing : List UInt8)
      (h1 : ∀ d, d ∈ ds1 ↔ d = ⟨ieee, nwk.toNat⟩ ∨ (d ∈ ds ∧ d.ieee ≠ ieee))
      (h2 : DistinctIeee ds1) (rest : List Item) (es : List Effect) (ds' : List Device)
      (h : Story ds1 rest es ds') :
      Story ds (.announce src nwk ieee caps trailing :: rest)
        (.join nwk.toNat ieee 0 :: handOver ⟨ieee, nwk.toNat⟩ 0 0x13 0 0
          (0 :: (le16 nwk.toNat ++ ieee ++ [caps])) ++ es) ds'
  /-- anything else touches no device -/
  | other (ds : List Device) (f : Frame) (es0 : List Effect) (h0 : ∀ e ∈ es0, ZdoEffect e)
      (rest : List Item) (es : List Effect) (ds' : List Device) (h : Story ds rest es ds') :
      Story ds (.other f :: rest) (es0 ++ es) ds'

end Zcc.Spec
