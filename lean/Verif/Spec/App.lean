import Verif.Model.App
import Verif.Spec.Wire
import Verif.Model.Definition
import Verif.Model.Runtime

/-!
# Specification vocabulary for the application

The layout of the messages, written from the MT protocol description, byte by byte.
-/

namespace Zcc.Spec

open Zcc

/-- A 16-bit number, low byte first. -/
def le16 (n : Nat) : List UInt8 := [UInt8.ofNat (n % 256), UInt8.ofNat (n / 256 % 256)]

/-- A 32-bit number, low byte first. -/
def le32 (n : Nat) : List UInt8 :=
  [UInt8.ofNat (n % 256), UInt8.ofNat (n / 256 % 256), UInt8.ofNat (n / 65536 % 256),
   UInt8.ofNat (n / 16777216 % 256)]

/-- An incoming application message. -/
structure AppMessage where
  group : UInt16
  cluster : UInt16
  src : UInt16
  srcEp : UInt8
  dstEp : UInt8
  broadcast : UInt8
  lqi : UInt8
  secure : UInt8
  time : UInt32
  tsn : UInt8
  data : List UInt8

/-- The frame in which the radio reports an application message (AF_INCOMING_MSG): group, cluster,
source address, source and destination endpoint, broadcast flag, link quality, security flag, time
stamp, transaction number, length of the data, data. Trailing bytes are allowed. -/
def AppMessage.frame (m : AppMessage) (trailing : List UInt8) : Frame :=
  .of .AREQ .AF 0x81
    (le16 m.group.toNat ++ le16 m.cluster.toNat ++ le16 m.src.toNat ++
     [m.srcEp, m.dstEp, m.broadcast, m.lqi, m.secure] ++ le32 m.time.toNat ++
     [m.tsn, UInt8.ofNat m.data.length] ++ m.data ++ trailing)

/-- The frame of the extended report (AF_INCOMING_MSG_EXT): the source address is preceded by an
address mode and takes 8 bytes (a short address is padded with zeros), the data length takes two. -/
def AppMessage.frameExt (m : AppMessage) (mode : UInt8) (addr : List UInt8) (panId : UInt16) : Frame :=
  .of .AREQ .AF 0x82
    (le16 m.group.toNat ++ le16 m.cluster.toNat ++ [mode] ++ addr ++ [m.srcEp] ++
     le16 panId.toNat ++ [m.dstEp, m.broadcast, m.lqi, m.secure] ++ le32 m.time.toNat ++ [m.tsn] ++
     le16 m.data.length ++ m.data)

/-- `d` is the device zigpy finds for a network address: the first one with it. -/
def FirstWithNwk (devices : List Device) (nwk : Int) (d : Device) : Prop :=
  ∃ pre post, devices = pre ++ d :: post ∧ d.nwk = nwk ∧ ∀ x ∈ pre, x.nwk ≠ nwk

/-- The effects of handing a message to zigpy. -/
def handOver (d : Device) (lqi : Nat) (cluster srcEp dstEp : Nat) (data : List UInt8) : List Effect :=
  [.radioDetails d (.int lqi) 0,
   .message d 260 (.int cluster) (.int srcEp) (.int dstEp) (.bytes data)]

/-- A device announcement (ZDO_END_DEVICE_ANNCE_IND): source address, announced network address,
IEEE address, capabilities. -/
def announcement (src nwk : UInt16) (ieee : List UInt8) (caps : UInt8) (trailing : List UInt8) : Frame :=
  .of .AREQ .ZDO 0xC1 (le16 src.toNat ++ le16 nwk.toNat ++ ieee ++ [caps] ++ trailing)

/-- No IEEE address occurs twice (`devices` is a dict). -/
def DistinctIeee (devices : List Device) : Prop := (devices.map (·.ieee)).Nodup

instance (l : List Device) : Decidable (DistinctIeee l) := by unfold DistinctIeee; infer_instance

/-- The ZDO replies zigpy is told about, with the number of the frame that carries them (MT command
id) and the ZDO response cluster. -/
def zdoReplies : List (Nat × String × Nat) :=
  [(0x82, "nodeDescRsp", 0x8002), (0x84, "simpleDescRsp", 0x8004), (0x85, "activeEpRsp", 0x8005),
   (0xA1, "bindRsp", 0x8021), (0xB1, "mgmtLqiRsp", 0x8031), (0xB6, "mgmtPermitJoinRsp", 0x8036)]

/-- `f` is a ZDO reply with this MT number from this node. -/
def ReplyFrom (id : Nat) (nwk : UInt16) (f : Frame) : Prop :=
  f.commandType = .AREQ ∧ f.subsystem = .ZDO ∧ f.commandId = id ∧ ∃ body, f.data = le16 nwk.toNat ++ body

/-- `b` is the body of a ZDO reply with this MT number (what follows the source address): status, and
next
* node descriptor: network address, 13 bytes of descriptor,
* simple descriptor: network address, length, endpoint, profile, device, version, input clusters
  (number, then two bytes each), output clusters likewise,
* active endpoints: network address, number, one byte each,
* neighbours: table size, start index, number, 22 bytes each,
* bind, permit join: nothing. -/
def ReplyBody (id : Nat) (b : List UInt8) : Prop :=
  (id = 0x82 ∧ b.length = 16) ∨
  (id = 0x84 ∧ ∃ (head : List UInt8) (nin : UInt8) (ins : List UInt8) (nout : UInt8) (outs : List UInt8),
    head.length = 10 ∧ b = head ++ nin :: (ins ++ nout :: outs) ∧
    ins.length = 2 * nin.toNat ∧ outs.length = 2 * nout.toNat) ∨
  (id = 0x85 ∧ ∃ (head : List UInt8) (n : UInt8) (eps : List UInt8),
    head.length = 3 ∧ b = head ++ n :: eps ∧ eps.length = n.toNat) ∨
  ((id = 0xA1 ∨ id = 0xB6) ∧ b.length = 1) ∨
  (id = 0xB1 ∧ ∃ (head : List UInt8) (n : UInt8) (entries : List UInt8),
    head.length = 3 ∧ b = head ++ n :: entries ∧ entries.length = 22 * n.toNat)

/-- Only the LED command can precede the message of a reply: switched on for a permit-join reply, on
all stacks but Z-Stack 3.x.0 (product 1). -/
def ledFor (a : App) (command : String) : List Effect :=
  if command = "mgmtPermitJoinRsp" ∧ a.product ≠ some 1 then [.led 1] else []

/-- The indications that carry nothing for zigpy. -/
def ignoredIndications : List String :=
  ["bdbComissioningNotifcation", "dataConfirm", "leaveInd", "resetInd", "srcRtgInd",
   "stateChangeInd", "tcDeviceInd"]

/-- Whether an effect hands something to zigpy (all but the LED command do). -/
def Effect.forZigpy : Effect → Bool
  | .led _ => false
  | _ => true

/-- Requests of other devices that zigpy would be told about if the radio reported them: MT command
names with a ZDO request cluster. -/
def zdoRequests : List String := ["nwkAddrReq", "ieeeAddrReq", "matchDescReq", "mgmtPermitJoinReq"]

/-- The messages that concern zigpy: application messages, announcements, and ZDO messages of a
handled kind with a transaction number. -/
def Concerns (o : Obj) : Prop :=
  o.commandType = .AREQ ∧
  ((o.subsystem = .AF ∧ (o.command = "incomingMsg" ∨ o.command = "incomingMsgExt")) ∨
   (o.subsystem = .ZDO ∧ o.command = "endDeviceAnnceInd") ∨
   (o.subsystem = .ZDO ∧ o.sequence ≠ none ∧
     (o.command ∈ zdoReplies.map (·.2.1) ∨ o.command ∈ zdoRequests)))

/-- The MAC layer indications that can be decoded but not encoded again. -/
def unforwardable : List String :=
  ["syncLossInd", "associateInd", "associateCnf", "beaconNotifyInd", "dataInd", "disassociateInd",
   "orphanInd", "commStatusInd"]

/-- The transaction numbers that requests wait with are bytes, as zigpy's are; the start-up code
waits without one. -/
def ByteSequences (es : List Event) : Prop :=
  (∀ o n, .registerResponse o (some n) ∈ es → 0 ≤ n ∧ n < 256) ∧
  ∀ m to q, .register m to q ∈ es → q = none

end Zcc.Spec
