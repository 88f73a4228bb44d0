import Verif.Model.StartZnp
import Verif.Spec.Wire
import Verif.Spec.App
import Verif.Spec.Runtime

/-!
# Specification of start-up

Histories of a coroutine, the frames that matter at start-up (as bytes, from the MT API
description), and a stick with a memory.
-/

namespace Zcc.Spec

open Zcc

/-- The coroutine returns `a` when its operations end as in `h`. -/
def Returns {α : Type} (p : Prog α) (h : List Act) (a : α) : Prop := p.feed h = some (.ret a)

/-- The coroutine raises `e`. -/
def Raises {α : Type} (p : Prog α) (h : List Act) (e : PyErr) : Prop := p.feed h = some (.raise e)

/-- `h` is a history of the coroutine: it may have ended, or have been cut off anywhere. -/
def Runs {α : Type} (p : Prog α) (h : List Act) : Prop := ∃ q, p.feed h = some q

/-- The operation creates a task: nobody looks at what becomes of it. -/
def spawns : Op → Bool
  | .spawn .. => true
  | _ => false

/-- The operation did not raise, and was waited for. -/
def Succeeded (a : Act) : Prop := (∃ r, a.ans = .ok r) ∧ spawns a.op = false

/-- The response that the operation returned. -/
def response : Act → Option Obj
  | ⟨.request .., .ok r⟩ => r
  | ⟨.wait _, .ok o⟩ => some o
  | _ => none

/-- What `request` never does (see `c43_genuine`): raise `AssertionError`, or return a response whose
status was not expected. -/
def Genuine : Act → Prop
  | ⟨.request _ _ _ expected, r⟩ =>
    r ≠ .error .assertionError ∧
    ∀ o z, r = .ok (some o) → o.commandType = .SRSP → o.payload.lookup "status" = some (.int z) →
      z ∈ expected.getD [0]
  | _ => True

/-- The operation registered the waiter `w`, which is answered by exactly the messages in `P`. -/
def Registers (P : Obj → Prop) (a : Act) (w : Nat) : Prop :=
  ∃ m timeout, a = ⟨.waitFor m timeout, .ok w⟩ ∧ ∀ n, Answers m n ↔ P n

/-- ZDO_STATE_CHANGE_IND: the radio is a running coordinator (state 9). -/
def StartedInd (n : Obj) : Prop :=
  n.commandType = .AREQ ∧ n.subsystem = .ZDO ∧ n.command = "stateChangeInd" ∧
  n.payload.lookup "state" = some (.int 9)

/-- ZDO_ACTIVE_EP_RSP. -/
def ActiveEpRsp (n : Obj) : Prop :=
  n.commandType = .AREQ ∧ n.subsystem = .ZDO ∧ n.command = "activeEpRsp"

/-- UTIL_LED_CONTROL: LED 3 off. -/
def ledOff3 : Frame := Frame.of .SREQ .UTIL 0x0A [3, 0]

/-- The frames sent to the radio, in order. -/
def frames (h : List Act) : List Frame := h.filterMap (fun a => a.op.frame)

/-- SYS_OSAL_NV_READ of item `id` from its beginning. -/
def nvRead (id : Nat) : Frame := Frame.of .SREQ .SYS 0x08 (le16 id ++ [0])

/-- SYS_OSAL_NV_WRITE of the whole item `id`. -/
def nvWrite (id : Nat) (value : List UInt8) : Frame :=
  Frame.of .SREQ .SYS 0x09 (le16 id ++ [0, UInt8.ofNat value.length] ++ value)

/-- SYS_OSAL_NV_ITEM_INIT: create item `id` if it does not exist. -/
def nvInit (id : Nat) (value : List UInt8) : Frame :=
  Frame.of .SREQ .SYS 0x07 (le16 id ++ le16 value.length ++ [UInt8.ofNat value.length] ++ value)

/-- SAPI_READ_CONFIGURATION. -/
def configRead (id : Nat) : Frame := Frame.of .SREQ .SAPI 0x04 [UInt8.ofNat id]

/-- SAPI_WRITE_CONFIGURATION. -/
def configWrite (id : Nat) (value : List UInt8) : Frame :=
  Frame.of .SREQ .SAPI 0x05 ([UInt8.ofNat id, UInt8.ofNat value.length] ++ value)

/-- SYS_RESET_REQ, soft reset. -/
def softReset : Frame := Frame.of .AREQ .SYS 0x00 [1]

/-- APP_CNF_BDB_SET_CHANNEL. -/
def setChannel (primary : UInt8) (channels : Nat) : Frame :=
  Frame.of .SREQ .APP_CNF 0x08 (primary :: le32 channels)

/-- APP_CNF_BDB_START_COMMISSIONING. -/
def commission (mode : UInt8) : Frame := Frame.of .SREQ .APP_CNF 0x05 [mode]

/-- UTIL_GET_DEVICE_INFO. -/
def deviceInfo : Frame := Frame.of .SREQ .UTIL 0x00 []

/-- Frames that change the configuration or the network of the stick: reset, item initialisation
and writes, SAPI configuration writes, commissioning commands. -/
def changesConfig (f : Frame) : Bool :=
  match f.subsystem, f.commandId with
  | .SYS, 0x00 | .SYS, 0x07 | .SYS, 0x09 | .SAPI, 0x05 | .APP_CNF, 0x05 | .APP_CNF, 0x08 => true
  | _, _ => false

/-- The item that marks a configured stick. -/
def flagId (version : Int) : Nat := if version = 0 then 0x0F00 else 0x60

/-- The stored settings of a configured stick: item id and content. -/
def settings (version : Int) (o : Options) : List (Nat × List UInt8) :=
  [(flagId version, [0x55]),
   (0x84, le32 o.channelList.toNat),
   (0x63, [if o.networkKeyDistribute then 1 else 0]),
   (0x62, o.networkKey),
   (0x83, le16 o.panID.toNat),
   (0x2D, o.extendedPanID)]

/-- What the types of the options say about their size. -/
structure WellFormed (o : Options) : Prop where
  key : o.networkKey.length = 16
  ext : o.extendedPanID.length = 8

/-- The default trust centre link key entry of Z-Stack 1.2 ('ZigBeeAlliance09'). -/
def linkKeyEntry : List UInt8 :=
  List.replicate 8 0xFF ++ "ZigBeeAlliance09".toUTF8.toList ++ List.replicate 8 0

/-- The initialisation sequence, up to the commands that mark the stick as configured. -/
def initBody (version : Int) (o : Options) : List Frame :=
  [softReset, nvWrite 0x03 [2], softReset, nvWrite 0x87 [0],
   nvWrite 0x63 [if o.networkKeyDistribute then 1 else 0], nvWrite 0x8F [1],
   nvWrite 0x84 (le32 o.channelList.toNat), nvWrite 0x83 (le16 o.panID.toNat),
   nvWrite 0x2D o.extendedPanID] ++
  (if version = 1 ∨ version = 2 then
    [nvWrite 0x62 o.networkKey, setChannel 1 o.channelList.toNat, setChannel 0 0,
     commission 4, commission 2]
  else [configWrite 0x62 o.networkKey, nvWrite 0x101 linkKeyEntry])

/-- The full initialisation sequence. -/
def initFrames (version : Int) (o : Options) : List Frame :=
  initBody version o ++ [nvInit (flagId version) [0], nvWrite (flagId version) [0x55]]

/-- The non-volatile memory of a stick: item id to content. -/
abbrev Nv := Nat → Option (List UInt8)

/-- Ids of the items that make up the settings (of any version). -/
def settingIds : List Nat := [0x0F00, 0x60, 0x84, 0x63, 0x62, 0x83, 0x2D]

/-- The settings are the same. -/
def SameSettings (m m' : Nv) : Prop := ∀ i ∈ settingIds, m' i = m i

/-- Item `i` is written from its beginning: if the command succeeded its content is `value`; otherwise
nothing is known about it (the power may have failed before, during or after the write). Nothing is
assumed about writes at another offset, except that they leave other items alone. -/
def Written (m : Nv) (a : Act) (i : Nat) (offset : UInt8) (value : List UInt8) (m' : Nv) : Prop :=
  (∀ j, j ≠ i → m' j = m j) ∧ (offset = 0 → Succeeded a → m' i = some value)

/-- What an operation of the host does to the memory of a stick that stores what is written and
returns what is stored; `R` says what a reset may do to the memory. Other commands may change
anything but the settings. A response to a read holds the content (nothing for a missing item). -/
def NvStep (R : Nv → Nv → Prop) (m : Nv) (a : Act) (m' : Nv) : Prop :=
  match a.op.frame with
  | none => m' = m
  | some f =>
    match f.subsystem, f.commandId, f.data with
    | .SYS, 0x00, _ => R m m'
    | .SYS, 0x08, [lo, hi, offset] =>
      m' = m ∧ ∀ o, offset = 0 → response a = some o →
        o.payload.lookup "value" = some (.bytes ((m (lo.toNat + 256 * hi.toNat)).getD []))
    | .SYS, 0x09, lo :: hi :: offset :: len :: value =>
      Written m a (lo.toNat + 256 * hi.toNat) offset (value.take len.toNat) m'
    | .SYS, 0x07, lo :: hi :: _ :: _ :: len :: value =>
      if (m (lo.toNat + 256 * hi.toNat)).isSome then m' = m
      else Written m a (lo.toNat + 256 * hi.toNat) 0 (value.take len.toNat) m'
    | .SAPI, 0x04, [id] =>
      m' = m ∧ ∀ o, response a = some o →
        o.payload.lookup "value" = some (.bytes ((m id.toNat).getD []))
    | .SAPI, 0x05, id :: len :: value => Written m a id.toNat 0 (value.take len.toNat) m'
    | _, _, _ => SameSettings m m'

/-- The memory goes from `m` to `m'` while the operations in the list happen. -/
def Stores (R : Nv → Nv → Prop) : Nv → List Act → Nv → Prop
  | m, [], m' => m' = m
  | m, a :: h, m' => ∃ m1, NvStep R m a m1 ∧ Stores R m1 h m'

/-- The stick must be initialised: one of the stored settings differs from the configuration. A PAN id
that was never set (0xFFFF) does not count on Z-Stack 3. -/
def MustInit (version : Int) (o : Options) (m : Nv) : Prop :=
  ∃ s ∈ settings version o, m s.1 ≠ some s.2 ∧
    ¬ (s.1 = 0x83 ∧ (version = 1 ∨ version = 2) ∧ m 0x83 = some [0xFF, 0xFF])

/-- The coordinator's endpoints: number, profile, device, input clusters, output clusters. -/
def coordinatorEndpoints : List (Nat × Nat × Nat × List Nat × List Nat) :=
  [(1, 0x0104, 5, [], []), (2, 0x0101, 5, [], []), (3, 0x0106, 5, [], []), (4, 0x0107, 5, [], []),
   (5, 0x0108, 5, [], []), (6, 0x0109, 5, [], []), (8, 0x0104, 5, [], []),
   (11, 0x0104, 0x0400, [], [0x0500, 0x0502]), (110, 0x0104, 5, [], []), (12, 0xC05E, 5, [], []),
   (13, 0x0104, 5, [0x0019], []), (47, 0x0104, 5, [], []), (242, 0xA1E0, 5, [], [])]

/-- AF_REGISTER: endpoint, profile, device, version 0, latency 0, input clusters, output clusters. -/
def registerFrame (e : Nat × Nat × Nat × List Nat × List Nat) : Frame :=
  Frame.of .SREQ .AF 0x00
    ([UInt8.ofNat e.1] ++ le16 e.2.1 ++ le16 e.2.2.1 ++ [0, 0] ++
     [UInt8.ofNat e.2.2.2.1.length] ++ (e.2.2.2.1.map le16).flatten ++
     [UInt8.ofNat e.2.2.2.2.length] ++ (e.2.2.2.2.map le16).flatten)

/-- ZDO_ACTIVE_EP_REQ to the coordinator about itself. -/
def activeEpReq : Frame := Frame.of .SREQ .ZDO 0x05 [0, 0, 0, 0]

/-- ZDO_STARTUP_FROM_APP with a delay of 100 ms. -/
def startupFromApp : Frame := Frame.of .SREQ .ZDO 0x40 (le16 100)

/-- ZDO_EXT_FIND_GROUP. -/
def findGroup (endpoint group : Nat) : Frame :=
  Frame.of .SREQ .ZDO 0x4A (UInt8.ofNat endpoint :: le16 group)

/-- ZDO_EXT_ADD_GROUP with an empty name. -/
def addGroup (endpoint group : Nat) : Frame :=
  Frame.of .SREQ .ZDO 0x4B (UInt8.ofNat endpoint :: le16 group ++ [0])

/-- How the network key is read: Z-Stack 3.x.0 has no SAPI, the others give out the key only by SAPI. -/
def keyRead (version : Int) : Frame := if version = 1 then nvRead 0x62 else configRead 0x62

/-- The frames that start-up reads the settings with. -/
def readFrames (version : Int) : List Frame :=
  [nvRead (flagId version), nvRead 0x84, nvRead 0x63, keyRead version, nvRead 0x83, nvRead 0x2D]

/-- All frames that `start_znp` may send. -/
def startFrames (version : Int) (o : Options) (group : Nat) : List Frame :=
  readFrames version ++ initFrames version o ++ [deviceInfo, startupFromApp, activeEpReq] ++
  coordinatorEndpoints.map registerFrame ++ [findGroup 242 group, addGroup 242 group]

/-- The operation is none that sends a command, or it sends one of the frames `fs`. -/
def Sent (fs : List Frame) : Op → Prop
  | .request sub command payload expected =>
    ∃ f ∈ fs, (Op.request sub command payload expected).frame = some f
  | .spawn sub command payload => ∃ f ∈ fs, (Op.spawn sub command payload).frame = some f
  | _ => True

/-- The frames `fs` were sent in this order, one directly after the other, and all answered without
error. -/
def Completed (fs : List Frame) (h : List Act) : Prop :=
  ∃ before during after, h = before ++ during ++ after ∧ frames during = fs ∧
    ∀ a ∈ during, Succeeded a

/-- The last initialisation in the history was carried out up to the commands that mark the stick as
configured: the sequence was sent and answered without error, and no reset followed. -/
def LastComplete (version : Int) (o : Options) (h : List Act) : Prop :=
  ∃ before during after, h = before ++ during ++ after ∧ frames during = initBody version o ∧
    (∀ a ∈ during, Succeeded a) ∧ softReset ∉ frames after

/-- The coordinator's endpoints that are not in the list. -/
def missing (l : List Int) (cs : List (Nat × Nat × Nat × List Nat × List Nat)) :
    List (Nat × Nat × Nat × List Nat × List Nat) :=
  cs.filter (fun c => decide ((c.1 : Int) ∉ l))

/-- Items that start-up writes with SYS_OSAL_NV_WRITE: id and content. -/
def writtenItems (version : Int) (o : Options) : List (Nat × List UInt8) :=
  [(0x03, [2]), (0x87, [0]), (0x8F, [1]), (0x101, linkKeyEntry)] ++ settings version o

/-- A setting: the configured value, or a default if none is configured. -/
def valueOr {α : Type} (configured : Option α) (default : α) : α := configured.getD default

end Zcc.Spec
