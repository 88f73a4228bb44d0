import Verif.Model.ZpiObject
import Verif.Spec.Client

/-!
# Specification of what the radio reports

The layouts of the messages of the radio that the driver looks into, written down from the MT API
description, and how a message of such a layout is read, byte by byte.
-/

namespace Zcc.Spec

open Zcc

/-- The fields of the radio's messages. The last three hold as many elements as the field before
says. -/
inductive Fld where
  | u8
  | u16
  | u32
  | eui
  | blob
  | octets
  | words
  deriving DecidableEq

/-- Two bytes each, low byte first. -/
def wordsOf : List UInt8 → List Int
  | a :: b :: r => (a.toNat + 256 * b.toNat : Nat) :: wordsOf r
  | _ => []

/-- Reads a field; `before` is the value of the field before it. Nothing if bytes are missing. -/
def Fld.read (before : Nat) : Fld → List UInt8 → Option (Val × Nat × List UInt8)
  | .u8, a :: r => some (.int a.toNat, a.toNat, r)
  | .u16, a :: b :: r => some (.int (a.toNat + 256 * b.toNat : Nat), a.toNat + 256 * b.toNat, r)
  | .u32, a :: b :: c :: d :: r =>
    let n := a.toNat + 256 * b.toNat + 65536 * c.toNat + 16777216 * d.toNat
    some (.int n, n, r)
  | .eui, r => if 8 ≤ r.length then some (.eui (r.take 8), 0, r.drop 8) else none
  | .blob, r => if before ≤ r.length then some (.bytes (r.take before), 0, r.drop before) else none
  | .octets, r =>
    if before ≤ r.length then some (.ints ((r.take before).map fun b => (b.toNat : Int)), 0, r.drop before)
    else none
  | .words, r =>
    if 2 * before ≤ r.length then some (.ints (wordsOf (r.take (2 * before))), 0, r.drop (2 * before))
    else none
  | _, _ => none

/-- Reads the fields of a message one after the other; what comes after them does not matter. -/
def readLayout (before : Nat) : List (String × Fld) → List UInt8 → Option Payload
  | [], _ => some []
  | (name, k) :: ps, data =>
    match k.read before data with
    | none => none
    | some (v, n, rest) =>
      match readLayout n ps rest with
      | none => none
      | some p => some ((name, v) :: p)

/-- A message of the radio: kind, subsystem, number, name, fields. -/
abbrev Report := CommandType × Subsystem × Nat × String × List (String × Fld)

/-- The responses with more than a status. -/
def responses : List Report :=
  [(.SRSP, .SYS, 0x01, "ping", [("capabilities", .u16)]),
   (.SRSP, .SYS, 0x02, "version", [("transportrev", .u8), ("product", .u8), ("majorrel", .u8),
     ("minorrel", .u8), ("maintrel", .u8), ("revision", .u32)]),
   (.SRSP, .SYS, 0x08, "osalNvRead", [("status", .u8), ("len", .u8), ("value", .blob)]),
   (.SRSP, .SAPI, 0x04, "readConfiguration",
     [("status", .u8), ("configid", .u8), ("len", .u8), ("value", .blob)]),
   (.SRSP, .UTIL, 0x00, "getDeviceInfo", [("status", .u8), ("ieeeaddr", .eui), ("shortaddr", .u16),
     ("devicetype", .u8), ("devicestate", .u8), ("numassocdevices", .u8), ("assocdeviceslist", .words)]),
   (.SRSP, .ZDO, 0x4A, "extFindGroup",
     [("status", .u8), ("groupid", .u16), ("namelen", .u8), ("groupname", .blob)])]

/-- The commands whose response is a status. -/
def acknowledged : List (Subsystem × Nat × String) :=
  [(.SYS, 0x07, "osalNvItemInit"), (.SYS, 0x09, "osalNvWrite"), (.SAPI, 0x05, "writeConfiguration"),
   (.APP_CNF, 0x05, "bdbStartCommissioning"), (.APP_CNF, 0x08, "bdbSetChannel"),
   (.UTIL, 0x0A, "ledControl"), (.AF, 0x00, "register"), (.AF, 0x01, "dataRequest"),
   (.AF, 0x02, "dataRequestExt"), (.ZDO, 0x40, "startupFromApp"), (.ZDO, 0x4B, "extAddGroup"),
   (.ZDO, 0x02, "nodeDescReq"), (.ZDO, 0x03, "powerDescReq"), (.ZDO, 0x04, "simpleDescReq"),
   (.ZDO, 0x05, "activeEpReq"), (.ZDO, 0x06, "matchDescReq"), (.ZDO, 0x21, "bindReq"),
   (.ZDO, 0x22, "unbindReq"), (.ZDO, 0x31, "mgmtLqiReq"), (.ZDO, 0x32, "mgmtRtgReq"),
   (.ZDO, 0x33, "mgmtBindReq"), (.ZDO, 0x34, "mgmtLeaveReq"), (.ZDO, 0x36, "mgmtPermitJoinReq")]

/-- The indications. -/
def indications : List Report :=
  [(.AREQ, .SYS, 0x80, "resetInd", [("reason", .u8), ("transportrev", .u8), ("productid", .u8),
     ("majorrel", .u8), ("minorrel", .u8), ("hwrev", .u8)]),
   (.AREQ, .AF, 0x80, "dataConfirm", [("status", .u8), ("endpoint", .u8), ("transid", .u8)]),
   (.AREQ, .AF, 0x81, "incomingMsg", [("groupid", .u16), ("clusterid", .u16), ("srcaddr", .u16),
     ("srcendpoint", .u8), ("dstendpoint", .u8), ("wasbroadcast", .u8), ("linkquality", .u8),
     ("securityuse", .u8), ("timestamp", .u32), ("transseqnumber", .u8), ("len", .u8), ("data", .blob)]),
   (.AREQ, .ZDO, 0x82, "nodeDescRsp", [("srcaddr", .u16), ("status", .u8), ("nwkaddr", .u16),
     ("logicaltype_cmplxdescavai_userdescavai", .u8), ("apsflags_freqband", .u8), ("maccapflags", .u8),
     ("manufacturercode", .u16), ("maxbuffersize", .u8), ("maxintransfersize", .u16),
     ("servermask", .u16), ("maxouttransfersize", .u16), ("descriptorcap", .u8)]),
   (.AREQ, .ZDO, 0x85, "activeEpRsp", [("srcaddr", .u16), ("status", .u8), ("nwkaddr", .u16),
     ("activeepcount", .u8), ("activeeplist", .octets)]),
   (.AREQ, .ZDO, 0xA1, "bindRsp", [("srcaddr", .u16), ("status", .u8)]),
   (.AREQ, .ZDO, 0xA2, "unbindRsp", [("srcaddr", .u16), ("status", .u8)]),
   (.AREQ, .ZDO, 0xB4, "mgmtLeaveRsp", [("srcaddr", .u16), ("status", .u8)]),
   (.AREQ, .ZDO, 0xB6, "mgmtPermitJoinRsp", [("srcaddr", .u16), ("status", .u8)]),
   (.AREQ, .ZDO, 0xC0, "stateChangeInd", [("state", .u8)]),
   (.AREQ, .ZDO, 0xC1, "endDeviceAnnceInd",
     [("srcaddr", .u16), ("nwkaddr", .u16), ("ieeeaddr", .eui), ("capabilities", .u8)]),
   (.AREQ, .ZDO, 0xC9, "leaveInd",
     [("srcaddr", .u16), ("extaddr", .eui), ("request", .u8), ("removechildren", .u8), ("rejoin", .u8)]),
   (.AREQ, .ZDO, 0xCA, "tcDeviceInd", [("nwkaddr", .u16), ("extaddr", .eui), ("parentaddr", .u16)]),
   (.AREQ, .ZDO, 0xCB, "permitJoinInd", [("duration", .u8)])]

/-- All of them. -/
def reports : List Report :=
  responses ++ acknowledged.map (fun a => (.SRSP, a.1, a.2.1, a.2.2, [("status", .u8)])) ++ indications

/-- The frame `ask` was written to the port, and later the frame `f` was received, which is a response
to it. -/
def Exchanged (L : List Entry) (ask f : Frame) : Prop :=
  ∃ t n, [Entry.sent t (wire ask), .received f n].Sublist L ∧ f.commandType = .SRSP ∧
    f.subsystem = ask.subsystem ∧ f.commandId = ask.commandId

/-- How a setting is read. -/
def settingRead (version : Int) (id : Nat) : Frame := if id = 0x62 then keyRead version else nvRead id

/-- The bytes of a response that reports `value`, after the status: the radio repeats the id only in a
SAPI response. -/
def reporting (version : Int) (id : Nat) (value : List UInt8) (rest : List UInt8) : List UInt8 → Prop
  | x => if id = 0x62 ∧ version ≠ 1 then ∃ c, x = c :: UInt8.ofNat value.length :: (value ++ rest)
    else x = UInt8.ofNat value.length :: (value ++ rest)

/-- The radio was asked for the setting `id` and has reported `value`. -/
def Told (L : List Entry) (version : Int) (id : Nat) (value : List UInt8) : Prop :=
  ∃ f status x rest, Exchanged L (settingRead version id) f ∧ f.data = status :: x ∧
    (status = 0 ∨ status = 2 ∧ id = flagId version) ∧ reporting version id value rest x

end Zcc.Spec
