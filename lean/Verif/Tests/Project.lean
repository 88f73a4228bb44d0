import Verif.Model.AppRuntime
import Verif.Model.Connection

/-!
# The project's own tests, evaluated in the model

/repo/tests/test_buffalo.py, test_uart.py, test_types.py, test_api.py and test_application.py contain expected
values written down by the authors of the code. Each `example` below is one of these tests, with the values
copied from there: a check that the model computes what the code computes. These are tests of the model, not
proofs of properties; no property relies on them. Left out are tests that only exercise zigpy (`test_incoming_msg`,
`test_deser`, ...), tests that are skipped or commented out, and assertions about mocks.
-/

namespace Zcc.ProjectTests

open Zcc

/-- `test_write_ieee`, tests/test_buffalo.py:17. -/
example : writeParameter .IEEEADDR (.eui [0x00, 0x12, 0x4B, 0x00, 0x12, 0x01, 0x44, 0xAE]) = .ok [0x00, 0x12, 0x4B, 0x00, 0x12, 0x01, 0x44, 0xAE] := by decide +kernel

/-- `test_read_ieee`, tests/test_buffalo.py:35. -/
example : readParameter "test" .IEEEADDR none [0x00, 0x12, 0x4B, 0x00, 0x12, 0x01, 0x44, 0xAE] = .ok (.eui [0x00, 0x12, 0x4B, 0x00, 0x12, 0x01, 0x44, 0xAE], []) := by decide +kernel

/-- `test_write_ieee2`, tests/test_buffalo.py:23. -/
example : writeParameter .IEEEADDR (.eui [0x00, 0x12, 0x5B, 0x00, 0x12, 0x01, 0x44, 0xAF]) = .ok [0x00, 0x12, 0x5B, 0x00, 0x12, 0x01, 0x44, 0xAF] := by decide +kernel

/-- `test_read_ieee2`, tests/test_buffalo.py:41. -/
example : readParameter "test" .IEEEADDR none [0x00, 0x12, 0x5B, 0x00, 0x12, 0x01, 0x44, 0xAF] = .ok (.eui [0x00, 0x12, 0x5B, 0x00, 0x12, 0x01, 0x44, 0xAF], []) := by decide +kernel

/-- `test_write_ieee_group`, tests/test_buffalo.py:29. -/
example : writeParameter .IEEEADDR (.int 2) = .ok [0x02, 0x00, 0x00, 0x00, 0x00, 0x00, 0x00, 0x00] := by decide +kernel

/-- `test_list_nighbor_lqi`, tests/test_buffalo.py:47-71. -/
def lqi : List Neighbor :=
  [⟨[0xDD, 0xED, 0xDD, 0xD0, 0xDD, 0xDD, 0xDD, 0xD8], [0xB3, 0xDC, 0x21, 0x04, 0x00, 0x8D, 0x15, 0x00], 0xE961, 1, 2, 2, 2, 255, 69⟩]

example : writeParameter .LIST_NEIGHBOR_LQI (.nbrs lqi) = .ok
    [0xDD, 0xED, 0xDD, 0xD0, 0xDD, 0xDD, 0xDD, 0xD8, 0xB3, 0xDC, 0x21, 0x04, 0x00, 0x8D, 0x15, 0x00, 0x61, 0xE9, 0x29, 0x02, 0xFF, 0x45] := by
  decide +kernel

example : readParameter "test" .LIST_NEIGHBOR_LQI (some 1)
    [0xDD, 0xED, 0xDD, 0xD0, 0xDD, 0xDD, 0xDD, 0xD8, 0xB3, 0xDC, 0x21, 0x04, 0x00, 0x8D, 0x15, 0x00, 0x61, 0xE9, 0x29, 0x02, 0xFF, 0x45] =
    .ok (.nbrs lqi, []) := by
  decide +kernel

/-! ## tests/test_uart.py -/

/-- The gateway of the fixture: a mock as API, which counts calls and keeps arguments. -/
def gw (chunks : List (List UInt8)) : Gateway (List Frame) × List PyErr :=
  Gateway.receiveAll (fun l f => (l ++ [f], none)) ⟨[], []⟩ chunks

/-- `test_data_received_chunk_frame`, tests/test_uart.py:53-62. -/
example : (gw [[0xFE, 0x0E, 0x61, 0x02, 0x02, 0x00, 0x02, 0x06, 0x03, 0x90, 0x15, 0x34, 0x01, 0x02, 0x00]]).1.api = [] ∧
    gw [[0xFE, 0x0E, 0x61, 0x02, 0x02, 0x00, 0x02, 0x06, 0x03, 0x90, 0x15, 0x34, 0x01, 0x02, 0x00], [0x00, 0x00, 0x00, 0xDA]] =
      (⟨[], [{ commandType := .SRSP, subsystem := .SYS, commandId := 2, data := [0x02, 0x00, 0x02, 0x06, 0x03, 0x90, 0x15, 0x34, 0x01, 0x02, 0x00, 0x00, 0x00, 0x00], length := some 14, fcs := some 218 }]⟩, []) := by
  decide +kernel

/-- `test_data_received_full_frame`, tests/test_uart.py:65-72. -/
example : gw [[0xFE, 0x0E, 0x61, 0x02, 0x02, 0x00, 0x02, 0x06, 0x03, 0x90, 0x15, 0x34, 0x01, 0x02, 0x01, 0x00, 0x00, 0x00, 0xDB]] =
    (⟨[], [{ commandType := .SRSP, subsystem := .SYS, commandId := 2, data := [0x02, 0x00, 0x02, 0x06, 0x03, 0x90, 0x15, 0x34, 0x01, 0x02, 0x01, 0x00, 0x00, 0x00], length := some 14, fcs := some 219 }]⟩, []) := by
  decide +kernel

/-- `test_data_received_incomplete_frame`, tests/test_uart.py:75-78. -/
example : (gw [[0x7E, 0x00, 0x00]]).1.api = [] := by decide +kernel

/-- `test_data_received_runt_frame`, tests/test_uart.py:81-84. -/
example : (gw [[0x02, 0x44, 0xC0]]).1.api = [] := by decide +kernel

/-- `test_data_received_extra`, tests/test_uart.py:87-94. -/
example : (gw [[0xFE, 0x0E, 0x61, 0x02, 0x02, 0x00, 0x02, 0x06, 0x03, 0x90, 0x15, 0x34, 0x01, 0x02, 0x01, 0x00, 0x00, 0x00, 0xDB, 0xFE, 0x00]]).1.api.length = 1 ∧
    (gw [[0xFE, 0x0E, 0x61, 0x02, 0x02, 0x00, 0x02, 0x06, 0x03, 0x90, 0x15, 0x34, 0x01, 0x02, 0x01, 0x00, 0x00, 0x00, 0xDB, 0xFE, 0x00]]).1.buffer = [0xFE, 0x00] := by
  decide +kernel

/-- `test_data_received_wrong_checksum`, tests/test_uart.py:97-100. -/
example : (gw [[0xFE, 0x0E, 0x61, 0x02, 0x02, 0x00, 0x02, 0x06, 0x03, 0x90, 0x15, 0x34, 0x01, 0x02, 0x01, 0x00, 0x00, 0x00, 0xDC]]).1.api = [] := by
  decide +kernel

/-- `test_checksum`, tests/test_uart.py:127-131. -/
example : calculateChecksum [0x07, 0x01, 0x00, 0x08, 0x00, 0xAA, 0x00, 0x02] = 166 := by decide +kernel

/-! ## tests/test_types.py -/

/-- `test_from_unpi_frame`, tests/test_types.py:65-80. -/
def versionFrame : Frame := ⟨.SRSP, .SYS, 2, [0x02, 0x00, 0x02, 0x06, 0x03, 0x90, 0x15, 0x34, 0x01], none, none⟩

example : (Obj.fromUnpiFrame versionFrame).map (fun o => (o.command, o.payload)) =
    .ok ("version", [("transportrev", .int 2),
      ("product", .int 0),
      ("majorrel", .int 2),
      ("minorrel", .int 6),
      ("maintrel", .int 3),
      ("revision", .int 20190608)]) := by
  decide +kernel

example : (Obj.fromUnpiFrame versionFrame).bind Obj.toUnpiFrame = .ok versionFrame := by decide +kernel

/-- What `str(obj)` shows, zpi_object.py:196-201. -/
structure Shown where
  commandType : CommandType
  subsystem : Subsystem
  command : String
  sequence : Option Int
  payload : Payload
  deriving DecidableEq

@[inherit_doc Shown] def str (o : Obj) : Shown := ⟨o.commandType, o.subsystem, o.command, o.sequence, o.payload⟩

/-- `test_from_unpi_frame2`, tests/test_types.py:83-100. -/
example : (Obj.fromUnpiFrame ⟨.AREQ, .AF, 129,
      [0x00, 0x00, 0x01, 0x00, 0xBB, 0x6D, 0x01, 0x01, 0x00, 0x73, 0x00, 0x59, 0x43, 0x33, 0x00, 0x00, 0x09, 0x18, 0x01, 0x01, 0x04, 0x00, 0x86, 0x05, 0x00, 0x86, 0xBB, 0x6D, 0x1D], none, none⟩).map
      str =
    .ok ⟨.AREQ, .AF, "incomingMsg", none, [("groupid", .int 0),
      ("clusterid", .int 1),
      ("srcaddr", .int 28091),
      ("srcendpoint", .int 1),
      ("dstendpoint", .int 1),
      ("wasbroadcast", .int 0),
      ("linkquality", .int 115),
      ("securityuse", .int 0),
      ("timestamp", .int 3359577),
      ("transseqnumber", .int 0),
      ("len", .int 9),
      ("data", .bytes [0x18, 0x01, 0x01, 0x04, 0x00, 0x86, 0x05, 0x00, 0x86])]⟩ := by
  decide +kernel

/-- `test_from_unpi_frame3`, tests/test_types.py:187-268. -/
def tradfri : Payload :=
  [("groupid", .int 0),
      ("clusterid", .int 0),
      ("srcaddr", .int 44052),
      ("srcendpoint", .int 1),
      ("dstendpoint", .int 1),
      ("wasbroadcast", .int 0),
      ("linkquality", .int 78),
      ("securityuse", .int 0),
      ("timestamp", .int 2206697),
      ("transseqnumber", .int 0),
      ("len", .int 55),
      ("data", .bytes [0x18, 0x02, 0x01, 0x05, 0x00, 0x00, 0x42, 0x17, 0x54, 0x52, 0x41, 0x44, 0x46, 0x52, 0x49, 0x20, 0x77, 0x69, 0x72, 0x65, 0x6C, 0x65, 0x73, 0x73, 0x20, 0x64, 0x69, 0x6D, 0x6D, 0x65, 0x72, 0x04, 0x00, 0x00, 0x42, 0x0E, 0x49, 0x4B, 0x45, 0x41, 0x20, 0x6F, 0x66, 0x20, 0x53, 0x77, 0x65, 0x64, 0x65, 0x6E, 0x07, 0x00, 0x00, 0x30, 0x03])]

example : (Obj.fromCommand .AF "incomingMsg" tradfri).map str =
    .ok ⟨.AREQ, .AF, "incomingMsg", none, tradfri⟩ := by
  decide +kernel

/-- `test_ieee_addr`, tests/test_types.py:271-278. -/
example : (((Obj.fromUnpiFrame ⟨.SRSP, .UTIL, 0,
      [0x00, 0x0C, 0x25, 0xED, 0x18, 0x00, 0x4B, 0x12, 0x00, 0x00, 0x00, 0x07, 0x09, 0x02, 0x4A, 0xD0, 0x5D, 0x97], none, none⟩).bind
      Obj.toUnpiFrame).map Frame.data) =
    .ok [0x00, 0x0C, 0x25, 0xED, 0x18, 0x00, 0x4B, 0x12, 0x00, 0x00, 0x00, 0x07, 0x09, 0x02, 0x4A, 0xD0, 0x5D, 0x97] := by
  decide +kernel

/-- `test_from_cluster_id`, tests/test_types.py:296-305. -/
example : (Obj.fromCluster 53322 0 0x0002 0 0 3 [0x03, 0x4A, 0xD0]).map
      str =
    .ok ⟨.SREQ, .ZDO, "nodeDescReq", some 3, [("dstaddr", .int 0xD04A), ("nwkaddrofinterest", .int 0xD04A)]⟩ := by
  decide +kernel

/-- `test_from_cluster_id_ZCL`, tests/test_types.py:318-328. -/
example : (Obj.fromCluster 53322 260 0 1 1 123 [0x00, 0x0B, 0x00, 0x04, 0x00, 0x05, 0x00]).map
      str =
    .ok ⟨.SREQ, .AF, "dataRequest", some 123, [("dstaddr", .int 53322),
      ("destendpoint", .int 1),
      ("srcendpoint", .int 1),
      ("clusterid", .int 0),
      ("transid", .int 123),
      ("options", .int 0),
      ("radius", .int 30),
      ("len", .int 7),
      ("data", .bytes [0x00, 0x0B, 0x00, 0x04, 0x00, 0x05, 0x00])]⟩ := by
  decide +kernel

/-- `test_bind_req`, tests/test_types.py:354-418. -/
def bindPayload : Payload :=
  [("dstaddr", .int 25234),
      ("srcaddr", .eui [0x3C, 0x78, 0x27, 0xFE, 0xFF, 0x57, 0x0B, 0x00]),
      ("srcendpoint", .int 1),
      ("clusterid", .int 8),
      ("dstaddrmode", .int 3),
      ("dstaddress", .eui [0x0C, 0x25, 0xED, 0x18, 0x00, 0x4B, 0x12, 0x00]),
      ("dstendpoint", .int 1)]

@[inherit_doc bindPayload] def bindBytes : List UInt8 :=
  [0xFE, 0x17, 0x25, 0x21, 0x92, 0x62, 0x3C, 0x78, 0x27, 0xFE, 0xFF, 0x57, 0x0B, 0x00, 0x01, 0x08, 0x00, 0x03, 0x0C, 0x25, 0xED, 0x18, 0x00, 0x4B, 0x12, 0x00, 0x01, 0x53]

example : (Obj.fromCluster 0x6292 0 0x0021 0 0 2
      [0x02, 0x3C, 0x78, 0x27, 0xFE, 0xFF, 0x57, 0x0B, 0x00, 0x01, 0x08, 0x00, 0x03, 0x0C, 0x25, 0xED, 0x18, 0x00, 0x4B, 0x12, 0x00, 0x01]).map
      str =
    .ok ⟨.SREQ, .ZDO, "bindReq", some 2, bindPayload⟩ := by
  decide +kernel

example : ((Obj.fromCluster 0x6292 0 0x0021 0 0 2
      [0x02, 0x3C, 0x78, 0x27, 0xFE, 0xFF, 0x57, 0x0B, 0x00, 0x01, 0x08, 0x00, 0x03, 0x0C, 0x25, 0xED, 0x18, 0x00, 0x4B, 0x12, 0x00, 0x01]).bind
      Obj.toUnpiFrame).bind Frame.toBuffer = .ok bindBytes := by
  decide +kernel

/-- `test_bind_req_serialize`, tests/test_types.py:421-480. -/
example : (Obj.fromCommand .ZDO "bindReq" bindPayload).map
      str =
    .ok ⟨.SREQ, .ZDO, "bindReq", none, bindPayload⟩ := by
  decide +kernel

example : ((Obj.fromCommand .ZDO "bindReq" bindPayload).bind Obj.toUnpiFrame).bind Frame.toBuffer =
    .ok bindBytes := by
  decide +kernel

/-- `test_mgmt_lqi_rsp`, tests/test_types.py:484-513. -/
example : (Obj.fromUnpiFrame ⟨.AREQ, .ZDO, 177,
      [0x00, 0x00, 0x00, 0x14, 0x00, 0x03, 0xDD, 0xDD, 0xDD, 0xDD, 0xDD, 0xDD, 0xDD, 0xDD, 0x1D, 0x24, 0x26, 0xFE, 0xFF, 0x57, 0xB4, 0x14, 0xEF, 0x3E, 0x15, 0x02, 0x01, 0x00, 0xDD, 0xDD, 0xDD, 0xDD, 0xDD, 0xDD, 0xDD, 0xDD, 0x9A, 0x74, 0x6B, 0x03, 0x00, 0x8D, 0x15, 0x00, 0x7D, 0x30, 0x12, 0x02, 0x01, 0x60, 0xDD, 0xDD, 0xDD, 0xDD, 0xDD, 0xDD, 0xDD, 0xDD, 0x8D, 0x28, 0x2C, 0x03, 0x00, 0x8D, 0x15, 0x00, 0x7D, 0xCC, 0x12, 0x02, 0x01, 0x37],
      some 72, some 34⟩).map str =
    .ok ⟨.AREQ, .ZDO, "mgmtLqiRsp", none, [("srcaddr", .int 0),
      ("status", .int 0),
      ("neighbortableentries", .int 20),
      ("startindex", .int 0),
      ("neighborlqilistcount", .int 3),
      ("neighborlqilist", .nbrs [⟨[0xDD, 0xDD, 0xDD, 0xDD, 0xDD, 0xDD, 0xDD, 0xDD], [0x1D, 0x24, 0x26, 0xFE, 0xFF, 0x57, 0xB4, 0x14], 0x3EEF, 1, 1, 1, 2, 1, 0⟩,
        ⟨[0xDD, 0xDD, 0xDD, 0xDD, 0xDD, 0xDD, 0xDD, 0xDD], [0x9A, 0x74, 0x6B, 0x03, 0x00, 0x8D, 0x15, 0x00], 0x307D, 2, 0, 1, 2, 1, 96⟩,
        ⟨[0xDD, 0xDD, 0xDD, 0xDD, 0xDD, 0xDD, 0xDD, 0xDD], [0x8D, 0x28, 0x2C, 0x03, 0x00, 0x8D, 0x15, 0x00], 0xCC7D, 2, 0, 1, 2, 1, 55⟩])]⟩ := by
  decide +kernel

/-- `test_mgmt_nwk_update_notify`, tests/test_types.py:516-533. -/
example : (Obj.fromUnpiFrame ⟨.AREQ, .ZDO, 184,
      [0xE9, 0xC0, 0x00, 0x00, 0xF8, 0xFF, 0x07, 0x14, 0x00, 0x0F, 0x00, 0x10, 0xD6, 0xAC, 0xCC, 0xB0, 0xB5, 0xA2, 0xB2, 0xA5, 0xB3, 0xA5, 0xA2, 0xA9, 0xA1, 0xA1, 0xA5, 0xAE], some 28, some 211⟩).map
      str =
    .ok ⟨.AREQ, .ZDO, "mgmtNwkUpdateNotify", none, [("srcaddr", .int 49385),
      ("status", .int 0),
      ("scanchannels", .int 134215680),
      ("totaltransmissions", .int 20),
      ("transmissionfailures", .int 15),
      ("channelcount", .int 16),
      ("energyvalues", .ints [214, 172, 204, 176, 181, 162, 178, 165, 179, 165, 162, 169, 161, 161, 165, 174])]⟩ := by
  decide +kernel

/-- `test_flow_control`, tests/test_uart.py:134-148. -/
example : [some "software", some "hardware", none].map (fun control =>
      (Conn.portSettings [] ⟨"/dev/null", 115200, control⟩).map (fun s => (s.xonxoff, s.rtscts))) =
    [.ok (true, false), .ok (false, true), .ok (false, false)] := by
  decide +kernel

/-! ## tests/test_api.py -/

/-- `test_node_desc`, tests/test_api.py:185-199: the request is written once, and returns the response. -/
def nodeDesc : Option Obj :=
  (Obj.fromCommand .ZDO "nodeDescReq" [("dstaddr", .int 53322), ("nwkaddrofinterest", .int 0)]).toOption

example : nodeDesc.map (fun o =>
      let s := Api.init.run [.setUart true, .submit o none none, .frame ⟨.SRSP, .ZDO, 2, [0x00], none, none⟩, .wake 0]
      ((s.log.filter (fun e => match e with | .sent _ _ => true | _ => false)).length,
        (s.tasks 0).map (fun k => match k.pc with | .done (.ok (some r)) => some (str r) | _ => none))) =
    some (1, some (some ⟨.SRSP, .ZDO, "nodeDescReq", none, [("status", .int 0)]⟩)) := by
  decide +kernel

/-! ## tests/test_application.py -/

/-- `test_join`, tests/test_application.py:71-94: nothing happens, and nothing is raised. -/
example :
    let a : App := {}
    let r := a.handleZnp ⟨.AREQ, .ZDO, "tcDeviceInd", 202, [("nwkaddr", .int 27441),
      ("extaddr", .eui [0x07, 0xA3, 0xC3, 0x02, 0x00, 0x8D, 0x15, 0x00]), ("parentaddr", .int 0)], [], none⟩
    r = ⟨a, [], none⟩ ∧
    a.handleZnp ⟨.AREQ, .AF, "incomingMsg", 129,
      [("groupid", .int 0),
      ("clusterid", .int 6),
      ("srcaddr", .int 27441),
      ("srcendpoint", .int 1),
      ("dstendpoint", .int 1),
      ("wasbroadcast", .int 0),
      ("linkquality", .int 136),
      ("securityuse", .int 0),
      ("timestamp", .int 15458350),
      ("transseqnumber", .int 0),
      ("len", .int 7),
      ("data", .bytes [0x18, 0x0C, 0x0A, 0x00, 0x00, 0x10, 0x00])], [], none⟩ = ⟨a, [], none⟩ := by
  decide +kernel

/-- `device_annce`, tests/test_application.py:139-151: the device is in the table afterwards. -/
def annce : Handled :=
  App.handleZnp {} ⟨.AREQ, .ZDO, "endDeviceAnnceInd", 193, [("srcaddr", .int 53322), ("nwkaddr", .int 53322),
    ("ieeeaddr", .eui [0x00, 0x15, 0x8D, 0x00, 0x02, 0x4B, 0xE5, 0x41]), ("capabilities", .int 132)], [], none⟩

example : annce.raised = none ∧
    annce.app.deviceByNwk (some (.int 53322)) = some ⟨[0x00, 0x15, 0x8D, 0x00, 0x02, 0x4B, 0xE5, 0x41], 53322⟩ := by
  decide +kernel

/-- The fixture `app`, and a call of the application to which the API's `request_raw` returns at once. -/
def called (c : Call) (rsp : Frame) : AppSys :=
  AppSys.init.run [.newApi, .newSemaphore 0, .call c, .enter 0, .api 1 (.frame rsp), .api 1 (.wake 0),
    .api 1 (.tick 200), .wakeUp 0]

@[inherit_doc called] def ended (s : AppSys) : List (Option Result) :=
  s.tasks.map (fun k => match k.pc with | .done r => some r | _ => none)

/-- `test_request`, tests/test_application.py:154-172. -/
def nodeDescCall : Call := .request 53322 0 0x0002 0 0 1 [0x01, 0xA2, 0x2E] true

example : ((called nodeDescCall ⟨.SRSP, .ZDO, 2, [0x00], none, none⟩).api 1).waiters.length = 1 ∧
    nodeDescCall.obj.map str = .ok ⟨.SREQ, .ZDO, "nodeDescReq", some 1,
      [("dstaddr", .int 0xD04A), ("nwkaddrofinterest", .int 0x2EA2)]⟩ ∧
    ended (called nodeDescCall ⟨.SRSP, .ZDO, 2, [0x00], none, none⟩) =
      [some (.returned 0 "message send success")] := by
  decide +kernel

/-- `test_mrequest`, tests/test_application.py:175-191. -/
def multicast : Call := .mrequest 2 260 4 1 39 [0x01, 0x27, 0x00] 0

example : ((called multicast ⟨.SRSP, .AF, 2, [0x00], none, none⟩).api 1).waiters.length = 1 ∧
    multicast.obj.map str = .ok ⟨.SREQ, .AF, "dataRequestExt", some 39,
      [("dstaddrmode", .int 1),
      ("dstaddr", .int 2),
      ("destendpoint", .int 255),
      ("dstpanid", .int 0),
      ("srcendpoint", .int 1),
      ("clusterid", .int 4),
      ("transid", .int 39),
      ("options", .int 0),
      ("radius", .int 30),
      ("len", .int 3),
      ("data", .bytes [0x01, 0x27, 0x00])]⟩ ∧
    ended (called multicast ⟨.SRSP, .AF, 2, [0x00], none, none⟩) =
      [some (.returned 0 "message send success")] := by
  decide +kernel

/-- `test_broadcast`, tests/test_application.py:194-211. -/
def permitBroadcast : Call := .broadcast 0 54 0 0 0 45 [0x2D, 0x3C, 0x00] 0xFFFC

example : ((called permitBroadcast ⟨.SRSP, .ZDO, 54, [0x00], none, none⟩).api 1).waiters.length = 0 ∧
    permitBroadcast.obj.map str = .ok ⟨.SREQ, .ZDO, "mgmtPermitJoinReq", some 45,
      [("addrmode", .int 15), ("dstaddr", .int 0xFFFC), ("duration", .int 60), ("tcsignificance", .int 0)]⟩ ∧
    ended (called permitBroadcast ⟨.SRSP, .ZDO, 54, [0x00], none, none⟩) =
      [some (.returned 0 "broadcast send success")] := by
  decide +kernel

/-- `test_get_node_descriptor`, tests/test_application.py:223-258: the response reaches zigpy under the number of
the request, with the manufacturer code (1234, bytes 7 and 8 of the message). -/
def nodeDescRsp : Except PyErr Frame :=
  (Obj.fromCommand .ZDO "nodeDescRsp"
    [("srcaddr", .int 53322),
      ("status", .int 0),
      ("nwkaddr", .int 0),
      ("logicaltype_cmplxdescavai_userdescavai", .int 0),
      ("apsflags_freqband", .int 0),
      ("maccapflags", .int 0),
      ("manufacturercode", .int 1234),
      ("maxbuffersize", .int 0),
      ("maxintransfersize", .int 0),
      ("servermask", .int 0),
      ("maxouttransfersize", .int 0),
      ("descriptorcap", .int 0)]).bind
    Obj.toUnpiFrame

example : nodeDescRsp.map (fun f =>
      (receive ((called nodeDescCall ⟨.SRSP, .ZDO, 2, [0x00], none, none⟩).api 1) annce.app f).2.effects.map (fun e =>
        match e with
        | .message dev _ cluster _ _ data => some (dev.nwk, cluster, data)
        | _ => none)) =
    .ok [none, some (53322, .int 0x8002,
      .bytes [0x01, 0x00, 0x00, 0x00, 0x00, 0x00, 0x00, 0xD2, 0x04, 0x00, 0x00, 0x00, 0x00, 0x00, 0x00, 0x00, 0x00])] := by
  decide +kernel

end Zcc.ProjectTests
