import Verif.Model.Buffalo
import Verif.Model.Uart
import Verif.Model.Definition

/-!
# Command objects: /repo/zigpy_cc/zpi_object.py
-/

namespace Zcc

/-- A parameter list of the command table. -/
abbrev Params := List (String × ParameterType)

/-- `ZpiObject`, zpi_object.py:27-44. -/
structure Obj where
  commandType : CommandType
  subsystem : Subsystem
  command : String
  commandId : Nat
  payload : Payload
  parameters : Params
  sequence : Option Int := none
  deriving DecidableEq, Repr, Inhabited

/-- `is_reset_command`, zpi_object.py:46-49. -/
def Obj.isResetCommand (o : Obj) : Bool :=
  (o.command == "resetReq" && o.subsystem == .SYS) ||
  (o.command == "systemReset" && o.subsystem == .SAPI)

/-- The loop of `to_unpi_frame`, zpi_object.py:52-56: the bytes of all parameters; `KeyError` if
the payload lacks one. -/
def writeParameters (payload : Payload) : Params → Except PyErr (List UInt8)
  | [] => .ok []
  | p :: ps => do
    let value ← dictGet payload p.1
    let a ← writeParameter p.2 value
    let b ← writeParameters payload ps
    return a ++ b

/-- `to_unpi_frame`, zpi_object.py:51-60. -/
def Obj.toUnpiFrame (o : Obj) : Except PyErr Frame := do
  let data ← writeParameters o.payload o.parameters
  return { commandType := o.commandType, subsystem := o.subsystem, commandId := o.commandId, data }

/-- `BufferAndListTypes`, zpi_object.py:9-24. -/
def bufferAndListTypes : List ParameterType :=
  [.BUFFER, .BUFFER8, .BUFFER16, .BUFFER18, .BUFFER32, .BUFFER42, .BUFFER100,
   .LIST_UINT16, .LIST_ROUTING_TABLE, .LIST_BIND_TABLE, .LIST_NEIGHBOR_LQI,
   .LIST_NETWORK, .LIST_ASSOC_DEV, .LIST_UINT8]

/-- `isinstance(length, int)` of zpi_object.py:178 and the length it stands for. -/
def asLength : Option Val → Option Nat
  | some (.int v) => some v.toNat
  | _ => none

/-- The loop of `read_parameters`, zpi_object.py:169-194. `res` is the dict built so far,
`length` the previously read value. `start_index` only matters for `LIST_ASSOC_DEV`, which
`read_parameter` refuses anyway; it is dropped. -/
def readParametersLoop (res : Payload) (length : Option Val) (buf : List UInt8) :
    Params → Except PyErr Payload
  | [] => .ok res
  | p :: ps => do
    let optLength := if p.2 ∈ bufferAndListTypes then asLength length else none
    let (v, buf) ← readParameter p.1 p.2 optLength buf
    readParametersLoop (dictSet res p.1 v) (some v) buf ps

/-- `read_parameters`, zpi_object.py:166-194. -/
def readParameters (data : List UInt8) (parameters : Params) : Except PyErr Payload :=
  readParametersLoop [] none data parameters

/-- `Definition[subsystem]`: `KeyError` for a subsystem without entry. -/
def definitionGet (s : Subsystem) : Except PyErr (List Cmd) :=
  match definition s with
  | some l => .ok l
  | none => .error (.keyError "subsystem")

/-- `next(c for c in cmds if ...)`: `StopIteration` if there is none. -/
def nextCmd (cmds : List Cmd) (p : Cmd → Bool) : Except PyErr Cmd :=
  match cmds.find? p with
  | some c => .ok c
  | none => .error .stopIteration

/-- `cmd["response"]`: `KeyError` if the command has none. -/
def Cmd.responseGet (c : Cmd) : Except PyErr Params :=
  match c.response with
  | some r => .ok r
  | none => .error (.keyError "response")

/-- The choice of the parameter list by message type, zpi_object.py:65-67, 76-80 and 116-118. -/
def Cmd.parametersFor (c : Cmd) (t : CommandType) : Except PyErr Params :=
  if t = .SRSP then c.responseGet else .ok c.request

/-- `from_command`, zpi_object.py:62-69. -/
def Obj.fromCommand (subsystem : Subsystem) (command : String) (payload : Payload) :
    Except PyErr Obj := do
  let cmds ← definitionGet subsystem
  let cmd ← nextCmd cmds (fun c => c.name == command)
  let parameters ← cmd.parametersFor cmd.type
  return { commandType := cmd.type, subsystem, command := cmd.name, commandId := cmd.id,
           payload, parameters }

/-- `from_unpi_frame`, zpi_object.py:71-90. -/
def Obj.fromUnpiFrame (frame : Frame) : Except PyErr Obj := do
  let cmds ← definitionGet frame.subsystem
  let cmd ← nextCmd cmds (fun c => c.id == frame.commandId)
  let parameters ← cmd.parametersFor frame.commandType
  let payload ← readParameters frame.data parameters
  return { commandType := frame.commandType, subsystem := frame.subsystem, command := cmd.name,
           commandId := cmd.id, payload, parameters }

/-- `zha.PROFILE_ID` of zigpy (260), used in zpi_object.py:106 and application.py:331. -/
def zhaProfile : Int := 260

/-- `BroadcastAddress.ALL_ROUTERS_AND_COORDINATOR` of zigpy, used in zpi_object.py:149 and
application.py:316. -/
def allRoutersAndCoordinator : Int := 0xFFFC

/-- `from_cluster`, zpi_object.py:92-164. `nwk`, `cluster`, ... are Python ints. -/
def Obj.fromCluster (nwk profile cluster srcEp dstEp sequence : Int) (data : List UInt8)
    (radius : Int := 30) (addrMode : Option Int := none) : Except PyErr Obj := do
  let (subsystem, cmd) ←
    if profile = zhaProfile then do
      let cmds ← definitionGet .AF
      let cmd ← nextCmd cmds (fun c => c.id == (if addrMode.isNone then 1 else 2))
      pure (Subsystem.AF, cmd)
    else do
      let cmds ← definitionGet .ZDO
      let cmd ← nextCmd cmds (fun c => (c.id : Int) == cluster)
      pure (Subsystem.ZDO, cmd)
  let parameters ← cmd.parametersFor cmd.type
  let payload ←
    if cmd.name = "dataRequest" then
      pure [("dstaddr", .int nwk), ("destendpoint", .int dstEp), ("srcendpoint", .int srcEp),
            ("clusterid", .int cluster), ("transid", .int sequence), ("options", .int 0),
            ("radius", .int radius), ("len", .int data.length), ("data", .bytes data)]
    else if cmd.name = "dataRequestExt" then
      -- `addr_mode` cannot be `None` here (line 108); `getD 0` is never used
      pure [("dstaddrmode", .int (addrMode.getD 0)), ("dstaddr", .int nwk),
            ("destendpoint", .int dstEp), ("dstpanid", .int 0), ("srcendpoint", .int srcEp),
            ("clusterid", .int cluster), ("transid", .int sequence), ("options", .int 0),
            ("radius", .int radius), ("len", .int data.length), ("data", .bytes data)]
    else if cmd.name = "mgmtPermitJoinReq" then do
      let addrmode : UInt8 := if nwk = allRoutersAndCoordinator then 15 else 2
      let n ← writeInt nwk 2
      readParameters (addrmode :: (n ++ data.drop 1)) parameters
    else do
      let n ← writeInt nwk 2
      readParameters (n ++ data.drop 1) parameters
  return { commandType := cmd.type, subsystem, command := cmd.name, commandId := cmd.id,
           payload, parameters, sequence := some sequence }

end Zcc
