import Verif.Model.Api

/-!
# The application: /repo/zigpy_cc/zigbee/application.py, message handling

zigpy is not part of the repository. Its three methods that `handle_znp` uses are modelled on a
device table (`self.devices`, a dict from IEEE address to device): `get_device` looks a device up by
IEEE address, or takes the first one with the given network address, and raises `KeyError` if there
is none; `handle_join` sets the network address of a known device, or adds a new one;
`radio_details` and `handle_message` only leave an entry in the list of effects.
-/

namespace Zcc

/-- What zigpy's device object contributes here: its addresses. -/
structure Device where
  ieee : List UInt8
  nwk : Int
  deriving DecidableEq, Repr, Inhabited

/-- The part of `ControllerApplication` (application.py:54-67) that `handle_znp` uses: `devices` of
zigpy and `self.version["product"]` (`none` while `self.version` is the empty dict of line 67). -/
structure App where
  devices : List Device := []
  product : Option Int := none
  deriving DecidableEq, Repr, Inhabited

/-- Calls that leave the application: into zigpy, or a new task for the API. -/
inductive Effect where
  /-- `handle_join(nwk, ieee, parent)` -/
  | join (nwk : Int) (ieee : List UInt8) (parent : Int)
  /-- `request(UTIL, "ledControl", {"ledid": 3, "mode": mode})` is started, application.py:398-404 -/
  | led (mode : Int)
  /-- `device.radio_details(lqi, rssi)` -/
  | radioDetails (dev : Device) (lqi : Val) (rssi : Int)
  /-- `handle_message(device, profile, cluster, src_ep, dst_ep, data)` -/
  | message (dev : Device) (profile : Int) (cluster srcEp dstEp data : Val)
  deriving DecidableEq, Repr, Inhabited

/-- What a call of `handle_znp` leaves behind: new state, effects in order, and the exception, if
it raised one. -/
structure Handled where
  app : App
  effects : List Effect
  raised : Option PyErr := none
  deriving DecidableEq, Repr, Inhabited

/-- `ZDOCmd` numbers of zigpy, and the prefix lengths: `REQUESTS`, application.py:29-41. -/
def REQUESTS : List (String × Int × Nat) :=
  [("nwkAddrReq", 0x0000, 0),
   ("ieeeAddrReq", 0x0001, 0),
   ("matchDescReq", 0x0006, 2),
   ("endDeviceAnnceInd", 0x0013, 2),
   ("mgmtLqiRsp", 0x8031, 2),
   ("mgmtPermitJoinReq", 0x0036, 3),
   ("mgmtPermitJoinRsp", 0x8036, 2),
   ("nodeDescRsp", 0x8002, 2),
   ("activeEpRsp", 0x8005, 2),
   ("simpleDescRsp", 0x8004, 2),
   ("bindRsp", 0x8021, 2)]

/-- `IGNORED`, application.py:43-51. -/
def IGNORED : List String :=
  ["bdbComissioningNotifcation", "dataConfirm", "leaveInd", "resetInd", "srcRtgInd",
   "stateChangeInd", "tcDeviceInd"]

/-- `ZnpVersion`, types.py:37-40. -/
def zStack12 : Int := 0
@[inherit_doc zStack12] def zStack3x0 : Int := 1
@[inherit_doc zStack12] def zStack30x : Int := 2

/-- `LedMode.Off` and `LedMode.On`, types.py:29-31. -/
def ledOff : Int := 0
@[inherit_doc ledOff] def ledOn : Int := 1

/-- zigpy's `get_device(ieee=...)`, called at application.py:382. -/
def App.deviceByIeee (a : App) (ieee : List UInt8) : Option Device :=
  a.devices.find? (fun d => decide (d.ieee = ieee))

/-- zigpy's `get_device(nwk=...)`, called at application.py:384: the first device whose network
address equals the argument, which can be any value or `None`. -/
def App.deviceByNwk (a : App) (nwk : Option Val) : Option Device :=
  a.devices.find? (fun d => decide (nwk = some (.int d.nwk)))

/-- zigpy's `handle_join`, called at application.py:340. -/
def App.handleJoin (a : App) (nwk : Int) (ieee : List UInt8) : App :=
  if a.devices.any (fun d => decide (d.ieee = ieee)) then
    { a with devices := a.devices.map (fun d => if d.ieee = ieee then { d with nwk } else d) }
  else { a with devices := a.devices ++ [⟨ieee, nwk⟩] }

/-- `set_led`, application.py:396-406: the new task, or `KeyError` of line 397. The LED task is
created in a `try`; without an API (`self._api` is `None`) the exception is only logged, but then
no message arrives either. -/
def App.setLed (a : App) (mode : Int) : List Effect × Option PyErr :=
  match a.product with
  | none => ([], some (.keyError "product"))
  | some p => (if p ≠ zStack3x0 then [.led mode] else [], none)

/-- Python truthiness of a payload value (application.py:381). -/
def Val.truthy : Val → Bool
  | .int v => v != 0
  | .bytes b => !b.isEmpty
  | .eui b => !b.isEmpty
  | .ints l => !l.isEmpty
  | .nbrs l => !l.isEmpty

/-- application.py:380-389: the device a message came from. An `ieeeaddr` that is no EUI64 is in
no table (`KeyError`). -/
def App.sender (a : App) (nwk ieee : Option Val) : Option Device :=
  match ieee with
  | some v =>
    if v.truthy then
      match v with
      | .eui b => a.deviceByIeee b
      | _ => none
    else a.deviceByNwk nwk
  | none => a.deviceByNwk nwk

/-- application.py:380-394: find the device and hand the message to zigpy. -/
def App.forward (a : App) (nwk ieee : Option Val) (cluster srcEp dstEp data lqi : Val) :
    List Effect :=
  match a.sender nwk ieee with
  | none => []
  | some dev => [.radioDetails dev lqi 0, .message dev zhaProfile cluster srcEp dstEp data]

/-- `bytes([obj.sequence])`, application.py:358: `ValueError` outside 0..255. -/
def tsnByte (n : Int) : Except PyErr UInt8 :=
  if 0 ≤ n ∧ n < 256 then .ok (UInt8.ofNat n.toNat) else .error .valueError

/-- application.py:361-369: the message parts of an AF message, in the order in which they are
looked up (`KeyError` if one is missing). -/
def afParts (p : Payload) : Except PyErr (Val × Val × Val × Val × Val) := do
  let cluster ← dictGet p "clusterid"
  let srcEp ← dictGet p "srcendpoint"
  let dstEp ← dictGet p "dstendpoint"
  let data ← dictGet p "data"
  let lqi ← dictGet p "linkquality"
  return (cluster, srcEp, dstEp, data, lqi)

/-- application.py:343-394, the code after the announcement has been dealt with: `o` is the message
(with its sequence), `frameData` is `frame.data`, `nwk` and `ieee` the local variables. -/
def App.dispatch (a : App) (o : Obj) (frameData : List UInt8) (nwk ieee : Option Val) : Handled :=
  if o.command ∈ IGNORED then ⟨a, [], none⟩
  else
    -- lines 346-347
    let led := if o.subsystem = .ZDO ∧ o.command = "mgmtPermitJoinRsp" then a.setLed ledOn
      else ([], none)
    match led with
    | (e1, some err) => ⟨a, e1, some err⟩
    | (e1, none) =>
      if o.subsystem = .ZDO ∧ o.command = "permitJoinInd" then
        match dictGet o.payload "duration" with
        | .error err => ⟨a, e1, some err⟩
        | .ok v =>
          let r := a.setLed (if v = .int 0 then ledOff else ledOn)
          ⟨a, e1 ++ r.1, r.2⟩
      else if o.subsystem = .ZDO ∧ (REQUESTS.lookup o.command).isSome then
        match o.sequence, REQUESTS.lookup o.command with
        | some n, some (cluster, prefixLength) =>
          match tsnByte n with
          | .error err => ⟨a, e1, some err⟩
          | .ok tsn =>
            ⟨a, e1 ++ a.forward nwk ieee (.int cluster) (.int 0) (.int 0)
              (.bytes (tsn :: frameData.drop prefixLength)) (.int 0), none⟩
        | _, _ => ⟨a, e1, none⟩
      else if o.subsystem = .AF ∧ (o.command = "incomingMsg" ∨ o.command = "incomingMsgExt") then
        match afParts o.payload with
        | .error err => ⟨a, e1, some err⟩
        | .ok (cluster, srcEp, dstEp, data, lqi) =>
          ⟨a, e1 ++ a.forward nwk ieee cluster srcEp dstEp data lqi, none⟩
      else ⟨a, e1, none⟩

/-- `handle_znp`, application.py:323-394. The announcement's addresses are an integer and an EUI64
by their declared types; for anything else zigpy's `EUI64(ieee)` raises `TypeError`. -/
def App.handleZnp (a : App) (o : Obj) : Handled :=
  if o.commandType ≠ .AREQ then ⟨a, [], none⟩
  else
    match o.toUnpiFrame with
    | .error e => ⟨a, [], some e⟩
    | .ok frame =>
      let nwk := o.payload.lookup "srcaddr"
      let ieee := o.payload.lookup "ieeeaddr"
      if o.subsystem = .ZDO ∧ o.command = "endDeviceAnnceInd" then
        match dictGet o.payload "nwkaddr" with
        | .error e => ⟨a, [], some e⟩
        | .ok nwk =>
          match nwk, ieee with
          | .int n, some (.eui b) =>
            let r := (a.handleJoin n b).dispatch { o with sequence := some 0 } frame.data
              (some nwk) ieee
            { r with effects := .join n b 0 :: r.effects }
          | _, _ => ⟨a, [], some .typeError⟩
      else a.dispatch o frame.data nwk ieee

/-- `API.data_received` as a whole, api.py:233-257, for an API with an application: the waiters,
then `handle_znp` (lines 251-252). -/
def receive (s : Api) (a : App) (f : Frame) : Api × Handled :=
  match s.dataReceived f with
  | (s, .error e) => (s, ⟨a, [], some e⟩)
  | (s, .ok o) => (s, a.handleZnp o)

end Zcc
