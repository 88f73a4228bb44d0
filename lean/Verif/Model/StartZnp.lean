import Verif.Model.App

/-!
# Start-up: /repo/zigpy_cc/zigbee/start_znp.py, nv_items.py, application.py:88-137

Start-up is one coroutine. What it does between two `await`s depends only on what it was told, so
it is modelled as a tree of operations on its surroundings (`Prog`): each node is an operation, and
what comes next depends on how the operation ended. Nothing is assumed here about the
surroundings; every combination of answers is a possible history (`Prog.feed`).
-/

namespace Zcc

/-- The operations of start-up on its surroundings. -/
inductive Op where
  /-- `await znp.request(subsystem, command, payload, None, expected_status)`, api.py:113-117 -/
  | request (sub : Subsystem) (command : String) (payload : Payload) (expected : Option (List Int))
  /-- `asyncio.create_task(znp.request(subsystem, command, payload))`, start_znp.py:154-158 and
  application.py:400-404 -/
  | spawn (sub : Subsystem) (command : String) (payload : Payload)
  /-- `znp.wait_for(...)`, api.py:194-231: registers a waiter -/
  | waitFor (m : Matcher) (timeout : Nat)
  /-- `await waiter.wait()`, api.py:46-47, for the waiter with this id -/
  | wait (w : Nat)
  /-- `await API.new(self, self._config[CONF_DEVICE])`, application.py:92 -/
  | connect
  /-- `self._semaphore = asyncio.Semaphore(n)`, application.py:104 -/
  | semaphore (n : Nat)
  /-- `self._ieee`, `self._nwk` and the coordinator's entry in `self.devices` are set,
  application.py:113-117 -/
  | coordinator (ieee nwk : Val)
  deriving DecidableEq

/-- What an operation returns if it does not raise: `request` the response (or `None`), `waitFor`
the waiter's id, `wait` the message. -/
def Op.Ans : Op → Type
  | .request .. => Option Obj
  | .spawn .. => Unit
  | .waitFor .. => Nat
  | .wait _ => Obj
  | .connect => Unit
  | .semaphore _ => Unit
  | .coordinator .. => Unit

/-- A coroutine: returned, raised, or suspended in an operation. -/
inductive Prog (α : Type) where
  | ret (a : α)
  | raise (e : PyErr)
  | call (op : Op) (k : Except PyErr op.Ans → Prog α)

namespace Prog

/-- Sequencing; an exception skips the rest. -/
def bind {α β : Type} : Prog α → (α → Prog β) → Prog β
  | .ret a, f => f a
  | .raise e, _ => .raise e
  | .call op k, f => .call op (fun r => bind (k r) f)

instance : Monad Prog where
  pure := .ret
  bind := bind

/-- `try: p except ...: h`; `h` returns `none` for exceptions that no `except` clause names. -/
def tryExcept {α : Type} : Prog α → (PyErr → Option (Prog α)) → Prog α
  | .ret a, _ => .ret a
  | .raise e, h => (h e).getD (.raise e)
  | .call op k, h => .call op (fun r => tryExcept (k r) h)

/-- One operation; its exception propagates. -/
def op (o : Op) : Prog o.Ans :=
  .call o (fun r => match r with
    | .ok a => .ret a
    | .error e => .raise e)

/-- `await znp.request(...)`. -/
def request (sub : Subsystem) (command : String) (payload : Payload)
    (expected : Option (List Int) := none) : Prog (Option Obj) :=
  op (.request sub command payload expected)

/-- Code that may raise. -/
def lift {α : Type} : Except PyErr α → Prog α
  | .ok a => .ret a
  | .error e => .raise e

/-- `result.payload[key]`: `None` has no attribute `payload`. -/
def field (result : Option Obj) (key : String) : Prog Val :=
  match result with
  | none => .raise .attributeError
  | some o => lift (dictGet o.payload key)

end Prog

/-- One operation that has ended, and how. -/
structure Act where
  op : Op
  ans : Except PyErr op.Ans

/-- The frame that an operation sends to the radio: `request` builds the command object (api.py:116,
zpi_object.py:62-69) and encodes it (api.py:128, zpi_object.py:51-60); nothing is sent if that
raises, and nothing by the other operations. -/
def Op.frame : Op → Option Frame
  | .request sub command payload _ => ((Obj.fromCommand sub command payload).bind Obj.toUnpiFrame).toOption
  | .spawn sub command payload => ((Obj.fromCommand sub command payload).bind Obj.toUnpiFrame).toOption
  | _ => none

/-- What becomes of a coroutine when its operations end as listed; `none` if these are not its
operations. Every cut-off point of every execution is a list of this kind. -/
def Prog.feed {α : Type} : Prog α → List Act → Option (Prog α)
  | p, [] => some p
  | .call op k, a :: as => if h : a.op = op then (k (h ▸ a.ans)).feed as else none
  | _, _ :: _ => none

/-- `NetworkOptions`, types.py:101-118. `networkKey` is a `KeyData` (16 bytes), `panID` a `PanId`
(16 bit), `extendedPanID` an `ExtendedPanId` (8 bytes, in the order in which it is serialised),
`channelList` a `Channels` bit map (32 bit). -/
structure Options where
  networkKeyDistribute : Bool
  networkKey : List UInt8
  panID : UInt16
  extendedPanID : List UInt8
  channelList : UInt32
  deriving DecidableEq, Repr, Inhabited

/-- The network section of the configuration as `NetworkOptions` reads it (zigpy's `SCHEMA_NETWORK`):
each entry is a value of its type or `None`. -/
structure NetworkConfig where
  networkKey : Option (List UInt8)
  panId : Option UInt16
  extendedPanId : Option (List UInt8)
  channels : Option UInt32
  deriving DecidableEq, Repr, Inhabited

/-- `x or y`: `y` if `x` is `None` or false in Python. -/
def pyOr {α : Type} (truthy : α → Bool) : Option α → α → α
  | some x, y => if truthy x then x else y
  | none, y => y

/-- `NetworkOptions.__init__`, types.py:107-118. `KeyData` and `ExtendedPanId` are lists (false if
empty), `PanId` and `Channels` integers (false if 0). `Channels.from_channel_list([11])` is the bit
map with bit 11. -/
def networkOptions (config : NetworkConfig) : Options where
  networkKeyDistribute := false
  networkKey := pyOr (fun k => !k.isEmpty) config.networkKey
    [1, 3, 5, 7, 9, 11, 13, 15, 0, 2, 4, 6, 8, 10, 12, 13]
  panID := pyOr (fun p => p != 0) config.panId 0x1A62
  extendedPanID := pyOr (fun p => !p.isEmpty) config.extendedPanId
    [0xDD, 0xDD, 0xDD, 0xDD, 0xDD, 0xDD, 0xDD, 0xDD]
  channelList := pyOr (fun c => c != 0) config.channels 0x800

/-- `NvItemsIds`, common.py:7, 21, 56-57, 74-75, 78, 81, 109, 117-118. -/
def nvStartupOption : Int := 3
@[inherit_doc nvStartupOption] def nvExtendedPanId : Int := 45
@[inherit_doc nvStartupOption] def nvPrecfgkey : Int := 98
@[inherit_doc nvStartupOption] def nvPrecfgkeysEnable : Int := 99
@[inherit_doc nvStartupOption] def nvPanid : Int := 131
@[inherit_doc nvStartupOption] def nvChanlist : Int := 132
@[inherit_doc nvStartupOption] def nvLogicalType : Int := 135
@[inherit_doc nvStartupOption] def nvZdoDirectCb : Int := 143
@[inherit_doc nvStartupOption] def nvLegacyTclkTableStart : Int := 257
@[inherit_doc nvStartupOption] def nvHasConfiguredZstack1 : Int := 3840
@[inherit_doc nvStartupOption] def nvHasConfiguredZstack3 : Int := 96

namespace Items

/-- The item id of nv_items.py:11-13 and 22-24. -/
def hasConfiguredId (version : Int) : Int :=
  if version = zStack12 then nvHasConfiguredZstack1 else nvHasConfiguredZstack3

/-- nv_items.py:8-17. -/
def znpHasConfiguredInit (version : Int) : Payload :=
  [("id", .int (hasConfiguredId version)), ("len", .int 1), ("initlen", .int 1),
   ("initvalue", .bytes [0x00])]

/-- nv_items.py:19-28. -/
def znpHasConfigured (version : Int) : Payload :=
  [("id", .int (hasConfiguredId version)), ("offset", .int 0), ("len", .int 1),
   ("value", .bytes [0x55])]

/-- nv_items.py:30-37. -/
def panID (panID : UInt16) : Payload :=
  [("id", .int nvPanid), ("len", .int 2), ("offset", .int 0),
   ("value", .bytes [(panID &&& 0xFF).toUInt8, ((panID >>> 8) &&& 0xFF).toUInt8])]

/-- nv_items.py:39-46. -/
def extendedPanID (extendedPanID : List UInt8) : Payload :=
  [("id", .int nvExtendedPanId), ("len", .int 8), ("offset", .int 0), ("value", .bytes extendedPanID)]

/-- nv_items.py:48-55; `Channels.serialize()` is the bit map as four bytes, little-endian. -/
def channelList (channelList : UInt32) : Payload :=
  [("id", .int nvChanlist), ("len", .int 4), ("offset", .int 0),
   ("value", .bytes (leBytes 4 channelList.toNat))]

/-- nv_items.py:57-64. -/
def networkKeyDistribute (distribute : Bool) : Payload :=
  [("id", .int nvPrecfgkeysEnable), ("len", .int 1), ("offset", .int 0),
   ("value", .bytes (if distribute then [0x01] else [0x00]))]

/-- nv_items.py:66-75. -/
def networkKey (key : List UInt8) : Payload :=
  [("id", .int nvPrecfgkey), ("configid", .int nvPrecfgkey), ("len", .int 16), ("offset", .int 0),
   ("value", .bytes key)]

/-- nv_items.py:77-84. -/
def startupOption (value : UInt8) : Payload :=
  [("id", .int nvStartupOption), ("len", .int 1), ("offset", .int 0), ("value", .bytes [value])]

/-- nv_items.py:86-93. -/
def logicalType (value : UInt8) : Payload :=
  [("id", .int nvLogicalType), ("len", .int 1), ("offset", .int 0), ("value", .bytes [value])]

/-- nv_items.py:95-102. -/
def zdoDirectCb : Payload :=
  [("id", .int nvZdoDirectCb), ("len", .int 1), ("offset", .int 0), ("value", .bytes [0x01])]

/-- nv_items.py:104-147. -/
def tcLinkKey : Payload :=
  [("id", .int nvLegacyTclkTableStart), ("offset", .int 0), ("len", .int 32),
   ("value", .bytes
     [0xFF, 0xFF, 0xFF, 0xFF, 0xFF, 0xFF, 0xFF, 0xFF,
      0x5A, 0x69, 0x67, 0x42, 0x65, 0x65, 0x41, 0x6C,
      0x6C, 0x69, 0x61, 0x6E, 0x63, 0x65, 0x30, 0x39,
      0x00, 0x00, 0x00, 0x00, 0x00, 0x00, 0x00, 0x00])]

end Items

/-- `validate_item`, start_znp.py:65-81. -/
def validateItem (item : Payload) (sub : Subsystem := .SYS) (command : String := "osalNvRead")
    (expected : Option (List Int) := none) : Prog Unit := do
  let result ← Prog.request sub command item expected
  let got ← Prog.field result "value"
  let want ← Prog.lift (dictGet item "value")
  if got ≠ want then .raise .assertionError else return ()

/-- start_znp.py:99-108. -/
def validateKey (version : Int) (options : Options) : Prog Unit :=
  if version = zStack3x0 then validateItem (Items.networkKey options.networkKey)
  else validateItem (Items.networkKey options.networkKey) .SAPI "readConfiguration"

/-- The inner `try` of `needsToBeInitialised`, start_znp.py:110-125. -/
def validatePan (version : Int) (options : Options) : Prog Unit :=
  Prog.tryExcept
    (do
      validateItem (Items.panID options.panID)
      validateItem (Items.extendedPanID options.extendedPanID))
    (fun e =>
      if e = .assertionError then some
        (if version = zStack30x ∨ version = zStack3x0 then do
          let result ← Prog.request .SYS "osalNvRead" (Items.panID options.panID)
          let value ← Prog.field result "value"
          if value = .bytes [0xFF, 0xFF] then return () else .raise e
        else return ())
      else none)

/-- `needsToBeInitialised`, start_znp.py:84-130. -/
def needsToBeInitialised (version : Int) (options : Options) : Prog Bool :=
  Prog.tryExcept
    (do
      validateItem (Items.znpHasConfigured version) (expected := some [0, 2])
      validateItem (Items.channelList options.channelList)
      validateItem (Items.networkKeyDistribute options.networkKeyDistribute)
      validateKey version options
      validatePan version options
      return false)
    (fun e => if e = .assertionError then some (return true) else none)

/-- `znp.wait_for(CommandType.AREQ, Subsystem.ZDO, "stateChangeInd", {"state": 9}, 60000)`,
start_znp.py:138-140 and 207-209. -/
def waitForStarted : Op :=
  .waitFor { commandType := .AREQ, subsystem := .ZDO, command := "stateChangeInd",
             payload := [("state", .int 9)] } 60000

/-- `Common.devStates["ZB_COORD"]`, common.py:132. -/
def devStateCoord : Int := 9

/-- `boot`, start_znp.py:133-147. -/
def boot : Prog Unit := do
  let result ← Prog.request .UTIL "getDeviceInfo" []
  let devicestate ← Prog.field result "devicestate"
  if devicestate ≠ .int devStateCoord then do
    let started ← Prog.op waitForStarted
    let _ ← Prog.request .ZDO "startupFromApp" [("startdelay", .int 100)] (some [0, 1])
    let _ ← Prog.op (.wait started)
    return ()
  else return ()

/-- `Endpoint`, start_znp.py:19-30, with the attributes that vary. -/
structure Endpoint where
  endpoint : Int
  appprofid : Int
  appdeviceid : Int := 0x0005
  appnuminclusters : Int := 0
  appinclusterlist : List Int := []
  appnumoutclusters : Int := 0
  appoutclusterlist : List Int := []
  deriving DecidableEq, Repr, Inhabited

/-- `vars(endpoint)`, start_znp.py:20-30 and 166. `appdevver` is 0 and `latencyreq` is
`NO_LATENCY_REQS` (const.py:30) for all. -/
def Endpoint.vars (e : Endpoint) : Payload :=
  [("endpoint", .int e.endpoint), ("appdeviceid", .int e.appdeviceid), ("appdevver", .int 0),
   ("appnuminclusters", .int e.appnuminclusters), ("appinclusterlist", .ints e.appinclusterlist),
   ("appnumoutclusters", .int e.appnumoutclusters), ("appoutclusterlist", .ints e.appoutclusterlist),
   ("latencyreq", .int 0), ("appprofid", .int e.appprofid)]

/-- `Endpoints`, start_znp.py:33-62. `IasZone.cluster_id`, `IasWd.cluster_id` and `Ota.cluster_id`
of zigpy are 0x0500, 0x0502 and 0x0019. -/
def Endpoints : List Endpoint :=
  [{ endpoint := 1, appprofid := 0x0104 },
   { endpoint := 2, appprofid := 0x0101 },
   { endpoint := 3, appprofid := 0x0106 },
   { endpoint := 4, appprofid := 0x0107 },
   { endpoint := 5, appprofid := 0x0108 },
   { endpoint := 6, appprofid := 0x0109 },
   { endpoint := 8, appprofid := 0x0104 },
   { endpoint := 11, appprofid := 0x0104, appdeviceid := 0x0400, appnumoutclusters := 2,
     appoutclusterlist := [0x0500, 0x0502] },
   { endpoint := 0x6E, appprofid := 0x0104 },
   { endpoint := 12, appprofid := 0xC05E },
   { endpoint := 13, appprofid := 0x0104, appnuminclusters := 1, appinclusterlist := [0x0019] },
   { endpoint := 47, appprofid := 0x0104 },
   { endpoint := 242, appprofid := 0xA1E0 }]

/-- `x in list`, start_znp.py:162. The list is a `LIST_UINT8`, so it is a list of integers;
`TypeError` stands for the other cases, which do not occur. -/
def inList (x : Int) : Val → Except PyErr Bool
  | .ints l => .ok (decide (x ∈ l))
  | _ => .error .typeError

/-- The loop of `registerEndpoints`, start_znp.py:161-166. -/
def registerLoop (activeEp : Obj) : List Endpoint → Prog Unit
  | [] => .ret ()
  | e :: es => do
    let list ← Prog.lift (dictGet activeEp.payload "activeeplist")
    let active ← Prog.lift (inList e.endpoint list)
    if active then registerLoop activeEp es
    else do
      let _ ← Prog.request .AF "register" e.vars
      registerLoop activeEp es

/-- `znp.wait_for(CommandType.AREQ, Subsystem.ZDO, "activeEpRsp")`, start_znp.py:153. -/
def waitForActiveEp : Op :=
  .waitFor { commandType := .AREQ, subsystem := .ZDO, command := "activeEpRsp", payload := [] }
    timeoutDefault

/-- `registerEndpoints`, start_znp.py:150-166. -/
def registerEndpoints : Prog Unit := do
  let response ← Prog.op waitForActiveEp
  Prog.op (.spawn .ZDO "activeEpReq" [("dstaddr", .int 0), ("nwkaddrofinterest", .int 0)])
  let activeEp ← Prog.op (.wait response)
  registerLoop activeEp Endpoints

/-- `Constants.SYS.resetType.SOFT`, const.py:6. -/
def resetSoft : Int := 1

/-- `Constants.ZDO.deviceLogicalType.COORDINATOR`, const.py:14. -/
def logicalCoordinator : UInt8 := 0

/-- `except Exception:` of start_znp.py:213: everything but a cancellation (`CancelledError` is not
an `Exception` since Python 3.8). -/
def exceptException {α : Type} (p : Prog α) (e : PyErr) : Option (Prog α) :=
  if e = .cancelledError then none else some p

/-- start_znp.py:192-219, Z-Stack 3. -/
def initialise3 (options : Options) : Prog Unit := do
  let _ ← Prog.request .SYS "osalNvWrite" (Items.networkKey options.networkKey)
  let _ ← Prog.request .APP_CNF "bdbSetChannel"
    [("isPrimary", .int 1), ("channel", .int options.channelList.toNat)]
  let _ ← Prog.request .APP_CNF "bdbSetChannel" [("isPrimary", .int 0), ("channel", .int 0)]
  let started ← Prog.op waitForStarted
  let _ ← Prog.request .APP_CNF "bdbStartCommissioning" [("mode", .int 4)]
  let _ ← Prog.tryExcept (Prog.op (.wait started)) (exceptException (.raise .exception))
  let _ ← Prog.request .APP_CNF "bdbStartCommissioning" [("mode", .int 2)]
  return ()

/-- start_znp.py:220-224, Z-Stack 1.2. -/
def initialise12 (options : Options) : Prog Unit := do
  let _ ← Prog.request .SAPI "writeConfiguration" (Items.networkKey options.networkKey)
  let _ ← Prog.request .SYS "osalNvWrite" Items.tcLinkKey
  return ()

/-- start_znp.py:192-224. -/
def initialiseStack (version : Int) (options : Options) : Prog Unit :=
  if version = zStack30x ∨ version = zStack3x0 then initialise3 options else initialise12 options

/-- `initialise`, start_znp.py:169-234. -/
def initialise (version : Int) (options : Options) : Prog Unit := do
  let _ ← Prog.request .SYS "resetReq" [("type", .int resetSoft)]
  let _ ← Prog.request .SYS "osalNvWrite" (Items.startupOption 0x02)
  let _ ← Prog.request .SYS "resetReq" [("type", .int resetSoft)]
  let _ ← Prog.request .SYS "osalNvWrite" (Items.logicalType logicalCoordinator)
  let _ ← Prog.request .SYS "osalNvWrite" (Items.networkKeyDistribute options.networkKeyDistribute)
  let _ ← Prog.request .SYS "osalNvWrite" Items.zdoDirectCb
  let _ ← Prog.request .SYS "osalNvWrite" (Items.channelList options.channelList)
  let _ ← Prog.request .SYS "osalNvWrite" (Items.panID options.panID)
  let _ ← Prog.request .SYS "osalNvWrite" (Items.extendedPanID options.extendedPanID)
  initialiseStack version options
  let _ ← Prog.request .SYS "osalNvItemInit" (Items.znpHasConfiguredInit version) (some [0, 9])
  let _ ← Prog.request .SYS "osalNvWrite" (Items.znpHasConfigured version)
  return ()

/-- `addToGroup`, start_znp.py:237-255. -/
def addToGroup (endpoint group : Int) : Prog Unit := do
  let result ← Prog.request .ZDO "extFindGroup"
    [("endpoint", .int endpoint), ("groupid", .int group)] (some [0, 1])
  let status ← Prog.field result "status"
  if status = .int 1 then do
    let _ ← Prog.request .ZDO "extAddGroup"
      [("endpoint", .int endpoint), ("groupid", .int group), ("namelen", .int 0),
       ("groupname", .bytes [])]
    return ()
  else return ()

/-- start_znp.py:263-272: is the stick marked as configured? Exceptions other than
`AssertionError` and `CommandError` propagate. -/
def readHasConfigured (version : Int) : Prog Bool :=
  Prog.tryExcept
    (do
      validateItem (Items.znpHasConfigured version) (expected := some [0, 2])
      return true)
    (fun e => match e with
      | .assertionError | .commandError _ => some (return false)
      | _ => none)

/-- The part of `start_znp` that decides and initialises, start_znp.py:263-290; returns `result`.
`backup` stands for `backupPath and os.path.exists(backupPath)`; `Restore` raises `TODO`
(backup.py:4-5). -/
def configure (version : Int) (options : Options) (backup : Bool) : Prog String := do
  let hasConfigured ← readHasConfigured version
  if backup ∧ ¬ hasConfigured then .raise .todo
  else do
    if ← needsToBeInitialised version options then do
      initialise version options
      if version = zStack12 then return (if hasConfigured then "reset" else "restored")
      else return "reset"
    else return "resumed"

/-- `start_znp`, start_znp.py:258-304. -/
def startZnp (version : Int) (options : Options) (greenPowerGroup : Int) (backup : Bool) :
    Prog String := do
  let result ← configure version options backup
  boot
  registerEndpoints
  addToGroup 242 greenPowerGroup
  if result = "restored" then do
    let _ ← Prog.request .SYS "osalNvWrite" (Items.channelList options.channelList)
    return result
  else return result

/-- `form_network`, application.py:126-137: the backup path is empty; `set_led` (lines 396-406)
does nothing on Z-Stack 3.x.0. -/
def formNetwork (version : Int) (options : Options) : Prog Unit := do
  let _ ← startZnp version options 0x0B84 false
  if version ≠ zStack3x0 then
    Prog.op (.spawn .UTIL "ledControl" [("ledid", .int 3), ("mode", .int ledOff)])
  else return ()

/-- `form_network(channel, pan_id, extended_pan_id)` as zigpy calls it, application.py:126-137. The three
arguments are not used. `version` is `self.version`: `{}` before the first start-up that got an answer
to `version` (line 65), else its payload; `product` is a `UINT8`, `TypeError` stands for the values
that do not occur. -/
def formNetworkCall (_channel : Nat) (_panId : Option UInt16) (_extendedPanId : Option (List UInt8))
    (version : Payload) (config : NetworkConfig) : Prog Unit := do
  let product ← Prog.lift (dictGet version "product")
  match product with
  | .int p => formNetwork p (networkOptions config)
  | _ => .raise .typeError

/-- `ZnpVersion(product)`, application.py:106: `ValueError` unless 0, 1 or 2. -/
def znpVersion (product : Val) : Except PyErr Int :=
  match product with
  | .int p => if p = zStack12 ∨ p = zStack3x0 ∨ p = zStack30x then .ok p else .error .valueError
  | _ => .error .valueError

/-- application.py:109-110. -/
def autoFormNetwork (version : Int) (options : Options) (autoForm : Bool) : Prog Unit :=
  if autoForm then formNetwork version options else return ()

/-- `startup`, application.py:88-117. -/
def startup (options : Options) (autoForm : Bool) : Prog Unit := do
  Prog.op .connect
  let _ ← Prog.tryExcept (Prog.request .SYS "ping" [("capabilities", .int 1)])
    (fun e => match e with
      | .commandError _ => some (.raise .exception)
      | _ => none)
  let version ← Prog.request .SYS "version" []
  let product ← Prog.field version "product"
  Prog.op (.semaphore (if product = .int zStack3x0 then 16 else 2))
  let product ← Prog.lift (znpVersion product)
  autoFormNetwork product options autoForm
  let data ← Prog.request .UTIL "getDeviceInfo" []
  let ieee ← Prog.field data "ieeeaddr"
  let nwk ← Prog.field data "shortaddr"
  Prog.op (.coordinator ieee nwk)

end Zcc
