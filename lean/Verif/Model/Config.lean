import Verif.Model.Connection

/-!
# The configuration of the port: /repo/zigpy_cc/config.py

`voluptuous` is not part of the repository. Assumed of it: a schema that is a dict refuses keys it does
not have, refuses a dict without a `Required` key, fills in the default of a missing `Optional` key, and
checks every value; the result is the dict with the defaults; a refusal is the exception `vol.Invalid`
(here `none`). `vol.PathExists` refuses the empty string and paths that the file system (`exists`) does
not have. A Python `dict` is a list of pairs with distinct keys.
-/

namespace Zcc
namespace Conn

/-- The values in a configuration; `True` and `False` are the ints 1 and 0, anything else is `other`
(also a path that is not a string). -/
inductive CfgVal where
  | str (s : String)
  | int (n : Int)
  | none
  | other
  deriving DecidableEq, Repr

/-- `CONF_DEVICE_BAUDRATE_DEFAULT`, config.py:11. -/
def CONF_DEVICE_BAUDRATE_DEFAULT : Int := 115200

/-- `vol.Any(vol.PathExists(), "auto")`, config.py:17. -/
def checkPath (pathExists : String → Bool) : CfgVal → Option String
  | .str p => if (p ≠ "" ∧ pathExists p) ∨ p = "auto" then some p else .none
  | _ => .none

/-- `int`, config.py:18. -/
def checkInt : CfgVal → Option Int
  | .int n => some n
  | _ => .none

/-- `vol.In(("hardware", "software", None))`, config.py:19-21. -/
def checkFlow : CfgVal → Option (Option String)
  | .none => some .none
  | .str s => if s = "hardware" ∨ s = "software" then some (some s) else .none
  | _ => .none

/-- An `vol.Optional` entry: its default if it is missing, otherwise the value must pass the check. -/
def optionalKey {α : Type} (default : α) (check : CfgVal → Option α) : Option CfgVal → Option α
  | .none => some default
  | some v => check v

/-- `SCHEMA_DEVICE(raw)`, config.py:15-23; `CONF_DEVICE_PATH` is `"path"` in zigpy. -/
def schemaDevice (pathExists : String → Bool) (raw : List (String × CfgVal)) : Option DeviceConfig :=
  if raw.all (fun kv => kv.1 = "path" ∨ kv.1 = "baudrate" ∨ kv.1 = "flow_control") then
    match (raw.lookup "path").bind (checkPath pathExists),
      optionalKey CONF_DEVICE_BAUDRATE_DEFAULT checkInt (raw.lookup "baudrate"),
      optionalKey .none checkFlow (raw.lookup "flow_control") with
    | some path, some baudrate, some flowControl => some { path, baudrate, flowControl }
    | _, _, _ => .none
  else .none

/-- `API.probe(raw)`, api.py:274-294, and what happens after the call; `none`: the schema is applied
outside of the `try` (line 277), so its exception leaves `probe`. -/
def probeRaw (pathExists : String → Bool) (raw : List (String × CfgVal)) (o : Options) (evs : List Ev) :
    Option St :=
  (schemaDevice pathExists raw).map fun c => run ⟨c, o⟩ (.probe :: evs)

end Conn
end Zcc
