/-!
# Types shared by the model

Models /repo/zigpy_cc/types.py and the shape of the values that travel through
/repo/zigpy_cc/definition.py, buffalo.py and zpi_object.py.
-/

namespace Zcc

/-- Python exceptions as values (the classes the modelled code can raise).
`todo` is `zigpy_cc.exception.TODO`, `commandError` is `zigpy_cc.exception.CommandError`
(/repo/zigpy_cc/exception.py:4-14); messages are dropped, except the key of a `KeyError` and
the status of a `CommandError`. `exception` is a bare `Exception(...)`. -/
inductive PyErr where
  | overflowError
  | valueError
  | keyError (key : String)
  | typeError
  | attributeError
  | indexError
  | stopIteration
  | runtimeError
  | assertionError
  | todo
  | exception
  | timeoutError
  | cancelledError
  | serialException
  | commandError (status : Int)
  deriving DecidableEq, Repr, Inhabited

/-- Equality of results is decidable (used to evaluate examples in the kernel). -/
instance {ε α : Type} [DecidableEq ε] [DecidableEq α] : DecidableEq (Except ε α)
  | .ok a, .ok b => if h : a = b then isTrue (by rw [h]) else isFalse (by simp [h])
  | .error a, .error b => if h : a = b then isTrue (by rw [h]) else isFalse (by simp [h])
  | .ok _, .error _ => isFalse (by simp)
  | .error _, .ok _ => isFalse (by simp)

/-- `CommandType`, types.py:43-47. -/
inductive CommandType where
  | POLL | SREQ | AREQ | SRSP
  deriving DecidableEq, Repr, Inhabited

/-- Numeric values of `CommandType`, types.py:44-47. -/
def CommandType.toNat : CommandType → Nat
  | .POLL => 0 | .SREQ => 1 | .AREQ => 2 | .SRSP => 3

/-- The enum constructor call `CommandType(n)`, types.py:43-47; `none` is the `ValueError`
the enum raises for an undefined value. -/
def CommandType.ofNat? : Nat → Option CommandType
  | 0 => some .POLL | 1 => some .SREQ | 2 => some .AREQ | 3 => some .SRSP
  | _ => none

/-- `Subsystem`, types.py:50-62. -/
inductive Subsystem where
  | RESERVED | SYS | MAC | NWK | AF | ZDO | SAPI | UTIL | DEBUG | APP | APP_CNF | GREENPOWER
  deriving DecidableEq, Repr, Inhabited

/-- Numeric values of `Subsystem`, types.py:51-62. -/
def Subsystem.toNat : Subsystem → Nat
  | .RESERVED => 0 | .SYS => 1 | .MAC => 2 | .NWK => 3 | .AF => 4 | .ZDO => 5 | .SAPI => 6
  | .UTIL => 7 | .DEBUG => 8 | .APP => 9 | .APP_CNF => 15 | .GREENPOWER => 21

/-- The enum constructor call `Subsystem(n)`, types.py:50-62; `none` is `ValueError`. -/
def Subsystem.ofNat? : Nat → Option Subsystem
  | 0 => some .RESERVED | 1 => some .SYS | 2 => some .MAC | 3 => some .NWK | 4 => some .AF
  | 5 => some .ZDO | 6 => some .SAPI | 7 => some .UTIL | 8 => some .DEBUG | 9 => some .APP
  | 15 => some .APP_CNF | 21 => some .GREENPOWER
  | _ => none

/-- `ParameterType`, types.py:65-87. -/
inductive ParameterType where
  | UINT8 | UINT16 | UINT32 | IEEEADDR
  | BUFFER | BUFFER8 | BUFFER16 | BUFFER18 | BUFFER32 | BUFFER42 | BUFFER100
  | LIST_UINT8 | LIST_UINT16 | LIST_ROUTING_TABLE | LIST_BIND_TABLE | LIST_NEIGHBOR_LQI
  | LIST_NETWORK | LIST_ASSOC_DEV
  | INT8
  deriving DecidableEq, Repr, Inhabited

/-- One command dict of /repo/zigpy_cc/definition.py: `name`, `ID`, `type`, `request` and the
optional `response` (lists of parameter name and parameter type). -/
structure Cmd where
  name : String
  id : Nat
  type : CommandType
  request : List (String × ParameterType)
  response : Option (List (String × ParameterType))
  deriving DecidableEq, Repr, Inhabited

/-- A neighbour table entry as built and consumed by buffalo.py:55-68 and 124-139 (a dict with
nine fixed keys). Simplification: the integer fields are naturals (a negative Python int would
make `to_bytes` raise `OverflowError`; zigpy never produces one here). -/
structure Neighbor where
  extPanId : List UInt8
  extAddr : List UInt8
  nwkAddr : Nat
  deviceType : Nat
  rxOnWhenIdle : Nat
  relationship : Nat
  permitJoin : Nat
  depth : Nat
  lqi : Nat
  deriving DecidableEq, Repr, Inhabited

/-- The Python values that occur in payloads (zpi_object.py, buffalo.py). `int` is any `int` or
`int` subclass (`NWK`, `AddressMode`, enum members: they compare and serialise like their
integer value, so the subclass is dropped). `bytes` is `bytes`, `eui` a `zigpy.types.EUI64`
(a list of 8 byte integers, little-endian), `ints` a list of integers, `nbrs` a list of
neighbour entries. -/
inductive Val where
  | int (v : Int)
  | bytes (b : List UInt8)
  | eui (b : List UInt8)
  | ints (l : List Int)
  | nbrs (l : List Neighbor)
  deriving DecidableEq, Repr, Inhabited

/-- A Python dict from parameter names to values, in insertion order. -/
abbrev Payload := List (String × Val)

/-- `d[k] = v` on a Python dict: replaces in place, else appends (used by
zpi_object.py:185). -/
def dictSet (d : Payload) (k : String) (v : Val) : Payload :=
  if d.any (·.1 == k) then d.map (fun e => if e.1 == k then (k, v) else e) else d ++ [(k, v)]

/-- `d[k]` on a Python dict: raises `KeyError(k)` if absent. -/
def dictGet (d : Payload) (k : String) : Except PyErr Val :=
  match d.lookup k with
  | some v => .ok v
  | none => .error (.keyError k)

end Zcc
