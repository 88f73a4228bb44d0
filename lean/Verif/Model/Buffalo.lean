import Verif.Model.Types

/-!
# Parameter codec: /repo/zigpy_cc/buffalo.py

The writer is modelled as a function returning the bytes it appends to `self.buffer`; the reader
as a function of the remaining bytes (`self.buffer[self.position:]`) returning the value and the
bytes that remain.
-/

namespace Zcc

/-- The `n` little-endian base-256 digits of `v` (CPython `int.to_bytes(n, "little")` for a value
in range). -/
def leBytes : Nat → Nat → List UInt8
  | 0, _ => []
  | n + 1, v => UInt8.ofNat (v % 256) :: leBytes n (v / 256)

/-- `int.from_bytes(bytes, "little")`. -/
def leValue : List UInt8 → Nat
  | [] => 0
  | b :: bs => b.toNat + 256 * leValue bs

/-- Python `str.endswith`. -/
def strEndsWith (s suffix : String) : Bool := suffix.toList.isSuffixOf s.toList

/-- Python `str.startswith`. -/
def strStartsWith (s pre : String) : Bool := pre.toList.isPrefixOf s.toList

/-- `Buffalo.write`, buffalo.py:52-53, for an integer value and `signed=False` (the only way it is
called): `int.to_bytes` raises `OverflowError` for values that are negative or too big. -/
def writeInt (value : Int) (length : Nat) : Except PyErr (List UInt8) :=
  if 0 ≤ value ∧ value < (256 : Int) ^ length then .ok (leBytes length value.toNat)
  else .error .overflowError

/-- A sequence of `self.write(i, length)` calls, buffalo.py:32-33, 39-40, 42-43. -/
def writeInts (length : Nat) : List Int → Except PyErr (List UInt8)
  | [] => .ok []
  | v :: vs => do
    let a ← writeInt v length
    let b ← writeInts length vs
    return a ++ b

/-- `Buffalo.write_neighbor_lqi`, buffalo.py:55-68. -/
def writeNeighbor (n : Neighbor) : Except PyErr (List UInt8) := do
  let a ← writeInts 1 (n.extPanId.map (fun b => (b.toNat : Int)))
  let b ← writeInts 1 (n.extAddr.map (fun b => (b.toNat : Int)))
  let c ← writeInt n.nwkAddr 2
  let d ← writeInt ((n.deviceType ||| (n.rxOnWhenIdle * 4) ||| (n.relationship * 16) : Nat) : Int) 1
  let e ← writeInt n.permitJoin 1
  let f ← writeInt n.depth 1
  let g ← writeInt n.lqi 1
  return a ++ b ++ c ++ d ++ e ++ f ++ g

/-- The loop buffalo.py:45-46. -/
def writeNeighbors : List Neighbor → Except PyErr (List UInt8)
  | [] => .ok []
  | v :: vs => do
    let a ← writeNeighbor v
    let b ← writeNeighbors vs
    return a ++ b

/-- What `for i in value: self.write(i, length)` does with a value of each Python type
(buffalo.py:31-33, 39-40, 42-43): a list of dicts has no `to_bytes` (`AttributeError`), an int is
not iterable (`TypeError`). -/
def writeIter (length : Nat) : Val → Except PyErr (List UInt8)
  | .int _ => .error .typeError
  | .bytes b => writeInts length (b.map (fun b => (b.toNat : Int)))
  | .eui b => writeInts length (b.map (fun b => (b.toNat : Int)))
  | .ints l => writeInts length l
  | .nbrs [] => .ok []
  | .nbrs (_ :: _) => .error .attributeError

/-- `self.write(value, length)`, buffalo.py:25-29, 35: values without `to_bytes` raise
`AttributeError`. -/
def writeScalar (length : Nat) : Val → Except PyErr (List UInt8)
  | .int v => writeInt v length
  | _ => .error .attributeError

/-- `Buffalo.write_parameter`, buffalo.py:23-50. Indexing an int or a missing key of something
that is not a neighbour dict (line 46) is a `TypeError`. -/
def writeParameter (type : ParameterType) (value : Val) : Except PyErr (List UInt8) :=
  match type with
  | .UINT8 => writeScalar 1 value
  | .UINT16 => writeScalar 2 value
  | .UINT32 => writeScalar 4 value
  | .IEEEADDR =>
    match value with
    | .int v => writeInt v 8
    | v => writeIter 1 v
  | .BUFFER =>
    match value with
    | .bytes b => .ok b
    | _ => .error .typeError
  | .LIST_UINT8 => writeIter 1 value
  | .LIST_UINT16 => writeIter 2 value
  | .LIST_NEIGHBOR_LQI =>
    match value with
    | .nbrs l => writeNeighbors l
    | .bytes [] => .ok []
    | .eui [] => .ok []
    | .ints [] => .ok []
    | _ => .error .typeError
  | _ => .error .todo

/-- `Buffalo.read`, buffalo.py:114-119: `OverflowError` if not enough bytes remain. -/
def readBytes (length : Nat) (buf : List UInt8) : Except PyErr (List UInt8 × List UInt8) :=
  if length > buf.length then .error .overflowError
  else .ok (buf.take length, buf.drop length)

/-- `Buffalo.read_int` with `signed=False`, buffalo.py:111-112. -/
def readInt (length : Nat) (buf : List UInt8) : Except PyErr (Nat × List UInt8) := do
  let (b, rest) ← readBytes length buf
  return (leValue b, rest)

/-- `read_int(signed=True)` of one byte, buffalo.py:93. -/
def readInt8 (buf : List UInt8) : Except PyErr (Int × List UInt8) := do
  let (v, rest) ← readInt 1 buf
  return (if v ≥ 128 then (v : Int) - 256 else v, rest)

/-- The loops buffalo.py:98-99 and 101-102. -/
def readInts (width : Nat) : Nat → List UInt8 → Except PyErr (List Int × List UInt8)
  | 0, buf => .ok ([], buf)
  | n + 1, buf => do
    let (v, buf) ← readInt width buf
    let (vs, buf) ← readInts width n buf
    return ((v : Int) :: vs, buf)

/-- `Buffalo.read_neighbor_lqi`, buffalo.py:124-139. -/
def readNeighbor (buf : List UInt8) : Except PyErr (Neighbor × List UInt8) := do
  let (extPanId, buf) ← readBytes 8 buf
  let (extAddr, buf) ← readBytes 8 buf
  let (nwkAddr, buf) ← readInt 2 buf
  let (value1, buf) ← readInt 1 buf
  let (permitJoin, buf) ← readInt 1 buf
  let (depth, buf) ← readInt 1 buf
  let (lqi, buf) ← readInt 1 buf
  return ({ extPanId, extAddr, nwkAddr
            deviceType := value1 &&& 0x03
            rxOnWhenIdle := (value1 &&& 0x0C) >>> 2
            relationship := (value1 &&& 0x70) >>> 4
            permitJoin := permitJoin &&& 0x03
            depth, lqi }, buf)

/-- The loop buffalo.py:104-105. -/
def readNeighbors : Nat → List UInt8 → Except PyErr (List Neighbor × List UInt8)
  | 0, buf => .ok ([], buf)
  | n + 1, buf => do
    let (v, buf) ← readNeighbor buf
    let (vs, buf) ← readNeighbors n buf
    return (v :: vs, buf)

/-- The values of `AddressMode`, types.py:21-26. -/
def addressModes : List Nat := [0, 1, 2, 3, 15]

/-- The fixed size of the buffer types, `int(type_name.replace("BUFFER", "") ...)`,
buffalo.py:88-90 with types.py:71-77; `none` for `BUFFER` itself and for other types. -/
def fixedBuffer : ParameterType → Option Nat
  | .BUFFER8 => some 8
  | .BUFFER16 => some 16
  | .BUFFER18 => some 18
  | .BUFFER32 => some 32
  | .BUFFER42 => some 42
  | .BUFFER100 => some 100
  | _ => none

/-- `Buffalo.read_parameter`, buffalo.py:70-109. `length` is `options.length` (`None` makes both
`int(None)` and `range(0, None)` raise `TypeError`). The `NWK` subclass of line 83 is dropped (see
`Val`); the `AddressMode` constructor of line 75 raises `ValueError` for other values.
Simplification: `options.length` is a natural number. It is the previously read parameter; the
only type that can be read as a negative number is `INT8`, and no list or buffer follows an `INT8`
in definition.py. -/
def readParameter (name : String) (type : ParameterType) (length : Option Nat)
    (buf : List UInt8) : Except PyErr (Val × List UInt8) :=
  match type with
  | .UINT8 => do
    let (res, buf) ← readInt 1 buf
    if strEndsWith name "addrmode" then
      if res ∈ addressModes then return (.int res, buf) else .error .valueError
    else return (.int res, buf)
  | .UINT16 => do
    let (res, buf) ← readInt 2 buf
    return (.int res, buf)
  | .UINT32 => do
    let (res, buf) ← readInt 4 buf
    return (.int res, buf)
  | .IEEEADDR => do
    let (res, buf) ← readBytes 8 buf
    return (.eui res, buf)
  | .BUFFER =>
    match length with
    | none => .error .typeError
    | some n => do
      let (res, buf) ← readBytes n buf
      return (.bytes res, buf)
  | .INT8 => do
    let (res, buf) ← readInt8 buf
    return (.int res, buf)
  | .LIST_UINT8 =>
    match length with
    | none => .error .typeError
    | some n => do
      let (res, buf) ← readInts 1 n buf
      return (.ints res, buf)
  | .LIST_UINT16 =>
    match length with
    | none => .error .typeError
    | some n => do
      let (res, buf) ← readInts 2 n buf
      return (.ints res, buf)
  | .LIST_NEIGHBOR_LQI =>
    match length with
    | none => .error .typeError
    | some n => do
      let (res, buf) ← readNeighbors n buf
      return (.nbrs res, buf)
  | t =>
    match fixedBuffer t with
    | some n => do
      let (res, buf) ← readBytes n buf
      return (.bytes res, buf)
    | none => .error .todo

end Zcc
