import Verif.Model.Definition

/-!
# Specification of well-typed payloads

Independent of the codec: which Python values fit which declared parameter type.
-/

namespace Zcc.Spec

open Zcc

/-- `v` as an unsigned number of `w` bytes. -/
def IsUInt (w : Nat) (v : Int) : Prop := 0 ≤ v ∧ v < (256 : Int) ^ w

instance (w : Nat) (v : Int) : Decidable (IsUInt w v) := by unfold IsUInt; infer_instance

/-- The field widths of a neighbour table entry. -/
structure NeighborFits (n : Neighbor) : Prop where
  extPanId : n.extPanId.length = 8
  extAddr : n.extAddr.length = 8
  nwkAddr : n.nwkAddr < 65536
  deviceType : n.deviceType < 4
  rxOnWhenIdle : n.rxOnWhenIdle < 4
  relationship : n.relationship < 8
  permitJoin : n.permitJoin < 4
  depth : n.depth < 256
  lqi : n.lqi < 256

/-- The parameter names whose value must be an address mode. -/
def IsAddrModeName (name : String) : Prop := ∃ pre : List Char, name.toList = pre ++ "addrmode".toList

/-- `FitsParam name prev t v`: the value `v` fits a parameter `name` of type `t` that follows a
parameter with value `prev`. Address modes are 0, 1, 2, 3 or 15; buffers and lists must be
preceded by an integer equal to their length. The types missing here are those the codec cannot
write. -/
def FitsParam (name : String) (prev : Option Val) : ParameterType → Val → Prop
  | .UINT8, v => ∃ n, v = .int n ∧ IsUInt 1 n ∧
      (IsAddrModeName name → n = 0 ∨ n = 1 ∨ n = 2 ∨ n = 3 ∨ n = 15)
  | .UINT16, v => ∃ n, v = .int n ∧ IsUInt 2 n
  | .UINT32, v => ∃ n, v = .int n ∧ IsUInt 4 n
  | .IEEEADDR, v => ∃ b, v = .eui b ∧ b.length = 8
  | .BUFFER, v => ∃ b, v = .bytes b ∧ prev = some (.int b.length)
  | .LIST_UINT8, v => ∃ l, v = .ints l ∧ prev = some (.int l.length) ∧ ∀ n ∈ l, IsUInt 1 n
  | .LIST_UINT16, v => ∃ l, v = .ints l ∧ prev = some (.int l.length) ∧ ∀ n ∈ l, IsUInt 2 n
  | .LIST_NEIGHBOR_LQI, v => ∃ l, v = .nbrs l ∧ prev = some (.int l.length) ∧
      ∀ n ∈ l, NeighborFits n
  | _, _ => False

/-- A payload (dict) provides a fitting value for every parameter of the list; `prev` is the value
of the preceding parameter. -/
def ValidPayload (payload : Payload) : Option Val → List (String × ParameterType) → Prop
  | _, [] => True
  | prev, p :: ps =>
    ∃ v, payload.lookup p.1 = some v ∧ FitsParam p.1 prev p.2 v ∧ ValidPayload payload (some v) ps

/-- The parameter types that can be written. -/
def Writable : ParameterType → Prop
  | .UINT8 | .UINT16 | .UINT32 | .IEEEADDR | .BUFFER | .LIST_UINT8 | .LIST_UINT16
  | .LIST_NEIGHBOR_LQI => True
  | _ => False

instance (t : ParameterType) : Decidable (Writable t) := by
  unfold Writable; split <;> infer_instance

/-- `SizedAll prev ps vs`: in the values `vs` of the parameters `ps`, each variable-size buffer or
list has as many elements as the integer before it says, each fixed-size buffer its fixed size. -/
def Sized (prev : Option Val) : ParameterType → Val → Prop
  | .BUFFER, v => ∃ b, v = .bytes b ∧ prev = some (.int b.length)
  | .LIST_UINT8, v => ∃ l, v = .ints l ∧ prev = some (.int l.length)
  | .LIST_UINT16, v => ∃ l, v = .ints l ∧ prev = some (.int l.length)
  | .LIST_NEIGHBOR_LQI, v => ∃ l, v = .nbrs l ∧ prev = some (.int l.length)
  | .BUFFER8, v => ∃ b, v = .bytes b ∧ b.length = 8
  | .BUFFER16, v => ∃ b, v = .bytes b ∧ b.length = 16
  | .BUFFER18, v => ∃ b, v = .bytes b ∧ b.length = 18
  | .BUFFER32, v => ∃ b, v = .bytes b ∧ b.length = 32
  | .BUFFER42, v => ∃ b, v = .bytes b ∧ b.length = 42
  | .BUFFER100, v => ∃ b, v = .bytes b ∧ b.length = 100
  | .IEEEADDR, v => ∃ b, v = .eui b ∧ b.length = 8
  | .UINT8, v => ∃ n, v = .int n ∧ IsUInt 1 n
  | .UINT16, v => ∃ n, v = .int n ∧ IsUInt 2 n
  | .UINT32, v => ∃ n, v = .int n ∧ IsUInt 4 n
  | .INT8, v => ∃ n : Int, v = .int n ∧ -128 ≤ n ∧ n < 128
  | _, _ => False

@[inherit_doc Sized]
def SizedAll (prev : Option Val) : List (String × ParameterType) → List Val → Prop
  | [], [] => True
  | p :: ps, v :: vs => Sized prev p.2 v ∧ SizedAll (some v) ps vs
  | _, _ => False

/-- What re-encoding keeps of the 22 bytes of a neighbour entry: the reserved bit 7 of byte 18 and
the upper six bits of byte 19 are cleared. -/
def maskEntry (e : List UInt8) : List UInt8 :=
  e.mapIdx (fun i b => if i = 18 then b &&& 0x7F else if i = 19 then b &&& 0x03 else b)

/-- The fields of the 22 bytes of a neighbour entry: extended PAN id and address (8 bytes each),
network address (low byte first), device type (2 bits), receiver-on flag (2), relationship (3), permit
join (2), depth, link quality. -/
def neighborOf (e : List UInt8) : Neighbor :=
  let byte i := (e.getD i 0).toNat
  { extPanId := e.take 8, extAddr := (e.drop 8).take 8, nwkAddr := byte 16 + 256 * byte 17,
    deviceType := byte 18 % 4, rxOnWhenIdle := byte 18 / 4 % 4, relationship := byte 18 / 16 % 8,
    permitJoin := byte 19 % 4, depth := byte 20, lqi := byte 21 }

/-- `Field name prev t x v`: the bytes `x` are the value `v` of a parameter `name` of type `t` that
follows a parameter with value `prev`. Numbers have their low byte first; buffers and lists have as
many elements as the number before them says. -/
def Field (name : String) (prev : Option Val) : ParameterType → List UInt8 → Val → Prop
  | .UINT8, x, v => ∃ a, x = [a] ∧ v = .int a.toNat ∧
      (IsAddrModeName name → a.toNat ∈ [0, 1, 2, 3, 15])
  | .UINT16, x, v => ∃ a b, x = [a, b] ∧ v = .int (a.toNat + 256 * b.toNat : Nat)
  | .UINT32, x, v => ∃ a b c d, x = [a, b, c, d] ∧
      v = .int (a.toNat + 256 * b.toNat + 65536 * c.toNat + 16777216 * d.toNat : Nat)
  | .INT8, x, v => ∃ a, x = [a] ∧ v = .int (if a.toNat < 128 then a.toNat else a.toNat - 256)
  | .IEEEADDR, x, v => x.length = 8 ∧ v = .eui x
  | .BUFFER, x, v => prev = some (.int x.length) ∧ v = .bytes x
  | .BUFFER8, x, v => x.length = 8 ∧ v = .bytes x
  | .BUFFER16, x, v => x.length = 16 ∧ v = .bytes x
  | .BUFFER18, x, v => x.length = 18 ∧ v = .bytes x
  | .BUFFER32, x, v => x.length = 32 ∧ v = .bytes x
  | .BUFFER42, x, v => x.length = 42 ∧ v = .bytes x
  | .BUFFER100, x, v => x.length = 100 ∧ v = .bytes x
  | .LIST_UINT8, x, v => prev = some (.int x.length) ∧ v = .ints (x.map (fun a => (a.toNat : Int)))
  | .LIST_UINT16, x, v => ∃ l : List (UInt8 × UInt8), prev = some (.int l.length) ∧
      x = l.flatMap (fun p => [p.1, p.2]) ∧
      v = .ints (l.map (fun p => ((p.1.toNat + 256 * p.2.toNat : Nat) : Int)))
  | .LIST_NEIGHBOR_LQI, x, v => ∃ es : List (List UInt8), (∀ e ∈ es, e.length = 22) ∧
      prev = some (.int es.length) ∧ x = es.flatten ∧ v = .nbrs (es.map neighborOf)
  | _, _, _ => False

/-- `Fields prev ps x vs`: the bytes `x` are the values `vs` of the parameters `ps`, one after the
other. -/
def Fields (prev : Option Val) : List (String × ParameterType) → List UInt8 → List Val → Prop
  | [], x, vs => x = [] ∧ vs = []
  | p :: ps, x, vs => ∃ a b v vs', x = a ++ b ∧ vs = v :: vs' ∧ Field p.1 prev p.2 a v ∧
      Fields (some v) ps b vs'

/-- `c` is a command of subsystem `s` in the command table. -/
def InTable (s : Subsystem) (c : Cmd) : Prop := ∃ cs, definition s = some cs ∧ c ∈ cs

/-- The parameters that a frame of the given type carries for the command: the response list for
synchronous responses, the request list otherwise. -/
def ParamsOf (c : Cmd) (t : CommandType) (ps : List (String × ParameterType)) : Prop :=
  if t = .SRSP then c.response = some ps else c.request = ps

/-- Types whose reader is not implemented at all. -/
def unreadable : ParameterType → Bool
  | .LIST_ROUTING_TABLE | .LIST_BIND_TABLE | .LIST_NETWORK | .LIST_ASSOC_DEV => true
  | _ => false

/-- Types that take their size from the number before them. -/
def needsCount : ParameterType → Bool
  | .BUFFER | .LIST_UINT8 | .LIST_UINT16 | .LIST_NEIGHBOR_LQI => true
  | _ => false

/-- Number types. -/
def numeric : ParameterType → Bool
  | .UINT8 | .UINT16 | .UINT32 | .INT8 => true
  | _ => false

/-- A parameter list all of whose types can be read, given what comes before each. -/
def readable : Bool → List (String × ParameterType) → Bool
  | _, [] => true
  | prevNumeric, p :: ps =>
    !unreadable p.2 && (!needsCount p.2 || prevNumeric) && readable (numeric p.2) ps

end Zcc.Spec
