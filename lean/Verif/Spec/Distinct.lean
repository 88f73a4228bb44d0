import Verif.Spec.Sizes

/-! What C95 is about: the values a request is made of. -/

namespace Zcc.Spec

/-- The kind of value that a field of this type takes; long addresses are given as `EUI64`, or (`ints`) as numbers,
as `from_cluster` does (zpi_object.py:135). The other types are not in requests, or cannot be written. -/
def KindOf (ints : Bool) : ParameterType → Val → Prop
  | .UINT8, v | .UINT16, v | .UINT32, v => ∃ n, v = .int n
  | .IEEEADDR, v => if ints then ∃ n, v = .int n else ∃ b, v = .eui b ∧ b.length = 8
  | .BUFFER, v => ∃ b, v = .bytes b
  | .LIST_UINT8, v | .LIST_UINT16, v => ∃ l, v = .ints l
  | _, _ => False

/-- The fields that say how many elements a list in the middle of a request has. -/
def listCounts : List (String × String) :=
  [("appnuminclusters", "appinclusterlist"), ("relaycount", "relaylist"), ("numinclusters", "inclusterlist")]

/-- The values are of the kinds of the fields, and the lists in the middle of the request have as many elements
as the request says. Sizes of data at the end of a request need not be right. -/
structure Proper (ints : Bool) (payload : Payload) (ps : List (String × ParameterType)) : Prop where
  kinds : ∀ p ∈ ps, ∀ v, payload.lookup p.1 = some v → KindOf ints p.2 v
  counts : ∀ q r, (q, r) ∈ listCounts → r ∈ ps.map (·.1) → ∀ v n, payload.lookup r = some v →
    elements v = some n → payload.lookup q = some (.int n)

/-- The key sources of the MAC requests, which have no length in the request. -/
def keySources : List String := ["realignkeysource", "beaconkeysource", "keysource"]

/-- Key sources have eight bytes, as the protocol of the radio demands. -/
def EightBytes (payload : Payload) : Prop :=
  ∀ r ∈ keySources, ∀ b, payload.lookup r = some (.bytes b) → b.length = 8

end Zcc.Spec
