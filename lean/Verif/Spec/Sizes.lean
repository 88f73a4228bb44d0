import Verif.Spec.Codec
import Verif.Model.ZpiObject

/-! What C89 is about: which field of a message from the radio announces the size of which other. The
list is written down from the meaning of the names, not from their order in the table. -/

namespace Zcc.Spec

/-- `(q, p)`: the field `q` says how many elements the field `p` of the same message has. -/
def announces : List (String × String) :=
  [("len", "data"), ("len", "value"), ("length", "data"), ("length", "string"), ("sdulength", "nsdu"),
   ("resultlistmaxlength", "resultlist"), ("matchlength", "matchlist"),
   ("complexlength", "complexdesclist"), ("userlength", "userdescriptor"), ("namelen", "groupname"),
   ("activeepcount", "activeeplist"), ("beaconcount", "beaconlist"), ("channelcount", "energyvalues"),
   ("relaycount", "relaylist"), ("groups", "grouplist"), ("numassocdevices", "assocdeviceslist"),
   ("numinclusters", "inclusterlist"), ("numoutclusters", "outclusterlist"),
   ("neighborlqilistcount", "neighborlqilist")]

/-- The number of elements of a buffer or list. -/
def elements : Val → Option Nat
  | .bytes b => some b.length
  | .ints l => some l.length
  | .nbrs l => some l.length
  | _ => none

/-- A message that a radio sends: the response to a request, or an indication. -/
def FromRadio (f : Frame) : Prop :=
  f.commandType = .SRSP ∨
    f.commandType = .AREQ ∧ ∃ c, InTable f.subsystem c ∧ c.id = f.commandId ∧ c.type = .AREQ

/-- The field `p` of the decoded message has as many elements as the field that announces its size
says. -/
def SizeAnnounced (o : Obj) (p : String) : Prop :=
  ∃ q v n, (q, p) ∈ announces ∧ o.payload.lookup p = some v ∧ elements v = some n ∧
    o.payload.lookup q = some (.int n)

end Zcc.Spec
