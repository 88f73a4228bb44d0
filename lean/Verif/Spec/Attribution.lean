import Verif.Model.Driver
import Verif.Spec.App

/-! What C91 is about: which device has which network address. -/

namespace Zcc.Spec

/-- The address of the device in a table. -/
def addressIn (ds : List Device) (ieee : List UInt8) : Option Int :=
  (ds.find? fun d => decide (d.ieee = ieee)).map (·.nwk)

/-- An announcement of the device replaces its address. -/
def addressAfter (ieee : List UInt8) (n : Option Int) : Effect → Option Int
  | .join m b _ => if b = ieee then some m else n
  | _ => n

/-- The address that the device announced last in the course of the effects, or its address in the table
from before. -/
def lastAddress (ds : List Device) (effects : List Effect) (ieee : List UInt8) : Option Int :=
  effects.foldl (addressAfter ieee) (addressIn ds ieee)

/-- zigpy does not change its table of devices itself. -/
def TableKept (es : List DriverEvent) : Prop := ∀ ds, .devices ds ∉ es

/-- The device `b` is the last one that announced the address `n`, and has announced no other since. -/
def LastAnnounced (effects : List Effect) (n : Int) (b : List UInt8) : Prop :=
  ∃ p pre post, effects = pre ++ .join n b p :: post ∧
    ∀ m c q, .join m c q ∈ post → m ≠ n ∧ c ≠ b

end Zcc.Spec
