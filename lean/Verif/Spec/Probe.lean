import Verif.Model.Probe
import Verif.Spec.Boot

/-! # Specification vocabulary for a probe over the serial port -/

namespace Zcc.Spec

open Zcc

/-- The chunks in which bytes arrive. -/
def probeChunks : List ProbeEvent → List (List UInt8)
  | [] => []
  | .bytes c :: es => c :: probeChunks es
  | _ :: es => probeChunks es

/-- All that was written to the port, in order: the wake-up byte, then requests. -/
def probeOutput (p : Probe) : List UInt8 :=
  (if p.woken then [0xEF] else []) ++ p.client.api.log.flatMap fun
    | .sent _ b => b
    | _ => []

/-- The bytes of SYS_VERSION. -/
def versionBytes : List UInt8 := [0xFE, 0x00, 0x21, 0x02, 0x23]

/-- The radio's answer to SYS_VERSION: it has nine bytes or more. -/
def VersionAnswer (f : Frame) : Prop :=
  f.commandType = .SRSP ∧ f.subsystem = .SYS ∧ f.commandId = 0x02 ∧ 9 ≤ f.data.length

/-- A message that can be decoded and has data. -/
def Decodable (f : Frame) : Prop := Fits f ∧ f.data ≠ [] ∧ ∃ o, Obj.fromUnpiFrame (received f) = .ok o

/-- Bytes come from an open port only. -/
def FromPort (es : List ProbeEvent) : Prop :=
  ∀ a c b, es = a ++ .bytes c :: b → (Probe.run a).port = true

/-- This message was among the bytes, and its last byte came after the first `n`. -/
def EndsAfter (n : Nat) (input : List UInt8) (f : Frame) : Prop :=
  ∃ pre post, input = pre ++ wire f ++ post ∧ n < (pre ++ wire f).length

/-- The time limit of the probe strikes as soon as it is over. -/
def ProbePunctual (es : List ProbeEvent) : Prop :=
  ∀ a ev b, es = a ++ ev :: b → 2000 < (Probe.run a).client.api.now → (∀ o, (Probe.run a).pc ≠ .ended o) →
    ev = .timeout ∨ ev = .cancel

end Zcc.Spec
