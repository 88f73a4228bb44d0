import Verif.Model.Uart

/-!
# Specification of the serial wire format

Written from the MT/UNPI description, independently of the encoder and parser in the model.
-/

namespace Zcc.Spec

open Zcc

/-- Exclusive or of all bytes. -/
def xorAll : List UInt8 → UInt8
  | [] => 0
  | b :: bs => b ^^^ xorAll bs

/-- Header byte: command type in the top three bits, subsystem in the low five. -/
def header (t : CommandType) (s : Subsystem) : UInt8 := UInt8.ofNat (t.toNat * 32 + s.toNat)

/-- The checksummed part of a frame: data length, header byte, command id, data. -/
def body (f : Frame) : List UInt8 :=
  UInt8.ofNat f.data.length :: header f.commandType f.subsystem :: UInt8.ofNat f.commandId :: f.data

/-- The bytes of a frame on the wire. -/
def wire (f : Frame) : List UInt8 := 0xFE :: (body f ++ [xorAll (body f)])

/-- Data length and command id fit their one-byte fields. -/
def Fits (f : Frame) : Prop := f.data.length < 256 ∧ f.commandId < 256

instance (f : Frame) : Decidable (Fits f) := by unfold Fits; infer_instance

/-- The frame as the receiver reports it: same frame, with length and checksum filled in. -/
def received (f : Frame) : Frame :=
  { f with length := some f.data.length, fcs := some (xorAll (body f)) }

/-- The bytes are the wire images of the frames `fs`, one directly after the other. -/
def IsStream (bytes : List UInt8) (fs : List Frame) : Prop :=
  (∀ f ∈ fs, Fits f) ∧ bytes = (fs.map wire).flatten

/-- Noise: no start-of-frame byte. -/
def Noise (n : List UInt8) : Prop := ∀ b ∈ n, b ≠ 0xFE

instance (n : List UInt8) : Decidable (Noise n) := by unfold Noise; infer_instance

/-- A message with data in which the start byte occurs at its start only. -/
def Plain (f : Frame) : Prop := Fits f ∧ f.data ≠ [] ∧ Noise ((wire f).drop 1)

instance (f : Frame) : Decidable (Plain f) := by unfold Plain; infer_instance

/-- An API that records every frame it is given and raises whatever `r` says. -/
def recorder (r : Frame → Option PyErr) : Handler (List Frame) := fun l f => (l ++ [f], r f)

/-- `Explains s fs`: the byte string `s` contains the wire images of the frames `fs`, in this
order, without overlap, each contiguous; everything else is skipped. -/
inductive Explains : List UInt8 → List Frame → Prop
  | done (skipped : List UInt8) : Explains skipped []
  | frame (skipped : List UInt8) (f : Frame) (rest : List UInt8) (fs : List Frame)
      (hfit : Fits f) (h : Explains rest fs) :
      Explains (skipped ++ (wire f ++ rest)) (received f :: fs)

/-- `PrefixEach as bs`: same number of lists, each of `as` a prefix of its partner in `bs`. -/
def PrefixEach : List (List UInt8) → List (List UInt8) → Prop
  | [], [] => True
  | a :: as, b :: bs => a <+: b ∧ PrefixEach as bs
  | _, _ => False

/-- A frame made of its four meaningful parts (length and checksum unset). -/
abbrev _root_.Zcc.Frame.of (t : CommandType) (s : Subsystem) (id : Nat) (data : List UInt8) : Frame :=
  { commandType := t, subsystem := s, commandId := id, data }

end Zcc.Spec
