import Verif.Props.Codec

/-!
# Decoding, exactly: C87
-/

namespace Zcc
open Spec

/-- **C87.** A frame decodes to a message exactly if its command is in the table and its data begin
with the bytes of values of the command's parameters (`Fields`); the message then consists of these
values under the parameters' names. What follows in the data is ignored. -/
theorem c87_decode (f : Frame) (o : Obj) : Obj.fromUnpiFrame f = .ok o ↔
    ∃ c ps x rest vs, InTable f.subsystem c ∧ c.id = f.commandId ∧ ParamsOf c f.commandType ps ∧
      f.data = x ++ rest ∧ Fields none ps x vs ∧
      o = { commandType := f.commandType, subsystem := f.subsystem, command := c.name,
            commandId := c.id, payload := (ps.map (·.1)).zip vs, parameters := ps } :=
  decode_iff

/-- **C87.** The bytes of values are encoded from these values: a message whose payload has the values
`vs` for its parameters becomes a frame with exactly their bytes as data (for neighbour lists, whose
reserved bits are cleared, see `c11_lqi_masked`). -/
theorem c87_encode (o : Obj) (vs : List Val) (x : List UInt8)
    (hw : ∀ p ∈ o.parameters, Writable p.2 ∧ p.2 ≠ .LIST_NEIGHBOR_LQI)
    (hv : ∀ i (h : i < o.parameters.length), o.payload.lookup (o.parameters[i].1) = vs[i]?)
    (hF : Fields none o.parameters x vs) :
    o.toUnpiFrame = .ok (Frame.of o.commandType o.subsystem o.commandId x) := by
  have hw' : writeParameters o.payload o.parameters = .ok x := by
    rw [writeParameters_vals _ _ vs (fields_length hF)
      (fun i hi hi' => by rw [hv i hi, List.getElem?_eq_getElem hi']), fields_write hw hF]
  unfold Obj.toUnpiFrame
  rw [hw']
  rfl

/-- **C87.** The same bytes are not the values of anything else: the values, and how far they reach,
are determined by the data. -/
theorem c87_unique (s : Subsystem) (c : Cmd) (hc : InTable s c) (t : CommandType) (ps : Params)
    (hp : ParamsOf c t ps) (x rest x' rest' : List UInt8) (vs vs' : List Val)
    (h : Fields none ps x vs) (h' : Fields none ps x' vs') (heq : x ++ rest = x' ++ rest') :
    x = x' ∧ rest = rest' ∧ vs = vs' := by
  obtain ⟨-, h8⟩ := paramsOf_nodup hc hp
  have h1 := (readVals_iff _ h8 none (x ++ rest) rest vs (by simp)).mpr ⟨x, rfl, h⟩
  have h2 := (readVals_iff _ h8 none (x' ++ rest') rest' vs' (by simp)).mpr ⟨x', rfl, h'⟩
  rw [heq, h2] at h1
  simp only [Except.ok.injEq, Prod.mk.injEq] at h1
  obtain ⟨rfl, rfl⟩ := h1
  exact ⟨List.append_cancel_right heq, rfl, rfl⟩

/-- An incoming message with two data bytes, and a byte after it. -/
example : Fields none [("srcaddr", .UINT16), ("timestamp", .UINT32), ("len", .UINT8), ("data", .BUFFER)]
    [0x34, 0x12, 1, 0, 0, 2, 2, 0xAA, 0xBB]
    [.int 0x1234, .int 0x02000001, .int 2, .bytes [0xAA, 0xBB]] :=
  ⟨[0x34, 0x12], _, _, _, rfl, rfl, ⟨0x34, 0x12, rfl, rfl⟩,
   [1, 0, 0, 2], _, _, _, rfl, rfl, ⟨1, 0, 0, 2, rfl, rfl⟩,
   [2], _, _, _, rfl, rfl, ⟨2, rfl, rfl, fun ⟨pre, h⟩ => by
    have := congrArg List.length h
    simp at this⟩,
   [0xAA, 0xBB], _, _, _, rfl, rfl, ⟨rfl, rfl⟩, rfl, rfl⟩

/-- Two endpoints of a device. -/
example : ({ commandType := .AREQ, subsystem := .ZDO, command := "activeEpRsp", commandId := 0x85,
             payload := [("count", .int 2), ("list", .ints [1, 0xF2])],
             parameters := [("count", .UINT8), ("list", .LIST_UINT8)] } : Obj).toUnpiFrame =
    .ok (Frame.of .AREQ .ZDO 0x85 [2, 1, 0xF2]) :=
  c87_encode _ [.int 2, .ints [1, 0xF2]] [2, 1, 0xF2] (by decide)
    (by intro i h; match i, h with | 0, _ => rfl | 1, _ => rfl)
    ⟨[2], _, _, _, rfl, rfl, ⟨2, rfl, rfl, fun ⟨pre, h⟩ => by
      have := congrArg List.length h
      simp at this⟩, [1, 0xF2], [], _, _, rfl, rfl, ⟨rfl, rfl⟩, rfl, rfl⟩

end Zcc
