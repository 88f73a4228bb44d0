import Verif.Proofs.Sizes
import Verif.Props.Codec

/-! C89: sizes come from the fields that announce sizes. -/

namespace Zcc
open Spec

/-! ## C89 -/

/-- **C89, partial.** In every response and indication that is decoded, each buffer and list of variable
size has as many elements as the field that announces its size says. The full statement has no exception
for `msgCbIncoming`; `c89_refuted` shows that it is needed, `c89_msgcb` what happens there instead. -/
theorem c89_sizes_partial (f : Frame) (o : Obj) (hd : Obj.fromUnpiFrame f = .ok o) (hr : FromRadio f)
    (hx : o.command ≠ "msgCbIncoming") (p : String × ParameterType) (hm : p ∈ o.parameters)
    (hc : needsCount p.2 = true) : SizeAnnounced o p.1 := by
  obtain ⟨vs, hp, hs⟩ := c15_announced_sizes f o hd
  obtain ⟨c, hct, hid, hps, -, ho⟩ := fromUnpiFrame_ok hd
  refine size_announced (paramsOf_nodup hct hps).1 hp hs ?_ p hm hc
  obtain ⟨t1, t2⟩ := table_announced hct
  unfold ParamsOf at hps
  rcases hr with hr | ⟨hr, d, hdt, hdid, hda⟩
  · rw [if_pos hr] at hps
    exact t2 _ hps
  · obtain rfl := inTable_same hdt hct (hdid.trans hid.symm)
    rw [if_neg (by rw [hr]; decide)] at hps
    rw [← hps]
    exact t1 hda (fun hn => hx (by rw [ho]; exact hn))

/-- The endpoints of a device: as many as `activeepcount` says, and not as `nwkaddr` or the rest of the
data says. -/
example : ∃ o, Obj.fromUnpiFrame (Frame.of .AREQ .ZDO 0x85 [0x34, 0x12, 0, 0x34, 0x12, 2, 1, 0xF2, 9]) =
    .ok o ∧ SizeAnnounced o "activeeplist" :=
  ⟨_, rfl, c89_sizes_partial (Frame.of .AREQ .ZDO 0x85 [0x34, 0x12, 0, 0x34, 0x12, 2, 1, 0xF2, 9]) _ rfl
    (.inr ⟨rfl, _, ⟨_, rfl, List.mem_of_find?_eq_some
      (p := fun c => c.id == 0x85) (by rfl)⟩, rfl, rfl⟩)
    (by decide) ("activeeplist", .LIST_UINT8) (by decide) rfl⟩

/-- The value in the response to a read of the non-volatile memory. -/
example : ∃ o, Obj.fromUnpiFrame (Frame.of .SRSP .SYS 8 [0, 3, 7, 8, 9]) = .ok o ∧
    SizeAnnounced o "value" :=
  ⟨_, rfl, c89_sizes_partial (Frame.of .SRSP .SYS 8 [0, 3, 7, 8, 9]) _ rfl (.inl rfl)
    (by decide) ("value", .BUFFER) (by decide) rfl⟩

/-- **C89.** A `msgCbIncoming` takes the number of its message bytes from the MAC destination address:
it is decoded exactly if at least as many bytes follow as this address says, and then these are its
`msgdata`. -/
theorem c89_msgcb (f : Frame) (hs : f.subsystem = .ZDO) (hid : f.commandId = 255)
    (ht : f.commandType ≠ .SRSP) (head body : List UInt8) (lo hi : UInt8) (hl : head.length = 7)
    (hdata : f.data = head ++ [lo, hi] ++ body) :
    ((∃ o, Obj.fromUnpiFrame f = .ok o) ↔ lo.toNat + 256 * hi.toNat ≤ body.length) ∧
    ∀ o, Obj.fromUnpiFrame f = .ok o →
      o.payload.lookup "macdstaddr" = some (.int (lo.toNat + 256 * hi.toNat : Nat)) ∧
      o.payload.lookup "msgdata" = some (.bytes (body.take (lo.toNat + 256 * hi.toNat))) := by
  match head, hl with
  | [a, b, c, d, e, g, h], _ =>
  have key : ∀ o, Obj.fromUnpiFrame f = .ok o → lo.toNat + 256 * hi.toNat ≤ body.length ∧
      o.payload.lookup "macdstaddr" = some (.int (lo.toNat + 256 * hi.toNat : Nat)) ∧
      o.payload.lookup "msgdata" = some (.bytes (body.take (lo.toNat + 256 * hi.toNat))) := by
    intro o ho
    obtain ⟨a', b', c', d', e', g', h', lo', hi', m, rest, hx, hm, rfl⟩ :=
      (msgCb_decode hs hid ht o).mp ho
    rw [hdata] at hx
    simp only [List.cons_append, List.nil_append, List.cons.injEq] at hx
    obtain ⟨rfl, rfl, rfl, rfl, rfl, rfl, rfl, rfl, rfl, rfl⟩ := hx
    refine ⟨by simp [hm], rfl, ?_⟩
    rw [← hm, List.take_left]
    rfl
  refine ⟨⟨fun ⟨o, ho⟩ => (key o ho).1, fun hle => ?_⟩, fun o ho => (key o ho).2⟩
  exact ⟨_, (msgCb_decode hs hid ht _).mpr ⟨a, b, c, d, e, g, h, lo, hi,
    body.take (lo.toNat + 256 * hi.toNat), body.drop (lo.toNat + 256 * hi.toNat),
    by rw [hdata]; simp, by simp only [List.length_take]; omega, rfl⟩⟩

/-- A message for the coordinator (MAC destination address 0): its bytes are dropped. -/
example : ∃ o, Obj.fromUnpiFrame (Frame.of .AREQ .ZDO 255 [0x34, 0x12, 0, 0x13, 0, 0, 7, 0, 0, 1, 2, 3]) =
    .ok o ∧ o.payload.lookup "msgdata" = some (.bytes []) := by
  obtain ⟨h1, h2⟩ := c89_msgcb
    (Frame.of .AREQ .ZDO 255 [0x34, 0x12, 0, 0x13, 0, 0, 7, 0, 0, 1, 2, 3]) rfl rfl (by decide)
    [0x34, 0x12, 0, 0x13, 0, 0, 7] [1, 2, 3] 0 0 rfl rfl
  obtain ⟨o, ho⟩ := h1.mpr (by decide)
  exact ⟨o, ho, (h2 o ho).2⟩

/-- **C89.** Such a frame from the port (its length is one byte) for a MAC destination address of 256 or
more is never decoded. -/
theorem c89_msgcb_lost (f : Frame) (hs : f.subsystem = .ZDO) (hid : f.commandId = 255)
    (ht : f.commandType ≠ .SRSP) (hf : f.data.length < 256) (head body : List UInt8) (lo hi : UInt8)
    (hl : head.length = 7) (hdata : f.data = head ++ [lo, hi] ++ body) (hhi : hi ≠ 0) (o : Obj) :
    Obj.fromUnpiFrame f ≠ .ok o := by
  intro ho
  have h := (c89_msgcb f hs hid ht head body lo hi hl hdata).1.mp ⟨o, ho⟩
  rw [hdata] at hf
  simp only [List.length_append] at hf
  have : hi.toNat ≠ 0 := fun h0 => hhi (by
    have := UInt8.toNat_inj (a := hi) (b := 0)
    exact this.mp h0)
  omega

/-- A message to the broadcast address 0xFFFD. -/
example (o : Obj) : Obj.fromUnpiFrame
    (Frame.of .AREQ .ZDO 255 [0x34, 0x12, 1, 0x13, 0, 0, 7, 0xFD, 0xFF, 1, 2, 3]) ≠ .ok o :=
  c89_msgcb_lost (Frame.of .AREQ .ZDO 255 [0x34, 0x12, 1, 0x13, 0, 0, 7, 0xFD, 0xFF, 1, 2, 3]) rfl rfl
    (by decide) (by decide) [0x34, 0x12, 1, 0x13, 0, 0, 7] [1, 2, 3] 0xFD 0xFF rfl rfl (by decide) o

/-- **C89, refuted without the exception.** A `msgCbIncoming` with three message bytes for the device
with address 2: nothing announces the size of `msgdata`, and it has two of the three bytes. -/
theorem c89_refuted : ¬ ∀ (f : Frame) (o : Obj), Obj.fromUnpiFrame f = .ok o → FromRadio f →
    ∀ p ∈ o.parameters, needsCount p.2 = true → SizeAnnounced o p.1 := by
  intro h
  obtain ⟨q, v, n, hq, -⟩ := h
    (Frame.of .AREQ .ZDO 255 [0x34, 0x12, 0, 0x13, 0, 0, 7, 2, 0, 1, 2, 3]) _ rfl
    (.inr ⟨rfl, msgCbIncoming, msgCb_inTable, rfl, rfl⟩) ("msgdata", .BUFFER) (by decide) rfl
  revert hq
  have : ∀ x ∈ announces, x.2 ≠ "msgdata" := by decide
  exact fun hq => this _ hq rfl

end Zcc
