import Verif.Proofs.Layout
import Verif.Proofs.Uart
import Verif.Spec.Wire

/-!
# Codec properties C10 - C17
-/

namespace Zcc
open Spec

/-! Concrete commands used in the examples. -/

/-- AF `dataRequest` payload with three data bytes. -/
def exPayload : Payload :=
  [("dstaddr", .int 0x1234), ("destendpoint", .int 1), ("srcendpoint", .int 1),
   ("clusterid", .int 6), ("transid", .int 77), ("options", .int 0), ("radius", .int 30),
   ("len", .int 3), ("data", .bytes [1, 2, 3])]

/-- The parameter list of AF `dataRequest`. -/
def exParams : Params :=
  [("dstaddr", .UINT16), ("destendpoint", .UINT8), ("srcendpoint", .UINT8), ("clusterid", .UINT16),
   ("transid", .UINT8), ("options", .UINT8), ("radius", .UINT8), ("len", .UINT8), ("data", .BUFFER)]

/-- AF `dataRequest` itself. -/
def exCmd : Cmd :=
  { name := "dataRequest", id := 1, type := .SREQ, request := exParams,
    response := some [("status", .UINT8)] }

theorem exCmd_inTable : InTable .AF exCmd := ⟨defAF, rfl, by decide +kernel⟩

theorem exPayload_valid : ValidPayload exPayload none exParams := by
  refine ⟨.int 0x1234, rfl, ⟨_, rfl, by decide⟩, .int 1, rfl, ⟨_, rfl, by decide, ?_⟩,
    .int 1, rfl, ⟨_, rfl, by decide, ?_⟩, .int 6, rfl, ⟨_, rfl, by decide⟩,
    .int 77, rfl, ⟨_, rfl, by decide, ?_⟩, .int 0, rfl, ⟨_, rfl, by decide, ?_⟩,
    .int 30, rfl, ⟨_, rfl, by decide, ?_⟩, .int 3, rfl, ⟨_, rfl, by decide, ?_⟩,
    .bytes [1, 2, 3], rfl, ⟨_, rfl, rfl⟩, trivial⟩
  all_goals (intro h; have := (addrmode_iff _).mpr h; revert this; decide +kernel)

/-! ## C10 -/

/-- **C10**, for any parameter list: a payload whose values fit their declared types is encoded,
and the encoded bytes decode to the same values under the same names. -/
theorem c10_params_round_trip (ps : Params) (hn : (ps.map (·.1)).Nodup) (payload : Payload)
    (hv : ValidPayload payload none ps) :
    ∃ bytes, writeParameters payload ps = .ok bytes ∧
      ∃ back, readParameters bytes ps = .ok back ∧ back.map (·.1) = ps.map (·.1) ∧
        ∀ p ∈ ps, back.lookup p.1 = payload.lookup p.1 := by
  obtain ⟨vs, bs, h1, h2, h3, h4⟩ := writeVals_reads payload ps none hv
  refine ⟨bs, ?_, (ps.map (·.1)).zip vs, ?_, ?_, ?_⟩
  · rw [writeParameters_vals payload ps vs h1 h2, h3]
  · rw [readParameters_eq ps hn]
    have := h4.1 []
    rw [List.append_nil] at this
    rw [this]; rfl
  · exact map_fst_zip _ _ (by simp [h1])
  · intro p hp
    obtain ⟨i, hi, rfl⟩ := List.mem_iff_getElem.mp hp
    rw [lookup_zip ps vs h1 hn i hi, h2 i hi (by omega)]

/-- **C10**, for the commands of the table: building a command by name, encoding it into a frame
and decoding that frame gives the same command with the same payload. If moreover the data fits a
frame, this still holds after the frame's bytes went over the wire. -/
theorem c10_encode_decode (s : Subsystem) (c : Cmd) (hc : InTable s c) (payload : Payload)
    (hv : ValidPayload payload none c.request) :
    ∃ o f, Obj.fromCommand s c.name payload = .ok o ∧ o.toUnpiFrame = .ok f ∧
      f.commandType = c.type ∧ f.subsystem = s ∧ f.commandId = c.id ∧
      (∃ o', Obj.fromUnpiFrame f = .ok o' ∧ o'.command = c.name ∧ o'.commandType = c.type ∧
        o'.subsystem = s ∧ o'.payload.map (·.1) = c.request.map (·.1) ∧
        ∀ p ∈ c.request, o'.payload.lookup p.1 = payload.lookup p.1) ∧
      (f.data.length < 256 → ∃ g, Gateway.send f = .ok (wire f) ∧
        Frame.fromBuffer f.data.length (4 + f.data.length) (wire f) = .ok (some g) ∧
        Obj.fromUnpiFrame g = Obj.fromUnpiFrame f) := by
  have ht : c.type ≠ .SRSP := by
    rcases (table_misc hc).2.1 with h | h <;> rw [h] <;> decide
  have hp : ParamsOf c c.type c.request := by unfold ParamsOf; rw [if_neg ht]
  obtain ⟨bytes, h1, back, h2, h3, h4⟩ :=
    c10_params_round_trip c.request (table_params hc).1 payload hv
  refine ⟨_, (Frame.of c.type s c.id bytes),
    fromCommand_eq hc payload, ?_, rfl, rfl, rfl, ⟨{ commandType := c.type, subsystem := s, command := c.name, commandId := c.id, payload := back, parameters := c.request }, ?_, rfl, rfl, rfl, h3, h4⟩, ?_⟩
  · simp only [Obj.toUnpiFrame, h1, ok_bind, pure_ok]
  · rw [fromUnpiFrame_eq hc rfl rfl hp]
    simp only [h2, Except.map]
  · intro hl
    have hf : Fits (Frame.of c.type s c.id bytes) :=
      ⟨hl, (table_misc hc).1⟩
    refine ⟨_, ?_, fromBuffer_wire _ hf, ?_⟩
    · rw [Gateway.send, toBuffer_eq, if_pos hf]
    · rw [fromUnpiFrame_eq (f := received (Frame.of c.type s c.id bytes)) hc rfl rfl hp,
        fromUnpiFrame_eq (f := Frame.of c.type s c.id bytes) hc rfl rfl hp]
      rfl

example : InTable .AF exCmd ∧ ValidPayload exPayload none exCmd.request :=
  ⟨exCmd_inTable, exPayload_valid⟩

example : writeParameters exPayload exParams =
    .ok [0x34, 0x12, 1, 1, 6, 0, 77, 0, 30, 3, 1, 2, 3] := by decide +kernel

/-! ## C11 -/

/-- **C11 (partial).** If a received frame decodes and its parameter types can be written, the
decoded message re-encodes to exactly the bytes the decoder consumed: the received data up to
trailing bytes. Missing: messages with neighbour lists, whose unused bits are cleared (see
`c11_lqi_masked`, `c11_refuted`) - and trailing bytes, which no decoder output retains. -/
theorem c11_reencode_partial (f : Frame) (o : Obj) (h : Obj.fromUnpiFrame f = .ok o)
    (hw : ∀ p ∈ o.parameters, Writable p.2 ∧ p.2 ≠ .LIST_NEIGHBOR_LQI) :
    ∃ data rest, f.data = data ++ rest ∧
      o.toUnpiFrame = .ok (Frame.of f.commandType f.subsystem f.commandId data) ∧
      readParameters data o.parameters = .ok o.payload := by
  obtain ⟨c, hc, hid, hp, hr, ho⟩ := fromUnpiFrame_ok h
  obtain ⟨hn, _⟩ := paramsOf_nodup hc hp
  have hr' := hr
  rw [readParameters_eq _ hn] at hr
  rcases hv : readVals none o.parameters f.data with e | ⟨vs, rest⟩
  · rw [hv] at hr; simp [Except.map] at hr
  rw [hv] at hr
  simp only [Except.map, Except.ok.injEq] at hr
  have hl := readVals_length hv
  obtain ⟨bs, h1, h2⟩ := readVals_write _ hw _ _ _ _ hv
  refine ⟨bs, rest, h2, ?_, ?_⟩
  · have hwp : writeParameters o.payload o.parameters = .ok bs := by
      rw [writeParameters_vals o.payload o.parameters vs hl, h1]
      intro i hi hi'
      rw [← hr, lookup_zip _ _ hl hn i hi]
    rw [Obj.toUnpiFrame, hwp, ok_bind, pure_ok]
    rw [ho]
    simp only [hid]
  · obtain ⟨bs', h3, h4⟩ := local_readVals _ _ _ _ _ hv
    have : bs' = bs := List.append_cancel_right (h3.symm.trans h2)
    subst this
    rw [readParameters_eq _ hn]
    have := h4.1 []
    rw [List.append_nil] at this
    rw [this, ← hr]
    rfl

/-- A received AF `dataConfirm` with a trailing byte. -/
example : (Obj.fromUnpiFrame (Frame.of .AREQ .AF 0x80 [0, 1, 77, 0xAA])).map
      (fun o => (o.toUnpiFrame, decide (∀ p ∈ o.parameters, Writable p.2 ∧ p.2 ≠ .LIST_NEIGHBOR_LQI))) =
    .ok (.ok (Frame.of .AREQ .AF 0x80 [0, 1, 77]), true) := by decide +kernel

/-- C11, all writable types: re-encoding a decoded message always succeeds, and decoding the
result gives the same payload again (so re-encoding is stable even where it clears bits). -/
theorem c11_reencode_stable (f : Frame) (o : Obj) (h : Obj.fromUnpiFrame f = .ok o)
    (hw : ∀ p ∈ o.parameters, Writable p.2) :
    ∃ g, o.toUnpiFrame = .ok g ∧ g.commandType = f.commandType ∧ g.subsystem = f.subsystem ∧
      g.commandId = f.commandId ∧ Obj.fromUnpiFrame g = .ok o := by
  obtain ⟨c, hc, hid, hp, hr, ho⟩ := fromUnpiFrame_ok h
  obtain ⟨hn, _⟩ := paramsOf_nodup hc hp
  rw [readParameters_eq _ hn] at hr
  rcases hv : readVals none o.parameters f.data with e | ⟨vs, rest⟩
  · rw [hv] at hr; simp [Except.map] at hr
  rw [hv] at hr
  simp only [Except.map, Except.ok.injEq] at hr
  have hl := readVals_length hv
  have hlook : ∀ i (h : i < o.parameters.length) (h' : i < vs.length),
      o.payload.lookup (o.parameters[i].1) = some vs[i] := by
    intro i hi hi'
    rw [← hr, lookup_zip _ _ hl hn i hi]
  have hvalid := readVals_valid o.payload o.parameters hw none _ _ _ (by simp) hv hlook
  obtain ⟨vs', bs, h1, h2, h3, h4⟩ := writeVals_reads o.payload o.parameters none hvalid
  have hvv : vs' = vs := by
    apply List.ext_getElem (by omega)
    intro i hi hi'
    have e1 := h2 i (by omega) hi
    have e2 := hlook i (by omega) hi'
    rw [e1] at e2
    exact Option.some.inj e2
  subst hvv
  refine ⟨(Frame.of f.commandType f.subsystem f.commandId bs), ?_, rfl, rfl, rfl, ?_⟩
  · rw [Obj.toUnpiFrame, writeParameters_vals _ _ _ h1 h2, h3, ok_bind, pure_ok]
    rw [ho]
    simp only [hid]
  · rw [fromUnpiFrame_eq (f := (Frame.of f.commandType f.subsystem f.commandId bs)) hc rfl hid.symm hp]
    have := h4.1 []
    rw [List.append_nil] at this
    rw [readParameters_eq _ hn, this]
    simp only [Except.map]
    rw [hr]
    exact congrArg _ ho.symm

/-- The parameters of ZDO `mgmtLqiRsp`. -/
def lqiParams : Params :=
  [("srcaddr", .UINT16), ("status", .UINT8), ("neighbortableentries", .UINT8),
   ("startindex", .UINT8), ("neighborlqilistcount", .UINT8),
   ("neighborlqilist", .LIST_NEIGHBOR_LQI)]

/-- ZDO `mgmtLqiRsp`. -/
def lqiCmd : Cmd :=
  { name := "mgmtLqiRsp", id := 0xB1, type := .AREQ, request := lqiParams, response := none }

/-- C11, the one command with a neighbour list (`mgmtLqiRsp`): re-encoding reproduces the received
bytes up to the unused bits of each 22-byte entry, which are cleared. The sixth byte is the number of
entries. -/
theorem c11_lqi_masked (f : Frame) (o : Obj) (hs : f.subsystem = .ZDO) (hid : f.commandId = 0xB1)
    (ht : f.commandType ≠ .SRSP) (h : Obj.fromUnpiFrame f = .ok o) :
    ∃ (head : List UInt8) (count : UInt8) (entries : List (List UInt8)) (rest : List UInt8),
      head.length = 5 ∧ count.toNat = entries.length ∧ (∀ e ∈ entries, e.length = 22) ∧
      f.data = head ++ count :: entries.flatten ++ rest ∧
      o.toUnpiFrame = .ok (Frame.of f.commandType .ZDO 0xB1
        (head ++ count :: (entries.map maskEntry).flatten)) := by
  have hc : InTable .ZDO lqiCmd := ⟨defZDO, rfl, by decide +kernel⟩
  have hp : ParamsOf lqiCmd f.commandType lqiParams := by unfold ParamsOf; rw [if_neg ht]; rfl
  rw [fromUnpiFrame_eq hc hs hid hp, readParameters_eq _ (by decide)] at h
  rcases hv : readVals none lqiParams f.data with e | ⟨vs, rest⟩
  · rw [hv] at h; simp [Except.map] at h
  rw [hv] at h
  simp only [Except.map, Except.ok.injEq] at h
  obtain ⟨x, hx, hF⟩ := (readVals_iff lqiParams (by decide) none _ _ _ (by simp)).mp hv
  -- the five numbers and the entries
  obtain ⟨x1, y1, v1, w1, rfl, rfl, f1, hF⟩ := hF
  obtain ⟨x2, y2, v2, w2, rfl, rfl, f2, hF⟩ := hF
  obtain ⟨x3, y3, v3, w3, rfl, rfl, f3, hF⟩ := hF
  obtain ⟨x4, y4, v4, w4, rfl, rfl, f4, hF⟩ := hF
  obtain ⟨x5, y5, v5, w5, rfl, rfl, f5, hF⟩ := hF
  obtain ⟨x6, y6, v6, w6, rfl, rfl, f6, rfl, rfl⟩ := hF
  have g1 := field_write (by simp) (by trivial) (by decide) f1
  have g2 := field_write (field_nonneg f1 (by decide)) (by trivial) (by decide) f2
  have g3 := field_write (field_nonneg f2 (by decide)) (by trivial) (by decide) f3
  have g4 := field_write (field_nonneg f3 (by decide)) (by trivial) (by decide) f4
  have g5 := field_write (field_nonneg f4 (by decide)) (by trivial) (by decide) f5
  obtain ⟨a1, b1, rfl, -⟩ := f1
  obtain ⟨a2, rfl, -⟩ := f2
  obtain ⟨a3, rfl, -⟩ := f3
  obtain ⟨a4, rfl, -⟩ := f4
  obtain ⟨n, rfl, hn, -⟩ := f5
  obtain ⟨es, he, hcnt, rfl, rfl⟩ := f6
  refine ⟨[a1, b1, a2, a3, a4], n, es, rest, rfl, ?_, he, ?_, ?_⟩
  · rw [hn] at hcnt
    simp only [Option.some.injEq, Val.int.injEq] at hcnt
    omega
  · rw [hx]; simp
  · rw [← h, Obj.toUnpiFrame]
    have g6 : writeParameter .LIST_NEIGHBOR_LQI (.nbrs (es.map neighborOf)) =
        .ok (es.map maskEntry).flatten := field_write_nbrs es he
    have : writeParameters ((lqiParams.map (·.1)).zip [v1, v2, v3, v4, v5, Val.nbrs (es.map neighborOf)])
        lqiParams = .ok ([a1, b1, a2, a3, a4] ++ n :: (es.map maskEntry).flatten) := by
      rw [writeParameters_vals _ lqiParams [v1, v2, v3, v4, v5, Val.nbrs (es.map neighborOf)] rfl
        (fun i hi hi' => by rw [lookup_zip _ _ rfl (by decide) i hi])]
      simp only [lqiParams] at g1 g2 g3 g4 g5 ⊢
      simp only [writeVals, g1, g2, g3, g4, g5, g6, ok_bind, pure_ok, List.append_nil]
      rfl
    simp only [lqiParams] at this ⊢
    rw [this, ok_bind, pure_ok]
    rfl

/-- C11 fails for neighbour lists: there is a received message whose re-encoding differs from
what was received. -/
theorem c11_refuted :
    ¬ ∀ (f : Frame) (o : Obj), Obj.fromUnpiFrame f = .ok o → (∀ p ∈ o.parameters, Writable p.2) →
      ∃ data rest, f.data = data ++ rest ∧ ∃ g, o.toUnpiFrame = .ok g ∧ g.data = data := by
  intro hc
  let f : Frame := (Frame.of .AREQ .ZDO 0xB1 ([0, 0, 0, 1, 0, 1] ++ List.replicate 22 0xFF))
  have key : (match Obj.fromUnpiFrame f with
      | .ok o => decide (∀ p ∈ o.parameters, Writable p.2) && (match o.toUnpiFrame with
        | .ok g => decide (¬ g.data <+: f.data) | .error _ => false)
      | .error _ => false) = true := by decide +kernel
  rcases ho : Obj.fromUnpiFrame f with e | o
  · rw [ho] at key; simp at key
  rw [ho] at key
  simp only [Bool.and_eq_true, decide_eq_true_eq] at key
  obtain ⟨data, rest, h1, g, h2, h3⟩ := hc f o ho key.1
  rw [h2] at key
  simp only [decide_eq_true_eq] at key
  exact key.2 ⟨rest, by rw [h3, h1]⟩

/-- A neighbour list with reserved bits set: re-encoding it is stable. -/
example (o : Obj) (h : Obj.fromUnpiFrame (Frame.of .AREQ .ZDO 0xB1 ([0x34, 0x12, 0, 1, 0, 1] ++ List.replicate 22 0xFF)) = .ok o)
    (hw : ∀ p ∈ o.parameters, Writable p.2) : ∃ g, o.toUnpiFrame = .ok g ∧ Obj.fromUnpiFrame g = .ok o := by
  obtain ⟨g, h1, _, _, _, h2⟩ := c11_reencode_stable _ o h hw
  exact ⟨g, h1, h2⟩

/-- It decodes, with types that can be written. -/
example : (Obj.fromUnpiFrame (Frame.of .AREQ .ZDO 0xB1 ([0x34, 0x12, 0, 1, 0, 1] ++ List.replicate 22 0xFF))).map
    (fun o => decide (∀ p ∈ o.parameters, Writable p.2)) = .ok true := by decide +kernel

/-! ## C12 -/

/-- **C12.** Writing an integer in `w` bytes gives exactly `w` bytes that read back, little-endian,
as that integer - or raises `OverflowError`, exactly when the integer does not fit. -/
theorem c12_no_truncation (w : Nat) (v : Int) :
    (∃ bytes, writeInt v w = .ok bytes ∧ bytes.length = w ∧
      v = ((bytes.zipIdx.map (fun b => b.1.toNat * 256 ^ b.2)).sum : Nat) ∧
      ∀ rest, readInt w (bytes ++ rest) = .ok (v.toNat, rest)) ∧ (0 ≤ v ∧ v < 256 ^ w) ∨
    writeInt v w = .error .overflowError ∧ ¬ (0 ≤ v ∧ v < 256 ^ w) := by
  by_cases h : IsUInt w v
  · left
    refine ⟨⟨_, writeInt_ok w v h, leBytes_length _ _, ?_, ?_⟩, h⟩
    · have hsum : ∀ (bs : List UInt8) (k : Nat),
          (((bs.zipIdx k).map (fun b => b.1.toNat * 256 ^ b.2)).sum) = 256 ^ k * leValue bs := by
        intro bs
        induction bs with
        | nil => intro k; simp [leValue]
        | cons b bs ih =>
          intro k
          simp only [List.zipIdx_cons, List.map_cons, List.sum_cons, ih, leValue, Nat.pow_succ]
          rw [Nat.mul_add, Nat.mul_comm (256 ^ k) b.toNat, Nat.mul_assoc]
      rw [hsum, Nat.pow_zero, Nat.one_mul, leValue_leBytes w _ (isUInt_toNat h)]
      exact (Int.toNat_of_nonneg h.1).symm
    · exact (reads_readInt_le w _ (isUInt_toNat h)).1
  · right
    exact ⟨if_neg h, h⟩

/-- C12: two different integers that are both accepted give different bytes. -/
theorem c12_injective (w : Nat) (v v' : Int) (bytes : List UInt8) (h : writeInt v w = .ok bytes)
    (h' : writeInt v' w = .ok bytes) : v = v' := by
  rcases c12_no_truncation w v with ⟨⟨b, h1, -, h2, -⟩, -⟩ | ⟨h1, -⟩
  · rcases c12_no_truncation w v' with ⟨⟨b', h1', -, h2', -⟩, -⟩ | ⟨h1', -⟩
    · rw [h] at h1; rw [h'] at h1'
      simp at h1 h1'
      subst h1; subst h1'
      rw [h2, h2']
    · rw [h'] at h1'; simp at h1'
  · rw [h] at h1; simp at h1

/-- C12 for the one signed type: a byte is read as its two's complement value. -/
theorem c12_int8 (name : String) (len : Option Nat) (b : UInt8) (rest : List UInt8) :
    ∃ z : Int, readParameter name .INT8 len (b :: rest) = .ok (.int z, rest) ∧
      -128 ≤ z ∧ z < 128 ∧ z % 256 = b.toNat := by
  have hb := b.toNat_lt
  have hr : readInt 1 (b :: rest) = .ok (b.toNat, rest) := by
    simp [readInt, readBytes]
    rfl
  refine ⟨if b.toNat ≥ 128 then (b.toNat : Int) - 256 else b.toNat, ?_, ?_⟩
  · rw [rp_int8]; unfold bindR; rw [hr]
  · split <;> omega

example : readParameter "value" .INT8 none [0xFF] = .ok (.int (-1), []) := by decide +kernel

/-- C12 at the level of commands: if an integer parameter of a command holds a value outside its
declared width, encoding the command raises; nothing can be sent. -/
theorem c12_command_raises (o : Obj) (p : String × ParameterType) (hp : p ∈ o.parameters)
    (v : Int) (hv : o.payload.lookup p.1 = some (.int v)) (w : Nat)
    (hw : (p.2 = .UINT8 ∧ w = 1) ∨ (p.2 = .UINT16 ∧ w = 2) ∨ (p.2 = .UINT32 ∧ w = 4) ∨
      (p.2 = .IEEEADDR ∧ w = 8)) (hbad : v < 0 ∨ 256 ^ w ≤ v) :
    ∃ e, o.toUnpiFrame = .error e := by
  have hwp : writeParameter p.2 (.int v) = .error .overflowError := by
    have : writeInt v w = .error .overflowError := if_neg (by rintro ⟨h1, h2⟩; omega)
    rcases hw with ⟨h, rfl⟩ | ⟨h, rfl⟩ | ⟨h, rfl⟩ | ⟨h, rfl⟩ <;> rw [h] <;> exact this
  have : ∀ ps : Params, p ∈ ps → ∃ e, writeParameters o.payload ps = .error e := by
    intro ps
    induction ps with
    | nil => intro h; simp at h
    | cons q ps ih =>
      intro hm
      rw [writeParameters]
      by_cases hq : p = q
      · subst hq
        rw [dictGet, hv, ok_bind, hwp, error_bind]
        exact ⟨_, rfl⟩
      · obtain ⟨e, he⟩ := ih ((List.mem_cons.mp hm).resolve_left hq)
        rcases dictGet o.payload q.1 with e1 | x
        · exact ⟨e1, rfl⟩
        rw [ok_bind]
        rcases writeParameter q.2 x with e1 | x
        · exact ⟨e1, rfl⟩
        rw [ok_bind, he, error_bind]
        exact ⟨_, rfl⟩
  obtain ⟨e, he⟩ := this o.parameters hp
  exact ⟨e, by rw [Obj.toUnpiFrame, he, error_bind]⟩

example : writeInt 0x1234 2 = .ok [0x34, 0x12] ∧ writeInt 65536 2 = .error .overflowError ∧
    writeInt (-1) 1 = .error .overflowError := by decide +kernel

example (v : Int) (h : writeInt v 2 = .ok [0x34, 0x12]) : v = 0x1234 :=
  c12_injective 2 v 0x1234 _ h (by decide +kernel)

example : ∃ e, (⟨.SREQ, .AF, "dataRequest", 1, ("transid", .int 256) :: exPayload, exParams, none⟩ : Obj).toUnpiFrame = .error e :=
  c12_command_raises _ ("transid", .UINT8) (by decide) 256 (by decide +kernel) 1 (.inl ⟨rfl, rfl⟩) (.inr (by decide))

/-! ## C13 -/

/-- **C13.** Whenever a frame decodes, there is a number of consumed bytes `n` such that any frame
of the same command that agrees on these bytes decodes to the same message whatever follows them,
and any frame that is cut off before the `n`th byte raises `OverflowError`. -/
theorem c13_truncation (f : Frame) (o : Obj) (h : Obj.fromUnpiFrame f = .ok o) :
    ∃ n, n ≤ f.data.length ∧ ∀ g : Frame, g.commandType = f.commandType →
      g.subsystem = f.subsystem → g.commandId = f.commandId →
      (f.data.take n <+: g.data → Obj.fromUnpiFrame g = .ok o) ∧
      (g.data <+: f.data.take n → g.data.length < n → Obj.fromUnpiFrame g = .error .overflowError) := by
  obtain ⟨c, hc, hid, hp, hr, ho⟩ := fromUnpiFrame_ok h
  obtain ⟨hn, _⟩ := paramsOf_nodup hc hp
  rw [readParameters_eq _ hn] at hr
  rcases hv : readVals none o.parameters f.data with e | ⟨vs, rest⟩
  · rw [hv] at hr; simp [Except.map] at hr
  rw [hv] at hr
  simp only [Except.map, Except.ok.injEq] at hr
  obtain ⟨bs, h1, h2⟩ := local_readVals _ _ _ _ _ hv
  refine ⟨bs.length, by simp [h1], ?_⟩
  intro g e1 e2 e3
  have hp' : ParamsOf c g.commandType o.parameters := by rw [e1]; exact hp
  rw [fromUnpiFrame_eq hc e2 (e3.trans hid.symm) hp', readParameters_eq _ hn]
  have ht : f.data.take bs.length = bs := by rw [h1]; simp
  rw [ht]
  constructor
  · rintro ⟨tail, hg⟩
    rw [← hg, h2.1]
    simp only [Except.map, hr, e1]
    exact congrArg _ ho.symm
  · rintro ⟨tail, hg⟩ hlt
    rw [h2.2 g.data tail hg.symm]
    · rfl
    · rintro rfl
      rw [List.append_nil] at hg
      rw [hg] at hlt
      omega

example : ∃ o, Obj.fromUnpiFrame (Frame.of .SRSP .SYS 1 [0x79, 0x07, 0xFF]) = .ok o := ⟨_, rfl⟩

/-! ## C14 -/

/-- **C14.** Command ids and command names are unique within each subsystem. -/
theorem c14_table_unambiguous (s : Subsystem) (c d : Cmd) (hc : InTable s c) (hd : InTable s d)
    (h : c.id = d.id ∨ c.name = d.name) : c = d := by
  obtain ⟨cs, h1, h2⟩ := hc
  obtain ⟨ds, h3, h4⟩ := hd
  rw [h1] at h3
  simp at h3
  subst h3
  obtain ⟨u1, u2⟩ := table_unique h1
  rcases h with h | h
  · have a := find_by_key (·.id) cs u1 c h2
    have b := find_by_key (·.id) cs u1 d h4
    rw [h, b] at a
    exact (Option.some.inj a).symm
  · have a := find_by_key (·.name) cs u2 c h2
    have b := find_by_key (·.name) cs u2 d h4
    rw [h, b] at a
    exact (Option.some.inj a).symm

/-- C14: what is sent under a name is what is received under the id, whatever the payload: a
command built by name and any frame with its subsystem and id are the same table entry. -/
theorem c14_name_id_lookup (s : Subsystem) (name : String) (payload : Payload) (o : Obj)
    (ho : Obj.fromCommand s name payload = .ok o) (f : Frame) (o' : Obj)
    (hf : Obj.fromUnpiFrame f = .ok o') (hs : f.subsystem = s) (hid : f.commandId = o.commandId) :
    o'.command = name ∧ o.command = name := by
  have hx : ∃ c, InTable s c ∧ c.name = name ∧ c.id = o.commandId ∧ o.command = name := by
    unfold Obj.fromCommand at ho
    rcases hd : definitionGet s with e | cs
    · rw [hd, error_bind] at ho; simp at ho
    rw [hd, ok_bind] at ho
    rcases hn : nextCmd cs (fun c => c.name == name) with e | c
    · rw [hn, error_bind] at ho; simp at ho
    rw [hn, ok_bind] at ho
    obtain ⟨hm, hnm⟩ := nextCmd_ok hn
    simp only [beq_iff_eq] at hnm
    rcases hps : c.parametersFor c.type with e | ps
    · rw [hps, error_bind] at ho; simp at ho
    rw [hps, ok_bind, pure_ok] at ho
    simp only [Except.ok.injEq] at ho
    subst ho
    exact ⟨c, ⟨cs, definitionGet_ok hd, hm⟩, hnm, rfl, hnm⟩
  obtain ⟨c, h1, h2, h3, h4⟩ := hx
  obtain ⟨d, g1, g2, -, -, g5⟩ := fromUnpiFrame_ok hf
  rw [hs] at g1
  have : c = d := c14_table_unambiguous s c d h1 g1 (Or.inl (by rw [h3, g2, hid]))
  subst this
  refine ⟨?_, h4⟩
  rw [g5]
  exact h2

example : ∃ o, Obj.fromCommand .AF "dataRequest" exPayload = .ok o ∧ o.commandId = 1 :=
  ⟨_, fromCommand_eq exCmd_inTable exPayload, rfl⟩

/-! ## C15 -/

/-- **C15.** In every decoded message the values, in parameter order, have the announced sizes. -/
theorem c15_announced_sizes (f : Frame) (o : Obj) (h : Obj.fromUnpiFrame f = .ok o) :
    ∃ vs, o.payload = (o.parameters.map (·.1)).zip vs ∧ SizedAll none o.parameters vs := by
  obtain ⟨c, hc, hid, hp, hr, ho⟩ := fromUnpiFrame_ok h
  obtain ⟨hn, h8⟩ := paramsOf_nodup hc hp
  rw [readParameters_eq _ hn] at hr
  rcases hv : readVals none o.parameters f.data with e | ⟨vs, rest⟩
  · rw [hv] at hr; simp [Except.map] at hr
  rw [hv] at hr
  simp only [Except.map, Except.ok.injEq] at hr
  exact ⟨vs, hr.symm, readVals_sized _ h8 none _ _ _ (by simp) hv⟩

example : (Obj.fromUnpiFrame (Frame.of .AREQ .ZDO 0x85 [0x34, 0x12, 0, 0x34, 0x12, 2, 1, 0xF2, 9])).map (·.payload) =
    .ok [("srcaddr", .int 0x1234), ("status", .int 0), ("nwkaddr", .int 0x1234),
         ("activeepcount", .int 2), ("activeeplist", .ints [1, 0xF2])] := by
  decide +kernel

/-! ## C16 -/

/-- **C16.** A fitting neighbour entry is written as 22 bytes which read back as the same entry. -/
theorem c16_neighbor_round_trip (n : Neighbor) (h : NeighborFits n) :
    ∃ bytes, writeNeighbor n = .ok bytes ∧ bytes.length = 22 ∧
      ∀ rest, readNeighbor (bytes ++ rest) = .ok (n, rest) :=
  ⟨_, writeNeighbor_ok n h, by simp [nbrBytes, leBytes_length, h.extPanId, h.extAddr],
    (reads_neighbor n h).1⟩

/-- C16: the field layout, given byte by byte. -/
theorem c16_neighbor_layout (panId addr : List UInt8) (hp : panId.length = 8) (ha : addr.length = 8)
    (lo hi flags join depth lqi : UInt8) (rest : List UInt8) :
    readNeighbor (panId ++ addr ++ [lo, hi, flags, join, depth, lqi] ++ rest) =
      .ok ({ extPanId := panId, extAddr := addr, nwkAddr := lo.toNat + 256 * hi.toNat,
             deviceType := flags.toNat % 4, rxOnWhenIdle := flags.toNat / 4 % 4,
             relationship := flags.toNat / 16 % 8, permitJoin := join.toNat % 4,
             depth := depth.toNat, lqi := lqi.toNat }, rest) :=
  readNeighbor_layout panId addr hp ha lo hi flags join depth lqi rest

/-- C16: any 22 bytes decode, into an entry whose fields are within their widths and which
re-encodes to the same bytes up to the unused bits. -/
theorem c16_neighbor_decode (e rest : List UInt8) (h : e.length = 22) :
    ∃ n, readNeighbor (e ++ rest) = .ok (n, rest) ∧ NeighborFits n ∧
      writeNeighbor n = .ok (maskEntry e) := by
  have hex : ∃ n, readNeighbor (e ++ rest) = .ok (n, rest) := by
    have he : e = e.take 8 ++ (e.drop 8).take 8 ++ e.drop 16 := by
      rw [List.append_assoc]
      have : (e.drop 8).take 8 ++ e.drop 16 = e.drop 8 := by
        rw [show e.drop 16 = (e.drop 8).drop 8 by simp]; exact List.take_append_drop _ _
      rw [this, List.take_append_drop]
    have hlast : (e.drop 16).length = 6 := by simp [h]
    match hm : e.drop 16, hlast with
    | [lo, hi, flags, join, depth, lqi], _ =>
      rw [hm] at he
      rw [he]
      exact ⟨_, c16_neighbor_layout _ _ (by simp [h]) (by simp [h]) lo hi flags join depth lqi rest⟩
  obtain ⟨n, hn⟩ := hex
  obtain ⟨e', h1, h2, h3⟩ := neighbor_mask hn
  have : e' = e := List.append_cancel_right h2.symm
  subst this
  exact ⟨n, hn, (readNeighbor_ok hn).1, h3⟩

/-- A neighbour entry meeting the hypothesis of `c16_neighbor_round_trip`. -/
def exNeighbor : Neighbor :=
  { extPanId := [0xDD, 0xDD, 0xDD, 0xDD, 0xDD, 0xDD, 0xDD, 0xDD],
    extAddr := [1, 2, 3, 4, 5, 6, 7, 8], nwkAddr := 0xABCD, deviceType := 2, rxOnWhenIdle := 1,
    relationship := 4, permitJoin := 2, depth := 15, lqi := 200 }

example : NeighborFits exNeighbor := by
  constructor <;> decide

/-! ## C17 -/

/-- **C17 (partial).** A command's frame decodes for some data exactly if its parameter list is
readable: no routing, binding, network or associated-device list, and every variable-size
parameter directly after a number. Missing: not every indication of the table is of this kind,
see `c17_refuted` and the exact list in `c17_unreceivable`. -/
theorem c17_receivable_partial (s : Subsystem) (c : Cmd) (hc : InTable s c) (_ha : c.type = .AREQ) :
    (∃ data o, Obj.fromUnpiFrame (Frame.of .AREQ s c.id data) = .ok o) ↔ readable false c.request = true := by
  have hp : ParamsOf c .AREQ c.request := by unfold ParamsOf; rw [if_neg (by decide)]
  have hn := (table_params hc).1
  have key : ∀ data, Obj.fromUnpiFrame (Frame.of .AREQ s c.id data) = (readParameters data c.request).map (fun payload =>
      { commandType := .AREQ, subsystem := s, command := c.name, commandId := c.id,
        payload, parameters := c.request }) := fun data =>
    fromUnpiFrame_eq (f := (Frame.of .AREQ s c.id data))
      hc rfl rfl hp
  constructor
  · rintro ⟨data, o, h⟩
    rw [key, readParameters_eq _ hn] at h
    rcases hv : readVals none c.request data with e | ⟨vs, rest⟩
    · rw [hv] at h; simp [Except.map] at h
    · exact readVals_readable c.request none _ _ _ hv
  · intro h
    obtain ⟨vs, bs, hr⟩ := readable_reads c.request none (Or.inl rfl) h
    have := hr.1 []
    rw [List.append_nil] at this
    refine ⟨bs, { commandType := .AREQ, subsystem := s, command := c.name, commandId := c.id,
                  payload := (c.request.map (·.1)).zip vs, parameters := c.request }, ?_⟩
    rw [key, readParameters_eq _ hn, this]
    rfl

theorem table_unreceivable_dec : ∀ s ∈ allSubsystems, ∀ cs ∈ definition s, ∀ c ∈ cs,
    c.type = .AREQ → (readable false c.request = false ↔ s = .ZDO ∧ c.name ∈
      ["nwkAddrRsp", "ieeeAddrRsp", "mgmtNwkDiscRsp", "mgmtRtgRsp", "mgmtBindRsp"]) := by
  decide +kernel

/-- C17: exactly these five indications cannot be received, whatever data they carry; every other
indication of the table can. -/
theorem c17_unreceivable (s : Subsystem) (c : Cmd) (hc : InTable s c) (ha : c.type = .AREQ) :
    (∀ data, ∃ e, Obj.fromUnpiFrame (Frame.of .AREQ s c.id data) = .error e) ↔
      s = .ZDO ∧ c.name ∈ ["nwkAddrRsp", "ieeeAddrRsp", "mgmtNwkDiscRsp", "mgmtRtgRsp", "mgmtBindRsp"] := by
  obtain ⟨cs, h1, h2⟩ := hc
  rw [← table_unreceivable_dec s (mem_allSubsystems s) cs h1 c h2 ha]
  have hiff := c17_receivable_partial s c ⟨cs, h1, h2⟩ ha
  constructor
  · intro h
    rw [← Bool.not_eq_true]
    intro hr
    obtain ⟨data, o, ho⟩ := hiff.mpr hr
    obtain ⟨e, he⟩ := h data
    rw [he] at ho; simp at ho
  · intro h data
    rcases hr : Obj.fromUnpiFrame (Frame.of .AREQ s c.id data) with e | o
    · exact ⟨e, rfl⟩
    · have := hiff.mp ⟨data, o, hr⟩
      rw [h] at this; simp at this

/-- C17 fails: the answer to a network address request cannot be received. -/
theorem c17_refuted :
    ¬ ∀ (s : Subsystem) (c : Cmd), InTable s c → c.type = .AREQ →
      ∃ data o, Obj.fromUnpiFrame (Frame.of .AREQ s c.id data) = .ok o := by
  intro h
  have hex : ∃ c ∈ defZDO, c.type = .AREQ ∧ c.name = "nwkAddrRsp" := by decide +kernel
  obtain ⟨c, h1, h2, h3⟩ := hex
  obtain ⟨data, o, ho⟩ := h .ZDO c ⟨_, rfl, h1⟩ h2
  obtain ⟨e, he⟩ := (c17_unreceivable .ZDO c ⟨_, rfl, h1⟩ h2).mpr ⟨rfl, by rw [h3]; simp⟩ data
  rw [he] at ho; simp at ho

end Zcc
