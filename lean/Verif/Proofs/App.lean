import Verif.Spec.App
import Verif.Proofs.Cluster
import Verif.Proofs.Layout

/-!
# Message handling of the application (helper lemmas)
-/

namespace Zcc

open Spec

/-- A frame that carries the encoding of a valid payload decodes to that payload. -/
theorem decode_payload {s : Subsystem} {c : Cmd} (hc : InTable s c) {t : CommandType}
    (ht : t ≠ .SRSP) (vs : List Val) (hl : vs.length = c.request.length)
    (hv : ValidPayload ((c.request.map (·.1)).zip vs) none c.request) {bytes : List UInt8}
    (hw : writeParameters ((c.request.map (·.1)).zip vs) c.request = .ok bytes)
    (rest : List UInt8) :
    Obj.fromUnpiFrame (Frame.of t s c.id (bytes ++ rest)) =
      .ok { commandType := t, subsystem := s, command := c.name, commandId := c.id,
            payload := (c.request.map (·.1)).zip vs, parameters := c.request } := by
  have hn := (table_params hc).1
  have hp : ParamsOf c t c.request := by unfold ParamsOf; rw [if_neg ht]
  obtain ⟨vs', bs, h1, h2, h3, h4⟩ := writeVals_reads _ c.request none hv
  have hvs : vs' = vs := by
    apply List.ext_getElem (by omega)
    intro i hi hi'
    have hlook := h2 i (by omega) hi
    rw [lookup_zip _ _ hl hn i (by omega)] at hlook
    simpa using hlook.symm
  subst hvs
  rw [writeParameters_vals _ _ _ h1 h2] at hw
  rw [hw] at h3
  cases h3
  rw [fromUnpiFrame_eq (f := Frame.of t s c.id (bytes ++ rest)) hc rfl rfl hp, readParameters_eq _ hn]
  dsimp only
  rw [h4.1 rest]
  rfl

/-- The frame `handle_znp` makes of a message again. -/
theorem reencode {o : Obj} {bytes : List UInt8} (hw : writeParameters o.payload o.parameters = .ok bytes) :
    o.toUnpiFrame = .ok (Frame.of o.commandType o.subsystem o.commandId bytes) := by
  unfold Obj.toUnpiFrame
  rw [hw]
  rfl

theorem find_first {devices : List Device} {nwk : Int} {d : Device} (h : FirstWithNwk devices nwk d) :
    devices.find? (fun d => decide (some (Val.int nwk) = some (.int d.nwk))) = some d := by
  obtain ⟨pre, post, rfl, rfl, h⟩ := h
  rw [List.find?_append]
  have : pre.find? (fun x => decide (some (Val.int d.nwk) = some (.int x.nwk))) = none := by
    rw [List.find?_eq_none]
    intro x hx
    have := h x hx
    simp only [decide_eq_true_eq, Option.some.injEq, Val.int.injEq]
    exact fun e => this e.symm
  rw [this]
  simp

theorem find_none {devices : List Device} {nwk : Int} (h : ∀ d ∈ devices, d.nwk ≠ nwk) :
    devices.find? (fun d => decide (some (Val.int nwk) = some (.int d.nwk))) = none := by
  rw [List.find?_eq_none]
  intro x hx
  have := h x hx
  simp only [decide_eq_true_eq, Option.some.injEq, Val.int.injEq]
  exact fun e => this e.symm

theorem le16_leBytes (n : Nat) : leBytes 2 n = le16 n := rfl

theorem le32_leBytes (n : Nat) : leBytes 4 n = le32 n := by
  simp [leBytes, le32, Nat.div_div_eq_div_mul]

theorem leBytes_one (b : UInt8) : leBytes 1 b.toNat = [b] := by
  simp [leBytes]

theorem u8_isUInt (b : UInt8) : IsUInt 1 (b.toNat : Int) := isUInt_nat b.toNat_lt
theorem u16_isUInt (b : UInt16) : IsUInt 2 (b.toNat : Int) := isUInt_nat b.toNat_lt
theorem u32_isUInt (b : UInt32) : IsUInt 4 (b.toNat : Int) := isUInt_nat b.toNat_lt

theorem writeInt_u8 (b : UInt8) : writeInt (b.toNat : Int) 1 = .ok [b] := by
  rw [writeInt_ok 1 _ (u8_isUInt b), Int.toNat_natCast, leBytes_one]
theorem writeInt_u16 (b : UInt16) : writeInt (b.toNat : Int) 2 = .ok (le16 b.toNat) := by
  rw [writeInt_ok 2 _ (u16_isUInt b), Int.toNat_natCast, le16_leBytes]
theorem writeInt_u32 (b : UInt32) : writeInt (b.toNat : Int) 4 = .ok (le32 b.toNat) := by
  rw [writeInt_ok 4 _ (u32_isUInt b), Int.toNat_natCast, le32_leBytes]

theorem not_addrmode {name : String} (h : strEndsWith name "addrmode" = false) :
    ¬ IsAddrModeName name := by
  rintro ⟨pre, hp⟩
  unfold strEndsWith at h
  rw [hp] at h
  have : ("addrmode".toList).isSuffixOf (pre ++ "addrmode".toList) = true := by
    rw [List.isSuffixOf_iff_suffix]; exact ⟨pre, rfl⟩
  rw [this] at h
  cases h

/-! ### AF messages -/

/-- AF_INCOMING_MSG. -/
def incomingCmd : Cmd :=
  { name := "incomingMsg", id := 0x81, type := .AREQ,
    request := [("groupid", .UINT16), ("clusterid", .UINT16), ("srcaddr", .UINT16), ("srcendpoint", .UINT8), ("dstendpoint", .UINT8), ("wasbroadcast", .UINT8), ("linkquality", .UINT8), ("securityuse", .UINT8), ("timestamp", .UINT32), ("transseqnumber", .UINT8), ("len", .UINT8), ("data", .BUFFER)],
    response := none }

theorem incoming_inTable : InTable .AF incomingCmd := ⟨defAF, rfl, by decide +kernel⟩

def incomingVals (m : AppMessage) : List Val :=
  [.int m.group.toNat, .int m.cluster.toNat, .int m.src.toNat, .int m.srcEp.toNat,
   .int m.dstEp.toNat, .int m.broadcast.toNat, .int m.lqi.toNat, .int m.secure.toNat,
   .int m.time.toNat, .int m.tsn.toNat, .int m.data.length, .bytes m.data]

theorem u8_ofNat_toNat {n : Nat} (h : n < 256) : (UInt8.ofNat n).toNat = n := by
  simp [Nat.mod_eq_of_lt h]

theorem fits_u8 (name : String) (prev : Option Val) (b : UInt8)
    (h : strEndsWith name "addrmode" = false) : FitsParam name prev .UINT8 (.int b.toNat) :=
  ⟨_, rfl, u8_isUInt b, fun hn => absurd hn (not_addrmode h)⟩

theorem fits_u16 (name : String) (prev : Option Val) (b : UInt16) :
    FitsParam name prev .UINT16 (.int b.toNat) := ⟨_, rfl, u16_isUInt b⟩

theorem fits_u32 (name : String) (prev : Option Val) (b : UInt32) :
    FitsParam name prev .UINT32 (.int b.toNat) := ⟨_, rfl, u32_isUInt b⟩

theorem incoming_valid (m : AppMessage) (hd : m.data.length < 256) :
    ValidPayload ((incomingCmd.request.map (·.1)).zip (incomingVals m)) none incomingCmd.request := by
  refine ⟨_, rfl, fits_u16 _ _ _, _, rfl, fits_u16 _ _ _, _, rfl, fits_u16 _ _ _,
    _, rfl, fits_u8 _ _ _ (by decide +kernel), _, rfl, fits_u8 _ _ _ (by decide +kernel),
    _, rfl, fits_u8 _ _ _ (by decide +kernel), _, rfl, fits_u8 _ _ _ (by decide +kernel),
    _, rfl, fits_u8 _ _ _ (by decide +kernel), _, rfl, fits_u32 _ _ _,
    _, rfl, fits_u8 _ _ _ (by decide +kernel), _, rfl, ?_, _, rfl, ⟨_, rfl, rfl⟩, trivial⟩
  have := fits_u8 "len" (some (.int m.tsn.toNat)) (UInt8.ofNat m.data.length) (by decide +kernel)
  rw [u8_ofNat_toNat hd] at this
  exact this

theorem writeInt_len8 {n : Nat} (h : n < 256) : writeInt (n : Int) 1 = .ok [UInt8.ofNat n] := by
  have := writeInt_u8 (UInt8.ofNat n)
  rw [u8_ofNat_toNat h] at this
  exact this

theorem write_zip {ps : Params} {vs : List Val} (hl : vs.length = ps.length)
    (hn : (ps.map (·.1)).Nodup) :
    writeParameters ((ps.map (·.1)).zip vs) ps = writeVals ps vs :=
  writeParameters_vals _ _ _ hl (fun i hi _ => lookup_zip ps vs hl hn i hi)

theorem incoming_bytes (m : AppMessage) (hd : m.data.length < 256) :
    writeParameters ((incomingCmd.request.map (·.1)).zip (incomingVals m)) incomingCmd.request =
      .ok (m.frame []).data := by
  rw [write_zip rfl (table_params incoming_inTable).1]
  simp only [incomingCmd, incomingVals, writeVals, writeParameter, writeScalar,
    writeInt_u8, writeInt_u16, writeInt_u32, writeInt_len8 hd, ok_bind, pure_ok, AppMessage.frame,
    List.append_nil, List.append_assoc, List.cons_append, List.nil_append]

/-- A message as `handle_znp` gets it. -/
abbrev msgObj (t : CommandType) (s : Subsystem) (c : Cmd) (vs : List Val) (q : Option Int) : Obj :=
  { commandType := t, subsystem := s, command := c.name, commandId := c.id,
    payload := (c.request.map (·.1)).zip vs, parameters := c.request, sequence := q }

theorem handleZnp_af {o : Obj} (ht : o.commandType = .AREQ) (hs : o.subsystem = .AF)
    (hc : o.command = "incomingMsg" ∨ o.command = "incomingMsgExt") {f : Frame}
    (hf : o.toUnpiFrame = .ok f) {cluster srcEp dstEp data lqi : Val}
    (hp : afParts o.payload = .ok (cluster, srcEp, dstEp, data, lqi)) (a : App) :
    a.handleZnp o = ⟨a, a.forward (o.payload.lookup "srcaddr") (o.payload.lookup "ieeeaddr")
      cluster srcEp dstEp data lqi, none⟩ := by
  have hz : ¬ (o.subsystem = .ZDO) := by rw [hs]; decide
  have hi : o.command ∉ IGNORED := by
    rcases hc with h | h <;> rw [h] <;> decide +kernel
  unfold App.handleZnp
  rw [if_neg (by simp [ht]), hf]
  dsimp only
  rw [if_neg (fun h => hz h.1)]
  unfold App.dispatch
  rw [if_neg hi, if_neg (fun h => hz h.1)]
  dsimp only
  rw [if_neg (fun h => hz h.1), if_neg (fun h => hz h.1), if_pos ⟨hs, hc⟩, hp]
  simp only [List.nil_append]

theorem incoming_handled (m : AppMessage) (hlen : m.data.length < 256) (trailing : List UInt8) :
    ∃ o, Obj.fromUnpiFrame (m.frame trailing) = .ok o ∧ ∀ (a : App) q,
      a.handleZnp { o with sequence := q } =
        ⟨a, (match a.devices.find? (fun d => decide (some (Val.int m.src.toNat) = some (.int d.nwk))) with
          | some d => handOver d m.lqi.toNat m.cluster.toNat m.srcEp.toNat m.dstEp.toNat m.data
          | none => []), none⟩ := by
  have hf : m.frame trailing = Frame.of .AREQ .AF incomingCmd.id ((m.frame []).data ++ trailing) := by
    simp [AppMessage.frame, incomingCmd]
  have hdec := decode_payload incoming_inTable (t := .AREQ) (by decide) (incomingVals m) rfl
    (incoming_valid m hlen) (incoming_bytes m hlen) trailing
  rw [← hf] at hdec
  refine ⟨_, hdec, ?_⟩
  intro a q
  have hre : (msgObj .AREQ .AF incomingCmd (incomingVals m) q).toUnpiFrame =
      .ok (Frame.of .AREQ .AF incomingCmd.id (m.frame []).data) := reencode (incoming_bytes m hlen)
  have hparts : afParts ((incomingCmd.request.map (·.1)).zip (incomingVals m)) =
    .ok (.int m.cluster.toNat, .int m.srcEp.toNat, .int m.dstEp.toNat, .bytes m.data,
      .int m.lqi.toNat) := rfl
  have h1 : ((incomingCmd.request.map (·.1)).zip (incomingVals m)).lookup "srcaddr" =
    some (.int m.src.toNat) := rfl
  have h2 : ((incomingCmd.request.map (·.1)).zip (incomingVals m)).lookup "ieeeaddr" = none := rfl
  rw [handleZnp_af (o := msgObj .AREQ .AF incomingCmd (incomingVals m) q) rfl rfl (Or.inl rfl) hre
    hparts a]
  refine congrArg (fun e => (⟨a, e, none⟩ : Handled)) ?_
  dsimp only
  rw [h1, h2]
  unfold App.forward App.sender App.deviceByNwk
  dsimp only
  split
  · rename_i h; rw [h]
  · rename_i h; rw [h]; rfl

/-- AF_INCOMING_MSG_EXT. -/
def incomingExtCmd : Cmd :=
  { name := "incomingMsgExt", id := 0x82, type := .AREQ,
    request := [("groupid", .UINT16), ("clusterid", .UINT16), ("srcaddrmode", .UINT8), ("srcaddr", .IEEEADDR), ("srcendpoint", .UINT8), ("srcpanid", .UINT16), ("dstendpoint", .UINT8), ("wasbroadcast", .UINT8), ("linkquality", .UINT8), ("securityuse", .UINT8), ("timestamp", .UINT32), ("transseqnumber", .UINT8), ("len", .UINT16), ("data", .BUFFER)],
    response := none }

theorem incomingExt_inTable : InTable .AF incomingExtCmd := ⟨defAF, rfl, by decide +kernel⟩

def incomingExtVals (m : AppMessage) (mode : UInt8) (addr : List UInt8) (pan : UInt16) : List Val :=
  [.int m.group.toNat, .int m.cluster.toNat, .int mode.toNat, .eui addr, .int m.srcEp.toNat,
   .int pan.toNat, .int m.dstEp.toNat, .int m.broadcast.toNat, .int m.lqi.toNat, .int m.secure.toNat,
   .int m.time.toNat, .int m.tsn.toNat, .int m.data.length, .bytes m.data]

theorem incomingExt_valid (m : AppMessage) (mode : UInt8) (addr : List UInt8) (pan : UInt16)
    (hm : mode.toNat ∈ addressModes) (ha : addr.length = 8) (hd : m.data.length < 65536) :
    ValidPayload ((incomingExtCmd.request.map (·.1)).zip (incomingExtVals m mode addr pan)) none
      incomingExtCmd.request := by
  refine ⟨_, rfl, fits_u16 _ _ _, _, rfl, fits_u16 _ _ _, _, rfl, ⟨_, rfl, u8_isUInt _, fun _ => ?_⟩,
    _, rfl, ⟨_, rfl, ha⟩, _, rfl, fits_u8 _ _ _ (by decide +kernel),
    _, rfl, fits_u16 _ _ _, _, rfl, fits_u8 _ _ _ (by decide +kernel),
    _, rfl, fits_u8 _ _ _ (by decide +kernel), _, rfl, fits_u8 _ _ _ (by decide +kernel),
    _, rfl, fits_u8 _ _ _ (by decide +kernel), _, rfl, fits_u32 _ _ _,
    _, rfl, fits_u8 _ _ _ (by decide +kernel), _, rfl, ⟨_, rfl, isUInt_nat hd⟩, _, rfl,
    ⟨_, rfl, rfl⟩, trivial⟩
  simp only [addressModes, List.mem_cons, List.not_mem_nil, or_false] at hm
  omega

theorem writeInt_len16 {n : Nat} (h : n < 65536) : writeInt (n : Int) 2 = .ok (le16 n) := by
  rw [writeInt_ok 2 _ (isUInt_nat h), Int.toNat_natCast, le16_leBytes]

theorem writeIeee (b : List UInt8) : writeParameter .IEEEADDR (.eui b) = .ok b := by
  simp only [writeParameter, writeIter, writeInts_bytes]

theorem incomingExt_bytes (m : AppMessage) (mode : UInt8) (addr : List UInt8) (pan : UInt16)
    (hd : m.data.length < 65536) :
    writeParameters ((incomingExtCmd.request.map (·.1)).zip (incomingExtVals m mode addr pan))
      incomingExtCmd.request = .ok (m.frameExt mode addr pan).data := by
  rw [write_zip rfl (table_params incomingExt_inTable).1]
  simp only [incomingExtCmd, incomingExtVals, writeVals, writeIeee]
  simp only [writeParameter, writeScalar,
    writeInt_u8, writeInt_u16, writeInt_u32, writeInt_len16 hd, ok_bind, pure_ok,
    AppMessage.frameExt, List.append_nil, List.append_assoc, List.cons_append, List.nil_append]

theorem incomingExt_handled (m : AppMessage) (mode : UInt8) (addr : List UInt8) (pan : UInt16)
    (hm : mode.toNat ∈ addressModes) (ha : addr.length = 8) (hlen : m.data.length < 65536) :
    ∃ o, Obj.fromUnpiFrame (m.frameExt mode addr pan) = .ok o ∧ ∀ (a : App) q,
      a.handleZnp { o with sequence := q } = ⟨a, [], none⟩ := by
  have hdec := decode_payload incomingExt_inTable (t := .AREQ) (by decide)
    (incomingExtVals m mode addr pan) rfl
    (incomingExt_valid m mode addr pan hm ha hlen) (incomingExt_bytes m mode addr pan hlen) []
  rw [List.append_nil] at hdec
  refine ⟨_, hdec, ?_⟩
  intro a q
  have hre : (msgObj .AREQ .AF incomingExtCmd (incomingExtVals m mode addr pan) q).toUnpiFrame =
      .ok (Frame.of .AREQ .AF incomingExtCmd.id (m.frameExt mode addr pan).data) :=
    reencode (incomingExt_bytes m mode addr pan hlen)
  have hparts : afParts ((incomingExtCmd.request.map (·.1)).zip (incomingExtVals m mode addr pan)) =
    .ok (.int m.cluster.toNat, .int m.srcEp.toNat, .int m.dstEp.toNat, .bytes m.data,
      .int m.lqi.toNat) := rfl
  have h1 : ((incomingExtCmd.request.map (·.1)).zip (incomingExtVals m mode addr pan)).lookup
    "srcaddr" = some (.eui addr) := rfl
  have h2 : ((incomingExtCmd.request.map (·.1)).zip (incomingExtVals m mode addr pan)).lookup
    "ieeeaddr" = none := rfl
  rw [handleZnp_af (o := msgObj .AREQ .AF incomingExtCmd (incomingExtVals m mode addr pan) q) rfl rfl
    (Or.inr rfl) hre hparts a]
  refine congrArg (fun e => (⟨a, e, none⟩ : Handled)) ?_
  dsimp only
  rw [h1, h2]
  unfold App.forward App.sender App.deviceByNwk
  have : a.devices.find? (fun d => decide (some (Val.eui addr) = some (.int d.nwk))) = none := by
    rw [List.find?_eq_none]; intro x _; simp
  rw [this]

/-! ### ZDO messages -/

theorem lookup_REQUESTS_dec : ∀ r ∈ zdoReplies,
    REQUESTS.lookup r.2.1 = some ((r.2.2 : Int), 2) ∧ r.2.1 ∉ IGNORED ∧
    r.2.1 ≠ "endDeviceAnnceInd" ∧ r.2.1 ≠ "permitJoinInd" := by decide +kernel

theorem tsnByte_ok {n : Nat} (h : n < 256) : tsnByte (n : Int) = .ok (UInt8.ofNat n) := by
  unfold tsnByte
  rw [if_pos (by omega), Int.toNat_natCast]

theorem setLed_on (a : App) (hp : a.product ≠ none) :
    a.setLed ledOn = (if a.product ≠ some 1 then [.led 1] else [], none) := by
  unfold App.setLed
  rcases h : a.product with _ | p
  · exact absurd h hp
  · dsimp only
    have : (¬ p = zStack3x0) ↔ (some p ≠ some 1) := by simp [zStack3x0]
    by_cases h1 : p = 1
    · subst h1; rfl
    · rw [if_pos (by simpa [zStack3x0] using h1), if_pos (by simpa using h1)]; rfl

theorem handleZnp_zdo {o : Obj} {r : Nat × String × Nat} (hr : r ∈ zdoReplies)
    (ht : o.commandType = .AREQ) (hs : o.subsystem = .ZDO) (hc : o.command = r.2.1) {f : Frame}
    (hf : o.toUnpiFrame = .ok f) {n : Nat} (hn : n < 256) (hq : o.sequence = some (n : Int)) (a : App)
    (hp : a.product ≠ none) :
    a.handleZnp o = ⟨a, ledFor a o.command ++ a.forward (o.payload.lookup "srcaddr")
      (o.payload.lookup "ieeeaddr") (.int r.2.2) (.int 0) (.int 0)
      (.bytes (UInt8.ofNat n :: f.data.drop 2)) (.int 0), none⟩ := by
  obtain ⟨h1, h2, h3, h4⟩ := lookup_REQUESTS_dec r hr
  rw [← hc] at h1 h2 h3 h4
  unfold App.handleZnp
  rw [if_neg (by simp [ht]), hf]
  dsimp only
  rw [if_neg (fun h => h3 h.2)]
  unfold App.dispatch
  rw [if_neg h2, setLed_on a hp]
  have hled : (if o.subsystem = Subsystem.ZDO ∧ o.command = "mgmtPermitJoinRsp" then
      ((if a.product ≠ some 1 then [Effect.led 1] else [], none) : List Effect × Option PyErr)
      else ([], none)) = (ledFor a o.command, none) := by
    unfold ledFor
    by_cases hcm : o.command = "mgmtPermitJoinRsp"
    · rw [if_pos ⟨hs, hcm⟩]
      by_cases hpr : a.product ≠ some 1
      · rw [if_pos hpr, if_pos ⟨hcm, hpr⟩]
      · rw [if_neg hpr, if_neg (fun h => hpr h.2)]
    · rw [if_neg (fun h => hcm h.2), if_neg (fun h => hcm h.1)]
  rw [hled]
  dsimp only
  rw [if_neg (fun h => h4 h.2), if_pos ⟨hs, by rw [h1]; rfl⟩, h1, hq]
  dsimp only
  rw [tsnByte_ok hn]

/-- A message whose types are writable (and no neighbour list) is encoded to exactly the bytes it
was decoded from. -/
theorem reencode_exact {f : Frame} {o : Obj} (h : Obj.fromUnpiFrame f = .ok o)
    (hw : ∀ p ∈ o.parameters, Writable p.2 ∧ p.2 ≠ .LIST_NEIGHBOR_LQI) :
    ∃ data rest vs, f.data = data ++ rest ∧ Fields none o.parameters data vs ∧
      writeParameters o.payload o.parameters = .ok data := by
  obtain ⟨c, ps, x, rest, vs, hc, -, hp, hx, hF, rfl⟩ := decode_iff.mp h
  refine ⟨x, rest, vs, hx, hF, ?_⟩
  exact (write_zip (fields_length hF) (paramsOf_nodup hc hp).1).trans (fields_write hw hF)

/-! ### The bodies of replies -/

theorem fields_u8 {name : String} {prev : Option Val} {ps : Params} {x : List UInt8} {vs : List Val}
    (h : Fields prev ((name, .UINT8) :: ps) x vs) :
    ∃ a b vs', x = a :: b ∧ vs = .int a.toNat :: vs' ∧ Fields (some (.int a.toNat)) ps b vs' := by
  obtain ⟨_, b, _, vs', rfl, rfl, ⟨a, rfl, rfl, -⟩, h⟩ := h
  exact ⟨a, b, vs', rfl, rfl, h⟩

theorem fields_u8_of {name : String} (hn : strEndsWith name "addrmode" = false) {prev : Option Val}
    {ps : Params} (a : UInt8) {b : List UInt8} (h : ∃ vs, Fields (some (.int a.toNat)) ps b vs) :
    ∃ vs, Fields prev ((name, .UINT8) :: ps) (a :: b) vs := by
  obtain ⟨vs, h⟩ := h
  refine ⟨.int a.toNat :: vs, [a], b, _, vs, rfl, rfl, ⟨a, rfl, rfl, fun h' => ?_⟩, h⟩
  rw [(addrmode_iff name).mpr h'] at hn
  simp at hn

theorem fields_u16 {name : String} {prev : Option Val} {ps : Params} {x : List UInt8} {vs : List Val}
    (h : Fields prev ((name, .UINT16) :: ps) x vs) :
    ∃ a a' b v vs', x = a :: a' :: b ∧ vs = v :: vs' ∧ Fields (some v) ps b vs' := by
  obtain ⟨_, b, v, vs', rfl, rfl, ⟨a, a', rfl, -⟩, h⟩ := h
  exact ⟨a, a', b, v, vs', rfl, rfl, h⟩

theorem fields_u16_of {name : String} {prev : Option Val} {ps : Params} (a a' : UInt8) {b : List UInt8}
    (h : ∀ v, ∃ vs, Fields (some v) ps b vs) :
    ∃ vs, Fields prev ((name, .UINT16) :: ps) (a :: a' :: b) vs := by
  obtain ⟨vs, h⟩ := h (.int (a.toNat + 256 * a'.toNat : Nat))
  exact ⟨_, [a, a'], b, _, vs, rfl, rfl, ⟨a, a', rfl, rfl⟩, h⟩

theorem pairs_of : (n : Nat) → (x : List UInt8) → x.length = 2 * n →
    ∃ l : List (UInt8 × UInt8), l.length = n ∧ x = l.flatMap (fun p => [p.1, p.2])
  | 0, [], _ => ⟨[], rfl, rfl⟩
  | n + 1, [a], h => by simp at h; omega
  | n + 1, a :: b :: x, h => by
    obtain ⟨l, h1, h2⟩ := pairs_of n x (by simp at h; omega)
    exact ⟨(a, b) :: l, by simp [h1], by simp [h2]⟩

theorem pairs_length (l : List (UInt8 × UInt8)) : (l.flatMap (fun p => [p.1, p.2])).length = 2 * l.length := by
  induction l with
  | nil => rfl
  | cons p l ih => simp only [List.flatMap_cons, List.length_append, ih, List.length_cons, List.length_nil]; omega

theorem chunks_of : (n : Nat) → (x : List UInt8) → x.length = 22 * n →
    ∃ es : List (List UInt8), (∀ e ∈ es, e.length = 22) ∧ es.length = n ∧ x = es.flatten
  | 0, [], _ => ⟨[], by simp, rfl, rfl⟩
  | n + 1, x, h => by
    obtain ⟨es, h1, h2, h3⟩ := chunks_of n (x.drop 22) (by simp; omega)
    exact ⟨x.take 22 :: es, by simpa [h] using ⟨by omega, h1⟩, by simp [h2],
      by rw [List.flatten_cons, ← h3, List.take_append_drop]⟩

theorem chunks_length (es : List (List UInt8)) (h : ∀ e ∈ es, e.length = 22) :
    es.flatten.length = 22 * es.length := by
  induction es with
  | nil => rfl
  | cons e es ih =>
    rw [List.flatten_cons, List.length_append, h e (by simp), ih (fun x hx => h x (by simp [hx])),
      List.length_cons]
    omega

theorem fields_list16 {name : String} {n : Nat} {ps : Params} {x : List UInt8} {vs : List Val}
    (h : Fields (some (.int n)) ((name, .LIST_UINT16) :: ps) x vs) :
    ∃ a b v vs', x = a ++ b ∧ vs = v :: vs' ∧ a.length = 2 * n ∧ Fields (some v) ps b vs' := by
  obtain ⟨_, b, v, vs', rfl, rfl, ⟨l, hl, rfl, -⟩, h⟩ := h
  refine ⟨_, b, v, vs', rfl, rfl, ?_, h⟩
  simp only [Option.some.injEq, Val.int.injEq] at hl
  rw [pairs_length]
  omega

theorem fields_list16_of {name : String} {n : Nat} {ps : Params} {x b : List UInt8} (hx : x.length = 2 * n)
    (h : ∀ v, ∃ vs, Fields (some v) ps b vs) :
    ∃ vs, Fields (some (.int n)) ((name, .LIST_UINT16) :: ps) (x ++ b) vs := by
  obtain ⟨l, rfl, rfl⟩ := pairs_of n x hx
  obtain ⟨vs, h⟩ := h (.ints (l.map (fun p => ((p.1.toNat + 256 * p.2.toNat : Nat) : Int))))
  exact ⟨_, _, b, _, vs, rfl, rfl, ⟨l, rfl, rfl, rfl⟩, h⟩

/-- The parameters of the handled replies. -/
def replyParams : Nat → Params
  | 0x82 => [("srcaddr", .UINT16), ("status", .UINT8), ("nwkaddr", .UINT16),
      ("logicaltype_cmplxdescavai_userdescavai", .UINT8), ("apsflags_freqband", .UINT8),
      ("maccapflags", .UINT8), ("manufacturercode", .UINT16), ("maxbuffersize", .UINT8),
      ("maxintransfersize", .UINT16), ("servermask", .UINT16), ("maxouttransfersize", .UINT16),
      ("descriptorcap", .UINT8)]
  | 0x84 => [("srcaddr", .UINT16), ("status", .UINT8), ("nwkaddr", .UINT16), ("len", .UINT8),
      ("endpoint", .UINT8), ("profileid", .UINT16), ("deviceid", .UINT16), ("deviceversion", .UINT8),
      ("numinclusters", .UINT8), ("inclusterlist", .LIST_UINT16), ("numoutclusters", .UINT8),
      ("outclusterlist", .LIST_UINT16)]
  | 0x85 => [("srcaddr", .UINT16), ("status", .UINT8), ("nwkaddr", .UINT16), ("activeepcount", .UINT8),
      ("activeeplist", .LIST_UINT8)]
  | 0xB1 => [("srcaddr", .UINT16), ("status", .UINT8), ("neighbortableentries", .UINT8),
      ("startindex", .UINT8), ("neighborlqilistcount", .UINT8), ("neighborlqilist", .LIST_NEIGHBOR_LQI)]
  | _ => [("srcaddr", .UINT16), ("status", .UINT8)]

theorem replyParams_dec : ∀ r ∈ zdoReplies, (∃ c ∈ defZDO, c.id = r.1 ∧ c.request = replyParams r.1) ∧
    ∀ c ∈ defZDO, c.id = r.1 → c.request = replyParams r.1 := by decide +kernel

/-- What a reply decodes from: the source address and a body. -/
theorem reply_fields_body {r : Nat × String × Nat} (hr : r ∈ zdoReplies) {x : List UInt8} {vs : List Val}
    (h : Fields none (replyParams r.1) x vs) : ∃ a a' b, x = a :: a' :: b ∧ ReplyBody r.1 b := by
  simp only [zdoReplies, List.mem_cons, List.not_mem_nil, or_false] at hr
  rcases hr with rfl | rfl | rfl | rfl | rfl | rfl <;> simp only [replyParams] at h <;>
    replace h := fields_u16 h <;> obtain ⟨a, a', b, v, vs', rfl, rfl, h⟩ := h <;> refine ⟨a, a', b, rfl, ?_⟩ <;>
    replace h := fields_u8 h <;> obtain ⟨st, b, vs', rfl, rfl, h⟩ := h
  · replace h := fields_u16 h; obtain ⟨b1, b2, b, v, vs', rfl, rfl, h⟩ := h
    replace h := fields_u8 h; obtain ⟨b3, b, vs', rfl, rfl, h⟩ := h
    replace h := fields_u8 h; obtain ⟨b4, b, vs', rfl, rfl, h⟩ := h
    replace h := fields_u8 h; obtain ⟨b5, b, vs', rfl, rfl, h⟩ := h
    replace h := fields_u16 h; obtain ⟨b6, b7, b, v, vs', rfl, rfl, h⟩ := h
    replace h := fields_u8 h; obtain ⟨b8, b, vs', rfl, rfl, h⟩ := h
    replace h := fields_u16 h; obtain ⟨b9, b10, b, v, vs', rfl, rfl, h⟩ := h
    replace h := fields_u16 h; obtain ⟨b11, b12, b, v, vs', rfl, rfl, h⟩ := h
    replace h := fields_u16 h; obtain ⟨b13, b14, b, v, vs', rfl, rfl, h⟩ := h
    replace h := fields_u8 h; obtain ⟨b15, b, vs', rfl, rfl, rfl, rfl⟩ := h
    exact Or.inl ⟨rfl, rfl⟩
  · replace h := fields_u16 h; obtain ⟨b1, b2, b, v, vs', rfl, rfl, h⟩ := h
    replace h := fields_u8 h; obtain ⟨b3, b, vs', rfl, rfl, h⟩ := h
    replace h := fields_u8 h; obtain ⟨b4, b, vs', rfl, rfl, h⟩ := h
    replace h := fields_u16 h; obtain ⟨b5, b6, b, v, vs', rfl, rfl, h⟩ := h
    replace h := fields_u16 h; obtain ⟨b7, b8, b, v, vs', rfl, rfl, h⟩ := h
    replace h := fields_u8 h; obtain ⟨b9, b, vs', rfl, rfl, h⟩ := h
    replace h := fields_u8 h; obtain ⟨nin, b, vs', rfl, rfl, h⟩ := h
    replace h := fields_list16 h; obtain ⟨ins, b, v, vs', rfl, rfl, hin, h⟩ := h
    replace h := fields_u8 h; obtain ⟨nout, b, vs', rfl, rfl, h⟩ := h
    replace h := fields_list16 h; obtain ⟨outs, b, v, vs', rfl, rfl, hout, rfl, rfl⟩ := h
    exact Or.inr (Or.inl ⟨rfl, [st, b1, b2, b3, b4, b5, b6, b7, b8, b9], nin, ins, nout, outs, rfl,
      by simp, hin, hout⟩)
  · replace h := fields_u16 h; obtain ⟨b1, b2, b, v, vs', rfl, rfl, h⟩ := h
    replace h := fields_u8 h; obtain ⟨n, b, vs', rfl, rfl, h⟩ := h
    obtain ⟨eps, b, v, vs', rfl, rfl, ⟨hn, -⟩, rfl, rfl⟩ := h
    simp only [Option.some.injEq, Val.int.injEq] at hn
    exact Or.inr (Or.inr (Or.inl ⟨rfl, [st, b1, b2], n, eps, rfl, by simp, by omega⟩))
  · obtain ⟨rfl, rfl⟩ := h
    exact Or.inr (Or.inr (Or.inr (Or.inl ⟨Or.inl rfl, rfl⟩)))
  · replace h := fields_u8 h; obtain ⟨b1, b, vs', rfl, rfl, h⟩ := h
    replace h := fields_u8 h; obtain ⟨b2, b, vs', rfl, rfl, h⟩ := h
    replace h := fields_u8 h; obtain ⟨n, b, vs', rfl, rfl, h⟩ := h
    obtain ⟨_, b, v, vs', rfl, rfl, ⟨es, he, hn, rfl, -⟩, rfl, rfl⟩ := h
    simp only [Option.some.injEq, Val.int.injEq] at hn
    exact Or.inr (Or.inr (Or.inr (Or.inr ⟨rfl, [st, b1, b2], n, es.flatten, rfl, by simp,
      by rw [chunks_length es he]; omega⟩)))
  · obtain ⟨rfl, rfl⟩ := h
    exact Or.inr (Or.inr (Or.inr (Or.inl ⟨Or.inr rfl, rfl⟩)))

/-- Every address and body decode. -/
theorem reply_body_fields {r : Nat × String × Nat} (hr : r ∈ zdoReplies) (a a' : UInt8) {b : List UInt8}
    (h : ReplyBody r.1 b) : ∃ vs, Fields none (replyParams r.1) (a :: a' :: b) vs := by
  simp only [zdoReplies, List.mem_cons, List.not_mem_nil, or_false] at hr
  rcases hr with rfl | rfl | rfl | rfl | rfl | rfl <;> simp only [replyParams] <;>
    refine fields_u16_of _ _ (fun _ => ?_) <;> simp only [ReplyBody] at h <;> simp only [
      Nat.reduceEqDiff, false_and, false_or, or_false, or_self, true_and] at h
  · match b, h with
    | [_, _, _, _, _, _, _, _, _, _, _, _, _, _, _, _], _ =>
      refine fields_u8_of (by decide) _ (fields_u16_of _ _ fun _ => fields_u8_of (by decide) _ (fields_u8_of (by decide) _
        (fields_u8_of (by decide) _ (fields_u16_of _ _ fun _ => fields_u8_of (by decide) _ (fields_u16_of _ _ fun _ =>
        fields_u16_of _ _ fun _ => fields_u16_of _ _ fun _ => fields_u8_of (by decide) _ ?_)))))
      exact ⟨[], rfl, rfl⟩
  · obtain ⟨head, nin, ins, nout, outs, hh, rfl, hin, hout⟩ := h
    match head, hh with
    | [_, _, _, _, _, _, _, _, _, _], _ =>
      refine fields_u8_of (by decide) _ (fields_u16_of _ _ fun _ => fields_u8_of (by decide) _ (fields_u8_of (by decide) _
        (fields_u16_of _ _ fun _ => fields_u16_of _ _ fun _ => fields_u8_of (by decide) _ (fields_u8_of (by decide) _
        (fields_list16_of hin fun _ => fields_u8_of (by decide) _ ?_)))))
      have := fields_list16_of (name := "outclusterlist") (ps := []) (b := []) hout (fun _ => ⟨[], rfl, rfl⟩)
      rwa [List.append_nil] at this
  · obtain ⟨head, n, eps, hh, rfl, hn⟩ := h
    match head, hh with
    | [_, _, _], _ =>
      refine fields_u8_of (by decide) _ (fields_u16_of _ _ fun _ => fields_u8_of (by decide) _ ?_)
      exact ⟨_, eps, [], _, [], by simp, rfl, ⟨by rw [hn], rfl⟩, rfl, rfl⟩
  · match b, h with
    | [_], _ => exact fields_u8_of (by decide) _ ⟨[], rfl, rfl⟩
  · obtain ⟨head, n, entries, hh, rfl, hn⟩ := h
    obtain ⟨es, he, hes, rfl⟩ := chunks_of _ _ hn
    match head, hh with
    | [_, _, _], _ =>
      refine fields_u8_of (by decide) _ (fields_u8_of (by decide) _ (fields_u8_of (by decide) _
        (fields_u8_of (by decide) _ ?_)))
      exact ⟨_, es.flatten, [], _, [], by simp, rfl, ⟨es, he, by rw [hes], rfl, rfl⟩, rfl, rfl⟩
  · match b, h with
    | [_], _ => exact fields_u8_of (by decide) _ ⟨[], rfl, rfl⟩

/-- The parameters of the handled replies. -/
theorem reply_params_dec : ∀ r ∈ zdoReplies, ∀ c ∈ defZDO, c.id = r.1 →
    c.name = r.2.1 ∧ (∀ p ∈ c.request, Writable p.2) ∧
    (c.name ≠ "mgmtLqiRsp" → ∀ p ∈ c.request, p.2 ≠ .LIST_NEIGHBOR_LQI) ∧
    c.request.head? = some ("srcaddr", .UINT16) ∧ "ieeeaddr" ∉ c.request.map (·.1) := by
  decide +kernel

/-! ### Announcements -/

/-- ZDO_END_DEVICE_ANNCE_IND. -/
def annceCmd : Cmd :=
  { name := "endDeviceAnnceInd", id := 0xC1, type := .AREQ,
    request := [("srcaddr", .UINT16), ("nwkaddr", .UINT16), ("ieeeaddr", .IEEEADDR), ("capabilities", .UINT8)],
    response := none }

theorem annce_inTable : InTable .ZDO annceCmd := ⟨defZDO, rfl, by decide +kernel⟩

def annceVals (src nwk : UInt16) (ieee : List UInt8) (caps : UInt8) : List Val :=
  [.int src.toNat, .int nwk.toNat, .eui ieee, .int caps.toNat]

theorem annce_valid (src nwk : UInt16) (ieee : List UInt8) (caps : UInt8) (hi : ieee.length = 8) :
    ValidPayload ((annceCmd.request.map (·.1)).zip (annceVals src nwk ieee caps)) none
      annceCmd.request :=
  ⟨_, rfl, fits_u16 _ _ _, _, rfl, fits_u16 _ _ _, _, rfl, ⟨_, rfl, hi⟩,
    _, rfl, fits_u8 _ _ _ (by decide +kernel), trivial⟩

theorem annce_bytes (src nwk : UInt16) (ieee : List UInt8) (caps : UInt8) :
    writeParameters ((annceCmd.request.map (·.1)).zip (annceVals src nwk ieee caps)) annceCmd.request =
      .ok (announcement src nwk ieee caps []).data := by
  rw [write_zip rfl (table_params annce_inTable).1]
  simp only [annceCmd, annceVals, writeVals, writeIeee]
  simp only [writeParameter, writeScalar, writeInt_u8, writeInt_u16, ok_bind, pure_ok, announcement,
    List.append_nil, List.append_assoc]

/-- What an announcement does to the device table. -/
theorem handleJoin_spec (a : App) (nwk : Int) (ieee : List UInt8) (hd : DistinctIeee a.devices) :
    DistinctIeee (a.handleJoin nwk ieee).devices ∧
    (a.handleJoin nwk ieee).product = a.product ∧
    (a.handleJoin nwk ieee).deviceByIeee ieee = some ⟨ieee, nwk⟩ ∧
    ∀ d, d ∈ (a.handleJoin nwk ieee).devices ↔
      d = ⟨ieee, nwk⟩ ∨ (d ∈ a.devices ∧ d.ieee ≠ ieee) := by
  unfold App.handleJoin App.deviceByIeee DistinctIeee at *
  by_cases h : a.devices.any (fun d => decide (d.ieee = ieee)) = true
  · rw [if_pos h]
    dsimp only
    have hk : (a.devices.map (fun d => if d.ieee = ieee then { d with nwk } else d)).map (·.ieee) =
        a.devices.map (·.ieee) := by
      rw [List.map_map]
      apply List.map_congr_left
      intro d _
      simp only [Function.comp]
      split <;> rfl
    refine ⟨by rw [hk]; exact hd, rfl, ?_, ?_⟩
    · obtain ⟨x, hx, hxi⟩ := List.any_eq_true.mp h
      have hxi : x.ieee = ieee := by simpa using hxi
      have hm : (⟨ieee, nwk⟩ : Device) ∈ a.devices.map (fun d => if d.ieee = ieee then { d with nwk } else d) := by
        rw [List.mem_map]
        refine ⟨x, hx, ?_⟩
        rw [if_pos hxi]
        cases x; simp at hxi; subst hxi; rfl
      exact find_by_key Device.ieee _ (by rw [hk]; exact hd) ⟨ieee, nwk⟩ hm
    · intro d
      rw [List.mem_map]
      constructor
      · rintro ⟨x, hx, rfl⟩
        by_cases hxi : x.ieee = ieee
        · left
          rw [if_pos hxi, ← hxi]
        · right
          rw [if_neg hxi]
          exact ⟨hx, hxi⟩
      · rintro (rfl | ⟨h1, h2⟩)
        · obtain ⟨x, hx, hxi⟩ := List.any_eq_true.mp h
          have hxi : x.ieee = ieee := by simpa using hxi
          refine ⟨x, hx, ?_⟩
          rw [if_pos hxi, ← hxi]
        · exact ⟨d, h1, by rw [if_neg h2]⟩
  · have hno : ∀ d ∈ a.devices, d.ieee ≠ ieee := by
      intro d hd' he
      exact h (List.any_eq_true.mpr ⟨d, hd', by simpa using he⟩)
    rw [if_neg h]
    dsimp only
    refine ⟨?_, rfl, ?_, ?_⟩
    · rw [List.map_append, List.nodup_append]
      refine ⟨hd, by simp, ?_⟩
      intro x hx y hy
      rw [List.mem_map] at hx
      obtain ⟨z, hz, rfl⟩ := hx
      simp at hy
      subst hy
      exact hno z hz
    · rw [List.find?_append, List.find?_eq_none.mpr (by
        intro x hx; simpa using hno x hx)]
      simp
    · intro d
      rw [List.mem_append]
      constructor
      · rintro (h | h)
        · exact .inr ⟨h, hno d h⟩
        · exact .inl (by simpa using h)
      · rintro (h | ⟨h, _⟩)
        · exact .inr (by simpa using h)
        · exact .inl h

theorem annce_handled (src nwk : UInt16) (ieee : List UInt8) (caps : UInt8) (hi : ieee.length = 8)
    (trailing : List UInt8) :
    ∃ o, Obj.fromUnpiFrame (announcement src nwk ieee caps trailing) = .ok o ∧ ∀ (a : App) q,
      DistinctIeee a.devices → a.handleZnp { o with sequence := q } =
        ⟨a.handleJoin nwk.toNat ieee, .join nwk.toNat ieee 0 ::
          handOver ⟨ieee, nwk.toNat⟩ 0 0x13 0 0 (0 :: (le16 nwk.toNat ++ ieee ++ [caps])), none⟩ := by
  have hf : announcement src nwk ieee caps trailing =
      Frame.of .AREQ .ZDO annceCmd.id ((announcement src nwk ieee caps []).data ++ trailing) := by
    simp [announcement, annceCmd]
  have hdec := decode_payload annce_inTable (t := .AREQ) (by decide) (annceVals src nwk ieee caps) rfl
    (annce_valid src nwk ieee caps hi) (annce_bytes src nwk ieee caps) trailing
  rw [← hf] at hdec
  refine ⟨_, hdec, ?_⟩
  intro a q hd
  have hre : (msgObj .AREQ .ZDO annceCmd (annceVals src nwk ieee caps) q).toUnpiFrame =
      .ok (Frame.of .AREQ .ZDO annceCmd.id (announcement src nwk ieee caps []).data) :=
    reencode (annce_bytes src nwk ieee caps)
  obtain ⟨_, _, hby, _⟩ := handleJoin_spec a nwk.toNat ieee hd
  change a.handleZnp (msgObj .AREQ .ZDO annceCmd (annceVals src nwk ieee caps) q) = _
  have h2 : (msgObj .AREQ .ZDO annceCmd (annceVals src nwk ieee caps) q).payload.lookup
    "ieeeaddr" = some (.eui ieee) := rfl
  have h3 : dictGet (msgObj .AREQ .ZDO annceCmd (annceVals src nwk ieee caps) q).payload
    "nwkaddr" = .ok (.int nwk.toNat) := rfl
  have hcm : (msgObj .AREQ .ZDO annceCmd (annceVals src nwk ieee caps) q).command =
    "endDeviceAnnceInd" := rfl
  have hty : (msgObj .AREQ .ZDO annceCmd (annceVals src nwk ieee caps) q).commandType = .AREQ := rfl
  have hsu : (msgObj .AREQ .ZDO annceCmd (annceVals src nwk ieee caps) q).subsystem = .ZDO := rfl
  generalize msgObj .AREQ .ZDO annceCmd (annceVals src nwk ieee caps) q = o at *
  unfold App.handleZnp
  rw [if_neg (by simp [hty]), hre]
  dsimp only
  rw [if_pos ⟨hsu, hcm⟩, h3, h2]
  dsimp only
  unfold App.dispatch
  dsimp only
  rw [hcm, hsu, if_neg (by decide +kernel), if_neg (by decide +kernel)]
  dsimp only
  rw [if_neg (by decide +kernel), if_pos (by decide +kernel)]
  have hl : REQUESTS.lookup "endDeviceAnnceInd" = some (0x13, 2) := by decide +kernel
  rw [hl]
  dsimp only
  have ht : tsnByte 0 = .ok 0 := rfl
  rw [ht]
  dsimp only
  have htr : (Val.eui ieee).truthy = true := by
    cases ieee with
    | nil => simp at hi
    | cons _ _ => rfl
  simp only [App.forward, App.sender, htr, if_true, hby, List.nil_append, announcement, le16,
    List.cons_append, List.drop_succ_cons, List.drop_zero, List.append_nil]
  rfl

/-! ### Messages that do not concern zigpy -/

theorem requests_names : ∀ name, (REQUESTS.lookup name).isSome = true →
    name ∈ zdoReplies.map (·.2.1) ∨ name ∈ zdoRequests ∨ name = "endDeviceAnnceInd" := by
  have h : ∀ x ∈ REQUESTS, x.1 ∈ zdoReplies.map (·.2.1) ∨ x.1 ∈ zdoRequests ∨ x.1 = "endDeviceAnnceInd" := by
    decide +kernel
  intro name hn
  rcases hl : REQUESTS.lookup name with _ | v
  · rw [hl] at hn; simp at hn
  have hm : ∀ (l : List (String × Int × Nat)) v, l.lookup name = some v → (name, v) ∈ l := by
    intro l
    induction l with
    | nil => intro v h; simp at h
    | cons x l ih =>
      intro v h
      rw [List.lookup_cons] at h
      split at h
      · rename_i he
        simp at he h
        subst h; subst he
        exact List.mem_cons_self
      · exact List.mem_cons_of_mem _ (ih v h)
  exact h _ (hm REQUESTS v hl)

theorem setLed_led (a : App) (mode : Int) : ∀ e ∈ (a.setLed mode).1, Effect.forZigpy e = false := by
  unfold App.setLed
  split
  · simp
  · dsimp only
    split <;> simp [Effect.forZigpy]

theorem dispatch_app (a : App) (o : Obj) (d : List UInt8) (nwk ieee : Option Val) :
    (a.dispatch o d nwk ieee).app = a := by
  unfold App.dispatch
  split
  · rfl
  dsimp only
  generalize (if o.subsystem = .ZDO ∧ o.command = "mgmtPermitJoinRsp" then a.setLed ledOn
      else (([], none) : List Effect × Option PyErr)) = led
  obtain ⟨e1, e | _⟩ := led
  all_goals
    dsimp only
    repeat' (split <;> try rfl)

theorem dispatch_unconcerned (a : App) (o : Obj) (d : List UInt8) (nwk ieee : Option Val)
    (ht : o.commandType = .AREQ) (hz : ¬ (o.subsystem = .ZDO ∧ o.command = "endDeviceAnnceInd"))
    (hc : ¬ Concerns o) : ∀ e ∈ (a.dispatch o d nwk ieee).effects, Effect.forZigpy e = false := by
  have hled : ∀ e ∈ (if o.subsystem = .ZDO ∧ o.command = "mgmtPermitJoinRsp" then a.setLed ledOn
      else (([], none) : List Effect × Option PyErr)).1, Effect.forZigpy e = false := by
    split
    · exact setLed_led a _
    · simp
  unfold App.dispatch
  split
  · simp
  dsimp only
  split
  · rename_i heq; rw [heq] at hled; exact hled
  · rename_i heq
    rw [heq] at hled
    split
    · split
      · exact hled
      · intro e he
        rcases List.mem_append.mp he with h | h
        · exact hled e h
        · exact setLed_led a _ e h
    · split
      · rename_i hreq
        split
        · rename_i n cl k hsq hl
          exfalso
          apply hc
          refine ⟨ht, .inr (.inr ⟨hreq.1, by simp [hsq], ?_⟩)⟩
          rcases requests_names _ hreq.2 with h | h | h
          · exact .inl h
          · exact .inr h
          · exact absurd ⟨hreq.1, h⟩ hz
        · exact hled
      · split
        · rename_i haf
          exact absurd ⟨ht, .inl haf⟩ hc
        · exact hled

theorem ignored_eq : ignoredIndications = IGNORED := rfl

end Zcc
