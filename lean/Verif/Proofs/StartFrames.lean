import Verif.Spec.Start
import Verif.Proofs.App

/-!
# The frames that start-up sends
-/

namespace Zcc

open Spec

theorem request_frame {sub : Subsystem} {command : String} {payload : Payload}
    {e : Option (List Int)} {t : CommandType} {id : Nat} {ps : Params} {data : List UInt8}
    (hc : Obj.fromCommand sub command payload =
      .ok { commandType := t, subsystem := sub, command := command, commandId := id, payload := payload, parameters := ps })
    (hw : writeParameters payload ps = .ok data) :
    (Op.request sub command payload e).frame = some (Frame.of t sub id data) := by
  unfold Op.frame Obj.toUnpiFrame
  dsimp only
  rw [hc]
  simp only [Except.bind, hw]
  rfl

theorem frame_nvRead {p : Payload} {e : Option (List Int)} {id : Int}
    (h1 : p.lookup "id" = some (.int id)) (h2 : p.lookup "offset" = some (.int 0))
    (hi : 0 ≤ id ∧ id < 65536) :
    (Op.request .SYS "osalNvRead" p e).frame = some (nvRead id.toNat) := by
  apply request_frame (ps := [("id", .UINT16), ("offset", .UINT8)]) (t := .SREQ) (id := 8) rfl
  have : writeInt id 2 = .ok (le16 id.toNat) := by
    rw [writeInt_ok 2 _ hi]; rfl
  simp only [writeParameters, dictGet, h1, h2, writeParameter, writeScalar, this, ok_bind]
  rfl

theorem frame_nvWrite {p : Payload} {e : Option (List Int)} {id : Int} {v : List UInt8}
    (h1 : p.lookup "id" = some (.int id)) (h2 : p.lookup "offset" = some (.int 0))
    (h3 : p.lookup "len" = some (.int v.length)) (h4 : p.lookup "value" = some (.bytes v))
    (hi : 0 ≤ id ∧ id < 65536) (hv : v.length < 256) :
    (Op.request .SYS "osalNvWrite" p e).frame = some (nvWrite id.toNat v) := by
  apply request_frame (t := .SREQ) (id := 9)
    (ps := [("id", .UINT16), ("offset", .UINT8), ("len", .UINT8), ("value", .BUFFER)]) rfl
  have : writeInt id 2 = .ok (le16 id.toNat) := by
    rw [writeInt_ok 2 _ hi]; rfl
  simp only [writeParameters, dictGet, h1, h2, h3, h4, writeParameter, writeScalar, this,
    writeInt_len8 hv, ok_bind]
  show Except.ok _ = _
  simp [le16, leBytes]

theorem frame_nvInit (version : Int) (e : Option (List Int)) :
    (Op.request .SYS "osalNvItemInit" (Items.znpHasConfiguredInit version) e).frame =
      some (nvInit (flagId version) [0]) := by
  unfold Items.znpHasConfiguredInit Items.hasConfiguredId flagId zStack12
  by_cases h : version = 0
  · simp only [if_pos h]; rfl
  · simp only [if_neg h]; rfl

theorem frame_configRead {p : Payload} {e : Option (List Int)} {id : Nat}
    (h1 : p.lookup "configid" = some (.int id)) (hi : id < 256) :
    (Op.request .SAPI "readConfiguration" p e).frame = some (configRead id) := by
  apply request_frame (ps := [("configid", .UINT8)]) (t := .SREQ) (id := 4) rfl
  simp only [writeParameters, dictGet, h1, writeParameter, writeScalar, writeInt_len8 hi, ok_bind]
  rfl

theorem frame_configWrite {p : Payload} {e : Option (List Int)} {id : Nat} {v : List UInt8}
    (h1 : p.lookup "configid" = some (.int id))
    (h3 : p.lookup "len" = some (.int v.length)) (h4 : p.lookup "value" = some (.bytes v))
    (hi : id < 256) (hv : v.length < 256) :
    (Op.request .SAPI "writeConfiguration" p e).frame = some (configWrite id v) := by
  apply request_frame (t := .SREQ) (id := 5)
    (ps := [("configid", .UINT8), ("len", .UINT8), ("value", .BUFFER)]) rfl
  simp only [writeParameters, dictGet, h1, h3, h4, writeParameter, writeScalar,
    writeInt_len8 hv, writeInt_len8 hi, ok_bind]
  show Except.ok _ = _
  simp

theorem frame_reset (e : Option (List Int)) :
    (Op.request .SYS "resetReq" [("type", .int resetSoft)] e).frame = some softReset := rfl

theorem frame_setChannel {b c : Int} {x : UInt8} {y : List UInt8} (hb : writeInt b 1 = .ok [x])
    (hc : writeInt c 4 = .ok y) (e : Option (List Int)) :
    (Op.request .APP_CNF "bdbSetChannel" [("isPrimary", .int b), ("channel", .int c)] e).frame =
      some (Frame.of .SREQ .APP_CNF 8 (x :: y)) := by
  apply request_frame (t := .SREQ) (id := 8)
    (ps := [("isPrimary", .UINT8), ("channel", .UINT32)]) rfl
  have h1 : ([("isPrimary", Val.int b), ("channel", .int c)] : Payload).lookup "isPrimary" =
    some (.int b) := rfl
  have h2 : ([("isPrimary", Val.int b), ("channel", .int c)] : Payload).lookup "channel" =
    some (.int c) := rfl
  simp only [writeParameters, dictGet, h1, h2, writeParameter, writeScalar, hb, hc,
    ok_bind, pure_ok, List.append_nil, List.cons_append, List.nil_append]

theorem wPrimary (c : UInt32) (e : Option (List Int)) :
    (Op.request .APP_CNF "bdbSetChannel" [("isPrimary", .int 1), ("channel", .int c.toNat)] e).frame =
      some (setChannel 1 c.toNat) := frame_setChannel rfl (writeInt_u32 c) e

theorem wSecondary (e : Option (List Int)) :
    (Op.request .APP_CNF "bdbSetChannel" [("isPrimary", .int 0), ("channel", .int 0)] e).frame =
      some (setChannel 0 0) := frame_setChannel (y := le32 0) rfl (by decide) e

theorem frame_commission (b : UInt8) (e : Option (List Int)) :
    (Op.request .APP_CNF "bdbStartCommissioning" [("mode", .int b.toNat)] e).frame =
      some (commission b) := by
  apply request_frame (t := .SREQ) (id := 5) (ps := [("mode", .UINT8)]) rfl
  have h1 : ([("mode", Val.int b.toNat)] : Payload).lookup "mode" = some (.int b.toNat) := rfl
  simp only [writeParameters, dictGet, h1, writeParameter, writeScalar, writeInt_u8, ok_bind]
  rfl

theorem frame_deviceInfo (e : Option (List Int)) :
    (Op.request .UTIL "getDeviceInfo" [] e).frame = some deviceInfo := rfl

/-! ## The items -/

theorem flag_id (version : Int) : Items.hasConfiguredId version = (flagId version : Int) := by
  unfold Items.hasConfiguredId flagId zStack12
  by_cases h : version = 0
  · rw [if_pos h, if_pos h]; rfl
  · rw [if_neg h, if_neg h]; rfl

theorem flag_lt (version : Int) : 0 ≤ (flagId version : Int) ∧ (flagId version : Int) < 65536 := by
  unfold flagId; split <;> omega

theorem flag_toNat (version : Int) : (Items.hasConfiguredId version).toNat = flagId version := by
  rw [flag_id]; rfl

theorem pan_value (pan : UInt16) :
    [(pan &&& 0xFF).toUInt8, ((pan >>> 8) &&& 0xFF).toUInt8] = le16 pan.toNat := by
  unfold le16
  congr 1
  · apply UInt8.toNat_inj.mp
    simp only [UInt16.toNat_toUInt8, UInt16.toNat_and, UInt8.toNat_ofNat']
    rw [show (255 : UInt16).toNat = 2 ^ 8 - 1 from rfl, Nat.and_two_pow_sub_one_eq_mod]
  · congr 1
    apply UInt8.toNat_inj.mp
    simp only [UInt16.toNat_toUInt8, UInt16.toNat_and, UInt8.toNat_ofNat', UInt16.toNat_shiftRight]
    rw [show (255 : UInt16).toNat = 2 ^ 8 - 1 from rfl, Nat.and_two_pow_sub_one_eq_mod,
      show (8 : UInt16).toNat % 16 = 8 from rfl, Nat.shiftRight_eq_div_pow]

theorem wFlag (version : Int) (e : Option (List Int)) :
    (Op.request .SYS "osalNvWrite" (Items.znpHasConfigured version) e).frame =
      some (nvWrite (flagId version) [0x55]) := by
  rw [← flag_toNat]
  exact frame_nvWrite rfl rfl rfl rfl (by rw [flag_id]; exact flag_lt version) (by decide)

theorem rFlag (version : Int) (e : Option (List Int)) :
    (Op.request .SYS "osalNvRead" (Items.znpHasConfigured version) e).frame =
      some (nvRead (flagId version)) := by
  rw [← flag_toNat]
  exact frame_nvRead rfl rfl (by rw [flag_id]; exact flag_lt version)

theorem wPan (pan : UInt16) (e : Option (List Int)) :
    (Op.request .SYS "osalNvWrite" (Items.panID pan) e).frame = some (nvWrite 0x83 (le16 pan.toNat)) := by
  rw [← pan_value]
  exact frame_nvWrite (id := 0x83) rfl rfl rfl rfl (by decide) (by simp)

theorem rPan (pan : UInt16) (e : Option (List Int)) :
    (Op.request .SYS "osalNvRead" (Items.panID pan) e).frame = some (nvRead 0x83) :=
  frame_nvRead (id := 0x83) rfl rfl (by decide)

theorem wExt {x : List UInt8} (h : x.length = 8) (e : Option (List Int)) :
    (Op.request .SYS "osalNvWrite" (Items.extendedPanID x) e).frame = some (nvWrite 0x2D x) :=
  frame_nvWrite (id := 0x2D) rfl rfl (by rw [h]; rfl) rfl (by decide) (by omega)

theorem rExt (x : List UInt8) (e : Option (List Int)) :
    (Op.request .SYS "osalNvRead" (Items.extendedPanID x) e).frame = some (nvRead 0x2D) :=
  frame_nvRead (id := 0x2D) rfl rfl (by decide)

theorem wChan (c : UInt32) (e : Option (List Int)) :
    (Op.request .SYS "osalNvWrite" (Items.channelList c) e).frame = some (nvWrite 0x84 (le32 c.toNat)) :=
  frame_nvWrite (id := 0x84) rfl rfl rfl (by rw [← le32_leBytes]; rfl) (by decide) (by simp [le32])

theorem rChan (c : UInt32) (e : Option (List Int)) :
    (Op.request .SYS "osalNvRead" (Items.channelList c) e).frame = some (nvRead 0x84) :=
  frame_nvRead (id := 0x84) rfl rfl (by decide)

theorem dist_value (b : Bool) :
    (if b then [0x01] else [0x00] : List UInt8) = [if b then 1 else 0] := by cases b <;> rfl

theorem wDist (b : Bool) (e : Option (List Int)) :
    (Op.request .SYS "osalNvWrite" (Items.networkKeyDistribute b) e).frame =
      some (nvWrite 0x63 [if b then 1 else 0]) := by
  cases b <;> rfl

theorem rDist (b : Bool) (e : Option (List Int)) :
    (Op.request .SYS "osalNvRead" (Items.networkKeyDistribute b) e).frame = some (nvRead 0x63) :=
  frame_nvRead (id := 0x63) rfl rfl (by decide)

theorem wKey {k : List UInt8} (h : k.length = 16) (e : Option (List Int)) :
    (Op.request .SYS "osalNvWrite" (Items.networkKey k) e).frame = some (nvWrite 0x62 k) :=
  frame_nvWrite (id := 0x62) rfl rfl (by rw [h]; rfl) rfl (by decide) (by omega)

theorem rKey (k : List UInt8) (e : Option (List Int)) :
    (Op.request .SYS "osalNvRead" (Items.networkKey k) e).frame = some (nvRead 0x62) :=
  frame_nvRead (id := 0x62) rfl rfl (by decide)

theorem wKey12 {k : List UInt8} (h : k.length = 16) (e : Option (List Int)) :
    (Op.request .SAPI "writeConfiguration" (Items.networkKey k) e).frame = some (configWrite 0x62 k) :=
  frame_configWrite (id := 0x62) rfl (by rw [h]; rfl) rfl (by decide) (by omega)

theorem rKey12 (k : List UInt8) (e : Option (List Int)) :
    (Op.request .SAPI "readConfiguration" (Items.networkKey k) e).frame = some (configRead 0x62) :=
  frame_configRead (id := 0x62) rfl (by decide)

theorem wStartup (e : Option (List Int)) :
    (Op.request .SYS "osalNvWrite" (Items.startupOption 0x02) e).frame = some (nvWrite 0x03 [2]) := rfl

theorem wLogical (e : Option (List Int)) :
    (Op.request .SYS "osalNvWrite" (Items.logicalType logicalCoordinator) e).frame =
      some (nvWrite 0x87 [0]) := rfl

theorem wDirect (e : Option (List Int)) :
    (Op.request .SYS "osalNvWrite" Items.zdoDirectCb e).frame = some (nvWrite 0x8F [1]) := rfl

theorem wLink (e : Option (List Int)) :
    (Op.request .SYS "osalNvWrite" Items.tcLinkKey e).frame = some (nvWrite 0x101 linkKeyEntry) := by
  have h : (Op.request .SYS "osalNvWrite" Items.tcLinkKey none).frame =
    some (nvWrite 0x101 linkKeyEntry) := by decide +kernel
  exact h

theorem wCommission4 (e : Option (List Int)) :
    (Op.request .APP_CNF "bdbStartCommissioning" [("mode", .int 4)] e).frame = some (commission 4) := rfl

theorem wCommission2 (e : Option (List Int)) :
    (Op.request .APP_CNF "bdbStartCommissioning" [("mode", .int 2)] e).frame = some (commission 2) := rfl

/-! ## The stick's memory -/

theorem id16 {id : Nat} (h : id < 65536) :
    (UInt8.ofNat (id % 256)).toNat + 256 * (UInt8.ofNat (id / 256 % 256)).toNat = id := by
  simp only [UInt8.toNat_ofNat']
  omega

theorem step_read {R : Nv → Nv → Prop} {m m' : Nv} {a : Act} {id : Nat}
    (hf : a.op.frame = some (nvRead id)) (hid : id < 65536) (hs : NvStep R m a m') :
    m' = m ∧ ∀ o, response a = some o →
      o.payload.lookup "value" = some (.bytes ((m id).getD [])) := by
  unfold NvStep at hs
  rw [hf] at hs
  simp only [nvRead, le16, List.cons_append, List.nil_append, id16 hid] at hs
  exact ⟨hs.1, fun o => hs.2 o trivial⟩

theorem step_configRead {R : Nv → Nv → Prop} {m m' : Nv} {a : Act} {id : Nat}
    (hf : a.op.frame = some (configRead id)) (hid : id < 256) (hs : NvStep R m a m') :
    m' = m ∧ ∀ o, response a = some o →
      o.payload.lookup "value" = some (.bytes ((m id).getD [])) := by
  unfold NvStep at hs
  rw [hf] at hs
  have : (UInt8.ofNat id).toNat = id := by simp only [UInt8.toNat_ofNat']; omega
  simp only [configRead, this] at hs
  exact hs

theorem step_write {R : Nv → Nv → Prop} {m m' : Nv} {a : Act} {id : Nat} {v : List UInt8}
    (hf : a.op.frame = some (nvWrite id v)) (hid : id < 65536) (hv : v.length < 256)
    (hs : NvStep R m a m') :
    (∀ j, j ≠ id → m' j = m j) ∧ (Succeeded a → m' id = some v) := by
  unfold NvStep at hs
  rw [hf] at hs
  have : (UInt8.ofNat v.length).toNat = v.length := by simp only [UInt8.toNat_ofNat']; omega
  simp only [nvWrite, le16, List.cons_append, List.nil_append, id16 hid, this, List.take_length] at hs
  exact ⟨hs.1, hs.2 rfl⟩

theorem step_configWrite {R : Nv → Nv → Prop} {m m' : Nv} {a : Act} {id : Nat} {v : List UInt8}
    (hf : a.op.frame = some (configWrite id v)) (hid : id < 256) (hv : v.length < 256)
    (hs : NvStep R m a m') :
    (∀ j, j ≠ id → m' j = m j) ∧ (Succeeded a → m' id = some v) := by
  unfold NvStep at hs
  rw [hf] at hs
  have : (UInt8.ofNat v.length).toNat = v.length := by simp only [UInt8.toNat_ofNat']; omega
  have hi : (UInt8.ofNat id).toNat = id := by simp only [UInt8.toNat_ofNat']; omega
  simp only [configWrite, List.cons_append, List.nil_append, hi, this, List.take_length] at hs
  exact ⟨hs.1, hs.2 rfl⟩

theorem step_init {R : Nv → Nv → Prop} {m m' : Nv} {a : Act} {id : Nat} {v : List UInt8}
    (hf : a.op.frame = some (nvInit id v)) (hid : id < 65536) (hs : NvStep R m a m') :
    ∀ j, j ≠ id → m' j = m j := by
  unfold NvStep at hs
  rw [hf] at hs
  simp only [nvInit, le16, List.cons_append, List.nil_append, id16 hid] at hs
  split at hs
  · intro j _; rw [hs]
  · exact hs.1

theorem step_reset {R : Nv → Nv → Prop} {m m' : Nv} {a : Act}
    (hf : a.op.frame = some softReset) (hs : NvStep R m a m') : R m m' := by
  unfold NvStep at hs
  rw [hf] at hs
  exact hs

/-- The operation sends nothing that changes the configuration. -/
def Harmless (o : Op) : Prop := ∀ f, o.frame = some f → changesConfig f = false

theorem step_harmless {R : Nv → Nv → Prop} {m m' : Nv} {a : Act} (hh : Harmless a.op)
    (hs : NvStep R m a m') : SameSettings m m' := by
  unfold NvStep at hs
  split at hs
  · rw [hs]; exact fun i _ => rfl
  · next f hf =>
    have hc := hh f hf
    unfold changesConfig at hc
    split at hs
    case h_7 => exact hs
    all_goals first
      | (rw [hs.1]; exact fun i _ => rfl)
      | (simp [*] at hc)

theorem same_refl (m : Nv) : SameSettings m m := fun _ _ => rfl

theorem same_trans {m m1 m2 : Nv} (h1 : SameSettings m m1) (h2 : SameSettings m1 m2) :
    SameSettings m m2 := fun i hi => (h2 i hi).trans (h1 i hi)

theorem stores_append {R : Nv → Nv → Prop} {m m' : Nv} {h1 h2 : List Act} :
    Stores R m (h1 ++ h2) m' ↔ ∃ m1, Stores R m h1 m1 ∧ Stores R m1 h2 m' := by
  induction h1 generalizing m with
  | nil => exact ⟨fun h => ⟨m, rfl, h⟩, fun ⟨m1, h, h'⟩ => by cases h; exact h'⟩
  | cons a h1 ih =>
    constructor
    · rintro ⟨m2, hs, h⟩
      obtain ⟨m1, h3, h4⟩ := ih.mp h
      exact ⟨m1, ⟨m2, hs, h3⟩, h4⟩
    · rintro ⟨m1, ⟨m2, hs, h3⟩, h4⟩
      exact ⟨m2, hs, ih.mpr ⟨m1, h3, h4⟩⟩

theorem stores_one {R : Nv → Nv → Prop} {m m' : Nv} {a : Act} :
    Stores R m [a] m' ↔ NvStep R m a m' :=
  ⟨fun ⟨m1, h, h'⟩ => by cases h'; exact h, fun h => ⟨m', h, rfl⟩⟩

theorem stores_harmless {R : Nv → Nv → Prop} {m m' : Nv} {h : List Act}
    (hh : ∀ a ∈ h, Harmless a.op) (hs : Stores R m h m') : SameSettings m m' := by
  induction h generalizing m with
  | nil => cases hs; exact same_refl _
  | cons a h ih =>
    obtain ⟨m1, h1, h2⟩ := hs
    exact same_trans (step_harmless (hh a (.head _)) h1) (ih (fun b hb => hh b (.tail _ hb)) h2)

end Zcc
