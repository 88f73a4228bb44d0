import Verif.Proofs.Client
import Verif.Proofs.StartTail
import Verif.Spec.Reports

/-! What `read_parameters` makes of the messages of `Spec.reports`. -/

namespace Zcc
open Spec

/-- The type that the command table uses for a field. -/
def _root_.Zcc.Spec.Fld.type : Fld → ParameterType
  | .u8 => .UINT8
  | .u16 => .UINT16
  | .u32 => .UINT32
  | .eui => .IEEEADDR
  | .blob => .BUFFER
  | .octets => .LIST_UINT8
  | .words => .LIST_UINT16

/-- Fields that hold as many elements as the field before says. -/
def _root_.Zcc.Spec.Fld.counted : Fld → Bool
  | .blob | .octets | .words => true
  | _ => false

/-- Fields that hold a number. -/
def _root_.Zcc.Spec.Fld.number : Fld → Bool
  | .u8 | .u16 | .u32 => true
  | _ => false

/-- Counted fields come after a number, and nothing is called an address mode. -/
def layoutOk : Bool → List (String × Fld) → Bool
  | _, [] => true
  | afterNumber, (name, k) :: ps =>
    (!k.counted || afterNumber) && !strEndsWith name "addrmode" && layoutOk k.number ps

theorem readInts_one (n : Nat) (buf : List UInt8) :
    readInts 1 n buf =
      if n ≤ buf.length then .ok ((buf.take n).map fun b => (b.toNat : Int), buf.drop n)
      else .error .overflowError := by
  induction n generalizing buf with
  | zero => simp [readInts]
  | succ n ih =>
    cases buf with
    | nil => simp [readInts, readInt, readBytes, bind, Except.bind]
    | cons a r =>
      have h : readInt 1 (a :: r) = .ok (a.toNat, r) := by
        simp [readInt, readBytes, leValue, bind, Except.bind, pure, Except.pure]
      simp only [readInts, h, bind, Except.bind, ih, List.length_cons, Nat.add_le_add_iff_right]
      by_cases hn : n ≤ r.length
      · simp [hn, pure, Except.pure]
      · simp [hn]

theorem readInt_two (a b : UInt8) (r : List UInt8) :
    readInt 2 (a :: b :: r) = .ok (a.toNat + 256 * b.toNat, r) := by
  have : ¬ 2 > (a :: b :: r).length := by simp only [List.length_cons]; omega
  simp only [readInt, readBytes, if_neg this, bind, Except.bind, pure, Except.pure]
  simp [leValue]

theorem readInts_two (n : Nat) (buf : List UInt8) :
    readInts 2 n buf =
      if 2 * n ≤ buf.length then .ok (wordsOf (buf.take (2 * n)), buf.drop (2 * n))
      else .error .overflowError := by
  induction n generalizing buf with
  | zero => simp [readInts, wordsOf]
  | succ n ih =>
    have e : 2 * (n + 1) = 2 * n + 1 + 1 := by omega
    match buf with
    | [] => simp [readInts, readInt, readBytes, bind, Except.bind, e]
    | [a] => simp [readInts, readInt, readBytes, bind, Except.bind, e]
    | a :: b :: r =>
      have h := readInt_two a b r
      simp only [readInts, h, bind, Except.bind, ih, List.length_cons, e, Nat.add_le_add_iff_right,
        List.take_succ_cons, List.drop_succ_cons, wordsOf]
      by_cases hn : 2 * n ≤ r.length
      · simp [hn, pure, Except.pure]
      · simp [hn]

theorem fld_read (name : String) (k : Fld) (prev : Option Val) (before : Nat) (buf : List UInt8)
    (hn : strEndsWith name "addrmode" = false)
    (hc : k.counted = true → prev = some (.int before)) :
    (k.read before buf = none ∧
      readParameter name k.type (optLength k.type prev) buf = .error .overflowError) ∨
    ∃ v n rest, k.read before buf = some (v, n, rest) ∧
      readParameter name k.type (optLength k.type prev) buf = .ok (v, rest) ∧
      (k.number = true → v = .int n) := by
  have counted : ∀ t, t ∈ bufferAndListTypes → prev = some (.int (before : Int)) →
      optLength t prev = some before := by
    intro t ht hp; simp [optLength, ht, hp, asLength]
  cases k
  case u8 =>
    rw [Fld.type, rp_uint8]
    cases buf with
    | nil => exact .inl ⟨rfl, rfl⟩
    | cons a r =>
      refine .inr ⟨_, _, _, rfl, ?_, fun _ => rfl⟩
      simp [bindR, readInt, readBytes, leValue, bind, Except.bind, pure, Except.pure, hn]
  case u16 =>
    rw [Fld.type, rp_uint name _ _ 2 (by simp)]
    match buf with
    | [] => exact .inl ⟨rfl, rfl⟩
    | [a] => exact .inl ⟨rfl, rfl⟩
    | a :: b :: r =>
      refine .inr ⟨_, _, _, rfl, ?_, fun _ => rfl⟩
      simp only [bindR, readInt_two]
  case u32 =>
    rw [Fld.type, rp_uint name _ _ 4 (by simp)]
    match buf with
    | [] => exact .inl ⟨rfl, rfl⟩
    | [a] => exact .inl ⟨rfl, rfl⟩
    | [a, b] => exact .inl ⟨rfl, rfl⟩
    | [a, b, c] => exact .inl ⟨rfl, rfl⟩
    | a :: b :: c :: d :: r =>
      refine .inr ⟨_, _, _, rfl, ?_, fun _ => rfl⟩
      have : a.toNat + 256 * (b.toNat + 256 * (c.toNat + 256 * d.toNat)) =
        a.toNat + 256 * b.toNat + 65536 * c.toNat + 16777216 * d.toNat := by omega
      simp only [bindR, readInt, readBytes, bind, Except.bind, pure, Except.pure, List.length_cons]
      rw [if_neg (by omega)]
      simp only [List.take_succ_cons, List.take_zero, List.drop_succ_cons, List.drop_zero, leValue,
        Nat.mul_zero, Nat.add_zero, this]
  case eui =>
    rw [Fld.type, rp_ieee]
    by_cases h : 8 ≤ buf.length
    · refine .inr ⟨.eui (buf.take 8), 0, buf.drop 8, ?_, ?_, fun h => by cases h⟩
      · simp [Fld.read, h]
      · have : ¬ 8 > buf.length := by omega
        simp [bindR, readBytes, this]
    · refine .inl ⟨?_, ?_⟩
      · simp [Fld.read, h]
      · have : 8 > buf.length := by omega
        simp [bindR, readBytes, this]
  case blob =>
    rw [Fld.type, counted _ (by decide) (hc rfl), rp_buffer]
    by_cases h : before ≤ buf.length
    · refine .inr ⟨.bytes (buf.take before), 0, buf.drop before, ?_, ?_, fun h => by cases h⟩
      · simp [Fld.read, h]
      · have : ¬ before > buf.length := by omega
        simp [bindR, readBytes, this]
    · refine .inl ⟨?_, ?_⟩
      · simp [Fld.read, h]
      · have : before > buf.length := by omega
        simp [bindR, readBytes, this]
  case octets =>
    rw [Fld.type, counted _ (by decide) (hc rfl), rp_list name _ _ 1 (by simp)]
    simp only [bindR, readInts_one, Fld.read]
    by_cases h : before ≤ buf.length
    · exact .inr ⟨_, _, _, by rw [if_pos h], by rw [if_pos h], fun h => by cases h⟩
    · exact .inl ⟨by rw [if_neg h], by rw [if_neg h]⟩
  case words =>
    rw [Fld.type, counted _ (by decide) (hc rfl), rp_list name _ _ 2 (by simp)]
    simp only [bindR, readInts_two, Fld.read]
    by_cases h : 2 * before ≤ buf.length
    · exact .inr ⟨_, _, _, by rw [if_pos h], by rw [if_pos h], fun h => by cases h⟩
    · exact .inl ⟨by rw [if_neg h], by rw [if_neg h]⟩

theorem layout_read (ps : List (String × Fld)) (prev : Option Val) (before : Nat)
    (afterNumber : Bool) (buf : List UInt8) (hok : layoutOk afterNumber ps = true)
    (hp : afterNumber = true → prev = some (.int before)) :
    (readLayout before ps buf = none ∧
      readVals prev (ps.map fun p => (p.1, p.2.type)) buf = .error .overflowError) ∨
    ∃ vs rest, readVals prev (ps.map fun p => (p.1, p.2.type)) buf = .ok (vs, rest) ∧
      readLayout before ps buf = some ((ps.map (·.1)).zip vs) := by
  induction ps generalizing prev before afterNumber buf with
  | nil => exact .inr ⟨[], buf, rfl, rfl⟩
  | cons p ps ih =>
    obtain ⟨name, k⟩ := p
    simp only [layoutOk, Bool.and_eq_true, Bool.or_eq_true, Bool.not_eq_true'] at hok
    obtain ⟨⟨h1, h2⟩, h3⟩ := hok
    have hc : k.counted = true → prev = some (.int before) := by
      intro hc; exact hp (h1.resolve_left (by simp [hc]))
    rcases fld_read name k prev before buf h2 hc with ⟨a, b⟩ | ⟨v, n, rest, a, b, c⟩
    · refine .inl ⟨?_, ?_⟩
      · simp only [readLayout, a]
      · simp only [List.map_cons, readVals, bindR, b]
    · rcases ih (some v) n k.number rest h3 (fun hk => by rw [c hk]) with ⟨x, y⟩ | ⟨vs, r, x, y⟩
      · refine .inl ⟨?_, ?_⟩
        · simp only [readLayout, a, x]
        · simp only [List.map_cons, readVals, bindR, b, y]
      · refine .inr ⟨v :: vs, r, ?_, ?_⟩
        · simp only [List.map_cons, readVals, bindR, b, x]
        · simp only [readLayout, a, y, List.map_cons, List.zip_cons_cons]

/-- The command table holds the layouts of the specification. -/
theorem reports_table : ∀ r ∈ reports, layoutOk false r.2.2.2.2 = true ∧
    ∃ cs ∈ definition r.2.1, ∃ c ∈ cs, c.id = r.2.2.1 ∧ c.name = r.2.2.2.1 ∧
      ParamsOf c r.1 (r.2.2.2.2.map fun p => (p.1, p.2.type)) := by
  unfold ParamsOf
  decide +kernel

/-- What becomes of a message of the specification. -/
theorem report_decoded {t : CommandType} {s : Subsystem} {n : Nat} {name : String}
    {fields : List (String × Fld)} (hr : (t, s, n, name, fields) ∈ reports) {f : Frame}
    (ht : f.commandType = t) (hs : f.subsystem = s) (hn : f.commandId = n) :
    Obj.fromUnpiFrame f =
      match readLayout 0 fields f.data with
      | none => .error .overflowError
      | some payload => .ok
        { commandType := t, subsystem := s, command := name, commandId := n, payload,
          parameters := fields.map (fun p => (p.1, p.2.type)) } := by
  obtain ⟨hok, cs, hcs, c, hc, hid, hname, hps⟩ := reports_table _ hr
  dsimp only at hok hcs hid hname hps
  have hin : InTable s c := ⟨cs, hcs, hc⟩
  subst ht
  rw [fromUnpiFrame_eq hin hs (hn.trans hid.symm) hps,
    readParameters_eq _ (paramsOf_nodup hin hps).1]
  rcases layout_read fields none 0 false f.data hok (fun h => by cases h) with ⟨x, y⟩ | ⟨vs, rest, x, y⟩
  · rw [x, y]; rfl
  · rw [x, y]
    simp only [Except.map, hid, hname, List.map_map, Function.comp_def]

theorem table_name_inj {s : Subsystem} {c c' : Cmd} (h : InTable s c) (h' : InTable s c')
    (hn : c.name = c'.name) : c = c' := by
  obtain ⟨cs, h1, h2⟩ := nextCmd_name h
  obtain ⟨cs', h3, h4⟩ := nextCmd_name h'
  cases h1.symm.trans h3
  rw [hn] at h2
  exact Except.ok.inj (h2.symm.trans h4)

theorem fromCommand_fields {sub : Subsystem} {command : String} {payload : Payload} {o : Obj}
    (h : Obj.fromCommand sub command payload = .ok o) : o.subsystem = sub ∧ o.command = command := by
  unfold Obj.fromCommand at h
  rcases hd : definitionGet sub with e | cs
  · rw [hd, error_bind] at h; cases h
  rw [hd, ok_bind] at h
  rcases hc : nextCmd cs (fun c => c.name == command) with e | c
  · rw [hc, error_bind] at h; cases h
  rw [hc, ok_bind] at h
  rcases hp : c.parametersFor c.type with e | ps
  · rw [hp, error_bind] at h; cases h
  rw [hp, ok_bind] at h
  cases h
  exact ⟨rfl, by simpa using (nextCmd_ok hc).2⟩

/-- A decoded message of the specification has its layout. -/
theorem report_received {t : CommandType} {s : Subsystem} {n : Nat} {name : String}
    {fields : List (String × Fld)} (hr : (t, s, n, name, fields) ∈ reports) {f : Frame} {o : Obj}
    (ho : Obj.fromUnpiFrame f = .ok o) (ht : o.commandType = t) (hs : o.subsystem = s)
    (hn : o.command = name) :
    f.commandType = t ∧ f.subsystem = s ∧ f.commandId = n ∧
      readLayout 0 fields f.data = some o.payload := by
  obtain ⟨-, cs, hcs, c, hc, hid, hname, -⟩ := reports_table _ hr
  dsimp only at hcs hid hname
  obtain ⟨c', hc', hid', -, -, hoe⟩ := fromUnpiFrame_ok ho
  have h1 : f.commandType = t := by rw [← ht, hoe]
  have h2 : f.subsystem = s := by rw [← hs, hoe]
  have h3 : c'.name = name := by rw [← hn, hoe]
  have h4 : f.commandId = n := by
    rw [h2] at hc'
    rw [table_name_inj hc' ⟨cs, hcs, hc⟩ (h3.trans hname.symm)] at hid'
    rw [← hid', hid]
  refine ⟨h1, h2, h4, ?_⟩
  have := report_decoded hr h1 h2 h4
  rw [ho] at this
  cases hl : readLayout 0 fields f.data with
  | none => rw [hl] at this; cases this
  | some p => rw [hl] at this; cases this; rfl

/-- A request with a response in the log, by its place in the history. -/
theorem exchange_at {L : List Entry} (recv : ∀ f o, .received f o ∈ L → Obj.fromUnpiFrame f = .ok o)
    {h h1 h2 : List Act} (ht : Traced L h) {sub : Subsystem} {command : String} {payload : Payload}
    {expected : Option (List Int)} {n : Obj}
    (he : h = h1 ++ ⟨.request sub command payload expected, .ok (some n)⟩ :: h2) {ask : Frame}
    (hask : (Op.request sub command payload expected).frame = some ask)
    (hsreq : ask.commandType = .SREQ) :
    ∃ past seg rest t f, L = past ++ seg ++ rest ∧ Traced past h1 ∧
      [Entry.sent t (wire ask), .received f n].Sublist seg ∧ Obj.fromUnpiFrame f = .ok n ∧
      n.commandType = .SRSP ∧ n.subsystem = sub ∧ n.command = command ∧ StatusOk expected n := by
  obtain ⟨p1, seg, r1, hp, ht1, hl⟩ := ht.at he
  obtain ⟨q, t, bs, f, hq, hw, hacc, hsub⟩ := hl
  obtain ⟨fr, h3, h4⟩ := written_frame (expected := expected) hq hw
  have hfr : fr = ask := Option.some.inj (h3.symm.trans hask)
  subst hfr
  have hb : bs = wire fr := by
    rw [Gateway.send, toBuffer_eq] at h4
    split at h4
    · cases h4; rfl
    · cases h4
  subst hb
  have hqt : q.commandType = .SREQ ∧ q.subsystem = sub ∧ q.command = command := by
    have hc := fromCommand_fields hq
    refine ⟨?_, hc.1, hc.2⟩
    obtain ⟨f', h5, h6⟩ := hw
    have h7 := op_frame (expected := expected) hq h5
    have h8 : f' = fr := Option.some.inj (h7.symm.trans hask)
    subst h8
    unfold Obj.toUnpiFrame at h5
    rcases hx : writeParameters q.payload q.parameters with e | data
    · rw [hx] at h5; cases h5
    · rw [hx] at h5; cases h5; exact hsreq
  refine ⟨p1, seg, r1, t, f, hp, ht1, hsub, recv f n ?_, ?_⟩
  · rw [hp]
    exact List.mem_append_left _ (List.mem_append_right _ (hsub.subset (by simp)))
  · rcases hacc with ⟨-, ⟨h5, h6, h7⟩, h8⟩ | ⟨h5, -⟩
    · exact ⟨h5, h6.trans hqt.2.1, h7.trans hqt.2.2, h8⟩
    · rw [hqt.1] at h5; cases h5

/-! ### The reads of a start-up that keeps the configuration -/

/-- The history holds a read of the setting, with a response whose value is `value`. -/
def ReadAs (h : List Act) (version : Int) (id : Nat) (value : List UInt8) : Prop :=
  ∃ sub command item expected n h1 h2,
    h = h1 ++ ⟨.request sub command item expected, .ok (some n)⟩ :: h2 ∧
    (Op.request sub command item expected).frame = some (settingRead version id) ∧
    n.payload.lookup "value" = some (.bytes value) ∧
    (expected = none ∨ expected = some [0, 2] ∧ id = flagId version) ∧
    ((sub = .SYS ∧ command = "osalNvRead" ∧ ¬ (id = 0x62 ∧ version ≠ 1)) ∨
      (sub = .SAPI ∧ command = "readConfiguration" ∧ id = 0x62 ∧ version ≠ 1))

theorem ReadAs.left {h : List Act} {version : Int} {id : Nat} {value : List UInt8}
    (hr : ReadAs h version id value) (h' : List Act) : ReadAs (h ++ h') version id value := by
  obtain ⟨sub, command, item, expected, n, h1, h2, rfl, hx⟩ := hr
  exact ⟨sub, command, item, expected, n, h1, h2 ++ h', by simp, hx⟩

theorem ReadAs.right {h : List Act} {version : Int} {id : Nat} {value : List UInt8}
    (hr : ReadAs h version id value) (h' : List Act) : ReadAs (h' ++ h) version id value := by
  obtain ⟨sub, command, item, expected, n, h1, h2, rfl, hx⟩ := hr
  exact ⟨sub, command, item, expected, n, h' ++ h1, h2, by simp, hx⟩

theorem validate_readAs {version : Int} {id : Nat} {value : List UInt8} {item : Payload}
    {e : Option (List Int)} {h : List Act} {u : Unit}
    (hr : Returns (validateItem item .SYS "osalNvRead" e) h u)
    (hf : (Op.request .SYS "osalNvRead" item e).frame = some (settingRead version id))
    (hv : item.lookup "value" = some (.bytes value))
    (he : e = none ∨ e = some [0, 2] ∧ id = flagId version) (hid : ¬ (id = 0x62 ∧ version ≠ 1)) :
    ReadAs h version id value := by
  obtain ⟨o, v, rfl, h1, h2⟩ := validate_returns hr
  rw [hv] at h2
  exact ⟨_, _, _, _, o, [], [], rfl, hf, h1.trans h2.symm, he, .inl ⟨rfl, rfl, hid⟩⟩

theorem settingRead_nv {version : Int} {id : Nat} (h : id ≠ 0x62) : settingRead version id = nvRead id :=
  if_neg h

theorem pan_readAs {version : Int} {o : Options} {h : List Act} {u : Unit}
    (hr : Returns (validatePan version o) h u) :
    (ReadAs h version 0x83 (le16 o.panID.toNat) ∧ ReadAs h version 0x2D o.extendedPanID) ∨
    ¬ (version = 1 ∨ version = 2) ∨ ReadAs h version 0x83 [0xFF, 0xFF] := by
  rcases returns_try hr with h1 | ⟨h1, h2, e, p', rfl, h3, h4, h5⟩
  · obtain ⟨k1, k2, _, rfl, hk1, hk2⟩ := returns_bind.mp h1
    refine .inl ⟨ReadAs.left (validate_readAs hk1 (rPan _ _) ?_ (.inl rfl) (fun h => absurd h.1 (by decide))) _,
      ReadAs.right (validate_readAs hk2 (rExt _ _) rfl (.inl rfl) (fun h => absurd h.1 (by decide))) _⟩
    rw [← pan_value]; rfl
  · split at h4
    · cases h4
      split at h5
      · obtain ⟨r, k2, rfl, h6⟩ := returns_req_bind h5
        obtain ⟨k3, k4, v, rfl, hk3, hk4⟩ := returns_bind.mp h6
        obtain ⟨rfl, ob, rfl, hv⟩ := returns_field.mp hk3
        split at hk4
        · next hval =>
          rw [hval] at hv
          refine .inr (.inr (ReadAs.right ?_ _))
          exact ⟨_, _, _, _, ob, [], _, rfl, rPan _ _, hv, .inl rfl, .inl ⟨rfl, rfl, fun h => absurd h.1 (by decide)⟩⟩
        · exact absurd hk4 returns_raise
      · next hn =>
        exact .inr (.inl (fun hv => hn hv.symm))
    · cases h4

theorem needs_readAs {version : Int} {o : Options} {h : List Act}
    (hr : Returns (needsToBeInitialised version o) h false) :
    (∀ s ∈ settings version o, s.1 ≠ 0x83 → s.1 ≠ 0x2D → ReadAs h version s.1 s.2) ∧
    ((ReadAs h version 0x83 (le16 o.panID.toNat) ∧ ReadAs h version 0x2D o.extendedPanID) ∨
      ¬ (version = 1 ∨ version = 2) ∨ ReadAs h version 0x83 [0xFF, 0xFF]) := by
  rcases returns_try hr with h1 | ⟨h1, h2, e, p', rfl, h3, h4, h5⟩
  · obtain ⟨k1, r1, _, rfl, hk1, h1⟩ := returns_bind.mp h1
    obtain ⟨k2, r2, _, rfl, hk2, h1⟩ := returns_bind.mp h1
    obtain ⟨k3, r3, _, rfl, hk3, h1⟩ := returns_bind.mp h1
    obtain ⟨k4, r4, _, rfl, hk4, h1⟩ := returns_bind.mp h1
    obtain ⟨k5, r5, _, rfl, hk5, h1⟩ := returns_bind.mp h1
    have hflag : flagId version ≠ 0x62 := by unfold flagId; split <;> decide
    constructor
    · intro s hs h83 h2D
      simp only [settings, List.mem_cons, List.not_mem_nil, or_false] at hs
      rcases hs with rfl | rfl | rfl | rfl | rfl | rfl
      · refine ReadAs.left (validate_readAs hk1 ?_ rfl (.inr ⟨rfl, rfl⟩) (fun h => hflag h.1)) _
        rw [settingRead_nv hflag]; exact rFlag version _
      · refine ReadAs.right (ReadAs.left (validate_readAs hk2 (rChan _ _) ?_ (.inl rfl) (fun h => by cases h.1)) _) _
        rw [← le32_leBytes]; rfl
      · refine ReadAs.right (ReadAs.right (ReadAs.left
          (validate_readAs hk3 (rDist _ _) ?_ (.inl rfl) (fun h => by cases h.1)) _) _) _
        rw [← dist_value]; rfl
      · refine ReadAs.right (ReadAs.right (ReadAs.right (ReadAs.left ?_ _) _) _) _
        unfold validateKey at hk4
        split at hk4
        · next hv =>
          have hv : version = 1 := hv
          refine validate_readAs hk4 ?_ rfl (.inl rfl) (fun h => h.2 hv)
          rw [settingRead, if_pos rfl, keyRead, if_pos hv]; exact rKey _ _
        · next hv =>
          have hv : ¬ version = 1 := hv
          obtain ⟨ob, v, rfl, h1, h2⟩ := validate_returns hk4
          have h2 : some (Val.bytes o.networkKey) = some v := h2
          refine ⟨_, _, _, _, ob, [], [], rfl, ?_, h1.trans h2.symm, .inl rfl, .inr ⟨rfl, rfl, rfl, hv⟩⟩
          rw [settingRead, if_pos rfl, keyRead, if_neg hv]; exact rKey12 _ _
      · exact absurd rfl h83
      · exact absurd rfl h2D
    · have lift : ∀ {id value}, ReadAs k5 version id value →
          ReadAs (k1 ++ (k2 ++ (k3 ++ (k4 ++ (k5 ++ r5))))) version id value :=
        fun h => ((((h.left r5).right k4).right k3).right k2).right k1
      rcases pan_readAs hk5 with ⟨ha, hb⟩ | ha | ha
      · exact .inl ⟨lift ha, lift hb⟩
      · exact .inr (.inl ha)
      · exact .inr (.inr (lift ha))
  · split at h4
    · cases h4
      cases (returns_ret.mp h5).2
    · cases h4

/-- What the read shows in the log. -/
theorem readAs_told {L : List Entry} (recv : ∀ f o, .received f o ∈ L → Obj.fromUnpiFrame f = .ok o)
    {h : List Act} (ht : Traced L h) {version : Int} {id : Nat} {value : List UInt8}
    (hr : ReadAs h version id value) : Told L version id value := by
  obtain ⟨sub, command, item, expected, n, h1, h2, he, hf, hv, hexp, hk⟩ := hr
  have hsreq : (settingRead version id).commandType = .SREQ := by
    unfold settingRead keyRead
    split
    · split <;> rfl
    · rfl
  obtain ⟨past, seg, rest, t, f, hL, -, hsub, hdec, h3, h4, h5, hst⟩ := exchange_at recv ht he hf hsreq
  have hsubL : [Entry.sent t (wire (settingRead version id)), .received f n].Sublist L := by
    rw [hL]
    exact hsub.trans ((List.sublist_append_right _ _).trans (List.sublist_append_left _ _))
  have status : ∀ a : UInt8, n.payload.lookup "status" = some (.int a.toNat) →
      a = 0 ∨ a = 2 ∧ id = flagId version := by
    intro a ha
    obtain ⟨z, hz, hm⟩ := hst _ ha
    cases hz
    rcases hexp with rfl | ⟨rfl, hid⟩
    · have : a.toNat = 0 := by simpa using hm
      exact .inl (UInt8.toNat_inj.mp this)
    · have hm : (a.toNat : Int) = 0 ∨ (a.toNat : Int) = 2 := by simpa using hm
      have : a.toNat = 0 ∨ a.toNat = 2 := by omega
      rcases this with h | h
      · exact .inl (UInt8.toNat_inj.mp h)
      · exact .inr ⟨UInt8.toNat_inj.mp h, hid⟩
  have len : ∀ (l : UInt8) (r : List UInt8), l.toNat ≤ r.length → r.take l.toNat = value →
      l = UInt8.ofNat value.length ∧ r = value ++ r.drop l.toNat := by
    intro l r hl hr
    constructor
    · rw [← hr, List.length_take, Nat.min_eq_left hl]; simp
    · rw [← hr, List.take_append_drop]
  rcases hk with ⟨rfl, rfl, hid⟩ | ⟨rfl, rfl, rfl, hver⟩
  · obtain ⟨h6, h7, h8, h9⟩ := report_received (t := .SRSP) (s := .SYS) (n := 0x08) (name := "osalNvRead")
      (fields := [("status", .u8), ("len", .u8), ("value", .blob)]) (by decide +kernel) hdec h3 h4 h5
    have hset : (settingRead version id).subsystem = .SYS ∧ (settingRead version id).commandId = 8 := by
      unfold settingRead keyRead
      split
      · split
        · exact ⟨rfl, rfl⟩
        · next a b => exact absurd ⟨a, b⟩ hid
      · exact ⟨rfl, rfl⟩
    match hd : f.data with
    | [] => rw [hd] at h9; cases h9
    | [a] => rw [hd] at h9; cases h9
    | a :: l :: r =>
      rw [hd] at h9
      by_cases hl : l.toNat ≤ r.length
      · simp only [readLayout, Fld.read, hl, if_true, Option.some.injEq] at h9
        rw [← h9] at hv status
        have hv : some (Val.bytes (r.take l.toNat)) = some (.bytes value) := hv
        obtain ⟨k1, k2⟩ := len l r hl (Val.bytes.inj (Option.some.inj hv))
        refine ⟨f, a, l :: r, r.drop l.toNat, ⟨t, n, hsubL, h6, h7.trans hset.1.symm, h8.trans hset.2.symm⟩,
          hd, status a rfl, ?_⟩
        unfold reporting
        rw [if_neg hid, ← k1, ← k2]
      · simp only [readLayout, Fld.read, hl, if_false] at h9
        cases h9
  · obtain ⟨h6, h7, h8, h9⟩ := report_received (t := .SRSP) (s := .SAPI) (n := 0x04)
      (name := "readConfiguration")
      (fields := [("status", .u8), ("configid", .u8), ("len", .u8), ("value", .blob)])
      (by decide +kernel) hdec h3 h4 h5
    have hset : (settingRead version 0x62).subsystem = .SAPI ∧ (settingRead version 0x62).commandId = 4 := by
      rw [settingRead, if_pos rfl, keyRead, if_neg hver]
      exact ⟨rfl, rfl⟩
    match hd : f.data with
    | [] => rw [hd] at h9; cases h9
    | [a] => rw [hd] at h9; cases h9
    | [a, c] => rw [hd] at h9; cases h9
    | a :: c :: l :: r =>
      rw [hd] at h9
      by_cases hl : l.toNat ≤ r.length
      · simp only [readLayout, Fld.read, hl, if_true, Option.some.injEq] at h9
        rw [← h9] at hv status
        have hv : some (Val.bytes (r.take l.toNat)) = some (.bytes value) := hv
        obtain ⟨k1, k2⟩ := len l r hl (Val.bytes.inj (Option.some.inj hv))
        refine ⟨f, a, c :: l :: r, r.drop l.toNat,
          ⟨t, n, hsubL, h6, h7.trans hset.1.symm, h8.trans hset.2.symm⟩, hd, status a rfl, ?_⟩
        unfold reporting
        rw [if_pos ⟨rfl, hver⟩, ← k1, ← k2]
        exact ⟨c, rfl⟩
      · simp only [readLayout, Fld.read, hl, if_false] at h9
        cases h9

/-- The history of a start-up that returned. -/
theorem startup_shape {o : Options} {autoForm : Bool} {h : List Act}
    (hr : Returns (startup o autoForm) h ()) :
    ∃ x v p form i ieee nwk, h = [⟨.connect, .ok ()⟩,
        ⟨.request .SYS "ping" [("capabilities", .int 1)] none, .ok x⟩,
        ⟨.request .SYS "version" [] none, .ok (some v)⟩,
        ⟨.semaphore (if p = 1 then 16 else 2), .ok ()⟩] ++ form ++
      [⟨.request .UTIL "getDeviceInfo" [] none, .ok (some i)⟩, ⟨.coordinator ieee nwk, .ok ()⟩] ∧
      v.payload.lookup "product" = some (.int p) ∧ (p = 0 ∨ p = 1 ∨ p = 2) ∧
      i.payload.lookup "ieeeaddr" = some ieee ∧ i.payload.lookup "shortaddr" = some nwk ∧
      Returns (autoFormNetwork p o autoForm) form () := by
  unfold startup at hr
  obtain ⟨h1, h2, _, rfl, h3, hr1⟩ := returns_bind.mp hr
  cases returns_op.mp h3
  obtain ⟨h4, h5, x, rfl, h6, hr2⟩ := returns_bind.mp hr1
  cases returns_request.mp (returns_ping h6)
  obtain ⟨v, h7, rfl, hr3⟩ := returns_req_bind hr2
  obtain ⟨h8, h9, product, rfl, h10, hr4⟩ := returns_bind.mp hr3
  obtain ⟨rfl, v, rfl, hv⟩ := returns_field.mp h10
  obtain ⟨h11, h12, _, rfl, h13, hr5⟩ := returns_bind.mp hr4
  cases returns_op.mp h13
  obtain ⟨h14, h15, p, rfl, h16, hr6⟩ := returns_bind.mp hr5
  obtain ⟨rfl, hp⟩ := returns_lift.mp h16
  obtain ⟨h17, h18, _, rfl, h19, hr7⟩ := returns_bind.mp hr6
  obtain ⟨i, h20, rfl, hr8⟩ := returns_req_bind hr7
  obtain ⟨h21, h22, ieee, rfl, h23, hr9⟩ := returns_bind.mp hr8
  obtain ⟨rfl, i, rfl, hi⟩ := returns_field.mp h23
  obtain ⟨h24, h25, nwk, rfl, h26, hr10⟩ := returns_bind.mp hr9
  obtain ⟨rfl, i', hi', hn⟩ := returns_field.mp h26
  cases hi'
  cases returns_op.mp hr10
  obtain ⟨rfl, hp'⟩ := znpVersion_ok hp
  refine ⟨x, v, p, h17, i, ieee, nwk, ?_, hv, hp', hi, hn, h19⟩
  have : (if Val.int p = .int zStack3x0 then 16 else 2) = if p = 1 then 16 else 2 := by
    by_cases h : p = 1
    · subst h; rfl
    · rw [if_neg h]
      exact if_neg (fun he => h (Val.int.inj he))
  rw [this]
  simp

/-- The bytes of a version response. -/
theorem version_bytes {data : List UInt8} {p : Payload} {q : Int}
    (h : readLayout 0 [("transportrev", .u8), ("product", .u8), ("majorrel", .u8), ("minorrel", .u8),
      ("maintrel", .u8), ("revision", .u32)] data = some p)
    (hq : p.lookup "product" = some (.int q)) :
    ∃ (tr b : UInt8) (x : List UInt8), data = tr :: b :: x ∧ 7 ≤ x.length ∧ q = b.toNat := by
  match data with
  | [] | [_] | [_, _] | [_, _, _] | [_, _, _, _] | [_, _, _, _, _] | [_, _, _, _, _, _]
  | [_, _, _, _, _, _, _] | [_, _, _, _, _, _, _, _] => cases h
  | a :: b :: c :: d :: e :: f :: g :: i :: j :: r =>
    cases h
    cases hq
    exact ⟨a, b, _, rfl, by simp only [List.length_cons]; omega, rfl⟩

/-- The bytes of a device information response. -/
theorem info_bytes {data : List UInt8} {p : Payload} {ieee nwk : Val}
    (h : readLayout 0 [("status", .u8), ("ieeeaddr", .eui), ("shortaddr", .u16),
      ("devicetype", .u8), ("devicestate", .u8), ("numassocdevices", .u8),
      ("assocdeviceslist", .words)] data = some p)
    (hi : p.lookup "ieeeaddr" = some ieee) (hn : p.lookup "shortaddr" = some nwk) :
    ∃ (st : UInt8) (e : List UInt8) (a b t s : UInt8) (y : List UInt8),
      data = st :: (e ++ a :: b :: t :: s :: y) ∧ e.length = 8 ∧
      p.lookup "status" = some (.int st.toNat) ∧ p.lookup "devicestate" = some (.int s.toNat) ∧
      ieee = .eui e ∧ nwk = .int (a.toNat + 256 * b.toNat : Nat) := by
  cases data with
  | nil => cases h
  | cons st r =>
    by_cases hl : 8 ≤ r.length
    · have e1 : readLayout 0 [("status", .u8), ("ieeeaddr", .eui), ("shortaddr", .u16),
          ("devicetype", .u8), ("devicestate", .u8), ("numassocdevices", .u8),
          ("assocdeviceslist", .words)] (st :: r) =
          match readLayout 0 [("shortaddr", .u16), ("devicetype", .u8), ("devicestate", .u8),
            ("numassocdevices", .u8), ("assocdeviceslist", .words)] (r.drop 8) with
          | none => none
          | some q => some (("status", .int st.toNat) :: ("ieeeaddr", .eui (r.take 8)) :: q) := by
        rw [readLayout, Fld.read]
        dsimp only
        rw [readLayout, Fld.read, if_pos hl]
        dsimp only
        cases readLayout 0 [("shortaddr", .u16), ("devicetype", .u8), ("devicestate", .u8),
            ("numassocdevices", .u8), ("assocdeviceslist", .words)] (r.drop 8) <;> rfl
      rw [e1] at h
      have hr : r = r.take 8 ++ r.drop 8 := (List.take_append_drop 8 r).symm
      generalize he : r.take 8 = e at *
      have hle : e.length = 8 := by rw [← he, List.length_take]; omega
      generalize r.drop 8 = d at *
      match d with
      | [] | [_] | [_, _] | [_, _, _] | [_, _, _, _] => cases h
      | a :: b :: t :: s :: k :: y =>
        cases hx : readLayout k.toNat [("assocdeviceslist", .words)] y with
        | none =>
          simp only [readLayout, Fld.read] at h hx
          split at h
          · cases h
          · rename_i q hq
            split at hq <;> simp_all
        | some q =>
          have : readLayout 0 [("shortaddr", .u16), ("devicetype", .u8), ("devicestate", .u8),
            ("numassocdevices", .u8), ("assocdeviceslist", .words)] (a :: b :: t :: s :: k :: y) =
            some (("shortaddr", .int (a.toNat + 256 * b.toNat : Nat)) :: ("devicetype", .int t.toNat) ::
              ("devicestate", .int s.toNat) :: ("numassocdevices", .int k.toNat) :: q) := by
            rw [readLayout, Fld.read]; dsimp only
            rw [readLayout, Fld.read]; dsimp only
            rw [readLayout, Fld.read]; dsimp only
            rw [readLayout, Fld.read]; dsimp only
            rw [hx]
          rw [this] at h
          cases h
          cases hi
          cases hn
          exact ⟨st, e, a, b, t, s, k :: y, by rw [hr], hle, rfl, rfl, rfl, rfl⟩
    · exfalso
      rw [readLayout, Fld.read] at h
      dsimp only at h
      rw [readLayout, Fld.read, if_neg hl] at h
      cases h

theorem info_present {data : List UInt8} {p : Payload}
    (h : readLayout 0 [("status", .u8), ("ieeeaddr", .eui), ("shortaddr", .u16),
      ("devicetype", .u8), ("devicestate", .u8), ("numassocdevices", .u8),
      ("assocdeviceslist", .words)] data = some p) :
    ∃ ieee nwk, p.lookup "ieeeaddr" = some ieee ∧ p.lookup "shortaddr" = some nwk := by
  have names : ∀ (ps : List (String × Fld)) (n : Nat) (d : List UInt8) (q : Payload),
      readLayout n ps d = some q → q.map (·.1) = ps.map (·.1) := by
    intro ps
    induction ps with
    | nil => intro n d q h; cases h; rfl
    | cons x ps ih =>
      intro n d q h
      unfold readLayout at h
      split at h
      · cases h
      · split at h
        · cases h
        · rename_i hq
          cases h
          simp [ih _ _ _ hq]
  have := names _ _ _ _ h
  match p, this with
  | [(_, _), (_, v1), (_, v2), (_, _), (_, _), (_, _), (_, _)], h =>
    simp only [List.map_cons, List.map_nil, List.cons.injEq, and_true] at h
    obtain ⟨rfl, rfl, rfl, rfl, rfl, rfl, rfl⟩ := h
    exact ⟨v1, v2, rfl, rfl⟩

end Zcc
