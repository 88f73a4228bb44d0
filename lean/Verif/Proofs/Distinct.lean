import Verif.Spec.Distinct
import Verif.Proofs.Codec
import Verif.Proofs.Table
import Verif.Proofs.Requests

/-! # Different requests have different bytes -/

namespace Zcc

open Spec

/-- The width of the fields of fixed size; types of which there are no values (`KindOf`) count as such. -/
def fixedWidth : ParameterType → Option Nat
  | .UINT8 => some 1
  | .UINT16 => some 2
  | .UINT32 => some 4
  | .IEEEADDR => some 8
  | .BUFFER | .LIST_UINT8 | .LIST_UINT16 => none
  | _ => some 0

/-- Where each field ends can be told from the bytes: fields have a fixed size, or their size was said before, or
is known (data in the fields `known`), or all fields after them have a fixed size. -/
def delimited (known : List String) : Option String → Params → Bool
  | _, [] => true
  | prev, p :: ps =>
    ((fixedWidth p.2).isSome || (p.2 == .BUFFER && known.contains p.1) || (match prev with | some q => listCounts.contains (q, p.1) | none => false)) &&
      delimited known (some p.1) ps ||
    ps.all fun x => (fixedWidth x.2).isSome

theorem writeInt_out {v : Int} {w : Nat} {x : List UInt8} (h : writeInt v w = .ok x) :
    x.length = w ∧ v = (leValue x : Nat) := by
  unfold writeInt at h
  split at h
  · rename_i hr
    cases h
    refine ⟨leBytes_length _ _, ?_⟩
    rw [leValue_leBytes]
    · exact (Int.toNat_of_nonneg hr.1).symm
    · have h1 := (Int.toNat_of_nonneg hr.1)
      have h2 := hr.2
      have : ((v.toNat : Int)) < ((256 ^ w : Nat) : Int) := by rw [h1]; simpa using h2
      exact Int.ofNat_lt.mp this
  · cases h

theorem writeInts_out {w : Nat} : ∀ {l : List Int} {x : List UInt8}, writeInts w l = .ok x → x.length = l.length * w
  | [], _, h => by cases h; simp
  | v :: l, x, h => by
    unfold writeInts at h
    rcases ha : writeInt v w with e | a
    · rw [ha] at h; cases h
    rcases hb : writeInts w l with e | b
    · rw [ha, hb] at h; cases h
    rw [ha, hb] at h
    cases h
    rw [List.length_append, (writeInt_out ha).1, writeInts_out hb, List.length_cons, Nat.succ_mul, Nat.add_comm]

theorem writeInts_inj {w : Nat} (hw : 0 < w) : ∀ {l l' : List Int} {x : List UInt8}, writeInts w l = .ok x →
    writeInts w l' = .ok x → l = l'
  | [], [], _, _, _ => rfl
  | [], v :: l', x, h, h' => by
    have h1 := writeInts_out h
    rw [writeInts_out h', List.length_cons, Nat.succ_mul] at h1
    simp at h1
    omega
  | v :: l, [], x, h, h' => by
    have h1 := writeInts_out h
    rw [writeInts_out h', List.length_cons, Nat.succ_mul] at h1
    simp at h1
    omega
  | v :: l, v' :: l', x, h, h' => by
    unfold writeInts at h h'
    rcases ha : writeInt v w with e | a
    · rw [ha] at h; cases h
    rcases hb : writeInts w l with e | b
    · rw [ha, hb] at h; cases h
    rcases ha' : writeInt v' w with e | a'
    · rw [ha'] at h'; cases h'
    rcases hb' : writeInts w l' with e | b'
    · rw [ha', hb'] at h'; cases h'
    rw [ha, hb] at h
    rw [ha', hb'] at h'
    cases h
    have h' : a' ++ b' = a ++ b := Except.ok.inj h'
    obtain ⟨h1, h2⟩ := List.append_inj h' ((writeInt_out ha').1.trans (writeInt_out ha).1.symm)
    subst h1 h2
    rw [(writeInt_out ha).2, (writeInt_out ha').2, writeInts_inj hw hb hb']

/-- The bytes of a value of fixed size. -/
theorem fixed_length {i : Bool} {t : ParameterType} {v : Val} {x : List UInt8} {w : Nat} (hk : KindOf i t v)
    (hw : fixedWidth t = some w) (h : writeParameter t v = .ok x) : x.length = w := by
  cases t <;> try exact (show False from hk).elim
  all_goals simp only [fixedWidth, Option.some.injEq, reduceCtorEq] at hw
  all_goals subst hw
  · obtain ⟨n, rfl⟩ := hk; exact (writeInt_out h).1
  · obtain ⟨n, rfl⟩ := hk; exact (writeInt_out h).1
  · obtain ⟨n, rfl⟩ := hk; exact (writeInt_out h).1
  · cases i with
    | true =>
      obtain ⟨n, rfl⟩ : ∃ n, v = .int n := hk
      exact (writeInt_out h).1
    | false =>
      obtain ⟨b, rfl, hb⟩ : ∃ b, v = .eui b ∧ b.length = 8 := by simpa [KindOf] using hk
      have := writeInts_out (w := 1) h
      rw [this, List.length_map, hb]

/-- Values of the same kind with the same bytes are the same. -/
theorem value_inj {i : Bool} {t : ParameterType} {v v' : Val} {x : List UInt8} (hk : KindOf i t v) (hk' : KindOf i t v')
    (h : writeParameter t v = .ok x) (h' : writeParameter t v' = .ok x) : v = v' := by
  have int : ∀ {w : Nat} {n n' : Int}, writeInt n w = .ok x → writeInt n' w = .ok x → n = n' := by
    intro w n n' h h'
    rw [(writeInt_out h).2, (writeInt_out h').2]
  cases t <;> try exact (show False from hk).elim
  · obtain ⟨n, rfl⟩ := hk; obtain ⟨n', rfl⟩ := hk'; rw [int h h']
  · obtain ⟨n, rfl⟩ := hk; obtain ⟨n', rfl⟩ := hk'; rw [int h h']
  · obtain ⟨n, rfl⟩ := hk; obtain ⟨n', rfl⟩ := hk'; rw [int h h']
  · cases i with
    | true =>
      obtain ⟨n, rfl⟩ : ∃ n, v = .int n := hk
      obtain ⟨n', rfl⟩ : ∃ n, v' = .int n := hk'
      rw [int h h']
    | false =>
      obtain ⟨b, rfl, -⟩ : ∃ b, v = .eui b ∧ b.length = 8 := by simpa [KindOf] using hk
      obtain ⟨b', rfl, -⟩ : ∃ b, v' = .eui b ∧ b.length = 8 := by simpa [KindOf] using hk'
      have h : writeInts 1 (b.map (fun b => (b.toNat : Int))) = .ok x := h
      have h' : writeInts 1 (b'.map (fun b => (b.toNat : Int))) = .ok x := h'
      rw [writeInts_bytes] at h h'
      rw [Except.ok.inj h, Except.ok.inj h']
  · obtain ⟨b, rfl⟩ := hk; obtain ⟨b', rfl⟩ := hk'
    have h : Except.ok b = .ok x := h
    have h' : Except.ok b' = .ok x := h'
    rw [Except.ok.inj h, Except.ok.inj h']
  · obtain ⟨l, rfl⟩ := hk; obtain ⟨l', rfl⟩ := hk'
    rw [writeInts_inj (w := 1) (by decide) h h']
  · obtain ⟨l, rfl⟩ := hk; obtain ⟨l', rfl⟩ := hk'
    rw [writeInts_inj (w := 2) (by decide) h h']

/-- Values of the same number of elements have as many bytes. -/
theorem counted_length {i : Bool} {t : ParameterType} {v v' : Val} {x x' : List UInt8} (hk : KindOf i t v) (hk' : KindOf i t v')
    (hv : fixedWidth t = none) (h : writeParameter t v = .ok x) (h' : writeParameter t v' = .ok x') :
    ∃ n n', elements v = some n ∧ elements v' = some n' ∧ (n = n' → x.length = x'.length) := by
  cases t <;> try exact (show False from hk).elim
  · cases hv
  · cases hv
  · cases hv
  · cases hv
  · obtain ⟨b, rfl⟩ := hk; obtain ⟨b', rfl⟩ := hk'
    have h : Except.ok b = .ok x := h
    have h' : Except.ok b' = .ok x' := h'
    cases h; cases h'
    exact ⟨_, _, rfl, rfl, id⟩
  · obtain ⟨l, rfl⟩ := hk; obtain ⟨l', rfl⟩ := hk'
    refine ⟨_, _, rfl, rfl, fun e => ?_⟩
    rw [writeInts_out (w := 1) h, writeInts_out (w := 1) h', e]
  · obtain ⟨l, rfl⟩ := hk; obtain ⟨l', rfl⟩ := hk'
    refine ⟨_, _, rfl, rfl, fun e => ?_⟩
    rw [writeInts_out (w := 2) h, writeInts_out (w := 2) h', e]

theorem writeParameters_cons {payload : Payload} {p : String × ParameterType} {ps : Params} {x : List UInt8}
    (h : writeParameters payload (p :: ps) = .ok x) : ∃ v a b, payload.lookup p.1 = some v ∧
      writeParameter p.2 v = .ok a ∧ writeParameters payload ps = .ok b ∧ x = a ++ b := by
  unfold writeParameters dictGet at h
  rcases hl : payload.lookup p.1 with _ | v
  · rw [hl] at h; cases h
  rw [hl] at h
  dsimp only at h
  rw [ok_bind] at h
  rcases ha : writeParameter p.2 v with e | a
  · rw [ha] at h; cases h
  rw [ha, ok_bind] at h
  rcases hb : writeParameters payload ps with e | b
  · rw [hb] at h; cases h
  rw [hb] at h
  cases h
  exact ⟨v, a, b, rfl, ha, rfl, rfl⟩

theorem Spec.Proper.tail {i : Bool} {payload : Payload} {p : String × ParameterType} {ps : List (String × ParameterType)}
    (h : Proper i payload (p :: ps)) : Proper i payload ps :=
  ⟨fun q hq => h.kinds q (List.mem_cons_of_mem _ hq), fun q r hm hr => h.counts q r hm (List.mem_cons_of_mem _ hr)⟩

/-- Fields of fixed size have as many bytes whatever the values. -/
theorem all_fixed {i : Bool} {p p' : Payload} : ∀ {ps : Params} {x x' : List UInt8},
    ps.all (fun x => (fixedWidth x.2).isSome) = true → Proper i p ps → Proper i p' ps →
    writeParameters p ps = .ok x → writeParameters p' ps = .ok x' → x.length = x'.length
  | [], _, _, _, _, _, h, h' => by cases h; cases h'; rfl
  | q :: ps, x, x', hf, k, k', h, h' => by
    obtain ⟨v, a, b, hv, ha, hb, rfl⟩ := writeParameters_cons h
    obtain ⟨v', a', b', hv', ha', hb', rfl⟩ := writeParameters_cons h'
    rw [List.all_cons, Bool.and_eq_true] at hf
    obtain ⟨w, hw⟩ := Option.isSome_iff_exists.mp hf.1
    rw [List.length_append, List.length_append, all_fixed hf.2 k.tail k'.tail hb hb',
      fixed_length (k.kinds q List.mem_cons_self v hv) hw ha,
      fixed_length (k'.kinds q List.mem_cons_self v' hv') hw ha']

theorem fields_inj {i : Bool} {p p' : Payload} {known : List String}
    (hn : ∀ r ∈ known, ∀ b b', p.lookup r = some (.bytes b) → p'.lookup r = some (.bytes b') → b.length = b'.length) :
    ∀ {ps : Params} {prev : Option String} {x : List UInt8},
    (∀ q, prev = some q → p.lookup q = p'.lookup q) → delimited known prev ps = true → Proper i p ps → Proper i p' ps →
    writeParameters p ps = .ok x → writeParameters p' ps = .ok x → ∀ q ∈ ps, p.lookup q.1 = p'.lookup q.1
  | [], _, _, _, _, _, _, _, _ => fun q hq => by cases hq
  | f :: ps, prev, x, hp, hd, k, k', h, h' => by
    obtain ⟨v, a, b, hv, ha, hb, rfl⟩ := writeParameters_cons h
    obtain ⟨v', a', b', hv', ha', hb', e⟩ := writeParameters_cons h'
    have hk := k.kinds f List.mem_cons_self v hv
    have hk' := k'.kinds f List.mem_cons_self v' hv'
    have go : a.length = a'.length → delimited known (some f.1) ps = true ∨ ps.all (fun x => (fixedWidth x.2).isSome) = true →
        ∀ q ∈ f :: ps, p.lookup q.1 = p'.lookup q.1 := by
      intro hl hr
      obtain ⟨h1, h2⟩ := List.append_inj e hl
      subst h1 h2
      have hvv : v = v' := value_inj hk hk' ha ha'
      have hf : p.lookup f.1 = p'.lookup f.1 := by rw [hv, hv', hvv]
      have hd' : delimited known (some f.1) ps = true := by
        rcases hr with hr | hr
        · exact hr
        · cases ps with
          | nil => rfl
          | cons g gs =>
            unfold delimited
            rw [List.all_cons, Bool.and_eq_true] at hr
            rw [hr.2, Bool.or_true]
      intro q hq
      rcases List.mem_cons.mp hq with rfl | hq
      · exact hf
      · exact fields_inj hn (fun q hq => by cases hq; exact hf) hd' k.tail k'.tail hb hb' q hq
    unfold delimited at hd
    rw [Bool.or_eq_true, Bool.and_eq_true] at hd
    rcases hd with ⟨h1, h2⟩ | h2
    · refine go ?_ (.inl h2)
      rcases hw : fixedWidth f.2 with _ | w
      · rw [hw] at h1
        by_cases hb : f.2 = .BUFFER ∧ f.1 ∈ known
        · rw [hb.1] at hk hk' ha ha'
          obtain ⟨c, rfl⟩ := hk
          obtain ⟨c', rfl⟩ := hk'
          have ha : Except.ok c = .ok a := ha
          have ha' : Except.ok c' = .ok a' := ha'
          cases ha; cases ha'
          exact hn f.1 hb.2 _ _ hv hv'
        obtain ⟨n, n', hn, hn', hl⟩ := counted_length hk hk' hw ha ha'
        apply hl
        have hz : (f.2 == ParameterType.BUFFER && known.contains f.1) = false := by
          cases hx : (f.2 == ParameterType.BUFFER && known.contains f.1) with
          | false => rfl
          | true =>
            rw [Bool.and_eq_true, beq_iff_eq, List.contains_iff_mem] at hx
            exact absurd hx hb
        rw [hz] at h1
        rcases prev with _ | q
        · simp at h1
        · have hm : (q, f.1) ∈ listCounts := by simpa using h1
          have c1 := k.counts q f.1 hm (by simp) v n hv hn
          have c2 := k'.counts q f.1 hm (by simp) v' n' hv' hn'
          rw [hp q rfl, c2] at c1
          have := Option.some.inj c1
          have := Val.int.inj this
          omega
      · rw [fixed_length hk hw ha, fixed_length hk' hw ha']
    · refine go ?_ (.inr h2)
      have h3 := all_fixed h2 k.tail k'.tail hb hb'
      have h4 := congrArg List.length e
      rw [List.length_append, List.length_append] at h4
      omega

/-- The commands of the table. -/
theorem table_delimited_dec : ∀ s ∈ allSubsystems, ∀ cs ∈ definition s, ∀ c ∈ cs,
    ¬ (s = .MAC ∧ c.name ∈ ["startReq", "dataReq"]) → delimited [] none c.request = true := by
  decide +kernel

theorem table_known_dec : ∀ s ∈ allSubsystems, ∀ cs ∈ definition s, ∀ c ∈ cs,
    delimited keySources none c.request = true := by
  decide +kernel

theorem fromCommand_ok {s : Subsystem} {name : String} {payload : Payload} {o : Obj}
    (ho : Obj.fromCommand s name payload = .ok o) : ∃ c, InTable s c ∧ c.name = name ∧
      o = { commandType := c.type, subsystem := s, command := c.name, commandId := c.id, payload
            parameters := c.request } := by
  unfold Obj.fromCommand at ho
  rcases hd : definitionGet s with e | cs
  · rw [hd, error_bind] at ho; simp at ho
  rw [hd, ok_bind] at ho
  rcases hn : nextCmd cs (fun c => c.name == name) with e | c
  · rw [hn, error_bind] at ho; simp at ho
  rw [hn, ok_bind] at ho
  obtain ⟨hm, hnm⟩ := nextCmd_ok hn
  simp only [beq_iff_eq] at hnm
  have hc : InTable s c := ⟨cs, definitionGet_ok hd, hm⟩
  have hps : c.parametersFor c.type = .ok c.request := by
    unfold Cmd.parametersFor
    rw [if_neg]
    rcases (table_misc hc).2.1 with h | h <;> rw [h] <;> decide
  rw [hps, ok_bind, pure_ok] at ho
  exact ⟨c, hc, hnm, (Except.ok.inj ho).symm⟩

theorem toUnpiFrame_ok {o : Obj} {f : Frame} (h : o.toUnpiFrame = .ok f) :
    writeParameters o.payload o.parameters = .ok f.data ∧ f.subsystem = o.subsystem ∧ f.commandId = o.commandId := by
  unfold Obj.toUnpiFrame at h
  rcases hw : writeParameters o.payload o.parameters with e | x
  · rw [hw, error_bind] at h; cases h
  rw [hw, ok_bind] at h
  cases h
  exact ⟨rfl, rfl, rfl⟩

/-- Frames of requests come without length and checksum; these are computed when they are written. -/
theorem toUnpiFrame_bare {o : Obj} {f : Frame} (h : o.toUnpiFrame = .ok f) : f.length = none ∧ f.fcs = none := by
  unfold Obj.toUnpiFrame at h
  cases hw : writeParameters o.payload o.parameters with
  | error e => rw [hw] at h; cases h
  | ok d => rw [hw] at h; cases h; exact ⟨rfl, rfl⟩

theorem proper_cluster {payload : Payload} {ps : Params}
    (hk : ∀ p ∈ ps, ∀ v, payload.lookup p.1 = some v → KindOf true p.2 v)
    (hn : (ps.map (·.1)).all (fun r => !(listCounts.map (·.2)).contains r) = true) : Proper true payload ps := by
  refine ⟨hk, fun q r hm hr => ?_⟩
  have := List.all_eq_true.mp hn r hr
  have hc : (listCounts.map (·.2)).contains r = true := List.contains_iff_mem.mpr (List.mem_map.mpr ⟨_, hm, rfl⟩)
  rw [hc] at this
  cases this

theorem unicast_proper (nwk cluster srcEp dstEp sequence : Int) (data : List UInt8) (radius : Int) :
    Proper true (unicastObj nwk cluster srcEp dstEp sequence data radius).payload dataRequestCmd.request :=
  proper_cluster (by
    intro p hp v hv
    have hp : p ∈ [("dstaddr", ParameterType.UINT16), ("destendpoint", .UINT8), ("srcendpoint", .UINT8), ("clusterid", .UINT16),
      ("transid", .UINT8), ("options", .UINT8), ("radius", .UINT8), ("len", .UINT8), ("data", .BUFFER)] := hp
    simp only [List.mem_cons, List.not_mem_nil, or_false] at hp
    rcases hp with rfl | rfl | rfl | rfl | rfl | rfl | rfl | rfl | rfl
    all_goals first
      | exact (⟨_, (Option.some.inj hv).symm⟩ : ∃ n, v = Val.int n)
      | exact (⟨_, (Option.some.inj hv).symm⟩ : ∃ b, v = Val.bytes b)) (by decide)

theorem ext_proper (mode nwk cluster srcEp dstEp sequence radius : Int) (data : List UInt8) :
    Proper true (extObj mode nwk cluster srcEp dstEp sequence radius data).payload dataRequestExtCmd.request :=
  proper_cluster (by
    intro p hp v hv
    have hp : p ∈ [("dstaddrmode", ParameterType.UINT8), ("dstaddr", .IEEEADDR), ("destendpoint", .UINT8), ("dstpanid", .UINT16),
      ("srcendpoint", .UINT8), ("clusterid", .UINT16), ("transid", .UINT8), ("options", .UINT8), ("radius", .UINT8),
      ("len", .UINT16), ("data", .BUFFER)] := hp
    simp only [List.mem_cons, List.not_mem_nil, or_false] at hp
    rcases hp with rfl | rfl | rfl | rfl | rfl | rfl | rfl | rfl | rfl | rfl | rfl
    all_goals first
      | exact (⟨_, (Option.some.inj hv).symm⟩ : ∃ n, v = Val.int n)
      | exact (⟨_, (Option.some.inj hv).symm⟩ : ∃ b, v = Val.bytes b)) (by decide)

end Zcc
