import Verif.Spec.Sizes
import Verif.Proofs.Layout

/-! Lemmas for C89: in the received messages of the table, each field of variable size follows the
field that announces its size. -/

namespace Zcc
open Spec

/-- Each field of variable size follows the field that announces it; the first field has none before
it. -/
def announcedAll : Option String → Params → Bool
  | _, [] => true
  | prev, p :: ps =>
    (!needsCount p.2 || match prev with
      | none => true
      | some q => announces.contains (q, p.1)) && announcedAll (some p.1) ps

theorem table_announced_dec : ∀ s ∈ allSubsystems, ∀ cs ∈ definition s, ∀ c ∈ cs,
    (c.type = .AREQ → c.name ≠ "msgCbIncoming" → announcedAll none c.request = true) ∧
    ∀ r ∈ c.response, announcedAll none r = true := by decide +kernel

theorem table_announced {s : Subsystem} {c : Cmd} (h : InTable s c) :
    (c.type = .AREQ → c.name ≠ "msgCbIncoming" → announcedAll none c.request = true) ∧
    ∀ r ∈ c.response, announcedAll none r = true := by
  obtain ⟨cs, h1, h2⟩ := h
  exact table_announced_dec s (mem_allSubsystems s) cs h1 c h2

/-- Commands of one subsystem with the same id are the same. -/
theorem inTable_same {s : Subsystem} {c d : Cmd} (hc : InTable s c) (hd : InTable s d)
    (h : c.id = d.id) : c = d := by
  obtain ⟨cs, h1, h2⟩ := hc
  obtain ⟨ds, h3, h4⟩ := hd
  rw [h1] at h3
  obtain rfl := Option.some.inj h3
  have hn := (table_unique h1).1
  have e1 := find_by_key (·.id) cs hn c h2
  have e2 := find_by_key (·.id) cs hn d h4
  simp only [h] at e1
  exact Option.some.inj (e1.symm.trans e2)

theorem sized_elements {prev : Option Val} {t : ParameterType} {v : Val} (h : Sized prev t v)
    (hn : needsCount t = true) : ∃ n : Nat, elements v = some n ∧ prev = some (.int n) := by
  cases t <;> simp only [needsCount, Bool.false_eq_true] at hn <;>
    (obtain ⟨b, rfl, hb⟩ := h; exact ⟨_, rfl, hb⟩)

theorem sized_at {prev : Option Val} {ps : Params} {vs : List Val} (h : SizedAll prev ps vs) :
    vs.length = ps.length ∧ ∀ i (hi : i < ps.length) (hv : i < vs.length),
      Sized (if i = 0 then prev else vs[i - 1]?) ps[i].2 vs[i] := by
  induction ps generalizing prev vs with
  | nil =>
    cases vs with
    | nil => exact ⟨rfl, fun i hi => absurd hi (Nat.not_lt_zero i)⟩
    | cons v vs => exact h.elim
  | cons p ps ih =>
    cases vs with
    | nil => exact h.elim
    | cons v vs =>
      obtain ⟨h1, h2⟩ := h
      obtain ⟨hl, hr⟩ := ih h2
      refine ⟨by simp [hl], fun i hi hv => ?_⟩
      cases i with
      | zero => exact h1
      | succ i =>
        have := hr i (by simpa using hi) (by simpa using hv)
        cases i with
        | zero => simpa using this
        | succ j => simpa using this

theorem announced_at {prev : Option String} {ps : Params} (h : announcedAll prev ps = true) :
    ∀ i (hi : i + 1 < ps.length), needsCount ps[i + 1].2 = true →
      (ps[i].1, ps[i + 1].1) ∈ announces := by
  induction ps generalizing prev with
  | nil => intro i hi; simp at hi
  | cons p ps ih =>
    intro i hi hn
    simp only [announcedAll, Bool.and_eq_true] at h
    cases i with
    | succ i => exact ih h.2 i (by simpa using hi) (by simpa using hn)
    | zero =>
      cases ps with
      | nil => simp at hi
      | cons p' ps =>
        simp only [List.getElem_cons_succ, List.getElem_cons_zero] at hn ⊢
        have := h.2
        simp only [announcedAll, Bool.and_eq_true, hn, Bool.not_true, Bool.false_or] at this
        simpa using this.1

/-- If each field of variable size follows the field that announces it, then all sizes are the
announced ones. -/
theorem size_announced {o : Obj} {vs : List Val} (hn : (o.parameters.map (·.1)).Nodup)
    (hp : o.payload = (o.parameters.map (·.1)).zip vs) (hs : SizedAll none o.parameters vs)
    (ha : announcedAll none o.parameters = true) (p : String × ParameterType) (hm : p ∈ o.parameters)
    (hc : needsCount p.2 = true) : SizeAnnounced o p.1 := by
  obtain ⟨hl, hat⟩ := sized_at hs
  obtain ⟨i, hi, rfl⟩ := List.getElem_of_mem hm
  obtain ⟨n, h1, h2⟩ := sized_elements (hat i hi (by omega)) hc
  cases i with
  | zero => simp at h2
  | succ i =>
    refine ⟨o.parameters[i].1, _, n, announced_at ha i hi hc, ?_, h1, ?_⟩
    · rw [hp, lookup_zip _ _ hl hn (i + 1) hi]
    · rw [hp, lookup_zip _ _ hl hn i (by omega)]
      simp only [Nat.add_eq_zero_iff, Nat.succ_ne_self, and_false, if_false, Nat.add_sub_cancel] at h2
      rw [← h2, List.getElem?_eq_getElem]

/-- The entry of the table for ZDO `msgCbIncoming`. -/
def msgCbIncoming : Cmd :=
  { name := "msgCbIncoming", id := 255, type := .AREQ,
    request := [("srcaddr", .UINT16), ("wasbroadcast", .UINT8), ("clusterid", .UINT16),
      ("securityuse", .UINT8), ("seqnum", .UINT8), ("macdstaddr", .UINT16), ("msgdata", .BUFFER)],
    response := none }

theorem msgCb_inTable : InTable .ZDO msgCbIncoming := ⟨_, rfl, by decide +kernel⟩

theorem not_addrMode {name : String} (h : "addrmode".toList.isSuffixOf name.toList = false) :
    ¬ IsAddrModeName name := by
  rintro ⟨pre, hs⟩
  have : "addrmode".toList.isSuffixOf name.toList = true :=
    List.isSuffixOf_iff_suffix.mpr ⟨pre, hs.symm⟩
  rw [h] at this
  exact Bool.noConfusion this

/-- The values of a `msgCbIncoming`. -/
theorem msgCb_fields (x : List UInt8) (vs : List Val) : Fields none msgCbIncoming.request x vs ↔
    ∃ a b c d e g h lo hi m, x = [a, b, c, d, e, g, h, lo, hi] ++ m ∧
      m.length = lo.toNat + 256 * hi.toNat ∧
      vs = [.int (a.toNat + 256 * b.toNat : Nat), .int c.toNat, .int (d.toNat + 256 * e.toNat : Nat),
        .int g.toNat, .int h.toNat, .int (lo.toNat + 256 * hi.toNat : Nat), .bytes m] := by
  constructor
  · rintro ⟨_, _, _, _, rfl, rfl, ⟨a, b, rfl, rfl⟩, _, _, _, _, rfl, rfl, ⟨c, rfl, rfl, -⟩,
      _, _, _, _, rfl, rfl, ⟨d, e, rfl, rfl⟩, _, _, _, _, rfl, rfl, ⟨g, rfl, rfl, -⟩,
      _, _, _, _, rfl, rfl, ⟨h, rfl, rfl, -⟩, _, _, _, _, rfl, rfl, ⟨lo, hi, rfl, rfl⟩,
      m, _, _, _, rfl, rfl, ⟨hm, rfl⟩, rfl, rfl⟩
    refine ⟨a, b, c, d, e, g, h, lo, hi, m, by simp, ?_, rfl⟩
    simp only [Option.some.injEq, Val.int.injEq] at hm
    omega
  · rintro ⟨a, b, c, d, e, g, h, lo, hi, m, rfl, hm, rfl⟩
    refine ⟨[a, b], _, _, _, rfl, rfl, ⟨a, b, rfl, rfl⟩, [c], _, _, _, rfl, rfl, ⟨c, rfl, rfl, ?_⟩,
      [d, e], _, _, _, rfl, rfl, ⟨d, e, rfl, rfl⟩, [g], _, _, _, rfl, rfl, ⟨g, rfl, rfl, ?_⟩,
      [h], _, _, _, rfl, rfl, ⟨h, rfl, rfl, ?_⟩, [lo, hi], _, _, _, rfl, rfl, ⟨lo, hi, rfl, rfl⟩,
      m, [], _, _, by simp, rfl, ⟨by rw [hm], rfl⟩, rfl, rfl⟩
    · exact fun hn => absurd hn (not_addrMode (by decide))
    · exact fun hn => absurd hn (not_addrMode (by decide))
    · exact fun hn => absurd hn (not_addrMode (by decide))

/-- A `msgCbIncoming` decodes exactly if at least as many bytes follow the MAC destination address as
this address says. -/
theorem msgCb_decode {f : Frame} (hs : f.subsystem = .ZDO) (hid : f.commandId = 255)
    (ht : f.commandType ≠ .SRSP) (o : Obj) : Obj.fromUnpiFrame f = .ok o ↔
      ∃ a b c d e g h lo hi m rest, f.data = [a, b, c, d, e, g, h, lo, hi] ++ m ++ rest ∧
        m.length = lo.toNat + 256 * hi.toNat ∧
        o = { commandType := f.commandType, subsystem := .ZDO, command := "msgCbIncoming",
              commandId := 255, parameters := msgCbIncoming.request,
              payload := [("srcaddr", .int (a.toNat + 256 * b.toNat : Nat)),
                ("wasbroadcast", .int c.toNat), ("clusterid", .int (d.toNat + 256 * e.toNat : Nat)),
                ("securityuse", .int g.toNat), ("seqnum", .int h.toNat),
                ("macdstaddr", .int (lo.toNat + 256 * hi.toNat : Nat)), ("msgdata", .bytes m)] } := by
  rw [decode_iff]
  constructor
  · rintro ⟨c, ps, x, rest, vs, hc, hcid, hp, hx, hF, ho⟩
    obtain rfl : c = msgCbIncoming := inTable_same (hs ▸ hc) msgCb_inTable (hcid.trans hid)
    unfold ParamsOf at hp
    rw [if_neg ht] at hp
    subst hp
    obtain ⟨a, b, c, d, e, g, h, lo, hi, m, rfl, hm, rfl⟩ := (msgCb_fields _ _).mp hF
    refine ⟨a, b, c, d, e, g, h, lo, hi, m, rest, hx, hm, ?_⟩
    rw [ho, hs]
    rfl
  · rintro ⟨a, b, c, d, e, g, h, lo, hi, m, rest, hx, hm, rfl⟩
    refine ⟨msgCbIncoming, msgCbIncoming.request, _, rest, _, hs ▸ msgCb_inTable, hid.symm, ?_, hx,
      (msgCb_fields _ _).mpr ⟨a, b, c, d, e, g, h, lo, hi, m, rfl, hm, rfl⟩, ?_⟩
    · unfold ParamsOf
      rw [if_neg ht]
    · rw [hs]
      rfl

end Zcc
