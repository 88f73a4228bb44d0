import Verif.Proofs.Table

/-!
# Which bytes are which values (helper lemmas)
-/

namespace Zcc
open Spec

theorem readInt_iff {n : Nat} {buf rest : List UInt8} {v : Nat} :
    readInt n buf = .ok (v, rest) ↔ ∃ x, x.length = n ∧ v = leValue x ∧ buf = x ++ rest := by
  constructor
  · intro h
    rw [readInt_eq] at h
    simp only [bindR] at h
    split at h
    · simp at h
    · rename_i b rest1 hr
      simp at h
      obtain ⟨h1, h2⟩ := readBytes_length hr
      obtain ⟨rfl, rfl⟩ := h
      exact ⟨b, h1, rfl, h2⟩
  · rintro ⟨x, h1, rfl, rfl⟩
    exact (reads_readInt n x h1).1 rest

theorem readInt1_iff {buf rest : List UInt8} {v : Nat} :
    readInt 1 buf = .ok (v, rest) ↔ ∃ a, v = a.toNat ∧ buf = a :: rest := by
  rw [readInt_iff]
  constructor
  · rintro ⟨x, h, rfl, rfl⟩
    match x, h with
    | [a], _ => exact ⟨a, by simp [leValue], rfl⟩
  · rintro ⟨a, rfl, rfl⟩
    exact ⟨[a], rfl, by simp [leValue], rfl⟩

theorem readInt2_iff {buf rest : List UInt8} {v : Nat} :
    readInt 2 buf = .ok (v, rest) ↔ ∃ a b, v = a.toNat + 256 * b.toNat ∧ buf = a :: b :: rest := by
  rw [readInt_iff]
  constructor
  · rintro ⟨x, h, rfl, rfl⟩
    match x, h with
    | [a, b], _ => exact ⟨a, b, by simp [leValue], rfl⟩
  · rintro ⟨a, b, rfl, rfl⟩
    exact ⟨[a, b], rfl, by simp [leValue], rfl⟩

theorem readInt4_iff {buf rest : List UInt8} {v : Nat} :
    readInt 4 buf = .ok (v, rest) ↔ ∃ a b c d,
      v = a.toNat + 256 * b.toNat + 65536 * c.toNat + 16777216 * d.toNat ∧
      buf = a :: b :: c :: d :: rest := by
  rw [readInt_iff]
  constructor
  · rintro ⟨x, h, rfl, rfl⟩
    match x, h with
    | [a, b, c, d], _ => exact ⟨a, b, c, d, by simp only [leValue]; omega, rfl⟩
  · rintro ⟨a, b, c, d, rfl, rfl⟩
    exact ⟨[a, b, c, d], rfl, by simp only [leValue]; omega, rfl⟩

theorem readBytes_iff {n : Nat} {buf rest x : List UInt8} :
    readBytes n buf = .ok (x, rest) ↔ x.length = n ∧ buf = x ++ rest :=
  ⟨readBytes_length, fun ⟨h, h'⟩ => h' ▸ (reads_readBytes n x h).1 rest⟩

theorem bindR_ok {α β : Type} {rd : Rd α} {f : α → Rd β} {buf rest : List UInt8} {w : β} :
    bindR rd f buf = .ok (w, rest) ↔ ∃ v mid, rd buf = .ok (v, mid) ∧ f v mid = .ok (w, rest) := by
  simp only [bindR]
  constructor
  · intro h
    split at h
    · simp at h
    · rename_i v mid hr; exact ⟨v, mid, hr, h⟩
  · rintro ⟨v, mid, h, h'⟩
    rw [h]; exact h'

theorem readInts1_iff {n : Nat} {buf rest : List UInt8} {l : List Int} :
    readInts 1 n buf = .ok (l, rest) ↔
      ∃ x : List UInt8, x.length = n ∧ buf = x ++ rest ∧ l = x.map (fun a => (a.toNat : Int)) := by
  induction n generalizing buf rest l with
  | zero =>
    simp only [readInts, Except.ok.injEq, Prod.mk.injEq, List.length_eq_zero_iff]
    constructor
    · rintro ⟨rfl, rfl⟩; exact ⟨[], rfl, rfl, rfl⟩
    · rintro ⟨x, rfl, rfl, rfl⟩; exact ⟨rfl, rfl⟩
  | succ n ih =>
    simp only [readInts_succ, bindR_ok, readInt1_iff, ih, Except.ok.injEq, Prod.mk.injEq]
    constructor
    · rintro ⟨v, mid, ⟨a, rfl, rfl⟩, vs, mid', ⟨x, h1, rfl, rfl⟩, rfl, rfl⟩
      exact ⟨a :: x, by simp [h1], rfl, rfl⟩
    · rintro ⟨x, h, rfl, rfl⟩
      match x, h with
      | a :: x, h =>
        exact ⟨a.toNat, x ++ rest, ⟨a, rfl, rfl⟩, _, rest, ⟨x, by simpa using h, rfl, rfl⟩, rfl, rfl⟩

theorem readInts2_iff {n : Nat} {buf rest : List UInt8} {l : List Int} :
    readInts 2 n buf = .ok (l, rest) ↔ ∃ x : List (UInt8 × UInt8), x.length = n ∧
      buf = x.flatMap (fun p => [p.1, p.2]) ++ rest ∧
      l = x.map (fun p => ((p.1.toNat + 256 * p.2.toNat : Nat) : Int)) := by
  induction n generalizing buf rest l with
  | zero =>
    simp only [readInts, Except.ok.injEq, Prod.mk.injEq, List.length_eq_zero_iff]
    constructor
    · rintro ⟨rfl, rfl⟩; exact ⟨[], rfl, rfl, rfl⟩
    · rintro ⟨x, rfl, rfl, rfl⟩; exact ⟨rfl, rfl⟩
  | succ n ih =>
    simp only [readInts_succ, bindR_ok, readInt2_iff, ih, Except.ok.injEq, Prod.mk.injEq]
    constructor
    · rintro ⟨v, mid, ⟨a, b, rfl, rfl⟩, vs, mid', ⟨x, h1, rfl, rfl⟩, rfl, rfl⟩
      exact ⟨(a, b) :: x, by simp [h1], rfl, rfl⟩
    · rintro ⟨x, h, rfl, rfl⟩
      match x, h with
      | (a, b) :: x, h =>
        exact ⟨_, _, ⟨a, b, rfl, rfl⟩, _, rest, ⟨x, by simpa using h, rfl, rfl⟩, rfl, rfl⟩

theorem neighborOf_eq (panId addr : List UInt8) (hp : panId.length = 8) (ha : addr.length = 8)
    (lo hi flags join depth lqi : UInt8) :
    neighborOf (panId ++ addr ++ [lo, hi, flags, join, depth, lqi]) =
      { extPanId := panId, extAddr := addr, nwkAddr := lo.toNat + 256 * hi.toNat,
        deviceType := flags.toNat % 4, rxOnWhenIdle := flags.toNat / 4 % 4,
        relationship := flags.toNat / 16 % 8, permitJoin := join.toNat % 4,
        depth := depth.toNat, lqi := lqi.toNat } := by
  match panId, hp, addr, ha with
  | [_, _, _, _, _, _, _, _], _, [_, _, _, _, _, _, _, _], _ => rfl

theorem readNeighbor_layout (panId addr : List UInt8) (hp : panId.length = 8) (ha : addr.length = 8)
    (lo hi flags join depth lqi : UInt8) (rest : List UInt8) :
    readNeighbor (panId ++ addr ++ [lo, hi, flags, join, depth, lqi] ++ rest) =
      .ok ({ extPanId := panId, extAddr := addr, nwkAddr := lo.toNat + 256 * hi.toNat,
             deviceType := flags.toNat % 4, rxOnWhenIdle := flags.toNat / 4 % 4,
             relationship := flags.toNat / 16 % 8, permitJoin := join.toNat % 4,
             depth := depth.toNat, lqi := lqi.toNat }, rest) := by
  have h1 : ∀ n : Fin 256, (n : Nat) &&& 0x03 = (n : Nat) % 4 := by decide +kernel
  have h2 : ∀ n : Fin 256, ((n : Nat) &&& 0x0C) >>> 2 = (n : Nat) / 4 % 4 := by decide +kernel
  have h3 : ∀ n : Fin 256, ((n : Nat) &&& 0x70) >>> 4 = (n : Nat) / 16 % 8 := by decide +kernel
  have f1 := h1 flags.toFin
  have f2 := h2 flags.toFin
  have f3 := h3 flags.toFin
  have f4 := h1 join.toFin
  have g1 : flags.toFin.val = flags.toNat := rfl
  have g2 : join.toFin.val = join.toNat := rfl
  rw [g1] at f1 f2 f3
  rw [g2] at f4
  have rb : ∀ (a x : List UInt8), a.length = 8 → readBytes 8 (a ++ x) = .ok (a, x) :=
    fun a x h => (reads_readBytes 8 a h).1 x
  have r1 : ∀ (b : UInt8) (x : List UInt8), readInt 1 (b :: x) = .ok (b.toNat, x) := by
    intro b x; simp [readInt_eq, bindR, readBytes, leValue]
  have r2 : ∀ (b c : UInt8) (x : List UInt8),
      readInt 2 (b :: c :: x) = .ok (b.toNat + 256 * c.toNat, x) := by
    intro b c x
    have : ¬ x.length + 1 + 1 < 2 := by omega
    simp [readInt_eq, bindR, readBytes, leValue, this]
  rw [readNeighbor_eq]
  simp only [bindR, List.append_assoc, rb _ _ hp, rb _ _ ha, List.cons_append, List.nil_append,
    r1, r2, f1, f2, f3, f4]

theorem readNeighbor_of {e : List UInt8} (h : e.length = 22) (rest : List UInt8) :
    readNeighbor (e ++ rest) = .ok (neighborOf e, rest) := by
  have he : e = e.take 8 ++ (e.drop 8).take 8 ++ e.drop 16 := by
    rw [List.append_assoc]
    have : (e.drop 8).take 8 ++ e.drop 16 = e.drop 8 := by
      rw [show e.drop 16 = (e.drop 8).drop 8 by simp]; exact List.take_append_drop _ _
    rw [this, List.take_append_drop]
  have hlast : (e.drop 16).length = 6 := by simp [h]
  match hm : e.drop 16, hlast with
  | [lo, hi, flags, join, depth, lqi], _ =>
    rw [hm] at he
    rw [he, readNeighbor_layout _ _ (by simp [h]) (by simp [h]),
      neighborOf_eq _ _ (by simp [h]) (by simp [h])]

theorem readNeighbor_iff {buf rest : List UInt8} {n : Neighbor} :
    readNeighbor buf = .ok (n, rest) ↔ ∃ e, e.length = 22 ∧ n = neighborOf e ∧ buf = e ++ rest := by
  constructor
  · intro h
    obtain ⟨e, h1, rfl, -⟩ := neighbor_mask h
    rw [readNeighbor_of h1] at h
    simp only [Except.ok.injEq, Prod.mk.injEq, and_true] at h
    exact ⟨e, h1, h.symm, rfl⟩
  · rintro ⟨e, h, rfl, rfl⟩
    exact readNeighbor_of h rest

theorem readNeighbors_iff {n : Nat} {buf rest : List UInt8} {l : List Neighbor} :
    readNeighbors n buf = .ok (l, rest) ↔ ∃ es : List (List UInt8), (∀ e ∈ es, e.length = 22) ∧
      es.length = n ∧ buf = es.flatten ++ rest ∧ l = es.map neighborOf := by
  induction n generalizing buf rest l with
  | zero =>
    simp only [readNeighbors, Except.ok.injEq, Prod.mk.injEq, List.length_eq_zero_iff]
    constructor
    · rintro ⟨rfl, rfl⟩; exact ⟨[], by simp, rfl, rfl, rfl⟩
    · rintro ⟨x, -, rfl, rfl, rfl⟩; exact ⟨rfl, rfl⟩
  | succ n ih =>
    simp only [readNeighbors_succ, bindR_ok, readNeighbor_iff, ih, Except.ok.injEq, Prod.mk.injEq]
    constructor
    · rintro ⟨v, mid, ⟨e, h0, rfl, rfl⟩, vs, mid', ⟨es, h1, h2, rfl, rfl⟩, rfl, rfl⟩
      exact ⟨e :: es, by simpa [h0] using h1, by simp [h2], by simp, rfl⟩
    · rintro ⟨es, h0, h, rfl, rfl⟩
      match es, h0, h with
      | e :: es, h0, h =>
        exact ⟨_, _, ⟨e, h0 e (by simp), rfl, by simp⟩, _, rest,
          ⟨es, fun x hx => h0 x (by simp [hx]), by simpa using h, rfl, rfl⟩, rfl, rfl⟩

/-- One parameter. -/
theorem readParameter_iff (name : String) (prev : Option Val) (t : ParameterType) (v : Val)
    (buf rest : List UInt8) (hpos : ∀ z : Int, prev = some (.int z) → 0 ≤ z) :
    readParameter name t (optLength t prev) buf = .ok (v, rest) ↔
      ∃ x, buf = x ++ rest ∧ Field name prev t x v := by
  have hlen : ∀ {n : Nat}, prev = some (.int n) → asLength prev = some n := by
    rintro n rfl; simp [asLength]
  have fixed : ∀ n, fixedBuffer t = some n → (readParameter name t (optLength t prev) buf = .ok (v, rest) ↔
      ∃ x, buf = x ++ rest ∧ x.length = n ∧ v = .bytes x) := by
    intro n hn
    simp only [rp_fixed name _ t n hn, bindR_ok, readBytes_iff, Except.ok.injEq, Prod.mk.injEq]
    constructor
    · rintro ⟨x, mid, ⟨h, rfl⟩, rfl, rfl⟩; exact ⟨x, rfl, h, rfl⟩
    · rintro ⟨x, rfl, h, rfl⟩; exact ⟨x, rest, ⟨h, rfl⟩, rfl, rfl⟩
  cases t <;> simp only [Field]
  case UINT8 =>
    simp only [rp_uint8, bindR_ok, readInt1_iff]
    constructor
    · rintro ⟨n, mid, ⟨a, rfl, rfl⟩, h⟩
      by_cases ha : strEndsWith name "addrmode" = true
      · rw [if_pos ha] at h
        split at h
        · rename_i hm
          simp only [Except.ok.injEq, Prod.mk.injEq] at h
          exact ⟨[a], by rw [h.2]; rfl, a, rfl, h.1.symm, fun _ => hm⟩
        · simp at h
      · rw [if_neg ha] at h
        simp only [Except.ok.injEq, Prod.mk.injEq] at h
        exact ⟨[a], by rw [h.2]; rfl, a, rfl, h.1.symm, fun h' => absurd ((addrmode_iff name).mpr h') ha⟩
    · rintro ⟨x, rfl, a, rfl, rfl, hm⟩
      refine ⟨a.toNat, rest, ⟨a, rfl, rfl⟩, ?_⟩
      by_cases ha : strEndsWith name "addrmode" = true
      · rw [if_pos ha, if_pos (show a.toNat ∈ addressModes from hm ((addrmode_iff name).mp ha))]
      · rw [if_neg ha]
  case UINT16 =>
    simp only [rp_uint name _ .UINT16 2 (by simp), bindR_ok, readInt2_iff, Except.ok.injEq, Prod.mk.injEq]
    constructor
    · rintro ⟨n, mid, ⟨a, b, rfl, rfl⟩, rfl, rfl⟩; exact ⟨[a, b], rfl, a, b, rfl, rfl⟩
    · rintro ⟨x, rfl, a, b, rfl, rfl⟩; exact ⟨_, rest, ⟨a, b, rfl, rfl⟩, rfl, rfl⟩
  case UINT32 =>
    simp only [rp_uint name _ .UINT32 4 (by simp), bindR_ok, readInt4_iff, Except.ok.injEq, Prod.mk.injEq]
    constructor
    · rintro ⟨n, mid, ⟨a, b, c, d, rfl, rfl⟩, rfl, rfl⟩; exact ⟨[a, b, c, d], rfl, a, b, c, d, rfl, rfl⟩
    · rintro ⟨x, rfl, a, b, c, d, rfl, rfl⟩; exact ⟨_, rest, ⟨a, b, c, d, rfl, rfl⟩, rfl, rfl⟩
  case IEEEADDR =>
    simp only [rp_ieee, bindR_ok, readBytes_iff, Except.ok.injEq, Prod.mk.injEq]
    constructor
    · rintro ⟨x, mid, ⟨h, rfl⟩, rfl, rfl⟩; exact ⟨x, rfl, h, rfl⟩
    · rintro ⟨x, rfl, h, rfl⟩; exact ⟨x, rest, ⟨h, rfl⟩, rfl, rfl⟩
  case INT8 =>
    simp only [rp_int8, bindR_ok, readInt1_iff, Except.ok.injEq, Prod.mk.injEq]
    have hs : ∀ a : UInt8, (if a.toNat ≥ 128 then (a.toNat : Int) - 256 else a.toNat) =
        if a.toNat < 128 then (a.toNat : Int) else a.toNat - 256 := by
      intro a; split <;> split <;> omega
    constructor
    · rintro ⟨n, mid, ⟨a, rfl, rfl⟩, rfl, rfl⟩; exact ⟨[a], rfl, a, rfl, by rw [hs]⟩
    · rintro ⟨x, rfl, a, rfl, rfl⟩; exact ⟨_, rest, ⟨a, rfl, rfl⟩, by rw [hs], rfl⟩
  case BUFFER =>
    have ho : optLength .BUFFER prev = asLength prev := rfl
    rw [ho]
    constructor
    · intro h
      match hl : asLength prev with
      | none => rw [hl] at h; simp [readParameter] at h
      | some k =>
        rw [hl, rp_buffer] at h
        simp only [bindR_ok, readBytes_iff, Except.ok.injEq, Prod.mk.injEq] at h
        obtain ⟨x, mid, ⟨rfl, rfl⟩, rfl, rfl⟩ := h
        exact ⟨x, rfl, asLength_some hl hpos, rfl⟩
    · rintro ⟨x, rfl, h, rfl⟩
      rw [hlen h, rp_buffer]
      simp only [bindR_ok, readBytes_iff, Except.ok.injEq, Prod.mk.injEq]
      exact ⟨x, rest, ⟨rfl, rfl⟩, rfl, rfl⟩
  case LIST_UINT8 =>
    have ho : optLength .LIST_UINT8 prev = asLength prev := rfl
    rw [ho]
    constructor
    · intro h
      match hl : asLength prev with
      | none => rw [hl] at h; simp [readParameter] at h
      | some k =>
        rw [hl, rp_list name k _ 1 (by simp)] at h
        simp only [bindR_ok, readInts1_iff, Except.ok.injEq, Prod.mk.injEq] at h
        obtain ⟨l, mid, ⟨x, rfl, rfl, rfl⟩, rfl, rfl⟩ := h
        exact ⟨x, rfl, asLength_some hl hpos, rfl⟩
    · rintro ⟨x, rfl, h, rfl⟩
      rw [hlen h, rp_list name _ _ 1 (by simp)]
      simp only [bindR_ok, readInts1_iff, Except.ok.injEq, Prod.mk.injEq]
      exact ⟨_, rest, ⟨x, rfl, rfl, rfl⟩, rfl, rfl⟩
  case LIST_UINT16 =>
    have ho : optLength .LIST_UINT16 prev = asLength prev := rfl
    rw [ho]
    constructor
    · intro h
      match hl : asLength prev with
      | none => rw [hl] at h; simp [readParameter] at h
      | some k =>
        rw [hl, rp_list name k _ 2 (by simp)] at h
        simp only [bindR_ok, readInts2_iff, Except.ok.injEq, Prod.mk.injEq] at h
        obtain ⟨l, mid, ⟨x, rfl, rfl, rfl⟩, rfl, rfl⟩ := h
        exact ⟨_, rfl, x, asLength_some hl hpos, rfl, rfl⟩
    · rintro ⟨_, rfl, x, h, rfl, rfl⟩
      rw [hlen h, rp_list name _ _ 2 (by simp)]
      simp only [bindR_ok, readInts2_iff, Except.ok.injEq, Prod.mk.injEq]
      exact ⟨_, rest, ⟨x, rfl, rfl, rfl⟩, rfl, rfl⟩
  case LIST_NEIGHBOR_LQI =>
    have ho : optLength .LIST_NEIGHBOR_LQI prev = asLength prev := rfl
    rw [ho]
    constructor
    · intro h
      match hl : asLength prev with
      | none => rw [hl] at h; simp [readParameter] at h
      | some k =>
        rw [hl, rp_nbrs] at h
        simp only [bindR_ok, readNeighbors_iff, Except.ok.injEq, Prod.mk.injEq] at h
        obtain ⟨l, mid, ⟨es, h1, rfl, rfl, rfl⟩, rfl, rfl⟩ := h
        exact ⟨_, rfl, es, h1, asLength_some hl hpos, rfl, rfl⟩
    · rintro ⟨_, rfl, es, h1, h, rfl, rfl⟩
      rw [hlen h, rp_nbrs]
      simp only [bindR_ok, readNeighbors_iff, Except.ok.injEq, Prod.mk.injEq]
      exact ⟨_, rest, ⟨es, h1, rfl, rfl, rfl⟩, rfl, rfl⟩
  case BUFFER8 => exact fixed 8 rfl
  case BUFFER16 => exact fixed 16 rfl
  case BUFFER18 => exact fixed 18 rfl
  case BUFFER32 => exact fixed 32 rfl
  case BUFFER42 => exact fixed 42 rfl
  case BUFFER100 => exact fixed 100 rfl
  all_goals simp [readParameter, fixedBuffer]

theorem field_nonneg {name : String} {prev : Option Val} {t : ParameterType} {x : List UInt8} {v : Val}
    (h : Field name prev t x v) (ht : t ≠ .INT8) : ∀ z : Int, some v = some (.int z) → 0 ≤ z := by
  intro z hz
  simp only [Option.some.injEq] at hz
  subst hz
  cases t <;> simp only [Field] at h
  case UINT8 => obtain ⟨a, -, h, -⟩ := h; simp at h; omega
  case UINT16 => obtain ⟨a, b, -, h⟩ := h; simp at h; omega
  case UINT32 => obtain ⟨a, b, c, d, -, h⟩ := h; simp at h; omega
  case INT8 => exact absurd rfl ht
  case LIST_UINT16 => obtain ⟨l, -, -, h⟩ := h; simp at h
  case LIST_NEIGHBOR_LQI => obtain ⟨l, -, -, -, h⟩ := h; simp at h
  all_goals simp at h

/-- A parameter list. -/
theorem readVals_iff (ps : Params) : Int8Last ps →
    ∀ (prev : Option Val) (buf rest : List UInt8) (vs : List Val),
      (∀ z : Int, prev = some (.int z) → 0 ≤ z) →
      (readVals prev ps buf = .ok (vs, rest) ↔ ∃ x, buf = x ++ rest ∧ Fields prev ps x vs) := by
  induction ps with
  | nil =>
    intro _ prev buf rest vs _
    simp only [readVals, Except.ok.injEq, Prod.mk.injEq, Fields]
    constructor
    · rintro ⟨rfl, rfl⟩; exact ⟨[], rfl, rfl, rfl⟩
    · rintro ⟨_, rfl, rfl, rfl⟩; exact ⟨rfl, rfl⟩
  | cons p ps ih =>
    intro h8 prev buf rest vs hpos
    have h8' : Int8Last ps := by
      match ps, h8 with
      | [], _ => trivial
      | q :: r, h8 => exact h8.2
    have hnext : ∀ {a v}, Field p.1 prev p.2 a v → ps ≠ [] → ∀ z : Int, some v = some (.int z) → 0 ≤ z := by
      intro a v h hne
      match ps, h8, hne with
      | q :: r, h8, _ => exact field_nonneg h h8.1
    have hrest : ∀ {a v}, Field p.1 prev p.2 a v → ∀ mid vs', readVals (some v) ps mid = .ok (vs', rest) ↔
        ∃ x, mid = x ++ rest ∧ Fields (some v) ps x vs' := by
      intro a v h mid vs'
      by_cases hne : ps = []
      · subst hne
        simp only [readVals, Except.ok.injEq, Prod.mk.injEq, Fields]
        constructor
        · rintro ⟨rfl, rfl⟩; exact ⟨[], rfl, rfl, rfl⟩
        · rintro ⟨_, rfl, rfl, rfl⟩; exact ⟨rfl, rfl⟩
      · exact ih h8' _ _ _ _ (hnext h hne)
    simp only [readVals, bindR_ok, readParameter_iff _ _ _ _ _ _ hpos, Except.ok.injEq, Prod.mk.injEq,
      Fields]
    constructor
    · rintro ⟨v, mid, ⟨a, rfl, hf⟩, vs', mid', hr, rfl, rfl⟩
      obtain ⟨b, rfl, hb⟩ := (hrest hf _ _).mp hr
      exact ⟨a ++ b, by simp, a, b, v, vs', rfl, rfl, hf, hb⟩
    · rintro ⟨_, rfl, a, b, v, vs', rfl, rfl, hf, hb⟩
      exact ⟨v, b ++ rest, ⟨a, by simp, hf⟩, vs', rest, (hrest hf _ _).mpr ⟨b, rfl, hb⟩, rfl, rfl⟩

/-- The encoder writes these bytes (for neighbour lists see `field_write_nbrs`). -/
theorem field_write {name : String} {prev : Option Val} {t : ParameterType} {x : List UInt8} {v : Val}
    (hpos : ∀ z : Int, prev = some (.int z) → 0 ≤ z) (hw : Writable t) (hn : t ≠ .LIST_NEIGHBOR_LQI)
    (h : Field name prev t x v) : writeParameter t v = .ok x := by
  have hr := (readParameter_iff name prev t v (x ++ []) [] hpos).mpr ⟨x, rfl, h⟩
  obtain ⟨a, h1, h2⟩ := param_read_write _ _ _ _ _ _ hw hn hr
  rw [h1, List.append_cancel_right h2]

theorem writable_int8Last : (ps : Params) → (∀ p ∈ ps, Writable p.2) → Int8Last ps
  | [], _ => trivial
  | [_], _ => trivial
  | p :: q :: r, h =>
    ⟨fun h' => by have := h p (by simp); rw [h'] at this; exact this,
      writable_int8Last (q :: r) (fun x hx => h x (by simp [hx]))⟩

theorem fields_write {ps : Params} {x : List UInt8} {vs : List Val}
    (hw : ∀ p ∈ ps, Writable p.2 ∧ p.2 ≠ .LIST_NEIGHBOR_LQI) (h : Fields none ps x vs) :
    writeVals ps vs = .ok x := by
  have hr := (readVals_iff ps (writable_int8Last ps (fun p hp => (hw p hp).1)) none (x ++ []) [] vs
    (by simp)).mpr ⟨x, rfl, h⟩
  obtain ⟨a, h1, h2⟩ := readVals_write _ hw _ _ _ _ hr
  rw [h1, List.append_cancel_right h2]

theorem fields_length {ps : Params} {prev : Option Val} {x : List UInt8} {vs : List Val}
    (h : Fields prev ps x vs) : vs.length = ps.length := by
  induction ps generalizing prev x vs with
  | nil => rw [h.2]; rfl
  | cons p ps ih =>
    obtain ⟨a, b, v, vs', -, rfl, -, h'⟩ := h
    simp [ih h']

theorem field_write_nbrs (es : List (List UInt8)) (h : ∀ e ∈ es, e.length = 22) :
    writeNeighbors (es.map neighborOf) = .ok (es.map maskEntry).flatten := by
  induction es with
  | nil => rfl
  | cons e es ih =>
    have hr := readNeighbor_of (h e (by simp)) []
    obtain ⟨e', h1, h2, h3⟩ := neighbor_mask hr
    have : e' = e := (List.append_cancel_right h2).symm
    subst this
    rw [List.map_cons, writeNeighbors, h3, ok_bind, ih (fun x hx => h x (by simp [hx])), ok_bind]
    rfl

/-- A frame decodes exactly if its data begin with the bytes of values of its parameters. -/
theorem decode_iff {f : Frame} {o : Obj} : Obj.fromUnpiFrame f = .ok o ↔
    ∃ c ps x rest vs, InTable f.subsystem c ∧ c.id = f.commandId ∧ ParamsOf c f.commandType ps ∧
      f.data = x ++ rest ∧ Fields none ps x vs ∧
      o = { commandType := f.commandType, subsystem := f.subsystem, command := c.name,
            commandId := c.id, payload := (ps.map (·.1)).zip vs, parameters := ps } := by
  constructor
  · intro h
    obtain ⟨c, hc, hid, hp, hr, ho⟩ := fromUnpiFrame_ok h
    obtain ⟨hn, h8⟩ := paramsOf_nodup hc hp
    rw [readParameters_eq _ hn] at hr
    rcases hv : readVals none o.parameters f.data with e | ⟨vs, rest⟩
    · rw [hv] at hr; simp [Except.map] at hr
    rw [hv] at hr
    simp only [Except.map, Except.ok.injEq] at hr
    obtain ⟨x, hx, hF⟩ := (readVals_iff _ h8 none _ _ _ (by simp)).mp hv
    exact ⟨c, o.parameters, x, rest, vs, hc, hid, hp, hx, hF, by rw [hr]; exact ho⟩
  · rintro ⟨c, ps, x, rest, vs, hc, hid, hp, hx, hF, rfl⟩
    obtain ⟨hn, h8⟩ := paramsOf_nodup hc hp
    rw [fromUnpiFrame_eq hc rfl hid.symm hp, readParameters_eq _ hn,
      (readVals_iff _ h8 none _ _ _ (by simp)).mpr ⟨x, hx, hF⟩]
    rfl

end Zcc
