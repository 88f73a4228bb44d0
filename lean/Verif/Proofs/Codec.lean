import Verif.Model.ZpiObject
import Verif.Spec.Codec

/-! Helper lemmas about the parameter codec. -/

namespace Zcc
open Spec

/-! ### `Except` -/

theorem ok_bind {ε α β : Type} (a : α) (f : α → Except ε β) : (Except.ok a >>= f) = f a := rfl

theorem error_bind {ε α β : Type} (e : ε) (f : α → Except ε β) :
    ((Except.error e : Except ε α) >>= f) = .error e := rfl

theorem pure_ok {ε α : Type} (a : α) : (pure a : Except ε α) = .ok a := rfl

/-! ### Little-endian numbers -/

theorem leBytes_length (n v : Nat) : (leBytes n v).length = n := by
  induction n generalizing v with
  | zero => rfl
  | succ n ih => simp [leBytes, ih]

theorem leValue_leBytes (n v : Nat) (h : v < 256 ^ n) : leValue (leBytes n v) = v := by
  induction n generalizing v with
  | zero => simp at h; simp [leBytes, leValue, h]
  | succ n ih =>
    have h1 : v / 256 < 256 ^ n := by
      apply Nat.div_lt_of_lt_mul; rw [Nat.pow_succ] at h; omega
    simp only [leBytes, leValue, ih _ h1]
    have : (UInt8.ofNat (v % 256)).toNat = v % 256 := by simp
    rw [this]; omega

theorem leBytes_leValue (bs : List UInt8) : leBytes bs.length (leValue bs) = bs := by
  induction bs with
  | nil => rfl
  | cons b bs ih =>
    have hb := b.toNat_lt
    have h1 : (b.toNat + 256 * leValue bs) % 256 = b.toNat := by omega
    have h2 : (b.toNat + 256 * leValue bs) / 256 = leValue bs := by omega
    simp [leBytes, leValue, h1, h2, ih]

theorem leValue_lt (bs : List UInt8) : leValue bs < 256 ^ bs.length := by
  induction bs with
  | nil => simp [leValue]
  | cons b bs ih =>
    have hb := b.toNat_lt
    simp only [leValue, List.length_cons, Nat.pow_succ]
    omega

theorem writeInt_ok (w : Nat) (v : Int) (h : IsUInt w v) :
    writeInt v w = .ok (leBytes w v.toNat) := by
  exact if_pos h

theorem isUInt_nat {w v : Nat} (h : v < 256 ^ w) : IsUInt w (v : Int) := by
  refine ⟨by omega, ?_⟩
  have e : ((256 ^ w : Nat) : Int) = (256 : Int) ^ w := Int.natCast_pow 256 w
  rw [← e]
  exact Int.ofNat_lt.mpr h

theorem isUInt_toNat {w : Nat} {v : Int} (h : IsUInt w v) : v.toNat < 256 ^ w := by
  have h2 := h.2
  have e : ((256 ^ w : Nat) : Int) = (256 : Int) ^ w := Int.natCast_pow 256 w
  rw [← e, ← Int.toNat_of_nonneg h.1] at h2
  exact Int.ofNat_lt.mp h2

theorem writeInt_nat (w v : Nat) (h : v < 256 ^ w) : writeInt (v : Int) w = .ok (leBytes w v) := by
  rw [writeInt_ok w _ (isUInt_nat h)]; simp

/-! ### Readers -/

/-- A reader: remaining bytes to value and rest. -/
abbrev Rd (α : Type) := List UInt8 → Except PyErr (α × List UInt8)

/-- `rd` reads `v` from exactly the bytes `bs`: with anything after them it returns `v` and the
rest; on any proper prefix it raises `OverflowError`. -/
def Reads {α : Type} (rd : Rd α) (v : α) (bs : List UInt8) : Prop :=
  (∀ rest, rd (bs ++ rest) = .ok (v, rest)) ∧
  ∀ p q, bs = p ++ q → q ≠ [] → rd p = .error .overflowError

/-- Whatever `rd` returns, it read it from exactly some prefix. -/
def Local {α : Type} (rd : Rd α) : Prop :=
  ∀ buf v rest, rd buf = .ok (v, rest) → ∃ bs, buf = bs ++ rest ∧ Reads rd v bs

/-- Sequencing of readers. -/
def bindR {α β : Type} (rd : Rd α) (f : α → Rd β) : Rd β := fun buf =>
  match rd buf with
  | .error e => .error e
  | .ok (v, rest) => f v rest

theorem reads_pure {α : Type} (v : α) : Reads (fun b => .ok (v, b)) v [] :=
  ⟨fun _ => rfl, fun p q h hq => by simp at h; exact absurd h.2 hq⟩

theorem local_pure {α : Type} (v : α) : Local (fun b => .ok (v, b) : Rd α) := by
  intro buf w rest h
  simp at h
  obtain ⟨rfl, rfl⟩ := h
  exact ⟨[], rfl, reads_pure v⟩

theorem local_fail {α : Type} (e : PyErr) : Local (fun _ => .error e : Rd α) := by
  intro buf w rest h
  simp at h

theorem reads_bind {α β : Type} {rd : Rd α} {f : α → Rd β} {v : α} {w : β} {a b : List UInt8}
    (h1 : Reads rd v a) (h2 : Reads (f v) w b) : Reads (bindR rd f) w (a ++ b) := by
  constructor
  · intro rest
    simp only [bindR, List.append_assoc, h1.1, h2.1]
  · intro p q hpq hq
    simp only [bindR]
    rcases List.append_eq_append_iff.mp hpq with ⟨c, hc1, hc2⟩ | ⟨c, hc1, hc2⟩
    · -- p = a ++ c, b = c ++ q
      subst hc1
      rw [h1.1]
      exact h2.2 c q hc2 hq
    · -- a = p ++ c, q = c ++ b
      by_cases hc : c = []
      · subst hc
        simp at hc1 hc2
        subst hc1
        have := h1.1 []
        rw [List.append_nil] at this
        rw [this]
        exact h2.2 [] q (by simp [hc2]) hq
      · rw [h1.2 p c hc1 hc]

theorem local_bind {α β : Type} {rd : Rd α} {f : α → Rd β} (h1 : Local rd)
    (h2 : ∀ v, Local (f v)) : Local (bindR rd f) := by
  intro buf w rest h
  simp only [bindR] at h
  split at h
  · simp at h
  · rename_i v rest1 hr
    obtain ⟨a, ha, hra⟩ := h1 buf v rest1 hr
    obtain ⟨b, hb, hrb⟩ := h2 v rest1 w rest h
    exact ⟨a ++ b, by rw [ha, hb, List.append_assoc], reads_bind hra hrb⟩

theorem reads_det {α : Type} {rd : Rd α} {v w : α} {a r s : List UInt8}
    (h1 : Reads rd v a) (h2 : rd (a ++ r) = .ok (w, s)) : v = w ∧ r = s := by
  rw [h1.1] at h2; simp at h2; exact h2

theorem reads_readBytes (n : Nat) (bs : List UInt8) (h : bs.length = n) :
    Reads (readBytes n) bs bs := by
  constructor
  · intro rest
    have : ¬ n > (bs ++ rest).length := by simp; omega
    simp only [readBytes, this, if_false]
    simp [← h]
  · intro p q hpq hq
    have hq' : 0 < q.length := List.length_pos_iff.mpr hq
    have : n > p.length := by rw [← h, hpq]; simp; exact hq'
    simp [readBytes, this]

theorem local_readBytes (n : Nat) : Local (readBytes n) := by
  intro buf v rest h
  unfold readBytes at h
  split at h
  · simp at h
  · simp at h
    obtain ⟨rfl, rfl⟩ := h
    refine ⟨buf.take n, by simp, reads_readBytes n _ (by simp; omega)⟩

theorem readBytes_length {n : Nat} {buf v rest : List UInt8} (h : readBytes n buf = .ok (v, rest)) :
    v.length = n ∧ buf = v ++ rest := by
  unfold readBytes at h
  split at h
  · simp at h
  · simp at h
    obtain ⟨rfl, rfl⟩ := h
    exact ⟨by simp; omega, by simp⟩

theorem readInt_eq (n : Nat) :
    readInt n = bindR (readBytes n) (fun b buf => .ok (leValue b, buf)) := by
  funext buf
  simp only [readInt, bindR, bind, Except.bind]
  cases readBytes n buf <;> rfl

theorem local_readInt (n : Nat) : Local (readInt n) := by
  rw [readInt_eq]; exact local_bind (local_readBytes n) (fun v => local_pure _)

theorem reads_readInt (n : Nat) (bs : List UInt8) (h : bs.length = n) :
    Reads (readInt n) (leValue bs) bs := by
  rw [readInt_eq]
  have := reads_bind (reads_readBytes n bs h) (f := fun b buf => .ok (leValue b, buf))
    (reads_pure (leValue bs))
  simpa using this

theorem reads_readInt_le (n v : Nat) (h : v < 256 ^ n) : Reads (readInt n) v (leBytes n v) := by
  have := reads_readInt n (leBytes n v) (leBytes_length n v)
  rwa [leValue_leBytes n v h] at this

theorem readInt_ok {n : Nat} {buf rest : List UInt8} {v : Nat} (h : readInt n buf = .ok (v, rest)) :
    v < 256 ^ n ∧ buf = leBytes n v ++ rest := by
  rw [readInt_eq] at h
  simp only [bindR] at h
  split at h
  · simp at h
  · rename_i b rest1 hr
    simp at h
    obtain ⟨h1, h2⟩ := readBytes_length hr
    obtain ⟨rfl, rfl⟩ := h
    refine ⟨?_, ?_⟩
    · have := leValue_lt b; rwa [h1] at this
    · rw [← h1, leBytes_leValue]; exact h2

theorem readInts_succ (w n : Nat) :
    readInts w (n + 1) = bindR (readInt w) (fun v => bindR (readInts w n)
      (fun vs buf => .ok ((v : Int) :: vs, buf))) := by
  funext buf
  simp only [readInts, bindR, bind, Except.bind]
  cases readInt w buf with
  | error e => rfl
  | ok p =>
    simp only []
    cases readInts w n p.2 <;> rfl

theorem local_readInts (w n : Nat) : Local (readInts w n) := by
  induction n with
  | zero => exact local_pure _
  | succ n ih =>
    rw [readInts_succ]
    exact local_bind (local_readInt w) (fun v => local_bind ih (fun vs => local_pure _))

theorem writeInts_reads (w : Nat) (l : List Int) (h : ∀ v ∈ l, IsUInt w v) :
    ∃ bs, writeInts w l = .ok bs ∧ Reads (readInts w l.length) l bs := by
  induction l with
  | nil => exact ⟨[], rfl, reads_pure _⟩
  | cons v l ih =>
    obtain ⟨bs, h1, h2⟩ := ih (fun x hx => h x (by simp [hx]))
    have hv := h v (by simp)
    have hvn : v.toNat < 256 ^ w := isUInt_toNat hv
    refine ⟨leBytes w v.toNat ++ bs, ?_, ?_⟩
    · simp only [writeInts, writeInt_ok w v hv, h1, bind, Except.bind, pure, Except.pure]
    · rw [List.length_cons, readInts_succ]
      have e : (v.toNat : Int) = v := Int.toNat_of_nonneg hv.1
      have := reads_bind (reads_readInt_le w v.toNat hvn)
        (f := fun (v : Nat) => bindR (readInts w l.length) (fun vs buf => .ok ((v : Int) :: vs, buf)))
        (reads_bind h2 (f := fun vs buf => .ok ((v.toNat : Int) :: vs, buf)) (reads_pure _))
      simpa [e] using this

theorem readInts_ok {w n : Nat} {buf rest : List UInt8} {l : List Int}
    (h : readInts w n buf = .ok (l, rest)) :
    l.length = n ∧ (∀ v ∈ l, IsUInt w v) ∧ ∃ bs, writeInts w l = .ok bs ∧ buf = bs ++ rest := by
  induction n generalizing buf l with
  | zero =>
    simp [readInts] at h
    obtain ⟨rfl, rfl⟩ := h
    exact ⟨rfl, by simp, [], rfl, rfl⟩
  | succ n ih =>
    rw [readInts_succ] at h
    simp only [bindR] at h
    split at h
    · simp at h
    · rename_i v rest1 hr
      split at h
      · simp at h
      · rename_i vs rest2 hr2
        simp at h
        obtain ⟨rfl, rfl⟩ := h
        obtain ⟨h1, h2, bs, h3, h4⟩ := ih hr2
        obtain ⟨h5, h6⟩ := readInt_ok hr
        have hv : IsUInt w (v : Int) := isUInt_nat h5
        refine ⟨by simp [h1], ?_, leBytes w v ++ bs, ?_, ?_⟩
        · intro x hx; simp at hx; rcases hx with rfl | hx
          · exact hv
          · exact h2 x hx
        · simp only [writeInts, writeInt_ok w _ hv, h3, bind, Except.bind, pure, Except.pure]; rfl
        · rw [h6, h4, List.append_assoc]

theorem writeInts_bytes (b : List UInt8) :
    writeInts 1 (b.map (fun x => (x.toNat : Int))) = .ok b := by
  induction b with
  | nil => rfl
  | cons x b ih =>
    have := writeInt_nat 1 x.toNat (by simpa using x.toNat_lt)
    simp only [List.map_cons, writeInts, this, ih, bind, Except.bind, pure, Except.pure]
    simp [leBytes]

/-! ### Neighbour entries -/

theorem readNeighbor_eq :
    readNeighbor = bindR (readBytes 8) fun ep => bindR (readBytes 8) fun ea =>
      bindR (readInt 2) fun na => bindR (readInt 1) fun v1 => bindR (readInt 1) fun pj =>
      bindR (readInt 1) fun d => bindR (readInt 1) fun l => fun buf =>
        .ok ({ extPanId := ep, extAddr := ea, nwkAddr := na
               deviceType := v1 &&& 0x03
               rxOnWhenIdle := (v1 &&& 0x0C) >>> 2
               relationship := (v1 &&& 0x70) >>> 4
               permitJoin := pj &&& 0x03
               depth := d, lqi := l }, buf) := by
  funext buf
  simp only [readNeighbor, bindR, bind, Except.bind, pure, Except.pure]
  rcases readBytes 8 buf with _ | ⟨a1, b1⟩
  · rfl
  dsimp only
  rcases readBytes 8 b1 with _ | ⟨a2, b2⟩
  · rfl
  dsimp only
  rcases readInt 2 b2 with _ | ⟨a3, b3⟩
  · rfl
  dsimp only
  rcases readInt 1 b3 with _ | ⟨a4, b4⟩
  · rfl
  dsimp only
  rcases readInt 1 b4 with _ | ⟨a5, b5⟩
  · rfl
  dsimp only
  rcases readInt 1 b5 with _ | ⟨a6, b6⟩
  · rfl
  dsimp only
  rcases readInt 1 b6 with _ | ⟨a7, b7⟩
  · rfl
  dsimp only

theorem local_readNeighbor : Local readNeighbor := by
  rw [readNeighbor_eq]
  refine local_bind (local_readBytes 8) fun _ => local_bind (local_readBytes 8) fun _ =>
    local_bind (local_readInt 2) fun _ => local_bind (local_readInt 1) fun _ =>
    local_bind (local_readInt 1) fun _ => local_bind (local_readInt 1) fun _ =>
    local_bind (local_readInt 1) fun _ => local_pure _

theorem nbr_pack (d r l : Nat) (hd : d < 4) (hr : r < 4) (hl : l < 8) :
    let v := d ||| (r * 4) ||| (l * 16)
    v < 256 ∧ v &&& 0x03 = d ∧ (v &&& 0x0C) >>> 2 = r ∧ (v &&& 0x70) >>> 4 = l := by
  have : ∀ (d : Fin 4) (r : Fin 4) (l : Fin 8),
      ((d : Nat) ||| ((r : Nat) * 4) ||| ((l : Nat) * 16)) < 256 ∧
      ((d : Nat) ||| ((r : Nat) * 4) ||| ((l : Nat) * 16)) &&& 0x03 = (d : Nat) ∧
      (((d : Nat) ||| ((r : Nat) * 4) ||| ((l : Nat) * 16)) &&& 0x0C) >>> 2 = (r : Nat) ∧
      (((d : Nat) ||| ((r : Nat) * 4) ||| ((l : Nat) * 16)) &&& 0x70) >>> 4 = (l : Nat) := by
    decide +kernel
  exact this ⟨d, hd⟩ ⟨r, hr⟩ ⟨l, hl⟩

theorem nbr_unpack (v : Nat) (h : v < 256) :
    (v &&& 0x03) < 4 ∧ ((v &&& 0x0C) >>> 2) < 4 ∧ ((v &&& 0x70) >>> 4) < 8 ∧
    ((v &&& 0x03) ||| (((v &&& 0x0C) >>> 2) * 4) ||| (((v &&& 0x70) >>> 4) * 16)) = v &&& 0x7F := by
  have : ∀ v : Fin 256, ((v : Nat) &&& 0x03) < 4 ∧ (((v : Nat) &&& 0x0C) >>> 2) < 4 ∧
    (((v : Nat) &&& 0x70) >>> 4) < 8 ∧
    (((v : Nat) &&& 0x03) ||| ((((v : Nat) &&& 0x0C) >>> 2) * 4) |||
      ((((v : Nat) &&& 0x70) >>> 4) * 16)) = (v : Nat) &&& 0x7F := by
    decide +kernel
  exact this ⟨v, h⟩

/-- The 22 bytes of a neighbour entry. -/
def nbrBytes (n : Neighbor) (v1 : Nat) : List UInt8 :=
  n.extPanId ++ (n.extAddr ++ (leBytes 2 n.nwkAddr ++ (leBytes 1 v1 ++ (leBytes 1 n.permitJoin ++
    (leBytes 1 n.depth ++ leBytes 1 n.lqi)))))

theorem writeNeighbor_ok (n : Neighbor) (h : NeighborFits n) :
    writeNeighbor n = .ok (nbrBytes n (n.deviceType ||| (n.rxOnWhenIdle * 4) ||| (n.relationship * 16))) := by
  have hp := nbr_pack n.deviceType n.rxOnWhenIdle n.relationship h.deviceType h.rxOnWhenIdle
    h.relationship
  have hv1 := hp.1
  have e1 := writeInt_nat 2 n.nwkAddr (by simpa using h.nwkAddr)
  have e2 := writeInt_nat 1 _ (by simpa using hv1)
  have e3 := writeInt_nat 1 n.permitJoin (by have := h.permitJoin; simp; omega)
  have e4 := writeInt_nat 1 n.depth (by simpa using h.depth)
  have e5 := writeInt_nat 1 n.lqi (by simpa using h.lqi)
  rw [writeNeighbor, writeInts_bytes, writeInts_bytes, e1, e2, e3, e4, e5]
  simp only [ok_bind, pure_ok, nbrBytes, List.append_assoc]

theorem reads_neighbor (n : Neighbor) (h : NeighborFits n) :
    Reads readNeighbor n (nbrBytes n (n.deviceType ||| (n.rxOnWhenIdle * 4) ||| (n.relationship * 16))) := by
  have hp := nbr_pack n.deviceType n.rxOnWhenIdle n.relationship h.deviceType h.rxOnWhenIdle
    h.relationship
  obtain ⟨hv1, hv2, hv3, hv4⟩ := hp
  have hpj : n.permitJoin &&& 3 = n.permitJoin := by
    have : ∀ d : Fin 4, (d : Nat) &&& 3 = d := by decide
    exact this ⟨_, h.permitJoin⟩
  rw [readNeighbor_eq]
  refine reads_bind (reads_readBytes 8 _ h.extPanId) ?_
  refine reads_bind (reads_readBytes 8 _ h.extAddr) ?_
  refine reads_bind (reads_readInt_le 2 _ (by simpa using h.nwkAddr)) ?_
  refine reads_bind (reads_readInt_le 1 _ (by simpa using hv1)) ?_
  refine reads_bind (reads_readInt_le 1 n.permitJoin (by have := h.permitJoin; simp; omega)) ?_
  refine reads_bind (reads_readInt_le 1 _ (by simpa using h.depth)) ?_
  have := reads_bind (reads_readInt_le 1 n.lqi (by simpa using h.lqi))
    (f := fun l buf => .ok (n, buf)) (reads_pure n)
  rw [List.append_nil] at this
  simp only [hv2, hv3, hv4, hpj]
  refine cast ?_ (reads_bind (reads_readInt_le 1 n.lqi (by simpa using h.lqi))
    (f := fun l buf => .ok (({ n with lqi := l } : Neighbor), buf)) (reads_pure _))
  rw [List.append_nil]

theorem readNeighbor_ok {buf rest : List UInt8} {n : Neighbor} (h : readNeighbor buf = .ok (n, rest)) :
    NeighborFits n ∧ ∃ v1 pj, v1 < 256 ∧ pj < 256 ∧ n.permitJoin = pj &&& 3 ∧
      (n.deviceType ||| (n.rxOnWhenIdle * 4) ||| (n.relationship * 16)) = v1 &&& 0x7F ∧
      buf = nbrBytes { n with permitJoin := pj } v1 ++ rest := by
  rw [readNeighbor_eq] at h
  simp only [bindR] at h
  split at h
  · simp at h
  rename_i ep r1 h1
  split at h
  · simp at h
  rename_i ea r2 h2
  split at h
  · simp at h
  rename_i na r3 h3
  split at h
  · simp at h
  rename_i v1 r4 h4
  split at h
  · simp at h
  rename_i pj r5 h5
  split at h
  · simp at h
  rename_i d r6 h6
  split at h
  · simp at h
  rename_i l r7 h7
  simp at h
  obtain ⟨rfl, rfl⟩ := h
  obtain ⟨l1, b1⟩ := readBytes_length h1
  obtain ⟨l2, b2⟩ := readBytes_length h2
  obtain ⟨l3, b3⟩ := readInt_ok h3
  obtain ⟨l4, b4⟩ := readInt_ok h4
  obtain ⟨l5, b5⟩ := readInt_ok h5
  obtain ⟨l6, b6⟩ := readInt_ok h6
  obtain ⟨l7, b7⟩ := readInt_ok h7
  have hu := nbr_unpack v1 (by simpa using l4)
  have hpj : (pj &&& 3) < 4 := Nat.lt_of_le_of_lt Nat.and_le_right (by omega)
  refine ⟨⟨l1, l2, by simpa using l3, hu.1, hu.2.1, hu.2.2.1, hpj, by simpa using l6,
    by simpa using l7⟩, v1, pj, by simpa using l4, by simpa using l5, rfl, hu.2.2.2, ?_⟩
  simp only [nbrBytes]
  rw [b1, b2, b3, b4, b5, b6, b7]
  simp

theorem readNeighbors_succ (n : Nat) :
    readNeighbors (n + 1) = bindR readNeighbor (fun v => bindR (readNeighbors n)
      (fun vs buf => .ok (v :: vs, buf))) := by
  funext buf
  simp only [readNeighbors, bindR]
  rcases readNeighbor buf with e | ⟨v, b1⟩
  · rfl
  dsimp only [bind, Except.bind]
  rcases readNeighbors n b1 with e | ⟨vs, b2⟩ <;> rfl

theorem local_readNeighbors (n : Nat) : Local (readNeighbors n) := by
  induction n with
  | zero => exact local_pure _
  | succ n ih =>
    rw [readNeighbors_succ]
    exact local_bind local_readNeighbor (fun v => local_bind ih (fun vs => local_pure _))

theorem writeNeighbors_reads (l : List Neighbor) (h : ∀ v ∈ l, NeighborFits v) :
    ∃ bs, writeNeighbors l = .ok bs ∧ Reads (readNeighbors l.length) l bs := by
  induction l with
  | nil => exact ⟨[], rfl, reads_pure _⟩
  | cons v l ih =>
    obtain ⟨bs, h1, h2⟩ := ih (fun x hx => h x (by simp [hx]))
    have hv := h v (by simp)
    refine ⟨nbrBytes v (v.deviceType ||| (v.rxOnWhenIdle * 4) ||| (v.relationship * 16)) ++ bs,
      ?_, ?_⟩
    · rw [writeNeighbors, writeNeighbor_ok v hv, ok_bind, h1, ok_bind, pure_ok]
    · rw [List.length_cons, readNeighbors_succ]
      have := reads_bind (reads_neighbor v hv)
        (f := fun v => bindR (readNeighbors l.length) (fun vs buf => .ok (v :: vs, buf)))
        (reads_bind h2 (f := fun vs buf => .ok (v :: vs, buf)) (reads_pure _))
      simpa using this

theorem readNeighbors_ok {n : Nat} {buf rest : List UInt8} {l : List Neighbor}
    (h : readNeighbors n buf = .ok (l, rest)) :
    l.length = n ∧ ∀ v ∈ l, NeighborFits v := by
  induction n generalizing buf l with
  | zero =>
    simp [readNeighbors] at h
    obtain ⟨rfl, rfl⟩ := h
    exact ⟨rfl, by simp⟩
  | succ n ih =>
    rw [readNeighbors_succ] at h
    simp only [bindR] at h
    split at h
    · simp at h
    · rename_i v rest1 hr
      split at h
      · simp at h
      · rename_i vs rest2 hr2
        simp at h
        obtain ⟨rfl, rfl⟩ := h
        obtain ⟨h1, h2⟩ := ih hr2
        refine ⟨by simp [h1], ?_⟩
        intro x hx; simp at hx; rcases hx with rfl | hx
        · exact (readNeighbor_ok hr).1
        · exact h2 x hx

/-! ### Single parameters -/

/-- `options.length` as computed in zpi_object.py:177-179. -/
def optLength (t : ParameterType) (prev : Option Val) : Option Nat :=
  if t ∈ bufferAndListTypes then asLength prev else none

theorem addrmode_iff (name : String) : strEndsWith name "addrmode" = true ↔ IsAddrModeName name := by
  unfold strEndsWith IsAddrModeName
  rw [List.isSuffixOf_iff_suffix]
  constructor
  · rintro ⟨t, ht⟩; exact ⟨t, ht.symm⟩
  · rintro ⟨t, ht⟩; exact ⟨t, ht.symm⟩

theorem rp_uint8 (name : String) (len : Option Nat) :
    readParameter name .UINT8 len = bindR (readInt 1) (fun res buf =>
      if strEndsWith name "addrmode" then
        if res ∈ addressModes then .ok (.int res, buf) else .error .valueError
      else .ok (.int res, buf)) := by
  funext buf
  simp only [readParameter, bindR]
  rcases readInt 1 buf with e | ⟨v, b⟩ <;> rfl

theorem rp_uint (name : String) (len : Option Nat) (t : ParameterType) (w : Nat)
    (h : (t = .UINT16 ∧ w = 2) ∨ (t = .UINT32 ∧ w = 4)) :
    readParameter name t len = bindR (readInt w) (fun res buf => .ok (.int res, buf)) := by
  funext buf
  rcases h with ⟨rfl, rfl⟩ | ⟨rfl, rfl⟩
  · simp only [readParameter, bindR]
    rcases readInt 2 buf with e | ⟨v, b⟩ <;> rfl
  · simp only [readParameter, bindR]
    rcases readInt 4 buf with e | ⟨v, b⟩ <;> rfl

theorem rp_ieee (name : String) (len : Option Nat) :
    readParameter name .IEEEADDR len = bindR (readBytes 8) (fun res buf => .ok (.eui res, buf)) := by
  funext buf
  simp only [readParameter, bindR]
  rcases readBytes 8 buf with e | ⟨v, b⟩ <;> rfl

theorem rp_buffer (name : String) (n : Nat) :
    readParameter name .BUFFER (some n) = bindR (readBytes n) (fun res buf => .ok (.bytes res, buf)) := by
  funext buf
  simp only [readParameter, bindR]
  rcases readBytes n buf with e | ⟨v, b⟩ <;> rfl

theorem rp_fixed (name : String) (len : Option Nat) (t : ParameterType) (n : Nat)
    (h : fixedBuffer t = some n) :
    readParameter name t len = bindR (readBytes n) (fun res buf => .ok (.bytes res, buf)) := by
  funext buf
  cases t <;> simp [fixedBuffer] at h
  all_goals
    subst h
    simp only [readParameter, bindR, fixedBuffer]
  · rcases readBytes 8 buf with e | ⟨v, b⟩ <;> rfl
  · rcases readBytes 16 buf with e | ⟨v, b⟩ <;> rfl
  · rcases readBytes 18 buf with e | ⟨v, b⟩ <;> rfl
  · rcases readBytes 32 buf with e | ⟨v, b⟩ <;> rfl
  · rcases readBytes 42 buf with e | ⟨v, b⟩ <;> rfl
  · rcases readBytes 100 buf with e | ⟨v, b⟩ <;> rfl

theorem rp_int8 (name : String) (len : Option Nat) :
    readParameter name .INT8 len = bindR (readInt 1) (fun v buf =>
      .ok (.int (if v ≥ 128 then (v : Int) - 256 else v), buf)) := by
  funext buf
  simp only [readParameter, bindR, readInt8]
  rcases readInt 1 buf with e | ⟨v, b⟩ <;> rfl

theorem rp_list (name : String) (n : Nat) (t : ParameterType) (w : Nat)
    (h : (t = .LIST_UINT8 ∧ w = 1) ∨ (t = .LIST_UINT16 ∧ w = 2)) :
    readParameter name t (some n) = bindR (readInts w n) (fun res buf => .ok (.ints res, buf)) := by
  funext buf
  rcases h with ⟨rfl, rfl⟩ | ⟨rfl, rfl⟩
  · simp only [readParameter, bindR]
    rcases readInts 1 n buf with e | ⟨v, b⟩ <;> rfl
  · simp only [readParameter, bindR]
    rcases readInts 2 n buf with e | ⟨v, b⟩ <;> rfl

theorem rp_nbrs (name : String) (n : Nat) :
    readParameter name .LIST_NEIGHBOR_LQI (some n)
      = bindR (readNeighbors n) (fun res buf => .ok (.nbrs res, buf)) := by
  funext buf
  simp only [readParameter, bindR]
  rcases readNeighbors n buf with e | ⟨v, b⟩ <;> rfl

theorem local_readParameter (name : String) (t : ParameterType) (len : Option Nat) :
    Local (readParameter name t len) := by
  have fail : ∀ e, (readParameter name t len = fun _ => .error e) →
      Local (readParameter name t len) := by
    intro e h; rw [h]; exact local_fail e
  cases t
  case UINT8 =>
    rw [rp_uint8]
    refine local_bind (local_readInt 1) fun v => ?_
    intro buf w rest h
    dsimp only at h
    split at h
    · rename_i ha
      split at h
      · rename_i hm
        simp at h; obtain ⟨rfl, rfl⟩ := h
        refine ⟨[], rfl, ?_⟩
        simp only [ha, if_true, hm]
        exact reads_pure _
      · simp at h
    · rename_i ha
      simp at h; obtain ⟨rfl, rfl⟩ := h
      refine ⟨[], rfl, ?_⟩
      simp only [ha]
      exact reads_pure _
  case UINT16 =>
    rw [rp_uint name len _ 2 (by simp)]
    exact local_bind (local_readInt 2) fun v => local_pure _
  case UINT32 =>
    rw [rp_uint name len _ 4 (by simp)]
    exact local_bind (local_readInt 4) fun v => local_pure _
  case IEEEADDR => rw [rp_ieee]; exact local_bind (local_readBytes 8) fun v => local_pure _
  case BUFFER =>
    cases len with
    | none => exact fail .typeError rfl
    | some n => rw [rp_buffer]; exact local_bind (local_readBytes n) fun v => local_pure _
  case INT8 => rw [rp_int8]; exact local_bind (local_readInt 1) fun v => local_pure _
  case LIST_UINT8 =>
    cases len with
    | none => exact fail .typeError rfl
    | some n => rw [rp_list name n _ 1 (by simp)]; exact local_bind (local_readInts 1 n) fun v => local_pure _
  case LIST_UINT16 =>
    cases len with
    | none => exact fail .typeError rfl
    | some n => rw [rp_list name n _ 2 (by simp)]; exact local_bind (local_readInts 2 n) fun v => local_pure _
  case LIST_NEIGHBOR_LQI =>
    cases len with
    | none => exact fail .typeError rfl
    | some n => rw [rp_nbrs]; exact local_bind (local_readNeighbors n) fun v => local_pure _
  case BUFFER8 => rw [rp_fixed name len _ 8 rfl]; exact local_bind (local_readBytes 8) fun v => local_pure _
  case BUFFER16 => rw [rp_fixed name len _ 16 rfl]; exact local_bind (local_readBytes 16) fun v => local_pure _
  case BUFFER18 => rw [rp_fixed name len _ 18 rfl]; exact local_bind (local_readBytes 18) fun v => local_pure _
  case BUFFER32 => rw [rp_fixed name len _ 32 rfl]; exact local_bind (local_readBytes 32) fun v => local_pure _
  case BUFFER42 => rw [rp_fixed name len _ 42 rfl]; exact local_bind (local_readBytes 42) fun v => local_pure _
  case BUFFER100 => rw [rp_fixed name len _ 100 rfl]; exact local_bind (local_readBytes 100) fun v => local_pure _
  all_goals exact fail .todo rfl

theorem toNat_cast {w : Nat} {n : Int} (h : IsUInt w n) : ((n.toNat : Nat) : Int) = n :=
  Int.toNat_of_nonneg h.1

/-- Writing a fitting value and reading it back. -/
theorem param_write_read (name : String) (prev : Option Val) (t : ParameterType) (v : Val)
    (h : FitsParam name prev t v) :
    ∃ bs, writeParameter t v = .ok bs ∧ Reads (readParameter name t (optLength t prev)) v bs := by
  cases t <;> simp only [FitsParam] at h
  case UINT8 =>
    obtain ⟨n, rfl, hn, ha⟩ := h
    refine ⟨leBytes 1 n.toNat, writeInt_ok 1 n hn, ?_⟩
    rw [rp_uint8, ← List.append_nil (leBytes 1 n.toNat)]
    refine reads_bind (reads_readInt_le 1 _ (isUInt_toNat hn)) ?_
    by_cases hs : strEndsWith name "addrmode" = true
    · have hm : n.toNat ∈ addressModes := by
        rcases ha ((addrmode_iff name).mp hs) with rfl | rfl | rfl | rfl | rfl <;> decide
      simp only [hs, if_true, hm, toNat_cast hn]
      exact reads_pure _
    · simp only [hs, toNat_cast hn]
      exact reads_pure _
  case UINT16 =>
    obtain ⟨n, rfl, hn⟩ := h
    refine ⟨leBytes 2 n.toNat, writeInt_ok 2 n hn, ?_⟩
    rw [rp_uint name _ _ 2 (by simp), ← List.append_nil (leBytes 2 n.toNat)]
    refine reads_bind (reads_readInt_le 2 _ (isUInt_toNat hn)) ?_
    simp only [toNat_cast hn]
    exact reads_pure _
  case UINT32 =>
    obtain ⟨n, rfl, hn⟩ := h
    refine ⟨leBytes 4 n.toNat, writeInt_ok 4 n hn, ?_⟩
    rw [rp_uint name _ _ 4 (by simp), ← List.append_nil (leBytes 4 n.toNat)]
    refine reads_bind (reads_readInt_le 4 _ (isUInt_toNat hn)) ?_
    simp only [toNat_cast hn]
    exact reads_pure _
  case IEEEADDR =>
    obtain ⟨b, rfl, hb⟩ := h
    refine ⟨b, writeInts_bytes b, ?_⟩
    rw [rp_ieee, ← List.append_nil b]
    refine cast ?_ (reads_bind (f := fun res buf => .ok (Val.eui res, buf)) (reads_readBytes 8 _ hb)
      (reads_pure _))
    simp
  case BUFFER =>
    obtain ⟨b, rfl, rfl⟩ := h
    refine ⟨b, rfl, ?_⟩
    have : optLength .BUFFER (some (.int b.length)) = some b.length := by
      simp [optLength, bufferAndListTypes, asLength]
    rw [this, rp_buffer]
    have := reads_bind (f := fun res buf => .ok (Val.bytes res, buf)) (reads_readBytes b.length b rfl)
      (reads_pure _)
    simpa using this
  case LIST_UINT8 =>
    obtain ⟨l, rfl, rfl, hl⟩ := h
    obtain ⟨bs, h1, h2⟩ := writeInts_reads 1 l hl
    refine ⟨bs, h1, ?_⟩
    have : optLength .LIST_UINT8 (some (.int l.length)) = some l.length := by
      simp [optLength, bufferAndListTypes, asLength]
    rw [this, rp_list name _ _ 1 (by simp)]
    have := reads_bind (f := fun res buf => .ok (Val.ints res, buf)) h2 (reads_pure _)
    simpa using this
  case LIST_UINT16 =>
    obtain ⟨l, rfl, rfl, hl⟩ := h
    obtain ⟨bs, h1, h2⟩ := writeInts_reads 2 l hl
    refine ⟨bs, h1, ?_⟩
    have : optLength .LIST_UINT16 (some (.int l.length)) = some l.length := by
      simp [optLength, bufferAndListTypes, asLength]
    rw [this, rp_list name _ _ 2 (by simp)]
    have := reads_bind (f := fun res buf => .ok (Val.ints res, buf)) h2 (reads_pure _)
    simpa using this
  case LIST_NEIGHBOR_LQI =>
    obtain ⟨l, rfl, rfl, hl⟩ := h
    obtain ⟨bs, h1, h2⟩ := writeNeighbors_reads l hl
    refine ⟨bs, h1, ?_⟩
    have : optLength .LIST_NEIGHBOR_LQI (some (.int l.length)) = some l.length := by
      simp [optLength, bufferAndListTypes, asLength]
    rw [this, rp_nbrs]
    have := reads_bind (f := fun res buf => .ok (Val.nbrs res, buf)) h2 (reads_pure _)
    simpa using this

/-- Re-writing a value that was read gives the bytes it was read from (all writable types but
neighbour lists). -/
theorem param_read_write (name : String) (len : Option Nat) (t : ParameterType) (v : Val)
    (buf rest : List UInt8) (hw : Writable t) (hn : t ≠ .LIST_NEIGHBOR_LQI)
    (h : readParameter name t len buf = .ok (v, rest)) :
    ∃ bs, writeParameter t v = .ok bs ∧ buf = bs ++ rest := by
  have num : ∀ (w n : Nat) (b : List UInt8), readInt w buf = .ok (n, b) →
      writeInt (n : Int) w = .ok (leBytes w n) ∧ buf = leBytes w n ++ b := by
    intro w n b hr
    obtain ⟨h1, h2⟩ := readInt_ok hr
    exact ⟨writeInt_nat w n h1, h2⟩
  cases t <;> simp only [Writable] at hw
  case UINT8 =>
    rw [rp_uint8] at h
    simp only [bindR] at h
    split at h
    · simp at h
    rename_i n b hr
    have e : v = .int n ∧ rest = b := by
      split at h
      · split at h
        · simp at h; exact ⟨h.1.symm, h.2.symm⟩
        · simp at h
      · simp at h; exact ⟨h.1.symm, h.2.symm⟩
    obtain ⟨rfl, rfl⟩ := e
    exact ⟨_, (num 1 n _ hr).1, (num 1 n _ hr).2⟩
  case UINT16 =>
    rw [rp_uint name len _ 2 (by simp)] at h
    simp only [bindR] at h
    split at h
    · simp at h
    rename_i n b hr
    simp at h; obtain ⟨rfl, rfl⟩ := h
    exact ⟨_, (num 2 n _ hr).1, (num 2 n _ hr).2⟩
  case UINT32 =>
    rw [rp_uint name len _ 4 (by simp)] at h
    simp only [bindR] at h
    split at h
    · simp at h
    rename_i n b hr
    simp at h; obtain ⟨rfl, rfl⟩ := h
    exact ⟨_, (num 4 n _ hr).1, (num 4 n _ hr).2⟩
  case IEEEADDR =>
    rw [rp_ieee] at h
    simp only [bindR] at h
    split at h
    · simp at h
    rename_i n b hr
    simp at h; obtain ⟨rfl, rfl⟩ := h
    exact ⟨n, writeInts_bytes n, (readBytes_length hr).2⟩
  case BUFFER =>
    cases len with
    | none => simp [readParameter] at h
    | some k =>
      rw [rp_buffer] at h
      simp only [bindR] at h
      split at h
      · simp at h
      rename_i n b hr
      simp at h; obtain ⟨rfl, rfl⟩ := h
      exact ⟨n, rfl, (readBytes_length hr).2⟩
  case LIST_UINT8 =>
    cases len with
    | none => simp [readParameter] at h
    | some k =>
      rw [rp_list name k _ 1 (by simp)] at h
      simp only [bindR] at h
      split at h
      · simp at h
      rename_i n b hr
      simp at h; obtain ⟨rfl, rfl⟩ := h
      obtain ⟨_, _, h3⟩ := readInts_ok hr
      exact h3
  case LIST_UINT16 =>
    cases len with
    | none => simp [readParameter] at h
    | some k =>
      rw [rp_list name k _ 2 (by simp)] at h
      simp only [bindR] at h
      split at h
      · simp at h
      rename_i n b hr
      simp at h; obtain ⟨rfl, rfl⟩ := h
      obtain ⟨_, _, h3⟩ := readInts_ok hr
      exact h3
  case LIST_NEIGHBOR_LQI => exact absurd rfl hn

theorem asLength_some {prev : Option Val} {n : Nat} (h : asLength prev = some n)
    (hpos : ∀ z : Int, prev = some (.int z) → 0 ≤ z) : prev = some (.int n) := by
  unfold asLength at h
  split at h
  · rename_i z
    simp at h
    have := hpos z rfl
    have : ((z.toNat : Nat) : Int) = z := Int.toNat_of_nonneg this
    rw [← h, this]
  · simp at h

/-- What was read has the right size (C15). -/
theorem param_sized (name : String) (prev : Option Val) (t : ParameterType) (v : Val)
    (buf rest : List UInt8) (hpos : ∀ z : Int, prev = some (.int z) → 0 ≤ z)
    (h : readParameter name t (optLength t prev) buf = .ok (v, rest)) : Sized prev t v := by
  have fixed : ∀ n, fixedBuffer t = some n → ∃ b, v = .bytes b ∧ b.length = n := by
    intro n hn
    rw [rp_fixed name _ t n hn] at h
    simp only [bindR] at h
    split at h
    · simp at h
    rename_i b r hr
    simp at h; obtain ⟨rfl, rfl⟩ := h
    exact ⟨b, rfl, (readBytes_length hr).1⟩
  cases t <;> simp only [Sized]
  case UINT8 =>
    rw [rp_uint8] at h
    simp only [bindR] at h
    split at h
    · simp at h
    rename_i n b hr
    refine ⟨n, ?_, isUInt_nat (readInt_ok hr).1⟩
    split at h
    · split at h
      · simp at h; exact h.1.symm
      · simp at h
    · simp at h; exact h.1.symm
  case UINT16 =>
    rw [rp_uint name _ _ 2 (by simp)] at h
    simp only [bindR] at h
    split at h
    · simp at h
    rename_i n b hr
    simp at h
    exact ⟨n, h.1.symm, isUInt_nat (readInt_ok hr).1⟩
  case UINT32 =>
    rw [rp_uint name _ _ 4 (by simp)] at h
    simp only [bindR] at h
    split at h
    · simp at h
    rename_i n b hr
    simp at h
    exact ⟨n, h.1.symm, isUInt_nat (readInt_ok hr).1⟩
  case IEEEADDR =>
    rw [rp_ieee] at h
    simp only [bindR] at h
    split at h
    · simp at h
    rename_i n b hr
    simp at h
    exact ⟨n, h.1.symm, (readBytes_length hr).1⟩
  case INT8 =>
    rw [rp_int8] at h
    simp only [bindR] at h
    split at h
    · simp at h
    rename_i n b hr
    have hb := (readInt_ok hr).1
    simp only [Except.ok.injEq, Prod.mk.injEq] at h
    refine ⟨_, h.1.symm, ?_, ?_⟩
    · split <;> omega
    · split
      · simp at hb; omega
      · omega
  case BUFFER =>
    have ho : optLength .BUFFER prev = asLength prev := rfl
    rw [ho] at h
    match hl : asLength prev with
    | none => rw [hl] at h; simp [readParameter] at h
    | some k =>
      rw [hl, rp_buffer] at h
      simp only [bindR] at h
      split at h
      · simp at h
      rename_i n b hr
      simp at h
      refine ⟨n, h.1.symm, ?_⟩
      rw [(readBytes_length hr).1]
      exact asLength_some hl hpos
  case LIST_UINT8 =>
    have ho : optLength .LIST_UINT8 prev = asLength prev := rfl
    rw [ho] at h
    match hl : asLength prev with
    | none => rw [hl] at h; simp [readParameter] at h
    | some k =>
      rw [hl, rp_list name k _ 1 (by simp)] at h
      simp only [bindR] at h
      split at h
      · simp at h
      rename_i n b hr
      simp at h
      refine ⟨n, h.1.symm, ?_⟩
      rw [(readInts_ok hr).1]
      exact asLength_some hl hpos
  case LIST_UINT16 =>
    have ho : optLength .LIST_UINT16 prev = asLength prev := rfl
    rw [ho] at h
    match hl : asLength prev with
    | none => rw [hl] at h; simp [readParameter] at h
    | some k =>
      rw [hl, rp_list name k _ 2 (by simp)] at h
      simp only [bindR] at h
      split at h
      · simp at h
      rename_i n b hr
      simp at h
      refine ⟨n, h.1.symm, ?_⟩
      rw [(readInts_ok hr).1]
      exact asLength_some hl hpos
  case LIST_NEIGHBOR_LQI =>
    have ho : optLength .LIST_NEIGHBOR_LQI prev = asLength prev := rfl
    rw [ho] at h
    match hl : asLength prev with
    | none => rw [hl] at h; simp [readParameter] at h
    | some k =>
      rw [hl, rp_nbrs] at h
      simp only [bindR] at h
      split at h
      · simp at h
      rename_i n b hr
      simp at h
      refine ⟨n, h.1.symm, ?_⟩
      rw [(readNeighbors_ok hr).1]
      exact asLength_some hl hpos
  case BUFFER8 => exact fixed 8 rfl
  case BUFFER16 => exact fixed 16 rfl
  case BUFFER18 => exact fixed 18 rfl
  case BUFFER32 => exact fixed 32 rfl
  case BUFFER42 => exact fixed 42 rfl
  case BUFFER100 => exact fixed 100 rfl
  all_goals simp [readParameter, fixedBuffer] at h

/-! ### Parameter lists -/

/-- The values of a parameter list, read one after the other. -/
def readVals : Option Val → Params → Rd (List Val)
  | _, [] => fun buf => .ok ([], buf)
  | prev, p :: ps => bindR (readParameter p.1 p.2 (optLength p.2 prev))
      (fun v => bindR (readVals (some v) ps) (fun vs buf => .ok (v :: vs, buf)))

theorem local_readVals (prev : Option Val) (ps : Params) : Local (readVals prev ps) := by
  induction ps generalizing prev with
  | nil => exact local_pure _
  | cons p ps ih =>
    exact local_bind (local_readParameter _ _ _) (fun v => local_bind (ih _) (fun vs => local_pure _))

theorem readVals_length {prev : Option Val} {ps : Params} {buf rest : List UInt8} {vs : List Val}
    (h : readVals prev ps buf = .ok (vs, rest)) : vs.length = ps.length := by
  induction ps generalizing prev buf vs with
  | nil => simp [readVals] at h; simp [← h.1]
  | cons p ps ih =>
    simp only [readVals, bindR] at h
    split at h
    · simp at h
    split at h
    · simp at h
    rename_i vs' _ hr
    simp at h
    obtain ⟨rfl, rfl⟩ := h
    simp [ih hr]

theorem loop_eq (ps : Params) : ∀ (res : Payload) (prev : Option Val) (buf : List UInt8),
    readParametersLoop res prev buf ps =
      (readVals prev ps buf).map
        (fun r => ((ps.map (·.1)).zip r.1).foldl (fun d e => dictSet d e.1 e.2) res) := by
  induction ps with
  | nil => intro res prev buf; rfl
  | cons p ps ih =>
    intro res prev buf
    simp only [readParametersLoop, readVals, bindR, optLength]
    rcases readParameter p.1 p.2 (if p.2 ∈ bufferAndListTypes then asLength prev else none) buf
      with e | ⟨v, b⟩
    · rfl
    simp only [ok_bind, ih]
    rcases readVals (some v) ps b with e | ⟨vs, b2⟩
    · rfl
    simp [Except.map]

theorem foldl_dictSet (l : List (String × Val)) : ∀ (res : Payload),
    ((res ++ l).map (·.1)).Nodup →
    l.foldl (fun d e => dictSet d e.1 e.2) res = res ++ l := by
  induction l with
  | nil => intro res _; simp
  | cons e l ih =>
    intro res hn
    have hfresh : res.any (fun x => x.1 == e.1) = false := by
      rw [List.any_eq_false]
      intro x hx
      simp only [beq_iff_eq]
      intro he
      simp only [List.map_append, List.map_cons] at hn
      have := (List.nodup_append.mp hn).2.2 x.1 (List.mem_map_of_mem hx) e.1 (by simp)
      exact this he
    have hd : dictSet res e.1 e.2 = res ++ [e] := by
      simp [dictSet, hfresh]
    rw [List.foldl_cons, hd, ih]
    · simp
    · simpa using hn

theorem map_fst_zip (names : List String) (vs : List Val) (h : vs.length = names.length) :
    (names.zip vs).map (·.1) = names := by
  rw [show (fun x : String × Val => x.1) = Prod.fst from rfl, List.map_fst_zip (by omega)]

theorem readParameters_eq (ps : Params) (hn : (ps.map (·.1)).Nodup) (data : List UInt8) :
    readParameters data ps =
      (readVals none ps data).map (fun r => (ps.map (·.1)).zip r.1) := by
  rw [readParameters, loop_eq]
  match h : readVals none ps data with
  | .error e => rfl
  | .ok (vs, rest) =>
    have hl := readVals_length h
    simp only [Except.map]
    rw [foldl_dictSet]
    · simp
    · rw [List.nil_append, map_fst_zip _ _ (by simp [hl])]; exact hn

/-- Bytes of a list of values. -/
def writeVals : Params → List Val → Except PyErr (List UInt8)
  | p :: ps, v :: vs => do
    let a ← writeParameter p.2 v
    let b ← writeVals ps vs
    return a ++ b
  | _, _ => .ok []

theorem lookup_zip (ps : Params) (vs : List Val) (hl : vs.length = ps.length)
    (hn : (ps.map (·.1)).Nodup) (i : Nat) (h : i < ps.length) :
    ((ps.map (·.1)).zip vs).lookup (ps[i].1) = some (vs[i]'(by omega)) := by
  induction ps generalizing vs i with
  | nil => simp at h
  | cons p ps ih =>
    match vs, hl with
    | v :: vs, hl =>
      simp at hl
      simp only [List.map_cons, List.nodup_cons] at hn
      cases i with
      | zero => simp
      | succ i =>
        simp at h
        simp only [List.map_cons, List.zip_cons_cons, List.getElem_cons_succ]
        rw [List.lookup_cons]
        have : (ps[i].1 == p.1) = false := by
          rw [beq_eq_false_iff_ne]
          intro he
          apply hn.1
          rw [← he]
          exact List.mem_map_of_mem (List.getElem_mem h)
        rw [this]
        exact ih vs hl hn.2 i h

theorem writeParameters_vals (payload : Payload) (ps : Params) :
    ∀ vs : List Val, vs.length = ps.length →
      (∀ i (h : i < ps.length) (h' : i < vs.length), payload.lookup (ps[i].1) = some vs[i]) →
      writeParameters payload ps = writeVals ps vs := by
  induction ps with
  | nil => intro vs hl _; match vs, hl with | [], _ => rfl
  | cons p ps ih =>
    intro vs hl hlook
    match vs, hl with
    | v :: vs, hl =>
      simp at hl
      have h0 := hlook 0 (by simp) (by simp)
      simp at h0
      have hrest := ih vs hl (fun i h h' => by
        have := hlook (i + 1) (by simp; omega) (by simp; omega)
        simpa using this)
      simp only [writeParameters, writeVals, dictGet, h0, hrest, ok_bind]

theorem writeVals_reads (payload : Payload) (ps : Params) :
    ∀ prev, ValidPayload payload prev ps →
      ∃ vs bs, vs.length = ps.length ∧
        (∀ i (h : i < ps.length) (h' : i < vs.length), payload.lookup (ps[i].1) = some vs[i]) ∧
        writeVals ps vs = .ok bs ∧ Reads (readVals prev ps) vs bs := by
  induction ps with
  | nil => intro prev _; exact ⟨[], [], rfl, by simp, rfl, reads_pure _⟩
  | cons p ps ih =>
    intro prev hv
    obtain ⟨v, h1, h2, h3⟩ := hv
    obtain ⟨vs, bs, h4, h5, h6, h7⟩ := ih (some v) h3
    obtain ⟨a, h8, h9⟩ := param_write_read p.1 prev p.2 v h2
    refine ⟨v :: vs, a ++ bs, by simp [h4], ?_, ?_, ?_⟩
    · intro i h h'
      cases i with
      | zero => simpa using h1
      | succ i =>
        simp at h h'
        simpa using h5 i h h'
    · simp only [writeVals, h8, h6, ok_bind, pure_ok]
    · have := reads_bind h9 (f := fun v => bindR (readVals (some v) ps) (fun vs buf => .ok (v :: vs, buf)))
        (reads_bind h7 (f := fun vs buf => .ok (v :: vs, buf)) (reads_pure _))
      rw [List.append_nil] at this
      exact this

theorem readVals_write (ps : Params) (hw : ∀ p ∈ ps, Writable p.2 ∧ p.2 ≠ .LIST_NEIGHBOR_LQI) :
    ∀ (prev : Option Val) (buf rest : List UInt8) (vs : List Val),
      readVals prev ps buf = .ok (vs, rest) → ∃ bs, writeVals ps vs = .ok bs ∧ buf = bs ++ rest := by
  induction ps with
  | nil =>
    intro prev buf rest vs h
    simp [readVals] at h
    obtain ⟨rfl, rfl⟩ := h
    exact ⟨[], rfl, rfl⟩
  | cons p ps ih =>
    intro prev buf rest vs h
    simp only [readVals, bindR] at h
    split at h
    · simp at h
    rename_i v b1 hr1
    split at h
    · simp at h
    rename_i vs' b2 hr2
    simp at h
    obtain ⟨rfl, rfl⟩ := h
    have hp := hw p (by simp)
    obtain ⟨a, h1, h2⟩ := param_read_write _ _ _ _ _ _ hp.1 hp.2 hr1
    obtain ⟨bs, h3, h4⟩ := ih (fun q hq => hw q (by simp [hq])) _ _ _ _ hr2
    refine ⟨a ++ bs, ?_, by rw [h2, h4, List.append_assoc]⟩
    simp only [writeVals, h1, h3, ok_bind, pure_ok]

/-- No list or buffer follows an `INT8` (true of the whole command table). -/
def Int8Last : Params → Prop
  | [] => True
  | [_] => True
  | p :: q :: r => p.2 ≠ .INT8 ∧ Int8Last (q :: r)

instance : (ps : Params) → Decidable (Int8Last ps)
  | [] => isTrue trivial
  | [_] => isTrue trivial
  | p :: q :: r =>
    have := instDecidableInt8Last (q :: r)
    by unfold Int8Last; infer_instance

theorem sized_nonneg {prev : Option Val} {t : ParameterType} {v : Val} (h : Sized prev t v)
    (ht : t ≠ .INT8) : ∀ z : Int, some v = some (.int z) → 0 ≤ z := by
  intro z hz
  simp at hz
  subst hz
  cases t <;> simp [Sized] at h
  case UINT8 => exact h.1
  case UINT16 => exact h.1
  case UINT32 => exact h.1
  case INT8 => exact absurd rfl ht

theorem readVals_sized (ps : Params) : Int8Last ps →
    ∀ (prev : Option Val) (buf rest : List UInt8) (vs : List Val),
      (∀ z : Int, prev = some (.int z) → 0 ≤ z) →
      readVals prev ps buf = .ok (vs, rest) → SizedAll prev ps vs := by
  induction ps with
  | nil =>
    intro _ prev buf rest vs _ h
    simp [readVals] at h
    rw [h.1]; trivial
  | cons p ps ih =>
    intro h8 prev buf rest vs hpos h
    simp only [readVals, bindR] at h
    split at h
    · simp at h
    rename_i v b1 hr1
    split at h
    · simp at h
    rename_i vs' b2 hr2
    simp at h
    obtain ⟨rfl, rfl⟩ := h
    have hs := param_sized _ _ _ _ _ _ hpos hr1
    refine ⟨hs, ?_⟩
    match ps, h8, ih, hr2 with
    | [], _, _, hr2 =>
      simp [readVals] at hr2
      rw [hr2.1]; trivial
    | q :: r, h8, ih, hr2 =>
      exact ih h8.2 (some v) _ _ _ (sized_nonneg hs h8.1) hr2

/-! ### Read values fit (so they can be written and read back) -/

theorem param_fits (name : String) (prev : Option Val) (t : ParameterType) (v : Val)
    (buf rest : List UInt8) (hw : Writable t) (hpos : ∀ z : Int, prev = some (.int z) → 0 ≤ z)
    (h : readParameter name t (optLength t prev) buf = .ok (v, rest)) : FitsParam name prev t v := by
  have hs := param_sized name prev t v buf rest hpos h
  cases t <;> simp only [Writable] at hw <;> simp only [Sized] at hs <;> simp only [FitsParam]
  case UINT8 =>
    obtain ⟨n, rfl, hn⟩ := hs
    refine ⟨n, rfl, hn, ?_⟩
    intro ha
    have ha' := (addrmode_iff name).mpr ha
    rw [rp_uint8] at h
    simp only [bindR, ha', if_true] at h
    split at h
    · simp at h
    rename_i k b hr
    split at h
    · rename_i hm
      simp at h
      rw [← h.1]
      simp only [addressModes, List.mem_cons, List.not_mem_nil, or_false] at hm
      omega
    · simp at h
  case UINT16 => exact hs
  case UINT32 => exact hs
  case IEEEADDR => exact hs
  case BUFFER => exact hs
  case LIST_UINT8 =>
    obtain ⟨l, rfl, hl⟩ := hs
    refine ⟨l, rfl, hl, ?_⟩
    have ho : optLength .LIST_UINT8 prev = some l.length := by rw [hl]; simp [optLength, bufferAndListTypes, asLength]
    rw [ho, rp_list name _ _ 1 (by simp)] at h
    simp only [bindR] at h
    split at h
    · simp at h
    rename_i n b hr
    simp at h
    rw [← h.1]
    exact (readInts_ok hr).2.1
  case LIST_UINT16 =>
    obtain ⟨l, rfl, hl⟩ := hs
    refine ⟨l, rfl, hl, ?_⟩
    have ho : optLength .LIST_UINT16 prev = some l.length := by rw [hl]; simp [optLength, bufferAndListTypes, asLength]
    rw [ho, rp_list name _ _ 2 (by simp)] at h
    simp only [bindR] at h
    split at h
    · simp at h
    rename_i n b hr
    simp at h
    rw [← h.1]
    exact (readInts_ok hr).2.1
  case LIST_NEIGHBOR_LQI =>
    obtain ⟨l, rfl, hl⟩ := hs
    refine ⟨l, rfl, hl, ?_⟩
    have ho : optLength .LIST_NEIGHBOR_LQI prev = some l.length := by rw [hl]; simp [optLength, bufferAndListTypes, asLength]
    rw [ho, rp_nbrs] at h
    simp only [bindR] at h
    split at h
    · simp at h
    rename_i n b hr
    simp at h
    rw [← h.1]
    exact (readNeighbors_ok hr).2

theorem writable_ne_int8 {t : ParameterType} (h : Writable t) : t ≠ .INT8 := by
  rintro rfl; exact h

/-- Read values form a valid payload. -/
theorem readVals_valid (payload : Payload) (ps : Params) (hw : ∀ p ∈ ps, Writable p.2) :
    ∀ (prev : Option Val) (buf rest : List UInt8) (vs : List Val),
      (∀ z : Int, prev = some (.int z) → 0 ≤ z) →
      readVals prev ps buf = .ok (vs, rest) →
      (∀ i (h : i < ps.length) (h' : i < vs.length), payload.lookup (ps[i].1) = some vs[i]) →
      ValidPayload payload prev ps := by
  induction ps with
  | nil => intros; trivial
  | cons p ps ih =>
    intro prev buf rest vs hpos h hlook
    simp only [readVals, bindR] at h
    split at h
    · simp at h
    rename_i v b1 hr1
    split at h
    · simp at h
    rename_i vs' b2 hr2
    simp at h
    obtain ⟨rfl, rfl⟩ := h
    have hp := hw p (by simp)
    refine ⟨v, ?_, param_fits _ _ _ _ _ _ hp hpos hr1, ?_⟩
    · exact hlook 0 (by simp) (by simp)
    · refine ih (fun q hq => hw q (by simp [hq])) (some v) _ _ _
        (sized_nonneg (param_sized _ _ _ _ _ _ hpos hr1) (writable_ne_int8 hp)) hr2 ?_
      intro i h h'
      exact hlook (i + 1) (by simp; omega) (by simp; omega)

theorem list8 {α : Type} {l : List α} (h : l.length = 8) :
    ∃ a b c d e f g i, l = [a, b, c, d, e, f, g, i] := by
  match l, h with
  | [a, b, c, d, e, f, g, i], _ => exact ⟨a, b, c, d, e, f, g, i, rfl⟩

/-- Re-encoding a neighbour entry masks the unused bits. -/
theorem neighbor_mask {buf rest : List UInt8} {n : Neighbor} (h : readNeighbor buf = .ok (n, rest)) :
    ∃ e, e.length = 22 ∧ buf = e ++ rest ∧ writeNeighbor n = .ok (maskEntry e) := by
  obtain ⟨hf, v1, pj, hv1, hpj, hperm, hpack, hbuf⟩ := readNeighbor_ok h
  refine ⟨nbrBytes { n with permitJoin := pj } v1, ?_, hbuf, ?_⟩
  · simp [nbrBytes, leBytes_length, hf.extPanId, hf.extAddr]
  · rw [writeNeighbor_ok n hf, hpack]
    congr 1
    obtain ⟨a0, a1, a2, a3, a4, a5, a6, a7, ha⟩ := list8 hf.extPanId
    obtain ⟨b0, b1, b2, b3, b4, b5, b6, b7, hb⟩ := list8 hf.extAddr
    have e1 : UInt8.ofNat (v1 &&& 127) = UInt8.ofNat v1 &&& 127 := by
      apply UInt8.toNat_inj.mp
      simp
    have e2 : UInt8.ofNat (pj &&& 3) = UInt8.ofNat pj &&& 3 := by
      apply UInt8.toNat_inj.mp
      simp
    have m1 : (v1 &&& 127) % 256 = v1 &&& 127 :=
      Nat.mod_eq_of_lt (Nat.lt_of_le_of_lt Nat.and_le_right (by omega))
    have m2 : (pj &&& 3) % 256 = pj &&& 3 :=
      Nat.mod_eq_of_lt (Nat.lt_of_le_of_lt Nat.and_le_right (by omega))
    simp [nbrBytes, maskEntry, ha, hb, leBytes, hperm, Nat.mod_eq_of_lt hv1, Nat.mod_eq_of_lt hpj,
      List.mapIdx_cons, m1, m2, e1, e2]

theorem neighbors_mask {k : Nat} {buf rest : List UInt8} {l : List Neighbor}
    (h : readNeighbors k buf = .ok (l, rest)) :
    ∃ es : List (List UInt8), es.length = k ∧ (∀ e ∈ es, e.length = 22) ∧ buf = es.flatten ++ rest ∧
      writeNeighbors l = .ok (es.map maskEntry).flatten := by
  induction k generalizing buf l with
  | zero =>
    simp [readNeighbors] at h
    obtain ⟨rfl, rfl⟩ := h
    exact ⟨[], rfl, by simp, by simp, rfl⟩
  | succ k ih =>
    rw [readNeighbors_succ] at h
    simp only [bindR] at h
    split at h
    · simp at h
    rename_i v rest1 hr
    split at h
    · simp at h
    rename_i vs rest2 hr2
    simp at h
    obtain ⟨rfl, rfl⟩ := h
    obtain ⟨es, h1, h2, h3, h4⟩ := ih hr2
    obtain ⟨e, h5, h6, h7⟩ := neighbor_mask hr
    refine ⟨e :: es, by simp [h1], ?_, ?_, ?_⟩
    · intro x hx; simp at hx; rcases hx with rfl | hx
      · exact h5
      · exact h2 x hx
    · rw [h6, h3]; simp
    · rw [writeNeighbors, h7, ok_bind, h4, ok_bind, pure_ok]; simp

/-! ### Readability -/

theorem optLength_numeric (t : ParameterType) (h : needsCount t = true) (prev : Option Val) :
    optLength t prev = asLength prev := by
  cases t <;> simp [needsCount] at h <;> rfl

/-- A value read from a parameter is an integer exactly for the number types, and the reader of
unreadable or count-less types fails. -/
theorem param_readable {name : String} {t : ParameterType} {prev : Option Val}
    {buf rest : List UInt8} {v : Val}
    (h : readParameter name t (optLength t prev) buf = .ok (v, rest)) :
    unreadable t = false ∧ (needsCount t = true → (asLength prev).isSome) ∧
      ((asLength (some v)).isSome = numeric t) := by
  have hcount : needsCount t = true → (asLength prev).isSome := by
    intro hn
    rw [optLength_numeric t hn] at h
    cases hl : asLength prev with
    | some k => rfl
    | none =>
      rw [hl] at h
      cases t <;> simp [needsCount] at hn <;> simp [readParameter] at h
  refine ⟨?_, hcount, ?_⟩
  · cases t <;> first | rfl | (simp [readParameter, fixedBuffer] at h)
  · have fixed : ∀ n, fixedBuffer t = some n → (asLength (some v)).isSome = false := by
      intro n hn
      rw [rp_fixed name _ t n hn] at h
      simp only [bindR] at h
      split at h
      · simp at h
      simp at h; rw [← h.1]; rfl
    cases t
    case UINT8 =>
      rw [rp_uint8] at h
      simp only [bindR] at h
      split at h
      · simp at h
      split at h
      · split at h
        · simp at h; rw [← h.1]; rfl
        · simp at h
      · simp at h; rw [← h.1]; rfl
    case UINT16 =>
      rw [rp_uint name _ _ 2 (by simp)] at h
      simp only [bindR] at h
      split at h
      · simp at h
      simp at h; rw [← h.1]; rfl
    case UINT32 =>
      rw [rp_uint name _ _ 4 (by simp)] at h
      simp only [bindR] at h
      split at h
      · simp at h
      simp at h; rw [← h.1]; rfl
    case INT8 =>
      rw [rp_int8] at h
      simp only [bindR] at h
      split at h
      · simp at h
      simp only [Except.ok.injEq, Prod.mk.injEq] at h; rw [← h.1]; rfl
    case IEEEADDR =>
      rw [rp_ieee] at h
      simp only [bindR] at h
      split at h
      · simp at h
      simp at h; rw [← h.1]; rfl
    case BUFFER =>
      obtain ⟨k, hk⟩ := Option.isSome_iff_exists.mp (hcount rfl)
      rw [optLength_numeric _ rfl, hk, rp_buffer] at h
      simp only [bindR] at h
      split at h
      · simp at h
      simp at h; rw [← h.1]; rfl
    case LIST_UINT8 =>
      obtain ⟨k, hk⟩ := Option.isSome_iff_exists.mp (hcount rfl)
      rw [optLength_numeric _ rfl, hk, rp_list name k _ 1 (by simp)] at h
      simp only [bindR] at h
      split at h
      · simp at h
      simp at h; rw [← h.1]; rfl
    case LIST_UINT16 =>
      obtain ⟨k, hk⟩ := Option.isSome_iff_exists.mp (hcount rfl)
      rw [optLength_numeric _ rfl, hk, rp_list name k _ 2 (by simp)] at h
      simp only [bindR] at h
      split at h
      · simp at h
      simp at h; rw [← h.1]; rfl
    case LIST_NEIGHBOR_LQI =>
      obtain ⟨k, hk⟩ := Option.isSome_iff_exists.mp (hcount rfl)
      rw [optLength_numeric _ rfl, hk, rp_nbrs] at h
      simp only [bindR] at h
      split at h
      · simp at h
      simp at h; rw [← h.1]; rfl
    case BUFFER8 => exact fixed 8 rfl
    case BUFFER16 => exact fixed 16 rfl
    case BUFFER18 => exact fixed 18 rfl
    case BUFFER32 => exact fixed 32 rfl
    case BUFFER42 => exact fixed 42 rfl
    case BUFFER100 => exact fixed 100 rfl
    all_goals simp [readParameter, fixedBuffer] at h

theorem readVals_readable (ps : Params) :
    ∀ (prev : Option Val) (buf rest : List UInt8) (vs : List Val),
      readVals prev ps buf = .ok (vs, rest) → readable (asLength prev).isSome ps = true := by
  induction ps with
  | nil => intros; rfl
  | cons p ps ih =>
    intro prev buf rest vs h
    simp only [readVals, bindR] at h
    split at h
    · simp at h
    rename_i v b1 hr1
    split at h
    · simp at h
    rename_i vs' b2 hr2
    obtain ⟨h1, h2, h3⟩ := param_readable hr1
    have h4 := ih _ _ _ _ hr2
    rw [h3] at h4
    simp only [readable, h1, h4]
    cases hc : needsCount p.2
    · rfl
    · rw [h2 hc]; rfl

/-- Some data reads as zeros. -/
theorem readable_reads (ps : Params) : ∀ (prev : Option Val),
    (asLength prev = none ∨ asLength prev = some 0) →
    readable (asLength prev).isSome ps = true → ∃ vs bs, Reads (readVals prev ps) vs bs := by
  induction ps with
  | nil => intro prev _ _; exact ⟨[], [], reads_pure _⟩
  | cons p ps ih =>
    intro prev hprev h
    simp only [readable, Bool.and_eq_true] at h
    obtain ⟨⟨h1, h2⟩, h3⟩ := h
    have key : ∃ v bs, Reads (readParameter p.1 p.2 (optLength p.2 prev)) v bs ∧
        (asLength (some v)).isSome = numeric p.2 ∧
        (asLength (some v) = none ∨ asLength (some v) = some 0) := by
      obtain ⟨name, t⟩ := p
      dsimp only at *
      have hint : ∀ w, Reads (readInt w) 0 (leBytes w 0) := fun w =>
        reads_readInt_le w 0 (Nat.pow_pos (by omega))
      have hcount : needsCount t = true → optLength t prev = some 0 := by
        intro hn
        rw [optLength_numeric t hn]
        rw [hn] at h2
        rcases hprev with hp | hp
        · rw [hp] at h2; simp at h2
        · exact hp
      have fixed : ∀ n, fixedBuffer t = some n → ∃ v bs,
          Reads (readParameter name t (optLength t prev)) v bs ∧ asLength (some v) = none := by
        intro n hn
        refine ⟨.bytes (List.replicate n 0), List.replicate n 0, ?_, rfl⟩
        rw [rp_fixed name _ t n hn, ← List.append_nil (List.replicate n 0)]
        exact cast (by simp) (reads_bind (f := fun res buf => .ok (Val.bytes res, buf))
          (reads_readBytes n (List.replicate n 0) (by simp)) (reads_pure _))
      have fin : ∀ n, fixedBuffer t = some n → numeric t = false → ∃ v bs,
          Reads (readParameter name t (optLength t prev)) v bs ∧
          (asLength (some v)).isSome = numeric t ∧
          (asLength (some v) = none ∨ asLength (some v) = some 0) := by
        intro n hn ht
        obtain ⟨v, bs, h1, h2⟩ := fixed n hn
        exact ⟨v, bs, h1, by rw [h2, ht]; rfl, Or.inl h2⟩
      cases t
      case UINT8 =>
        refine ⟨.int 0, leBytes 1 0, ?_, rfl, Or.inr rfl⟩
        rw [rp_uint8, ← List.append_nil (leBytes 1 0)]
        refine reads_bind (hint 1) ?_
        have : (0 : Nat) ∈ addressModes := by decide
        simp only [this, if_true, ite_self]
        exact reads_pure _
      case UINT16 =>
        refine ⟨.int 0, leBytes 2 0, ?_, rfl, Or.inr rfl⟩
        rw [rp_uint name _ _ 2 (by simp), ← List.append_nil (leBytes 2 0)]
        exact reads_bind (hint 2) (reads_pure _)
      case UINT32 =>
        refine ⟨.int 0, leBytes 4 0, ?_, rfl, Or.inr rfl⟩
        rw [rp_uint name _ _ 4 (by simp), ← List.append_nil (leBytes 4 0)]
        exact reads_bind (hint 4) (reads_pure _)
      case INT8 =>
        refine ⟨.int 0, leBytes 1 0, ?_, rfl, Or.inr rfl⟩
        rw [rp_int8, ← List.append_nil (leBytes 1 0)]
        exact reads_bind (hint 1) (reads_pure _)
      case IEEEADDR =>
        refine ⟨.eui (List.replicate 8 0), List.replicate 8 0, ?_, rfl, Or.inl rfl⟩
        rw [rp_ieee, ← List.append_nil (List.replicate 8 0)]
        exact cast (by simp) (reads_bind (f := fun res buf => .ok (Val.eui res, buf))
          (reads_readBytes 8 (List.replicate 8 0) (by simp)) (reads_pure _))
      case BUFFER =>
        refine ⟨.bytes [], [], ?_, rfl, Or.inl rfl⟩
        rw [hcount rfl, rp_buffer]
        exact reads_bind (f := fun res buf => .ok (Val.bytes res, buf))
          (reads_readBytes 0 [] rfl) (reads_pure _)
      case LIST_UINT8 =>
        refine ⟨.ints [], [], ?_, rfl, Or.inl rfl⟩
        rw [hcount rfl, rp_list name 0 _ 1 (by simp)]
        exact reads_bind (a := []) (f := fun res buf => .ok (Val.ints res, buf)) (reads_pure _) (reads_pure _)
      case LIST_UINT16 =>
        refine ⟨.ints [], [], ?_, rfl, Or.inl rfl⟩
        rw [hcount rfl, rp_list name 0 _ 2 (by simp)]
        exact reads_bind (a := []) (f := fun res buf => .ok (Val.ints res, buf)) (reads_pure _) (reads_pure _)
      case LIST_NEIGHBOR_LQI =>
        refine ⟨.nbrs [], [], ?_, rfl, Or.inl rfl⟩
        rw [hcount rfl, rp_nbrs]
        exact reads_bind (a := []) (f := fun res buf => .ok (Val.nbrs res, buf)) (reads_pure _) (reads_pure _)
      case BUFFER8 => exact fin 8 rfl rfl
      case BUFFER16 => exact fin 16 rfl rfl
      case BUFFER18 => exact fin 18 rfl rfl
      case BUFFER32 => exact fin 32 rfl rfl
      case BUFFER42 => exact fin 42 rfl rfl
      case BUFFER100 => exact fin 100 rfl rfl
      all_goals simp [unreadable] at h1
    obtain ⟨v, bs, hr, hn, hz⟩ := key
    rw [← hn] at h3
    obtain ⟨vs, cs, hvs⟩ := ih (some v) hz h3
    refine ⟨v :: vs, bs ++ (cs ++ []), ?_⟩
    exact reads_bind hr (f := fun v => bindR (readVals (some v) ps) (fun vs buf => .ok (v :: vs, buf)))
        (reads_bind hvs (f := fun vs buf => .ok (v :: vs, buf)) (reads_pure _))

end Zcc
