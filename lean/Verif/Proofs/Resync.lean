import Verif.Props.Framing

/-! # Lemmas for C86: how the parser gets back into step -/

namespace Zcc

open Spec

theorem dr_split {σ : Type} {h : Handler σ} {g g' : Gateway σ} {a b : List UInt8}
    (hr : Gateway.dataReceived h g (a ++ b) = (g', none)) :
    ∃ g1, Gateway.dataReceived h g a = (g1, none) ∧ Gateway.dataReceived h g1 b = (g', none) := by
  rw [dr_append] at hr
  match hc : Gateway.dataReceived h g a with
  | (g1, none) => rw [hc] at hr; exact ⟨g1, rfl, hr⟩
  | (g1, some e) => rw [hc] at hr; cases hr

/-- A run without an exception is the run with an API that never raises. -/
theorem dr_hush {σ : Type} (h : Handler σ) (bs : List UInt8) : ∀ {g g' : Gateway σ},
    Gateway.dataReceived h g bs = (g', none) →
    Gateway.dataReceived (fun s f => ((h s f).1, none)) g bs = (g', none) := by
  induction bs with
  | nil => intro g g' hr; exact hr
  | cons b bs ih =>
    intro g g' hr
    unfold Gateway.dataReceived at hr ⊢
    split at hr
    · cases hr
    · exact ih hr
    · rename_i buf f hf
      split at hr
      · cases hr
      · rename_i s' hs
        rw [hs]
        exact ih hr

/-- The parser holds bytes that are not the beginning of a message; `c` of them have come since the last
garbage. -/
structure Astray (c : Nat) (B : List UInt8) : Prop where
  inv : BufInv B
  some : B ≠ []
  few : c + 1 ≤ B.length ∨ (∃ x, x ≠ SOF ∧ B = [x]) ∧ c ≤ 258

theorem Astray.le {c : Nat} {B : List UInt8} (h : Astray c B) : c ≤ 258 := by
  have := bufInv_bound B h.inv
  rcases h.few with h | h
  · omega
  · exact h.2

/-- One more byte: the parser is back in step behind it, goes on, or is back in step before it. -/
theorem astray_write {c : Nat} {B : List UInt8} (h : Astray c B) (b : UInt8) :
    (Parser.write B b).1 = [] ∧ ((∃ x, x ≠ SOF ∧ B = [x]) → (Parser.write B b).2 = .ok none) ∨
    (Astray (c + 1) (B ++ [b]) ∧ Parser.write B b = (B ++ [b], .ok none)) ∨
    ((Parser.write B b).1 = [b] ∧ (¬ ∃ x, x ≠ SOF ∧ B = [x]) ∧ (b ≠ SOF → Astray (c + 1) [b])) := by
  have hone : (∃ x, x ≠ SOF ∧ B = [x]) → Parser.write B b = ([], .ok none) := by
    rintro ⟨x, hx, rfl⟩
    exact write_drop [x] b x [b] rfl hx
  by_cases hx : ∃ x, x ≠ SOF ∧ B = [x]
  · rw [hone hx]
    exact .inl ⟨rfl, fun _ => rfl⟩
  · have hc : c + 1 ≤ B.length := by
      rcases h.few with h | h
      · exact h
      · exact absurd h.1 hx
    rcases write_cases B b h.inv with hw | ⟨hi, hw⟩ | ⟨hdr, cid, data, fcs, hd, hl, hB, hw⟩ | ⟨hdr, cid, fcs, hB, hw⟩
    · rw [hw]; exact .inl ⟨rfl, fun _ => rfl⟩
    · refine .inr (.inl ⟨⟨.inr (.inr hi), by simp, .inl ?_⟩, hw⟩)
      rw [List.length_append]
      exact Nat.add_le_add_right hc 1
    · rw [hw]; exact .inl ⟨rfl, fun hx' => absurd hx' hx⟩
    · rw [hw]
      refine .inr (.inr ⟨rfl, hx, fun hb => ⟨bufInv_singleton b, by simp, .inr ⟨⟨b, hb, rfl⟩, ?_⟩⟩⟩)
      rw [hB, packet_length] at hc
      simp only [List.length_nil] at hc
      omega

/-- At most one message more was delivered. -/
def Once {σ : Type} (h : Handler σ) (s s' : σ) : Prop := s' = s ∨ ∃ f, s' = (h s f).1

/-- Out of step, with `s` the state of the API when the garbage ended and `g` the state now. -/
def Lost {σ : Type} (h : Handler σ) (s : σ) (c : Nat) (g : Gateway σ) : Prop :=
  Astray c g.buffer ∧ (g.api = s ∨ Once h s g.api ∧ ∃ x, x ≠ SOF ∧ g.buffer = [x])

theorem Lost.once {σ : Type} {h : Handler σ} {s : σ} {c : Nat} {g : Gateway σ} (hl : Lost h s c g) :
    Once h s g.api := by
  rcases hl.2 with h | h
  · exact .inl h
  · exact h.1

theorem lost_byte {σ : Type} {h : Handler σ} {s : σ} {c : Nat} {g g' : Gateway σ} {b : UInt8}
    (hl : Lost h s c g) (hr : Gateway.dataReceived h g [b] = (g', none)) :
    Once h s g'.api ∧ (g'.buffer = [] ∨ Lost h s (c + 1) g' ∨ g'.buffer = [b] ∧ b = SOF) := by
  obtain ⟨B, s1⟩ := g
  rw [dr_cons] at hr
  rcases astray_write hl.1 b with ⟨h1, h2⟩ | ⟨h1, h2⟩ | ⟨h1, h2, h3⟩
  · dsimp only at h1 h2
    rw [h1] at hr
    unfold settle at hr
    split at hr
    · cases hr
    · cases hr; exact ⟨hl.once, .inl rfl⟩
    · rename_i f hf
      have hs1 : s1 = s := by
        rcases hl.2 with h | ⟨-, h⟩
        · exact h
        · rw [h2 h] at hf; cases hf
      split at hr
      · cases hr
      · rename_i s' hs'
        cases hr
        exact ⟨.inr ⟨f, by rw [← hs1, hs']⟩, .inl rfl⟩
  · dsimp only at h1 h2
    rw [h2] at hr
    cases hr
    refine ⟨hl.once, .inr (.inl ⟨h1, .inl ?_⟩)⟩
    rcases hl.2 with h | ⟨-, x, hx, h⟩
    · exact h
    · dsimp only at h
      rw [h, write_drop [x] b x [b] rfl hx] at h2
      injection h2 with h2
      simp at h2
  · dsimp only at h1 h2 h3
    rw [h1] at hr
    have hs1 : s1 = s := by
      rcases hl.2 with h | ⟨-, h⟩
      · exact h
      · exact absurd h h2
    subst hs1
    have key : ∀ s', Once h s1 s' → Once h s1 (Gateway.mk [b] s').api ∧ ((Gateway.mk [b] s').buffer = [] ∨
        Lost h s1 (c + 1) ⟨[b], s'⟩ ∨ (Gateway.mk [b] s').buffer = [b] ∧ b = SOF) := by
      intro s' ho
      refine ⟨ho, .inr ?_⟩
      by_cases hb : b = SOF
      · exact .inr ⟨rfl, hb⟩
      · exact .inl ⟨h3 hb, .inr ⟨ho, b, hb, rfl⟩⟩
    unfold settle at hr
    split at hr
    · cases hr
    · cases hr; exact key _ (.inl rfl)
    · rename_i f hf
      split at hr
      · cases hr
      · rename_i s' hs'
        cases hr
        exact key _ (.inr ⟨f, by rw [hs']⟩)

/-- Bytes without a start byte. -/
theorem lost_noise {σ : Type} {h : Handler σ} {s : σ} (u : List UInt8) : ∀ {c : Nat} {g g' : Gateway σ},
    Noise u → Lost h s c g → Gateway.dataReceived h g u = (g', none) →
    Once h s g'.api ∧ (g'.buffer = [] ∨ Lost h s (c + u.length) g') := by
  induction u with
  | nil =>
    intro c g g' _ hl hr
    cases hr
    exact ⟨hl.once, .inr hl⟩
  | cons b u ih =>
    intro c g g' hu hl hr
    have hu' : Noise u := fun x hx => hu x (.tail _ hx)
    obtain ⟨g1, h1, h2⟩ := dr_split (a := [b]) (b := u) hr
    obtain ⟨k1, k2 | k2 | k2⟩ := lost_byte hl h1
    · obtain ⟨B, s1⟩ := g1
      dsimp only at k2
      subst k2
      have := dr_noise h s1 u [] hu'
      rw [List.append_nil, h2] at this
      cases this
      exact ⟨k1, .inl rfl⟩
    · obtain ⟨m1, m2⟩ := ih hu' k2 h2
      refine ⟨m1, m2.imp_right fun h => ?_⟩
      rw [List.length_cons, Nat.add_comm u.length, ← Nat.add_assoc]
      exact h
    · exact absurd k2.2 (hu b (.head _))

theorem plain_receivable : ∀ {items : List (List UInt8 × Frame)} {tail : List UInt8},
    (∀ p ∈ items, Noise p.1 ∧ Plain p.2) → Noise tail → Receivable items tail := by
  intro items tail hi ht
  induction items with
  | nil => exact ht
  | cons p items ih =>
    obtain ⟨h1, h2, h3, -⟩ := hi p (.head _)
    exact ⟨h1, h2, fun h => absurd h h3, ih fun q hq => hi q (.tail _ hq)⟩

/-- Out of step at the beginning of a good stream. -/
theorem lost_stream {σ : Type} {h : Handler σ} (hh : ∀ s f, (h s f).2 = none) {s : σ} {tail : List UInt8}
    (ht : Noise tail) (items : List (List UInt8 × Frame)) : ∀ {c : Nat} {g g' : Gateway σ},
    (∀ p ∈ items, Noise p.1 ∧ Plain p.2) → Lost h s c g →
    Gateway.dataReceived h g (stream items tail) = (g', none) →
    ∃ lost kept s', items = lost ++ kept ∧ Once h s s' ∧
      g'.api = kept.foldl (fun s p => (h s (received p.2)).1) s' ∧ (kept ≠ [] → g'.buffer = []) ∧
      ∀ l x l', lost = l ++ x :: l' → c + (stream l []).length + x.1.length ≤ 258 := by
  induction items with
  | nil =>
    intro c g g' _ hl hr
    have hr : Gateway.dataReceived h g tail = (g', none) := hr
    exact ⟨[], [], g'.api, rfl, (lost_noise tail ht hl hr).1, rfl, fun h => absurd rfl h,
      fun l x l' h => by cases l <;> cases h⟩
  | cons p items ih =>
    intro c g g' hi hl hr
    have hi' : ∀ q ∈ items, Noise q.1 ∧ Plain q.2 := fun q hq => hi q (.tail _ hq)
    obtain ⟨hn, hp⟩ := hi p (.head _)
    have e : stream (p :: items) tail = p.1 ++ ([SOF] ++ ((wire p.2).drop 1 ++ stream items tail)) := by
      simp [stream, wire, SOF]
    have hrest : Receivable items tail := plain_receivable hi' ht
    -- in step before the message
    have keep : ∀ s1, Once h s s1 → Gateway.dataReceived h ⟨[], s1⟩
        ([SOF] ++ ((wire p.2).drop 1 ++ stream items tail)) = (g', none) →
        ∃ lost kept s', p :: items = lost ++ kept ∧ Once h s s' ∧
          g'.api = kept.foldl (fun s p => (h s (received p.2)).1) s' ∧ (kept ≠ [] → g'.buffer = []) ∧
          ∀ l x l', lost = l ++ x :: l' → c + (stream l []).length + x.1.length ≤ 258 := by
      intro s1 ho hr
      have e' : [SOF] ++ ((wire p.2).drop 1 ++ stream items tail) = stream (([], p.2) :: items) tail := by
        simp [stream, wire, SOF]
      rw [e', receive_stream h hh tail _ _ (plain_receivable (items := ([], p.2) :: items) (by
        intro q hq
        rcases List.mem_cons.mp hq with rfl | hq
        · exact ⟨fun _ h => by (cases h), hp⟩
        · exact hi' q hq) ht)] at hr
      cases hr
      exact ⟨[], p :: items, s1, rfl, ho, rfl, fun _ => rfl, fun l x l' h => by cases l <;> cases h⟩
    rw [e] at hr
    obtain ⟨g1, r1, hr⟩ := dr_split hr
    obtain ⟨o1, k1⟩ := lost_noise p.1 hn hl r1
    rcases k1 with k1 | k1
    · obtain ⟨B, s1⟩ := g1
      dsimp only at k1
      subst k1
      exact keep s1 o1 hr
    · obtain ⟨g2, r2, hr'⟩ := dr_split hr
      have hpos := k1.1.le
      -- in step behind the message
      have skip : ∀ s2, Once h s s2 → Gateway.dataReceived h ⟨[], s2⟩ (stream items tail) = (g', none) →
          ∃ lost kept s', p :: items = lost ++ kept ∧ Once h s s' ∧
            g'.api = kept.foldl (fun s p => (h s (received p.2)).1) s' ∧ (kept ≠ [] → g'.buffer = []) ∧
            ∀ l x l', lost = l ++ x :: l' → c + (stream l []).length + x.1.length ≤ 258 := by
        intro s2 ho hr
        rw [receive_stream h hh tail _ _ hrest] at hr
        cases hr
        refine ⟨[p], items, s2, rfl, ho, rfl, fun _ => rfl, fun l x l' h => ?_⟩
        cases l with
        | nil => cases h; simpa [stream] using hpos
        | cons y l =>
          injection h with _ h
          cases l <;> cases h
      obtain ⟨o2, k2 | k2 | k2⟩ := lost_byte k1 r2
      · obtain ⟨B, s2⟩ := g2
        dsimp only at k2
        subst k2
        rw [dr_noise h s2 _ _ hp.2.2] at hr'
        exact skip s2 o2 hr'
      · obtain ⟨g3, r3, hr''⟩ := dr_split hr'
        obtain ⟨o3, k3 | k3⟩ := lost_noise _ hp.2.2 k2 r3
        · obtain ⟨B, s3⟩ := g3
          dsimp only at k3
          subst k3
          exact skip s3 o3 hr''
        · obtain ⟨lost, kept, s', j1, j2, j3, j4, j5⟩ := ih hi' k3 hr''
          refine ⟨p :: lost, kept, s', by rw [j1]; rfl, j2, j3, j4, fun l x l' h => ?_⟩
          cases l with
          | nil => cases h; simpa [stream] using hpos
          | cons y l =>
            injection h with h1 h2
            subst h1
            have := j5 l x l' h2
            have hlen : (stream (p :: l) []).length = p.1.length + (1 + ((wire p.2).drop 1).length) +
                (stream l []).length := by
              simp [stream, wire]
              omega
            rw [hlen]
            omega
      · obtain ⟨B, s2⟩ := g2
        obtain ⟨k2, -⟩ := k2
        dsimp only at k2
        subst k2
        refine keep s2 o2 ?_
        rw [List.singleton_append, dr_sof]
        exact hr'

end Zcc
