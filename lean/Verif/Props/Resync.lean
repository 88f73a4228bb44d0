import Verif.Proofs.Resync

/-! # C86: the receiver finds its way back after garbage (uart.py:33-57, 143-155) -/

namespace Zcc

open Spec

/-- **C86.** Whatever was received before, with whatever exceptions, and however a stream of plain messages
with noise in between is then cut into chunks: if no call raises from then on, all messages from some point on
are delivered, each once and in order, after at most one that nobody sent; and no message is lost that begins
more than 258 bytes behind the garbage. What is missing: the claim is false for messages with the start byte in
them (`c86_refuted`) and for calls that raise (`c86_raised_refuted`). -/
theorem c86_resync_partial {σ : Type} (h : Handler σ) (s : σ) (garbage chunks : List (List UInt8))
    (items : List (List UInt8 × Frame)) (tail : List UInt8) (g g' : Gateway σ)
    (hg : (Gateway.receiveAll h ⟨[], s⟩ garbage).1 = g) (hr : Gateway.receiveAll h g chunks = (g', []))
    (hi : ∀ p ∈ items, Noise p.1 ∧ Plain p.2) (ht : Noise tail) (hc : chunks.flatten = stream items tail) :
    ∃ lost kept s', items = lost ++ kept ∧ (s' = g.api ∨ ∃ f, s' = (h g.api f).1) ∧
      g'.api = kept.foldl (fun s p => (h s (received p.2)).1) s' ∧ (kept ≠ [] → g'.buffer = []) ∧
      ∀ l x l', lost = l ++ x :: l' → (stream l []).length + x.1.length ≤ 258 := by
  have hinv : BufInv g.buffer := by
    rw [← hg]
    exact ra_bufInv h garbage _ (.inl rfl)
  have hd := dr_hush h _ (dr_eq_ra h chunks g g' hr)
  rw [hc] at hd
  by_cases hB : g.buffer = []
  · obtain ⟨B, s1⟩ := g
    dsimp only at hB
    subst hB
    rw [receive_stream _ (fun _ _ => rfl) tail items s1 (plain_receivable hi ht)] at hd
    cases hd
    exact ⟨[], items, s1, rfl, .inl rfl, rfl, fun _ => rfl, fun l x l' h => by cases l <;> cases h⟩
  · have hl : Lost (fun s f => ((h s f).1, none)) g.api 0 g :=
      ⟨⟨hinv, hB, .inl (by have := List.length_pos_iff.mpr hB; omega)⟩, .inl rfl⟩
    obtain ⟨lost, kept, s', h1, h2, h3, h4, h5⟩ := lost_stream (fun _ _ => rfl) ht items hi hl hd
    exact ⟨lost, kept, s', h1, h2, h3, h4, fun l x l' h => by have := h5 l x l' h; omega⟩

/-- 258 cannot be lowered: a lone start byte, 258 bytes of noise, a message; the message is lost, the next one
is delivered. -/
theorem c86_tight :
    Gateway.receiveAll (recorder fun _ => none) ⟨[], []⟩
      [[0xFE], List.replicate 258 0xFF ++ wire (Frame.of .AREQ .ZDO 0xC9 [0x01, 0x02]) ++
        wire (Frame.of .AREQ .ZDO 0xCA [0x03, 0x04])] =
      (⟨[], [received (Frame.of .AREQ .ZDO 0xCA [0x03, 0x04])]⟩, []) ∧
    Noise (List.replicate 258 0xFF) ∧ Plain (Frame.of .AREQ .ZDO 0xC9 [0x01, 0x02]) ∧
      Plain (Frame.of .AREQ .ZDO 0xCA [0x03, 0x04]) := by
  decide +kernel

/-- The end of a message, then two messages: the first is lost, the second delivered. -/
example : ∃ lost kept s', [(([] : List UInt8), Frame.of .AREQ .ZDO 0xC9 [0x01, 0x02]),
      ([0x00], Frame.of .AREQ .ZDO 0xCA [0x03, 0x04])] = lost ++ kept ∧
    (s' = ([] : List Frame) ∨ ∃ f, s' = (recorder (fun _ => none) [] f).1) ∧
    [received (Frame.of .AREQ .ZDO 0xCA [0x03, 0x04])] =
      kept.foldl (fun s p => (recorder (fun _ => none) s (received p.2)).1) s' ∧
    (kept ≠ [] → ([] : List UInt8) = []) ∧
    ∀ l x l', lost = l ++ x :: l' → (stream l []).length + x.1.length ≤ 258 :=
  c86_resync_partial (recorder fun _ => none) [] [[0x12, 0x34], [0xFE, 0x05, 0x01]]
    [[0xFE, 0x02, 0x45], [0xC9, 0x01, 0x02, 0x8D, 0x00, 0xFE, 0x02, 0x45, 0xCA, 0x03, 0x04, 0x8A, 0x55]]
    [([], Frame.of .AREQ .ZDO 0xC9 [0x01, 0x02]), ([0x00], Frame.of .AREQ .ZDO 0xCA [0x03, 0x04])] [0x55]
    ⟨[0xFE, 0x05, 0x01], []⟩ ⟨[], [received (Frame.of .AREQ .ZDO 0xCA [0x03, 0x04])]⟩ (by decide +kernel)
    (by decide +kernel) (by decide +kernel) (by decide +kernel) (by decide +kernel)

/-! ## Messages with the start byte in them -/

/-- A message with the start byte among its data. -/
def twisted : Frame := Frame.of .AREQ .ZDO 0xC0 [0xFE, 0x03, 0x45]

/-- What is read if one begins to listen in the middle of it. -/
def phantom : Frame := Frame.of .AREQ .ZDO 0x3E [0xFE, 0x03, 0x45]

theorem twisted_step (l : List Frame) :
    Gateway.dataReceived (recorder fun _ => none) ⟨(wire twisted).drop 4, l⟩ (wire twisted) =
      (⟨(wire twisted).drop 4, l ++ [received phantom]⟩, none) := rfl

theorem twisted_run (n : Nat) : ∀ l : List Frame,
    Gateway.receiveAll (recorder fun _ => none) ⟨(wire twisted).drop 4, l⟩ (List.replicate n (wire twisted)) =
      (⟨(wire twisted).drop 4, l ++ List.replicate n (received phantom)⟩, []) := by
  induction n with
  | zero => intro l; simp [Gateway.receiveAll]
  | succ n ih =>
    intro l
    rw [List.replicate_succ]
    show (match Gateway.dataReceived (recorder fun _ => none) ⟨(wire twisted).drop 4, l⟩ (wire twisted) with
      | (g', e) =>
        let r := Gateway.receiveAll (recorder fun _ => none) g' (List.replicate n (wire twisted))
        (r.1, e.toList ++ r.2)) = _
    rw [twisted_step]
    dsimp only
    rw [ih, List.append_assoc]
    rfl

/-- Listening that begins in the middle of a message never gets into step: however often the message is then
sent, nothing but messages that were never sent are delivered. -/
theorem c86_never (n : Nat) :
    Gateway.receiveAll (recorder fun _ => none) ⟨[], []⟩
      ((wire twisted).drop 4 :: List.replicate n (wire twisted)) =
      (⟨(wire twisted).drop 4, List.replicate n (received phantom)⟩, []) := by
  have h := twisted_run n []
  rw [List.nil_append] at h
  show (match Gateway.dataReceived (recorder fun _ => none) ⟨[], []⟩ ((wire twisted).drop 4) with
    | (g', e) =>
      let r := Gateway.receiveAll (recorder fun _ => none) g' (List.replicate n (wire twisted))
      (r.1, e.toList ++ r.2)) = _
  rw [show Gateway.dataReceived (recorder fun _ => none) ⟨[], []⟩ ((wire twisted).drop 4) =
    (⟨(wire twisted).drop 4, []⟩, none) from rfl]
  dsimp only
  rw [h]
  rfl

/-- **C86 is false of messages with the start byte in them**: there is no number of bytes after which a message
is delivered for sure. -/
theorem c86_refuted : ¬ ∃ N, ∀ (garbage : List (List UInt8)) (fs : List Frame) (l l' : List Frame) (f : Frame),
    (∀ f ∈ fs, Fits f ∧ f.data ≠ []) → fs = l ++ f :: l' → N ≤ (l.map wire).flatten.length →
    (Gateway.receiveAll (recorder fun _ => none) ⟨[], []⟩ (garbage ++ fs.map wire)).2 = [] →
    received f ∈ (Gateway.receiveAll (recorder fun _ => none) ⟨[], []⟩ (garbage ++ fs.map wire)).1.api := by
  rintro ⟨N, h⟩
  have e := c86_never (N + 1)
  have := h [(wire twisted).drop 4] (List.replicate (N + 1) twisted) (List.replicate N twisted) [] twisted
    (fun f hf => by rw [List.eq_of_mem_replicate hf]; decide +kernel)
    (by rw [List.replicate_succ']) (by
      rw [List.map_replicate, List.length_flatten, List.map_replicate, List.sum_replicate_nat,
        show (wire twisted).length = 8 from rfl]
      omega)
  rw [List.map_replicate] at this
  have := this (congrArg (·.2) e)
  rw [show [(wire twisted).drop 4] ++ List.replicate (N + 1) (wire twisted) =
    (wire twisted).drop 4 :: List.replicate (N + 1) (wire twisted) from rfl, e] at this
  have := List.eq_of_mem_replicate this
  exact absurd this (by decide +kernel)

/-! ## Calls that raise -/

/-- A plain message whose end looks like the end of a message of an undefined type. -/
def barbed : Frame := Frame.of .AREQ .ZDO 0xC0 [0x81, 0x00, 0x80, 0x00]

theorem barbed_run (n : Nat) (g : Gateway (List Frame)) (hg : g.buffer = [0xFE]) :
    Gateway.receiveAll (recorder fun _ => none) g
      (List.replicate n ((wire barbed).drop 5 ++ (wire barbed).take 5)) =
      (g, List.replicate n .valueError) := by
  obtain ⟨B, l⟩ := g
  dsimp only at hg
  subst hg
  induction n with
  | zero => rfl
  | succ n ih =>
    rw [List.replicate_succ]
    show (match Gateway.dataReceived (recorder fun _ => none) ⟨[0xFE], l⟩
        ((wire barbed).drop 5 ++ (wire barbed).take 5) with
      | (g', e) =>
        let r := Gateway.receiveAll (recorder fun _ => none) g'
          (List.replicate n ((wire barbed).drop 5 ++ (wire barbed).take 5))
        (r.1, e.toList ++ r.2)) = _
    rw [show Gateway.dataReceived (recorder fun _ => none) ⟨[0xFE], l⟩
        ((wire barbed).drop 5 ++ (wire barbed).take 5) = (⟨[0xFE], l⟩, some .valueError) from rfl]
    dsimp only
    rw [ih]
    rfl

/-- After one message of an undefined type, plain messages that come in chunks from the middle of one to the
middle of the next are all lost: every call raises, and the rest of its chunk is never looked at. -/
theorem c86_raised (n : Nat) :
    Gateway.receiveAll (recorder fun _ => none) ⟨[], []⟩
      (([0xFE, 0x00, 0x80, 0x00, 0x80] ++ (wire barbed).take 5) ::
        List.replicate n ((wire barbed).drop 5 ++ (wire barbed).take 5)) =
      (⟨[0xFE], []⟩, List.replicate (n + 1) .valueError) := by
  show (match Gateway.dataReceived (recorder fun _ => none) ⟨[], []⟩
      ([0xFE, 0x00, 0x80, 0x00, 0x80] ++ (wire barbed).take 5) with
    | (g', e) =>
      let r := Gateway.receiveAll (recorder fun _ => none) g'
        (List.replicate n ((wire barbed).drop 5 ++ (wire barbed).take 5))
      (r.1, e.toList ++ r.2)) = _
  rw [show Gateway.dataReceived (recorder fun _ => none) ⟨[], []⟩
      ([0xFE, 0x00, 0x80, 0x00, 0x80] ++ (wire barbed).take 5) = (⟨[0xFE], []⟩, some .valueError) from rfl]
  dsimp only
  rw [barbed_run n _ rfl]
  rfl

theorem barbed_flatten (n : Nat) :
    (wire barbed).take 5 ++ (List.replicate n ((wire barbed).drop 5 ++ (wire barbed).take 5)).flatten =
      (List.replicate n (wire barbed)).flatten ++ (wire barbed).take 5 := by
  induction n with
  | zero => rfl
  | succ n ih =>
    rw [List.replicate_succ, List.replicate_succ, List.flatten_cons, List.flatten_cons, List.append_assoc _ _ (List.take 5 _),
      ← ih, List.append_assoc, ← List.append_assoc, ← List.append_assoc, List.take_append_drop, List.append_assoc]

/-- **C86 is false if calls raise**, even for plain messages: there is no number of bytes after which a message
is delivered for sure. -/
theorem c86_raised_refuted : ¬ ∃ N, ∀ (garbage : List UInt8) (chunks : List (List UInt8)) (fs : List Frame)
    (rest : List UInt8) (l l' : List Frame) (f : Frame),
    (∀ f ∈ fs, Plain f) → chunks.flatten = garbage ++ (fs.map wire).flatten ++ rest →
    fs = l ++ f :: l' → N ≤ (l.map wire).flatten.length →
    received f ∈ (Gateway.receiveAll (recorder fun _ => none) ⟨[], []⟩ chunks).1.api := by
  rintro ⟨N, h⟩
  have := h [0xFE, 0x00, 0x80, 0x00, 0x80]
    (([0xFE, 0x00, 0x80, 0x00, 0x80] ++ (wire barbed).take 5) ::
        List.replicate (N + 1) ((wire barbed).drop 5 ++ (wire barbed).take 5))
    (List.replicate (N + 1) barbed) ((wire barbed).take 5) (List.replicate N barbed) [] barbed
    (fun f hf => by rw [List.eq_of_mem_replicate hf]; decide +kernel)
    (by rw [List.flatten_cons, List.append_assoc, barbed_flatten, List.map_replicate, List.append_assoc])
    (by rw [List.replicate_succ']) (by
      rw [List.map_replicate, List.length_flatten, List.map_replicate, List.sum_replicate_nat,
        show (wire barbed).length = 9 from rfl]
      omega)
  rw [c86_raised] at this
  cases this

end Zcc
