import Verif.Proofs.Uart

/-!
# Properties C01-C09: serial framing

The model is `Verif/Model/Uart.lean`; the wire format `wire`, the predicate `Fits` etc. are in
`Verif/Spec/Wire.lean`. `Gateway.receiveAll h g chunks` is the event loop handing the gateway
one chunk after the other, `h` is the API's frame handler.
-/

namespace Zcc
open Spec

/-- A stream of frames, each preceded by noise, and trailing noise. -/
def stream (items : List (List UInt8 × Frame)) (tail : List UInt8) : List UInt8 :=
  items.flatMap (fun p => p.1 ++ wire p.2) ++ tail

/-- Length of the noise after the first frame of the stream. -/
def gap : List (List UInt8 × Frame) → List UInt8 → Nat
  | [], tail => tail.length
  | p :: _, _ => p.1.length

/-- The streams from which every frame is received: noise contains no 0xFE, frames fit, and a
frame without data is followed by at least one byte and not by exactly one byte of noise. -/
def Receivable : List (List UInt8 × Frame) → List UInt8 → Prop
  | [], tail => Noise tail
  | p :: rest, tail =>
    Noise p.1 ∧ Fits p.2 ∧
    (p.2.data = [] → gap rest tail ≠ 1 ∧ (rest = [] → tail ≠ [])) ∧ Receivable rest tail

theorem wire_head (f : Frame) : ∃ t, wire f = SOF :: t := ⟨_, rfl⟩

theorem receive_stream {σ : Type} (h : Handler σ) (hh : ∀ s f, (h s f).2 = none)
    (tail : List UInt8) (items : List (List UInt8 × Frame)) :
    ∀ s : σ, Receivable items tail →
      Gateway.dataReceived h ⟨[], s⟩ (stream items tail) =
        (⟨[], items.foldl (fun s p => (h s (received p.2)).1) s⟩, none) := by
  induction items with
  | nil =>
    intro s hr
    have := dr_noise h s tail [] hr
    simpa [stream, Gateway.dataReceived] using this
  | cons p rest ih =>
    intro s hr
    obtain ⟨hn, hf, hz, hr'⟩ := hr
    have e : stream (p :: rest) tail = p.1 ++ (wire p.2 ++ stream rest tail) := by
      simp [stream]
    have hstep : ∀ s', h s (received p.2) = (s', none) →
        Gateway.dataReceived h ⟨[], s⟩ (wire p.2 ++ stream rest tail) =
        Gateway.dataReceived h ⟨[], s'⟩ (stream rest tail) := by
      intro s' hs'
      have hfb := fromBuffer_wire p.2 hf
      rw [wire_eq_packet] at hfb ⊢
      by_cases hd : p.2.data = []
      · obtain ⟨hg1, hg2⟩ := hz hd
        have hstream : ∃ n X, stream rest tail = n ++ X ∧ Noise n ∧
            ((n = [] ∧ ∃ X', X = SOF :: X') ∨ 2 ≤ n.length) := by
          match rest, hg1, hg2, hr' with
          | [], hg1, hg2, hr' =>
            refine ⟨tail, [], by simp [stream], hr', Or.inr ?_⟩
            have : 0 < tail.length := List.length_pos_iff.mpr (hg2 rfl)
            simp only [gap] at hg1
            omega
          | q :: rest', hg1, _, hr' =>
            refine ⟨q.1, wire q.2 ++ stream rest' tail, by simp [stream], hr'.1, ?_⟩
            simp only [gap] at hg1
            by_cases h0 : q.1 = []
            · left; refine ⟨h0, ?_⟩
              obtain ⟨t, ht⟩ := wire_head q.2
              exact ⟨t ++ stream rest' tail, by rw [ht]; rfl⟩
            · right
              have : 0 < q.1.length := List.length_pos_iff.mpr h0
              omega
        obtain ⟨n, X, hnx, hnn, hgap⟩ := hstream
        rw [hnx]
        rw [hd] at hfb ⊢
        rw [settle_gap h s _ _ _ n X hnn hgap (by intro e he; rw [List.length_nil] at hfb; rw [hfb] at he; simp at he) hh]
        rw [List.length_nil] at hfb
        rw [hfb]
        simp [settle, hs']
      · rw [dr_packet h s _ _ _ _ _ hd hf.1, hfb]
        simp [settle, hs']
    rw [e, dr_noise h s _ _ hn, hstep (h s (received p.2)).1 (Prod.ext rfl (hh _ _)), ih _ hr']
    rfl

/-- **C01.** Any list of frames with data, serialised by the encoder, with arbitrary noise before
each and after the last, cut into arbitrary chunks, is delivered exactly, in order, whatever the
(non-raising) handler does with the frames; nothing is left in the buffer and nothing raises. -/
theorem c01_stream_delivery {σ : Type} (h : Handler σ) (hh : ∀ s f, (h s f).2 = none) (s : σ)
    (items : List (List UInt8 × Frame)) (encoded : List (List UInt8)) (tail : List UInt8)
    (hnoise : ∀ p ∈ items, Noise p.1) (htail : Noise tail)
    (hdata : ∀ p ∈ items, p.2.data ≠ [])
    (henc : items.mapM (fun p => p.2.toBuffer) = .ok encoded)
    (chunks : List (List UInt8))
    (hcut : chunks.flatten
      = (items.zip encoded).flatMap (fun q => q.1.1 ++ q.2) ++ tail) :
    Gateway.receiveAll h ⟨[], s⟩ chunks =
      (⟨[], items.foldl (fun s p => (h s (received p.2)).1) s⟩, []) := by
  have key : ∀ (items : List (List UInt8 × Frame)) (encoded : List (List UInt8)),
      (∀ p ∈ items, Noise p.1) → (∀ p ∈ items, p.2.data ≠ []) →
      items.mapM (fun p => p.2.toBuffer) = .ok encoded →
      Receivable items tail ∧
      (items.zip encoded).flatMap (fun q => q.1.1 ++ q.2) ++ tail = stream items tail := by
    intro items
    induction items with
    | nil => intro encoded _ _ _; exact ⟨htail, by simp [stream]⟩
    | cons p rest ih =>
      intro encoded hn hd he
      rw [List.mapM_cons, toBuffer_eq] at he
      split at he
      case isFalse => simp [bind, Except.bind] at he
      case isTrue hfit =>
        simp only [bind, Except.bind] at he
        split at he
        · simp at he
        · rename_i enc' henc'
          simp [pure, Except.pure] at he
          obtain ⟨h1, h2⟩ := ih enc' (fun q hq => hn q (by simp [hq]))
            (fun q hq => hd q (by simp [hq])) henc'
          refine ⟨⟨hn p (by simp), hfit, fun h0 => absurd h0 (hd p (by simp)), h1⟩, ?_⟩
          subst he
          simp only [List.zip_cons_cons, List.flatMap_cons]
          rw [List.append_assoc, List.append_assoc, h2]
          simp [stream]
  obtain ⟨h1, h2⟩ := key items encoded hnoise hdata henc
  refine ra_eq_dr h chunks _ _ ?_
  rw [hcut, h2]
  exact receive_stream h hh tail items s h1

/-- C01 specialised to an API that records the frames: the recorded list is the sent list. -/
theorem c01_frames_recorded (items : List (List UInt8 × Frame)) (encoded : List (List UInt8))
    (tail : List UInt8) (hnoise : ∀ p ∈ items, Noise p.1) (htail : Noise tail)
    (hdata : ∀ p ∈ items, p.2.data ≠ [])
    (henc : items.mapM (fun p => p.2.toBuffer) = .ok encoded) (chunks : List (List UInt8))
    (hcut : chunks.flatten = (items.zip encoded).flatMap (fun q => q.1.1 ++ q.2) ++ tail) :
    Gateway.receiveAll (recorder fun _ => none) ⟨[], []⟩ chunks =
      (⟨[], items.map (fun p => received p.2)⟩, []) := by
  rw [c01_stream_delivery _ (fun _ _ => rfl) [] items encoded tail hnoise htail hdata henc
    chunks hcut]
  have : ∀ (items : List (List UInt8 × Frame)) (l : List Frame),
      items.foldl (fun s p => ((recorder fun _ => none) s (received p.2)).1) l
        = l ++ items.map (fun p => received p.2) := by
    intro items
    induction items with
    | nil => simp
    | cons p rest ih => intro l; simp only [List.foldl_cons, recorder] at ih ⊢; rw [ih]; simp
  rw [this]; simp

/-- C01 extended to frames without data: all frames of a `Receivable` stream are delivered. -/
theorem c01_stream_delivery_all {σ : Type} (h : Handler σ) (hh : ∀ s f, (h s f).2 = none) (s : σ)
    (items : List (List UInt8 × Frame)) (tail : List UInt8) (hr : Receivable items tail)
    (chunks : List (List UInt8)) (hcut : chunks.flatten = stream items tail) :
    Gateway.receiveAll h ⟨[], s⟩ chunks =
      (⟨[], items.foldl (fun s p => (h s (received p.2)).1) s⟩, []) := by
  refine ra_eq_dr h chunks _ _ ?_
  rw [hcut]
  exact receive_stream h hh tail items s hr

/-- A non-trivial case of C01: two frames, noise, three chunks cutting through both. -/
example :
    let f1 : Frame := { commandType := .SRSP, subsystem := .SYS, commandId := 2, data := [2, 0, 2, 6, 3] }
    let f2 : Frame := { commandType := .AREQ, subsystem := .ZDO, commandId := 0xC1, data := [0xFE, 0xFE] }
    (Gateway.receiveAll (recorder fun _ => none) ⟨[], []⟩
      [[0, 1, 0xFE, 5, 0x61, 2, 2], [0, 2, 6, 3, 0x63, 0xEF, 0xFE, 2, 0x45, 0xC1, 0xFE], [0xFE, 0x86, 7]])
      = (⟨[], [received f1, received f2]⟩, []) := by
  decide +kernel

/-- **C02 (partial).** If the bytes cut in one way cause no exception, then cut in any other way
they cause none either and lead to the same gateway and API state. Missing: streams on which the
parser or the handler raises, see `c02_chunking_refuted`. -/
theorem c02_chunking_partial {σ : Type} (h : Handler σ) (g g' : Gateway σ)
    (chunks chunks' : List (List UInt8)) (hsame : chunks.flatten = chunks'.flatten)
    (hrun : Gateway.receiveAll h g chunks = (g', [])) :
    Gateway.receiveAll h g chunks' = (g', []) := by
  refine ra_eq_dr h chunks' g g' ?_
  rw [← hsame]
  exact dr_eq_ra h chunks g g' hrun

example : Gateway.receiveAll (recorder fun _ => none) ⟨[], []⟩ [[0xFE, 1, 0x41], [0x80, 7, 0xC7]]
    = (⟨[], [received { commandType := .AREQ, subsystem := .SYS, commandId := 0x80, data := [7] }]⟩, []) := by
  decide +kernel

/-- C02 fails in general: a checksummed frame with an undefined subsystem raises and takes the
rest of its chunk with it, so the same bytes in one or in two chunks deliver different frames
(even though the API itself never raises). -/
theorem c02_chunking_refuted :
    ¬ ∀ (chunks chunks' : List (List UInt8)), chunks.flatten = chunks'.flatten →
      (Gateway.receiveAll (recorder fun _ => none) ⟨[], []⟩ chunks).1.api =
      (Gateway.receiveAll (recorder fun _ => none) ⟨[], []⟩ chunks').1.api := by
  intro hc
  have := hc [[0xFE, 1, 0x5F, 0, 0, 0x5E, 0xFE, 1, 0x41, 0x80, 7, 0xC7]]
    [[0xFE, 1, 0x5F, 0, 0, 0x5E], [0xFE, 1, 0x41, 0x80, 7, 0xC7]] (by decide)
  revert this
  decide +kernel

/-- C02, how far the damage goes: a call that raises behaved normally up to one byte, raised on
this byte, and ignored only the bytes after it. -/
theorem c02_damage_confined {σ : Type} (h : Handler σ) (c : List UInt8) :
    ∀ (g g' : Gateway σ) (e : PyErr), Gateway.dataReceived h g c = (g', some e) →
    ∃ a b ignored g1, c = a ++ b :: ignored ∧ Gateway.dataReceived h g a = (g1, none) ∧
      ∀ rest, Gateway.dataReceived h g1 (b :: rest) = (g', some e) := by
  induction c with
  | nil => intro g g' e hr; simp [Gateway.dataReceived] at hr
  | cons x c ih =>
    intro g g' e hr
    match hw : Gateway.dataReceived h g [x] with
    | (g1, none) =>
      have h1 : Gateway.dataReceived h g ([x] ++ c) = Gateway.dataReceived h g1 c := by
        rw [dr_append, hw]
      rw [List.singleton_append] at h1
      rw [h1] at hr
      obtain ⟨a, b, ign, g2, hc, ha, hb⟩ := ih g1 g' e hr
      refine ⟨x :: a, b, ign, g2, by rw [hc]; rfl, ?_, hb⟩
      have h2 : Gateway.dataReceived h g ([x] ++ a) = Gateway.dataReceived h g1 a := by
        rw [dr_append, hw]
      rw [List.singleton_append] at h2
      rw [h2, ha]
    | (g1, some e') =>
      have h1 : ∀ rest, Gateway.dataReceived h g ([x] ++ rest) = (g1, some e') := by
        intro rest; rw [dr_append, hw]
      simp only [List.singleton_append] at h1
      have := h1 c
      rw [hr] at this
      simp at this
      refine ⟨[], x, c, g, rfl, rfl, fun rest => ?_⟩
      rw [h1 rest, this.1, this.2]

/-- **C03 (partial).** Whatever bytes arrive, in whatever chunks, and whenever the API raises:
the delivered frames are exactly explained by wire images found in order, contiguous and without
overlap in the processed bytes (a prefix of each chunk; the whole chunk if nothing raised), and
the bytes not yet used are those in the buffer. Missing: contiguity in the *received* bytes when
exceptions make the gateway skip bytes, see `c03_contiguous_refuted`. -/
theorem c03_sound_partial (r : Frame → Option PyErr) (chunks : List (List UInt8)) :
    ∃ processed : List (List UInt8),
      PrefixEach processed chunks ∧
      ((Gateway.receiveAll (recorder r) ⟨[], []⟩ chunks).2 = [] → processed = chunks) ∧
      ∃ p, processed.flatten = p ++ (Gateway.receiveAll (recorder r) ⟨[], []⟩ chunks).1.buffer ∧
        Explains p (Gateway.receiveAll (recorder r) ⟨[], []⟩ chunks).1.api := by
  have key : ∀ (chunks : List (List UInt8)) (input : List UInt8) (g : Gateway (List Frame)),
      Accounted input g →
      ∃ processed : List (List UInt8), PrefixEach processed chunks ∧
        ((Gateway.receiveAll (recorder r) g chunks).2 = [] → processed = chunks) ∧
        Accounted (input ++ processed.flatten) (Gateway.receiveAll (recorder r) g chunks).1 := by
    intro chunks
    induction chunks with
    | nil => intro input g hg; exact ⟨[], trivial, fun _ => rfl, by simpa [Gateway.receiveAll] using hg⟩
    | cons c cs ih =>
      intro input g hg
      obtain ⟨a, ha1, ha2, ha3⟩ := dr_sound r c input g hg
      obtain ⟨ps, hp1, hp2, hp3⟩ := ih _ _ ha3
      refine ⟨a :: ps, ⟨ha1, hp1⟩, ?_, ?_⟩
      · intro he
        simp only [Gateway.receiveAll, List.append_eq_nil_iff] at he
        rw [hp2 he.2, ha2 (by simpa using he.1)]
      · simpa [Gateway.receiveAll] using hp3
  obtain ⟨ps, h1, h2, _, p, h3, h4⟩ := key chunks [] ⟨[], []⟩ ⟨Or.inl rfl, [], rfl, .done []⟩
  exact ⟨ps, h1, h2, p, by simpa using h3, h4⟩

/-- C03 in the form used by a reader: if nothing raised, all received bytes are accounted for. -/
theorem c03_sound_no_exception (r : Frame → Option PyErr) (chunks : List (List UInt8))
    (hok : (Gateway.receiveAll (recorder r) ⟨[], []⟩ chunks).2 = []) :
    ∃ p, chunks.flatten = p ++ (Gateway.receiveAll (recorder r) ⟨[], []⟩ chunks).1.buffer ∧
      Explains p (Gateway.receiveAll (recorder r) ⟨[], []⟩ chunks).1.api := by
  obtain ⟨ps, _, h2, h3⟩ := c03_sound_partial r chunks
  rw [h2 hok] at h3
  exact h3

example : (Gateway.receiveAll (recorder fun _ => none) ⟨[], []⟩
    [[0x12, 0xFE, 1, 0x41, 0x80, 7], [0xC7, 0x33, 0xFE, 9]]).2 = [] := by decide +kernel

/-- C03 fails without the restriction: after an exception on a zero-data frame the buffer keeps
the following 0xFE while the rest of the chunk is skipped, so a frame is delivered whose bytes
were never contiguous on the wire. -/
theorem c03_contiguous_refuted :
    ¬ ∀ (r : Frame → Option PyErr) (chunks : List (List UInt8)) (f : Frame), Fits f →
      received f ∈ (Gateway.receiveAll (recorder r) ⟨[], []⟩ chunks).1.api →
      ∃ a b, chunks.flatten = a ++ (wire f ++ b) := by
  intro hc
  have h := hc (fun f => if f.data = [] then some .exception else none)
    [[0xFE, 0, 0x41, 0x80, 0xC1, 0xFE, 0x33], [1, 0x41, 0x80, 7, 0xC7]]
    { commandType := .AREQ, subsystem := .SYS, commandId := 0x80, data := [7] }
    (by decide) (by decide +kernel)
  obtain ⟨a, b, hab⟩ := h
  have hl := congrArg List.length hab
  simp [wire, body] at hl
  have : a.length ≤ 6 := by omega
  have e : ∀ k ≤ 6, (List.flatten [[0xFE, 0, 0x41, 0x80, 0xC1, 0xFE, 0x33],
      [1, 0x41, 0x80, 7, 0xC7]] : List UInt8).extract k (k + 2) ≠ [0xFE, 1] := by decide
  refine e a.length this ?_
  rw [hab]
  simp [wire, body, List.extract]

/-- **C04 (partial).** Replacing one byte of a serialised frame after the length byte (position `i ≥ 2`)
by a different value: the gateway delivers nothing and raises nothing for it, and treats the rest of
the stream exactly as if the corrupted frame had not been sent. Missing: a corrupted frame without data
after which noise follows, see `c04_empty` and `c04_refuted`. -/
theorem c04_corruption_rejected_partial {σ : Type} (h : Handler σ) (s : σ) (f : Frame) (hf : Fits f)
    (i : Nat) (v : UInt8) (hi : 2 ≤ i) (hlt : i < (wire f).length) (hv : (wire f)[i]? ≠ some v)
    (rest : List UInt8) (hrest : f.data = [] → ∃ t, rest = 0xFE :: t) :
    Gateway.dataReceived h ⟨[], s⟩ ((wire f).set i v ++ rest) =
      Gateway.dataReceived h ⟨[], s⟩ rest := by
  obtain ⟨hdr, cid, data, fcs, hp, hdl, hx⟩ := corrupted_packet f i v hi hlt hv
  have hfb : Frame.fromBuffer data.length (4 + data.length) (packet hdr cid data fcs) = .ok none := by
    rw [fromBuffer_packet, if_neg hx]
  rw [hp]
  by_cases hd : data = []
  · subst hd
    obtain ⟨t, rfl⟩ := hrest (List.length_eq_zero_iff.mp (by simpa using hdl.symm))
    rw [dr_packet_empty_cons]
    rw [List.length_nil] at hfb
    rw [hfb]
    exact (dr_sof h s t).symm
  · rw [dr_packet h s _ _ _ _ _ hd (by rw [hdl]; exact hf.1), hfb]
    rfl

example :
    let f : Frame := { commandType := .AREQ, subsystem := .SYS, commandId := 0x80, data := [7] }
    Fits f ∧ 2 ≤ 4 ∧ 4 < (wire f).length ∧ (wire f)[4]? ≠ some 9 := by decide

/-- C04, a corrupted frame without data: nothing is delivered for it either, but the byte after it is
kept even if it is not a start byte. -/
theorem c04_empty {σ : Type} (h : Handler σ) (s : σ) (f : Frame) (hd : f.data = [])
    (i : Nat) (v : UInt8) (hi : 2 ≤ i) (hlt : i < (wire f).length) (hv : (wire f)[i]? ≠ some v) :
    Gateway.dataReceived h ⟨[], s⟩ ((wire f).set i v) = (⟨(wire f).set i v, s⟩, none) ∧
    ∀ b rest, Gateway.dataReceived h ⟨[], s⟩ ((wire f).set i v ++ b :: rest) =
      Gateway.dataReceived h ⟨[b], s⟩ rest := by
  obtain ⟨hdr, cid, data, fcs, hp, hdl, hx⟩ := corrupted_packet f i v hi hlt hv
  rw [hd, List.length_nil, List.length_eq_zero_iff] at hdl
  subst hdl
  have hfb : Frame.fromBuffer 0 4 (packet hdr cid [] fcs) = .ok none := by
    have := fromBuffer_packet hdr cid [] fcs
    rw [if_neg hx] at this
    exact this
  rw [hp]
  refine ⟨dr_packet_empty h s hdr cid fcs, fun b rest => ?_⟩
  rw [dr_packet_empty_cons, hfb]
  rfl

/-- C04 in a stream: of frames with data and noise, cut in any way, one frame is corrupted; exactly the
others are delivered. -/
theorem c04_stream {σ : Type} (h : Handler σ) (hh : ∀ s f, (h s f).2 = none) (s : σ)
    (before after : List (List UInt8 × Frame)) (n : List UInt8) (f : Frame) (tail : List UInt8)
    (hit : ∀ p ∈ before ++ (n, f) :: after, Noise p.1 ∧ Fits p.2 ∧ p.2.data ≠ []) (htail : Noise tail)
    (i : Nat) (v : UInt8) (hi : 2 ≤ i) (hlt : i < (wire f).length) (hv : (wire f)[i]? ≠ some v)
    (chunks : List (List UInt8))
    (hcut : chunks.flatten = stream before [] ++ (n ++ (wire f).set i v) ++ stream after tail) :
    Gateway.receiveAll h ⟨[], s⟩ chunks =
      (⟨[], (before ++ after).foldl (fun s p => (h s (received p.2)).1) s⟩, []) := by
  have hrec : ∀ (l : List (List UInt8 × Frame)) (t : List UInt8), Noise t →
      (∀ p ∈ l, Noise p.1 ∧ Fits p.2 ∧ p.2.data ≠ []) → Receivable l t := by
    intro l t ht
    induction l with
    | nil => intro _; exact ht
    | cons p l ih =>
      intro hl
      obtain ⟨h1, h2, h3⟩ := hl p (.head _)
      exact ⟨h1, h2, fun h => absurd h h3, ih fun q hq => hl q (.tail _ hq)⟩
  obtain ⟨hn, hf, hd⟩ := hit (n, f) (by simp)
  refine ra_eq_dr h chunks _ _ ?_
  rw [hcut, List.append_assoc, List.append_assoc, dr_append,
    receive_stream h hh [] before s (hrec before [] (fun b hb => by cases hb) fun p hp => hit p (by simp [hp]))]
  show Gateway.dataReceived h ⟨[], _⟩ (n ++ ((wire f).set i v ++ stream after tail)) = _
  rw [dr_noise h _ n _ hn, c04_corruption_rejected_partial h _ f hf i v hi hlt hv _ (fun h => absurd h hd),
    receive_stream h hh tail after _ (hrec after tail htail fun p hp => hit p (by simp [hp])), List.foldl_append]

/-- A corrupted frame between two others, in two chunks. -/
example :
    let f : Frame := { commandType := .AREQ, subsystem := .SYS, commandId := 0x80, data := [7] }
    let g : Frame := { commandType := .AREQ, subsystem := .ZDO, commandId := 0xC1, data := [1, 2] }
    let bytes := stream [([], f)] [] ++ ([5] ++ (wire g).set 5 0) ++ stream [([9], g)] [3]
    Gateway.receiveAll (recorder fun _ => none) ⟨[], []⟩ [bytes.take 10, bytes.drop 10] =
      (⟨[], [received f, received g]⟩, []) := by decide +kernel

/-- C04 fails for a frame without data: with one byte of noise after it, the next frame is lost. -/
theorem c04_refuted :
    ¬ ∀ (f g : Frame) (i : Nat) (v : UInt8) (noise : List UInt8), Fits f → Fits g → g.data ≠ [] → Noise noise →
      2 ≤ i → i < (wire f).length → (wire f)[i]? ≠ some v →
      received g ∈ (Gateway.dataReceived (recorder fun _ => none) ⟨[], []⟩
        ((wire f).set i v ++ noise ++ wire g)).1.api := by
  intro hc
  have := hc { commandType := .AREQ, subsystem := .ZDO, commandId := 0x82, data := [] }
    { commandType := .AREQ, subsystem := .SYS, commandId := 0x80, data := [7] } 3 0x83 [0x55]
    (by decide) (by decide) (by decide) (by unfold Noise; decide) (by decide) (by decide) (by decide)
  revert this
  decide +kernel

/-- **C05.** Whatever arrives, in whatever chunks and whatever the API does, the gateway never
holds back more than 259 bytes. -/
theorem c05_buffer_bounded {σ : Type} (h : Handler σ) (s : σ) (chunks : List (List UInt8)) :
    (Gateway.receiveAll h ⟨[], s⟩ chunks).1.buffer.length ≤ 259 :=
  bufInv_bound _ (ra_bufInv h chunks _ (Or.inl rfl))

/-- The bound of C05 is reached. -/
example : (Gateway.receiveAll (recorder fun _ => none) ⟨[], []⟩
    [0xFE :: 0xFF :: List.replicate 257 0]).1.buffer.length = 259 := by decide +kernel

/-- **C06 (partial).** A frame with data is delivered with its last byte: before that nothing is
delivered, and after it the handler has been called exactly once (whatever it does). Missing:
frames without data, see `c06_prompt_refuted`, `c06_empty_frame_waits`. -/
theorem c06_prompt_partial {σ : Type} (h : Handler σ) (s : σ) (f : Frame) (hf : Fits f)
    (hd : f.data ≠ []) :
    (∀ a b, wire f = a ++ b → b ≠ [] →
      Gateway.dataReceived h ⟨[], s⟩ a = (⟨a, s⟩, none)) ∧
    Gateway.dataReceived h ⟨[], s⟩ (wire f) = (⟨[], (h s (received f)).1⟩, (h s (received f)).2) := by
  constructor
  · intro a b hab hb
    by_cases ha : a = []
    · subst ha; rfl
    · have hd' : 0 < f.data.length := List.length_pos_iff.mpr hd
      have hb' : 0 < b.length := List.length_pos_iff.mpr hb
      have hn : (UInt8.ofNat f.data.length).toNat = f.data.length := by simpa using hf.1
      have hl := congrArg List.length hab
      simp [wire, body] at hl
      have hia : Incomplete a := by
        match a, ha, hab with
        | [x], _, hab => exact ⟨by simp [wire] at hab; simp [SOF, hab.1.symm], Or.inl (by simp)⟩
        | x :: y :: t, _, hab =>
          simp [wire, body] at hab
          refine ⟨by simp [SOF, hab.1.symm], Or.inr ?_⟩
          simp only [List.getD_cons_succ, List.getD_cons_zero, ← hab.2.1, hn]
          simp only [List.length_cons] at hl ⊢
          omega
      rw [dr_incomplete h s a [] (by simpa using hia)]
      rfl
  · have := dr_packet h s (header f.commandType f.subsystem) (UInt8.ofNat f.commandId) f.data
      (xorAll (body f)) [] hd hf.1
    rw [← wire_eq_packet, List.append_nil, fromBuffer_wire f hf] at this
    rw [this]
    simp only [settle]
    match h s (received f) with
    | (s', some e) => rfl
    | (s', none) => rfl

example : Fits { commandType := .SREQ, subsystem := .SYS, commandId := 2, data := [1, 2] } := by decide

/-- C06, what happens to a frame without data: it is held back completely, and delivered when
(and only when) one more byte, whatever it is, arrives. -/
theorem c06_empty_frame_waits {σ : Type} (h : Handler σ) (s : σ) (f : Frame) (hf : Fits f)
    (hd : f.data = []) :
    Gateway.dataReceived h ⟨[], s⟩ (wire f) = (⟨wire f, s⟩, none) ∧
    ∀ b, Gateway.dataReceived h ⟨[], s⟩ (wire f ++ [b]) =
      (⟨[b], (h s (received f)).1⟩, (h s (received f)).2) := by
  have hfb := fromBuffer_wire f hf
  have hw := wire_eq_packet f
  rw [hd] at hw hfb
  constructor
  · rw [hw]; exact dr_packet_empty h s _ _ _
  · intro b
    rw [hw, dr_packet_empty_cons, ← hw]
    rw [List.length_nil] at hfb
    rw [hfb]
    simp only [settle]
    match h s (received f) with
    | (s', some e) => rfl
    | (s', none) => rfl

/-- C06 fails for every frame without data (for instance the SREQ `getDeviceInfo`, or a
response without parameters): its last byte does not deliver it. -/
theorem c06_prompt_refuted :
    ¬ ∀ f : Frame, Fits f →
      (Gateway.dataReceived (recorder fun _ => none) ⟨[], []⟩ (wire f)).1.api = [received f] := by
  intro hc
  have := hc { commandType := .AREQ, subsystem := .ZDO, commandId := 0x82, data := [] } (by decide)
  rw [(c06_empty_frame_waits _ _ _ (by decide) rfl).1] at this
  simp at this

/-- **C07.** Sending writes exactly the wire image of the frame if data length and command id fit
their bytes, and otherwise raises `ValueError` without writing anything. -/
theorem c07_wire_format (f : Frame) :
    (Fits f → Gateway.send f = .ok (wire f)) ∧
    (¬ Fits f → Gateway.send f = .error .valueError) := by
  constructor
  · intro hf; rw [Gateway.send, toBuffer_eq, if_pos hf]
  · intro hf; rw [Gateway.send, toBuffer_eq, if_neg hf]

/-- C07: distinct frames have distinct wire images (so nothing is lost in serialisation). -/
theorem c07_wire_injective (f g : Frame) (hf : Fits f) (hg : Fits g) (h : wire f = wire g) :
    f.commandType = g.commandType ∧ f.subsystem = g.subsystem ∧ f.commandId = g.commandId ∧
      f.data = g.data := by
  have h1 := fromBuffer_wire f hf
  have h2 := fromBuffer_wire g hg
  have hl : f.data.length = g.data.length := by
    have := congrArg List.length h; simp [wire, body] at this; omega
  rw [h, hl, h2] at h1
  simp [received] at h1
  exact ⟨h1.1.symm, h1.2.1.symm, h1.2.2.1.symm, h1.2.2.2.1.symm⟩

/-- C07: the protocol's limit of 250 data bytes (`MaxDataSize`) is not enforced by the code; the
limit is 255. -/
theorem c07_max_data_size_not_enforced :
    ∃ f : Frame, MaxDataSize < f.data.length ∧ ∃ bytes, Gateway.send f = .ok bytes :=
  ⟨{ commandType := .SREQ, subsystem := .SYS, commandId := 8, data := List.replicate 251 0 },
    by decide +kernel, _, (c07_wire_format _).1 (by decide +kernel)⟩

example : Gateway.send { commandType := .SREQ, subsystem := .SYS, commandId := 2, data := [0x41, 0xFF] }
    = .ok [0xFE, 2, 0x21, 2, 0x41, 0xFF, 0x9F] := by decide +kernel

/-- **C08 (partial).** Noise between two frames costs neither frame if the first has data or the
noise is not exactly one byte long. Missing: exactly one byte of noise after a frame without
data, see `c08_noise_refuted`. -/
theorem c08_noise_partial {σ : Type} (h : Handler σ) (hh : ∀ s f, (h s f).2 = none) (s : σ)
    (f1 f2 : Frame) (h1 : Fits f1) (h2 : Fits f2) (hd2 : f2.data ≠ []) (noise : List UInt8)
    (hn : Noise noise) (hcond : f1.data ≠ [] ∨ noise.length ≠ 1) :
    Gateway.dataReceived h ⟨[], s⟩ (wire f1 ++ noise ++ wire f2) =
      (⟨[], (h (h s (received f1)).1 (received f2)).1⟩, none) := by
  have := receive_stream h hh [] [([], f1), (noise, f2)] s
    ⟨by simp [Noise], h1, fun h0 => ⟨hcond.resolve_left (fun hne => hne h0), by simp⟩,
      hn, h2, fun h0 => absurd h0 hd2, by simp [Receivable, Noise]⟩
  simpa [stream] using this

example :
    let f1 : Frame := { commandType := .AREQ, subsystem := .ZDO, commandId := 0x82, data := [] }
    let f2 : Frame := { commandType := .AREQ, subsystem := .SYS, commandId := 0x80, data := [7] }
    Fits f1 ∧ Fits f2 ∧ f2.data ≠ [] ∧ Noise [1, 2, 3] ∧ (f1.data ≠ [] ∨ [1, 2, 3].length ≠ 1) := by
  refine ⟨by decide, by decide, by decide, ?_, by decide⟩
  unfold Noise; decide

/-- C08 fails: one noise byte after a frame without data makes the parser drop the start byte of
the next frame, and the next frame is lost. -/
theorem c08_noise_refuted :
    ¬ ∀ (f1 f2 : Frame) (noise : List UInt8), Fits f1 → Fits f2 → Noise noise →
      received f2 ∈ (Gateway.dataReceived (recorder fun _ => none) ⟨[], []⟩
        (wire f1 ++ noise ++ wire f2 ++ [0])).1.api := by
  intro hc
  have := hc { commandType := .AREQ, subsystem := .ZDO, commandId := 0x82, data := [] }
    { commandType := .AREQ, subsystem := .SYS, commandId := 0x80, data := [7] } [0x55]
    (by decide) (by decide) (by unfold Noise; decide)
  revert this
  decide +kernel

/-- `from_buffer` raises for a correctly checksummed frame with an undefined code. -/
theorem fromBuffer_undefined (hdr cid : UInt8) (data : List UInt8)
    (hbad : (∀ t : CommandType, hdr.toNat / 32 ≠ t.toNat) ∨ (∀ u : Subsystem, hdr.toNat % 32 ≠ u.toNat)) :
    Frame.fromBuffer data.length (4 + data.length)
      (packet hdr cid data (xorAll (UInt8.ofNat data.length :: hdr :: cid :: data))) =
      .error .valueError := by
  rw [fromBuffer_packet, if_pos rfl]
  have h1 : hdr.toNat &&& 0x1F = hdr.toNat % 32 := Nat.and_two_pow_sub_one_eq_mod _ 5
  have h2 : (hdr.toNat &&& 0xE0) >>> 5 = hdr.toNat / 32 := by
    have : ∀ n : Fin 256, ((n : Nat) &&& 0xE0) >>> 5 = (n : Nat) / 32 := by decide +kernel
    exact this hdr.toFin
  have hm : ∀ l f, Frame.mk? ((hdr.toNat &&& 0xE0) >>> 5) (hdr.toNat &&& 0x1F) cid.toNat data l f
      = .error .valueError := by
    intro l f
    rw [h1, h2]
    unfold Frame.mk?
    split
    · rfl
    · rename_i t ht
      split
      · rfl
      · rename_i u hu
        rcases hbad with hb | hb
        · exact absurd (CommandType.toNat_of ht) (hb t)
        · exact absurd (Subsystem.toNat_of hu) (hb u)
  rw [hm]
  rfl

/-- **C09 (partial).** A correctly checksummed frame (with data) whose header holds an undefined
command type or subsystem code raises `ValueError`, is not delivered, and leaves the parser in
sync (empty buffer, so by C01 frames in later reads are delivered). Missing: the rest of the same
read is lost - this theorem shows it (`rest` is ignored), see also `c09_rest_refuted`; and frames
without data, see `c09_empty` and `c09_later_refuted`. -/
theorem c09_undefined_code_partial {σ : Type} (h : Handler σ) (s : σ) (hdr cid : UInt8)
    (data rest : List UInt8) (hd : data ≠ []) (hl : data.length < 256)
    (hbad : (∀ t : CommandType, hdr.toNat / 32 ≠ t.toNat) ∨ (∀ u : Subsystem, hdr.toNat % 32 ≠ u.toNat)) :
    Gateway.dataReceived h ⟨[], s⟩
        (0xFE :: UInt8.ofNat data.length :: hdr :: cid ::
          (data ++ [xorAll (UInt8.ofNat data.length :: hdr :: cid :: data)]) ++ rest) =
      (⟨[], s⟩, some .valueError) := by
  have hp := dr_packet h s hdr cid data (xorAll (UInt8.ofNat data.length :: hdr :: cid :: data))
    rest hd hl
  rw [fromBuffer_undefined hdr cid data hbad] at hp
  exact hp

/-- **C09**, what happens to such a frame without data: it is held back until one more byte arrives;
then `ValueError` is raised, nothing is delivered, that byte stays in the buffer and the rest of the
read is lost. -/
theorem c09_empty {σ : Type} (h : Handler σ) (s : σ) (hdr cid b : UInt8) (rest : List UInt8)
    (hbad : (∀ t : CommandType, hdr.toNat / 32 ≠ t.toNat) ∨ (∀ u : Subsystem, hdr.toNat % 32 ≠ u.toNat)) :
    Gateway.dataReceived h ⟨[], s⟩ [0xFE, 0, hdr, cid, xorAll [0, hdr, cid]] =
      (⟨[0xFE, 0, hdr, cid, xorAll [0, hdr, cid]], s⟩, none) ∧
    Gateway.dataReceived h ⟨[], s⟩ ([0xFE, 0, hdr, cid, xorAll [0, hdr, cid]] ++ b :: rest) =
      (⟨[b], s⟩, some .valueError) := by
  refine ⟨dr_packet_empty h s hdr cid _, ?_⟩
  have hp := dr_packet_empty_cons h s hdr cid (xorAll [0, hdr, cid]) b rest
  have hf := fromBuffer_undefined hdr cid [] hbad
  exact hp.trans (congrArg (fun r => settle h [b] s r rest) hf)

/-- **C09 (refuted)** for later reads, too: after a frame without data and with an undefined code the
parser is out of step, and a frame in a later read of its own is not delivered. Here a frame `g`
followed the bad one; its first byte is left over and the next frame is taken for its length and
data. -/
theorem c09_later_refuted :
    ¬ ∀ (hdr cid : UInt8) (f g : Frame), (∀ u : Subsystem, hdr.toNat % 32 ≠ u.toNat) → Fits f → Fits g →
      f.data ≠ [] → g.data ≠ [] →
      received f ∈ (Gateway.receiveAll (recorder fun _ => none) ⟨[], []⟩
        [[0xFE, 0, hdr, cid, xorAll [0, hdr, cid]] ++ wire g, wire f]).1.api := by
  intro hc
  have := hc 0x5F 0 { commandType := .AREQ, subsystem := .SYS, commandId := 0x80, data := [7] }
    { commandType := .AREQ, subsystem := .SYS, commandId := 0x80, data := [8] }
    (by intro u; cases u <;> decide) (by decide) (by decide) (by decide) (by decide)
  revert this
  decide +kernel

example : (∀ u : Subsystem, (0x5F : UInt8).toNat % 32 ≠ u.toNat) := by
  intro u; cases u <;> decide

/-- C09 fails within one read: a valid frame right after the rejected one is lost. -/
theorem c09_rest_refuted :
    ¬ ∀ (bad : List UInt8) (f : Frame), Fits f → f.data ≠ [] →
      (Gateway.dataReceived (recorder fun _ => none) ⟨[], []⟩ bad).1 = ⟨[], []⟩ →
      received f ∈ (Gateway.dataReceived (recorder fun _ => none) ⟨[], []⟩ (bad ++ wire f)).1.api := by
  intro hc
  have := hc [0xFE, 1, 0x5F, 0, 0, 0x5E]
    { commandType := .AREQ, subsystem := .SYS, commandId := 0x80, data := [7] }
    (by decide) (by decide) (by rw [show Gateway.dataReceived (recorder fun _ => none) ⟨[], []⟩
      [0xFE, 1, 0x5F, 0, 0, 0x5E] = (⟨[], []⟩, some .valueError) from by rfl])
  revert this
  decide +kernel

/-- The same, from the theorem: noise, a frame, a frame of start bytes, noise. -/
example : Gateway.receiveAll (recorder fun _ => none) ⟨[], []⟩
      [[0, 1, 0xFE, 5, 0x61, 2, 2], [0, 2, 6, 3, 0x63, 0xFE, 2, 0x45, 0xC1, 0xFE], [0xFE, 0x86, 7]] =
    (⟨[], [received (Frame.of .SRSP .SYS 2 [2, 0, 2, 6, 3]), received (Frame.of .AREQ .ZDO 0xC1 [0xFE, 0xFE])]⟩,
      []) :=
  c01_frames_recorded [([0, 1], Frame.of .SRSP .SYS 2 [2, 0, 2, 6, 3]), ([], Frame.of .AREQ .ZDO 0xC1 [0xFE, 0xFE])]
    [[0xFE, 5, 0x61, 2, 2, 0, 2, 6, 3, 0x63], [0xFE, 2, 0x45, 0xC1, 0xFE, 0xFE, 0x86]] [7]
    (by decide) (by decide) (by decide) (by decide +kernel) _ (by decide)

/-- A frame of an undefined subsystem takes the frame behind it in the same read with it. -/
example : ∃ a b ignored g1,
    [0xFE, 1, 0x5F, 0, 0, 0x5E, 0xFE, 1, 0x41, 0x80, 7, 0xC7] = a ++ b :: ignored ∧
    Gateway.dataReceived (recorder fun _ => none) ⟨[], []⟩ a = (g1, none) ∧
    ∀ rest, Gateway.dataReceived (recorder fun _ => none) g1 (b :: rest) = (⟨[], []⟩, some .valueError) :=
  c02_damage_confined _ _ _ _ _ (by decide +kernel)

/-- The frame of an undefined subsystem, and another one behind it. -/
example : Gateway.dataReceived (recorder fun _ => none) ⟨[], []⟩
    [0xFE, 1, 0x5F, 0, 0, 0x5E, 0xFE, 1, 0x41, 0x80, 7, 0xC7] = (⟨[], []⟩, some .valueError) :=
  c09_undefined_code_partial (recorder fun _ => none) [] 0x5F 0 [0] [0xFE, 1, 0x41, 0x80, 7, 0xC7]
    (by decide) (by decide) (.inr (by intro u; cases u <;> decide))

/-- Two version requests with different data look different on the wire. -/
example : wire (Frame.of .SREQ .SYS 2 [1]) ≠ wire (Frame.of .SREQ .SYS 2 [2]) := fun h =>
  absurd (c07_wire_injective _ _ (by decide) (by decide) h).2.2.2 (by decide)

end Zcc
