import Verif.Spec.Wire

/-! Helper lemmas about the serial parser and encoder. -/

namespace Zcc
open Spec

theorem foldl_xor (l : List UInt8) (a : UInt8) :
    l.foldl (fun c v => c ^^^ v) a = a ^^^ xorAll l := by
  induction l generalizing a with
  | nil => simp [xorAll]
  | cons b l ih => simp [xorAll, ih, UInt8.xor_assoc]

theorem checksum_eq (l : List UInt8) : calculateChecksum l = xorAll l := by
  simp [calculateChecksum, foldl_xor]

theorem xorAll_append (a b : List UInt8) : xorAll (a ++ b) = xorAll a ^^^ xorAll b := by
  induction a with
  | nil => simp [xorAll]
  | cons x a ih => simp [xorAll, ih, UInt8.xor_assoc]

theorem header_decode (t : CommandType) (s : Subsystem) :
    (header t s).toNat &&& 0x1F = s.toNat ∧ ((header t s).toNat &&& 0xE0) >>> 5 = t.toNat := by
  cases t <;> cases s <;> decide

theorem header_encode (t : CommandType) (s : Subsystem) :
    ((t.toNat <<< 5) &&& 0xE0) ||| (s.toNat &&& 0x1F) = t.toNat * 32 + s.toNat := by
  cases t <;> cases s <;> decide

theorem header_lt (t : CommandType) (s : Subsystem) : t.toNat * 32 + s.toNat < 256 := by
  cases t <;> cases s <;> decide

theorem CommandType.ofNat_toNat (t : CommandType) : CommandType.ofNat? t.toNat = some t := by
  cases t <;> rfl

theorem Subsystem.ofNat_toNat (t : Subsystem) : Subsystem.ofNat? t.toNat = some t := by
  cases t <;> rfl

theorem CommandType.toNat_of {n : Nat} {t : CommandType} (h : CommandType.ofNat? n = some t) :
    n = t.toNat := by
  unfold CommandType.ofNat? at h
  split at h <;> simp at h <;> subst h <;> rfl

theorem Subsystem.toNat_of {n : Nat} {t : Subsystem} (h : Subsystem.ofNat? n = some t) :
    n = t.toNat := by
  unfold Subsystem.ofNat? at h
  split at h <;> simp at h <;> subst h <;> rfl

theorem toBuffer_eq (f : Frame) :
    f.toBuffer = if Fits f then .ok (wire f) else .error .valueError := by
  have hl := header_lt f.commandType f.subsystem
  unfold Frame.toBuffer
  simp only [header_encode]
  unfold pyBytes
  have hs : SOF.toNat = 254 := rfl
  by_cases h : Fits f
  · have : ([SOF.toNat, f.data.length, f.commandType.toNat * 32 + f.subsystem.toNat,
        f.commandId].all (· < 256)) = true := by
      simp [hs, h.1, h.2, hl]
    simp only [this, if_true, if_pos h]
    simp [bind, Except.bind, pure, Except.pure, checksum_eq, wire, body, header, hs]
  · have : ([SOF.toNat, f.data.length, f.commandType.toNat * 32 + f.subsystem.toNat,
        f.commandId].all (· < 256)) = false := by
      simp [hs, hl]
      intro h1
      have : ¬ f.commandId < 256 := fun h2 => h ⟨h1, h2⟩
      omega
    simp only [this, if_neg h]
    simp [bind, Except.bind]

/-- A raw packet: any header and checksum. -/
def packet (hdr cid : UInt8) (data : List UInt8) (fcs : UInt8) : List UInt8 :=
  SOF :: UInt8.ofNat data.length :: hdr :: cid :: (data ++ [fcs])

theorem packet_length (hdr cid : UInt8) (data : List UInt8) (fcs : UInt8) :
    (packet hdr cid data fcs).length = 5 + data.length := by
  simp [packet]; omega

theorem fromBuffer_packet (hdr cid : UInt8) (data : List UInt8) (fcs : UInt8) :
    Frame.fromBuffer data.length (4 + data.length) (packet hdr cid data fcs) =
      if xorAll (UInt8.ofNat data.length :: hdr :: cid :: data) = fcs then
        (Frame.mk? ((hdr.toNat &&& 0xE0) >>> 5) (hdr.toNat &&& 0x1F) cid.toNat data
          (some data.length) (some fcs)).map some
      else .ok none := by
  have e0 : (4 + data.length) = data.length + 4 := by omega
  have h2 : byteAt (packet hdr cid data fcs) 2 = .ok hdr := by simp [byteAt, packet]
  have h3 : byteAt (packet hdr cid data fcs) 3 = .ok cid := by simp [byteAt, packet]
  have h4 : byteAt (packet hdr cid data fcs) (4 + data.length) = .ok fcs := by
    rw [e0]; simp [byteAt, packet]
  have h5 : slice (packet hdr cid data fcs) DataStart (4 + data.length) = data := by
    simp [slice, packet, DataStart]
  have h6 : slice (packet hdr cid data fcs) 1 (4 + data.length)
      = UInt8.ofNat data.length :: hdr :: cid :: data := by
    have e : 4 + data.length - 1 = data.length + 3 := by omega
    simp [slice, packet, e]
  unfold Frame.fromBuffer
  simp only [h2, h3, h4, h5, h6, bind, Except.bind, checksum_eq, pure, Except.pure]
  split
  · cases Frame.mk? ((hdr.toNat &&& 0xE0) >>> 5) (hdr.toNat &&& 0x1F) cid.toNat data
      (some data.length) (some fcs) <;> rfl
  · rfl

theorem wire_eq_packet (f : Frame) :
    wire f = packet (header f.commandType f.subsystem) (UInt8.ofNat f.commandId) f.data
      (xorAll (body f)) := by
  simp [wire, packet, body, SOF]

theorem fromBuffer_wire (f : Frame) (hf : Fits f) :
    Frame.fromBuffer f.data.length (4 + f.data.length) (wire f) = .ok (some (received f)) := by
  rw [wire_eq_packet, fromBuffer_packet]
  have hd := header_decode f.commandType f.subsystem
  rw [hd.1, hd.2]
  have : (UInt8.ofNat f.commandId).toNat = f.commandId := by
    simp; exact hf.2
  simp [body, Frame.mk?, CommandType.ofNat_toNat, Subsystem.ofNat_toNat, Except.map, received]
  exact hf.2

/-! ### `Parser.write` -/

theorem write_drop (buf : List UInt8) (b x : UInt8) (t : List UInt8)
    (h : buf ++ [b] = x :: t) (hx : x ≠ SOF) : Parser.write buf b = ([], .ok none) := by
  unfold Parser.write
  simp only [h]
  simp [hx]

theorem write_short (buf : List UInt8) (b : UInt8) (t : List UInt8)
    (h : buf ++ [b] = SOF :: t) (hl : (buf ++ [b]).length ≤ 5) :
    Parser.write buf b = (buf ++ [b], .ok none) := by
  unfold Parser.write
  rw [h] at hl
  simp only [h]
  have : ¬ (SOF :: t).length > MinMessageLength := by simp only [MinMessageLength]; omega
  simp only [this, if_true, if_false]

theorem write_long (buf : List UInt8) (b len : UInt8) (t : List UInt8)
    (h : buf ++ [b] = SOF :: len :: t) (hl : 5 < (buf ++ [b]).length) :
    Parser.write buf b =
      if 5 + len.toNat ≤ (buf ++ [b]).length then
        ((buf ++ [b]).drop (5 + len.toNat),
          Frame.fromBuffer len.toNat (4 + len.toNat) ((buf ++ [b]).take (5 + len.toNat)))
      else (buf ++ [b], .ok none) := by
  unfold Parser.write
  rw [h] at hl ⊢
  simp only []
  have h1 : (SOF :: len :: t).length > MinMessageLength := by simp only [MinMessageLength]; omega
  have h2 : byteAt (SOF :: len :: t) 1 = .ok len := by simp [byteAt]
  have h3 : 4 + len.toNat + 1 = 5 + len.toNat := by omega
  simp only [h1, if_true, h2, DataStart, ge_iff_le, h3]

/-- A buffer that starts a frame which is not complete (as the parser sees it). -/
def Incomplete (B : List UInt8) : Prop :=
  B.head? = some SOF ∧ (B.length ≤ 5 ∨ B.length < 5 + (B.getD 1 0).toNat)

theorem write_incomplete (buf : List UInt8) (b : UInt8) (h : Incomplete (buf ++ [b])) :
    Parser.write buf b = (buf ++ [b], .ok none) := by
  obtain ⟨h1, h2⟩ := h
  by_cases h5 : (buf ++ [b]).length ≤ 5
  · match hB : buf ++ [b], h1 with
    | x :: t, h1 =>
      simp at h1; subst h1
      rw [← hB]
      exact write_short buf b t hB h5
  · match hB : buf ++ [b], h1 with
    | [x], _ => rw [hB] at h5; simp at h5
    | x :: len :: t, h1 =>
      simp at h1; subst h1
      rw [hB] at h2
      simp only [List.getD_cons_succ, List.getD_cons_zero] at h2
      rw [write_long buf b len t hB (by omega), hB]
      rw [hB] at h5
      have h2' := h2.resolve_left h5
      rw [if_neg (by omega)]

theorem Incomplete.prefix {a b : List UInt8} (h : Incomplete (a ++ b)) (ha : a ≠ []) :
    Incomplete a := by
  obtain ⟨h1, h2⟩ := h
  cases a with
  | nil => exact absurd rfl ha
  | cons x a =>
    refine ⟨by simpa using h1, ?_⟩
    cases a with
    | nil => left; simp
    | cons y a =>
      simp at h2 ⊢
      omega

theorem dr_append {σ : Type} (h : Handler σ) (g : Gateway σ) (a b : List UInt8) :
    Gateway.dataReceived h g (a ++ b) =
      match Gateway.dataReceived h g a with
      | (g', none) => Gateway.dataReceived h g' b
      | (g', some e) => (g', some e) := by
  induction a generalizing g with
  | nil => simp [Gateway.dataReceived]
  | cons x a ih =>
    simp only [List.cons_append, Gateway.dataReceived]
    split
    · rfl
    · exact ih _
    · split
      · rfl
      · exact ih _

theorem dr_incomplete {σ : Type} (h : Handler σ) (s : σ) (seg : List UInt8) :
    ∀ buf : List UInt8, Incomplete (buf ++ seg) →
      Gateway.dataReceived h ⟨buf, s⟩ seg = (⟨buf ++ seg, s⟩, none) := by
  induction seg with
  | nil => intro buf _; simp [Gateway.dataReceived]
  | cons b seg ih =>
    intro buf hi
    have hi' : Incomplete ((buf ++ [b]) ++ seg) := by simpa using hi
    have := write_incomplete buf b (hi'.prefix (by simp))
    simp only [Gateway.dataReceived, this]
    rw [ih _ hi']
    simp

/-- What the gateway does with the parser's verdict on a complete packet. -/
def settle {σ : Type} (h : Handler σ) (buf : List UInt8) (s : σ)
    (r : Except PyErr (Option Frame)) (rest : List UInt8) : Gateway σ × Option PyErr :=
  match r with
  | .error e => (⟨buf, s⟩, some e)
  | .ok none => Gateway.dataReceived h ⟨buf, s⟩ rest
  | .ok (some f) =>
    match h s f with
    | (s', some e) => (⟨buf, s'⟩, some e)
    | (s', none) => Gateway.dataReceived h ⟨buf, s'⟩ rest

theorem dr_cons {σ : Type} (h : Handler σ) (buf : List UInt8) (s : σ) (b : UInt8)
    (rest : List UInt8) :
    Gateway.dataReceived h ⟨buf, s⟩ (b :: rest) =
      settle h (Parser.write buf b).1 s (Parser.write buf b).2 rest := by
  simp only [Gateway.dataReceived, settle]
  match Parser.write buf b with
  | (buf', .error e) => rfl
  | (buf', .ok none) => rfl
  | (buf', .ok (some f)) => rfl

theorem dr_packet {σ : Type} (h : Handler σ) (s : σ) (hdr cid : UInt8) (data : List UInt8)
    (fcs : UInt8) (rest : List UInt8) (hd : data ≠ []) (hl : data.length < 256) :
    Gateway.dataReceived h ⟨[], s⟩ (packet hdr cid data fcs ++ rest) =
      settle h [] s
        (Frame.fromBuffer data.length (4 + data.length) (packet hdr cid data fcs)) rest := by
  have hn : (UInt8.ofNat data.length).toNat = data.length := by simpa using hl
  have hd' : 0 < data.length := List.length_pos_iff.mpr hd
  have e : packet hdr cid data fcs ++ rest
      = (SOF :: UInt8.ofNat data.length :: hdr :: cid :: data) ++ (fcs :: rest) := by
    simp [packet]
  have hp : (SOF :: UInt8.ofNat data.length :: hdr :: cid :: data) ++ [fcs]
      = packet hdr cid data fcs := by simp [packet]
  have hlen := packet_length hdr cid data fcs
  rw [e, dr_append, dr_incomplete]
  · simp only [List.nil_append, dr_cons]
    rw [write_long _ _ (UInt8.ofNat data.length) (hdr :: cid :: (data ++ [fcs])) (by simp)
      (by rw [hp]; omega), hp, hn, hlen]
    simp only [Nat.le_refl, if_true]
    rw [List.drop_of_length_le (by omega), List.take_of_length_le (by omega)]
  · refine ⟨by simp, Or.inr ?_⟩
    simp only [List.nil_append, List.length_cons, List.getD_cons_succ, List.getD_cons_zero, hn]
    omega

theorem dr_packet_empty {σ : Type} (h : Handler σ) (s : σ) (hdr cid fcs : UInt8) :
    Gateway.dataReceived h ⟨[], s⟩ (packet hdr cid [] fcs) =
      (⟨packet hdr cid [] fcs, s⟩, none) := by
  rw [dr_incomplete]
  · simp
  · exact ⟨by simp [packet], Or.inl (by simp [packet])⟩

theorem dr_packet_empty_cons {σ : Type} (h : Handler σ) (s : σ) (hdr cid fcs b : UInt8)
    (rest : List UInt8) :
    Gateway.dataReceived h ⟨[], s⟩ (packet hdr cid [] fcs ++ (b :: rest)) =
      settle h [b] s (Frame.fromBuffer 0 4 (packet hdr cid [] fcs)) rest := by
  rw [dr_append, dr_packet_empty]
  simp only [dr_cons]
  rw [write_long _ _ 0 (hdr :: cid :: [fcs, b]) (by simp [packet])
      (by simp [packet])]
  simp [packet]

theorem dr_noise {σ : Type} (h : Handler σ) (s : σ) (n rest : List UInt8) (hn : Noise n) :
    Gateway.dataReceived h ⟨[], s⟩ (n ++ rest) = Gateway.dataReceived h ⟨[], s⟩ rest := by
  induction n with
  | nil => simp
  | cons b n ih =>
    have hb : b ≠ SOF := hn b (by simp)
    rw [List.cons_append, dr_cons, write_drop [] b b [] (by simp) hb]
    exact ih (fun x hx => hn x (by simp [hx]))

theorem dr_sof {σ : Type} (h : Handler σ) (s : σ) (rest : List UInt8) :
    Gateway.dataReceived h ⟨[], s⟩ (SOF :: rest) = Gateway.dataReceived h ⟨[SOF], s⟩ rest := by
  rw [dr_cons, write_incomplete [] SOF ⟨by simp, Or.inl (by simp)⟩]
  rfl

theorem ra_eq_dr {σ : Type} (h : Handler σ) (chunks : List (List UInt8)) :
    ∀ (g g' : Gateway σ), Gateway.dataReceived h g chunks.flatten = (g', none) →
      Gateway.receiveAll h g chunks = (g', []) := by
  induction chunks with
  | nil => intro g g' hr; simp [Gateway.dataReceived] at hr; simp [Gateway.receiveAll, hr]
  | cons c cs ih =>
    intro g g' hr
    rw [List.flatten_cons, dr_append] at hr
    match hc : Gateway.dataReceived h g c with
    | (g1, none) =>
      rw [hc] at hr
      simp only [Gateway.receiveAll, hc, ih g1 g' hr]
      rfl
    | (g1, some e) => rw [hc] at hr; simp at hr

theorem dr_eq_ra {σ : Type} (h : Handler σ) (chunks : List (List UInt8)) :
    ∀ (g g' : Gateway σ), Gateway.receiveAll h g chunks = (g', []) →
      Gateway.dataReceived h g chunks.flatten = (g', none) := by
  induction chunks with
  | nil => intro g g' hr; simp [Gateway.receiveAll] at hr; simp [Gateway.dataReceived, hr]
  | cons c cs ih =>
    intro g g' hr
    rw [List.flatten_cons, dr_append]
    match hc : Gateway.dataReceived h g c with
    | (g1, none) =>
      simp only [Gateway.receiveAll, hc] at hr
      refine ih g1 g' ?_
      simp at hr
      exact Prod.ext hr.1 hr.2
    | (g1, some e) => simp [Gateway.receiveAll, hc] at hr

/-! ### Zero-data packets -/

theorem settle_gap {σ : Type} (h : Handler σ) (s : σ) (hdr cid fcs : UInt8) (n X : List UInt8)
    (hn : Noise n) (hg : (n = [] ∧ ∃ X', X = SOF :: X') ∨ 2 ≤ n.length)
    (hok : ∀ e, Frame.fromBuffer 0 4 (packet hdr cid [] fcs) ≠ .error e)
    (hh : ∀ s f, (h s f).2 = none) :
    Gateway.dataReceived h ⟨[], s⟩ (packet hdr cid [] fcs ++ (n ++ X)) =
      settle h [] s (Frame.fromBuffer 0 4 (packet hdr cid [] fcs)) (n ++ X) := by
  have key : ∀ s b rest, n ++ X = b :: rest →
      Gateway.dataReceived h ⟨[b], s⟩ rest = Gateway.dataReceived h ⟨[], s⟩ (n ++ X) := by
    intro s b rest hb
    rcases hg with ⟨h0, X', hX⟩ | hg
    · subst h0 hX
      simp at hb
      rw [← hb.1, ← hb.2, List.nil_append, dr_sof]
    · match n, hg, hn, hb with
      | x :: y :: n', _, hn, hb =>
        simp at hb
        obtain ⟨rfl, rfl⟩ := hb
        rw [dr_cons, write_drop [x] y x [y] (by simp) (hn x (by simp))]
        have hn' : Noise n' := fun z hz => hn z (by simp [hz])
        rw [dr_noise h s (x :: y :: n') X hn]
        exact dr_noise h s n' X hn'
  match hm : n ++ X with
  | [] =>
    rcases hg with ⟨h0, X', hX⟩ | hg
    · subst h0 hX; simp at hm
    · have : (n ++ X).length = 0 := by rw [hm]; rfl
      rw [List.length_append] at this; omega
  | b :: rest =>
    rw [dr_packet_empty_cons]
    match hf : Frame.fromBuffer 0 4 (packet hdr cid [] fcs) with
    | .error e => exact absurd hf (hok e)
    | .ok none => simp only [settle]; rw [key s b rest hm, hm]
    | .ok (some f) =>
      simp only [settle]
      match hs : h s f with
      | (s', some e) => have := hh s f; rw [hs] at this; simp at this
      | (s', none) => simp only []; rw [key s' b rest hm, hm]

/-! ### Soundness of the parser -/

theorem header_roundtrip (hdr : UInt8) :
    hdr = UInt8.ofNat (((hdr.toNat &&& 0xE0) >>> 5) * 32 + (hdr.toNat &&& 0x1F)) := by
  have : ∀ n : Fin 256, (n : Nat) = ((((n : Nat) &&& 0xE0) >>> 5) * 32 + ((n : Nat) &&& 0x1F)) := by
    decide +kernel
  have h := this hdr.toFin
  have h' : hdr.toNat = ((hdr.toNat &&& 0xE0) >>> 5) * 32 + (hdr.toNat &&& 0x1F) := h
  rw [← h']
  simp

theorem packet_of (L : List UInt8) (len : UInt8) (t : List UInt8) (h : L = SOF :: len :: t)
    (hl : L.length = 5 + len.toNat) :
    ∃ hdr cid data fcs, L = packet hdr cid data fcs ∧ data.length = len.toNat := by
  subst h
  match t with
  | [] => simp at hl; omega
  | [_] => simp at hl; omega
  | hdr :: cid :: t =>
    have ht : t ≠ [] := by intro h0; subst h0; simp at hl; omega
    refine ⟨hdr, cid, t.dropLast, t.getLast ht, ?_, ?_⟩
    · have h1 : t.dropLast.length = len.toNat := by simp at hl ⊢; omega
      simp [packet]
      have : t.length - 1 = len.toNat := by simpa using h1
      rw [this]; simp [List.dropLast_concat_getLast ht]
    · simp at hl ⊢; omega

theorem fromBuffer_sound (hdr cid : UInt8) (data : List UInt8) (fcs : UInt8) (fr : Frame)
    (hl : data.length < 256)
    (h : Frame.fromBuffer data.length (4 + data.length) (packet hdr cid data fcs)
      = .ok (some fr)) :
    ∃ f, Fits f ∧ fr = received f ∧ packet hdr cid data fcs = wire f := by
  rw [fromBuffer_packet] at h
  split at h
  case isFalse => simp at h
  case isTrue hx =>
    unfold Frame.mk? at h
    split at h
    · simp [Except.map] at h
    · rename_i t ht
      split at h
      · simp [Except.map] at h
      · rename_i s hs
        simp [Except.map] at h
        have ht' := CommandType.toNat_of ht
        have hs' := Subsystem.toNat_of hs
        have hh : hdr = header t s := by
          rw [header, ← ht', ← hs']; exact header_roundtrip hdr
        refine ⟨{ commandType := t, subsystem := s, commandId := cid.toNat, data := data },
          ⟨hl, cid.toNat_lt⟩, ?_, ?_⟩
        · rw [← h, ← hx, hh]
          simp [received, body]
        · rw [wire_eq_packet, ← hx, hh]
          simp [body]

/-- Buffers the parser can hold between calls. -/
def BufInv (B : List UInt8) : Prop := B = [] ∨ (∃ x, x ≠ SOF ∧ B = [x]) ∨ Incomplete B

theorem bufInv_singleton (b : UInt8) : BufInv [b] := by
  by_cases h : b = SOF
  · right; right; exact ⟨by simp [h], Or.inl (by simp)⟩
  · right; left; exact ⟨b, h, rfl⟩

theorem write_cases (buf : List UInt8) (b : UInt8) (hb : BufInv buf) :
    (Parser.write buf b = ([], .ok none)) ∨
    (Incomplete (buf ++ [b]) ∧ Parser.write buf b = (buf ++ [b], .ok none)) ∨
    (∃ hdr cid data fcs, data ≠ [] ∧ data.length < 256 ∧ buf ++ [b] = packet hdr cid data fcs ∧
      Parser.write buf b = ([], Frame.fromBuffer data.length (4 + data.length)
        (packet hdr cid data fcs))) ∨
    (∃ hdr cid fcs, buf = packet hdr cid [] fcs ∧
      Parser.write buf b = ([b], Frame.fromBuffer 0 4 (packet hdr cid [] fcs))) := by
  by_cases hi : Incomplete (buf ++ [b])
  · exact Or.inr (Or.inl ⟨hi, write_incomplete buf b hi⟩)
  match hB : buf ++ [b] with
  | [] => simp at hB
  | x :: t =>
    by_cases hx : x = SOF
    case neg => exact Or.inl (write_drop buf b x t hB hx)
    case pos =>
      subst hx
      right; right
      have h5 : 5 < (buf ++ [b]).length := by
        apply Nat.lt_of_not_le
        intro h5; exact hi ⟨by rw [hB]; simp, Or.inl h5⟩
      match t, hB with
      | [], hB => rw [hB] at h5; simp at h5
      | len :: t, hB =>
        have hge : 5 + len.toNat ≤ (buf ++ [b]).length := by
          apply Nat.le_of_not_lt
          intro hlt
          refine hi ⟨by rw [hB]; simp, Or.inr ?_⟩
          rw [hB] at hlt ⊢
          simpa using hlt
        have hlb : (buf ++ [b]).length = buf.length + 1 := by simp
        have hbne : buf ≠ [] := by intro h0; subst h0; simp at h5
        have hbi : Incomplete buf := by
          rcases hb with h0 | ⟨y, _, h0⟩ | h0
          · exact absurd h0 hbne
          · subst h0; simp at h5
          · exact h0
        have hg : (buf).getD 1 0 = len := by
          match buf, hbne, hB with
          | [y], _, hB => simp at h5
          | y :: z :: r, _, hB => simp at hB ⊢; exact hB.2.1
        have hw := write_long buf b len t hB h5
        rw [if_pos hge] at hw
        have hbl := hbi.2
        rw [hg] at hbl
        by_cases h0 : len.toNat = 0
        · right
          have hbl5 : buf.length = 5 := by omega
          obtain ⟨hdr, cid, data, fcs, hp, hdl⟩ := packet_of buf len (buf.drop 2) (by
            match buf, hbne, hB with
            | [y], _, hB => simp at h5
            | y :: z :: r, _, hB => simp at hB ⊢; exact ⟨hB.1, hB.2.1⟩) (by omega)
          have hd0 : data = [] := List.length_eq_zero_iff.mp (by omega)
          subst hd0
          refine ⟨hdr, cid, fcs, hp, ?_⟩
          rw [hw, h0, List.drop_append_of_le_length (by omega), List.take_append_of_le_length (by omega),
            List.drop_of_length_le (by omega), List.take_of_length_le (by omega), hp]
          rfl
        · left
          have hble : (buf ++ [b]).length = 5 + len.toNat := by omega
          obtain ⟨hdr, cid, data, fcs, hp, hdl⟩ := packet_of (buf ++ [b]) len t hB hble
          refine ⟨hdr, cid, data, fcs, ?_, ?_, ?_, ?_⟩
          · intro hd; subst hd; simp at hdl; omega
          · rw [hdl]; exact len.toNat_lt
          · rw [← hB, hp]
          · rw [hw, List.drop_of_length_le (by omega), List.take_of_length_le (by omega), hp, hdl]

theorem write_bufInv (buf : List UInt8) (b : UInt8) (hb : BufInv buf) :
    BufInv (Parser.write buf b).1 := by
  rcases write_cases buf b hb with h | ⟨hi, h⟩ | ⟨_, _, _, _, _, _, _, h⟩ | ⟨_, _, _, _, h⟩ <;> rw [h]
  · exact Or.inl rfl
  · exact Or.inr (Or.inr hi)
  · exact Or.inl rfl
  · exact bufInv_singleton b

theorem bufInv_bound (B : List UInt8) (h : BufInv B) : B.length ≤ 259 := by
  rcases h with h | ⟨x, _, h⟩ | ⟨_, h⟩
  · subst h; simp
  · subst h; simp
  · rcases h with h | h
    · omega
    · have := (B.getD 1 0).toNat_lt; omega

theorem write_sound (buf : List UInt8) (b : UInt8) (hb : BufInv buf) :
    ∃ c, buf ++ [b] = c ++ (Parser.write buf b).1 ∧
      ∀ fr, (Parser.write buf b).2 = .ok (some fr) → ∃ f, Fits f ∧ fr = received f ∧ c = wire f := by
  rcases write_cases buf b hb with h | ⟨hi, h⟩ | ⟨hdr, cid, data, fcs, _, hl, hB, h⟩ |
    ⟨hdr, cid, fcs, hB, h⟩ <;> rw [h]
  · exact ⟨buf ++ [b], by simp, by simp⟩
  · exact ⟨[], by simp, by simp⟩
  · refine ⟨buf ++ [b], by simp, ?_⟩
    intro fr hfr
    obtain ⟨f, h1, h2, h3⟩ := fromBuffer_sound hdr cid data fcs fr hl hfr
    exact ⟨f, h1, h2, hB.trans h3⟩
  · refine ⟨buf, rfl, ?_⟩
    intro fr hfr
    obtain ⟨f, h1, h2, h3⟩ := fromBuffer_sound hdr cid [] fcs fr (by simp) hfr
    exact ⟨f, h1, h2, hB.trans h3⟩

theorem _root_.Zcc.Spec.Explains.skip {s : List UInt8} {fs : List Frame} (h : Explains s fs) (j : List UInt8) :
    Explains (s ++ j) fs := by
  induction h with
  | done k => exact .done _
  | frame k f rest fs hf _ ih =>
    have := Explains.frame k f (rest ++ j) fs hf ih
    simpa using this

theorem _root_.Zcc.Spec.Explains.snoc {s : List UInt8} {fs : List Frame} (h : Explains s fs) (f : Frame)
    (hf : Fits f) : Explains (s ++ wire f) (fs ++ [received f]) := by
  induction h with
  | done k =>
    have := Explains.frame k f [] [] hf (.done [])
    simpa using this
  | frame k g rest fs hg _ ih =>
    have := Explains.frame k g (rest ++ wire f) (fs ++ [received f]) hg ih
    simpa using this

/-- All bytes processed so far explain the frames delivered so far, up to the buffer. -/
def Accounted (input : List UInt8) (g : Gateway (List Frame)) : Prop :=
  BufInv g.buffer ∧ ∃ p, input = p ++ g.buffer ∧ Explains p g.api

theorem dr_sound (r : Frame → Option PyErr) (c : List UInt8) :
    ∀ (input : List UInt8) (g : Gateway (List Frame)), Accounted input g →
      ∃ a, a <+: c ∧ ((Gateway.dataReceived (recorder r) g c).2 = none → a = c) ∧
        Accounted (input ++ a) (Gateway.dataReceived (recorder r) g c).1 := by
  induction c with
  | nil => intro input g hg; exact ⟨[], List.prefix_rfl, fun _ => rfl, by simpa [Gateway.dataReceived] using hg⟩
  | cons b c ih =>
    intro input g hg
    obtain ⟨hbi, p, hp, hex⟩ := hg
    obtain ⟨cc, hcc, hfr⟩ := write_sound g.buffer b hbi
    have hbi' := write_bufInv g.buffer b hbi
    have hin : input ++ [b] = (p ++ cc) ++ (Parser.write g.buffer b).1 := by
      rw [hp]; simp [hcc]
    have lift : ∀ g' : Gateway (List Frame), Accounted (input ++ [b]) g' →
        Gateway.dataReceived (recorder r) g (b :: c) = Gateway.dataReceived (recorder r) g' c →
        ∃ a, a <+: b :: c ∧ ((Gateway.dataReceived (recorder r) g (b :: c)).2 = none → a = b :: c) ∧
        Accounted (input ++ a) (Gateway.dataReceived (recorder r) g (b :: c)).1 := by
      intro g' hg' heq
      obtain ⟨a, h1, h2, h3⟩ := ih (input ++ [b]) g' hg'
      refine ⟨b :: a, by simpa using h1, ?_, ?_⟩
      · rw [heq]; intro h; rw [h2 h]
      · rw [heq]; simpa using h3
    have stop : ∀ (g' : Gateway (List Frame)) (e : PyErr), Accounted (input ++ [b]) g' →
        Gateway.dataReceived (recorder r) g (b :: c) = (g', some e) →
        ∃ a, a <+: b :: c ∧ ((Gateway.dataReceived (recorder r) g (b :: c)).2 = none → a = b :: c) ∧
        Accounted (input ++ a) (Gateway.dataReceived (recorder r) g (b :: c)).1 := by
      intro g' e hg' heq
      refine ⟨[b], by simp, ?_, ?_⟩
      · rw [heq]; simp
      · rw [heq]; exact hg'
    have heq := dr_cons (recorder r) g.buffer g.api b c
    match hres : (Parser.write g.buffer b).2 with
    | .error e =>
      rw [hres] at heq
      exact stop ⟨(Parser.write g.buffer b).1, g.api⟩ e ⟨hbi', _, hin, hex.skip cc⟩ heq
    | .ok none =>
      rw [hres] at heq
      exact lift ⟨(Parser.write g.buffer b).1, g.api⟩ ⟨hbi', _, hin, hex.skip cc⟩ heq
    | .ok (some fr) =>
      rw [hres] at heq
      obtain ⟨f, hf, hrf, hcf⟩ := hfr fr hres
      have hacc : Accounted (input ++ [b])
          ⟨(Parser.write g.buffer b).1, g.api ++ [fr]⟩ :=
        ⟨hbi', _, hin, by rw [hcf, hrf]; exact hex.snoc f hf⟩
      simp only [settle, recorder] at heq
      match hr : r fr with
      | some e => rw [hr] at heq; exact stop _ e hacc heq
      | none => rw [hr] at heq; exact lift _ hacc heq

theorem dr_bufInv {σ : Type} (h : Handler σ) (c : List UInt8) :
    ∀ g : Gateway σ, BufInv g.buffer → BufInv (Gateway.dataReceived h g c).1.buffer := by
  induction c with
  | nil => intro g hg; exact hg
  | cons b c ih =>
    intro g hg
    have hw := write_bufInv g.buffer b hg
    have heq := dr_cons h g.buffer g.api b c
    rw [show g = ⟨g.buffer, g.api⟩ from rfl, heq]
    unfold settle
    split
    · exact hw
    · exact ih _ hw
    · split
      · exact hw
      · exact ih _ hw

theorem ra_bufInv {σ : Type} (h : Handler σ) (cs : List (List UInt8)) :
    ∀ g : Gateway σ, BufInv g.buffer → BufInv (Gateway.receiveAll h g cs).1.buffer := by
  induction cs with
  | nil => intro g hg; exact hg
  | cons c cs ih => intro g hg; exact ih _ (dr_bufInv h c g hg)

/-- A frame with one wrong byte after the length byte is a packet with a wrong checksum. -/
theorem corrupted_packet (f : Frame) (i : Nat) (v : UInt8) (hi : 2 ≤ i) (hlt : i < (wire f).length)
    (hv : (wire f)[i]? ≠ some v) :
    ∃ hdr cid data fcs, (wire f).set i v = packet hdr cid data fcs ∧ data.length = f.data.length ∧
      xorAll (UInt8.ofNat data.length :: hdr :: cid :: data) ≠ fcs := by
  have xor_ne : ∀ (l : List UInt8) (k : Nat) (v : UInt8), k < l.length → l[k]? ≠ some v →
      xorAll (l.set k v) ≠ xorAll l := by
    intro l
    induction l with
    | nil => intro k v hk; simp at hk
    | cons x l ih =>
      intro k v hk hne
      cases k with
      | zero =>
        simp at hne
        simp only [List.set_cons_zero, xorAll]
        intro he
        have := congrArg (· ^^^ xorAll l) he
        simp [UInt8.xor_assoc] at this
        exact hne this.symm
      | succ k =>
        simp at hne hk
        simp only [List.set_cons_succ, xorAll]
        intro he
        have := congrArg (x ^^^ ·) he
        simp [← UInt8.xor_assoc] at this
        exact ih k v hk (by simpa using hne) this
  have hb : (body f).length = f.data.length + 3 := by simp [body]
  by_cases hlast : i = (wire f).length - 1
  · refine ⟨header f.commandType f.subsystem, UInt8.ofNat f.commandId, f.data, v, ?_, rfl, ?_⟩
    · have hw : (wire f).length = f.data.length + 5 := by simp [wire, hb]
      rw [hw] at hlast
      have : i = (f.data.length + 3) + 1 := by omega
      rw [this, wire, List.set_cons_succ, List.set_append_right _ _ (by omega), hb]
      simp [packet, body, SOF]
    · intro he
      apply hv
      have hw : (wire f).length = f.data.length + 5 := by simp [wire, hb]
      have hii : i = (body f).length + 1 := by omega
      rw [hii, wire, List.getElem?_cons_succ, List.getElem?_append_right (Nat.le_refl _)]
      simp [body] at he ⊢
      exact he
  · have hw : (wire f).length = f.data.length + 5 := by simp [wire, hb]
    obtain ⟨j, rfl⟩ : ∃ j, i = j + 2 := ⟨i - 2, by omega⟩
    have hj : j < f.data.length + 2 := by omega
    have hset : (wire f).set (j + 2) v = 0xFE :: UInt8.ofNat f.data.length ::
        ((header f.commandType f.subsystem :: UInt8.ofNat f.commandId :: f.data).set j v
          ++ [xorAll (body f)]) := by
      rw [wire, body, List.set_cons_succ, List.cons_append, List.set_cons_succ,
        List.set_append_left _ _ (by simp; omega)]
    have hx := xor_ne (body f) (j + 1) v (by omega) (by
      intro he; apply hv
      rw [wire, List.getElem?_cons_succ, List.getElem?_append_left (by omega), he])
    match hm : (header f.commandType f.subsystem :: UInt8.ofNat f.commandId :: f.data).set j v with
    | [] => have := congrArg List.length hm; simp at this
    | [_] => have := congrArg List.length hm; simp at this
    | hdr :: cid :: data =>
      have hdl : data.length = f.data.length := by
        have := congrArg List.length hm; simp at this; omega
      refine ⟨hdr, cid, data, xorAll (body f), ?_, hdl, ?_⟩
      · rw [hset, hm, hdl.symm]; simp [packet, SOF, hdl]
      · rw [hdl, ← hm]
        rw [body, List.set_cons_succ] at hx
        exact hx

end Zcc
