import Verif.Props.Start

/-!
# The network that is formed: C82

`formNetworkCall channel panId extendedPanId version config` is `form_network` with these arguments,
after a start-up that read `version`, with the network section `config` of the configuration.
-/

namespace Zcc

open Spec

/-- What follows the configuration leaves PAN id and extended PAN id alone. -/
theorem later_pan {R : Nv → Nv → Prop} {o : Options} {g : Nat} (hg : g < 65536)
    {r s : String} {h : List Act} {m m' : Nv} (hr : Returns (later o g r) h s)
    (hs : Stores R m h m') : m' 0x83 = m 0x83 ∧ m' 0x2D = m 0x2D := by
  by_cases hres : r = "restored"
  · obtain ⟨rfl, h1, h2, h3, h4, rfl, h5, h6, h7, h8⟩ := later_returns hr
    rcases h8 with ⟨-, x, rfl⟩ | ⟨h8, -⟩
    · obtain ⟨m1, h9, h10⟩ := stores_append.mp hs
      have hh : ∀ a ∈ h1 ++ h2 ++ h3, Harmless a.op := by
        have k1 : ∀ f ∈ [deviceInfo, startupFromApp], changesConfig f = false := by decide
        have k2 : ∀ f ∈ activeEpReq :: coordinatorEndpoints.map registerFrame,
          changesConfig f = false := fun f hf => harmless_later g f (by
            unfold laterFrames
            rcases List.mem_cons.mp hf with rfl | hf
            · simp
            · exact List.mem_append_left _ (List.mem_append_right _ hf))
        have k3 : ∀ f ∈ [findGroup 242 g, addGroup 242 g], changesConfig f = false :=
          fun f hf => harmless_later g f (List.mem_append_right _ hf)
        exact append_harmless (append_harmless
          (fun a ha => harmless_sent k1 _ (only_boot h1 h5.runs a ha))
          (fun a ha => harmless_sent k2 _ (only_register h2 h6.runs a ha)))
          (fun a ha => harmless_sent k3 _ (only_group hg h3 h7.runs a ha))
      have hsame := stores_harmless hh h9
      obtain ⟨h11, -⟩ := step_write (a := ⟨_, .ok x⟩) (wChan o.channelList _) (by decide) (by simp [le32])
        (stores_one.mp h10)
      exact ⟨(h11 _ (by decide)).trans (hsame _ (by decide)),
        (h11 _ (by decide)).trans (hsame _ (by decide))⟩
    · exact absurd hres h8
  · have hsame := stores_harmless (later_harmless hg hres hr.runs) hs
    exact ⟨hsame _ (by decide), hsame _ (by decide)⟩

/-- After a start-up that initialised the stick, the memory holds PAN id and extended PAN id. -/
theorem start_pan {R : Nv → Nv → Prop} {version : Int} {o : Options} (ho : WellFormed o) {g : Nat}
    (hg : g < 65536) {b : Bool} {r : String} {h : List Act} {m m' : Nv}
    (hr : Returns (startZnp version o g b) h r) (hs : Stores R m h m') (hf : softReset ∈ frames h) :
    m' 0x83 = some (le16 o.panID.toNat) ∧ m' 0x2D = some o.extendedPanID := by
  have hne : r ≠ "resumed" := fun he => by
    have := (c43_result ho hg hr).2.1 he _ hf
    cases this
  obtain ⟨h1, h2, rfl, h3, h4⟩ := start_returns hr
  obtain ⟨m1, h5, h6⟩ := stores_append.mp hs
  obtain ⟨e1, e2⟩ := later_pan hg h4 h6
  rw [e1, e2]
  obtain ⟨k1, k2, k3, c, n, rfl, -, -, hk3⟩ := configure_returns h3
  rcases hk3 with ⟨-, -, rfl⟩ | ⟨-, hk3, -⟩
  · exact absurd rfl hne
  · obtain ⟨m2, -, h8⟩ := stores_append.mp h5
    have hh := est_initialise version ho R m2 m1 k3 () hk3 h8 trivial
    exact ⟨hh (0x83, _) (.tail _ (.tail _ (.tail _ (.head _)))),
      hh (0x2D, _) (.tail _ (.tail _ (.head _)))⟩

/-- C82, without the arguments: when `form_network` returns, the stick is marked as configured and holds
the configured channels and key, or the documented defaults; likewise PAN id and extended PAN id, if
the stick was initialised, or if it runs Z-Stack 3 and has a PAN id. Values that are false in Python
count as not configured (C48). -/
theorem c82_partial {R : Nv → Nv → Prop} {channel : Nat} {panId : Option UInt16}
    {extendedPanId : Option (List UInt8)} {version : Payload} {p : Int} {c : NetworkConfig}
    (hv : version.lookup "product" = some (.int p))
    (hkey : ∀ k, c.networkKey = some k → k.length = 16)
    (hext : ∀ e, c.extendedPanId = some e → e.length = 8)
    (hpan : c.panId ≠ some 0) (hchan : c.channels ≠ some 0)
    {h : List Act} {m m' : Nv} (hgen : ∀ a ∈ h, Genuine a) (hs : Stores R m h m')
    (hr : Returns (formNetworkCall channel panId extendedPanId version c) h ()) :
    m' (flagId p) = some [0x55] ∧
    m' 0x84 = some (le32 (valueOr c.channels 0x800).toNat) ∧
    m' 0x62 = some (valueOr c.networkKey [1, 3, 5, 7, 9, 11, 13, 15, 0, 2, 4, 6, 8, 10, 12, 13]) ∧
    (softReset ∈ frames h ∨ ((p = 1 ∨ p = 2) ∧ m' 0x83 ≠ some [0xFF, 0xFF]) →
      m' 0x83 = some (le16 (valueOr c.panId 0x1A62).toNat) ∧
      m' 0x2D = some (valueOr c.extendedPanId (List.replicate 8 0xDD))) := by
  have hr : Returns (formNetwork p (networkOptions c)) h () := by
    have e : formNetworkCall channel panId extendedPanId version c =
        formNetwork p (networkOptions c) := by
      unfold formNetworkCall dictGet
      rw [hv]
      rfl
    rwa [e] at hr
  have ho := c48_wellFormed c hkey hext
  obtain ⟨h1, led, r, rfl, h2, -, hled⟩ := c58_form hr
  obtain ⟨m1, h3, h4⟩ := stores_append.mp hs
  have hk := start_kept ho (by decide) h2 (fun a ha => hgen a (List.mem_append_left _ ha)) h3
  have hh : ∀ f ∈ frames led, changesConfig f = false := by
    rw [hled]
    split
    · intro f hf; cases hf
    · decide
  have hsame : SameSettings m1 m' := stores_harmless (fun a ha f hf => hh f (mem_frames.mpr ⟨a, ha, hf⟩)) h4
  obtain ⟨q1, q2, -, q4, q5⟩ := (kept_same hsame).mpr hk
  have e := c48_partial c (fun h => absurd (hkey _ h) (by decide)) hpan
    (fun h => absurd (hext _ h) (by decide)) hchan
  have e1 : (networkOptions c).channelList = valueOr c.channels 0x800 := by rw [e]
  have e2 : (networkOptions c).networkKey = valueOr c.networkKey
      [1, 3, 5, 7, 9, 11, 13, 15, 0, 2, 4, 6, 8, 10, 12, 13] := by rw [e]
  have e3 : (networkOptions c).panID = valueOr c.panId 0x1A62 := by rw [e]
  have e4 : (networkOptions c).extendedPanID = valueOr c.extendedPanId (List.replicate 8 0xDD) := by
    rw [e]
  rw [e1] at q2
  rw [e2] at q4
  refine ⟨q1, q2, q4, ?_⟩
  rintro (hf | ⟨hp, hn⟩)
  · rw [frames_append] at hf
    rcases List.mem_append.mp hf with hf | hf
    · obtain ⟨k1, k2⟩ := start_pan ho (by decide) h2 h3 hf
      rw [e3] at k1
      rw [e4] at k2
      exact ⟨(hsame _ (by decide)).trans k1, (hsame _ (by decide)).trans k2⟩
    · exact absurd (hh _ hf) (by decide)
  · rcases q5 with ⟨k1, k2⟩ | k | k
    · rw [e3] at k1
      rw [e4] at k2
      exact ⟨k1, k2⟩
    · exact absurd hp k
    · exact absurd k hn

/-- A fresh stick, with a configuration that leaves out the key. -/
example : ∃ h m', (∀ a ∈ h, Genuine a) ∧ Stores (fun m m' => m' = m) (Stick.memory []) h m' ∧
    Returns (formNetworkCall 15 none none [("product", .int 1)]
      ⟨none, some 0x1234, some [1, 2, 3, 4, 5, 6, 7, 8], some 0x8000⟩) h () ∧
    softReset ∈ frames h := by
  have hr : Stick.returned () (Stick.run 100 (formNetworkCall 15 none none [("product", .int 1)]
      ⟨none, some 0x1234, some [1, 2, 3, 4, 5, 6, 7, 8], some 0x8000⟩) (Stick.memory [])).2.1 = true := by
    decide +kernel
  exact ⟨_, _, Stick.run_genuine _ _ _, Stick.run_stores 100 _ _, Stick.run_returns hr, by decide +kernel⟩

/-- C82 as stated is false: `form_network(channel=20, pan_id=0x1234)` on a fresh stick forms a network
on channel 11 with the PAN id 0x1A62. -/
theorem c82_refuted : ∃ (h : List Act) (m' : Nv), (∀ a ∈ h, Genuine a) ∧
    Stores (fun m m' => m' = m) (Stick.memory []) h m' ∧
    Returns (formNetworkCall 20 (some 0x1234) none [("product", .int 1)] ⟨none, none, none, none⟩) h () ∧
    m' 0x84 = some (le32 (2 ^ 11)) ∧ m' 0x83 = some (le16 0x1A62) := by
  have hr : Stick.returned () (Stick.run 100 (formNetworkCall 20 (some 0x1234) none
      [("product", .int 1)] ⟨none, none, none, none⟩) (Stick.memory [])).2.1 = true := by
    decide +kernel
  exact ⟨_, _, Stick.run_genuine _ _ _, Stick.run_stores 100 _ _, Stick.run_returns hr,
    by decide +kernel, by decide +kernel⟩

/-- C82: before a start-up has read the version of the stick, `form_network` raises, and sends nothing. -/
theorem c82_before {channel : Nat} {panId : Option UInt16} {extendedPanId : Option (List UInt8)}
    {c : NetworkConfig} {h : List Act}
    (hr : Runs (formNetworkCall channel panId extendedPanId [] c) h) :
    h = [] ∧ Raises (formNetworkCall channel panId extendedPanId [] c) h (.keyError "product") := by
  have e : formNetworkCall channel panId extendedPanId [] c = .raise (.keyError "product") := rfl
  rw [e] at hr ⊢
  obtain rfl := runs_raise.mp hr
  exact ⟨rfl, raises_raise.mpr ⟨rfl, rfl⟩⟩

example : Runs (formNetworkCall 15 none none [] ⟨none, none, none, none⟩) [] := ⟨_, rfl⟩

end Zcc
