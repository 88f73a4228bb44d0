import Verif.Proofs.StartSeq

/-!
# Histories of start-up, taken apart
-/

namespace Zcc

open Spec

theorem harmless_sent {fs : List Frame} (h : ∀ f ∈ fs, changesConfig f = false) (o : Op)
    (ho : Sent fs o) : Harmless o := fun f hf => h f (sent_frame ho hf)

theorem harmless_reads (version : Int) : ∀ f ∈ readFrames version, changesConfig f = false := by
  intro f hf
  simp only [readFrames, List.mem_cons, List.not_mem_nil, or_false] at hf
  rcases hf with rfl | rfl | rfl | rfl | rfl | rfl
  case inr.inr.inr.inl => unfold keyRead; split <;> rfl
  all_goals rfl

/-- What start-up sends after the stick is configured. -/
def laterFrames (g : Nat) : List Frame :=
  [deviceInfo, startupFromApp, activeEpReq] ++ coordinatorEndpoints.map registerFrame ++
  [findGroup 242 g, addGroup 242 g]

theorem harmless_later (g : Nat) : ∀ f ∈ laterFrames g, changesConfig f = false := by
  intro f hf
  unfold laterFrames at hf
  rcases List.mem_append.mp hf with hf | hf
  · rcases List.mem_append.mp hf with hf | hf
    · simp only [List.mem_cons, List.not_mem_nil, or_false] at hf
      rcases hf with rfl | rfl | rfl <;> rfl
    · obtain ⟨e, _, rfl⟩ := List.mem_map.mp hf
      rfl
  · simp only [List.mem_cons, List.not_mem_nil, or_false] at hf
    rcases hf with rfl | rfl <;> rfl

/-- Start-up after the stick is configured. -/
def later (o : Options) (g : Int) (result : String) : Prog String := do
  boot
  registerEndpoints
  addToGroup 242 g
  if result = "restored" then do
    let _ ← Prog.request .SYS "osalNvWrite" (Items.channelList o.channelList)
    return result
  else return result

theorem start_later (version : Int) (o : Options) (g : Int) (b : Bool) :
    startZnp version o g b = configure version o b >>= later o g := rfl

theorem configure_returns {version : Int} {o : Options} {b : Bool} {h : List Act} {r : String}
    (hr : Returns (configure version o b) h r) :
    ∃ h1 h2 h3 c n, h = h1 ++ h2 ++ h3 ∧ Returns (readHasConfigured version) h1 c ∧
      Returns (needsToBeInitialised version o) h2 n ∧
      ((n = false ∧ h3 = [] ∧ r = "resumed") ∨
       (n = true ∧ Returns (initialise version o) h3 () ∧
        r = if version = 0 ∧ c = false then "restored" else "reset")) := by
  unfold configure at hr
  obtain ⟨h1, h2, c, rfl, h3, h4⟩ := returns_bind.mp hr
  split at h4
  · exact absurd h4 returns_raise
  · obtain ⟨h5, h6, n, rfl, h7, h8⟩ := returns_bind.mp h4
    cases n with
    | false =>
      obtain ⟨rfl, rfl⟩ := returns_ret.mp h8
      exact ⟨h1, h5, [], c, false, by simp, h3, h7, .inl ⟨rfl, rfl, rfl⟩⟩
    | true =>
      obtain ⟨h9, h10, u, rfl, h11, h12⟩ := returns_bind.mp h8
      refine ⟨h1, h5, h9 ++ h10, c, true, by simp, h3, h7, .inr ⟨rfl, ?_⟩⟩
      split at h12
      · next hv =>
        obtain ⟨rfl, rfl⟩ := returns_ret.mp h12
        rw [List.append_nil]
        refine ⟨h11, ?_⟩
        cases c
        · have hv' : version = 0 := hv
          simp [hv']
        · simp
      · next hv =>
        obtain ⟨rfl, rfl⟩ := returns_ret.mp h12
        rw [List.append_nil]
        exact ⟨h11, by rw [if_neg (fun h => hv h.1)]⟩

theorem configure_runs {version : Int} {o : Options} {b : Bool} {h : List Act}
    (hr : Runs (configure version o b) h) :
    (∀ a ∈ h, Sent (readFrames version) a.op) ∨
    ∃ h1 h2 h3 c, h = h1 ++ h2 ++ h3 ∧ Returns (readHasConfigured version) h1 c ∧
      Returns (needsToBeInitialised version o) h2 true ∧ Runs (initialise version o) h3 := by
  unfold configure at hr
  rcases runs_bind hr with h1 | ⟨h1, h2, c, rfl, h3, h4⟩
  · exact .inl (only_readHasConfigured version h h1)
  · have hh := only_readHasConfigured version h1 h3.runs
    split at h4
    · rw [runs_raise.mp h4, List.append_nil]
      exact .inl hh
    · rcases runs_bind h4 with h5 | ⟨h5, h6, n, rfl, h7, h8⟩
      · refine .inl fun a ha => ?_
        rcases List.mem_append.mp ha with ha | ha
        · exact hh a ha
        · exact only_needs version o h2 h5 a ha
      · cases n with
        | false =>
          rw [runs_ret.mp h8, List.append_nil]
          refine .inl fun a ha => ?_
          rcases List.mem_append.mp ha with ha | ha
          · exact hh a ha
          · exact only_needs version o h5 h7.runs a ha
        | true =>
          refine .inr ⟨h1, h5, h6, c, by simp, h3, h7, ?_⟩
          rcases runs_bind h8 with h9 | ⟨h9, h10, u, rfl, h11, h12⟩
          · exact h9
          · have : h10 = [] := by
              split at h12
              · exact runs_ret.mp h12
              · exact runs_ret.mp h12
            rw [this, List.append_nil]
            exact h11.runs

theorem later_returns {o : Options} {g : Int} {r s : String} {h : List Act}
    (hr : Returns (later o g r) h s) :
    s = r ∧ ∃ h1 h2 h3 h4, h = h1 ++ h2 ++ h3 ++ h4 ∧ Returns boot h1 () ∧
      Returns registerEndpoints h2 () ∧ Returns (addToGroup 242 g) h3 () ∧
      ((r = "restored" ∧ ∃ x, h4 =
          [⟨.request .SYS "osalNvWrite" (Items.channelList o.channelList) none, .ok x⟩]) ∨
       (r ≠ "restored" ∧ h4 = [])) := by
  obtain ⟨h1, h2, _, rfl, h3, h4⟩ := returns_bind.mp hr
  obtain ⟨h5, h6, _, rfl, h7, h8⟩ := returns_bind.mp h4
  obtain ⟨h9, h10, _, rfl, h11, h12⟩ := returns_bind.mp h8
  split at h12
  · next hres =>
    obtain ⟨h13, h14, x, rfl, h15, h16⟩ := returns_bind.mp h12
    cases returns_request.mp h15
    obtain ⟨rfl, rfl⟩ := returns_ret.mp h16
    exact ⟨rfl, h1, h5, h9, _, by simp, h3, h7, h11, .inl ⟨hres, x, rfl⟩⟩
  · next hres =>
    obtain ⟨rfl, rfl⟩ := returns_ret.mp h12
    exact ⟨rfl, h1, h5, h9, [], by simp, h3, h7, h11, .inr ⟨hres, rfl⟩⟩

theorem later_only {o : Options} {g : Nat} (hg : g < 65536) (r : String) :
    Only (Sent (laterFrames g ++
      if r = "restored" then [nvWrite 0x84 (le32 o.channelList.toNat)] else [])) (later o g r) := by
  unfold later laterFrames
  refine only_bind (only_mono (sent_mono fun f hf => ?_) only_boot) fun _ =>
    only_bind (only_mono (sent_mono fun f hf => ?_) only_register) fun _ =>
    only_bind (only_mono (sent_mono fun f hf => ?_) (only_group hg)) fun _ => ?_
  · refine List.mem_append_left _ (List.mem_append_left _ (List.mem_append_left _ ?_))
    rcases List.mem_cons.mp hf with rfl | hf
    · exact .head _
    · exact .tail _ (List.mem_singleton.mp hf ▸ .head _)
  · refine List.mem_append_left _ (List.mem_append_left _ ?_)
    rcases List.mem_cons.mp hf with rfl | hf
    · exact List.mem_append_left _ (.tail _ (.tail _ (.head _)))
    · exact List.mem_append_right _ hf
  · exact List.mem_append_left _ (List.mem_append_right _ hf)
  · by_cases h : r = "restored"
    · rw [if_pos h, if_pos h]
      exact only_req ⟨_, List.mem_append_right _ (.head _), wChan _ _⟩ fun _ => only_pure _
    · rw [if_neg h, if_neg h]
      exact only_pure _

theorem later_harmless {o : Options} {g : Nat} (hg : g < 65536) {r : String} (hne : r ≠ "restored")
    {h : List Act} (hr : Runs (later o g r) h) : ∀ a ∈ h, Harmless a.op := by
  intro a ha
  have := later_only (o := o) hg r h hr a ha
  rw [if_neg hne, List.append_nil] at this
  exact harmless_sent (harmless_later g) _ this

theorem start_runs {version : Int} {o : Options} {g : Int} {b : Bool} {h : List Act}
    (hr : Runs (startZnp version o g b) h) :
    Runs (configure version o b) h ∨
    ∃ h1 h2 r, h = h1 ++ h2 ∧ Returns (configure version o b) h1 r ∧ Runs (later o g r) h2 := by
  rw [start_later] at hr
  exact runs_bind hr

theorem start_returns {version : Int} {o : Options} {g : Int} {b : Bool} {h : List Act} {r : String}
    (hr : Returns (startZnp version o g b) h r) :
    ∃ h1 h2, h = h1 ++ h2 ∧ Returns (configure version o b) h1 r ∧ Returns (later o g r) h2 r := by
  rw [start_later] at hr
  obtain ⟨h1, h2, s, rfl, h3, h4⟩ := returns_bind.mp hr
  obtain ⟨rfl, _⟩ := later_returns h4
  exact ⟨h1, h2, rfl, h3, h4⟩

theorem kept_same {version : Int} {o : Options} {m m' : Nv} (hs : SameSettings m m') :
    Kept version o m' ↔ Kept version o m := by
  have hf : m' (flagId version) = m (flagId version) := by
    refine hs _ ?_
    unfold flagId
    split <;> decide
  unfold Kept PanOk
  rw [hf, hs 0x84 (by decide), hs 0x63 (by decide), hs 0x62 (by decide), hs 0x83 (by decide),
    hs 0x2D (by decide)]

theorem hasConfigured_harmless {version : Int} {h : List Act}
    (hr : Runs (readHasConfigured version) h) : ∀ a ∈ h, Harmless a.op :=
  fun a ha => harmless_sent (harmless_reads version) _ (only_readHasConfigured version h hr a ha)

theorem needs_harmless {version : Int} {o : Options} {h : List Act}
    (hr : Runs (needsToBeInitialised version o) h) : ∀ a ∈ h, Harmless a.op :=
  fun a ha => harmless_sent (harmless_reads version) _ (only_needs version o h hr a ha)

theorem append_harmless {h1 h2 : List Act} (hh1 : ∀ a ∈ h1, Harmless a.op)
    (hh2 : ∀ a ∈ h2, Harmless a.op) : ∀ a ∈ h1 ++ h2, Harmless a.op := by
  intro a ha
  rcases List.mem_append.mp ha with ha | ha
  · exact hh1 a ha
  · exact hh2 a ha

theorem harmless_frames {h : List Act} (hh : ∀ a ∈ h, Harmless a.op) :
    ∀ f ∈ frames h, changesConfig f = false := by
  intro f hf
  obtain ⟨a, ha, hf⟩ := mem_frames.mp hf
  exact hh a ha f hf

/-- The decision at the beginning of start-up. -/
theorem decide_needs {R : Nv → Nv → Prop} {version : Int} {o : Options} (ho : WellFormed o)
    {m m' : Nv} {h1 h2 : List Act} {c n : Bool} (hg : ∀ a ∈ h1 ++ h2, Genuine a)
    (hs : Stores R m (h1 ++ h2) m') (hr1 : Returns (readHasConfigured version) h1 c)
    (hr2 : Returns (needsToBeInitialised version o) h2 n) :
    SameSettings m m' ∧ (n = true ↔ ¬ Kept version o m) := by
  obtain ⟨m1, h3, h4⟩ := stores_append.mp hs
  have h5 := stores_harmless (hasConfigured_harmless hr1.runs) h3
  obtain ⟨rfl, h6⟩ := needs_returns ho (fun a ha => hg a (List.mem_append_right _ ha)) h4 hr2
  exact ⟨h5, by rw [h6, kept_same h5]⟩

end Zcc
