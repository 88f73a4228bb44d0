import Verif.Proofs.StartMem

/-!
# Initialisation that is cut off
-/

namespace Zcc

open Spec

theorem stores_inv {R : Nv → Nv → Prop} {I : Nv → Prop} {h : List Act} {m m' : Nv}
    (hstep : ∀ a ∈ h, ∀ m m', NvStep R m a m' → I m → I m') (hs : Stores R m h m') (hm : I m) : I m' := by
  induction h generalizing m with
  | nil => cases hs; exact hm
  | cons a h ih =>
    obtain ⟨m1, h1, h2⟩ := hs
    exact ih (fun b hb => hstep b (.tail _ hb)) h2 (hstep a (.head _) m m1 h1 hm)

/-- The stick is not marked as configured. -/
def Unset (version : Int) (m : Nv) : Prop := m (flagId version) ≠ some [0x55]

theorem unset_same {version : Int} {m m' : Nv} (hs : SameSettings m m') (h : Unset version m) :
    Unset version m' := by
  unfold Unset
  rw [hs (flagId version) (by rcases flag_cases version with h | h <;> rw [h] <;> decide)]
  exact h

theorem unset_write {R : Nv → Nv → Prop} {version : Int} {m m' : Nv} {a : Act} {id : Nat}
    {v : List UInt8} (hid : id ≠ 0x0F00 ∧ id ≠ 0x60) (hlt : id < 65536) (hv : v.length < 256)
    (hf : a.op.frame = some (nvWrite id v)) (hs : NvStep R m a m') (h : Unset version m) :
    Unset version m' := by
  have hne : flagId version ≠ id := by
    rcases flag_cases version with h | h <;> rw [h]
    · exact fun h => hid.1 h.symm
    · exact fun h => hid.2 h.symm
  unfold Unset
  rw [(step_write hf hlt hv hs).1 _ hne]
  exact h

theorem body_unset {R : Nv → Nv → Prop} {version : Int} {o : Options} (ho : WellFormed o)
    (hR : ∀ m m', R m m' → Unset version m → Unset version m') {h : List Act} {m m' : Nv}
    (hr : Runs (initialiseBody version o) h) (hs : Stores R m h m') (hm : Unset version m) :
    Unset version m' := by
  have l16 : ∀ n, (le16 n).length < 256 := fun n => by simp [le16]
  have l32 : ∀ n, (le32 n).length < 256 := fun n => by simp [le32]
  refine stores_inv (fun a ha m m' hs hm => ?_) hs hm
  have hsent := only_body version ho h hr a ha
  cases hf : a.op.frame with
  | none => rw [step_quiet hf hs]; exact hm
  | some f =>
    have hmem := sent_frame hsent hf
    have wr : ∀ {id : Nat} {v : List UInt8}, f = nvWrite id v → (id ≠ 0x0F00 ∧ id ≠ 0x60) →
        id < 65536 → v.length < 256 → Unset version m' := fun he h1 h2 h3 =>
      unset_write h1 h2 h3 (he ▸ hf) hs hm
    rcases List.mem_append.mp hmem with hmem | hmem
    · simp only [List.mem_cons, List.not_mem_nil, or_false] at hmem
      rcases hmem with he | he | he | he | he | he | he | he | he
      · exact hR _ _ (step_reset (he ▸ hf) hs) hm
      · exact wr he (by decide) (by decide) (by decide)
      · exact hR _ _ (step_reset (he ▸ hf) hs) hm
      · exact wr he (by decide) (by decide) (by decide)
      · exact wr he (by decide) (by decide) (by simp)
      · exact wr he (by decide) (by decide) (by decide)
      · exact wr he (by decide) (by decide) (l32 _)
      · exact wr he (by decide) (by decide) (l16 _)
      · exact wr he (by decide) (by decide) (by rw [ho.ext]; decide)
    · split at hmem
      · simp only [List.mem_cons, List.not_mem_nil, or_false] at hmem
        rcases hmem with he | he | he | he | he
        · exact wr he (by decide) (by decide) (by rw [ho.key]; decide)
        · exact unset_same (step_setChannel (he ▸ hf) hs) hm
        · exact unset_same (step_setChannel (he ▸ hf) hs) hm
        · exact unset_same (step_commission (he ▸ hf) hs) hm
        · exact unset_same (step_commission (he ▸ hf) hs) hm
      · simp only [List.mem_cons, List.not_mem_nil, or_false] at hmem
        rcases hmem with he | he
        · unfold Unset
          rw [(step_configWrite (he ▸ hf) (by decide) (by rw [ho.key]; decide) hs).1 _
            (by rcases flag_cases version with h | h <;> rw [h] <;> decide)]
          exact hm
        · exact wr he (by decide) (by decide) (by decide +kernel)

theorem reset_changes {h : List Act} (hh : ∀ a ∈ h, Harmless a.op) : softReset ∉ frames h := by
  intro hf
  have := harmless_frames hh _ hf
  cases this

/-- One start-up, cut off or not: nothing was initialised; or the initialisation was cut off; or it was
carried out up to the commands that mark the stick as configured. -/
theorem attempt_cases {R : Nv → Nv → Prop} {version : Int} {o : Options} (ho : WellFormed o) {g : Nat}
    (hg : g < 65536) {b : Bool} {h : List Act} {m m' : Nv}
    (hr : Runs (startZnp version o g b) h) (hgen : ∀ a ∈ h, Genuine a) (hs : Stores R m h m') :
    (∀ a ∈ h, Harmless a.op) ∨
    (¬ Kept version o m ∧ ∃ h1 h2, h = h1 ++ h2 ∧ (∀ a ∈ h1, Harmless a.op) ∧
      Runs (initialiseBody version o) h2) ∨
    (¬ Kept version o m ∧ ∃ h1 h2 h3, h = h1 ++ h2 ++ h3 ∧ (∀ a ∈ h1, Harmless a.op) ∧
      Returns (initialiseBody version o) h2 () ∧ softReset ∉ frames h3 ∧
      ((version = 1 ∨ version = 2) → Has (written o) m')) := by
  -- what follows the body in a cut-off or complete initialisation
  have markNo : ∀ {h3 : List Act}, (∀ a ∈ h3, Sent [nvInit (flagId version) [0],
      nvWrite (flagId version) [0x55]] a.op) → softReset ∉ frames h3 := by
    intro h3 hsent hf
    obtain ⟨a, ha, hfa⟩ := mem_frames.mp hf
    have := sent_frame (hsent a ha) hfa
    simp only [List.mem_cons, List.not_mem_nil, or_false] at this
    rcases this with h | h
    · exact absurd (congrArg Frame.commandId h) (by show ¬ (0 = 7); decide)
    · exact absurd (congrArg Frame.commandId h) (by show ¬ (0 = 9); decide)
  have markHas : ∀ {h3 : List Act} {m m' : Nv}, (∀ a ∈ h3, Sent [nvInit (flagId version) [0],
      nvWrite (flagId version) [0x55]] a.op) → Stores R m h3 m' → Has (written o) m → Has (written o) m' := by
    intro h3 m m' hsent hs hm
    refine stores_inv (fun a ha m m' hs hm => ?_) hs hm
    cases hf : a.op.frame with
    | none => rw [step_quiet hf hs]; exact hm
    | some f =>
      have := sent_frame (hsent a ha) hf
      simp only [List.mem_cons, List.not_mem_nil, or_false] at this
      rcases this with he | he
      · exact has_init R m m' a (he ▸ hf) hs hm
      · intro s hsm
        rw [(step_write (he ▸ hf) (flag_lt' version) (by decide) hs).1 _ (written_flag version o s hsm)]
        exact hm s hsm
  -- an initialisation, after the checks
  have initCases : ∀ {h1 h2 h3 : List Act} {c : Bool} {m1 : Nv},
      (∀ a ∈ h1 ++ h2 ++ h3, Genuine a) → Stores R m (h1 ++ h2 ++ h3) m1 →
      Returns (readHasConfigured version) h1 c → Returns (needsToBeInitialised version o) h2 true →
      Runs (initialise version o) h3 →
      ¬ Kept version o m ∧ (∀ a ∈ h1 ++ h2, Harmless a.op) ∧
      (Runs (initialiseBody version o) h3 ∨
       ∃ k1 k2, h3 = k1 ++ k2 ∧ Returns (initialiseBody version o) k1 () ∧
         softReset ∉ frames k2 ∧ Has (written o) m1) := by
    intro h1 h2 h3 c m1 hgen hs hr1 hr2 hr3
    obtain ⟨m2, hs1, hs2⟩ := stores_append.mp hs
    obtain ⟨-, hk⟩ := decide_needs ho (fun a ha => hgen a (List.mem_append_left _ ha)) hs1 hr1 hr2
    refine ⟨hk.mp rfl, append_harmless (hasConfigured_harmless hr1.runs) (needs_harmless hr2.runs), ?_⟩
    rw [initialise_split] at hr3
    rcases runs_bind hr3 with hb | ⟨k1, k2, u, rfl, hk1, hk2⟩
    · exact .inl hb
    · obtain ⟨m3, hs3, hs4⟩ := stores_append.mp hs2
      have hsent := only_mark version k2 hk2
      exact .inr ⟨k1, k2, rfl, hk1, markNo hsent,
        markHas hsent hs4 (est_body version ho R m2 m3 k1 u hk1 hs3 trivial)⟩
  rcases start_runs hr with hc | ⟨h1, h2, r, rfl, hc, hl⟩
  · rcases configure_runs hc with hh | ⟨h1, h2, h3, c, rfl, hr1, hr2, hr3⟩
    · exact .inl fun a ha => harmless_sent (harmless_reads version) _ (hh a ha)
    · obtain ⟨hk, hh, hb | ⟨k1, k2, rfl, hk1, hk2, hk3⟩⟩ := initCases hgen hs hr1 hr2 hr3
      · exact .inr (.inl ⟨hk, h1 ++ h2, h3, rfl, hh, hb⟩)
      · exact .inr (.inr ⟨hk, h1 ++ h2, k1, k2, by simp, hh, hk1, hk2, fun _ => hk3⟩)
  · obtain ⟨m1, hs1, hs2⟩ := stores_append.mp hs
    obtain ⟨k1, k2, k3, c, n, rfl, hr1, hr2, hr3⟩ := configure_returns hc
    rcases hr3 with ⟨rfl, rfl, rfl⟩ | ⟨rfl, hr3, hres⟩
    · rw [List.append_nil]
      exact .inl (append_harmless (append_harmless (hasConfigured_harmless hr1.runs)
        (needs_harmless hr2.runs)) (later_harmless hg (by decide) hl))
    · obtain ⟨hk, hh, hb⟩ := initCases (fun a ha => hgen a (List.mem_append_left _ ha)) hs1 hr1 hr2 hr3.runs
      rw [initialise_split] at hr3
      obtain ⟨j1, j2, u, rfl, hj1, hj2⟩ := returns_bind.mp hr3
      obtain ⟨m2, -, hs3⟩ := stores_append.mp hs1
      obtain ⟨m3, hs4, hs5⟩ := stores_append.mp hs3
      have hsent := only_mark version j2 hj2.runs
      have hm1 : Has (written o) m1 :=
        markHas hsent hs5 (est_body version ho R m2 m3 j1 u hj1 hs4 trivial)
      refine .inr (.inr ⟨hk, k1 ++ k2, j1, j2 ++ h2, by simp, hh, hj1, ?_, ?_⟩)
      · rw [frames_append]
        intro hf
        rcases List.mem_append.mp hf with hf | hf
        · exact markNo hsent hf
        · have := only_frames (later_only (o := o) hg r) hl _ hf
          rcases List.mem_append.mp this with this | this
          · exact absurd (harmless_later g _ this) (by decide)
          · split at this
            · have := congrArg Frame.commandId (List.mem_singleton.mp this)
              exact absurd this (by show ¬ (0 = 9); decide)
            · exact absurd this List.not_mem_nil
      · intro hv
        have hne : r ≠ "restored" := by
          rw [hres, if_neg]
          · decide
          · rintro ⟨rfl, -⟩
            exact absurd hv (by decide)
        exact has_same (written_ids o) (stores_harmless (later_harmless hg hne hl) hs2) hm1

theorem complete_of {version : Int} {o : Options} (ho : WellFormed o) {h0 h1 h2 h3 : List Act}
    (hr : Returns (initialiseBody version o) h2 ()) (hf : softReset ∉ frames h3) :
    LastComplete version o (h0 ++ (h1 ++ h2 ++ h3)) := by
  obtain ⟨k1, k2⟩ := sends_body version ho h2 () hr
  exact ⟨h0 ++ h1, h2, h3, by simp, k1, k2, hf⟩

/-- Attempts on Z-Stack 3. -/
theorem attempts_inv {R : Nv → Nv → Prop} {version : Int} (hv : version = 1 ∨ version = 2)
    {o : Options} (ho : WellFormed o) {g : Nat} (hg : g < 65536) {b : Bool}
    (hR : ∀ m m', R m m' → Unset version m → Unset version m') {hs : List (List Act)} {h0 : List Act}
    {m m' : Nv} (hrun : ∀ h ∈ hs, Runs (startZnp version o g b) h) (hgen : ∀ h ∈ hs, ∀ a ∈ h, Genuine a)
    (hst : Stores R m hs.flatten m')
    (hi : Unset version m ∨ (Has (written o) m ∧ LastComplete version o h0)) :
    Unset version m' ∨ (Has (written o) m' ∧ LastComplete version o (h0 ++ hs.flatten)) := by
  induction hs generalizing m h0 with
  | nil =>
    cases hst
    rw [List.flatten_nil, List.append_nil]
    exact hi
  | cons h hs ih =>
    rw [List.flatten_cons] at hst ⊢
    obtain ⟨m1, hs1, hs2⟩ := stores_append.mp hst
    rw [← List.append_assoc]
    refine ih (fun x hx => hrun x (.tail _ hx)) (fun x hx => hgen x (.tail _ hx)) hs2 ?_
    rcases attempt_cases ho hg (hrun h (.head _)) (hgen h (.head _)) hs1 with
      hh | ⟨hk, h1, h2, rfl, hh, hb⟩ | ⟨hk, h1, h2, h3, rfl, hh, hb, hf, hw⟩
    · have hsame := stores_harmless hh hs1
      rcases hi with hi | ⟨hi, before, during, after, rfl, h5, h6, h7⟩
      · exact .inl (unset_same hsame hi)
      · refine .inr ⟨has_same (written_ids o) hsame hi, before, during, after ++ h, by simp, h5, h6, ?_⟩
        rw [frames_append]
        intro hf
        rcases List.mem_append.mp hf with hf | hf
        · exact h7 hf
        · exact reset_changes hh hf
    · refine .inl ?_
      obtain ⟨m2, hs3, hs4⟩ := stores_append.mp hs1
      refine body_unset ho hR hb hs4 (unset_same (stores_harmless hh hs3) ?_)
      rcases hi with hi | ⟨hi, -⟩
      · exact hi
      · intro hset
        refine hk (has_kept fun s hs => ?_)
        rcases List.mem_cons.mp hs with rfl | hs
        · exact hset
        · exact hi s hs
    · exact .inr ⟨hw hv, complete_of ho hb hf⟩

end Zcc
