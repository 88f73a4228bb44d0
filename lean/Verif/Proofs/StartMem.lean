import Verif.Proofs.StartRun

/-!
# The stick's memory during start-up
-/

namespace Zcc

open Spec

/-- The memory holds these items. -/
def Has (l : List (Nat × List UInt8)) (m : Nv) : Prop := ∀ s ∈ l, m s.1 = some s.2

/-- If the coroutine returns, it takes memories with `S` to memories with `T`. -/
def Est {α : Type} (p : Prog α) (S T : Nv → Prop) : Prop :=
  ∀ (R : Nv → Nv → Prop) m m' h a, Returns p h a → Stores R m h m' → S m → T m'

theorem step_quiet {R : Nv → Nv → Prop} {m m' : Nv} {a : Act} (hf : a.op.frame = none)
    (hs : NvStep R m a m') : m' = m := by
  unfold NvStep at hs
  rw [hf] at hs
  exact hs

theorem step_setChannel {R : Nv → Nv → Prop} {m m' : Nv} {a : Act} {p : UInt8} {c : Nat}
    (hf : a.op.frame = some (setChannel p c)) (hs : NvStep R m a m') : SameSettings m m' := by
  unfold NvStep at hs
  rw [hf] at hs
  exact hs

theorem step_commission {R : Nv → Nv → Prop} {m m' : Nv} {a : Act} {x : UInt8}
    (hf : a.op.frame = some (commission x)) (hs : NvStep R m a m') : SameSettings m m' := by
  unfold NvStep at hs
  rw [hf] at hs
  exact hs

section
variable {α β : Type} {S T U : Nv → Prop}

theorem est_bind {p : Prog α} {f : α → Prog β} (hp : Est p S T) (hf : ∀ a, Est (f a) T U) :
    Est (p >>= f) S U := by
  intro R m m' h b hr hs hS
  obtain ⟨h1, h2, a, rfl, h3, h4⟩ := returns_bind.mp hr
  obtain ⟨m1, h5, h6⟩ := stores_append.mp hs
  exact hf a R m1 m' h2 b h4 h6 (hp R m m1 h1 a h3 h5 hS)

theorem est_pure (a : α) : Est (pure a : Prog α) S S := by
  intro R m m' h b hr hs hS
  obtain ⟨rfl, -⟩ := returns_ret.mp hr
  cases hs
  exact hS

theorem est_op {o : Op} (h : ∀ (R : Nv → Nv → Prop) m m' (a : o.Ans), NvStep R m ⟨o, .ok a⟩ m' → S m → T m') :
    Est (Prog.op o) S T := by
  intro R m m' hh a hr hs hS
  cases returns_op.mp hr
  exact h R m m' a (stores_one.mp hs) hS

theorem est_quiet {o : Op} (hf : o.frame = none) : Est (Prog.op o) S S :=
  est_op fun R m m' a hs hS => by rw [step_quiet (a := ⟨o, .ok a⟩) hf hs]; exact hS

theorem est_tryRaise {p : Prog α} {x : PyErr} (hp : Est p S T) :
    Est (p.tryExcept (exceptException (.raise x))) S T :=
  fun R m m' h a hr hs hS => hp R m m' h a (returns_tryRaise hr) hs hS

theorem est_req {sub : Subsystem} {command : String} {p : Payload} {e : Option (List Int)}
    {k : Option Obj → Prog β} {f : Frame} (hf : (Op.request sub command p e).frame = some f)
    (h : ∀ (R : Nv → Nv → Prop) m m' (a : Act), a.op.frame = some f → Succeeded a →
      NvStep R m a m' → S m → T m')
    (hk : ∀ r, Est (k r) T U) : Est (Prog.request sub command p e >>= k) S U :=
  est_bind (est_op (o := .request sub command p e)
    fun R m m' a => h R m m' ⟨.request sub command p e, .ok a⟩ hf ⟨⟨a, rfl⟩, rfl⟩) hk

end

/-- A write of an item that is not in the list. -/
theorem has_write {l : List (Nat × List UInt8)} {id : Nat} {v : List UInt8} (hid : id < 65536)
    (hv : v.length < 256) (hl : ∀ s ∈ l, s.1 ≠ id) (R : Nv → Nv → Prop) (m m' : Nv) (a : Act)
    (hf : a.op.frame = some (nvWrite id v)) (ha : Succeeded a) (hs : NvStep R m a m') (hm : Has l m) :
    Has ((id, v) :: l) m' := by
  obtain ⟨h1, h2⟩ := step_write hf hid hv hs
  intro s hsm
  rcases List.mem_cons.mp hsm with rfl | hsm
  · exact h2 ha
  · rw [h1 _ (hl s hsm)]
    exact hm s hsm

theorem has_drop {m : Nv} {x : Nat × List UInt8} {l : List (Nat × List UInt8)} (h : Has (x :: l) m) :
    Has l m := fun s hs => h s (.tail _ hs)

theorem has_same {m m' : Nv} {l : List (Nat × List UInt8)} (hl : ∀ s ∈ l, s.1 ∈ settingIds)
    (hs : SameSettings m m') (hm : Has l m) : Has l m' :=
  fun s h => (hs s.1 (hl s h)).trans (hm s h)

/-- The settings without the flag, in the order in which they are written. -/
def written (o : Options) : List (Nat × List UInt8) :=
  [(0x62, o.networkKey), (0x2D, o.extendedPanID), (0x83, le16 o.panID.toNat),
   (0x84, le32 o.channelList.toNat), (0x63, [if o.networkKeyDistribute then 1 else 0])]

theorem written_ids (o : Options) : ∀ s ∈ written o, s.1 ∈ settingIds := by
  intro s hs
  have h : s.1 ∈ [0x62, 0x2D, 0x83, 0x84, 0x63] := List.mem_map_of_mem (f := (·.1)) hs
  revert h
  generalize s.1 = i
  revert i
  decide

theorem est_body (version : Int) {o : Options} (ho : WellFormed o) :
    Est (initialiseBody version o) (fun _ => True) (Has (written o)) := by
  have l16 : ∀ n, (le16 n).length < 256 := fun n => by simp [le16]
  have l32 : ∀ n, (le32 n).length < 256 := fun n => by simp [le32]
  unfold initialiseBody
  refine est_req (T := fun _ => True) (frame_reset _) (fun _ _ _ _ _ _ _ _ => trivial) fun _ =>
    est_req (T := fun _ => True) (wStartup _) (fun _ _ _ _ _ _ _ _ => trivial) fun _ =>
    est_req (T := Has []) (frame_reset _) (fun _ _ _ _ _ _ _ _ s hs => absurd hs List.not_mem_nil) fun _ =>
    est_req (T := Has []) (wLogical _) (fun _ _ _ _ _ _ _ _ s hs => absurd hs List.not_mem_nil) fun _ =>
    est_req (wDist _ _) (has_write (by decide) (by simp) (fun _ hs => absurd hs List.not_mem_nil)) fun _ =>
    est_req (wDirect _) (fun R m m' a h1 h2 h3 h4 => has_drop (has_write (by decide) (by simp) ?_ R m m' a h1 h2 h3 h4)) fun _ =>
    est_req (wChan _ _) (has_write (by decide) (l32 _) ?_) fun _ =>
    est_req (wPan _ _) (has_write (by decide) (l16 _) ?_) fun _ =>
    est_req (wExt ho.ext _) (has_write (by decide) (by rw [ho.ext]; decide) ?_) fun _ => ?_
  · simp
  · simp
  · simp
  · simp
  · unfold initialiseStack
    refine fun R m m' h a hr hs hm => ?_
    split at hr
    · refine (?_ : Est (initialise3 o) _ (Has (written o))) R m m' h a hr hs hm
      unfold initialise3
      refine est_req (wKey ho.key _) (has_write (by decide) (by rw [ho.key]; decide) ?_) fun _ =>
        est_req (wPrimary _ _) (fun R m m' a hf _ hs => has_same (written_ids o) (step_setChannel hf hs)) fun _ =>
        est_req (wSecondary _) (fun R m m' a hf _ hs => has_same (written_ids o) (step_setChannel hf hs)) fun _ =>
        est_bind (est_quiet rfl) fun _ =>
        est_req (wCommission4 _) (fun R m m' a hf _ hs => has_same (written_ids o) (step_commission hf hs)) fun _ =>
        est_bind (est_tryRaise (est_quiet rfl)) fun _ =>
        est_req (wCommission2 _) (fun R m m' a hf _ hs => has_same (written_ids o) (step_commission hf hs)) fun _ =>
        est_pure _
      simp
    · refine (?_ : Est (initialise12 o) _ (Has (written o))) R m m' h a hr hs hm
      unfold initialise12
      refine est_req (T := Has (written o)) (wKey12 ho.key _) (fun R m m' a hf ha hs hm => ?_) fun _ =>
        est_req (wLink _) (fun R m m' a h1 h2 h3 h4 => has_drop (has_write (by decide) (by decide +kernel) ?_ R m m' a h1 h2 h3 h4)) fun _ =>
        est_pure _
      · obtain ⟨h1, h2⟩ := step_configWrite hf (by decide) (by rw [ho.key]; decide) hs
        intro s hs
        rcases List.mem_cons.mp hs with rfl | hs
        · exact h2 ha
        · have h : s.1 ∈ [0x2D, 0x83, 0x84, 0x63] := List.mem_map_of_mem (f := (·.1)) hs
          rw [h1 _ (by revert h; generalize s.1 = i; revert i; decide)]
          exact hm s hs
      · simp [written]

theorem flag_cases (version : Int) : flagId version = 0x0F00 ∨ flagId version = 0x60 := by
  unfold flagId
  split
  · exact .inl rfl
  · exact .inr rfl

theorem written_flag (version : Int) (o : Options) : ∀ s ∈ written o, s.1 ≠ flagId version := by
  intro s hs
  have h : s.1 ∈ [0x62, 0x2D, 0x83, 0x84, 0x63] := List.mem_map_of_mem (f := (·.1)) hs
  revert h
  generalize s.1 = i
  rcases flag_cases version with h | h <;> rw [h] <;> revert i <;> decide

theorem has_init {version : Int} {o : Options} (R : Nv → Nv → Prop) (m m' : Nv) (a : Act)
    (hf : a.op.frame = some (nvInit (flagId version) [0])) (hs : NvStep R m a m')
    (hm : Has (written o) m) : Has (written o) m' := by
  intro s hsm
  rw [step_init hf (flag_lt' version) hs _ (written_flag version o s hsm)]
  exact hm s hsm

theorem est_initialise (version : Int) {o : Options} (ho : WellFormed o) :
    Est (initialise version o) (fun _ => True) (Has ((flagId version, [0x55]) :: written o)) := by
  rw [initialise_split]
  refine est_bind (est_body version ho) fun _ => ?_
  unfold initialiseMark
  exact est_req (frame_nvInit _ _) (fun R m m' a hf _ => has_init R m m' a hf) fun _ =>
    est_req (wFlag _ _) (has_write (flag_lt' version) (by decide) (written_flag version o)) fun _ =>
    est_pure _

theorem has_kept {version : Int} {o : Options} {m : Nv}
    (h : Has ((flagId version, [0x55]) :: written o) m) : Kept version o m :=
  ⟨h _ (.head _), h (0x84, _) (.tail _ (.tail _ (.tail _ (.tail _ (.head _))))),
   h (0x63, _) (.tail _ (.tail _ (.tail _ (.tail _ (.tail _ (.head _)))))),
   h (0x62, _) (.tail _ (.head _)),
   .inl ⟨h (0x83, _) (.tail _ (.tail _ (.tail _ (.head _)))), h (0x2D, _) (.tail _ (.tail _ (.head _)))⟩⟩

theorem kept_write {R : Nv → Nv → Prop} {m m' : Nv} {a : Act} {version : Int} {o : Options}
    (hf : a.op.frame = some (nvWrite 0x84 (le32 o.channelList.toNat))) (ha : Succeeded a)
    (hs : NvStep R m a m') (hm : Kept version o m) : Kept version o m' := by
  obtain ⟨h1, h2⟩ := step_write hf (by decide) (by simp [le32]) hs
  obtain ⟨k1, k2, k3, k4, k5⟩ := hm
  refine ⟨?_, h2 ha, ?_, ?_, ?_⟩
  · rw [h1 _ (by rcases flag_cases version with h | h <;> rw [h] <;> decide)]; exact k1
  · rw [h1 _ (by decide)]; exact k3
  · rw [h1 _ (by decide)]; exact k4
  · unfold PanOk
    rw [h1 _ (by decide), h1 _ (by decide)]; exact k5

theorem later_kept {R : Nv → Nv → Prop} {version : Int} {o : Options} {g : Nat} (hg : g < 65536)
    {r s : String} {h : List Act} {m m' : Nv} (hr : Returns (later o g r) h s)
    (hs : Stores R m h m') (hm : Kept version o m) : Kept version o m' := by
  by_cases hres : r = "restored"
  · obtain ⟨rfl, h1, h2, h3, h4, rfl, h5, h6, h7, h8⟩ := later_returns hr
    rcases h8 with ⟨-, x, rfl⟩ | ⟨h8, -⟩
    · obtain ⟨m1, h9, h10⟩ := stores_append.mp hs
      have hh : ∀ a ∈ h1 ++ h2 ++ h3, Harmless a.op := by
        have k1 : ∀ f ∈ [deviceInfo, startupFromApp], changesConfig f = false := by decide
        have k2 : ∀ f ∈ activeEpReq :: coordinatorEndpoints.map registerFrame,
          changesConfig f = false := fun f hf => harmless_later g f (by
            unfold laterFrames
            rcases List.mem_cons.mp hf with rfl | hf
            · simp
            · exact List.mem_append_left _ (List.mem_append_right _ hf))
        have k3 : ∀ f ∈ [findGroup 242 g, addGroup 242 g], changesConfig f = false :=
          fun f hf => harmless_later g f (List.mem_append_right _ hf)
        exact append_harmless (append_harmless
          (fun a ha => harmless_sent k1 _ (only_boot h1 h5.runs a ha))
          (fun a ha => harmless_sent k2 _ (only_register h2 h6.runs a ha)))
          (fun a ha => harmless_sent k3 _ (only_group hg h3 h7.runs a ha))
      exact kept_write (a := ⟨_, .ok x⟩) (wChan _ _) ⟨⟨x, rfl⟩, rfl⟩ (stores_one.mp h10)
        ((kept_same (stores_harmless hh h9)).mpr hm)
    · exact absurd hres h8
  · exact (kept_same (stores_harmless (later_harmless hg hres hr.runs) hs)).mpr hm

/-- After a start-up that returned, the memory passes the checks. -/
theorem start_kept {R : Nv → Nv → Prop} {version : Int} {o : Options} (ho : WellFormed o) {g : Nat}
    (hg : g < 65536) {b : Bool} {r : String} {h : List Act} {m m' : Nv}
    (hr : Returns (startZnp version o g b) h r) (hgen : ∀ a ∈ h, Genuine a) (hs : Stores R m h m') :
    Kept version o m' := by
  obtain ⟨h1, h2, rfl, h3, h4⟩ := start_returns hr
  obtain ⟨m1, h5, h6⟩ := stores_append.mp hs
  refine later_kept hg h4 h6 ?_
  obtain ⟨k1, k2, k3, c, n, rfl, hk1, hk2, hk3⟩ := configure_returns h3
  rcases hk3 with ⟨rfl, rfl, rfl⟩ | ⟨rfl, hk3, -⟩
  · rw [List.append_nil] at h5 hgen
    obtain ⟨h7, h8⟩ := decide_needs ho (fun a ha => hgen a (List.mem_append_left _ ha)) h5 hk1 hk2
    rw [kept_same h7]
    exact Classical.byContradiction fun hn => Bool.noConfusion (h8.mpr hn)
  · obtain ⟨m2, -, h8⟩ := stores_append.mp h5
    exact has_kept (est_initialise version ho R m2 m1 k3 () hk3 h8 trivial)

end Zcc
