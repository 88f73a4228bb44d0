import Verif.Proofs.StartTail
import Verif.Spec.Connection

/-!
# Invariants of the connection system
-/

namespace Zcc.Conn

open Zcc Spec

theorem upd_same {α : Type} (f : Nat → α) (i : Nat) (a : α) : upd f i a i = a := if_pos rfl
theorem upd_other {α : Type} {f : Nat → α} {i j : Nat} {a : α} (h : j ≠ i) : upd f i a j = f j :=
  if_neg h

/-- What holds of every link. -/
structure LinkInv (s : St) (l : Nat) : Prop where
  fresh : s.nlinks ≤ l → s.links l = {}
  uart : (s.links l).uart = true → (s.links l).made = true
  isOpen : (s.links l).isOpen = true → (s.links l).made = true
  made : (s.links l).made = true → (s.links l).transport ≠ .none
  gone : (s.links l).transport = .closing ∨ (s.links l).transport = .closed → (s.links l).made = true
  still : (s.links l).made = true → Note.closed l ∉ s.log → (s.links l).isOpen = true
  closed : Note.closed l ∈ s.log → (s.links l).made = true ∧ (s.links l).isOpen = false ∧
    (s.links l).uart = false ∧ (s.links l).transport ≠ .opened
  once : s.log.count (.closed l) ≤ 1
  reported : Note.reported l ∈ s.log ∨ Note.unreported l ∈ s.log → (s.links l).transport = .closed
  reportedOnce : s.log.count (.reported l) + s.log.count (.unreported l) ≤ 1
  later : ∀ a b, s.log = a ++ .closed l :: b → Note.reported l ∉ b ∧ Note.unreported l ∉ b
  opened : (s.links l).transport ≠ .none → ∃ x, Note.opened l x ∈ s.log

/-- What holds of task `t` in state `k`. -/
def TaskInv (c : Config) (s : St) (t : Nat) (k : Task) : Prop :=
  (∀ l, k.link = some l → l < s.nlinks ∧ (s.links l).owner = t) ∧
  match k.pc with
  | .ready => k.link = none ∧ k.hist = []
  | .waking _ => k.kind = .reconnect
  | .connecting => ∃ l, k.link = some l ∧ (s.links l).uart = false ∧ Note.closed l ∉ s.log ∧
      (s.links l).transport ≠ .none ∧ k.hist = []
  | .settling _ => ∃ l, k.link = some l ∧ (s.links l).uart = false ∧ Note.closed l ∉ s.log ∧
      (s.links l).transport ≠ .none ∧ k.hist = [] ∧ (s.links l).made = true
  | .running => ∃ l, k.link = some l ∧ ((s.links l).uart = true ∨ Note.closed l ∈ s.log) ∧
      (s.links l).transport ≠ .none ∧ (∃ o f, (program c k.kind).feed k.hist = some (.call o f)) ∧ k.hist ≠ []
  | .done (.returned true) => Returns (program c k.kind) k.hist () ∧
      ∃ l, k.link = some l ∧ (s.links l).transport ≠ .none
  | .done (.returned false) => k.kind = .probe
  | .done (.raised e) => (k.kind = .reconnect → e = .cancelledError) ∧
      (k.kind = .probe → probeFails e = false)

structure Inv (c : Config) (s : St) : Prop where
  link : ∀ l, LinkInv s l
  task : ∀ t, TaskInv c s t (s.tasks t)
  new : ∀ t, s.ntasks ≤ t → s.tasks t = {}

/-- All but task `t` are as they should. -/
structure InvBut (c : Config) (s : St) (t : Nat) : Prop where
  link : ∀ l, LinkInv s l
  task : ∀ t', t' ≠ t → TaskInv c s t' (s.tasks t')
  new : ∀ t', s.ntasks ≤ t' → s.tasks t' = {}

theorem Inv.but {c : Config} {s : St} (h : Inv c s) (t : Nat) : InvBut c s t :=
  ⟨h.link, fun t' _ => h.task t', h.new⟩

/-- The invariant of a link depends on it and on the notes only. -/
theorem linkInv_congr {s s' : St} {l : Nat} (h : LinkInv s l) (hl : s'.links l = s.links l)
    (hn : s.nlinks ≤ s'.nlinks) (hlog : s'.log = s.log) : LinkInv s' l := by
  constructor
  · exact fun h1 => hl.trans (h.fresh (Nat.le_trans hn h1))
  all_goals (try rw [hl]); (try rw [hlog])
  · exact h.uart
  · exact h.isOpen
  · exact h.made
  · exact h.gone
  · exact h.still
  · exact h.closed
  · exact h.once
  · exact h.reported
  · exact h.reportedOnce
  · exact h.later
  · exact h.opened

theorem snoc_split {α : Type} {log a b : List α} {n x : α} (h : log ++ [n] = a ++ x :: b) :
    (b = [] ∧ n = x ∧ a = log) ∨ ∃ b', b = b' ++ [n] ∧ log = a ++ x :: b' := by
  rcases List.eq_nil_or_concat b with rfl | ⟨b', y, rfl⟩
  · obtain ⟨h1, h2⟩ := List.append_inj' h rfl
    cases h2
    exact .inl ⟨rfl, rfl, h1.symm⟩
  · rw [List.concat_eq_append] at h ⊢
    rw [← List.cons_append, ← List.append_assoc] at h
    obtain ⟨h1, h2⟩ := List.append_inj' h rfl
    cases h2
    exact .inr ⟨b', rfl, h1⟩

/-- A note about something else. -/
theorem linkInv_note {s : St} {l : Nat} (h : LinkInv s l) {n : Note} (h1 : n ≠ .closed l)
    (h2 : n ≠ .reported l) (h3 : n ≠ .unreported l) : LinkInv (s.note n) l := by
  have m : ∀ x : Note, x ≠ n → (x ∈ s.log ++ [n] ↔ x ∈ s.log) := fun x hx => by simp [hx]
  have cnt : ∀ x : Note, x ≠ n → (s.log ++ [n]).count x = s.log.count x := fun x hx => by
    rw [List.count_append, List.count_eq_zero_of_not_mem (l := [n]) (by simp [hx])]; rfl
  refine ⟨h.fresh, h.uart, h.isOpen, h.made, h.gone, ?_, ?_, ?_, ?_, ?_, ?_, ?_⟩
  · exact fun hm hc => h.still hm (fun hh => hc ((m _ h1.symm).mpr hh))
  · exact fun hc => h.closed ((m _ h1.symm).mp hc)
  · show (s.log ++ [n]).count _ ≤ 1
    rw [cnt _ h1.symm]; exact h.once
  · rintro (hc | hc)
    · exact h.reported (.inl ((m _ h2.symm).mp hc))
    · exact h.reported (.inr ((m _ h3.symm).mp hc))
  · show (s.log ++ [n]).count _ + (s.log ++ [n]).count _ ≤ 1
    rw [cnt _ h2.symm, cnt _ h3.symm]; exact h.reportedOnce
  · intro a b hab
    rcases snoc_split hab with ⟨rfl, -, -⟩ | ⟨b', rfl, hab'⟩
    · exact ⟨List.not_mem_nil, List.not_mem_nil⟩
    · obtain ⟨k1, k2⟩ := h.later a b' hab'
      simp [k1, k2, h2.symm, h3.symm]
  · intro ht
    obtain ⟨x, hx⟩ := h.opened ht
    exact ⟨x, List.mem_append_left _ hx⟩

/-- The invariant of a task depends on its link only. -/
theorem taskInv_mono {c : Config} {s s' : St} {t : Nat} {k : Task} (h : TaskInv c s t k)
    (hn : s.nlinks ≤ s'.nlinks)
    (hl : ∀ l, k.link = some l → l < s.nlinks → (s.links l).owner = t →
      (s'.links l).owner = t ∧
      ((s.links l).transport ≠ .none → (s'.links l).transport ≠ .none) ∧
      ((s.links l).made = true → (s'.links l).made = true) ∧
      ((s.links l).uart = false → Note.closed l ∉ s.log →
        (s'.links l).uart = false ∧ Note.closed l ∉ s'.log) ∧
      ((s.links l).uart = true ∨ Note.closed l ∈ s.log →
        (s'.links l).uart = true ∨ Note.closed l ∈ s'.log)) : TaskInv c s' t k := by
  obtain ⟨h1, h2⟩ := h
  have key : ∀ l, k.link = some l → _ := fun l hkl => hl l hkl (h1 l hkl).1 (h1 l hkl).2
  refine ⟨fun l hkl => ⟨Nat.lt_of_lt_of_le (h1 l hkl).1 hn, (key l hkl).1⟩, ?_⟩
  split at h2
  · exact h2
  · exact h2
  · obtain ⟨l, hkl, k1, k2, k3, k4⟩ := h2
    obtain ⟨-, m1, -, m2, -⟩ := key l hkl
    obtain ⟨m3, m4⟩ := m2 k1 k2
    exact ⟨l, hkl, m3, m4, m1 k3, k4⟩
  · obtain ⟨l, hkl, k1, k2, k3, k4, k5⟩ := h2
    obtain ⟨-, m1, m5, m2, -⟩ := key l hkl
    obtain ⟨m3, m4⟩ := m2 k1 k2
    exact ⟨l, hkl, m3, m4, m1 k3, k4, m5 k5⟩
  · obtain ⟨l, hkl, k1, k2, k3⟩ := h2
    obtain ⟨-, m1, -, -, m2⟩ := key l hkl
    exact ⟨l, hkl, m2 k1, m1 k2, k3⟩
  · obtain ⟨k1, l, hkl, k2⟩ := h2
    exact ⟨k1, l, hkl, (key l hkl).2.1 k2⟩
  · exact h2
  · exact h2

theorem taskInv_new {c : Config} {s : St} {t : Nat} {k : Task} (h1 : k.pc = .ready)
    (h2 : k.link = none) (h3 : k.hist = []) : TaskInv c s t k := by
  constructor
  · intro l hl
    rw [h2] at hl
    cases hl
  · rw [h1]
    exact ⟨h2, h3⟩

/-- A task is replaced. -/
theorem inv_setTask {c : Config} {s : St} {t : Nat} {k : Task} (h : InvBut c s t) (ht : t < s.ntasks)
    (hk : TaskInv c s t k) : Inv c (s.setTask t k) := by
  refine ⟨fun l => linkInv_congr (h.link l) rfl (Nat.le_refl _) rfl, fun t' => ?_, fun t' h' => ?_⟩
  · have same : ∀ k', TaskInv c s t' k' → TaskInv c (s.setTask t k) t' k' := fun k' hk' =>
      taskInv_mono hk' (Nat.le_refl _) fun l _ _ ho => ⟨ho, id, id, fun a b => ⟨a, b⟩, id⟩
    by_cases he : t' = t
    · subst he
      show TaskInv c _ t' (upd s.tasks t' k t')
      rw [upd_same]
      exact same k hk
    · show TaskInv c _ t' (upd s.tasks t k t')
      rw [upd_other he]
      exact same _ (h.task t' he)
  · show upd s.tasks t k t' = _
    have h' : s.ntasks ≤ t' := h'
    rw [upd_other (by omega)]
    exact h.new t' h'

theorem closeLink_tasks (s : St) (l : Nat) : (s.closeLink l).tasks = s.tasks := by
  unfold St.closeLink
  dsimp only
  split <;> rfl

theorem closeLink_ntasks (s : St) (l : Nat) : (s.closeLink l).ntasks = s.ntasks := by
  unfold St.closeLink
  dsimp only
  split <;> rfl

theorem closeLink_nlinks (s : St) (l : Nat) : (s.closeLink l).nlinks = s.nlinks := by
  unfold St.closeLink
  dsimp only
  split <;> rfl

theorem closeLink_links {s : St} {l l' : Nat} (h : l' ≠ l) : (s.closeLink l).links l' = s.links l' := by
  unfold St.closeLink
  dsimp only
  split
  · exact upd_other h
  · rfl

/-- `close` keeps the invariants of links. -/
theorem linkInv_close {s : St} (l : Nat) (h : ∀ l, LinkInv s l) : ∀ l', LinkInv (s.closeLink l) l' := by
  intro l'
  unfold St.closeLink
  dsimp only
  split
  · next hu =>
    by_cases hne : l' = l
    · subst hne
      have hl := h l'
      have hnc : Note.closed l' ∉ s.log := fun hc => by
        have := (hl.closed hc).2.2.1
        rw [hu] at this
        cases this
      have hmade := hl.uart hu
      have htr := hl.made hmade
      have hnr : Note.reported l' ∈ s.log ∨ Note.unreported l' ∈ s.log → _ := hl.reported
      refine ⟨?_, ?_, ?_, ?_, ?_, ?_, ?_, ?_, ?_, ?_, ?_, ?_⟩
      all_goals simp only [St.note, St.setLink, upd_same]
      · intro hh
        have := hl.fresh hh
        rw [this] at hu
        cases hu
      · exact nofun
      · exact nofun
      · intro _
        split
        · exact nofun
        · exact htr
      · exact fun _ => hmade
      · intro _ hc
        exact absurd (List.mem_append_right _ (List.mem_singleton_self _)) hc
      · intro _
        refine ⟨hmade, trivial, trivial, ?_⟩
        split
        · exact nofun
        · next hh => exact hh
      · rw [List.count_append, List.count_eq_zero_of_not_mem hnc]
        simp
      · intro hr
        have := hnr (by simpa using hr)
        rw [if_neg (by rw [this]; exact nofun)]
        exact this
      · rw [List.count_append, List.count_append]
        have := hl.reportedOnce
        simpa using this
      · intro a b hab
        rcases snoc_split hab with ⟨rfl, -, -⟩ | ⟨b', rfl, hab'⟩
        · exact ⟨List.not_mem_nil, List.not_mem_nil⟩
        · exact absurd (hab' ▸ List.mem_append_right _ (.head _)) hnc
      · intro _
        obtain ⟨x, hx⟩ := hl.opened htr
        exact ⟨x, List.mem_append_left _ hx⟩
    · refine linkInv_note (s := s.setLink l _) (linkInv_congr (h l') (upd_other hne) (Nat.le_refl _) rfl) ?_ ?_ ?_
      · intro hh
        cases hh
        exact hne rfl
      · exact nofun
      · exact nofun
  · exact h l'

theorem closeLink_task {c : Config} {s : St} {t : Nat} {k : Task} (l : Nat) (hinv : ∀ l, LinkInv s l)
    (h : TaskInv c s t k) : TaskInv c (s.closeLink l) t k := by
  refine taskInv_mono h (Nat.le_of_eq (closeLink_nlinks s l).symm) fun l' hl' hlt ho => ?_
  by_cases hne : l' = l
  · subst hne
    unfold St.closeLink
    dsimp only
    split
    · next hu =>
      have htr := (hinv l').made ((hinv l').uart hu)
      simp only [St.note, St.setLink, upd_same]
      refine ⟨ho, fun _ => ?_, id, fun h1 _ => ?_, fun _ => .inr (List.mem_append_right _ (List.mem_singleton_self _))⟩
      · split
        · exact nofun
        · exact htr
      · rw [hu] at h1
        cases h1
    · exact ⟨ho, id, id, fun a b => ⟨a, b⟩, id⟩
  · rw [closeLink_links hne]
    have hc : Note.closed l' ∈ (s.closeLink l).log ↔ Note.closed l' ∈ s.log := by
      unfold St.closeLink
      dsimp only
      split
      · simp only [St.note, St.setLink, List.mem_append, List.mem_singleton, Note.closed.injEq]
        exact ⟨fun h => h.resolve_right hne, .inl⟩
      · exact Iff.rfl
    rw [hc]
    exact ⟨ho, id, id, fun a b => ⟨a, b⟩, id⟩

theorem invBut_close {c : Config} {s : St} {t : Nat} (l : Nat) (h : InvBut c s t) :
    InvBut c (s.closeLink l) t := by
  refine ⟨linkInv_close l h.link, fun t' ht' => ?_, fun t' ht' => ?_⟩
  · rw [closeLink_tasks]
    exact closeLink_task l h.link (h.task t' ht')
  · rw [closeLink_tasks]
    rw [closeLink_ntasks] at ht'
    exact h.new t' ht'

theorem inv_close {c : Config} {s : St} (l : Nat) (h : Inv c s) : Inv c (s.closeLink l) := by
  refine ⟨linkInv_close l h.link, fun t' => ?_, fun t' ht' => ?_⟩
  · rw [closeLink_tasks]
    exact closeLink_task l h.link (h.task t')
  · rw [closeLink_tasks]
    rw [closeLink_ntasks] at ht'
    exact h.new t' ht'

theorem closeApi_eq (s : St) : s.closeApi = s ∨ ∃ l, s.api = some l ∧ s.closeApi = s.closeLink l := by
  unfold St.closeApi
  split
  · next l h => exact .inr ⟨l, h, rfl⟩
  · exact .inl rfl

theorem closeOwn_eq (s : St) (t : Nat) :
    s.closeOwn t = s ∨ ∃ l, (s.tasks t).link = some l ∧ s.closeOwn t = s.closeLink l := by
  unfold St.closeOwn
  split
  · next l h => exact .inr ⟨l, h, rfl⟩
  · exact .inl rfl

/-- Closing some link or none, then replacing a task. -/
theorem inv_close_set {c : Config} {s s' : St} {t : Nat} {k : Task} (h : InvBut c s t)
    (hs : s' = s ∨ ∃ l, s' = s.closeLink l) (ht : t < s.ntasks) (hk : TaskInv c s t k) :
    Inv c (s'.setTask t k) := by
  rcases hs with rfl | ⟨l, rfl⟩
  · exact inv_setTask h ht hk
  · exact inv_setTask (invBut_close l h) (by rw [closeLink_ntasks]; exact ht)
      (closeLink_task l h.link hk)

theorem invBut_setTask {c : Config} {s : St} {t : Nat} (h : InvBut c s t) (ht : t < s.ntasks) (k : Task) :
    InvBut c (s.setTask t k) t := by
  refine ⟨fun l => linkInv_congr (h.link l) rfl (Nat.le_refl _) rfl, fun t' he => ?_, fun t' h' => ?_⟩
  · show TaskInv c _ t' (upd s.tasks t k t')
    rw [upd_other he]
    exact taskInv_mono (h.task t' he) (Nat.le_refl _) fun l _ _ ho => ⟨ho, id, id, fun a b => ⟨a, b⟩, id⟩
  · show upd s.tasks t k t' = _
    have h' : s.ntasks ≤ t' := h'
    rw [upd_other (by omega)]
    exact h.new t' h'

theorem setPc_eq {s s' : St} (t : Nat) (pc : Pc) (h : s' = s ∨ ∃ l, s' = s.closeLink l) :
    s'.setPc t pc = s'.setTask t { s.tasks t with pc := pc } := by
  unfold St.setPc
  rcases h with rfl | ⟨l, rfl⟩
  · rfl
  · rw [closeLink_tasks]

theorem closeApi_cases (s : St) : s.closeApi = s ∨ ∃ l, s.closeApi = s.closeLink l := by
  rcases closeApi_eq s with h | ⟨l, -, h⟩
  · exact .inl h
  · exact .inr ⟨l, h⟩

theorem closeOwn_cases (s : St) (t : Nat) : s.closeOwn t = s ∨ ∃ l, s.closeOwn t = s.closeLink l := by
  rcases closeOwn_eq s t with h | ⟨l, -, h⟩
  · exact .inl h
  · exact .inr ⟨l, h⟩

theorem inv_finish {c : Config} {s : St} {t : Nat} (h : InvBut c s t) (ht : t < s.ntasks)
    (hk : TaskInv c s t { s.tasks t with pc := .done (.returned true) }) : Inv c (s.finish t) := by
  unfold St.finish
  split
  · rw [setPc_eq t _ (closeOwn_cases s t)]
    exact inv_close_set h (closeOwn_cases s t) ht hk
  · exact inv_setTask h ht hk

theorem inv_fail {c : Config} {s : St} {t : Nat} (h : InvBut c s t) (ht : t < s.ntasks)
    (hl : ∀ l, (s.tasks t).link = some l → l < s.nlinks ∧ (s.links l).owner = t) (e : PyErr) :
    Inv c (s.fail t e) := by
  unfold St.fail
  split
  · next hk =>
    refine inv_setTask h ht ⟨hl, fun h => ?_, fun h => ?_⟩
    · rw [hk] at h; cases h
    · rw [hk] at h; cases h
  · next hk =>
    split
    · next he =>
      refine inv_setTask h ht ⟨hl, fun _ => he, fun h => ?_⟩
      rw [hk] at h; cases h
    · rw [setPc_eq t _ (closeApi_cases s)]
      exact inv_close_set h (closeApi_cases s) ht ⟨hl, hk⟩
  · next hk =>
    rw [setPc_eq t _ (closeOwn_cases s t)]
    refine inv_close_set h (closeOwn_cases s t) ht ⟨hl, ?_⟩
    by_cases hf : probeFails e = true
    · simp only [hf, if_true]
      exact hk
    · simp only [hf]
      refine ⟨fun h => ?_, fun _ => by simpa using hf⟩
      rw [hk] at h; cases h

theorem inv_resume {c : Config} {s : St} {t l : Nat} (h : InvBut c s t) (ht : t < s.ntasks)
    (hl : (s.tasks t).link = some l) (hlt : l < s.nlinks) (ho : (s.links l).owner = t) {a : Act}
    (hnone : (program c (s.tasks t).kind).feed ((s.tasks t).hist ++ [a]) = none → Inv c s)
    (hok : (∀ e, (program c (s.tasks t).kind).feed ((s.tasks t).hist ++ [a]) ≠ some (.raise e)) →
      ((s.links l).uart = true ∨ Note.closed l ∈ s.log) ∧ (s.links l).transport ≠ .none) :
    Inv c (s.resume c t a) := by
  have hlink : ∀ l', (s.tasks t).link = some l' → l' < s.nlinks ∧ (s.links l').owner = t := by
    intro l' hl'
    rw [hl] at hl'
    cases hl'
    exact ⟨hlt, ho⟩
  unfold St.resume
  dsimp only
  split
  · next hf => exact hnone hf
  · next hf =>
    obtain ⟨k1, k2⟩ := hok (fun e he => by rw [hf] at he; cases he)
    exact inv_setTask h ht ⟨hlink, l, hl, k1, k2, ⟨_, _, hf⟩, by simp⟩
  · next u hf =>
    obtain ⟨k1, k2⟩ := hok (fun e he => by rw [hf] at he; cases he)
    refine inv_finish (invBut_setTask h ht _) ht ?_
    show TaskInv c _ t { upd s.tasks t _ t with pc := _ }
    rw [upd_same]
    exact ⟨hlink, hf, l, hl, k2⟩
  · next e hf =>
    refine inv_fail (invBut_setTask h ht _) ht ?_ e
    show ∀ l', (upd s.tasks t _ t).link = some l' → _
    rw [upd_same]
    exact hlink

theorem feed_connect (c : Config) (k : Kind) (e : PyErr) :
    (program c k).feed ([] ++ [⟨.connect, .error e⟩]) = some (.raise e) := by
  cases k <;> rfl

theorem feed_connected (c : Config) (k : Kind) :
    (program c k).feed ([] ++ [⟨.connect, .ok ()⟩]) ≠ none := by
  cases k
  · exact fun h => by cases h
  · exact fun h => by cases h
  · exact fun h => by cases h

theorem linkInv_default {s : St} {l : Nat} (hl : s.links l = {}) (hlog : ∀ n ∈ s.log, n ≠ .closed l ∧
    n ≠ .reported l ∧ n ≠ .unreported l) : LinkInv s l := by
  have h1 : Note.closed l ∉ s.log := fun h => (hlog _ h).1 rfl
  have h2 : Note.reported l ∉ s.log := fun h => (hlog _ h).2.1 rfl
  have h3 : Note.unreported l ∉ s.log := fun h => (hlog _ h).2.2 rfl
  refine ⟨fun _ => hl, ?_, ?_, ?_, ?_, ?_, fun h => absurd h h1, ?_, fun h => (h.elim h2 h3).elim, ?_, ?_, ?_⟩
  · rw [hl]; exact nofun
  · rw [hl]; exact nofun
  · rw [hl]; exact nofun
  · rw [hl]; exact nofun
  · rw [hl]; exact nofun
  · rw [List.count_eq_zero_of_not_mem h1]; exact Nat.zero_le _
  · rw [List.count_eq_zero_of_not_mem h2, List.count_eq_zero_of_not_mem h3]; exact Nat.zero_le _
  · intro a b hab
    exact absurd (hab ▸ List.mem_append_right _ (.head _)) h1
  · rw [hl]; exact fun h => absurd rfl h

/-- No notes about links that do not exist yet. -/
theorem fresh_log {s : St} (h : ∀ l, LinkInv s l) {l : Nat} (hl : s.nlinks ≤ l) :
    ∀ n ∈ s.log, n ≠ .closed l ∧ n ≠ .reported l ∧ n ≠ .unreported l := by
  have hd := (h l).fresh hl
  refine fun n hn => ⟨?_, ?_, ?_⟩
  · rintro rfl
    have := ((h l).closed hn).1
    rw [hd] at this
    cases this
  · rintro rfl
    have := (h l).reported (.inl hn)
    rw [hd] at this
    cases this
  · rintro rfl
    have := (h l).reported (.inr hn)
    rw [hd] at this
    cases this

theorem inv_connect {c : Config} {s : St} {t : Nat} (h : Inv c s) (ht : t < s.ntasks)
    (ports : List PortInfo) (opens : Option PyErr) (d : Nat) : Inv c (s.connect c t ports opens d) := by
  have hfresh := fresh_log h.link (Nat.le_refl s.nlinks)
  -- opening failed
  have bad : ∀ e, Inv c ((({ s with nlinks := s.nlinks + 1, now := s.now + d }.setLink s.nlinks
      { owner := t }).setTask t { s.tasks t with pc := .connecting, link := some s.nlinks, hist := [] }).resume
      c t ⟨.connect, .error e⟩) := by
    intro e
    have hb : InvBut c ({ s with nlinks := s.nlinks + 1, now := s.now + d }.setLink s.nlinks
        { owner := t }) t := by
      refine ⟨fun l => ?_, fun t' ht' => ?_, h.new⟩
      · by_cases hl : l = s.nlinks
        · subst hl
          have hd := (h.link s.nlinks)
          have hd0 := hd.fresh (Nat.le_refl _)
          have : LinkInv { s with nlinks := s.nlinks } s.nlinks := hd
          refine ⟨fun hh => ?_, ?_, ?_, ?_, ?_, ?_, ?_, hd.once, ?_, hd.reportedOnce, hd.later, ?_⟩
          · exact absurd hh (Nat.not_succ_le_self _)
          all_goals simp only [St.setLink, upd_same]
          · exact nofun
          · exact nofun
          · exact nofun
          · exact nofun
          · exact nofun
          · exact fun hh => absurd rfl (hfresh _ hh).1
          · rintro (hh | hh)
            · exact absurd rfl (hfresh _ hh).2.1
            · exact absurd rfl (hfresh _ hh).2.2
          · exact fun hh => absurd rfl hh
        · exact linkInv_congr (h.link l) (upd_other hl) (Nat.le_succ _) rfl
      · refine taskInv_mono (h.task t') (Nat.le_succ _) fun l hl hlt ho => ?_
        simp only [St.setLink, upd_other (Nat.ne_of_lt hlt)]
        exact ⟨ho, id, id, fun a b => ⟨a, b⟩, id⟩
    refine inv_resume (l := s.nlinks) (invBut_setTask hb ht _) ht ?_ (Nat.lt_succ_self _) ?_ ?_ ?_
    · show (upd s.tasks t _ t).link = _
      rw [upd_same]
    · show (upd s.links s.nlinks _ s.nlinks).owner = t
      rw [upd_same]
    · intro hn
      simp only [St.setTask, St.setLink, upd_same] at hn
      rw [feed_connect] at hn
      cases hn
    · intro hn
      simp only [St.setTask, St.setLink, upd_same] at hn
      exact absurd (feed_connect _ _ _) (hn e)
  unfold St.connect
  dsimp only
  split
  · next x _ =>
    have hb : InvBut c (({ s with nlinks := s.nlinks + 1, now := s.now + d }.setLink s.nlinks
        { owner := t, transport := .opened }).note (.opened s.nlinks x)) t := by
      have hm : ∀ n, (∀ l x, n ≠ Note.opened l x) → (n ∈ s.log ++ [.opened s.nlinks x] ↔ n ∈ s.log) :=
        fun n hn => by simp [hn]
      refine ⟨fun l => ?_, fun t' ht' => ?_, h.new⟩
      · by_cases hl : l = s.nlinks
        · subst hl
          have hd := (h.link s.nlinks)
          refine ⟨fun hh => ?_, ?_, ?_, ?_, ?_, ?_, ?_, ?_, ?_, ?_, ?_, ?_⟩
          · exact absurd hh (Nat.not_succ_le_self _)
          all_goals simp only [St.note, St.setLink, upd_same]
          · exact nofun
          · exact nofun
          · exact nofun
          · exact nofun
          · exact nofun
          · exact fun hh => absurd rfl (hfresh _ ((hm _ (fun _ _ h => by cases h)).mp hh)).1
          · rw [List.count_append, List.count_eq_zero_of_not_mem (l := [_]) (by simp)]
            exact hd.once
          · rintro (hh | hh)
            · exact absurd rfl (hfresh _ ((hm _ (fun _ _ h => by cases h)).mp hh)).2.1
            · exact absurd rfl (hfresh _ ((hm _ (fun _ _ h => by cases h)).mp hh)).2.2
          · rw [List.count_append, List.count_append, List.count_eq_zero_of_not_mem (l := [_]) (by simp),
              List.count_eq_zero_of_not_mem (l := [_]) (by simp)]
            exact hd.reportedOnce
          · intro a b hab
            exact absurd rfl (hfresh _ ((hm _ (fun _ _ h => by cases h)).mp (hab ▸ List.mem_append_right _ (.head _)))).1
          · exact fun _ => ⟨x, List.mem_append_right _ (List.mem_singleton_self _)⟩
        · refine linkInv_note ?_ nofun nofun nofun
          exact linkInv_congr (h.link l) (upd_other hl) (Nat.le_succ _) rfl
      · refine taskInv_mono (h.task t') (Nat.le_succ _) fun l hl hlt ho => ?_
        simp only [St.note, St.setLink, upd_other (Nat.ne_of_lt hlt), hm (.closed l) (fun _ _ h => by cases h)]
        exact ⟨ho, id, id, fun a b => ⟨a, b⟩, id⟩
    refine inv_setTask hb ht ⟨fun l hl => ?_, s.nlinks, rfl, ?_, ?_, ?_, rfl⟩
    · cases hl
      refine ⟨Nat.lt_succ_self _, ?_⟩
      show (upd s.links s.nlinks _ s.nlinks).owner = t
      rw [upd_same]
    · show (upd s.links s.nlinks _ s.nlinks).uart = false
      rw [upd_same]
    · show _ ∉ s.log ++ [_]
      intro hh
      rcases List.mem_append.mp hh with hh | hh
      · exact (hfresh _ hh).1 rfl
      · cases List.mem_singleton.mp hh
    · show (upd s.links s.nlinks _ s.nlinks).transport ≠ .none
      rw [upd_same]
      exact nofun
  · exact bad _
  · exact bad _

theorem inv_begin {c : Config} {s : St} {t : Nat} (h : Inv c s) (ht : t < s.ntasks)
    (ports : List PortInfo) (opens : Option PyErr) (d : Nat) : Inv c (s.begin c t ports opens d) := by
  unfold St.begin
  split
  · next hk hp =>
    rw [setPc_eq t _ (closeApi_cases s)]
    refine inv_close_set (h.but t) (closeApi_cases s) ht ⟨(h.task t).1, hk⟩
  · split
    · exact inv_connect h ht _ _ _
    · exact h
  · exact inv_connect h ht _ _ _
  · exact inv_connect h ht _ _ _
  · exact h

theorem inv_settled {c : Config} {s : St} {t u : Nat} (h : Inv c s) (ht : t < s.ntasks)
    (hpc : (s.tasks t).pc = .settling u) : Inv c (s.connected c t) := by
  obtain ⟨hl, hp⟩ := h.task t
  rw [hpc] at hp
  obtain ⟨l, hkl, hu, hc, htr, hh, hm⟩ := hp
  obtain ⟨hlt, ho⟩ := hl l hkl
  -- the link after `connect` has returned
  have base : ∀ b, InvBut c (s.setLink l { s.links l with uart := true, app := b }) t := by
    intro b
    refine ⟨fun l' => ?_, fun t' ht' => ?_, h.new⟩
    · by_cases hne : l' = l
      · subst hne
        have hi := h.link l'
        refine ⟨fun hh => ?_, ?_, ?_, ?_, ?_, ?_, ?_, hi.once, ?_, hi.reportedOnce, hi.later, ?_⟩
        · exact absurd hlt (Nat.not_lt.mpr hh)
        all_goals simp only [St.setLink, upd_same]
        · exact fun _ => hm
        · exact fun _ => hm
        · exact hi.made
        · exact hi.gone
        · exact hi.still
        · exact fun hh => absurd hh hc
        · exact hi.reported
        · exact hi.opened
      · exact linkInv_congr (h.link l') (upd_other hne) (Nat.le_refl _) rfl
    · refine taskInv_mono (h.task t') (Nat.le_refl _) fun l' _ _ ho' => ?_
      have hne : l' ≠ l := fun he => ht' (by rw [← ho', he, ho])
      simp only [St.setLink, upd_other hne]
      exact ⟨ho', id, id, fun a b => ⟨a, b⟩, id⟩
  have res : ∀ (b : Bool) (api : Option Nat), Inv c (St.resume c
      { s.setLink l { s.links l with uart := true, app := b } with api := api } t ⟨.connect, .ok ()⟩) := by
    intro b api
    have hb : InvBut c { s.setLink l { s.links l with uart := true, app := b } with api := api } t :=
      ⟨fun l' => linkInv_congr ((base b).link l') rfl (Nat.le_refl _) rfl,
       fun t' ht' => taskInv_mono ((base b).task t' ht') (Nat.le_refl _)
         fun l _ _ ho => ⟨ho, id, id, fun a b => ⟨a, b⟩, id⟩, h.new⟩
    refine inv_resume (l := l) hb ht hkl hlt ?_ ?_ ?_
    · show (upd s.links l _ l).owner = t
      rw [upd_same]
      exact ho
    · intro hn
      have hn : (program c (s.tasks t).kind).feed ((s.tasks t).hist ++ [⟨.connect, .ok ()⟩]) = none := hn
      rw [hh] at hn
      exact absurd hn (feed_connected _ _)
    · intro _
      constructor
      · left
        show (upd s.links l _ l).uart = true
        rw [upd_same]
      · show (upd s.links l _ l).transport ≠ .none
        rw [upd_same]
        exact htr
  unfold St.connected
  split
  · next l' h1 h2 =>
    rw [hkl] at h1
    cases h1
    exact res (s.links l).app s.api
  · next l' h1 h2 =>
    rw [hkl] at h1
    cases h1
    exact res true (some l)
  · exact h

theorem inv_spawn {c : Config} {s : St} (h : Inv c s) (k : Kind) : Inv c (s.spawn k) := by
  refine ⟨fun l => linkInv_congr (h.link l) rfl (Nat.le_refl _) rfl, fun t => ?_, fun t ht => ?_⟩
  · by_cases ht : t = s.ntasks
    · subst ht
      show TaskInv c _ _ (upd s.tasks s.ntasks _ s.ntasks)
      rw [upd_same]
      exact taskInv_new rfl rfl rfl
    · show TaskInv c _ _ (upd s.tasks s.ntasks _ t)
      rw [upd_other ht]
      exact taskInv_mono (h.task t) (Nat.le_refl _) fun l _ _ ho => ⟨ho, id, id, fun a b => ⟨a, b⟩, id⟩
  · have ht : s.ntasks + 1 ≤ t := ht
    show upd s.tasks s.ntasks _ t = _
    rw [upd_other (by omega)]
    exact h.new t (by omega)

/-- A link changes, its notes do not. -/
theorem inv_setLink {c : Config} {s : St} {l : Nat} {k : Link} (h : Inv c s)
    (ho : k.owner = (s.links l).owner) (hu : k.uart = (s.links l).uart)
    (hm : (s.links l).made = true → k.made = true)
    (ht : (s.links l).transport ≠ .none → k.transport ≠ .none)
    (hl : LinkInv (s.setLink l k) l) : Inv c (s.setLink l k) := by
  refine ⟨fun l' => ?_, fun t => ?_, h.new⟩
  · by_cases hne : l' = l
    · subst hne; exact hl
    · exact linkInv_congr (h.link l') (upd_other hne) (Nat.le_refl _) rfl
  · refine taskInv_mono (h.task t) (Nat.le_refl _) fun l' _ _ ho' => ?_
    by_cases hne : l' = l
    · subst hne
      simp only [St.setLink, upd_same, ho, hu]
      exact ⟨ho', ht, hm, fun a b => ⟨a, b⟩, id⟩
    · simp only [St.setLink, upd_other hne]
      exact ⟨ho', id, id, fun a b => ⟨a, b⟩, id⟩

theorem inv_made {c : Config} {s : St} {l : Nat} (h : Inv c s) (h1 : (s.links l).transport = .opened)
    (h2 : (s.links l).made = false) :
    Inv c (s.setLink l { s.links l with made := true, isOpen := true }) := by
  have hi := h.link l
  have hc : Note.closed l ∉ s.log := fun hc => by
    have := (hi.closed hc).1
    rw [h2] at this
    cases this
  refine inv_setLink h rfl rfl (fun _ => rfl) id ⟨fun hh => ?_, ?_, ?_, ?_, ?_, ?_, ?_, hi.once, ?_,
    hi.reportedOnce, hi.later, ?_⟩
  · have := hi.fresh hh
    rw [this] at h1
    cases h1
  all_goals simp only [St.setLink, upd_same]
  · exact fun _ => trivial
  · exact fun _ => trivial
  · intro _
    rw [h1]
    exact nofun
  · exact fun _ => trivial
  · exact fun _ _ => trivial
  · exact fun hh => absurd hh hc
  · exact hi.reported
  · exact hi.opened

theorem inv_break {c : Config} {s : St} {l : Nat} (h : Inv c s) (h1 : (s.links l).transport = .opened)
    (h2 : (s.links l).made = true) :
    Inv c (s.setLink l { s.links l with transport := .closing }) := by
  have hi := h.link l
  refine inv_setLink h rfl rfl id (fun _ => nofun) ⟨fun hh => ?_, ?_, ?_, ?_, ?_, ?_, ?_, hi.once, ?_,
    hi.reportedOnce, hi.later, ?_⟩
  · have := hi.fresh hh
    rw [this] at h1
    cases h1
  all_goals simp only [St.setLink, upd_same]
  · exact hi.uart
  · exact hi.isOpen
  · exact fun _ => nofun
  · exact fun _ => h2
  · exact hi.still
  · exact fun hh => ⟨(hi.closed hh).1, (hi.closed hh).2.1, (hi.closed hh).2.2.1, nofun⟩
  · intro hh
    have := hi.reported hh
    rw [h1] at this
    cases this
  · intro _
    refine hi.opened ?_
    rw [h1]
    exact nofun

theorem inv_closing {c : Config} {s : St} {l : Nat} (h : Inv c s)
    (h1 : (s.links l).transport = .closing) :
    Inv c (s.setLink l { s.links l with transport := .closed }) := by
  have hi := h.link l
  refine inv_setLink h rfl rfl id (fun _ => nofun) ⟨fun hh => ?_, ?_, ?_, ?_, ?_, ?_, ?_, hi.once, ?_,
    hi.reportedOnce, hi.later, ?_⟩
  · have := hi.fresh hh
    rw [this] at h1
    cases h1
  all_goals simp only [St.setLink, upd_same]
  · exact hi.uart
  · exact hi.isOpen
  · exact fun _ => nofun
  · exact fun _ => hi.gone (.inl h1)
  · exact hi.still
  · exact fun hh => ⟨(hi.closed hh).1, (hi.closed hh).2.1, (hi.closed hh).2.2.1, nofun⟩
  · exact fun _ => trivial
  · intro _
    refine hi.opened ?_
    rw [h1]
    exact nofun

/-- The note that a connection is lost: it was not closed before and there is no such note. -/
theorem linkInv_report {s : St} {l : Nat} (h : LinkInv s l) (ht : (s.links l).transport = .closed)
    (hc : Note.closed l ∉ s.log) (hr : Note.reported l ∉ s.log) (hu : Note.unreported l ∉ s.log)
    {n : Note} (hn : n = .reported l ∨ n = .unreported l) : LinkInv (s.note n) l := by
  have hne : n ≠ .closed l := by rcases hn with rfl | rfl <;> exact nofun
  have hm : Note.closed l ∈ s.log ++ [n] ↔ Note.closed l ∈ s.log := by simp [hne.symm]
  refine ⟨h.fresh, h.uart, h.isOpen, h.made, h.gone, ?_, ?_, ?_, fun _ => ht, ?_, ?_, ?_⟩
  · exact fun a b => h.still a (fun hh => b (hm.mpr hh))
  · exact fun hh => h.closed (hm.mp hh)
  · show (s.log ++ [n]).count _ ≤ 1
    rw [List.count_append, List.count_eq_zero_of_not_mem (l := [n]) (by simp [hne.symm])]
    exact h.once
  · show (s.log ++ [n]).count _ + (s.log ++ [n]).count _ ≤ 1
    rw [List.count_append, List.count_append, List.count_eq_zero_of_not_mem hr,
      List.count_eq_zero_of_not_mem hu]
    rcases hn with rfl | rfl <;> simp
  · intro a b hab
    have hab : s.log ++ [n] = a ++ .closed l :: b := hab
    exact absurd (hm.mp (hab ▸ List.mem_append_right _ (.head _))) hc
  · intro hh
    obtain ⟨x, hx⟩ := h.opened hh
    exact ⟨x, List.mem_append_left _ hx⟩

/-- A note that closes nothing. -/
theorem inv_note {c : Config} {s : St} {n : Note} (h : Inv c s) (hn : ∀ l, n ≠ .closed l)
    (hl : ∀ l, LinkInv (s.note n) l) : Inv c (s.note n) := by
  refine ⟨hl, fun t => ?_, h.new⟩
  refine taskInv_mono (h.task t) (Nat.le_refl _) fun l _ _ ho => ?_
  have hm : Note.closed l ∈ (s.note n).log ↔ Note.closed l ∈ s.log := by
    simp [St.note, (hn l).symm]
  rw [hm]
  exact ⟨ho, id, id, fun a b => ⟨a, b⟩, id⟩

theorem inv_lost {c : Config} {s : St} {l : Nat} (h : Inv c s)
    (h1 : (s.links l).transport = .closing) : Inv c (s.lost l) := by
  have hi := h.link l
  have hr : Note.reported l ∉ s.log := fun hh => by
    have := hi.reported (.inl hh)
    rw [h1] at this
    cases this
  have hu : Note.unreported l ∉ s.log := fun hh => by
    have := hi.reported (.inr hh)
    rw [h1] at this
    cases this
  have hc' := inv_closing h h1
  have note : ∀ {s' : St} {n : Note}, Inv c s' → s'.log = s.log → (s'.links l).transport = .closed →
      (s.links l).isOpen = true → (n = .reported l ∨ n = .unreported l) → Inv c (s'.note n) := by
    intro s' n hs' hlog htr hop hn
    have hnc : Note.closed l ∉ s.log := fun hh => by
      have := (hi.closed hh).2.1
      rw [hop] at this
      cases this
    refine inv_note hs' (fun l' => by rcases hn with rfl | rfl <;> exact nofun) fun l' => ?_
    by_cases hne : l' = l
    · subst hne
      exact linkInv_report (hs'.link l') htr (by rw [hlog]; exact hnc) (by rw [hlog]; exact hr)
        (by rw [hlog]; exact hu) hn
    · refine linkInv_note (hs'.link l') ?_ ?_ ?_
      · rcases hn with rfl | rfl <;> exact nofun
      · rcases hn with rfl | rfl
        · exact fun he => hne (Note.reported.inj he).symm
        · exact nofun
      · rcases hn with rfl | rfl
        · exact nofun
        · exact fun he => hne (Note.unreported.inj he).symm
  have htr : ((s.setLink l { s.links l with transport := .closed }).links l).transport = .closed := by
    simp only [St.setLink, upd_same]
  unfold St.lost
  dsimp only
  split
  · next hop =>
    split
    · exact note (inv_spawn hc' .reconnect) rfl htr hop (.inl rfl)
    · exact note hc' rfl htr hop (.inr rfl)
  · exact hc'

theorem running_lt {c : Config} {s : St} {t : Nat} (h : Inv c s) (hp : (s.tasks t).pc ≠ .ready) :
    t < s.ntasks := by
  rcases Nat.lt_or_ge t s.ntasks with hh | hh
  · exact hh
  · rw [h.new t hh] at hp
    exact absurd rfl hp

theorem inv_step {c : Config} {s : St} (h : Inv c s) (ev : Ev) : Inv c (step c s ev) := by
  unfold step
  split
  · exact ⟨fun l => linkInv_congr (h.link l) rfl (Nat.le_refl _) rfl, fun t => taskInv_mono (h.task t)
      (Nat.le_refl _) fun l _ _ ho => ⟨ho, id, id, fun a b => ⟨a, b⟩, id⟩, h.new⟩
  · exact inv_spawn h _
  · exact inv_spawn h _
  · rcases closeApi_cases s with hh | ⟨l, hh⟩
    · rw [hh]; exact h
    · rw [hh]; exact inv_close l h
  · split
    · next ht => exact inv_begin h ht _ _ _
    · exact h
  · dsimp only
    split
    · next hh => exact inv_made h hh.1 hh.2
    · exact h
  · next t =>
    split
    · next l hl hp =>
      split
      · next hm =>
        have ht : t < s.ntasks := running_lt h (by rw [hp]; exact nofun)
        obtain ⟨k1, k2⟩ := h.task t
        rw [hp] at k2
        obtain ⟨l', hl', k3, k4, k5, k6⟩ := k2
        rw [hl] at hl'
        cases hl'
        refine inv_note (inv_setTask (h.but t) ht ⟨k1, l, hl, k3, k4, k5, k6, hm⟩) nofun fun l' => ?_
        refine linkInv_note ?_ nofun nofun nofun
        exact linkInv_congr (h.link l') rfl (Nat.le_refl _) rfl
      · exact h
    · exact h
  · next t =>
    split
    · next u hp =>
      split
      · exact inv_settled h (running_lt h (by rw [hp]; exact nofun)) hp
      · exact h
    · exact h
  · next t a =>
    split
    · next hp =>
      have ht : t < s.ntasks := running_lt h (by rw [hp]; exact nofun)
      obtain ⟨k1, k2⟩ := h.task t
      rw [hp] at k2
      obtain ⟨l, hl, k3, k4, k5⟩ := k2
      exact inv_resume (h.but t) ht hl (k1 l hl).1 (k1 l hl).2 (fun _ => h) (fun _ => ⟨k3, k4⟩)
    · exact h
  · next t =>
    split
    · exact h
    · split
      · next ht => exact inv_fail (h.but t) ht (h.task t).1 _
      · exact h
  · next t =>
    split
    · exact h
    · split
      · next ht => exact inv_fail (h.but t) ht.1 (h.task t).1 _
      · exact h
    · exact h
  · dsimp only
    split
    · next hh => exact inv_break h hh.1 hh.2
    · exact h
  · split
    · next hh => exact inv_lost h hh
    · exact h

theorem inv_init (c : Config) : Inv c {} :=
  ⟨fun _ => linkInv_default rfl (fun _ hn => by cases hn), fun _ => taskInv_new rfl rfl rfl, fun _ _ => rfl⟩

theorem run_snoc (c : Config) (evs : List Ev) (ev : Ev) : run c (evs ++ [ev]) = step c (run c evs) ev := by
  unfold run
  rw [List.foldl_append]
  rfl

theorem run_append (c : Config) (a b : List Ev) : run c (a ++ b) = b.foldl (step c) (run c a) := by
  unfold run
  rw [List.foldl_append]

theorem run_induction {c : Config} {P : St → Prop} (h0 : P {})
    (hs : ∀ evs ev, P (run c evs) → P (step c (run c evs) ev)) (evs : List Ev) : P (run c evs) := by
  have key : ∀ n : Nat, ∀ evs : List Ev, evs.length = n → P (run c evs) := by
    intro n
    induction n with
    | zero =>
      intro evs he
      rw [List.length_eq_zero_iff.mp he]
      exact h0
    | succ n ih =>
      intro evs he
      rcases List.eq_nil_or_concat evs with rfl | ⟨b, x, rfl⟩
      · cases he
      · rw [List.concat_eq_append] at he ⊢
        rw [run_snoc]
        exact hs _ _ (ih b (by simpa using he))
  exact key _ evs rfl

theorem inv_run (c : Config) (evs : List Ev) : Inv c (run c evs) :=
  run_induction (P := Inv c) (inv_init c) (fun _ ev h => inv_step h ev) evs

/-- While a probe waits, it waits for the version. -/
theorem probe_waits {h : List Act} {o : Op} {f : Except PyErr o.Ans → Prog Unit}
    (hf : probeProg.feed h = some (.call o f)) (hne : h ≠ []) : h = [⟨.connect, .ok ()⟩] := by
  rcases feed_bind hf with ⟨p', h1, h2, h3⟩ | ⟨h1, h2, a, rfl, h3, h4⟩
  · rcases runs_op (o := .connect) ⟨p', h1⟩ with rfl | ⟨r, rfl⟩
    · exact absurd rfl hne
    · cases r with
      | ok a => cases h1; exact absurd rfl (h2 a)
      | error e => cases h1; cases h3
  · rw [returns_op (o := .connect) |>.mp h3]
    rcases feed_bind h4 with ⟨p', k1, k2, k3⟩ | ⟨k1, k2, b, rfl, k3, k4⟩
    · rcases runs_request ⟨p', k1⟩ with rfl | ⟨r, rfl⟩
      · rfl
      · cases r with
        | ok a => cases k1; exact absurd rfl (k2 a)
        | error e => cases k1; cases k3
    · cases b with
      | none =>
        have := runs_raise.mp ⟨_, k4⟩
        subst this
        cases k4
      | some r =>
        have := runs_ret.mp ⟨_, k4⟩
        subst this
        cases k4

end Zcc.Conn
