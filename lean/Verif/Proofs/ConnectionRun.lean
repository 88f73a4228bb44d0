import Verif.Proofs.Connection

/-!
# Executions of the connection system
-/

namespace Zcc.Conn

open Zcc Spec

/-! ## What ending an operation does -/

/-- The ways in which a task goes on when its operation ended: `hist` are the operations so far. -/
inductive Ended (s : St) (t : Nat) (hist : List Act) : St → Prop where
  | next : Ended s t hist (s.setTask t { s.tasks t with pc := .running, hist := hist })
  | returned (h : (s.tasks t).kind ≠ .probe) :
      Ended s t hist (s.setTask t { s.tasks t with pc := .done (.returned true), hist := hist })
  | found (h : (s.tasks t).kind = .probe) :
      Ended s t hist ((s.closeOwn t).setTask t
        { s.tasks t with pc := .done (.returned true), hist := hist })
  | raised (e : PyErr) (h : (s.tasks t).kind ≠ .probe)
      (h' : (s.tasks t).kind = .reconnect → e = .cancelledError) :
      Ended s t hist (s.setTask t { s.tasks t with pc := .done (.raised e), hist := hist })
  | again (e : PyErr) (h : (s.tasks t).kind = .reconnect) (h' : e ≠ .cancelledError) :
      Ended s t hist (s.closeApi.setTask t
        { s.tasks t with pc := .waking (s.now + 5000), hist := hist })
  | notFound (e : PyErr) (h : (s.tasks t).kind = .probe) :
      Ended s t hist ((s.closeOwn t).setTask t
        { s.tasks t with pc := .done (if probeFails e then .returned false else .raised e), hist := hist })

theorem setTask_setTask (s : St) (t : Nat) (k k' : Task) : (s.setTask t k).setTask t k' = s.setTask t k' := by
  unfold St.setTask
  congr 1
  funext j
  by_cases h : j = t
  · subst h; simp only [upd_same]
  · simp only [upd_other h]

theorem closeLink_setTask (s : St) (t l : Nat) (k : Task) :
    (s.setTask t k).closeLink l = (s.closeLink l).setTask t k := by
  unfold St.closeLink
  dsimp only [St.setTask]
  split <;> rfl

theorem closeApi_setTask (s : St) (t : Nat) (k : Task) :
    (s.setTask t k).closeApi = s.closeApi.setTask t k := by
  unfold St.closeApi
  show (match s.api with | some l => _ | none => _) = _
  cases s.api with
  | none => rfl
  | some l => exact closeLink_setTask s t l k

theorem closeOwn_setTask (s : St) (t : Nat) (k : Task) (h : k.link = (s.tasks t).link) :
    (s.setTask t k).closeOwn t = (s.closeOwn t).setTask t k := by
  unfold St.closeOwn
  have : ((s.setTask t k).tasks t).link = (s.tasks t).link := by
    show (upd s.tasks t k t).link = _
    rw [upd_same, h]
  rw [this]
  cases (s.tasks t).link with
  | none => rfl
  | some l => exact closeLink_setTask s t l k

theorem closeApi_tasks (s : St) : s.closeApi.tasks = s.tasks := by
  rcases closeApi_cases s with h | ⟨l, h⟩
  · rw [h]
  · rw [h]; exact closeLink_tasks s l

theorem closeOwn_tasks (s : St) (t : Nat) : (s.closeOwn t).tasks = s.tasks := by
  rcases closeOwn_cases s t with h | ⟨l, h⟩
  · rw [h]
  · rw [h]; exact closeLink_tasks s l

/-- What `fail` does after the history was recorded. -/
theorem fail_ended (s : St) (t : Nat) (e : PyErr) (pc : Pc) (hist : List Act) :
    Ended s t hist ((s.setTask t { s.tasks t with pc := pc, hist := hist }).fail t e) := by
  have hself : (s.setTask t { s.tasks t with pc := pc, hist := hist }).tasks t =
      { s.tasks t with pc := pc, hist := hist } := upd_same _ _ _
  unfold St.fail
  rw [hself]
  dsimp only
  split
  · next hk =>
    unfold St.setPc
    rw [setTask_setTask, hself]
    exact .raised e (by rw [hk]; exact nofun) (fun h => by rw [hk] at h; cases h)
  · next hk =>
    split
    · next he =>
      unfold St.setPc
      rw [setTask_setTask, hself]
      exact .raised e (by rw [hk]; exact nofun) (fun _ => he)
    · next he =>
      rw [closeApi_setTask]
      unfold St.setPc
      rw [setTask_setTask]
      have : (s.closeApi.setTask t { s.tasks t with pc := pc, hist := hist }).tasks t =
        { s.tasks t with pc := pc, hist := hist } := upd_same _ _ _
      rw [this]
      exact .again e hk he
  · next hk =>
    rw [closeOwn_setTask _ _ _ (by rfl)]
    unfold St.setPc
    rw [setTask_setTask]
    have : ((s.closeOwn t).setTask t { s.tasks t with pc := pc, hist := hist }).tasks t =
      { s.tasks t with pc := pc, hist := hist } := upd_same _ _ _
    rw [this]
    exact .notFound e hk

theorem setTask_self (s : St) (t : Nat) : s.setTask t (s.tasks t) = s := by
  unfold St.setTask
  have : upd s.tasks t (s.tasks t) = s.tasks := by
    funext j
    by_cases h : j = t
    · subst h; exact upd_same _ _ _
    · exact upd_other h
  rw [this]

theorem fail_ended' (s : St) (t : Nat) (e : PyErr) : Ended s t (s.tasks t).hist (s.fail t e) := by
  have := fail_ended s t e (s.tasks t).pc (s.tasks t).hist
  rwa [show ({ s.tasks t with pc := (s.tasks t).pc, hist := (s.tasks t).hist } : Task) = s.tasks t from rfl,
    setTask_self] at this

theorem resume_ended (c : Config) (s : St) (t : Nat) (a : Act) :
    s.resume c t a = s ∨ Ended s t ((s.tasks t).hist ++ [a]) (s.resume c t a) := by
  unfold St.resume
  dsimp only
  split
  · exact .inl rfl
  · exact .inr .next
  · right
    have hself : (s.setTask t { s.tasks t with pc := .running, hist := (s.tasks t).hist ++ [a] }).tasks t =
        { s.tasks t with pc := .running, hist := (s.tasks t).hist ++ [a] } := upd_same _ _ _
    unfold St.finish
    rw [hself]
    dsimp only
    split
    · next hk =>
      rw [closeOwn_setTask _ _ _ (by rfl)]
      unfold St.setPc
      rw [setTask_setTask]
      have : ((s.closeOwn t).setTask t { s.tasks t with pc := .running, hist := (s.tasks t).hist ++ [a] }).tasks t =
        { s.tasks t with pc := .running, hist := (s.tasks t).hist ++ [a] } := upd_same _ _ _
      rw [this]
      exact .found hk
    · next hk =>
      unfold St.setPc
      rw [setTask_setTask, hself]
      exact .returned hk
  · exact .inr (fail_ended s t _ _ _)

/-! ## A port that is not open stays closed -/

theorem closeLink_transport (s : St) (l l' : Nat) :
    ((s.closeLink l).links l').transport = (s.links l').transport ∨
    ((s.closeLink l).links l').transport = .closing := by
  by_cases h : l' = l
  · subst h
    unfold St.closeLink
    dsimp only
    split
    · simp only [St.note, St.setLink, upd_same]
      split
      · exact .inr rfl
      · exact .inl rfl
    · exact .inl rfl
  · rw [closeLink_links h]
    exact .inl rfl

/-- A port that was made and is not open. -/
def Shut (l : Nat) (s : St) : Prop := l < s.nlinks ∧ (s.links l).transport ≠ .opened

theorem shut_close {s : St} {l : Nat} (h : Shut l s) (l' : Nat) : Shut l (s.closeLink l') := by
  refine ⟨by rw [closeLink_nlinks]; exact h.1, ?_⟩
  rcases closeLink_transport s l' l with hh | hh
  · rw [hh]; exact h.2
  · rw [hh]; exact nofun

theorem shut_closeApi {s : St} {l : Nat} (h : Shut l s) : Shut l s.closeApi := by
  rcases closeApi_cases s with hh | ⟨l', hh⟩
  · rw [hh]; exact h
  · rw [hh]; exact shut_close h l'

theorem shut_closeOwn {s : St} {l : Nat} (h : Shut l s) (t : Nat) : Shut l (s.closeOwn t) := by
  rcases closeOwn_cases s t with hh | ⟨l', hh⟩
  · rw [hh]; exact h
  · rw [hh]; exact shut_close h l'

theorem shut_ended {s s' : St} {l t : Nat} {hist : List Act} (h : Shut l s) (he : Ended s t hist s') :
    Shut l s' := by
  cases he with
  | next => exact h
  | returned => exact h
  | found => exact shut_closeOwn h t
  | raised => exact h
  | again => exact shut_closeApi h
  | notFound => exact shut_closeOwn h t

theorem shut_resume {c : Config} {s : St} {l t : Nat} {a : Act} (h : Shut l s) : Shut l (s.resume c t a) := by
  rcases resume_ended c s t a with hh | hh
  · rw [hh]; exact h
  · exact shut_ended h hh

theorem shut_setLink {s : St} {l l' : Nat} {k : Link} (h : Shut l s)
    (hk : (s.links l').transport ≠ .opened → k.transport ≠ .opened) : Shut l (s.setLink l' k) := by
  refine ⟨h.1, ?_⟩
  by_cases hne : l = l'
  · subst hne
    simp only [St.setLink, upd_same]
    exact hk h.2
  · simp only [St.setLink, upd_other hne]
    exact h.2

theorem shut_connect {c : Config} {s : St} {l t : Nat} {ports : List PortInfo} {opens : Option PyErr} {d : Nat}
    (h : Shut l s) : Shut l (s.connect c t ports opens d) := by
  have base : ∀ k : Link, Shut l ({ s with nlinks := s.nlinks + 1, now := s.now + d }.setLink s.nlinks k) := by
    intro k
    refine ⟨Nat.lt_succ_of_lt h.1, ?_⟩
    simp only [St.setLink, upd_other (Nat.ne_of_lt h.1)]
    exact h.2
  unfold St.connect
  dsimp only
  split
  · exact base _
  · exact shut_resume (s := St.setTask _ _ _) (base _)
  · exact shut_resume (s := St.setTask _ _ _) (base _)

theorem shut_step {c : Config} {s : St} {l : Nat} (h : Shut l s) (ev : Ev) : Shut l (step c s ev) := by
  unfold step
  split
  · exact h
  · exact h
  · exact h
  · exact shut_closeApi h
  · split
    · unfold St.begin
      split
      · exact shut_closeApi h
      · split
        · exact shut_connect h
        · exact h
      · exact shut_connect h
      · exact shut_connect h
      · exact h
    · exact h
  · dsimp only
    split
    · exact shut_setLink h id
    · exact h
  · split
    · split
      · exact h
      · exact h
    · exact h
  · split
    · split
      · unfold St.connected
        split
        · exact shut_resume (s := St.setLink _ _ _) (shut_setLink h id)
        · next l' _ _ =>
          exact shut_resume (s := { s.setLink l' _ with api := some l' })
            (shut_setLink (l' := l') (k := { s.links l' with uart := true, app := true }) h id)
        · exact h
      · exact h
    · exact h
  · split
    · exact shut_resume h
    · exact h
  · split
    · exact h
    · split
      · exact shut_ended h (fail_ended' _ _ _)
      · exact h
  · split
    · exact h
    · split
      · exact shut_ended h (fail_ended' _ _ _)
      · exact h
    · exact h
  · dsimp only
    split
    · exact shut_setLink h (fun _ => nofun)
    · exact h
  · next l' =>
    split
    · unfold St.lost
      dsimp only
      have := shut_setLink (l' := l') (k := { s.links l' with transport := .closed }) h (fun _ => nofun)
      split
      · split
        · exact this
        · exact this
      · exact this
    · exact h

theorem shut_run {c : Config} {a : List Ev} {l : Nat} (h : Shut l (run c a)) (b : List Ev) :
    Shut l (run c (a ++ b)) := by
  rw [run_append]
  generalize run c a = s at h
  induction b generalizing s with
  | nil => exact h
  | cons ev b ih => exact ih _ (shut_step h ev)

/-! ## Tasks that ended, kinds of tasks, owners of links -/

theorem closeLink_owner (s : St) (l l' : Nat) : ((s.closeLink l).links l').owner = (s.links l').owner := by
  by_cases h : l' = l
  · subst h
    unfold St.closeLink
    dsimp only
    split
    · simp only [St.note, St.setLink, upd_same]
    · rfl
  · rw [closeLink_links h]

theorem closeLink_api (s : St) (l : Nat) : (s.closeLink l).api = s.api := by
  unfold St.closeLink
  dsimp only
  split <;> rfl

theorem closeApi_frame (s : St) : s.closeApi.ntasks = s.ntasks ∧ s.closeApi.nlinks = s.nlinks ∧
    s.closeApi.api = s.api ∧ ∀ l, (s.closeApi.links l).owner = (s.links l).owner := by
  rcases closeApi_cases s with h | ⟨l, h⟩
  · rw [h]; exact ⟨rfl, rfl, rfl, fun _ => rfl⟩
  · rw [h]; exact ⟨closeLink_ntasks s l, closeLink_nlinks s l, closeLink_api s l, closeLink_owner s l⟩

theorem closeOwn_frame (s : St) (t : Nat) : (s.closeOwn t).ntasks = s.ntasks ∧ (s.closeOwn t).nlinks = s.nlinks ∧
    (s.closeOwn t).api = s.api ∧ ∀ l, ((s.closeOwn t).links l).owner = (s.links l).owner := by
  rcases closeOwn_cases s t with h | ⟨l, h⟩
  · rw [h]; exact ⟨rfl, rfl, rfl, fun _ => rfl⟩
  · rw [h]; exact ⟨closeLink_ntasks s l, closeLink_nlinks s l, closeLink_api s l, closeLink_owner s l⟩

/-- What ending an operation leaves alone. -/
theorem ended_frame {s s' : St} {t : Nat} {hist : List Act} (h : Ended s t hist s') :
    s'.ntasks = s.ntasks ∧ s'.nlinks = s.nlinks ∧ s'.api = s.api ∧
    (∀ l, (s'.links l).owner = (s.links l).owner) ∧ (∀ t', t' ≠ t → s'.tasks t' = s.tasks t') ∧
    ∃ pc, s'.tasks t = { s.tasks t with pc := pc, hist := hist } := by
  cases h with
  | next => exact ⟨rfl, rfl, rfl, fun _ => rfl, fun t' h => upd_other h, _, upd_same _ _ _⟩
  | returned => exact ⟨rfl, rfl, rfl, fun _ => rfl, fun t' h => upd_other h, _, upd_same _ _ _⟩
  | raised => exact ⟨rfl, rfl, rfl, fun _ => rfl, fun t' h => upd_other h, _, upd_same _ _ _⟩
  | found =>
    obtain ⟨h1, h2, h3, h4⟩ := closeOwn_frame s t
    exact ⟨h1, h2, h3, h4, fun t' h => (upd_other h).trans (by rw [closeOwn_tasks]), _, upd_same _ _ _⟩
  | notFound =>
    obtain ⟨h1, h2, h3, h4⟩ := closeOwn_frame s t
    exact ⟨h1, h2, h3, h4, fun t' h => (upd_other h).trans (by rw [closeOwn_tasks]), _, upd_same _ _ _⟩
  | again =>
    obtain ⟨h1, h2, h3, h4⟩ := closeApi_frame s
    exact ⟨h1, h2, h3, h4, fun t' h => (upd_other h).trans (by rw [closeApi_tasks]), _, upd_same _ _ _⟩

theorem resume_frame (c : Config) (s : St) (t : Nat) (a : Act) :
    (s.resume c t a).ntasks = s.ntasks ∧ (s.resume c t a).nlinks = s.nlinks ∧ (s.resume c t a).api = s.api ∧
    (∀ l, ((s.resume c t a).links l).owner = (s.links l).owner) ∧
    (∀ t', t' ≠ t → (s.resume c t a).tasks t' = s.tasks t') ∧
    ∃ pc hist, (s.resume c t a).tasks t = { s.tasks t with pc := pc, hist := hist } := by
  rcases resume_ended c s t a with h | h
  · rw [h]; exact ⟨rfl, rfl, rfl, fun _ => rfl, fun _ _ => rfl, _, _, rfl⟩
  · obtain ⟨h1, h2, h3, h4, h5, pc, h6⟩ := ended_frame h
    exact ⟨h1, h2, h3, h4, h5, pc, _, h6⟩

/-- What `connect` does: one more link, which belongs to the task; the other tasks and links stay. -/
theorem connect_frame (c : Config) (s : St) (t : Nat) (ports : List PortInfo) (opens : Option PyErr) (d : Nat) :
    (s.connect c t ports opens d).ntasks = s.ntasks ∧
    (s.connect c t ports opens d).nlinks = s.nlinks + 1 ∧
    (s.connect c t ports opens d).api = s.api ∧
    (∀ l, l ≠ s.nlinks → ((s.connect c t ports opens d).links l).owner = (s.links l).owner) ∧
    ((s.connect c t ports opens d).links s.nlinks).owner = t ∧
    (∀ t', t' ≠ t → (s.connect c t ports opens d).tasks t' = s.tasks t') ∧
    ∃ pc hist, (s.connect c t ports opens d).tasks t =
      { s.tasks t with pc := pc, link := some s.nlinks, hist := hist } := by
  have bad : ∀ e, _ := fun e => resume_frame c
    (({ s with nlinks := s.nlinks + 1, now := s.now + d }.setLink s.nlinks { owner := t }).setTask t
      { s.tasks t with pc := .connecting, link := some s.nlinks, hist := [] }) t ⟨.connect, .error e⟩
  unfold St.connect
  dsimp only
  split
  · refine ⟨rfl, rfl, rfl, fun l hl => ?_, ?_, fun t' ht' => upd_other ht', _, _, upd_same _ _ _⟩
    · simp only [St.note, St.setTask, St.setLink, upd_other hl]
    · simp only [St.note, St.setTask, St.setLink, upd_same]
  all_goals
    obtain ⟨h1, h2, h3, h4, h5, pc, hist, h6⟩ := bad ‹_›
    refine ⟨h1, h2, h3, fun l hl => (h4 l).trans ?_, (h4 _).trans ?_, fun t' ht' => (h5 t' ht').trans (upd_other ht'),
      pc, hist, h6.trans ?_⟩
    · simp only [St.setTask, St.setLink, upd_other hl]
    · simp only [St.setTask, St.setLink, upd_same]
    · simp only [St.setTask, St.setLink, upd_same]

/-- One step, seen from a task `t` that exists. -/
structure Step (s s' : St) : Prop where
  ntasks : s.ntasks ≤ s'.ntasks
  nlinks : s.nlinks ≤ s'.nlinks
  kind : ∀ t, t < s.ntasks → (s'.tasks t).kind = (s.tasks t).kind ∧ (s'.tasks t).deadline = (s.tasks t).deadline
  done : ∀ t o, t < s.ntasks → (s.tasks t).pc = .done o → s'.tasks t = s.tasks t
  probe : ∀ t, t < s.ntasks → (s.tasks t).kind = .probe → (s.tasks t).pc ≠ .ready →
    (s'.tasks t).link = (s.tasks t).link
  owner : ∀ l, l < s.nlinks → (s'.links l).owner = (s.links l).owner
  fresh : ∀ l, s.nlinks ≤ l → l < s'.nlinks → (s'.links l).owner < s.ntasks ∧
    (s'.tasks (s'.links l).owner).link = some l
  new : ∀ t, s.ntasks ≤ t → t < s'.ntasks → (s'.tasks t).pc = .ready

theorem Step.refl (s : St) : Step s s :=
  ⟨Nat.le_refl _, Nat.le_refl _, fun _ _ => ⟨rfl, rfl⟩, fun _ _ _ _ => rfl, fun _ _ _ _ => rfl, fun _ _ => rfl,
    fun _ h1 h2 => absurd h2 (Nat.not_lt.mpr h1), fun _ h1 h2 => absurd h2 (Nat.not_lt.mpr h1)⟩

/-- Nothing changes but parts of a task that did not end. -/
theorem step_task {s s' : St} {t : Nat} (hn : s'.ntasks = s.ntasks) (hl : s'.nlinks = s.nlinks)
    (ho : ∀ l, (s'.links l).owner = (s.links l).owner)
    (h1 : ∀ t', t' ≠ t → s'.tasks t' = s.tasks t')
    (h2 : ∃ pc hist, s'.tasks t = { s.tasks t with pc := pc, hist := hist })
    (h3 : ∀ o, (s.tasks t).pc ≠ .done o) : Step s s' := by
  obtain ⟨pc, hist, h2⟩ := h2
  refine ⟨Nat.le_of_eq hn.symm, Nat.le_of_eq hl.symm, fun t' _ => ?_, fun t' o _ hd => ?_, fun t' _ _ _ => ?_,
    fun l _ => ho l, fun l h h' => ?_, fun t h h' => by omega⟩
  · by_cases he : t' = t
    · subst he; rw [h2]; exact ⟨rfl, rfl⟩
    · rw [h1 t' he]; exact ⟨rfl, rfl⟩
  · by_cases he : t' = t
    · subst he; exact absurd hd (h3 o)
    · exact h1 t' he
  · by_cases he : t' = t
    · subst he; rw [h2]
    · rw [h1 t' he]
  · omega

theorem step_same {s s' : St} (hn : s'.ntasks = s.ntasks) (hl : s'.nlinks = s.nlinks)
    (ho : ∀ l, (s'.links l).owner = (s.links l).owner) (h1 : s'.tasks = s.tasks) : Step s s' := by
  refine ⟨Nat.le_of_eq hn.symm, Nat.le_of_eq hl.symm, fun t' _ => ?_, fun t' o _ hd => ?_, fun t' _ _ _ => ?_,
    fun l _ => ho l, fun l h h' => ?_, fun t h h' => by omega⟩
  · rw [h1]; exact ⟨rfl, rfl⟩
  · rw [h1]
  · rw [h1]
  · omega

theorem step_spawn (s : St) (k : Kind) : Step s (s.spawn k) := by
  have h1 : ∀ t, t < s.ntasks → (s.spawn k).tasks t = s.tasks t := fun t ht => upd_other (Nat.ne_of_lt ht)
  refine ⟨Nat.le_succ _, Nat.le_refl _, fun t' ht => ?_, fun t' o ht hd => h1 t' ht, fun t' ht _ _ => ?_,
    fun l _ => rfl, fun l h h' => absurd h' (Nat.not_lt.mpr h), fun t h h' => ?_⟩
  · rw [h1 t' ht]; exact ⟨rfl, rfl⟩
  · rw [h1 t' ht]
  · have h' : t < s.ntasks + 1 := h'
    have : t = s.ntasks := by omega
    subst this
    show (upd s.tasks s.ntasks _ s.ntasks).pc = _
    rw [upd_same]

theorem step_connect {c : Config} {s : St} {t : Nat} (ht : t < s.ntasks)
    (hp : (s.tasks t).pc = .ready ∨ (s.tasks t).kind ≠ .probe ∧ ∀ o, (s.tasks t).pc ≠ .done o)
    (ports : List PortInfo) (opens : Option PyErr) (d : Nat) : Step s (s.connect c t ports opens d) := by
  obtain ⟨h1, h2, h3, h4, h5, h6, pc, hist, h7⟩ := connect_frame c s t ports opens d
  refine ⟨Nat.le_of_eq h1.symm, by omega, fun t' _ => ?_, fun t' o _ hd => ?_, fun t' _ hk hr => ?_,
    fun l hl => h4 l (Nat.ne_of_lt hl), fun l h h' => ?_, fun t h h' => by omega⟩
  · by_cases he : t' = t
    · subst he; rw [h7]; exact ⟨rfl, rfl⟩
    · rw [h6 t' he]; exact ⟨rfl, rfl⟩
  · by_cases he : t' = t
    · subst he
      rcases hp with hp | hp
      · rw [hp] at hd; cases hd
      · exact absurd hd (hp.2 o)
    · exact h6 t' he
  · by_cases he : t' = t
    · subst he
      rcases hp with hp | hp
      · exact absurd hp hr
      · exact absurd hk hp.1
    · rw [h6 t' he]
  · have : l = s.nlinks := by omega
    subst this
    rw [h5, h7]
    exact ⟨ht, rfl⟩

theorem step_resume {c : Config} {s : St} {t : Nat} {a : Act} (h3 : ∀ o, (s.tasks t).pc ≠ .done o) :
    Step s (s.resume c t a) := by
  obtain ⟨h1, h2, -, h4, h5, h6⟩ := resume_frame c s t a
  exact step_task h1 h2 h4 h5 h6 h3

theorem setLink_owner {s : St} {l : Nat} {k : Link} (h : k.owner = (s.links l).owner) (l' : Nat) :
    ((s.setLink l k).links l').owner = (s.links l').owner := by
  by_cases he : l' = l
  · subst he; simp only [St.setLink, upd_same, h]
  · simp only [St.setLink, upd_other he]

theorem step_step {c : Config} {s : St} (ev : Ev) : Step s (step c s ev) := by
  unfold step
  split
  · exact step_same rfl rfl (fun _ => rfl) rfl
  · exact step_spawn s _
  · exact step_spawn s _
  · obtain ⟨h1, h2, -, h4⟩ := closeApi_frame s
    exact step_same h1 h2 h4 (closeApi_tasks s)
  · split
    · next t _ _ _ ht =>
      unfold St.begin
      split
      · next hk hp =>
        obtain ⟨h1, h2, -, h4⟩ := closeApi_frame s
        rw [setPc_eq _ _ (closeApi_cases s)]
        exact step_task (t := t) h1 h2 h4 (fun t' h => (upd_other h).trans (by rw [closeApi_tasks]))
          ⟨_, _, upd_same _ _ _⟩ (fun o => by rw [hp]; exact nofun)
      · next hk hp =>
        split
        · exact step_connect ht (.inr ⟨by rw [hk]; exact nofun, fun o => by rw [hp]; exact nofun⟩) _ _ _
        · exact .refl s
      · next hp => exact step_connect ht (.inl hp) _ _ _
      · next hp => exact step_connect ht (.inl hp) _ _ _
      · exact .refl s
    · exact .refl s
  · dsimp only
    split
    · exact step_same rfl rfl (setLink_owner rfl) rfl
    · exact .refl s
  · next t =>
    split
    · next hp =>
      split
      · exact step_task (t := t) rfl rfl (fun _ => rfl) (fun t' h => upd_other h) ⟨_, _, upd_same _ _ _⟩
          (fun o => by rw [hp]; exact nofun)
      · exact .refl s
    · exact .refl s
  · next t =>
    split
    · next u hp =>
      split
      · unfold St.connected
        split
        · next l _ _ =>
          obtain ⟨h1, h2, -, h4, h5, h6⟩ := resume_frame c (s.setLink l { s.links l with uart := true }) t ⟨.connect, .ok ()⟩
          exact step_task h1 h2 (fun l' => (h4 l').trans (setLink_owner (by rfl) l')) h5 h6
            (fun o => by rw [hp]; exact nofun)
        · next l _ _ =>
          obtain ⟨h1, h2, -, h4, h5, h6⟩ := resume_frame c
            { s.setLink l { s.links l with uart := true, app := true } with api := some l } t ⟨.connect, .ok ()⟩
          exact step_task h1 h2 (fun l' => (h4 l').trans (setLink_owner (by rfl) l')) h5 h6
            (fun o => by rw [hp]; exact nofun)
        · exact .refl s
      · exact .refl s
    · exact .refl s
  · split
    · next hp => exact step_resume (fun o => by rw [hp]; exact nofun)
    · exact .refl s
  · split
    · exact .refl s
    · next hp =>
      split
      · obtain ⟨h1, h2, -, h4, h5, pc, h6⟩ := ended_frame (fail_ended' s _ .cancelledError)
        exact step_task h1 h2 h4 h5 ⟨pc, _, h6⟩ (fun o h => hp o h)
      · exact .refl s
  · split
    · exact .refl s
    · next hp =>
      split
      · obtain ⟨h1, h2, -, h4, h5, pc, h6⟩ := ended_frame (fail_ended' s _ .timeoutError)
        exact step_task h1 h2 h4 h5 ⟨pc, _, h6⟩ (fun o h => hp o h)
      · exact .refl s
    · exact .refl s
  · dsimp only
    split
    · exact step_same rfl rfl (setLink_owner rfl) rfl
    · exact .refl s
  · next l =>
    split
    · unfold St.lost
      dsimp only
      split
      · split
        · obtain ⟨h1, h2, h3, h4, h5, h6, h7, h8⟩ := step_spawn (s.setLink l { s.links l with transport := .closed }) .reconnect
          exact ⟨h1, h2, h3, h4, h5, fun l' hl' => (h6 l' hl').trans (setLink_owner (by rfl) l'), h7, h8⟩
        · exact step_same rfl rfl (setLink_owner rfl) rfl
      · exact step_same rfl rfl (setLink_owner rfl) rfl
    · exact .refl s

theorem done_run {c : Config} {a : List Ev} {t : Nat} {o : Outcome} (ht : t < (run c a).ntasks)
    (h : ((run c a).tasks t).pc = .done o) (b : List Ev) :
    (run c (a ++ b)).tasks t = (run c a).tasks t := by
  rw [run_append]
  generalize run c a = s at h ht
  induction b generalizing s with
  | nil => rfl
  | cons ev b ih =>
    have hs := step_step (c := c) (s := s) ev
    have h1 := hs.done t o ht h
    show (b.foldl (step c) (step c s ev)).tasks t = _
    rw [ih _ (by rw [h1]; exact h) (Nat.lt_of_lt_of_le ht hs.ntasks), h1]

/-- Every link belongs to a task; a probe has one link only. -/
def Own (s : St) : Prop := ∀ l, l < s.nlinks → (s.links l).owner < s.ntasks ∧
  ((s.tasks (s.links l).owner).kind = .probe → (s.tasks (s.links l).owner).link = some l)

theorem own_step {c : Config} {s : St} (hi : Inv c s) (h : Own s) (ev : Ev) : Own (step c s ev) := by
  have hs := step_step (c := c) (s := s) ev
  intro l hl
  rcases Nat.lt_or_ge l s.nlinks with hlt | hge
  · obtain ⟨h1, h2⟩ := h l hlt
    rw [hs.owner l hlt]
    refine ⟨Nat.lt_of_lt_of_le h1 hs.ntasks, fun hk => ?_⟩
    rw [(hs.kind _ h1).1] at hk
    rw [hs.probe _ h1 hk ?_]
    · exact h2 hk
    · intro hr
      have := (hi.task (s.links l).owner).2
      rw [hr] at this
      rw [h2 hk] at this
      cases this.1
  · obtain ⟨h1, h2⟩ := hs.fresh l hge hl
    exact ⟨Nat.lt_of_lt_of_le h1 hs.ntasks, fun _ => h2⟩

theorem own_run (c : Config) (evs : List Ev) : Own (run c evs) :=
  run_induction (P := Own) (fun _ hl => absurd hl (Nat.not_lt_zero _))
    (fun evs ev h => own_step (inv_run c evs) h ev) evs

/-! ## A probe closes its port -/

theorem closeLink_shut {s : St} {l : Nat} (h : (s.links l).uart = true ∨ (s.links l).transport ≠ .opened) :
    ((s.closeLink l).links l).transport ≠ .opened := by
  unfold St.closeLink
  dsimp only
  split
  · simp only [St.note, St.setLink, upd_same]
    split
    · exact nofun
    · next hh => exact hh
  · next hh => exact h.resolve_left hh

theorem closeOwn_shut {s : St} {t l : Nat} (hl : (s.tasks t).link = some l)
    (h : (s.links l).uart = true ∨ (s.links l).transport ≠ .opened) :
    ((s.closeOwn t).links l).transport ≠ .opened := by
  unfold St.closeOwn
  rw [hl]
  exact closeLink_shut h

theorem ended_shut {s s' : St} {t : Nat} {hist : List Act} {o : Outcome} (he : Ended s t hist s')
    (hk : (s.tasks t).kind = .probe) (hd : (s'.tasks t).pc = .done o)
    (h : ∀ l, (s.tasks t).link = some l → (s.links l).uart = true ∨ (s.links l).transport ≠ .opened) :
    ∀ l, (s'.tasks t).link = some l → (s'.links l).transport ≠ .opened := by
  cases he with
  | next =>
    have hd : (upd s.tasks t _ t).pc = _ := hd
    rw [upd_same] at hd
    cases hd
  | returned h' => exact absurd hk h'
  | raised _ h' => exact absurd hk h'
  | again _ h' => rw [hk] at h'; cases h'
  | found =>
    intro l hl
    have hl : (upd (s.closeOwn t).tasks t _ t).link = some l := hl
    rw [upd_same] at hl
    exact closeOwn_shut hl (h l hl)
  | notFound =>
    intro l hl
    have hl : (upd (s.closeOwn t).tasks t _ t).link = some l := hl
    rw [upd_same] at hl
    exact closeOwn_shut hl (h l hl)

theorem fail_shut {c : Config} {s : St} {t : Nat} {e : PyErr} {o : Outcome} (hi : Inv c s)
    (hk : (s.tasks t).kind = .probe) (hn : ∀ o, (s.tasks t).pc ≠ .done o)
    (hd : ((s.fail t e).tasks t).pc = .done o) :
    Opening s t ∨ ∀ l, ((s.fail t e).tasks t).link = some l → ((s.fail t e).links l).transport ≠ .opened := by
  have ht := hi.task t
  cases hp : (s.tasks t).pc with
  | ready =>
    rw [TaskInv, hp] at ht
    refine .inr (ended_shut (fail_ended' s t e) hk hd fun l hl => ?_)
    rw [ht.2.1] at hl
    cases hl
  | waking u =>
    rw [TaskInv, hp] at ht
    rw [hk] at ht
    cases ht.2
  | connecting => exact .inl (.inl hp)
  | settling u => exact .inl (.inr ⟨u, hp⟩)
  | running =>
    rw [TaskInv, hp] at ht
    obtain ⟨l, hl, h1, -⟩ := ht.2
    refine .inr (ended_shut (fail_ended' s t e) hk hd fun l' hl' => ?_)
    rw [hl] at hl'
    cases hl'
    exact h1.imp id fun h => ((hi.link l).closed h).2.2.2
  | done o => exact absurd hp (hn o)

/-- When a probe ends its port is not open, unless it was struck while opening it. -/
theorem step_probe {c : Config} {s : St} {t : Nat} {ev : Ev} {o : Outcome} (hi : Inv c s)
    (hk : (s.tasks t).kind = .probe) (hn : ∀ o, (s.tasks t).pc ≠ .done o)
    (hd : ((step c s ev).tasks t).pc = .done o) :
    ((ev = .cancel t ∨ ev = .timeout t) ∧ Opening s t) ∨
    ∀ l, ((step c s ev).tasks t).link = some l → ((step c s ev).links l).transport ≠ .opened := by
  have spawn : ∀ k, ((s.spawn k).tasks t).pc = .done o → False := by
    intro k hh
    have hh : (upd s.tasks s.ntasks _ t).pc = _ := hh
    by_cases he : t = s.ntasks
    · subst he
      rw [upd_same] at hh
      cases hh
    · rw [upd_other he] at hh
      exact hn o hh
  unfold step at hd ⊢
  split
  · exact absurd hd (hn o)
  · exact (spawn _ hd).elim
  · exact (spawn _ hd).elim
  · refine absurd (show _ = _ from hd) ?_
    dsimp only
    rw [closeApi_tasks]
    exact hn o
  · next t' ports opens d =>
    dsimp only at hd
    split at hd
    · next ht' =>
      rw [if_pos ht']
      by_cases he : t = t'
      · subst he
        unfold St.begin at hd ⊢
        split at hd
        · next h _ => rw [hk] at h; cases h
        · next h _ => rw [hk] at h; cases h
        · next h _ => rw [hk] at h; cases h
        · next _ hp =>
          right
          have bad : ∀ e, (((({ s with nlinks := s.nlinks + 1, now := s.now + d }.setLink s.nlinks
              { owner := t }).setTask t { s.tasks t with pc := .connecting, link := some s.nlinks, hist := [] }).resume
              c t ⟨.connect, .error e⟩).tasks t).pc = .done o →
              ∀ l, (((({ s with nlinks := s.nlinks + 1, now := s.now + d }.setLink s.nlinks
              { owner := t }).setTask t { s.tasks t with pc := .connecting, link := some s.nlinks, hist := [] }).resume
              c t ⟨.connect, .error e⟩).tasks t).link = some l →
              (((({ s with nlinks := s.nlinks + 1, now := s.now + d }.setLink s.nlinks
              { owner := t }).setTask t { s.tasks t with pc := .connecting, link := some s.nlinks, hist := [] }).resume
              c t ⟨.connect, .error e⟩).links l).transport ≠ .opened := by
            intro e
            have hself : ∀ k, (({ s with nlinks := s.nlinks + 1, now := s.now + d }.setLink s.nlinks
              { owner := t }).setTask t k).tasks t = k := fun k => upd_same _ _ _
            rcases resume_ended c (({ s with nlinks := s.nlinks + 1, now := s.now + d }.setLink s.nlinks
              { owner := t }).setTask t { s.tasks t with pc := .connecting, link := some s.nlinks, hist := [] }) t
              ⟨.connect, .error e⟩ with hh | hh
            · rw [hh, hself]
              exact fun h => by cases h
            · intro hd
              refine ended_shut hh ?_ hd ?_
              · rw [hself]; exact hk
              · rw [hself]
                intro l hl
                cases hl
                right
                show (upd s.links s.nlinks _ s.nlinks).transport ≠ _
                rw [upd_same]
                exact nofun
          unfold St.connect at hd ⊢
          dsimp only at hd ⊢
          split at hd
          · have hd : (upd s.tasks t _ t).pc = _ := hd
            rw [upd_same] at hd
            cases hd
          · exact bad _ hd
          · exact bad _ hd
        · exact absurd hd (hn o)
      · refine absurd ?_ (hn o)
        unfold St.begin at hd
        split at hd
        · rw [setPc_eq _ _ (closeApi_cases s)] at hd
          have hd : (upd s.closeApi.tasks t' _ t).pc = _ := hd
          rwa [upd_other he, closeApi_tasks] at hd
        · split at hd
          · rwa [(connect_frame c s t' ports opens d).2.2.2.2.2.1 t he] at hd
          · exact hd
        · rwa [(connect_frame c s t' ports opens d).2.2.2.2.2.1 t he] at hd
        · rwa [(connect_frame c s t' ports opens d).2.2.2.2.2.1 t he] at hd
        · exact hd
    · exact absurd hd (hn o)
  · refine absurd ?_ (hn o)
    dsimp only at hd
    split at hd
    · exact hd
    · exact hd
  · next t' =>
    refine absurd ?_ (hn o)
    dsimp only at hd
    split at hd
    · split at hd
      · have hd : (upd s.tasks t' _ t).pc = _ := hd
        by_cases he : t = t'
        · subst he
          rw [upd_same] at hd
          cases hd
        · rwa [upd_other he] at hd
      · exact hd
    · exact hd
  · next t' =>
    dsimp only at hd
    split at hd
    · next u hp =>
      split at hd
      · next hu =>
        rw [if_pos hu]
        by_cases he : t = t'
        · subst he
          obtain ⟨h1, h2⟩ := hi.task t
          rw [hp] at h2
          obtain ⟨l, hl, -⟩ := h2
          right
          unfold St.connected at hd ⊢
          rw [hl, hk] at hd ⊢
          dsimp only at hd ⊢
          rcases resume_ended c (s.setLink l { s.links l with uart := true }) t ⟨.connect, .ok ()⟩ with hh | hh
          · rw [hh] at hd
            exact absurd hd (hn o)
          · refine ended_shut hh hk hd fun l' hl' => ?_
            have hl' : (s.tasks t).link = some l' := hl'
            rw [hl] at hl'
            cases hl'
            left
            show (upd s.links l _ l).uart = _
            rw [upd_same]
        · refine absurd ?_ (hn o)
          unfold St.connected at hd
          split at hd
          · rwa [(resume_frame c _ t' _).2.2.2.2.1 t he] at hd
          · rwa [(resume_frame c _ t' _).2.2.2.2.1 t he] at hd
          · exact hd
      · exact absurd hd (hn o)
    · exact absurd hd (hn o)
  · next t' a =>
    dsimp only at hd
    split at hd
    · next hp =>
      rw [if_pos hp]
      by_cases he : t = t'
      · subst he
        obtain ⟨h1, h2⟩ := hi.task t
        rw [hp] at h2
        obtain ⟨l, hl, h3, -⟩ := h2
        right
        rcases resume_ended c s t a with hh | hh
        · rw [hh] at hd
          exact absurd hd (hn o)
        · refine ended_shut hh hk hd fun l' hl' => ?_
          rw [hl] at hl'
          cases hl'
          exact h3.imp id fun h => ((hi.link l).closed h).2.2.2
      · rw [(resume_frame c _ t' _).2.2.2.2.1 t he] at hd
        exact absurd hd (hn o)
    · exact absurd hd (hn o)
  · next t' =>
    dsimp only at hd
    split at hd
    · exact absurd hd (hn o)
    · split at hd
      · next hp ht' =>
        by_cases he : t = t'
        · subst he
          rcases fail_shut hi hk hn hd with h | h
          · exact .inl ⟨.inl rfl, h⟩
          · right
            rw [if_pos ht']
            exact h
        · rw [(ended_frame (fail_ended' s t' _)).2.2.2.2.1 t he] at hd
          exact absurd hd (hn o)
      · exact absurd hd (hn o)
  · next t' =>
    dsimp only at hd
    split at hd
    · exact absurd hd (hn o)
    · split at hd
      · next hk' hp ht' =>
        by_cases he : t = t'
        · subst he
          rcases fail_shut hi hk hn hd with h | h
          · exact .inl ⟨.inr rfl, h⟩
          · right
            rw [if_pos ht']
            exact h
        · rw [(ended_frame (fail_ended' s t' _)).2.2.2.2.1 t he] at hd
          exact absurd hd (hn o)
      · exact absurd hd (hn o)
    · exact absurd hd (hn o)
  · refine absurd ?_ (hn o)
    dsimp only at hd
    split at hd
    · exact hd
    · exact hd
  · next l =>
    dsimp only at hd
    split at hd
    · unfold St.lost at hd
      dsimp only at hd
      split at hd
      · split at hd
        · exact (spawn _ hd).elim
        · exact absurd hd (hn o)
      · exact absurd hd (hn o)
    · exact absurd hd (hn o)

theorem struck_snoc {c : Config} {evs : List Ev} {t : Nat} (h : Struck c evs t) (ev : Ev) :
    Struck c (evs ++ [ev]) t := by
  obtain ⟨a, ev', b, rfl, h⟩ := h
  exact ⟨a, ev', b ++ [ev], by simp, h⟩

/-- Induction on executions. -/
theorem list_induction {P : List Ev → Prop} (h0 : P []) (hs : ∀ evs ev, P evs → P (evs ++ [ev]))
    (evs : List Ev) : P evs := by
  have key : ∀ n : Nat, ∀ evs : List Ev, evs.length = n → P evs := by
    intro n
    induction n with
    | zero =>
      intro evs he
      rw [List.length_eq_zero_iff.mp he]
      exact h0
    | succ n ih =>
      intro evs he
      rcases List.eq_nil_or_concat evs with rfl | ⟨b, x, rfl⟩
      · cases he
      · rw [List.concat_eq_append] at he ⊢
        exact hs _ _ (ih b (by simpa using he))
  exact key _ evs rfl

theorem probe_closed (c : Config) (evs : List Ev) : ∀ (t : Nat) (o : Outcome), t < (run c evs).ntasks →
    ((run c evs).tasks t).kind = .probe → ((run c evs).tasks t).pc = .done o →
    Struck c evs t ∨ ∀ l, ((run c evs).tasks t).link = some l → ((run c evs).links l).transport ≠ .opened := by
  induction evs using list_induction with | h0 => ?_ | hs evs ev ih => ?_
  · exact fun t o ht => absurd ht (Nat.not_lt_zero _)
  · intro t o ht hk hd
    rw [run_snoc] at ht hk hd ⊢
    have hs := step_step (c := c) (s := run c evs) ev
    have hi := inv_run c evs
    rcases Nat.lt_or_ge t (run c evs).ntasks with hlt | hge
    · rw [(hs.kind t hlt).1] at hk
      by_cases hn : ∃ o, ((run c evs).tasks t).pc = .done o
      · obtain ⟨o', hn⟩ := hn
        rcases ih t o' hlt hk hn with h | h
        · exact .inl (struck_snoc h ev)
        · right
          rw [hs.done t o' hlt hn]
          intro l hl
          exact (shut_step ⟨((hi.task t).1 l hl).1, h l hl⟩ ev).2
      · rcases step_probe hi hk (fun o' h => hn ⟨o', h⟩) hd with h | h
        · exact .inl ⟨evs, ev, [], rfl, h⟩
        · exact .inr h
    · rw [hs.new t hge ht] at hd
      cases hd

end Zcc.Conn
