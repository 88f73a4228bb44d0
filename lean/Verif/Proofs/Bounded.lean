import Verif.Proofs.Timely

/-!
# How long a call can take
-/

namespace Zcc
open Spec

theorem ownWaiter_limit {o : Obj} {m : Matcher} {to : Nat} (h : ownWaiter o = some (m, to)) :
    to = limit o := by
  unfold ownWaiter at h
  unfold limit
  split at h
  · rename_i hs
    rw [if_pos hs]
    simp only [Option.some.injEq, Prod.mk.injEq] at h
    exact h.2.symm
  · rename_i hs
    rw [if_neg hs]
    split at h
    · rename_i ha
      simp only [Option.some.injEq, Prod.mk.injEq] at h
      rw [if_pos, ← h.2]; · rfl
      refine ⟨ha.1, ?_⟩
      simpa [Obj.isResetCommand, and_comm] using ha.2
    · cases h

/-- The time limit of call `u`. -/
def lim (T : Nat → Option Task) (u : Nat) : Nat :=
  match T u with
  | some k => limit k.obj
  | none => 0

/-- The sum of the time limits of the queued calls up to number `t`. -/
def tot (T : Nat → Option Task) (t : Nat) (Q : List Nat) : Nat :=
  ((Q.filter fun u => decide (u ≤ t)).map (lim T)).sum

theorem lim_upd {T : Nat → Option Task} {t : Nat} {k : Task} (hk : T t = some k) (pc : Pc) :
    lim (upd T t (some { k with pc })) = lim T := by
  funext u
  unfold lim
  by_cases hu : u = t
  · subst hu; rw [upd_same, hk]
  · rw [upd_other _ _ hu]

theorem sum_sublist {a b : List Nat} (h : a.Sublist b) : a.sum ≤ b.sum := by
  induction h with
  | slnil => exact Nat.le_refl _
  | cons x _ ih => rw [List.sum_cons]; omega
  | cons_cons x _ ih => rw [List.sum_cons, List.sum_cons]; omega

theorem tot_sublist (T : Nat → Option Task) (t : Nat) {Q Q' : List Nat} (h : Q'.Sublist Q) :
    tot T t Q' ≤ tot T t Q :=
  sum_sublist ((h.filter _).map _)

/-- As long as call `t` has not ended, it ends at `D` at the latest. -/
def Within (D t : Nat) (s : Api) : Prop :=
  ∃ b, (∀ h k w d, s.tasks h = some k → k.pc = .waiting w d → d ≤ b) ∧ s.now ≤ b ∧
    b + tot s.tasks t s.queue ≤ D

variable {D t : Nat}

theorem Within.keep {s s' : Api} (j : Within D t s)
    (hw : ∀ h k w d, s'.tasks h = some k → k.pc = .waiting w d →
      ∃ k0 w0, s.tasks h = some k0 ∧ k0.pc = .waiting w0 d)
    (hn : s'.now = s.now) (ht : tot s'.tasks t s'.queue ≤ tot s.tasks t s.queue) :
    Within D t s' := by
  obtain ⟨b, h1, h2, h3⟩ := j
  refine ⟨b, fun h k w d a1 a2 => ?_, by omega, by omega⟩
  obtain ⟨k0, w0, b1, b2⟩ := hw h k w d a1 a2
  exact h1 h k0 w0 d b1 b2

/-- Some call moves to a point where it does not wait. -/
theorem Within.move {s s' : Api} (j : Within D t s) {u : Nat} {k : Task} (hk : s.tasks u = some k)
    {pc : Pc} (hpc : ∀ w d, pc ≠ .waiting w d)
    (ht : s'.tasks = upd s.tasks u (some { k with pc })) (hn : s'.now = s.now)
    (hq : s'.queue.Sublist s.queue) : Within D t s' := by
  refine j.keep ?_ hn ?_
  · intro h k' w d h1 h2
    rw [ht] at h1
    rcases tasks_upd hk _ h1 with ⟨_, h⟩ | ⟨_, h⟩
    · exact ⟨k', w, h, h2⟩
    · rw [h] at h2; exact absurd h2 (hpc w d)
  · rw [ht]
    unfold tot
    rw [lim_upd hk]
    exact tot_sublist _ _ hq

theorem Within.finish {s : Api} (j : Within D t s) {u : Nat} {k : Task} (hk : s.tasks u = some k)
    (r : Except PyErr (Option Obj)) : Within D t (s.finish u r) := by
  refine j.move hk (pc := .done r) (by simp) ?_ ?_ ?_
  all_goals rw [finish_eq hk]
  exact List.Sublist.refl _

theorem uartSend_parts {s s' : Api} {t : Nat} {f : Frame} (h : s.uartSend t f = .ok s') :
    s'.tasks = s.tasks ∧ s'.queue = s.queue ∧ s'.now = s.now := by
  unfold Api.uartSend at h
  split at h
  · split at h
    · cases h
    · cases h; exact ⟨rfl, rfl, rfl⟩
  · cases h

/-- The first call of the queue starts: the lock was free, so nobody is waiting. -/
theorem Within.grant {s : Api} (j : Within D t s) (i : Inv s)
    (hu : ∃ k, s.tasks t = some k ∧ ∀ r, k.pc ≠ .done r) : Within D t s.grant := by
  unfold Api.grant
  split
  · rename_i u q hh hq
    split
    · rename_i k hk
      obtain ⟨b, h1, h2, h3⟩ := j
      -- `t` is in the queue
      have hut : u ≤ t := by
        obtain ⟨k', hk', hnd⟩ := hu
        have : t ∈ s.queue := by
          refine (i.lock.qIff t).mpr ⟨k', hk', ?_⟩
          rcases hp : k'.pc with _ | _ | ⟨w, d⟩ | r
          · rfl
          · have := (i.lock.hIff t).mpr ⟨k', hk', by rw [hp]; trivial⟩
            rw [hh] at this; cases this
          · have := (i.lock.hIff t).mpr ⟨k', hk', by rw [hp]; trivial⟩
            rw [hh] at this; cases this
          · exact absurd hp (hnd r)
        have hs := i.lock.qSorted
        rw [hq] at this hs
        rcases List.mem_cons.mp this with h | h
        · omega
        · have := (List.pairwise_cons.mp hs).1 t h; omega
      have htot : tot s.tasks t s.queue = limit k.obj + tot s.tasks t q := by
        unfold tot
        rw [hq, List.filter_cons_of_pos (by simpa using hut), List.map_cons, List.sum_cons]
        congr 1
        unfold lim; rw [hk]
      rw [htot] at h3
      -- the state in which `u` runs
      have nobody : ∀ h k' w d, s.tasks h = some k' → k'.pc ≠ .waiting w d := by
        intro h k' w d a1 a2
        have := (i.lock.hIff h).mpr ⟨k', a1, by rw [a2]; trivial⟩
        rw [hh] at this; cases this
      have hn : s.now + limit k.obj + tot s.tasks t q ≤ D := by omega
      rw [setPc_eq (s := { s with holder := some u, queue := q }) hk]
      -- whatever it does, afterwards only `u` may wait
      have key : ∀ s' : Api, (∃ pc, s'.tasks = upd s.tasks u (some { k with pc }) ∧
          ∀ w d, pc = .waiting w d → d ≤ s.now + limit k.obj) → s'.now = s.now → s'.queue = q →
          Within D t s' := by
        rintro s' ⟨pc, ht, hd⟩ hnow hq'
        refine ⟨s.now + limit k.obj, ?_, by omega, ?_⟩
        · intro h k' w d a1 a2
          rw [ht] at a1
          rcases tasks_upd hk _ a1 with ⟨_, h⟩ | ⟨_, h⟩
          · exact absurd a2 (nobody _ k' w d h)
          · rw [h] at a2; exact hd w d a2
        · rw [ht, hq']
          unfold tot
          rw [lim_upd hk]; exact hn
      have twice : ∀ pc, upd (upd s.tasks u (some { k with pc := .running })) u (some { k with pc }) =
          upd s.tasks u (some { k with pc }) := by
        intro pc
        funext v
        by_cases hv : v = u
        · subst hv; rw [upd_same, upd_same]
        · rw [upd_other _ _ hv, upd_other _ _ hv, upd_other _ _ hv]
      have fin : ∀ (s' : Api) (r : Except PyErr (Option Obj)),
          s'.tasks = upd s.tasks u (some { k with pc := .running }) → s'.now = s.now →
          s'.queue = q → Within D t (s'.finish u r) := by
        intro s' r ht hnow hq'
        have hk' : s'.tasks u = some { k with pc := .running } := by rw [ht]; exact upd_same _ _ _
        rw [finish_eq hk']
        refine key _ ⟨.done r, ?_, by simp⟩ hnow hq'
        dsimp only
        rw [ht]; exact twice _
      unfold Api.start
      split
      · exact fin _ _ rfl rfl rfl
      · rename_i f hf
        rcases ownWaiter_cases k.obj with ⟨m, to, hw, _⟩ | ⟨hw, _, _⟩
        · rw [hw]
          dsimp only
          split
          · exact fin _ _ rfl rfl rfl
          · rename_i s' hs
            obtain ⟨p1, p2, p3⟩ := uartSend_parts hs
            have ht : s'.tasks = upd s.tasks u (some { k with pc := .running }) := p1
            have hk' : s'.tasks u = some { k with pc := .running } := by rw [ht]; exact upd_same _ _ _
            rw [setPc_eq hk']
            refine key _ ⟨.waiting s.waiterId (s'.now + to), ?_, ?_⟩ p3 p2
            · dsimp only
              rw [ht]; exact twice _
            · intro w d h
              cases h
              rw [← ownWaiter_limit hw]
              have : s'.now = s.now := p3
              omega
        · rw [hw]
          dsimp only
          split
          · split
            · exact fin _ _ rfl rfl rfl
            · rename_i s' hs
              obtain ⟨p1, p2, p3⟩ := uartSend_parts hs
              exact fin _ _ p1 p3 p2
          · exact fin _ _ rfl rfl rfl
    · exact j
  · exact j

theorem Within.enqueue {s : Api} (j : Within D t s) (ht : t < s.nextTid) (o : Obj)
    (w : Option Nat) (e : Option (List Int)) : Within D t (s.enqueue o w e) := by
  refine j.keep ?_ rfl ?_
  · intro h k v d a1 a2
    by_cases hh : h = s.nextTid
    · rw [Api.enqueue, hh] at a1
      dsimp only at a1
      rw [upd_same] at a1; cases a1; cases a2
    · rw [Api.enqueue] at a1
      dsimp only at a1
      rw [upd_other _ _ hh] at a1
      exact ⟨k, v, a1, a2⟩
  · unfold Api.enqueue tot
    dsimp only
    rw [List.filter_append, List.filter_cons_of_neg (by simp; omega), List.filter_nil,
      List.append_nil]
    refine Nat.le_of_eq (congrArg List.sum (List.map_congr_left fun u hu => ?_))
    have : u ≤ t := by simpa using (List.mem_filter.mp hu).2
    unfold lim
    rw [upd_other _ _ (by omega)]

/-- One event; `hu`: the call has not ended before it. -/
theorem Within.step {s : Api} (j : Within D t s) (i : Inv s) (hset : Settled s.tasks) (e : Event)
    (hu : ∃ k, s.tasks t = some k ∧ ∀ r, k.pc ≠ .done r)
    (htick : ∀ ms, e = .tick ms → (s.holder = none → s.queue = []) ∧
      ∀ h k w d, s.tasks h = some k → k.pc = .waiting w d → s.now + ms ≤ d) :
    Within D t (s.step e) := by
  obtain ⟨kt, hkt, hnd⟩ := hu
  have hlt : t < s.nextTid := (i.lock.tid t).mp ⟨kt, hkt⟩
  have same : ∀ {s' : Api}, s'.tasks = s.tasks → s'.now = s.now → s'.queue = s.queue →
      Within D t s' := fun h1 h2 h3 =>
    j.keep (fun h k w d a1 a2 => ⟨k, w, by rw [h1] at a1; exact a1, a2⟩) h2
      (by rw [h1, h3]; exact Nat.le_refl _)
  cases e with
  | submit o w x =>
    rw [Api.step]
    have ie : Inv (s.enqueue o w x) := i.enqueue o w x
    have je := j.enqueue hlt o w x
    split
    · refine je.grant ie ⟨kt, ?_, hnd⟩
      show upd s.tasks s.nextTid _ t = _
      rw [upd_other _ _ (by omega)]; exact hkt
    · exact je
  | grant => exact j.grant i ⟨kt, hkt, hnd⟩
  | frame f =>
    have h := dataReceived_fields s f
    exact same h.1 h.2.2.2.2.2.1 h.2.2.1
  | wake u =>
    rw [Api.step]
    split
    · rename_i k hk
      split
      · split
        · unfold Api.conclude
          split
          · split
            · exact j.finish hk _
            · split
              · exact j.finish hk _
              · rename_i v _
                split
                · have e1 : ∀ o, ((s.drop v).setResult v o).tasks = s.tasks ∧
                      ((s.drop v).setResult v o).now = s.now ∧
                      ((s.drop v).setResult v o).queue = s.queue := by
                    intro o
                    unfold Api.setResult
                    split <;> exact ⟨rfl, rfl, rfl⟩
                  exact (same (e1 _).1 (e1 _).2.1 (e1 _).2.2).finish (by rw [(e1 _).1]; exact hk) _
                · exact j.finish hk _
          · exact j.finish hk _
        · exact j
      · exact j
    · exact j
  | timeout u =>
    rw [Api.step]
    split
    · rename_i k hk
      split
      · split
        · have q := j.finish hk (.error .timeoutError)
          exact q
        · exact j
      · exact j
    · exact j
  | cancel u =>
    rw [Api.step]
    split
    · rename_i k hk
      split
      · refine j.move hk (pc := .done (.error .cancelledError)) (by simp) ?_ ?_ ?_
        · rw [setPc_eq hk]
        · rw [setPc_eq hk]
        · exact List.filter_sublist
      · exact j.finish hk (.error .cancelledError)
      · exact j
    · exact j
  | timer w =>
    rw [Api.step]
    split
    · unfold Api.timerCallback
      split <;> exact same rfl rfl rfl
    · exact j
  | tick ms =>
    obtain ⟨h1, h2⟩ := htick ms rfl
    obtain ⟨b, b1, b2, b3⟩ := j
    refine ⟨b, b1, ?_, b3⟩
    show s.now + ms ≤ b
    -- somebody holds the lock and waits
    rcases hh : s.holder with _ | h
    · have : t ∈ s.queue := by
        refine (i.lock.qIff t).mpr ⟨kt, hkt, ?_⟩
        rcases hp : kt.pc with _ | _ | ⟨w, d⟩ | r
        · rfl
        · exact absurd hp (hset t kt hkt)
        · have := (i.lock.hIff t).mpr ⟨kt, hkt, by rw [hp]; trivial⟩
          rw [hh] at this; cases this
        · exact absurd hp (hnd r)
      rw [h1 hh] at this; cases this
    · obtain ⟨k, hk, ha⟩ := (i.lock.hIff h).mp hh
      rcases hp : k.pc with _ | _ | ⟨w, d⟩ | r
      · rw [hp] at ha; exact ha.elim
      · exact absurd hp (hset h k hk)
      · have := b1 h k w d hk hp
        have := h2 h k w d hk hp
        omega
      · rw [hp] at ha; exact ha.elim
  | setUart b => exact same rfl rfl rfl
  | register m to q => exact same rfl rfl rfl
  | registerResponse o q =>
    rw [Api.step]
    unfold Api.createResponseWaiter
    split <;> first | exact j | exact same rfl rfl rfl
  | abandon w =>
    rw [Api.step]
    split
    · exact same rfl rfl rfl
    · exact j

theorem start_waiting {s : Api} {u w d : Nat} {k k' : Task} (hk : s.tasks u = some k)
    (h : (s.start u k.obj).tasks u = some k')
    (hp : k'.pc = .waiting w d) : d = s.now + limit k'.obj := by
  have fin : ∀ (s' : Api) r, s'.tasks u = some k → (s'.finish u r).tasks u ≠ some k' := by
    intro s' r hk h
    rw [finish_pc hk] at h
    cases h; cases hp
  unfold Api.start at h
  split at h
  · exact absurd h (fin _ _ hk)
  · rcases ownWaiter_cases k.obj with ⟨m, to, hw, _⟩ | ⟨hw, _, _⟩
    · rw [hw] at h
      have fs := waitFor_fields s m to none
      dsimp only at h
      split at h
      · exact absurd h (fin _ _ (by rw [fs.1]; exact hk))
      · rename_i s' h'
        rw [setPc_eq (k := k) (by rw [(uartSend_fields h').1, fs.1]; exact hk)] at h
        have := h.symm.trans (upd_same _ _ _)
        cases this
        simp only [Pc.waiting.injEq] at hp
        rw [← hp.2, (uartSend_parts h').2.2, ownWaiter_limit hw]
        rfl
    · rw [hw] at h
      dsimp only at h
      split at h
      · split at h
        · exact absurd h (fin _ _ hk)
        · rename_i s' h'
          exact absurd h (fin _ _ (by rw [(uartSend_fields h').1]; exact hk))
      · exact absurd h (fin _ _ hk)

theorem grant_waiting {s : Api} {t w d : Nat} {k' : Task} (h : s.grant.tasks t = some k')
    (hp : k'.pc = .waiting w d) : s.tasks t = some k' ∨ d = s.now + limit k'.obj := by
  unfold Api.grant at h
  split at h
  · split at h
    · rename_i u q _ _ _ k hk
      by_cases hu : t = u
      · subst hu
        rw [setPc_eq (s := { s with holder := some t, queue := q }) hk] at h
        exact .inr (start_waiting (s := { s with
          holder := some t, queue := q, tasks := upd s.tasks t (some { k with pc := .running }) })
          (k := { k with pc := .running }) (upd_same _ _ _) h hp)
      · rw [start_other _ _ hu, setPc_other _ _ _ hu] at h; exact .inl h
    · exact .inl h
  · exact .inl h

/-- A call that just began to wait has its whole time limit before it. -/
theorem newWaiting_step {s : Api} {t w d : Nat} {k' : Task} {e : Event}
    (h : (s.step e).tasks t = some k') (hp : k'.pc = .waiting w d) :
    s.tasks t = some k' ∨ d = s.now + limit k'.obj := by
  have move : ∀ (s' : Api) u pc, s'.tasks = s.tasks → (∀ w d, pc ≠ .waiting w d) →
      (s'.setPc u pc).tasks t = some k' → s.tasks t = some k' := by
    intro s' u pc hs hpc h
    by_cases hu : t = u
    · subst hu
      rcases hk : s'.tasks t with _ | k
      · unfold Api.setPc at h; rw [hk] at h; dsimp only at h; rw [hk] at h; simp at h
      · rw [setPc_eq hk] at h
        have h : upd s'.tasks t _ t = some k' := h
        rw [upd_same] at h; cases h; exact absurd hp (hpc w d)
    · rw [setPc_other _ _ _ hu, hs] at h; exact h
  cases e with
  | submit o v x =>
    rw [Api.step] at h
    have hen : (s.enqueue o v x).tasks t = some k' → s.tasks t = some k' := by
      intro h
      by_cases ht : t = s.nextTid
      · subst ht
        have h' : upd s.tasks s.nextTid _ s.nextTid = some k' := h
        rw [upd_same] at h'; cases h'; simp at hp
      · have h' : upd s.tasks s.nextTid _ t = some k' := h
        rw [upd_other _ _ ht] at h'; exact h'
    split at h
    · exact (grant_waiting h hp).imp hen id
    · exact .inl (hen h)
  | grant => exact grant_waiting h hp
  | frame f => rw [Api.step, (dataReceived_fields s f).1] at h; exact .inl h
  | wake u =>
    refine .inl ?_
    rw [Api.step] at h
    split at h
    · split at h
      · split at h
        · unfold Api.conclude at h
          split at h
          · split at h
            · exact move s u _ rfl (by simp) h
            · split at h
              · exact move s u _ rfl (by simp) h
              · split at h
                · exact move _ u _ (setResult_fields (s.drop _) _ _).1 (by simp) h
                · exact move s u _ rfl (by simp) h
          · exact move s u _ rfl (by simp) h
        · exact h
      · exact h
    · exact h
  | timeout u =>
    refine .inl ?_
    rw [Api.step] at h
    split at h
    · split at h
      · split at h
        · exact move s u _ rfl (by simp) h
        · exact h
      · exact h
    · exact h
  | cancel u =>
    refine .inl ?_
    rw [Api.step] at h
    split at h
    · split at h
      · exact move s u _ rfl (by simp) h
      · exact move s u _ rfl (by simp) h
      · exact h
    · exact h
  | timer v =>
    refine .inl ?_
    rw [Api.step] at h
    split at h
    · unfold Api.timerCallback at h
      split at h <;> exact h
    · exact h
  | tick ms => exact .inl h
  | setUart b => exact .inl h
  | register m to q => exact .inl h
  | registerResponse o q =>
    refine .inl ?_
    rw [Api.step] at h
    unfold Api.createResponseWaiter at h
    split at h <;> exact h
  | abandon v =>
    refine .inl ?_
    rw [Api.step] at h
    split at h <;> exact h

/-- The end of a waiting call is at most its time limit away. -/
theorem deadline_run (es : List Event) : ∀ s : Api,
    (∀ t k w d, s.tasks t = some k → k.pc = .waiting w d → d ≤ s.now + limit k.obj) →
    ∀ t k w d, (s.run es).tasks t = some k → k.pc = .waiting w d →
      d ≤ (s.run es).now + limit k.obj := by
  induction es with
  | nil => intro s h; exact h
  | cons e es ih =>
    intro s h
    refine ih (s.step e) fun t k w d h1 h2 => ?_
    have hn := (grows_step s e).now
    rcases newWaiting_step h1 h2 with h3 | h3
    · have := h t k w d h3 h2; omega
    · omega

/-! ## Sums -/

theorem sublist_range : ∀ (n : Nat) (l : List Nat), l.Pairwise (· < ·) → (∀ x ∈ l, x < n) →
    l.Sublist (List.range n)
  | 0, l, _, h => by
    rcases l with _ | ⟨x, l⟩
    · exact List.Sublist.refl _
    · exact absurd (h x List.mem_cons_self) (Nat.not_lt_zero x)
  | n + 1, l, hs, h => by
    rw [List.range_succ]
    rcases List.eq_nil_or_concat l with rfl | ⟨l', x, rfl⟩
    · exact List.nil_sublist _
    · rw [List.concat_eq_append] at hs h ⊢
      obtain ⟨h1, _, h3⟩ := List.pairwise_append.mp hs
      have hx := h x (by simp)
      have hl : ∀ y ∈ l', y < n := by
        intro y hy
        have := h3 y hy x (by simp); omega
      by_cases hxn : x = n
      · subst hxn
        exact (sublist_range x l' h1 hl).append (List.Sublist.refl _)
      · refine (sublist_range n _ hs ?_).trans (List.sublist_append_left _ _)
        intro y hy
        rcases List.mem_append.mp hy with hy | hy
        · exact hl y hy
        · rw [List.mem_singleton] at hy; omega

/-- Whether `L` says nothing about the end of call `u`. -/
def openIn (L : List Entry) (u : Nat) : Bool :=
  L.all fun x => match x with | .finished v _ => v != u | _ => true

theorem openIn_iff {L : List Entry} {u : Nat} : openIn L u = true ↔ ∀ r, .finished u r ∉ L := by
  unfold openIn
  rw [List.all_eq_true]
  constructor
  · intro h r hm
    have := h _ hm
    simp at this
  · intro h x hx
    cases x with
    | finished v r =>
      show (v != u) = true
      rw [bne_iff_ne]
      rintro rfl
      exact h r hx
    | _ => rfl

theorem limitsAhead_aux (T : Nat → Option Task) (c : Nat → Prop) [DecidablePred c] :
    ∀ L : List Entry, (∀ u o w e, .submitted u o w e ∈ L → lim T u = limit o) →
      (L.map fun e => match e with
        | .submitted u o _ _ => if c u then limit o else 0
        | _ => 0).sum = ((L.filterMap Entry.subId).map fun u => if c u then lim T u else 0).sum
  | [], _ => rfl
  | e :: L, h => by
    have ih := limitsAhead_aux T c L fun u o w x hm => h u o w x (List.mem_cons_of_mem _ hm)
    rw [List.map_cons, List.sum_cons, ih]
    cases e with
    | submitted u o w x =>
      have hl := h u o w x List.mem_cons_self
      rw [List.filterMap_cons_some (f := Entry.subId) (a := .submitted u o w x) (b := u) rfl,
        List.map_cons, List.sum_cons]
      dsimp only
      rw [hl]
    | _ => rw [List.filterMap_cons_none rfl]; exact Nat.zero_add _

/-- The limits of any calls up to `t` that have not ended are part of the sum. -/
theorem limitsAhead_ge {s : Api} (i : Inv s) {t : Nat} {l : List Nat} (hs : l.Pairwise (· < ·))
    (hl : ∀ u ∈ l, u ≤ t ∧ ∃ k, s.tasks u = some k ∧ ∀ r, k.pc ≠ .done r) :
    (l.map (lim s.tasks)).sum ≤ limitsAhead t s.log := by
  have e1 : limitsAhead t s.log = ((s.log.filterMap Entry.subId).map fun u =>
      if u ≤ t ∧ openIn s.log u = true then lim s.tasks u else 0).sum := by
    refine limitsAhead_aux s.tasks (fun u => u ≤ t ∧ openIn s.log u = true) s.log ?_
    intro u o w e hm
    obtain ⟨k, hk, ho, _⟩ := (i.log.subIff u o w e).mp hm
    unfold lim; rw [hk, ← ho]
  rw [e1, i.log.subs]
  have hsub : l.Sublist (List.range s.nextTid) := by
    refine sublist_range _ _ hs fun u hu => ?_
    obtain ⟨_, k, hk, _⟩ := hl u hu
    exact (i.lock.tid u).mp ⟨k, hk⟩
  have e2 : l.map (lim s.tasks) = l.map fun u =>
      if u ≤ t ∧ openIn s.log u = true then lim s.tasks u else 0 := by
    refine List.map_congr_left fun u hu => ?_
    obtain ⟨h1, k, hk, hd⟩ := hl u hu
    have ho : openIn s.log u = true := by
      rw [openIn_iff]
      intro r hm
      obtain ⟨k', hk', hp⟩ := (i.log.fin u r).mp hm
      rw [hk] at hk'; cases hk'
      exact hd r hp
    rw [if_pos ⟨h1, ho⟩]
  rw [e2]
  exact sum_sublist (hsub.map _)

/-- A call that has not ended: the calls ahead of it and itself take at most their limits. -/
theorem within_start {s : Api} (i : Inv s)
    (hd : ∀ t k w d, s.tasks t = some k → k.pc = .waiting w d → d ≤ s.now + limit k.obj)
    {t : Nat} (hu : ∃ k, s.tasks t = some k ∧ ∀ r, k.pc ≠ .done r) :
    Within (s.now + limitsAhead t s.log) t s := by
  obtain ⟨kt, hkt, hnd⟩ := hu
  have queued : ∀ u ∈ s.queue, ∃ k, s.tasks u = some k ∧ ∀ r, k.pc ≠ .done r := by
    intro u hu
    obtain ⟨k, hk, hp⟩ := (i.lock.qIff u).mp hu
    exact ⟨k, hk, fun r => by rw [hp]; simp⟩
  rcases hh : s.holder with _ | h
  · refine ⟨s.now, ?_, Nat.le_refl _, ?_⟩
    · intro h k w d a1 a2
      have := (i.lock.hIff h).mpr ⟨k, a1, by rw [a2]; trivial⟩
      rw [hh] at this; cases this
    · refine Nat.add_le_add_left (limitsAhead_ge i (i.lock.qSorted.filter _) ?_) _
      intro u hu
      rw [List.mem_filter] at hu
      exact ⟨by simpa using hu.2, queued u hu.1⟩
  · obtain ⟨k, hk, ha⟩ := (i.lock.hIff h).mp hh
    refine ⟨s.now + limit k.obj, ?_, by omega, ?_⟩
    · intro h' k' w d a1 a2
      have := (i.lock.hIff h').mpr ⟨k', a1, by rw [a2]; trivial⟩
      rw [hh] at this; cases this
      rw [hk] at a1; cases a1
      exact hd h k w d hk a2
    · have hq := i.lock.hQueue h hh
      have hle : h ≤ t := by
        by_cases he : h = t
        · omega
        have : t ∈ s.queue := by
          refine (i.lock.qIff t).mpr ⟨kt, hkt, ?_⟩
          rcases hp : kt.pc with _ | _ | ⟨w, d⟩ | r
          · rfl
          · have := (i.lock.hIff t).mpr ⟨kt, hkt, by rw [hp]; trivial⟩
            rw [hh] at this; cases this; exact absurd rfl he
          · have := (i.lock.hIff t).mpr ⟨kt, hkt, by rw [hp]; trivial⟩
            rw [hh] at this; cases this; exact absurd rfl he
          · exact absurd hp (hnd r)
        exact Nat.le_of_lt (hq t this)
      have hlim : lim s.tasks h = limit k.obj := by unfold lim; rw [hk]
      have := limitsAhead_ge i (t := t) (l := h :: s.queue.filter fun u => decide (u ≤ t))
        (List.pairwise_cons.mpr ⟨fun u hu => hq u (List.mem_filter.mp hu).1,
          i.lock.qSorted.filter _⟩) (by
          intro u hu
          rcases List.mem_cons.mp hu with rfl | hu
          · refine ⟨hle, k, hk, fun r hp => ?_⟩
            rw [hp] at ha; exact ha.elim
          · rw [List.mem_filter] at hu
            exact ⟨by simpa using hu.2, queued u hu.1⟩)
      rw [List.map_cons, List.sum_cons, hlim] at this
      unfold tot
      omega

end Zcc
