import Verif.Proofs.Waiter
import Verif.Proofs.Uart

/-!
# Errors of the encoder, refused calls, response waiters of `from_cluster` (helper lemmas)
-/

namespace Zcc

open Spec

/-! ## Errors of the encoder -/

/-- Errors that only waiting for the radio can produce. -/
def PyErr.fromRadio : PyErr → Bool
  | .commandError _ => true
  | .timeoutError => true
  | .cancelledError => true
  | _ => false

/-- A computation that raises none of them. -/
def Local' {α : Type} (x : Except PyErr α) : Prop := ∀ e, x = .error e → e.fromRadio = false

theorem Local'.ok {α : Type} (a : α) : Local' (.ok a) := by intro e h; simp at h

theorem Local'.err {α : Type} {e : PyErr} (h : e.fromRadio = false) :
    Local' (.error e : Except PyErr α) := by intro e' h'; cases h'; exact h

theorem Local'.bind {α β : Type} {x : Except PyErr α} {f : α → Except PyErr β} (h : Local' x)
    (h' : ∀ a, Local' (f a)) : Local' (x >>= f) := by
  cases x with
  | error e => exact Local'.err (h e rfl)
  | ok a => exact h' a

theorem loc_writeInt (v : Int) (n : Nat) : Local' (writeInt v n) := by
  unfold writeInt; split
  · exact .ok _
  · exact .err rfl

theorem loc_writeInts (n : Nat) : ∀ l : List Int, Local' (writeInts n l)
  | [] => .ok _
  | v :: l => (loc_writeInt v n).bind fun _ => (loc_writeInts n l).bind fun _ => .ok _

theorem loc_writeNeighbor (n : Neighbor) : Local' (writeNeighbor n) :=
  (loc_writeInts _ _).bind fun _ => (loc_writeInts _ _).bind fun _ =>
  (loc_writeInt _ _).bind fun _ => (loc_writeInt _ _).bind fun _ =>
  (loc_writeInt _ _).bind fun _ => (loc_writeInt _ _).bind fun _ =>
  (loc_writeInt _ _).bind fun _ => .ok _

theorem loc_writeNeighbors : ∀ l : List Neighbor, Local' (writeNeighbors l)
  | [] => .ok _
  | v :: l => (loc_writeNeighbor v).bind fun _ => (loc_writeNeighbors l).bind fun _ => .ok _

theorem loc_writeIter (n : Nat) (v : Val) : Local' (writeIter n v) := by
  unfold writeIter
  split
  · exact .err rfl
  · exact loc_writeInts _ _
  · exact loc_writeInts _ _
  · exact loc_writeInts _ _
  · exact .ok _
  · exact .err rfl

theorem loc_writeScalar (n : Nat) (v : Val) : Local' (writeScalar n v) := by
  unfold writeScalar
  split
  · exact loc_writeInt _ _
  · exact .err rfl

theorem loc_writeParameter (t : ParameterType) (v : Val) : Local' (writeParameter t v) := by
  unfold writeParameter
  split
  · exact loc_writeScalar _ _
  · exact loc_writeScalar _ _
  · exact loc_writeScalar _ _
  · split
    · exact loc_writeInt _ _
    · exact loc_writeIter _ _
  · split
    · exact .ok _
    · exact .err rfl
  · exact loc_writeIter _ _
  · exact loc_writeIter _ _
  · split
    · exact loc_writeNeighbors _
    · exact .ok _
    · exact .ok _
    · exact .ok _
    · exact .err rfl
  · exact .err rfl

theorem loc_dictGet (p : Payload) (k : String) : Local' (dictGet p k) := by
  unfold dictGet
  split
  · exact .ok _
  · exact .err rfl

theorem loc_writeParameters (p : Payload) : ∀ ps : Params, Local' (writeParameters p ps)
  | [] => .ok _
  | q :: ps => (loc_dictGet p q.1).bind fun v => (loc_writeParameter q.2 v).bind fun _ =>
      (loc_writeParameters p ps).bind fun _ => .ok _

theorem loc_encode (o : Obj) : Local' (encode o) := by
  refine Local'.bind ((loc_writeParameters o.payload o.parameters).bind fun _ => .ok _) ?_
  intro f e h
  rw [Gateway.send, toBuffer_eq] at h
  split at h
  · simp at h
  · cases h; rfl

/-! ## Finishing -/

/-- A call that has been written is only moved by its own events. -/
theorem started_step {s : Api} (i : Inv s) {t : Nat} {k : Task} (hk : s.tasks t = some k)
    (hq : k.pc ≠ .queued) (e : Event)
    (he : e ≠ .wake t ∧ e ≠ .timeout t ∧ e ≠ .cancel t) : (s.step e).tasks t = some k := by
  have hstart : ∀ (s : Api) u o, t ≠ u → (s.start u o).tasks t = s.tasks t := by
    intro s u o h
    unfold Api.start
    split
    · exact setPc_other s u _ h
    · split
      · rename_i m to _
        have fs := waitFor_fields s m to none
        dsimp only
        split
        · exact (setPc_other (s.waitFor m to none).2 u _ h).trans (by rw [fs.1])
        · rename_i s' h'
          rw [setPc_other _ _ _ h, (uartSend_fields h').1, fs.1]
      · split
        · split
          · exact setPc_other s u _ h
          · rename_i s' h'
            exact (setPc_other s' u _ h).trans (by rw [(uartSend_fields h').1])
        · exact setPc_other s u _ h
  have hgrant : ∀ s : Api, s.tasks t = some k →
      (∀ u ∈ s.queue, ∀ k, s.tasks u = some k → k.pc = .queued) → s.grant.tasks t = some k := by
    intro s hk h
    unfold Api.grant
    split
    · split
      · rename_i _ _ u q _ hqq _ k' hk'
        have hu : t ≠ u := by
          rintro rfl
          have := h t (by rw [hqq]; exact List.mem_cons_self) k' hk'
          rw [hk] at hk'; cases hk'; exact hq this
        rw [hstart _ _ _ hu, setPc_other _ _ _ hu]; exact hk
      · exact hk
    · exact hk
  have hqueue : ∀ u ∈ s.queue, ∀ k, s.tasks u = some k → k.pc = .queued := by
    intro u hu k hk
    obtain ⟨k', h1, h2⟩ := (i.lock.qIff u).mp hu
    rw [hk] at h1; cases h1; exact h2
  cases e with
  | submit o w x =>
    have htid : t ≠ s.nextTid := by
      have := (i.lock.tid t).mp ⟨k, hk⟩
      omega
    have hke : (s.enqueue o w x).tasks t = some k :=
      (upd_other s.tasks _ htid).trans hk
    rw [Api.step]
    split
    · refine hgrant _ hke ?_
      intro u hu k' hk'
      rcases List.mem_append.mp hu with hu | hu
      · have hlt : u < s.nextTid := by
          obtain ⟨k'', h1, _⟩ := (i.lock.qIff u).mp hu
          exact (i.lock.tid u).mp ⟨_, h1⟩
        have hk'' : s.tasks u = some k' := by
          rw [← hk']; exact (upd_other s.tasks _ (by omega)).symm
        exact hqueue u hu k' hk''
      · rw [List.mem_singleton] at hu; subst hu
        have : upd s.tasks s.nextTid (some ⟨o, w, x, .queued⟩) s.nextTid = some k' := hk'
        rw [upd_same] at this; cases this; rfl
    · exact hke
  | grant => exact hgrant s hk hqueue
  | frame f => rw [Api.step, (dataReceived_fields s f).1]; exact hk
  | wake u =>
    have hu : t ≠ u := by rintro rfl; exact he.1 rfl
    rw [Api.step]
    split
    · split
      · split
        · unfold Api.conclude
          split
          · split
            · exact (setPc_other s u _ hu).trans hk
            · split
              · exact (setPc_other s u _ hu).trans hk
              · split
                · refine (setPc_other _ u _ hu).trans ?_
                  rw [(setResult_fields _ _ _).1]; exact hk
                · exact (setPc_other s u _ hu).trans hk
          · exact (setPc_other s u _ hu).trans hk
        · exact hk
      · exact hk
    · exact hk
  | timeout u =>
    have hu : t ≠ u := by rintro rfl; exact he.2.1 rfl
    rw [Api.step]
    split
    · split
      · split
        · exact (setPc_other s u _ hu).trans hk
        · exact hk
      · exact hk
    · exact hk
  | cancel u =>
    have hu : t ≠ u := by rintro rfl; exact he.2.2 rfl
    rw [Api.step]
    split
    · split
      · exact (setPc_other s u _ hu).trans hk
      · exact (setPc_other s u _ hu).trans hk
      · exact hk
    · exact hk
  | timer w =>
    rw [Api.step]
    split
    · unfold Api.timerCallback; split <;> exact hk
    · exact hk
  | tick ms => exact hk
  | setUart b => exact hk
  | register m to q => exact hk
  | registerResponse o q =>
    rw [Api.step]
    unfold Api.createResponseWaiter
    split <;> exact hk
  | abandon w =>
    rw [Api.step]
    split <;> exact hk

theorem finish_pc {s : Api} {t : Nat} {k : Task} (hk : s.tasks t = some k)
    (r : Except PyErr (Option Obj)) : (s.finish t r).tasks t = some { k with pc := .done r } := by
  rw [finish_tasks, setPc_eq hk]; exact upd_same _ _ _

/-- What happens when a written call finishes with an error the encoder cannot raise, or finishes
after it has been written: it was woken, timed out or cancelled. -/
theorem finishing {s : Api} (i : Inv s) {t : Nat} {k : Task} (hk : s.tasks t = some k)
    (hq : k.pc ≠ .queued) {e : Event} {r : Except PyErr (Option Obj)}
    (hn : k.pc ≠ .done r) (hd : (s.step e).tasks t = some { k with pc := .done r }) :
    (∃ w d o, k.pc = .waiting w d ∧ s.fut w = .result o ∧ e = .wake t ∧
        s.step e = s.conclude t k o) ∨
    (e = .timeout t ∧ r = .error .timeoutError) ∨ (e = .cancel t ∧ r = .error .cancelledError) := by
  by_cases h1 : e = .wake t
  · subst h1
    rw [Api.step, hk] at hd ⊢
    dsimp only at hd ⊢
    rcases hp : k.pc with _ | _ | ⟨w, d⟩ | r'
    · exact absurd hp hq
    · rw [hp] at hd; dsimp only at hd; rw [hk] at hd
      simp only [Option.some.injEq] at hd
      have := congrArg Task.pc hd; rw [hp] at this; simp at this
    · rw [hp] at hd; dsimp only at hd
      rcases hf : s.fut w with _ | o | _
      · rw [hf] at hd; dsimp only at hd; rw [hk] at hd
        have := congrArg Task.pc (Option.some.inj hd); rw [hp] at this; simp at this
      · refine .inl ⟨w, d, o, rfl, hf, rfl, ?_⟩
        dsimp only; rw [hf]
      · rw [hf] at hd; dsimp only at hd; rw [hk] at hd
        have := congrArg Task.pc (Option.some.inj hd); rw [hp] at this; simp at this
    · rw [hp] at hd; dsimp only at hd; rw [hk] at hd
      have := congrArg Task.pc (Option.some.inj hd)
      exact absurd this hn
  by_cases h2 : e = .timeout t
  · subst h2
    refine .inr (.inl ⟨rfl, ?_⟩)
    rw [Api.step, hk] at hd
    dsimp only at hd
    split at hd
    · split at hd
      · have e1 := finish_pc hk (.error .timeoutError)
        have : some { k with pc := Pc.done r } = some { k with pc := Pc.done (.error .timeoutError) } :=
          hd.symm.trans e1
        have := congrArg Task.pc (Option.some.inj this)
        simpa using this
      · rw [hk] at hd
        exact absurd (congrArg Task.pc (Option.some.inj hd)) hn
    · rw [hk] at hd
      exact absurd (congrArg Task.pc (Option.some.inj hd)) hn
  by_cases h3 : e = .cancel t
  · subst h3
    refine .inr (.inr ⟨rfl, ?_⟩)
    rw [Api.step, hk] at hd
    dsimp only at hd
    split at hd
    · rename_i h; exact absurd h hq
    · have e1 := finish_pc hk (.error .cancelledError)
      have : some { k with pc := Pc.done r } = some { k with pc := Pc.done (.error .cancelledError) } :=
        hd.symm.trans e1
      have := congrArg Task.pc (Option.some.inj this)
      simpa using this
    · rw [hk] at hd
      exact absurd (congrArg Task.pc (Option.some.inj hd)) hn
  · rw [started_step i hk hq e ⟨h1, h2, h3⟩] at hd
    exact absurd (congrArg Task.pc (Option.some.inj hd)) hn

/-- Identity and options of a call never change. -/
theorem task_kept {s : Api} (i : Inv s) {t : Nat} {k : Task} (hk : s.tasks t = some k) (e : Event) :
    ∃ pc, (s.step e).tasks t = some { k with pc } := by
  have i' := i.step e
  have hm : Entry.submitted t k.obj k.waiterId k.expected ∈ s.log :=
    (i.log.subIff _ _ _ _).mpr ⟨k, hk, rfl, rfl, rfl⟩
  obtain ⟨k', h1, h2, h3, h4⟩ := (i'.log.subIff _ _ _ _).mp ((grows_step s e).log.mem hm)
  refine ⟨k'.pc, h1.trans ?_⟩
  rw [← h2, ← h3, ← h4]

/-- The waiter of a refused call has been in the table and has left it. -/
def RefInv (s : Api) : Prop :=
  ∀ t k w z, s.tasks t = some k → k.pc = .done (.error (.commandError z)) → k.waiterId = some w →
    w < s.waiterId ∧ ∀ x ∈ s.waiters, x.id ≠ w

theorem conclude_removes {s : Api} (i : Inv s) {t : Nat} {k : Task} {o : Obj} {w : Nat} {z : Int}
    (hk : s.tasks t = some k) (hw : k.waiterId = some w)
    (h : (s.conclude t k o).tasks t = some { k with pc := .done (.error (.commandError z)) }) :
    w < s.waiterId ∧ ∀ x ∈ (s.conclude t k o).waiters, x.id ≠ w := by
  obtain ⟨ob, kw, ex, pc⟩ := k
  cases hw
  have contra : ∀ (s' : Api) r, s'.tasks t = some ⟨ob, some w, ex, pc⟩ → r ≠ .error (.commandError z) →
      (s'.finish t r).tasks t = some ⟨ob, some w, ex, .done (.error (.commandError z))⟩ → False := by
    intro s' r hk hr h
    rw [finish_pc hk] at h
    have := congrArg Task.pc (Option.some.inj h)
    simp at this
    exact hr this
  unfold Api.conclude at h ⊢
  by_cases hS : ob.commandType = .SREQ
  · rw [if_pos hS] at h ⊢
    rcases hb : badStatus ex o with _ | z'
    · rw [hb] at h; exact (contra _ _ hk (by simp) h).elim
    · rw [hb] at h
      dsimp only at h ⊢
      by_cases ha : s.waiters.any (fun x => x.id == w) = true
      · rw [if_pos ha]
        obtain ⟨y, hy, hyw⟩ := List.any_eq_true.mp ha
        have hyw : y.id = w := by simpa using hyw
        refine ⟨hyw ▸ i.wait.lt y hy, ?_⟩
        intro x hx
        have : x ∈ ((s.drop w).setResult w o).waiters := by
          have e := (setPc_wl ((s.drop w).setResult w o) t (.done (.error (.commandError z')))).1
          have : x ∈ (((s.drop w).setResult w o).setPc t (.done (.error (.commandError z')))).waiters := hx
          rw [e] at this; exact this
        rw [(setResult_fields _ _ _).2.2.1] at this
        have := (List.mem_filter.mp this).2
        simpa using this
      · rw [if_neg ha] at h
        exact (contra _ _ hk (by simp) h).elim
  · rw [if_neg hS] at h
    exact (contra _ _ hk (by simp) h).elim

theorem conclude_gone {s : Api} {t : Nat} {k : Task} {o : Obj} {w : Nat} {r}
    (hk : s.tasks t = some k) (hw : k.waiterId = some w)
    (ha : s.waiters.any (fun x => x.id == w) = true)
    (h : (s.conclude t k o).tasks t = some { k with pc := .done r }) :
    r ≠ .error (.keyError "waiter") := by
  obtain ⟨ob, kw, ex, pc⟩ := k
  cases hw
  have eq : ∀ (s' : Api) r', s'.tasks t = some ⟨ob, some w, ex, pc⟩ →
      (s'.finish t r').tasks t = some ⟨ob, some w, ex, .done r⟩ → r = r' := by
    intro s' r' hk h
    rw [finish_pc hk] at h
    have := congrArg Task.pc (Option.some.inj h)
    simp at this
    exact this.symm
  unfold Api.conclude at h
  split at h
  · split at h
    · rw [eq _ _ hk h]; simp
    · rename_i z' _
      dsimp only at h
      rw [if_pos ha] at h
      rw [eq _ _ (by rw [(setResult_fields _ _ _).1]; exact hk) h]; simp
  · rw [eq _ _ hk h]; simp

theorem start_done {s : Api} {t : Nat} {k k' : Task} (o : Obj) (hk : s.tasks t = some k)
    {e : PyErr} (h : (s.start t o).tasks t = some k') (hp : k'.pc = .done (.error e)) :
    e.fromRadio = false := by
  have fin : ∀ (s' : Api) r, s'.tasks t = some k → (s'.finish t r).tasks t = some k' →
      r = .error e := by
    intro s' r hk h
    rw [finish_pc hk] at h
    cases h
    simpa using hp
  have hsend : ∀ (s' : Api) (f : Frame) e', s'.uartSend t f = .error e' → e'.fromRadio = false := by
    intro s' f e' h
    unfold Api.uartSend at h
    split at h
    · split at h
      · rename_i h'
        cases h
        rw [Gateway.send, toBuffer_eq] at h'
        split at h'
        · simp at h'
        · cases h'; rfl
      · simp at h
    · cases h; rfl
  unfold Api.start at h
  split at h
  · rename_i e' he
    cases fin s _ hk h
    exact loc_encode o e (by unfold encode; rw [he, error_bind])
  · split at h
    · rename_i m to _
      have fs := waitFor_fields s m to none
      dsimp only at h
      split at h
      · rename_i e' he
        cases fin _ _ (by rw [fs.1]; exact hk) h
        exact hsend _ _ _ he
      · rename_i s' h'
        rw [setPc_eq (k := k) (by rw [(uartSend_fields h').1, fs.1]; exact hk)] at h
        have := h.symm.trans (upd_same _ _ _)
        cases this
        simp at hp
    · split at h
      · split at h
        · rename_i e' he
          cases fin _ _ hk h
          exact hsend _ _ _ he
        · rename_i s' h'
          have := fin s' _ (by rw [(uartSend_fields h').1]; exact hk) h
          simp at this
      · cases fin _ _ hk h; rfl

theorem start_other (s : Api) {t u : Nat} (o : Obj) (h : t ≠ u) :
    (s.start u o).tasks t = s.tasks t := by
  unfold Api.start
  split
  · exact setPc_other s u _ h
  · split
    · rename_i m to _
      have fs := waitFor_fields s m to none
      dsimp only
      split
      · exact (setPc_other (s.waitFor m to none).2 u _ h).trans (by rw [fs.1])
      · rename_i s' h'
        rw [setPc_other _ _ _ h, (uartSend_fields h').1, fs.1]
    · split
      · split
        · exact setPc_other s u _ h
        · rename_i s' h'
          exact (setPc_other s' u _ h).trans (by rw [(uartSend_fields h').1])
      · exact setPc_other s u _ h

theorem grant_done {s : Api} {t : Nat} {k' : Task} {e : PyErr} (h : s.grant.tasks t = some k')
    (hp : k'.pc = .done (.error e)) (he : e.fromRadio = true) : s.tasks t = some k' := by
  unfold Api.grant at h
  split at h
  · split at h
    · rename_i u q _ _ _ k hk
      by_cases hu : t = u
      · subst hu
        have := start_done (s := ({ s with holder := some t, queue := q } : Api).setPc t .running)
          (k := { k with pc := .running }) k.obj
          (by rw [setPc_eq (s := { s with holder := some t, queue := q }) hk]; exact upd_same _ _ _)
          h hp
        rw [he] at this; simp at this
      · rw [start_other _ _ hu, setPc_other _ _ _ hu] at h; exact h
    · exact h
  · exact h

/-- A call that just became refused was woken by its answer. -/
theorem refused_step {s : Api} (i : Inv s) {t : Nat} {k' : Task} {e : Event} {z : Int}
    (h : (s.step e).tasks t = some k') (hp : k'.pc = .done (.error (.commandError z))) :
    s.tasks t = some k' ∨ ∃ k w d o, s.tasks t = some k ∧ k.pc = .waiting w d ∧
      s.fut w = .result o ∧ e = .wake t ∧ s.step e = s.conclude t k o ∧
      k' = { k with pc := .done (.error (.commandError z)) } := by
  rcases hk : s.tasks t with _ | k
  · cases e with
    | submit o w x =>
      exfalso
      rw [Api.step] at h
      have hen : ∀ k', (s.enqueue o w x).tasks t = some k' → k'.pc = .queued := by
        intro k' h
        by_cases ht : t = s.nextTid
        · subst ht
          have h' : upd s.tasks s.nextTid _ s.nextTid = some k' := h
          rw [upd_same] at h'; cases h'; rfl
        · have h' : upd s.tasks s.nextTid _ t = some k' := h
          rw [upd_other _ _ ht, hk] at h'; simp at h'
      split at h
      · have := hen _ (grant_done h hp rfl)
        rw [hp] at this; simp at this
      · have := hen _ h
        rw [hp] at this; simp at this
    | grant => have := grant_done h hp rfl; rw [hk] at this; simp at this
    | frame f => rw [Api.step, (dataReceived_fields s f).1, hk] at h; simp at h
    | wake u =>
      by_cases hu : t = u
      · subst hu; rw [Api.step, hk] at h; dsimp only at h; rw [hk] at h; simp at h
      · exfalso
        have : (s.step (.wake u)).tasks t = s.tasks t := by
          rw [Api.step]
          split
          · split
            · split
              · unfold Api.conclude
                split
                · split
                  · exact setPc_other s u _ hu
                  · split
                    · exact setPc_other s u _ hu
                    · split
                      · refine (setPc_other _ u _ hu).trans ?_
                        rw [(setResult_fields _ _ _).1]; rfl
                      · exact setPc_other s u _ hu
                · exact setPc_other s u _ hu
              · rfl
            · rfl
          · rfl
        rw [this, hk] at h; simp at h
    | timeout u =>
      by_cases hu : t = u
      · subst hu; rw [Api.step, hk] at h; dsimp only at h; rw [hk] at h; simp at h
      · exfalso
        have : (s.step (.timeout u)).tasks t = s.tasks t := by
          rw [Api.step]
          split
          · split
            · split
              · exact setPc_other s u _ hu
              · rfl
            · rfl
          · rfl
        rw [this, hk] at h; simp at h
    | cancel u =>
      by_cases hu : t = u
      · subst hu; rw [Api.step, hk] at h; dsimp only at h; rw [hk] at h; simp at h
      · exfalso
        have : (s.step (.cancel u)).tasks t = s.tasks t := by
          rw [Api.step]
          split
          · split
            · exact setPc_other s u _ hu
            · exact setPc_other s u _ hu
            · rfl
          · rfl
        rw [this, hk] at h; simp at h
    | timer w =>
      exfalso
      rw [Api.step] at h
      split at h
      · unfold Api.timerCallback at h
        split at h
        · rw [show s.tasks t = some k' from h] at hk; simp at hk
        · rw [show s.tasks t = some k' from h] at hk; simp at hk
      · rw [hk] at h; simp at h
    | tick ms => rw [show s.tasks t = some k' from h] at hk; simp at hk
    | setUart b => rw [show s.tasks t = some k' from h] at hk; simp at hk
    | register m to q => rw [show s.tasks t = some k' from h] at hk; simp at hk
    | registerResponse o q =>
      exfalso
      rw [Api.step] at h
      unfold Api.createResponseWaiter at h
      split at h <;> (rw [show s.tasks t = some k' from h] at hk; simp at hk)
    | abandon w =>
      exfalso
      rw [Api.step] at h
      split at h <;> (rw [show s.tasks t = some k' from h] at hk; simp at hk)
  · obtain ⟨pc, hkept⟩ := task_kept i hk e
    rw [h] at hkept
    have hk'e : k' = { k with pc := .done (.error (.commandError z)) } := by
      have := Option.some.inj hkept
      have h2 := congrArg Task.pc this
      rw [hp] at h2
      rw [this, h2]
    by_cases hdone : k.pc = .done (.error (.commandError z))
    · left
      rw [hk'e, ← hdone]
    · by_cases hq : k.pc = .queued
      · -- a queued call cannot be refused in one step
        exfalso
        cases e with
        | submit o w x =>
          have htid : t ≠ s.nextTid := by
            have := (i.lock.tid t).mp ⟨k, hk⟩
            omega
          have hen : (s.enqueue o w x).tasks t = some k := (upd_other s.tasks _ htid).trans hk
          rw [Api.step] at h
          split at h
          · have := grant_done h hp rfl
            rw [hen] at this; cases this; exact hdone hp
          · rw [hen] at h; cases h; exact hdone hp
        | grant =>
          have := grant_done h hp rfl
          rw [hk] at this; cases this; exact hdone hp
        | frame f => rw [Api.step, (dataReceived_fields s f).1, hk] at h; cases h; exact hdone hp
        | wake u =>
          by_cases hu : t = u
          · subst hu
            rw [Api.step, hk] at h; dsimp only at h; rw [hq] at h; dsimp only at h
            rw [hk] at h; cases h; exact hdone hp
          · have : (s.step (.wake u)).tasks t = s.tasks t := by
              rw [Api.step]
              split
              · split
                · split
                  · unfold Api.conclude
                    split
                    · split
                      · exact setPc_other s u _ hu
                      · split
                        · exact setPc_other s u _ hu
                        · split
                          · refine (setPc_other _ u _ hu).trans ?_
                            rw [(setResult_fields _ _ _).1]; rfl
                          · exact setPc_other s u _ hu
                    · exact setPc_other s u _ hu
                  · rfl
                · rfl
              · rfl
            rw [this, hk] at h; cases h; exact hdone hp
        | timeout u =>
          by_cases hu : t = u
          · subst hu
            rw [Api.step, hk] at h; dsimp only at h; rw [hq] at h; dsimp only at h
            rw [hk] at h; cases h; exact hdone hp
          · have : (s.step (.timeout u)).tasks t = s.tasks t := by
              rw [Api.step]
              split
              · split
                · split
                  · exact setPc_other s u _ hu
                  · rfl
                · rfl
              · rfl
            rw [this, hk] at h; cases h; exact hdone hp
        | cancel u =>
          by_cases hu : t = u
          · subst hu
            rw [Api.step, hk] at h; dsimp only at h; rw [hq] at h; dsimp only at h
            have e1 : (s.setPc t (.done (.error .cancelledError))).tasks t =
                some { k with pc := .done (.error .cancelledError) } := by
              rw [setPc_eq hk]; exact upd_same _ _ _
            have := e1.symm.trans h
            cases this
            simp at hp
          · have : (s.step (.cancel u)).tasks t = s.tasks t := by
              rw [Api.step]
              split
              · split
                · exact setPc_other s u _ hu
                · exact setPc_other s u _ hu
                · rfl
              · rfl
            rw [this, hk] at h; cases h; exact hdone hp
        | timer w =>
          rw [Api.step] at h
          split at h
          · unfold Api.timerCallback at h
            split at h
            · have h : s.tasks t = some k' := h
              rw [hk] at h; cases h; exact hdone hp
            · have h : s.tasks t = some k' := h
              rw [hk] at h; cases h; exact hdone hp
          · rw [hk] at h; cases h; exact hdone hp
        | tick ms => have h : s.tasks t = some k' := h; rw [hk] at h; cases h; exact hdone hp
        | setUart b => have h : s.tasks t = some k' := h; rw [hk] at h; cases h; exact hdone hp
        | register m to q =>
          have h : s.tasks t = some k' := h; rw [hk] at h; cases h; exact hdone hp
        | registerResponse o q =>
          rw [Api.step] at h
          unfold Api.createResponseWaiter at h
          split at h <;> (have h : s.tasks t = some k' := h; rw [hk] at h; cases h; exact hdone hp)
        | abandon w =>
          rw [Api.step] at h
          split at h <;> (have h : s.tasks t = some k' := h; rw [hk] at h; cases h; exact hdone hp)
      · rw [hk'e] at h
        rcases finishing i hk hq hdone h with ⟨w, d, o, h1, h2, h3, h4⟩ | ⟨_, h⟩ | ⟨_, h⟩
        · exact .inr ⟨k, w, d, o, rfl, h1, h2, h3, h4, hk'e⟩
        · simp at h
        · simp at h

theorem RefInv.step {s : Api} (i : Inv s) (r : RefInv s) (e : Event) : RefInv (s.step e) := by
  intro t k' w z hk' hp hw
  rcases refused_step i hk' hp with h | ⟨k, w', d, o, hk, hpc, hf, he, hs, rfl⟩
  · obtain ⟨hlt, hout⟩ := r t k' w z h hp hw
    refine ⟨Nat.lt_of_lt_of_le hlt (grows_step s e).wid, fun x hx => ?_⟩
    rcases (grows_step s e).tab x hx with hx | hx
    · exact hout x hx
    · omega
  · have hwid := (grows_step s e).wid
    rw [hs] at hk' hwid ⊢
    obtain ⟨hlt, hout⟩ := conclude_removes i hk hw hk'
    exact ⟨Nat.lt_of_lt_of_le hlt hwid, hout⟩

theorem ref_run (es : List Event) : ∀ s : Api, Inv s → RefInv s → RefInv (s.run es) := by
  induction es with
  | nil => intro s _ h; exact h
  | cons e es ih => intro s i h; exact ih _ (i.step e) (h.step i e)

theorem ref_init : RefInv Api.init := by intro t k w z h; simp [Api.init] at h

end Zcc
