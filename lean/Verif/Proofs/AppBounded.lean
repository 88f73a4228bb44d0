import Verif.Proofs.Bounded
import Verif.Proofs.Progress

/-!
# Lemmas for C73: how long the calls of the application can take
-/

namespace Zcc
open Spec

/-! ## The API -/

/-- The sum of the time limits of all queued calls. -/
def queueSum (s : Api) : Nat := (s.queue.map (lim s.tasks)).sum

/-- The call at work ends by `b`, the queued ones need `r` more. -/
structure Load (b r : Nat) (s : Api) : Prop where
  wait : ∀ h k w d, s.tasks h = some k → k.pc = .waiting w d → d ≤ b
  now : s.now ≤ b
  queue : queueSum s ≤ r

/-- The work that an event brings in. -/
def brings : Event → Nat
  | .submit o _ _ => limit o
  | _ => 0

theorem Load.same {b r : Nat} {s s' : Api} (j : Load b r s) (h1 : s'.tasks = s.tasks)
    (h2 : s'.now = s.now) (h3 : s'.queue = s.queue) : Load b r s' where
  wait h k w d a1 a2 := j.wait h k w d (by rw [← h1]; exact a1) a2
  now := by rw [h2]; exact j.now
  queue := by unfold queueSum; rw [h1, h3]; exact j.queue

/-- Some call moves to a point where it does not wait. -/
theorem Load.move {b r : Nat} {s s' : Api} (j : Load b r s) {u : Nat} {k : Task}
    (hk : s.tasks u = some k) {pc : Pc} (hpc : ∀ w d, pc ≠ .waiting w d)
    (ht : s'.tasks = upd s.tasks u (some { k with pc })) (hn : s'.now = s.now)
    (hq : s'.queue.Sublist s.queue) : Load b r s' where
  wait h k' w d a1 a2 := by
    rw [ht] at a1
    rcases tasks_upd hk _ a1 with ⟨_, h⟩ | ⟨_, h⟩
    · exact j.wait _ k' w d h a2
    · rw [h] at a2; exact absurd a2 (hpc w d)
  now := by rw [hn]; exact j.now
  queue := by
    unfold queueSum
    rw [ht, lim_upd hk]
    exact Nat.le_trans (sum_sublist (hq.map _)) j.queue

theorem Load.finish {b r : Nat} {s : Api} (j : Load b r s) {u : Nat} {k : Task}
    (hk : s.tasks u = some k) (x : Except PyErr (Option Obj)) : Load b r (s.finish u x) := by
  refine j.move hk (pc := .done x) (by simp) ?_ ?_ ?_
  all_goals rw [finish_eq hk]
  exact List.Sublist.refl _

theorem start_parts {s : Api} {u : Nat} {k : Task} (hk : s.tasks u = some k) :
    (s.start u k.obj).now = s.now ∧ (s.start u k.obj).queue = s.queue ∧
    ∃ pc, (s.start u k.obj).tasks = upd s.tasks u (some { k with pc }) ∧
      ∀ w d, pc = .waiting w d → d = s.now + limit k.obj := by
  have fin : ∀ (s' : Api) (x : Except PyErr (Option Obj)), s'.tasks = s.tasks → s'.now = s.now →
      s'.queue = s.queue → (s'.finish u x).now = s.now ∧ (s'.finish u x).queue = s.queue ∧
      ∃ pc, (s'.finish u x).tasks = upd s.tasks u (some { k with pc }) ∧
      ∀ w d, pc = .waiting w d → d = s.now + limit k.obj := by
    intro s' x h1 h2 h3
    rw [finish_eq (s := s') (k := k) (by rw [h1]; exact hk)]
    exact ⟨h2, h3, .done x, by dsimp only; rw [h1], fun w d h => by cases h⟩
  unfold Api.start
  split
  · exact fin _ _ rfl rfl rfl
  · rcases ownWaiter_cases k.obj with ⟨m, to, hw, _⟩ | ⟨hw, _, _⟩
    · rw [hw]
      dsimp only
      split
      · exact fin _ _ rfl rfl rfl
      · rename_i s' hs
        obtain ⟨p1, p2, p3⟩ := uartSend_parts hs
        have p1 : s'.tasks = s.tasks := p1
        have p2 : s'.queue = s.queue := p2
        have p3 : s'.now = s.now := p3
        rw [setPc_eq (k := k) (by rw [p1]; exact hk)]
        refine ⟨p3, p2, .waiting s.waiterId (s'.now + to), by dsimp only; rw [p1]; rfl, ?_⟩
        intro w d h
        cases h
        rw [← ownWaiter_limit hw, p3]
    · rw [hw]
      dsimp only
      split
      · split
        · exact fin _ _ rfl rfl rfl
        · rename_i s' hs
          obtain ⟨p1, p2, p3⟩ := uartSend_parts hs
          exact fin _ _ p1 p3 p2
      · exact fin _ _ rfl rfl rfl

/-- The first call of the queue starts: its time limit is moved from the queue to the end. -/
theorem Load.grant {b r : Nat} {s : Api} (j : Load b r s) :
    ∃ b' r', Load b' r' s.grant ∧ b ≤ b' ∧ b' + r' ≤ b + r := by
  unfold Api.grant
  split
  · rename_i u q hh hq
    split
    · rename_i k hk
      rw [setPc_eq (s := { s with holder := some u, queue := q }) hk]
      obtain ⟨h1, h2, pc, h3, h4⟩ := start_parts (s := { s with
        holder := some u, queue := q, tasks := upd s.tasks u (some { k with pc := .running }) })
        (k := { k with pc := .running }) (upd_same _ _ _)
      have hl : lim s.tasks u = limit k.obj := by unfold lim; rw [hk]
      have hsum : queueSum s = limit k.obj + (q.map (lim s.tasks)).sum := by
        unfold queueSum; rw [hq, List.map_cons, List.sum_cons, hl]
      have := j.queue
      rw [hsum] at this
      have hnow := j.now
      have htasks : upd (upd s.tasks u (some { k with pc := .running })) u (some { k with pc }) =
          upd s.tasks u (some { k with pc }) := by
        funext v
        by_cases hv : v = u
        · subst hv; rw [upd_same, upd_same]
        · rw [upd_other _ _ hv, upd_other _ _ hv, upd_other _ _ hv]
      have h3 := h3.trans htasks
      refine ⟨b + limit k.obj, r - limit k.obj, ⟨?_, ?_, ?_⟩, by omega, by omega⟩
      · intro h k' w d a1 a2
        have a1 : (_ : Nat → Option Task) h = some k' := a1
        rw [h3] at a1
        rcases tasks_upd hk _ a1 with ⟨_, h⟩ | ⟨_, h⟩
        · have := j.wait _ k' w d h a2; omega
        · rw [h] at a2
          have := h4 w d a2
          have : d = s.now + limit k.obj := this
          omega
      · have h1 : _ = s.now := h1
        show Api.now _ ≤ _
        rw [h1]; omega
      · unfold queueSum
        rw [h2, h3, lim_upd hk]
        dsimp only
        omega
    · exact ⟨b, r, j, Nat.le_refl _, Nat.le_refl _⟩
  · exact ⟨b, r, j, Nat.le_refl _, Nat.le_refl _⟩

theorem Load.enqueue {b r : Nat} {s : Api} (j : Load b r s) (i : Inv s) (o : Obj)
    (w : Option Nat) (e : Option (List Int)) : Load b (r + limit o) (s.enqueue o w e) where
  wait h k v d a1 a2 := by
    by_cases hh : h = s.nextTid
    · rw [Api.enqueue, hh] at a1
      dsimp only at a1
      rw [upd_same] at a1; cases a1; cases a2
    · rw [Api.enqueue] at a1
      dsimp only at a1
      rw [upd_other _ _ hh] at a1
      exact j.wait h k v d a1 a2
  now := j.now
  queue := by
    have hj := j.queue
    unfold queueSum at hj ⊢
    unfold Api.enqueue
    dsimp only
    rw [List.map_append, List.sum_append]
    have e1 : s.queue.map (lim (upd s.tasks s.nextTid
        (some { obj := o, waiterId := w, expected := e, pc := .queued }))) =
        s.queue.map (lim s.tasks) := by
      refine List.map_congr_left fun u hu => ?_
      obtain ⟨k, hk, _⟩ := (i.lock.qIff u).mp hu
      have : u < s.nextTid := (i.lock.tid u).mp ⟨k, hk⟩
      unfold lim
      rw [upd_other _ _ (by omega)]
    rw [e1, List.map_cons, List.map_nil, List.sum_cons, List.sum_nil]
    have : lim (upd s.tasks s.nextTid
        (some { obj := o, waiterId := w, expected := e, pc := .queued })) s.nextTid = limit o := by
      unfold lim; rw [upd_same]
    omega

/-- One event of the API other than time. -/
theorem Load.step {b r : Nat} {s : Api} (j : Load b r s) (i : Inv s) (e : Event)
    (ht : ∀ ms, e ≠ .tick ms) :
    ∃ b' r', Load b' r' (s.step e) ∧ b ≤ b' ∧ b' + r' ≤ b + r + brings e := by
  have keep : ∀ {s' : Api}, Load b r s' → ∃ b' r', Load b' r' s' ∧ b ≤ b' ∧
      b' + r' ≤ b + r + brings e :=
    fun h => ⟨b, r, h, Nat.le_refl _, by omega⟩
  cases e with
  | submit o w x =>
    rw [Api.step]
    have je := j.enqueue i o w x
    have hb : brings (.submit o w x) = limit o := rfl
    split
    · obtain ⟨b', r', h1, h2, h3⟩ := je.grant
      exact ⟨b', r', h1, h2, by rw [hb]; omega⟩
    · exact ⟨b, _, je, Nat.le_refl _, by rw [hb]; omega⟩
  | grant => exact j.grant
  | frame f =>
    have h := dataReceived_fields s f
    exact keep (j.same h.1 h.2.2.2.2.2.1 h.2.2.1)
  | wake u =>
    rw [Api.step]
    split
    · rename_i k hk
      split
      · split
        · unfold Api.conclude
          split
          · split
            · exact keep (j.finish hk _)
            · split
              · exact keep (j.finish hk _)
              · rename_i v _
                split
                · have e1 : ∀ o, ((s.drop v).setResult v o).tasks = s.tasks ∧
                      ((s.drop v).setResult v o).now = s.now ∧
                      ((s.drop v).setResult v o).queue = s.queue := by
                    intro o
                    unfold Api.setResult
                    split <;> exact ⟨rfl, rfl, rfl⟩
                  exact keep ((j.same (e1 _).1 (e1 _).2.1 (e1 _).2.2).finish
                    (by rw [(e1 _).1]; exact hk) _)
                · exact keep (j.finish hk _)
          · exact keep (j.finish hk _)
        · exact keep j
      · exact keep j
    · exact keep j
  | timeout u =>
    rw [Api.step]
    split
    · rename_i k hk
      split
      · split
        · exact keep ((j.finish hk (.error .timeoutError)).same rfl rfl rfl)
        · exact keep j
      · exact keep j
    · exact keep j
  | cancel u =>
    rw [Api.step]
    split
    · rename_i k hk
      split
      · refine keep (j.move hk (pc := .done (.error .cancelledError)) (by simp) ?_ ?_ ?_)
        · rw [setPc_eq hk]
        · rw [setPc_eq hk]
        · exact List.filter_sublist
      · exact keep ((j.finish hk (.error .cancelledError)).same rfl rfl rfl)
      · exact keep j
    · exact keep j
  | timer w =>
    rw [Api.step]
    split
    · unfold Api.timerCallback
      split <;> exact keep (j.same rfl rfl rfl)
    · exact keep j
  | tick ms => exact absurd rfl (ht ms)
  | setUart b => exact keep (j.same rfl rfl rfl)
  | register m to q => exact keep (j.same rfl rfl rfl)
  | registerResponse o q =>
    rw [Api.step]
    unfold Api.createResponseWaiter
    split <;> first | exact keep j | exact keep (j.same rfl rfl rfl)
  | abandon w =>
    rw [Api.step]
    split
    · exact keep (j.same rfl rfl rfl)
    · exact keep j

/-! ## The application -/

/-- What a call adds to the end of the work in progress. -/
def rest (k : AppTask) : Nat :=
  match k.pc with
  | .waiting o _ => limit o + pause k.call
  | .inApi .. => pause k.call
  | .sleeping .. | .done _ => 0

def restSum (T : List AppTask) : Nat := (T.map rest).sum

/-- All calls of the application that have not ended end by `D`. -/
structure Busy (D : Nat) (s : AppSys) : Prop where
  cur : AllCurrent s
  load : ∃ b r, Load b r (s.api s.cur) ∧
    (∀ k ∈ s.tasks, ∀ i d, k.pc = .sleeping i d → d ≤ b) ∧ b + r + restSum s.tasks ≤ D

theorem pause_settles {c : Call} (h : c.settles = true) : pause c = 200 := by
  cases c <;> first | rfl | cases h

theorem rest_settle (a : Nat → Api) (k : AppTask) : rest (k.settle a) ≤ rest k := by
  rcases settle_cases a k with he | ⟨i, t, A, hpc, _, ⟨x, _, ⟨_, he⟩ | ⟨_, he⟩⟩ | ⟨e, _, he⟩⟩
  · rw [he]; exact Nat.le_refl _
  all_goals rw [he]; exact Nat.zero_le _

theorem restSum_settle (a : Nat → Api) : ∀ T : List AppTask,
    restSum (T.map (AppTask.settle a)) ≤ restSum T ∧
    ∀ k ∈ T, restSum (T.map (AppTask.settle a)) + rest k ≤ restSum T + rest (k.settle a)
  | [] => ⟨Nat.le_refl _, fun k hk => by cases hk⟩
  | x :: T => by
    obtain ⟨h1, h2⟩ := restSum_settle a T
    have hx := rest_settle a x
    have e1 : restSum (x :: T) = rest x + restSum T := by simp [restSum]
    have e2 : restSum ((x :: T).map (AppTask.settle a)) =
        rest (x.settle a) + restSum (T.map (AppTask.settle a)) := by simp [restSum]
    rw [e1, e2]
    refine ⟨by omega, fun k hk => ?_⟩
    rcases List.mem_cons.mp hk with rfl | hk
    · omega
    · have := h2 k hk; omega

theorem restSum_set : ∀ (T : List AppTask) (n : Nat) (k k' : AppTask), T[n]? = some k →
    restSum (T.set n k') + rest k = restSum T + rest k'
  | [], n, k, k', h => by simp at h
  | x :: T, 0, k, k', h => by
    simp only [List.getElem?_cons_zero, Option.some.injEq] at h
    subst h
    simp [restSum]; omega
  | x :: T, n + 1, k, k', h => by
    have := restSum_set T n k k' (by simpa using h)
    simp only [restSum, List.set_cons_succ, List.map_cons, List.sum_cons] at this ⊢
    omega

theorem restSum_append (T : List AppTask) (k : AppTask) :
    restSum (T ++ [k]) = restSum T + rest k := by
  simp [restSum]

/-- Calls whose request is over go on. -/
theorem Busy.settle {D : Nat} {s : AppSys} (j : Busy D s) : Busy D s.settle := by
  obtain ⟨hc, b, r, hl, hs, hD⟩ := j
  have hrs := restSum_settle s.api s.tasks
  refine ⟨?_, b + (restSum s.tasks - restSum (s.tasks.map (AppTask.settle s.api))), r, ?_, ?_, ?_⟩
  · intro k hk
    obtain ⟨k0, hk0, rfl⟩ := List.mem_map.mp hk
    have := hc k0 hk0
    rcases settle_cases s.api k0 with he | ⟨i, t, A, hpc, _, ⟨x, _, ⟨_, he⟩ | ⟨_, he⟩⟩ | ⟨e, _, he⟩⟩
    · rw [he]; exact this
    · rw [hpc] at this; rw [he]; exact this
    · rw [he]; trivial
    · rw [he]; trivial
  · exact ⟨fun h k w d a1 a2 => Nat.le_trans (hl.wait h k w d a1 a2) (Nat.le_add_right ..),
      Nat.le_trans hl.now (Nat.le_add_right ..), hl.queue⟩
  · intro k hk i d hp
    obtain ⟨k0, hk0, rfl⟩ := List.mem_map.mp hk
    have hsum := hrs.2 k0 hk0
    have hcur := hc k0 hk0
    rcases settle_cases s.api k0 with he | ⟨i', t, A, hpc, _, ⟨x, _, ⟨hst, he⟩ | ⟨_, he⟩⟩ | ⟨e, _, he⟩⟩
    · rw [he] at hp
      exact Nat.le_trans (hs k0 hk0 i d hp) (Nat.le_add_right ..)
    · rw [hpc] at hcur
      have hcur : i' = s.cur := hcur
      rw [he] at hp
      have hp : AppPc.sleeping i' ((s.api i').now + 200) = .sleeping i d := hp
      cases hp
      have e1 : rest k0 = 200 := by unfold rest; rw [hpc]; exact pause_settles hst
      have e2 : rest (k0.settle s.api) = 0 := by rw [he]; rfl
      rw [e1, e2] at hsum
      have := hl.now
      rw [hcur]
      omega
    · rw [he] at hp; cases hp
    · rw [he] at hp; cases hp
  · show _ + r + restSum (s.tasks.map (AppTask.settle s.api)) ≤ D
    have := hrs.1
    omega

/-- The work an event brings in. -/
def bringsApp : AppEvent → Nat
  | .call c => callTime c
  | .api _ (.submit o _ _) => limit o
  | _ => 0

theorem Busy.mono {D D' : Nat} {s : AppSys} (j : Busy D s) (h : D ≤ D') : Busy D' s := by
  obtain ⟨hc, b, r, hl, hs, hD⟩ := j
  exact ⟨hc, b, r, hl, hs, Nat.le_trans hD h⟩

/-- An event in an API, other than time in the current one. -/
theorem Busy.apiStep {D : Nat} {s : AppSys} (j : Busy D s) (ai : AInv s) (i : Nat) (e : Event)
    (ht : i = s.cur → ∀ ms, e ≠ .tick ms) : Busy (D + brings e) (s.apiStep i e) := by
  refine Busy.settle ?_
  obtain ⟨hc, b, r, hl, hs, hD⟩ := j
  by_cases hi : i = s.cur
  · obtain ⟨b', r', h1, h2, h3⟩ := hl.step (ai.api s.cur) e (ht hi)
    refine ⟨hc, b', r', ?_, fun k hk i d hp => Nat.le_trans (hs k hk i d hp) h2, ?_⟩
    · show Load b' r' (upd s.api i _ s.cur)
      subst hi
      rw [upd_same]; exact h1
    · show b' + r' + restSum s.tasks ≤ _
      omega
  · refine ⟨hc, b, r, ?_, hs, ?_⟩
    · show Load b r (upd s.api i _ s.cur)
      rw [upd_other _ _ (Ne.symm hi)]; exact hl
    · show b + r + restSum s.tasks ≤ _
      omega

theorem brings_api (i : Nat) (e : Event) : brings e = bringsApp (.api i e) := by
  cases e <;> rfl

/-- A call leaves, or gets nowhere. -/
theorem Busy.set {D : Nat} {s : AppSys} (j : Busy D s) {n : Nat} {k : AppTask}
    (hk : s.tasks[n]? = some k) (x : Result) (q : Nat → Nat) :
    Busy D { s with sem := q, tasks := s.tasks.set n { k with pc := .done x } } := by
  obtain ⟨hc, b, r, hl, hs, hD⟩ := j
  refine ⟨?_, b, r, hl, ?_, ?_⟩
  · intro k' hk'
    rcases List.mem_or_eq_of_mem_set hk' with h | rfl
    · exact hc k' h
    · trivial
  · intro k' hk' i d hp
    rcases List.mem_or_eq_of_mem_set hk' with h | rfl
    · exact hs k' h i d hp
    · cases hp
  · have := restSum_set s.tasks n k { k with pc := .done x } hk
    have e : rest { k with pc := .done x } = 0 := rfl
    show b + r + restSum (s.tasks.set n { k with pc := .done x }) ≤ D
    omega

theorem Busy.add {D : Nat} {s : AppSys} (j : Busy D s) {k : AppTask}
    (hk : (∃ o w, k.pc = .waiting o w) ∨ ∃ x, k.pc = .done x) (a : Nat → Api)
    (h1 : (a s.cur).tasks = (s.api s.cur).tasks) (h2 : (a s.cur).now = (s.api s.cur).now)
    (h3 : (a s.cur).queue = (s.api s.cur).queue) :
    Busy (D + rest k) { s with api := a, tasks := s.tasks ++ [k] } := by
  obtain ⟨hc, b, r, hl, hs, hD⟩ := j
  refine ⟨?_, b, r, hl.same h1 h2 h3, ?_, ?_⟩
  · intro k' hk'
    rcases List.mem_append.mp hk' with h | h
    · exact hc k' h
    · rw [List.mem_singleton] at h; subst h
      rcases hk with ⟨o, w, h⟩ | ⟨x, h⟩ <;> rw [h] <;> trivial
  · intro k' hk' i d hp
    rcases List.mem_append.mp hk' with h | h
    · exact hs k' h i d hp
    · rw [List.mem_singleton] at h; subst h
      rcases hk with ⟨o, w, h⟩ | ⟨x, h⟩ <;> rw [h] at hp <;> cases hp
  · show b + r + restSum (s.tasks ++ [k]) ≤ _
    rw [restSum_append]
    omega

theorem gate_cases (s : AppSys) (c : Call) (o : Obj) (w : Option (Nat × Nat)) :
    ((∃ o' w', (s.gate c o w).pc = .waiting o' w') ∨ ∃ x, (s.gate c o w).pc = .done x) ∧
      rest (s.gate c o w) ≤ limit o + pause c := by
  unfold AppSys.gate
  split
  · exact ⟨.inr ⟨_, rfl⟩, Nat.zero_le _⟩
  · exact ⟨.inl ⟨_, _, rfl⟩, Nat.le_refl _⟩

theorem Busy.begin {D : Nat} {s : AppSys} (j : Busy D s) (c : Call) :
    Busy (D + callTime c) (s.begin c) := by
  have dead : ∀ e, Busy (D + callTime c)
      { s with tasks := s.tasks ++ [{ call := c, pc := .done (.raised e) }] } := fun e =>
    (j.add (k := { call := c, pc := .done (.raised e) }) (.inr ⟨_, rfl⟩) s.api rfl rfl rfl).mono
      (Nat.add_le_add_left (Nat.zero_le _) _)
  unfold AppSys.begin
  split
  · exact dead _
  · rename_i o ho
    have hct : callTime c = limit o + pause c := by unfold callTime; rw [ho]
    rw [hct] at dead ⊢
    split
    · obtain ⟨h1, h2⟩ := gate_cases s c o none
      exact (j.add h1 s.api rfl rfl rfl).mono (Nat.add_le_add_left h2 _)
    · split
      · exact dead _
      · rename_i a w hr
        obtain ⟨h1, h2⟩ := gate_cases s c o (w.map (fun w => (s.cur, w)))
        have hf : a.tasks = (s.api s.cur).tasks ∧ a.now = (s.api s.cur).now ∧
            a.queue = (s.api s.cur).queue := by
          unfold Api.createResponseWaiter at hr
          split at hr
          · cases hr
          · cases hr; exact ⟨rfl, rfl, rfl⟩
          · cases hr; exact ⟨rfl, rfl, rfl⟩
        refine (j.add h1 (upd s.api s.cur a) ?_ ?_ ?_).mono (Nat.add_le_add_left h2 _)
        all_goals rw [upd_same]
        · exact hf.1
        · exact hf.2.1
        · exact hf.2.2

theorem Busy.enter {D : Nat} {s : AppSys} (j : Busy D s) (ai : AInv s) (n : Nat) :
    Busy D (s.enter n) := by
  unfold AppSys.enter
  split
  · rename_i k hk
    split
    · rename_i o waiter hpc
      split
      · exact j
      · refine Busy.settle ?_
        obtain ⟨hc, b, r, hl, hs, hD⟩ := j
        obtain ⟨b', r', h1, h2, h3⟩ := hl.step (ai.api s.cur)
          (.submit o (waiter.map Prod.snd) none) (by intro ms h; cases h)
        have hset := restSum_set s.tasks n k
          { k with pc := .inApi s.cur (s.api s.cur).nextTid,
                   ran := some (s.cur, (s.api s.cur).nextTid) } hk
        have e1 : rest k = limit o + pause k.call := by unfold rest; rw [hpc]
        have e2 : rest { k with
            pc := .inApi s.cur (s.api s.cur).nextTid
            ran := some (s.cur, (s.api s.cur).nextTid) } = pause k.call := rfl
        rw [e1, e2] at hset
        refine ⟨?_, b', r', ?_, ?_, ?_⟩
        · intro k' hk'
          rcases List.mem_or_eq_of_mem_set hk' with h | rfl
          · exact hc k' h
          · exact rfl
        · show Load b' r' (upd s.api s.cur _ s.cur)
          rw [upd_same]; exact h1
        · intro k' hk' i d hp
          rcases List.mem_or_eq_of_mem_set hk' with h | rfl
          · exact Nat.le_trans (hs k' h i d hp) h2
          · cases hp
        · have h3 : b' + r' ≤ b + r + limit o := h3
          show b' + r' + restSum (s.tasks.set n _) ≤ D
          omega
    · exact j
  · exact j

/-- Time passes while a call has not ended. -/
theorem Busy.tick {D : Nat} {s : AppSys} (j : Busy D s) (ai : AInv s) (hr : Rested s)
    (hlim : ∀ g < s.nsem, 0 < s.limit g) (hset : Settled (s.api s.cur).tasks) {n : Nat} {k : AppTask}
    (hk : s.tasks[n]? = some k) (hd : ∀ x, k.pc ≠ .done x) (ms : Nat)
    (h1 : (s.api s.cur).holder = none → (s.api s.cur).queue = [])
    (h2 : ∀ t k w d, (s.api s.cur).tasks t = some k → k.pc = .waiting w d →
      (s.api s.cur).now + ms ≤ d)
    (h3 : ∀ k ∈ s.tasks, match k.pc with
      | .waiting .. => s.sem k.sem = 0
      | .sleeping i d => i = s.cur → (s.api s.cur).now + ms ≤ d
      | _ => True) : Busy D (s.apiStep s.cur (.tick ms)) := by
  refine Busy.settle ?_
  obtain ⟨hc, b, r, hl, hs, hD⟩ := j
  have hb : (s.api s.cur).now + ms ≤ b := by
    -- a call in the API
    have api : ∀ k ∈ s.tasks, ∀ i t, k.pc = .inApi i t → (s.api s.cur).now + ms ≤ b := by
      intro k hk i t hpc
      have hi := hc k hk
      rw [hpc] at hi
      have hi : i = s.cur := hi
      subst hi
      have hran : k.ran = some (s.cur, t) := by
        have := (ai.tasks k hk).pc
        rw [hpc] at this; exact this
      obtain ⟨o, w, _, hsub⟩ := (ai.tasks k hk).ran _ _ hran
      have iv := ai.api s.cur
      obtain ⟨A, hA, _⟩ := (iv.log.subIff t o w none).mp hsub
      have hAd : ∀ x, A.pc ≠ .done x := by
        intro x hx
        have hst := congrArg AppTask.pc (hr k hk)
        unfold AppTask.settle at hst
        rw [hpc] at hst; dsimp only at hst; rw [hA] at hst; dsimp only at hst; rw [hx] at hst
        cases x with
        | ok y =>
          dsimp only at hst
          split at hst
          · cases hst
          · cases hst
        | error e => cases hst
      rcases hh : (s.api s.cur).holder with _ | h
      · have : t ∈ (s.api s.cur).queue := by
          refine (iv.lock.qIff t).mpr ⟨A, hA, ?_⟩
          rcases hp : A.pc with _ | _ | ⟨w, d⟩ | x
          · rfl
          · exact absurd hp (hset t A hA)
          · have := (iv.lock.hIff t).mpr ⟨A, hA, by rw [hp]; trivial⟩
            rw [hh] at this; cases this
          · exact absurd hp (hAd x)
        rw [h1 hh] at this; cases this
      · obtain ⟨B, hB, ha⟩ := (iv.lock.hIff h).mp hh
        rcases hp : B.pc with _ | _ | ⟨w, d⟩ | x
        · rw [hp] at ha; exact ha.elim
        · exact absurd hp (hset h B hB)
        · have := hl.wait h B w d hB hp
          have := h2 h B w d hB hp
          omega
        · rw [hp] at ha; exact ha.elim
    have sleep : ∀ k ∈ s.tasks, ∀ i d, k.pc = .sleeping i d → (s.api s.cur).now + ms ≤ b := by
      intro k hk i d hpc
      have hi := hc k hk
      rw [hpc] at hi
      have hi : i = s.cur := hi
      have := h3 k hk
      rw [hpc] at this
      have := this hi
      have := hs k hk i d hpc
      omega
    have hm := List.mem_of_getElem? hk
    rcases hpc : k.pc with ⟨o, w⟩ | ⟨i, t⟩ | ⟨i, d⟩ | x
    · -- the semaphore is taken, so somebody is inside
      have h0 := h3 k hm
      rw [hpc] at h0
      have h0 : s.sem k.sem = 0 := h0
      have hg := hlim _ (ai.semLt k hm hd)
      have hsem := ai.sem k.sem
      have hpos : 0 < s.tasks.countP (AppTask.inside k.sem) := by omega
      obtain ⟨x, hx, hin⟩ := List.countP_pos_iff.mp hpos
      have hpast := (inside_iff.mp hin).2
      unfold AppTask.past at hpast
      rcases hxp : x.pc with ⟨o, w⟩ | ⟨i, t⟩ | ⟨i, d⟩ | y
      · rw [hxp] at hpast; cases hpast
      · exact api x hx i t hxp
      · exact sleep x hx i d hxp
      · rw [hxp] at hpast; cases hpast
    · exact api k hm i t hpc
    · exact sleep k hm i d hpc
    · exact absurd hpc (hd x)
  refine ⟨hc, b, r, ?_, hs, hD⟩
  show Load b r (upd s.api s.cur _ s.cur)
  rw [upd_same]
  exact ⟨hl.wait, hb, hl.queue⟩

/-- One event, without a restart. -/
theorem Busy.step {D : Nat} {s : AppSys} (j : Busy D s) (ai : AInv s) (hr : Rested s)
    (hlim : ∀ g < s.nsem, 0 < s.limit g) (hset : Settled (s.api s.cur).tasks) {n : Nat} {k : AppTask}
    (hk : s.tasks[n]? = some k) (hd : ∀ x, k.pc ≠ .done x) (e : AppEvent) (hnew : e ≠ .newApi)
    (h : ∀ ms, e = .api s.cur (.tick ms) →
      ((s.api s.cur).holder = none → (s.api s.cur).queue = []) ∧
      (∀ t k w d, (s.api s.cur).tasks t = some k → k.pc = .waiting w d →
        (s.api s.cur).now + ms ≤ d) ∧
      (∀ k ∈ s.tasks, match k.pc with
        | .waiting .. => s.sem k.sem = 0
        | .sleeping i d => i = s.cur → (s.api s.cur).now + ms ≤ d
        | _ => True)) : Busy (D + bringsApp e) (s.step e) := by
  cases e with
  | api i e =>
    rw [← brings_api]
    by_cases hi : i = s.cur ∧ ∃ ms, e = .tick ms
    · obtain ⟨rfl, ms, rfl⟩ := hi
      obtain ⟨h1, h2, h3⟩ := h ms rfl
      exact (j.tick ai hr hlim hset hk hd ms h1 h2 h3).mono (Nat.le_add_right ..)
    · exact j.apiStep ai i e fun h ms he => hi ⟨h, ms, he⟩
  | call c => exact j.begin c
  | enter n => exact (j.enter ai n).mono (Nat.le_add_right ..)
  | wakeUp m =>
    refine Busy.mono ?_ (Nat.le_add_right ..)
    rw [AppSys.step]
    split
    · rename_i x hx
      split
      · split
        · exact j.set hx _ _
        · exact j
      · exact j
    · exact j
  | cancel m =>
    refine Busy.mono ?_ (Nat.le_add_right ..)
    rw [AppSys.step]
    split
    · rename_i x hx
      split
      · exact j.set hx _ s.sem
      · rename_i i t _
        exact j.apiStep ai i (.cancel t) fun _ ms h => by cases h
      · exact j.set hx _ _
      · exact j
    · exact j
  | newApi => exact absurd rfl hnew
  | newSemaphore p =>
    refine Busy.mono ?_ (Nat.le_add_right ..)
    obtain ⟨hc, b, r, hl, hs, hD⟩ := j
    exact ⟨hc, b, r, hl, hs, hD⟩

/-! ## The beginning -/

theorem load_start {s : Api} (i : Inv s)
    (hd : ∀ t k w d, s.tasks t = some k → k.pc = .waiting w d → d ≤ s.now + limit k.obj) :
    ∃ x r, Load (s.now + x) r s ∧ x + r ≤ limitsAhead s.nextTid s.log := by
  have queued : ∀ u ∈ s.queue, u ≤ s.nextTid ∧ ∃ k, s.tasks u = some k ∧ ∀ r, k.pc ≠ .done r := by
    intro u hu
    obtain ⟨k, hk, hp⟩ := (i.lock.qIff u).mp hu
    exact ⟨Nat.le_of_lt ((i.lock.tid u).mp ⟨k, hk⟩), k, hk, fun r => by rw [hp]; simp⟩
  rcases hh : s.holder with _ | h
  · refine ⟨0, queueSum s, ⟨?_, Nat.le_refl _, Nat.le_refl _⟩, ?_⟩
    · intro h k w d a1 a2
      have := (i.lock.hIff h).mpr ⟨k, a1, by rw [a2]; trivial⟩
      rw [hh] at this; cases this
    · rw [Nat.zero_add]
      exact limitsAhead_ge i i.lock.qSorted queued
  · obtain ⟨k, hk, ha⟩ := (i.lock.hIff h).mp hh
    refine ⟨limit k.obj, queueSum s, ⟨?_, by omega, Nat.le_refl _⟩, ?_⟩
    · intro h' k' w d a1 a2
      have := (i.lock.hIff h').mpr ⟨k', a1, by rw [a2]; trivial⟩
      rw [hh] at this; cases this
      rw [hk] at a1; cases a1
      exact hd h k w d hk a2
    · have hlim : lim s.tasks h = limit k.obj := by unfold lim; rw [hk]
      have := limitsAhead_ge i (t := s.nextTid) (l := h :: s.queue)
        (List.pairwise_cons.mpr ⟨i.lock.hQueue h hh, i.lock.qSorted⟩) (by
          intro u hu
          rcases List.mem_cons.mp hu with rfl | hu
          · refine ⟨Nat.le_of_lt ((i.lock.tid u).mp ⟨k, hk⟩), k, hk, fun r hp => ?_⟩
            rw [hp] at ha; exact ha.elim
          · exact queued u hu)
      rw [List.map_cons, List.sum_cons, hlim] at this
      exact this

/-- What the pauses in progress still need at most. -/
def sleepSum (T : List AppTask) : Nat :=
  (T.map fun k => match k.pc with | .sleeping .. => pause k.call | _ => 0).sum

theorem sum_needed : ∀ T : List AppTask,
    (T.map stillNeeded).sum = restSum T + sleepSum T
  | [] => rfl
  | k :: T => by
    have ih := sum_needed T
    simp only [restSum, sleepSum, List.map_cons, List.sum_cons] at ih ⊢
    have : stillNeeded k = rest k + (match k.pc with | .sleeping .. => pause k.call | _ => 0) := by
      unfold stillNeeded rest
      rcases k.pc with ⟨o, w⟩ | ⟨i, t⟩ | ⟨i, d⟩ | x
      · exact (Nat.add_zero _).symm
      · exact (Nat.add_zero _).symm
      · exact (Nat.zero_add _).symm
      · rfl
    omega

theorem sleepSum_ge : ∀ (T : List AppTask) (k : AppTask) (i d : Nat), k ∈ T → k.pc = .sleeping i d →
    pause k.call ≤ sleepSum T
  | [], k, i, d, hk, _ => by cases hk
  | x :: T, k, i, d, hk, hp => by
    have e : sleepSum (x :: T) =
        (match x.pc with | .sleeping .. => pause x.call | _ => 0) + sleepSum T := by
      simp [sleepSum]
    rw [e]
    rcases List.mem_cons.mp hk with rfl | hk
    · rw [hp]; exact Nat.le_add_right ..
    · exact Nat.le_trans (sleepSum_ge T k i d hk hp) (Nat.le_add_left ..)

theorem now_upd (a : Nat → Api) (j : Nat) (e : Event) (i : Nat) :
    (a i).now ≤ (upd a j ((a j).step e) i).now := by
  by_cases h : i = j
  · subst h; rw [upd_same]; exact (grows_step _ _).now
  · rw [upd_other _ _ h]; exact Nat.le_refl _

/-- A pause in progress has at most its whole length before it. -/
def Dozing (s : AppSys) : Prop :=
  ∀ k ∈ s.tasks, ∀ i d, k.pc = .sleeping i d → d ≤ (s.api i).now + 200

theorem Dozing.settle {s : AppSys} (h : Dozing s) : Dozing s.settle := by
  intro k hk i d hp
  obtain ⟨k0, hk0, rfl⟩ := List.mem_map.mp hk
  rcases settle_cases s.api k0 with he | ⟨i', t, A, hpc, _, ⟨x, _, ⟨hst, he⟩ | ⟨_, he⟩⟩ | ⟨e, _, he⟩⟩
  · rw [he] at hp; exact h k0 hk0 i d hp
  · rw [he] at hp
    have hp : AppPc.sleeping i' ((s.api i').now + 200) = .sleeping i d := hp
    cases hp
    exact Nat.le_refl _
  · rw [he] at hp; cases hp
  · rw [he] at hp; cases hp

theorem Dozing.keep {s s' : AppSys} (h : Dozing s) (hn : ∀ i, (s.api i).now ≤ (s'.api i).now)
    (ht : ∀ k ∈ s'.tasks, (∃ i d, k.pc = .sleeping i d) → k ∈ s.tasks) : Dozing s' := by
  intro k hk i d hp
  have := h k (ht k hk ⟨i, d, hp⟩) i d hp
  have := hn i
  omega

theorem Dozing.set {s : AppSys} (h : Dozing s) (n : Nat) {k : AppTask}
    (hk : ∀ i d, k.pc ≠ .sleeping i d) (q : Nat → Nat) :
    Dozing { s with sem := q, tasks := s.tasks.set n k } := by
  refine h.keep (fun _ => Nat.le_refl _) fun k' hk' ⟨i, d, hp⟩ => ?_
  rcases List.mem_or_eq_of_mem_set hk' with h | rfl
  · exact h
  · exact absurd hp (hk i d)

theorem Dozing.add {s : AppSys} (h : Dozing s) {k : AppTask}
    (hk : (∃ o w, k.pc = .waiting o w) ∨ ∃ x, k.pc = .done x) (a : Nat → Api)
    (hn : ∀ i, (s.api i).now ≤ (a i).now) :
    Dozing { s with api := a, tasks := s.tasks ++ [k] } := by
  refine h.keep hn fun k' hk' ⟨i, d, hp⟩ => ?_
  rcases List.mem_append.mp hk' with h | h
  · exact h
  · rw [List.mem_singleton] at h; subst h
    rcases hk with ⟨o, w, h⟩ | ⟨x, h⟩ <;> rw [h] at hp <;> cases hp

theorem Dozing.apiStep {s : AppSys} (h : Dozing s) (i : Nat) (e : Event) : Dozing (s.apiStep i e) :=
  Dozing.settle (h.keep (now_upd s.api i e) fun _ hk _ => hk)

theorem Dozing.step {s : AppSys} (h : Dozing s) (ev : AppEvent) : Dozing (s.step ev) := by
  cases ev with
  | api i e => exact h.apiStep i e
  | call c =>
    show Dozing (s.begin c)
    unfold AppSys.begin
    split
    · exact h.add (.inr ⟨_, rfl⟩) s.api fun _ => Nat.le_refl _
    · rename_i o ho
      split
      · exact h.add (gate_cases s c o none).1 s.api fun _ => Nat.le_refl _
      · split
        · exact h.add (.inr ⟨_, rfl⟩) s.api fun _ => Nat.le_refl _
        · rename_i a w hr
          refine h.add (gate_cases s c o _).1 _ fun i => ?_
          by_cases hi : i = s.cur
          · subst hi
            rw [upd_same]
            unfold Api.createResponseWaiter at hr
            split at hr
            · cases hr
            · cases hr; exact Nat.le_refl _
            · cases hr; exact Nat.le_refl _
          · rw [upd_other _ _ hi]; exact Nat.le_refl _
  | enter n =>
    show Dozing (s.enter n)
    unfold AppSys.enter
    split
    · rename_i k _
      split
      · split
        · exact h
        · have h1 := Dozing.set h n (k := { k with
            pc := .inApi s.cur (s.api s.cur).nextTid
            ran := some (s.cur, (s.api s.cur).nextTid) }) (fun _ _ hx => by cases hx)
            (upd s.sem k.sem (s.sem k.sem - 1))
          exact Dozing.settle (h1.keep (now_upd s.api s.cur _) fun _ hk _ => hk)
      · exact h
    · exact h
  | wakeUp n =>
    rw [AppSys.step]
    split
    · split
      · split
        · exact h.set n (fun _ _ hx => by cases hx) _
        · exact h
      · exact h
    · exact h
  | cancel n =>
    rw [AppSys.step]
    split
    · split
      · exact h.set n (fun _ _ hx => by cases hx) s.sem
      · exact h.apiStep _ _
      · exact h.set n (fun _ _ hx => by cases hx) _
      · exact h
    · exact h
  | newApi => exact h.keep (now_upd s.api (s.cur + 1) (.setUart true)) fun _ hk _ => hk
  | newSemaphore p => exact h

theorem dozing_run (es : List AppEvent) : Dozing (AppSys.init.run es) := by
  suffices h : ∀ (es : List AppEvent) (s : AppSys), Dozing s → Dozing (s.run es) from
    h es _ fun k hk => by cases hk
  intro es
  induction es with
  | nil => intro s h; exact h
  | cons e es ih => intro s h; exact ih _ (h.step e)

theorem busy_start {s : AppSys} (ai : AInv s) (hz : Dozing s) (hc : AllCurrent s) :
    Busy ((s.api s.cur).now + workLeft s) s := by
  obtain ⟨E, hE⟩ := ai.proj s.cur
  obtain ⟨x, r, hl, hx⟩ := load_start (ai.api s.cur) (by
    rw [hE]
    exact deadline_run E Api.init (by intro t k w d h; simp [Api.init] at h))
  refine ⟨hc, (s.api s.cur).now + x + sleepSum s.tasks, r, ?_, ?_, ?_⟩
  · exact ⟨fun h k w d a1 a2 => Nat.le_trans (hl.wait h k w d a1 a2) (Nat.le_add_right ..),
      Nat.le_trans hl.now (Nat.le_add_right ..), hl.queue⟩
  · intro k hk i d hp
    have h1 := hz k hk i d hp
    have h2 := hc k hk
    rw [hp] at h2
    have h2 : i = s.cur := h2
    have h3 := sleepSum_ge s.tasks k i d hk hp
    have h4 := (ai.tasks k hk).pc
    rw [hp] at h4
    rw [pause_settles h4.1] at h3
    rw [h2] at h1
    omega
  · unfold workLeft
    rw [sum_needed]
    omega

/-! ## Ended calls stay ended -/

theorem done_settle {s : AppSys} {n : Nat} {k : AppTask} {x : Result} (hk : s.tasks[n]? = some k)
    (hp : k.pc = .done x) : s.settle.tasks[n]? = some k := by
  rw [settle_get s n k hk, settle_done hp]

theorem done_set {T : List AppTask} {n m : Nat} {k k0 k1 : AppTask} {x : Result}
    (hk : T[n]? = some k) (hp : k.pc = .done x) (h0 : T[m]? = some k0) (hn : ∀ x, k0.pc ≠ .done x) :
    (T.set m k1)[n]? = some k := by
  by_cases hm : m = n
  · subst hm
    rw [hk] at h0; cases h0
    exact absurd hp (hn x)
  · rw [List.getElem?_set_ne hm]; exact hk

theorem done_step {s : AppSys} {n : Nat} {k : AppTask} {x : Result} (hk : s.tasks[n]? = some k)
    (hp : k.pc = .done x) (ev : AppEvent) : (s.step ev).tasks[n]? = some k := by
  have app : ∀ k', (s.tasks ++ [k'])[n]? = some k := fun k' => by
    rw [List.getElem?_append_left (List.getElem?_eq_some_iff.mp hk).1]; exact hk
  cases ev with
  | api i e => exact done_settle (s := { s with api := upd s.api i ((s.api i).step e) }) hk hp
  | call c =>
    show (s.begin c).tasks[n]? = _
    unfold AppSys.begin
    split
    · exact app _
    · split
      · exact app _
      · split <;> exact app _
  | enter m =>
    show (s.enter m).tasks[n]? = _
    unfold AppSys.enter
    split
    · rename_i k0 h0
      split
      · rename_i hp0
        split
        · exact hk
        · exact done_settle (done_set hk hp h0 fun y h => by rw [hp0] at h; cases h) hp
      · exact hk
    · exact hk
  | wakeUp m =>
    rw [AppSys.step]
    split
    · rename_i k0 h0
      split
      · rename_i hp0
        split
        · exact done_set hk hp h0 fun y h => by rw [hp0] at h; cases h
        · exact hk
      · exact hk
    · exact hk
  | cancel m =>
    rw [AppSys.step]
    split
    · rename_i k0 h0
      split
      · rename_i hp0
        exact done_set hk hp h0 fun y h => by rw [hp0] at h; cases h
      · rename_i i t hp0
        exact done_settle (s := { s with api := upd s.api i ((s.api i).step (.cancel t)) }) hk hp
      · rename_i hp0
        exact done_set hk hp h0 fun y h => by rw [hp0] at h; cases h
      · exact hk
    · exact hk
  | newApi => exact hk
  | newSemaphore p => exact hk

theorem done_run {n : Nat} {k : AppTask} {x : Result} (hp : k.pc = .done x) :
    ∀ (es : List AppEvent) (s : AppSys), s.tasks[n]? = some k → (s.run es).tasks[n]? = some k
  | [], _, h => h
  | e :: es, s, h => done_run hp es (s.step e) (done_step h hp e)

end Zcc
