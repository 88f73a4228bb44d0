import Verif.Proofs.Reply

/-!
# The pause after broadcasts and multicasts
-/

namespace Zcc
open Spec

theorem settles_iff {c : Call} : c.settles = true ↔ Unconfirmed c := by
  cases c <;> simp [Call.settles, Unconfirmed]

theorem success_ne_failure (c : Call) (e : PyErr) : c.success ≠ c.failure e := by
  intro h
  cases c <;> cases e <;> simp [Call.success, Call.failure] at h

theorem success_ne_raised {c : Call} (hc : c.settles = true) (e : PyErr) : c.success ≠ .raised e := by
  intro h
  cases c <;> simp [Call.success] at h

/-! ## Nothing is left to do after an event -/

/-- No call is still in an API request that is over. -/
def Rested (s : AppSys) : Prop := ∀ k ∈ s.tasks, k.settle s.api = k

theorem settle_done {a : Nat → Api} {k : AppTask} {r : Result} (h : k.pc = .done r) :
    k.settle a = k := by
  rcases settle_cases a k with he | ⟨i, t, A, hpc, _⟩
  · exact he
  · rw [h] at hpc; cases hpc

theorem settle_settle (a : Nat → Api) (k : AppTask) : (k.settle a).settle a = k.settle a := by
  rcases settle_cases a k with he | ⟨i, t, A, hpc, hA, ⟨x, hx, ⟨hs, he⟩ | ⟨hs, he⟩⟩ | ⟨e, hx, he⟩⟩
  · rw [he, he]
  · rw [he]; rfl
  · rw [he]; rfl
  · rw [he]; rfl

theorem rested_settle (s : AppSys) : Rested s.settle := by
  intro k hk
  obtain ⟨k', _, rfl⟩ := List.mem_map.mp hk
  exact settle_settle _ _

/-- `settle` looks only at the API calls. -/
theorem settle_congr {a b : Nat → Api} (h : ∀ i, (a i).tasks = (b i).tasks) {k : AppTask}
    (hk : k.settle a = k) : k.settle b = k := by
  rcases settle_cases b k with he | ⟨i, t, A, hpc, hA, hc⟩
  · exact he
  · rw [← h i] at hA
    exfalso
    rcases hc with ⟨x, hx, _⟩ | ⟨e, hx, _⟩
    · unfold AppTask.settle at hk
      rw [hpc] at hk; dsimp only at hk; rw [hA] at hk; dsimp only at hk; rw [hx] at hk
      dsimp only at hk
      split at hk
      · have := congrArg AppTask.pc hk; rw [hpc] at this; cases this
      · have := congrArg AppTask.pc hk; rw [hpc] at this; cases this
    · unfold AppTask.settle at hk
      rw [hpc] at hk; dsimp only at hk; rw [hA] at hk; dsimp only at hk; rw [hx] at hk
      have := congrArg AppTask.pc hk; rw [hpc] at this; cases this

theorem rested_append {s : AppSys} (h : Rested s) {k : AppTask} (hk : ∀ i t, k.pc ≠ .inApi i t)
    (a : Nat → Api) (ha : ∀ i, (s.api i).tasks = (a i).tasks) :
    Rested { s with api := a, tasks := s.tasks ++ [k] } := by
  intro k' hk'
  rcases List.mem_append.mp hk' with h1 | h1
  · exact settle_congr ha (h k' h1)
  · rw [List.mem_singleton] at h1
    subst h1
    rcases settle_cases a k' with he | ⟨i, t, A, hpc, _⟩
    · exact he
    · exact absurd hpc (hk i t)

theorem rested_set {s : AppSys} (h : Rested s) {n : Nat} {k : AppTask} (r : Result) (q : Nat → Nat) :
    Rested { s with sem := q, tasks := s.tasks.set n { k with pc := .done r } } := by
  intro k' hk'
  rcases List.mem_or_eq_of_mem_set hk' with h1 | h1
  · exact h k' h1
  · rw [h1]; exact settle_done (r := r) rfl

theorem gate_pc (s : AppSys) (c : Call) (o : Obj) (w : Option (Nat × Nat)) (i t : Nat) :
    (s.gate c o w).pc ≠ .inApi i t := by
  unfold AppSys.gate
  split <;> simp

theorem rested_step {s : AppSys} (h : Rested s) (ev : AppEvent) : Rested (s.step ev) := by
  cases ev with
  | api j e => exact rested_settle _
  | call c =>
    show Rested (s.begin c)
    unfold AppSys.begin
    split
    · exact rested_append h (by simp) s.api fun _ => rfl
    · split
      · exact rested_append h (gate_pc _ _ _ _) s.api fun _ => rfl
      · split
        · exact rested_append h (by simp) s.api fun _ => rfl
        · rename_i a w hr
          refine rested_append h (gate_pc _ _ _ _) _ fun i => ?_
          by_cases hi : i = s.cur
          · subst hi
            rw [upd_same]
            unfold Api.createResponseWaiter at hr
            split at hr
            · cases hr
            · cases hr; rfl
            · cases hr; rfl
          · rw [upd_other _ _ hi]
  | enter n =>
    show Rested (s.enter n)
    unfold AppSys.enter
    split
    · split
      · split
        · exact h
        · exact rested_settle _
      · exact h
    · exact h
  | wakeUp n =>
    rw [AppSys.step]
    split
    · split
      · split
        · exact rested_set h _ _
        · exact h
      · exact h
    · exact h
  | cancel n =>
    rw [AppSys.step]
    split
    · split
      · exact rested_set h _ s.sem
      · exact rested_settle _
      · exact rested_set h _ _
      · exact h
    · exact h
  | newApi =>
    intro k hk
    refine settle_congr (fun i => ?_) (h k hk)
    show _ = (upd s.api (s.cur + 1) _ i).tasks
    by_cases hi : i = s.cur + 1
    · subst hi; rw [upd_same]; rfl
    · rw [upd_other _ _ hi]
  | newSemaphore p => exact h

theorem rested_run (es : List AppEvent) : Rested (AppSys.init.run es) := by
  suffices h : ∀ (es : List AppEvent) (s : AppSys), Rested s → Rested (s.run es) from
    h es _ fun k hk => by cases hk
  intro es
  induction es with
  | nil => intro s h; exact h
  | cons e es ih => intro s h; exact ih _ (rested_step h e)

/-! ## The pause -/

/-- Since the API states were `A`: whoever sleeps now and was in its API request then, sleeps for
200 ms at least; whoever has slept, did. -/
structure Slept (A : Nat → Api) (s : AppSys) : Prop where
  later : ∀ i, (A i).now ≤ (s.api i).now
  sleep : ∀ k ∈ s.tasks, ∀ i t w, k.ran = some (i, t) → (∀ r, .finished t r ∉ (A i).log) →
    k.pc = .sleeping i w → (A i).now + 200 ≤ w
  done : ∀ k ∈ s.tasks, ∀ i t, k.ran = some (i, t) → (∀ r, .finished t r ∉ (A i).log) →
    k.call.settles = true → k.pc = .done k.call.success → (A i).now + 200 ≤ (s.api i).now

variable {A : Nat → Api}

theorem Slept.keep {s s' : AppSys} (h : Slept A s) (hn : ∀ i, (s.api i).now ≤ (s'.api i).now)
    (ht : ∀ k ∈ s'.tasks, k ∈ s.tasks ∨ k.ran = none ∨ (∀ i w, k.pc ≠ .sleeping i w) ∧
      k.pc ≠ .done k.call.success) : Slept A s' where
  later i := Nat.le_trans (h.later i) (hn i)
  sleep k hk i t w hr hf hp := by
    rcases ht k hk with h1 | h1 | h1
    · exact h.sleep k h1 i t w hr hf hp
    · rw [h1] at hr; cases hr
    · exact absurd hp (h1.1 i w)
  done k hk i t hr hf hs hp := by
    rcases ht k hk with h1 | h1 | h1
    · exact Nat.le_trans (h.done k h1 i t hr hf hs hp) (hn i)
    · rw [h1] at hr; cases hr
    · exact absurd hp h1.2

theorem Slept.settle {s : AppSys} (h : Slept A s) : Slept A s.settle where
  later := h.later
  sleep k hk i t w hr hf hp := by
    obtain ⟨k', hk', rfl⟩ := List.mem_map.mp hk
    rcases settle_cases s.api k' with he | ⟨j, u, B, hpc, _, ⟨x, _, ⟨_, he⟩ | ⟨_, he⟩⟩ | ⟨e, _, he⟩⟩
    · rw [he] at hr hp; exact h.sleep k' hk' i t w hr hf hp
    · rw [he] at hp
      simp only [AppPc.sleeping.injEq] at hp
      have := h.later j
      rw [← hp.1, ← hp.2]; omega
    · rw [he] at hp; cases hp
    · rw [he] at hp; cases hp
  done k hk i t hr hf hs hp := by
    obtain ⟨k', hk', rfl⟩ := List.mem_map.mp hk
    rcases settle_cases s.api k' with he | ⟨j, u, B, hpc, _, ⟨x, _, ⟨_, he⟩ | ⟨hn, he⟩⟩ | ⟨e, _, he⟩⟩
    · rw [he] at hr hs hp; exact h.done k' hk' i t hr hf hs hp
    · rw [he] at hp; cases hp
    · rw [he] at hs
      have hs : k'.call.settles = true := hs
      rw [hn] at hs; cases hs
    · rw [he] at hp
      simp only [AppPc.done.injEq] at hp
      exact absurd hp.symm (success_ne_failure _ _)

theorem Slept.step {s : AppSys} (h : Slept A s) (hi : AInv s) (ev : AppEvent) :
    Slept A (s.step ev) := by
  have now_step : ∀ (j : Nat) (e : Event) i, (s.api i).now ≤ (upd s.api j ((s.api j).step e) i).now := by
    intro j e i
    by_cases hij : i = j
    · subst hij; rw [upd_same]; exact (grows_step _ e).now
    · rw [upd_other _ _ hij]; exact Nat.le_refl _
  have api : ∀ j e, Slept A (s.apiStep j e) := by
    intro j e
    exact Slept.settle (s := { s with api := upd s.api j ((s.api j).step e) })
      (h.keep (now_step j e) fun k hk => .inl hk)
  cases ev with
  | api j e => exact api j e
  | call c =>
    show Slept A (s.begin c)
    have gran : ∀ o w, (s.gate c o w).ran = none := by
      intro o w; unfold AppSys.gate; split <;> rfl
    have app : ∀ (a : Nat → Api) (k : AppTask), k.ran = none → (∀ i, (s.api i).now ≤ (a i).now) →
        Slept A { s with api := a, tasks := s.tasks ++ [k] } := by
      intro a k hk hn
      refine h.keep hn fun k' hk' => ?_
      rcases List.mem_append.mp hk' with h1 | h1
      · exact .inl h1
      · rw [List.mem_singleton] at h1; rw [h1]; exact .inr (.inl hk)
    unfold AppSys.begin
    split
    · exact app s.api _ rfl fun _ => Nat.le_refl _
    · split
      · exact app s.api _ (gran _ _) fun _ => Nat.le_refl _
      · split
        · exact app s.api _ rfl fun _ => Nat.le_refl _
        · rename_i a w hr
          refine app _ _ (gran _ _) fun i => ?_
          by_cases hij : i = s.cur
          · subst hij
            rw [upd_same]
            unfold Api.createResponseWaiter at hr
            split at hr
            · cases hr
            · cases hr; exact Nat.le_refl _
            · cases hr; exact Nat.le_refl _
          · rw [upd_other _ _ hij]; exact Nat.le_refl _
  | enter n =>
    show Slept A (s.enter n)
    unfold AppSys.enter
    split
    · rename_i k hk
      split
      · rename_i o waiter hpc
        split
        · exact h
        · dsimp only
          refine Slept.settle (h.keep (now_step s.cur _) fun k' hk' => ?_)
          rcases List.mem_or_eq_of_mem_set hk' with h1 | h1
          · exact .inl h1
          · rw [h1]; exact .inr (.inr ⟨by simp, by simp⟩)
      · exact h
    · exact h
  | wakeUp n =>
    rw [AppSys.step]
    split
    · rename_i k hk
      split
      · rename_i j w hpc
        split
        · rename_i hle
          have hm := List.mem_of_getElem? hk
          have hp := (hi.tasks k hm).pc
          rw [hpc] at hp
          obtain ⟨_, t, x, hr, _⟩ := hp
          refine ⟨h.later, ?_, ?_⟩
          · intro k' hk' i u v hr' hf hp'
            rcases List.mem_or_eq_of_mem_set hk' with h1 | h1
            · exact h.sleep k' h1 i u v hr' hf hp'
            · rw [h1] at hp'; cases hp'
          · intro k' hk' i u hr' hf hs hp'
            rcases List.mem_or_eq_of_mem_set hk' with h1 | h1
            · exact h.done k' h1 i u hr' hf hs hp'
            · rw [h1] at hr'
              have hr' : k.ran = some (i, u) := hr'
              rw [hr] at hr'
              cases hr'
              have := h.sleep k hm j t w hr hf hpc
              exact Nat.le_trans this hle
        · exact h
      · exact h
    · exact h
  | cancel n =>
    rw [AppSys.step]
    split
    · rename_i k hk
      have hset : ∀ q, Slept A { s with
          sem := q
          tasks := s.tasks.set n { k with pc := .done (.raised .cancelledError) } } := by
        intro q
        refine ⟨h.later, ?_, ?_⟩
        · intro k' hk' i u v hr' hf hp'
          rcases List.mem_or_eq_of_mem_set hk' with h1 | h1
          · exact h.sleep k' h1 i u v hr' hf hp'
          · rw [h1] at hp'; cases hp'
        · intro k' hk' i u hr' hf hs hp'
          rcases List.mem_or_eq_of_mem_set hk' with h1 | h1
          · exact h.done k' h1 i u hr' hf hs hp'
          · rw [h1] at hs hp'
            simp only [AppPc.done.injEq] at hp'
            exact absurd hp'.symm (success_ne_raised hs _)
      split
      · exact hset s.sem
      · exact api _ _
      · exact hset _
      · exact h
    · exact h
  | newApi => exact h.keep (now_step _ _) fun k hk => .inl hk
  | newSemaphore p => exact h.keep (fun _ => Nat.le_refl _) fun k hk => .inl hk

/-- From a reachable state on. -/
theorem slept_start {s : AppSys} (hi : AInv s) : Slept s.api s where
  later _ := Nat.le_refl _
  sleep k hk i t w hr hf hp := by
    have := (hi.tasks k hk).pc
    rw [hp] at this
    obtain ⟨_, u, x, hr', hx⟩ := this
    rw [hr] at hr'; cases hr'
    exact absurd hx (hf _)
  done k hk i t hr hf hs hp := by
    have := (hi.tasks k hk).pc
    rw [hp] at this
    generalize hres : k.call.success = r at this
    cases this with
    | accepted j u x hr' hx =>
      rw [hr] at hr'; cases hr'
      exact absurd hx (hf _)
    | failed j u e hr' hx => exact absurd hres (success_ne_failure _ _)
    | cancelled _ => exact absurd hres (success_ne_raised hs _)
    | rejected e _ _ => exact absurd hres (success_ne_raised hs _)

theorem slept_run : ∀ (es : List AppEvent) (s : AppSys), AInv s → Slept A s → Slept A (s.run es)
  | [], _, _, h => h
  | e :: es, _, hi, h => slept_run es _ (hi.step e) (h.step hi e)

/-- A sleeping call sleeps for 200 ms at most. -/
def Short (s : AppSys) : Prop :=
  ∀ k ∈ s.tasks, ∀ i w, k.pc = .sleeping i w → w ≤ (s.api i).now + 200

theorem Short.keep {s s' : AppSys} (h : Short s) (hn : ∀ i, (s.api i).now ≤ (s'.api i).now)
    (ht : ∀ k ∈ s'.tasks, k ∈ s.tasks ∨ (∀ i w, k.pc ≠ .sleeping i w)) : Short s' := by
  intro k hk i w hp
  rcases ht k hk with h1 | h1
  · have := h k h1 i w hp; have := hn i; omega
  · exact absurd hp (h1 i w)

theorem Short.settle {s : AppSys} (h : Short s) : Short s.settle := by
  intro k hk i w hp
  obtain ⟨k', hk', rfl⟩ := List.mem_map.mp hk
  rcases settle_cases s.api k' with he | ⟨j, u, B, hpc, _, ⟨x, _, ⟨_, he⟩ | ⟨_, he⟩⟩ | ⟨e, _, he⟩⟩
  · rw [he] at hp; exact h k' hk' i w hp
  · rw [he] at hp
    simp only [AppPc.sleeping.injEq] at hp
    rw [← hp.1, ← hp.2]; exact Nat.le_refl _
  · rw [he] at hp; cases hp
  · rw [he] at hp; cases hp

theorem short_step {s : AppSys} (h : Short s) (ev : AppEvent) : Short (s.step ev) := by
  have now_step : ∀ (j : Nat) (e : Event) i, (s.api i).now ≤ (upd s.api j ((s.api j).step e) i).now := by
    intro j e i
    by_cases hij : i = j
    · subst hij; rw [upd_same]; exact (grows_step _ e).now
    · rw [upd_other _ _ hij]; exact Nat.le_refl _
  have api : ∀ j e, Short (s.apiStep j e) := by
    intro j e
    exact Short.settle (s := { s with api := upd s.api j ((s.api j).step e) })
      (h.keep (now_step j e) fun k hk => .inl hk)
  have hset : ∀ (n : Nat) (k : AppTask) q r, Short { s with
      sem := q
      tasks := s.tasks.set n { k with pc := .done r } } := by
    intro n k q r
    refine h.keep (fun _ => Nat.le_refl _) fun k' hk' => ?_
    rcases List.mem_or_eq_of_mem_set hk' with h1 | h1
    · exact .inl h1
    · rw [h1]; exact .inr (by simp)
  cases ev with
  | api j e => exact api j e
  | call c =>
    show Short (s.begin c)
    have gpc : ∀ o w i v, (s.gate c o w).pc ≠ .sleeping i v := by
      intro o w i v; unfold AppSys.gate; split <;> simp
    have app : ∀ (a : Nat → Api) (k : AppTask), (∀ i v, k.pc ≠ .sleeping i v) →
        (∀ i, (s.api i).now ≤ (a i).now) → Short { s with api := a, tasks := s.tasks ++ [k] } := by
      intro a k hk hn
      refine h.keep hn fun k' hk' => ?_
      rcases List.mem_append.mp hk' with h1 | h1
      · exact .inl h1
      · rw [List.mem_singleton] at h1; rw [h1]; exact .inr hk
    unfold AppSys.begin
    split
    · exact app s.api _ (by simp) fun _ => Nat.le_refl _
    · split
      · exact app s.api _ (gpc _ _) fun _ => Nat.le_refl _
      · split
        · exact app s.api _ (by simp) fun _ => Nat.le_refl _
        · rename_i a w hr
          refine app _ _ (gpc _ _) fun i => ?_
          by_cases hij : i = s.cur
          · subst hij
            rw [upd_same]
            unfold Api.createResponseWaiter at hr
            split at hr
            · cases hr
            · cases hr; exact Nat.le_refl _
            · cases hr; exact Nat.le_refl _
          · rw [upd_other _ _ hij]; exact Nat.le_refl _
  | enter n =>
    show Short (s.enter n)
    unfold AppSys.enter
    split
    · split
      · split
        · exact h
        · dsimp only
          refine Short.settle (h.keep (now_step s.cur _) fun k' hk' => ?_)
          rcases List.mem_or_eq_of_mem_set hk' with h1 | h1
          · exact .inl h1
          · rw [h1]; exact .inr (by simp)
      · exact h
    · exact h
  | wakeUp n =>
    rw [AppSys.step]
    split
    · split
      · split
        · exact hset _ _ _ _
        · exact h
      · exact h
    · exact h
  | cancel n =>
    rw [AppSys.step]
    split
    · split
      · exact hset _ _ s.sem _
      · exact api _ _
      · exact hset _ _ _ _
      · exact h
    · exact h
  | newApi => exact h.keep (now_step _ _) fun k hk => .inl hk
  | newSemaphore p => exact h.keep (fun _ => Nat.le_refl _) fun k hk => .inl hk

theorem short_run (es : List AppEvent) : Short (AppSys.init.run es) := by
  suffices h : ∀ (es : List AppEvent) (s : AppSys), Short s → Short (s.run es) from
    h es _ fun k hk => by cases hk
  intro es
  induction es with
  | nil => intro s h; exact h
  | cons e es ih => intro s h; exact ih _ (short_step h e)

end Zcc
