import Verif.Proofs.AppBounded

/-!
# Lemmas for C73 across restarts: several connections share one clock
-/

namespace Zcc
open Spec

/-! ## Sums over the connections -/

def total (m : Nat) (f : Nat → Nat) : Nat := ((List.range m).map f).sum

theorem total_succ (m : Nat) (f : Nat → Nat) : total (m + 1) f = total m f + f m := by
  unfold total
  rw [List.range_succ, List.map_append, List.sum_append]
  simp

theorem total_le {m : Nat} {f g : Nat → Nat} (h : ∀ i < m, f i ≤ g i) : total m f ≤ total m g := by
  induction m with
  | zero => exact Nat.le_refl _
  | succ m ih =>
    rw [total_succ, total_succ]
    have := ih fun i hi => h i (by omega)
    have := h m (by omega)
    omega

/-- Only the `i`th summand grows, by at most `x`. -/
theorem total_one {m : Nat} {f g : Nat → Nat} {i x : Nat} (h : ∀ j < m, j ≠ i → f j ≤ g j)
    (hi : i < m → f i ≤ g i + x) : total m f ≤ total m g + x := by
  induction m with
  | zero => exact Nat.zero_le _
  | succ m ih =>
    rw [total_succ, total_succ]
    by_cases hm : m = i
    · subst hm
      have := hi (by omega)
      have : total m f ≤ total m g := total_le fun j hj => h j (by omega) (by omega)
      omega
    · have := ih (fun j hj => h j (by omega)) (fun hi' => hi (by omega))
      have := h m (by omega) hm
      omega

/-- The `i`th summand shrinks by `x`. -/
theorem total_less {m : Nat} {f g : Nat → Nat} {i x : Nat} (him : i < m) (h : ∀ j < m, f j ≤ g j)
    (hi : f i + x ≤ g i) : total m f + x ≤ total m g := by
  induction m with
  | zero => omega
  | succ m ih =>
    rw [total_succ, total_succ]
    by_cases hm : m = i
    · subst hm
      have : total m f ≤ total m g := total_le fun j hj => h j (by omega)
      omega
    · have := ih (by omega) (fun j hj => h j (by omega))
      have := h m (by omega)
      omega

/-! ## Work in all connections -/

/-- The calls at work are in the first `m` connections. -/
def AmongFirst (m : Nat) (T : List AppTask) : Prop :=
  ∀ k ∈ T, (∀ i t, k.pc = .inApi i t → i < m) ∧ ∀ i d, k.pc = .sleeping i d → i < m

/-- The calls that have not ended need at most `D` more. -/
structure Loaded (m D : Nat) (s : AppSys) : Prop where
  within : AmongFirst m s.tasks
  load : ∃ b r : Nat → Nat, (∀ i < m, Load (b i) (r i) (s.api i)) ∧
    (∀ k ∈ s.tasks, ∀ i d, k.pc = .sleeping i d → d ≤ b i) ∧
    total m (fun i => b i - (s.api i).now + r i) + restSum s.tasks ≤ D

theorem Loaded.mono {m D D' : Nat} {s : AppSys} (j : Loaded m D s) (h : D ≤ D') : Loaded m D' s := by
  obtain ⟨hc, b, r, hl, hs, hD⟩ := j
  exact ⟨hc, b, r, hl, hs, Nat.le_trans hD h⟩

/-- Calls whose request in the `i`th API is over go on. -/
theorem Loaded.settle {m D i : Nat} {s : AppSys} (j : Loaded m D s)
    (ho : ∀ k ∈ s.tasks, ∀ i' t, k.pc = .inApi i' t → i' ≠ i → k.settle s.api = k) :
    Loaded m D s.settle := by
  obtain ⟨hc, b, r, hl, hs, hD⟩ := j
  have hrs := restSum_settle s.api s.tasks
  obtain ⟨x, hx⟩ : ∃ x, x = restSum s.tasks - restSum (s.tasks.map (AppTask.settle s.api)) := ⟨_, rfl⟩
  refine ⟨?_, fun v => if v = i then b v + x else b v, r, ?_, ?_, ?_⟩
  · intro k hk
    obtain ⟨k0, hk0, rfl⟩ := List.mem_map.mp hk
    have := hc k0 hk0
    rcases settle_cases s.api k0 with he | ⟨i, t, A, hpc, _, ⟨x, _, ⟨_, he⟩ | ⟨_, he⟩⟩ | ⟨e, _, he⟩⟩
    · rw [he]; exact this
    · rw [he]
      exact ⟨fun _ _ h => (by cases h), fun _ _ h => by cases h; exact this.1 _ _ hpc⟩
    · rw [he]
      exact ⟨fun _ _ h => (by cases h), fun _ _ h => (by cases h)⟩
    · rw [he]
      exact ⟨fun _ _ h => (by cases h), fun _ _ h => (by cases h)⟩
  · intro v hv
    have hl := hl v hv
    have hb : b v ≤ (if v = i then b v + x else b v) := by split <;> omega
    exact ⟨fun h k w d a1 a2 => Nat.le_trans (hl.wait h k w d a1 a2) hb, Nat.le_trans hl.now hb, hl.queue⟩
  · intro k hk v d hp
    obtain ⟨k0, hk0, rfl⟩ := List.mem_map.mp hk
    have hsum := hrs.2 k0 hk0
    have hcur := hc k0 hk0
    show d ≤ if v = i then b v + x else b v
    rcases settle_cases s.api k0 with he | ⟨i', t, A, hpc, _, ⟨y, _, ⟨hst, he⟩ | ⟨_, he⟩⟩ | ⟨e, _, he⟩⟩
    · rw [he] at hp
      have := hs k0 hk0 v d hp
      split <;> omega
    · have hi : i' = i := Classical.byContradiction fun hn => by
        have := ho k0 hk0 i' t hpc hn
        rw [he] at this
        have := congrArg AppTask.pc this
        rw [hpc] at this
        cases this
      rw [he] at hp
      have hp : AppPc.sleeping i' ((s.api i').now + 200) = .sleeping v d := hp
      cases hp
      have e1 : rest k0 = 200 := by unfold rest; rw [hpc]; exact pause_settles hst
      have e2 : rest (k0.settle s.api) = 0 := by rw [he]; rfl
      rw [e1, e2] at hsum
      have := (hl v (hcur.1 _ _ hpc)).now
      rw [if_pos hi]
      omega
    · rw [he] at hp; cases hp
    · rw [he] at hp; cases hp
  · show total m (fun v => (if v = i then b v + x else b v) - (s.api v).now + r v) +
      restSum (s.tasks.map (AppTask.settle s.api)) ≤ D
    have ht := total_one (m := m) (i := i) (x := x)
      (f := fun v => (if v = i then b v + x else b v) - (s.api v).now + r v)
      (g := fun v => b v - (s.api v).now + r v) (fun v hv hn => by
        rw [if_neg hn]; exact Nat.le_refl _) (fun _ => by
        rw [if_pos rfl]; omega)
    have := hrs.1
    omega

/-- Only the `i`th API changes: calls in other APIs have nothing to settle. -/
theorem rested_others {s : AppSys} (h : Rested s) (i : Nat) (A : Api) :
    ∀ k ∈ s.tasks, ∀ i' t, k.pc = .inApi i' t → i' ≠ i → k.settle (upd s.api i A) = k := by
  intro k hk i' t hpc hn
  have := h k hk
  unfold AppTask.settle at this ⊢
  rw [hpc] at this ⊢
  dsimp only at this ⊢
  rw [upd_other _ _ hn]
  exact this

/-- One API makes a step that brings in `x`. -/
theorem Loaded.api {m D : Nat} {s : AppSys} (j : Loaded m D s) (ai : AInv s) (i : Nat) (e : Event)
    (ht : ∀ ms, e ≠ .tick ms) :
    Loaded m (D + brings e) { s with api := upd s.api i ((s.api i).step e) } := by
  obtain ⟨hc, b, r, hl, hs, hD⟩ := j
  by_cases him : i < m
  · obtain ⟨b', r', h1, h2, h3⟩ := (hl i him).step (ai.api i) e ht
    refine ⟨hc, upd b i b', upd r i r', ?_, ?_, ?_⟩
    · intro v hv
      by_cases hvi : v = i
      · subst hvi
        show Load _ _ (upd s.api v _ v)
        rw [upd_same, upd_same, upd_same]; exact h1
      · show Load _ _ (upd s.api i _ v)
        rw [upd_other _ _ hvi, upd_other _ _ hvi, upd_other _ _ hvi]; exact hl v hv
    · intro k hk v d hp
      have := hs k hk v d hp
      by_cases hvi : v = i
      · subst hvi; rw [upd_same]; omega
      · rw [upd_other _ _ hvi]; exact this
    · have hn : (s.api i).now ≤ ((s.api i).step e).now := (grows_step _ _).now
      have := total_one (m := m) (i := i) (x := brings e)
        (f := fun v => upd b i b' v - (upd s.api i ((s.api i).step e) v).now + upd r i r' v)
        (g := fun v => b v - (s.api v).now + r v) (fun v hv hvn => by
          rw [upd_other _ _ hvn, upd_other _ _ hvn, upd_other _ _ hvn]; exact Nat.le_refl _) (fun _ => by
          rw [upd_same, upd_same, upd_same]
          have := (hl i him).now
          omega)
      show total m (fun v => upd b i b' v - (upd s.api i ((s.api i).step e) v).now + upd r i r' v) +
        restSum s.tasks ≤ _
      omega
  · have hne : ∀ v < m, v ≠ i := fun v hv h => him (h ▸ hv)
    refine ⟨hc, b, r, ?_, hs, ?_⟩
    · intro v hv
      show Load _ _ (upd s.api i _ v)
      rw [upd_other _ _ (hne v hv)]; exact hl v hv
    · have : total m (fun v => b v - (upd s.api i ((s.api i).step e) v).now + r v) ≤
          total m (fun v => b v - (s.api v).now + r v) := total_le fun v hv => by
        rw [upd_other _ _ (hne v hv)]; exact Nat.le_refl _
      show total m (fun v => b v - (upd s.api i ((s.api i).step e) v).now + r v) + restSum s.tasks ≤ _
      omega

theorem Loaded.apiStep {m D : Nat} {s : AppSys} (j : Loaded m D s) (ai : AInv s) (hr : Rested s) (i : Nat)
    (e : Event) (ht : ∀ ms, e ≠ .tick ms) : Loaded m (D + brings e) (s.apiStep i e) :=
  (j.api ai i e ht).settle (i := i) (rested_others hr i _)

/-- A call leaves, or gets nowhere. -/
theorem Loaded.set {m D : Nat} {s : AppSys} (j : Loaded m D s) {n : Nat} {k : AppTask}
    (hk : s.tasks[n]? = some k) (x : Result) (q : Nat → Nat) :
    Loaded m D { s with sem := q, tasks := s.tasks.set n { k with pc := .done x } } := by
  obtain ⟨hc, b, r, hl, hs, hD⟩ := j
  refine ⟨?_, b, r, hl, ?_, ?_⟩
  · intro k' hk'
    rcases List.mem_or_eq_of_mem_set hk' with h | rfl
    · exact hc k' h
    · exact ⟨fun _ _ h => (by cases h), fun _ _ h => (by cases h)⟩
  · intro k' hk' i d hp
    rcases List.mem_or_eq_of_mem_set hk' with h | rfl
    · exact hs k' h i d hp
    · cases hp
  · have := restSum_set s.tasks n k { k with pc := .done x } hk
    have e : rest { k with pc := .done x } = 0 := rfl
    show total m (fun i => b i - (s.api i).now + r i) + restSum (s.tasks.set n { k with pc := .done x }) ≤ D
    omega

theorem Loaded.add {m D : Nat} {s : AppSys} (j : Loaded m D s) {k : AppTask}
    (hk : (∃ o w, k.pc = .waiting o w) ∨ ∃ x, k.pc = .done x) (a : Nat → Api)
    (h : ∀ i, (a i).tasks = (s.api i).tasks ∧ (a i).now = (s.api i).now ∧ (a i).queue = (s.api i).queue) :
    Loaded m (D + rest k) { s with api := a, tasks := s.tasks ++ [k] } := by
  obtain ⟨hc, b, r, hl, hs, hD⟩ := j
  refine ⟨?_, b, r, fun i hi => (hl i hi).same (h i).1 (h i).2.1 (h i).2.2, ?_, ?_⟩
  · intro k' hk'
    rcases List.mem_append.mp hk' with h | h
    · exact hc k' h
    · rw [List.mem_singleton] at h; subst h
      rcases hk with ⟨o, w, h⟩ | ⟨x, h⟩ <;> rw [h] <;>
        exact ⟨fun _ _ h => (by cases h), fun _ _ h => (by cases h)⟩
  · intro k' hk' i d hp
    rcases List.mem_append.mp hk' with h | h
    · exact hs k' h i d hp
    · rw [List.mem_singleton] at h; subst h
      rcases hk with ⟨o, w, h⟩ | ⟨x, h⟩ <;> rw [h] at hp <;> cases hp
  · show total m (fun i => b i - (a i).now + r i) + restSum (s.tasks ++ [k]) ≤ _
    have : total m (fun i => b i - (a i).now + r i) ≤ total m (fun i => b i - (s.api i).now + r i) :=
      total_le fun i _ => by
        rw [(h i).2.1]; exact Nat.le_refl _
    rw [restSum_append]
    omega

theorem Loaded.begin {m D : Nat} {s : AppSys} (j : Loaded m D s) (c : Call) :
    Loaded m (D + callTime c) (s.begin c) := by
  have same : ∀ i, (s.api i).tasks = (s.api i).tasks ∧ (s.api i).now = (s.api i).now ∧
      (s.api i).queue = (s.api i).queue := fun _ => ⟨rfl, rfl, rfl⟩
  have dead : ∀ e, Loaded m (D + callTime c)
      { s with tasks := s.tasks ++ [{ call := c, pc := .done (.raised e) }] } := fun e =>
    (j.add (k := { call := c, pc := .done (.raised e) }) (.inr ⟨_, rfl⟩) s.api same).mono
      (Nat.add_le_add_left (Nat.zero_le _) _)
  unfold AppSys.begin
  split
  · exact dead _
  · rename_i o ho
    have hct : callTime c = limit o + pause c := by unfold callTime; rw [ho]
    rw [hct] at dead ⊢
    split
    · obtain ⟨h1, h2⟩ := gate_cases s c o none
      exact (j.add h1 s.api same).mono (Nat.add_le_add_left h2 _)
    · split
      · exact dead _
      · rename_i a w hr
        obtain ⟨h1, h2⟩ := gate_cases s c o (w.map (fun w => (s.cur, w)))
        have hf : a.tasks = (s.api s.cur).tasks ∧ a.now = (s.api s.cur).now ∧
            a.queue = (s.api s.cur).queue := by
          unfold Api.createResponseWaiter at hr
          split at hr
          · cases hr
          · cases hr; exact ⟨rfl, rfl, rfl⟩
          · cases hr; exact ⟨rfl, rfl, rfl⟩
        refine (j.add h1 (upd s.api s.cur a) fun i => ?_).mono (Nat.add_le_add_left h2 _)
        by_cases hi : i = s.cur
        · subst hi; rw [upd_same]; exact hf
        · rw [upd_other _ _ hi]; exact same i

theorem Loaded.enter {m D : Nat} {s : AppSys} (j : Loaded m D s) (ai : AInv s) (hr : Rested s)
    (hcur : s.cur < m) (n : Nat) : Loaded m D (s.enter n) := by
  unfold AppSys.enter
  split
  · rename_i k hk
    split
    · rename_i o waiter hpc
      split
      · exact j
      · have h1 := j.api ai s.cur (.submit o (waiter.map Prod.snd) none) (by intro ms h; cases h)
        have hset := restSum_set s.tasks n k
          { k with pc := .inApi s.cur (s.api s.cur).nextTid,
                   ran := some (s.cur, (s.api s.cur).nextTid) } hk
        have e1 : rest k = limit o + pause k.call := by unfold rest; rw [hpc]
        have e2 : rest { k with
            pc := .inApi s.cur (s.api s.cur).nextTid
            ran := some (s.cur, (s.api s.cur).nextTid) } = pause k.call := rfl
        rw [e1, e2] at hset
        refine Loaded.settle (i := s.cur) ?_ ?_
        · obtain ⟨hc, b, r, hl, hs, hD⟩ := h1
          refine ⟨?_, b, r, hl, ?_, ?_⟩
          · intro k' hk'
            rcases List.mem_or_eq_of_mem_set hk' with h | rfl
            · exact hc k' h
            · exact ⟨fun _ _ h => (by cases h; exact hcur), fun _ _ h => (by cases h)⟩
          · intro k' hk' i d hp
            rcases List.mem_or_eq_of_mem_set hk' with h | rfl
            · exact hs k' h i d hp
            · cases hp
          · have hD : total m (fun i => b i - (upd s.api s.cur ((s.api s.cur).step
                (.submit o (waiter.map Prod.snd) none)) i).now + r i) + restSum s.tasks ≤ D + limit o := hD
            show total m (fun i => b i - (upd s.api s.cur ((s.api s.cur).step
              (.submit o (waiter.map Prod.snd) none)) i).now + r i) + restSum (s.tasks.set n _) ≤ D
            omega
        · intro k' hk' i' t hp hn
          rcases List.mem_or_eq_of_mem_set hk' with h | rfl
          · exact rested_others hr s.cur _ k' h i' t hp hn
          · cases hp; exact absurd rfl hn
    · exact j
  · exact j

/-- One event other than time. -/
theorem Loaded.step {m D : Nat} {s : AppSys} (j : Loaded m D s) (ai : AInv s) (hr : Rested s)
    (hcur : s.cur < m) (e : AppEvent) (ht : ∀ i ms, e ≠ .api i (.tick ms)) :
    Loaded m (D + bringsApp e) (s.step e) := by
  cases e with
  | api i e =>
    rw [← brings_api]
    exact j.apiStep ai hr i e fun ms h => ht i ms (by rw [h])
  | call c => exact j.begin c
  | enter n => exact (j.enter ai hr hcur n).mono (Nat.le_add_right ..)
  | wakeUp m =>
    refine Loaded.mono ?_ (Nat.le_add_right ..)
    rw [AppSys.step]
    split
    · rename_i x hx
      split
      · split
        · exact j.set hx _ _
        · exact j
      · exact j
    · exact j
  | cancel m =>
    refine Loaded.mono ?_ (Nat.le_add_right ..)
    rw [AppSys.step]
    split
    · rename_i x hx
      split
      · exact j.set hx _ s.sem
      · rename_i i t _
        exact j.apiStep ai hr i (.cancel t) fun ms h => by cases h
      · exact j.set hx _ _
      · exact j
    · exact j
  | newApi =>
    obtain ⟨hc, b, r, hl, hs, hD⟩ := j.api ai (s.cur + 1) (.setUart true) (fun ms h => by cases h)
    exact ⟨hc, b, r, hl, hs, hD⟩
  | newSemaphore p =>
    refine Loaded.mono ?_ (Nat.le_add_right ..)
    obtain ⟨hc, b, r, hl, hs, hD⟩ := j
    exact ⟨hc, b, r, hl, hs, hD⟩

/-! ## Time passes everywhere -/

/-- The state after `d` ms in the first `m` connections. -/
def afterAll (m d : Nat) (s : AppSys) : AppSys :=
  { s with api := fun i => if i < m then { s.api i with now := (s.api i).now + d } else s.api i }

theorem rested_later {s : AppSys} (h : Rested s) (m d : Nat) : Rested (afterAll m d s) := by
  intro k hk
  have := h k hk
  unfold AppTask.settle at this ⊢
  rcases hp : k.pc with ⟨o, w⟩ | ⟨i, t⟩ | ⟨i, u⟩ | x
  · rfl
  · rw [hp] at this
    dsimp only at this ⊢
    have ht : ((afterAll m d s).api i).tasks = (s.api i).tasks := by
      unfold afterAll; dsimp only; split <;> rfl
    rw [ht]
    rcases hA : (s.api i).tasks t with _ | A
    · rfl
    · rw [hA] at this
      dsimp only at this ⊢
      rcases hx : A.pc with _ | _ | ⟨w, u⟩ | x
      · rfl
      · rfl
      · rfl
      · rw [hx] at this
        have := congrArg AppTask.pc this
        rw [hp] at this
        cases x with
        | ok y =>
          dsimp only at this
          split at this <;> cases this
        | error e => cases this
  · rfl
  · rfl

theorem settle_rested {s : AppSys} (h : Rested s) : s.settle = s := by
  have e1 : s.tasks.map (AppTask.settle s.api) = s.tasks := by
    conv => rhs; rw [← List.map_id s.tasks]
    exact List.map_congr_left fun k hk => h k hk
  have e2 : ∀ g, s.tasks.countP (fun k => k.inside g && !(k.settle s.api).inside g) = 0 := by
    intro g
    rw [List.countP_eq_zero]
    intro k hk
    rw [h k hk]
    cases k.inside g <;> exact fun h => by cases h
  unfold AppSys.settle
  rw [e1]
  cases s
  dsimp only at e2 ⊢
  congr 1
  funext g
  rw [e2 g]
  rfl

theorem later_succ {s : AppSys} (h : Rested s) (m d : Nat) :
    (afterAll m d s).step (.api m (.tick d)) = afterAll (m + 1) d s := by
  have e : ({ afterAll m d s with
      api := upd (afterAll m d s).api m (((afterAll m d s).api m).step (.tick d)) } : AppSys) = afterAll (m + 1) d s := by
    unfold afterAll
    dsimp only
    congr 1
    funext i
    unfold upd
    by_cases hi : i = m
    · subst hi
      rw [if_pos rfl, if_neg (Nat.lt_irrefl _), if_pos (Nat.lt_succ_self _)]
      rfl
    · rw [if_neg hi]
      dsimp only
      by_cases h2 : i < m
      · rw [if_pos h2, if_pos (by omega)]
      · rw [if_neg h2, if_neg (by omega)]
  show AppSys.settle _ = _
  rw [e]
  exact settle_rested (rested_later h _ _)

theorem later_run {s : AppSys} (h : Rested s) (d : Nat) :
    ∀ m, s.run ((Moment.passes d).events m) = afterAll m d s
  | 0 => by
    show s = afterAll 0 d s
    unfold afterAll
    cases s
    dsimp only
    congr 1
  | m + 1 => by
    have ih := later_run h d m
    unfold Moment.events AppSys.run at ih ⊢
    dsimp only at ih ⊢
    rw [List.range_succ, List.map_append, List.foldl_append, ih]
    exact later_succ h m d

/-- Time passes while a call has not ended. -/
theorem Loaded.pass {m D : Nat} {s : AppSys} (j : Loaded m D s) (ai : AInv s) (hr : Rested s)
    (hlim : ∀ g < s.nsem, 0 < s.limit g) (hset : ∀ i, Settled (s.api i).tasks) {n : Nat} {k : AppTask}
    (hk : s.tasks[n]? = some k) (hd : ∀ x, k.pc ≠ .done x) (d : Nat)
    (h1 : ∀ i < m, ((s.api i).holder = none → (s.api i).queue = []) ∧
      ∀ t k w u, (s.api i).tasks t = some k → k.pc = .waiting w u → (s.api i).now + d ≤ u)
    (h3 : ∀ k ∈ s.tasks, match k.pc with
      | .waiting .. => s.sem k.sem = 0
      | .sleeping i u => (s.api i).now + d ≤ u
      | _ => True) : d ≤ D ∧ Loaded m (D - d) (afterAll m d s) := by
  obtain ⟨hc, b, r, hl, hs, hD⟩ := j
  have hb : ∃ i, i < m ∧ (s.api i).now + d ≤ b i := by
    -- a call in an API
    have api : ∀ k ∈ s.tasks, ∀ i t, k.pc = .inApi i t → ∃ i, i < m ∧ (s.api i).now + d ≤ b i := by
      intro k hk i t hpc
      have him := (hc k hk).1 i t hpc
      refine ⟨i, him, ?_⟩
      have hran : k.ran = some (i, t) := by
        have := (ai.tasks k hk).pc
        rw [hpc] at this; exact this
      obtain ⟨o, w, _, hsub⟩ := (ai.tasks k hk).ran _ _ hran
      have iv := ai.api i
      obtain ⟨A, hA, _⟩ := (iv.log.subIff t o w none).mp hsub
      have hAd : ∀ x, A.pc ≠ .done x := by
        intro x hx
        have hst := congrArg AppTask.pc (hr k hk)
        unfold AppTask.settle at hst
        rw [hpc] at hst; dsimp only at hst; rw [hA] at hst; dsimp only at hst; rw [hx] at hst
        cases x with
        | ok y =>
          dsimp only at hst
          split at hst
          · cases hst
          · cases hst
        | error e => cases hst
      rcases hh : (s.api i).holder with _ | h
      · have : t ∈ (s.api i).queue := by
          refine (iv.lock.qIff t).mpr ⟨A, hA, ?_⟩
          rcases hp : A.pc with _ | _ | ⟨w, d⟩ | x
          · rfl
          · exact absurd hp (hset i t A hA)
          · have := (iv.lock.hIff t).mpr ⟨A, hA, by rw [hp]; trivial⟩
            rw [hh] at this; cases this
          · exact absurd hp (hAd x)
        rw [(h1 i him).1 hh] at this; cases this
      · obtain ⟨B, hB, ha⟩ := (iv.lock.hIff h).mp hh
        rcases hp : B.pc with _ | _ | ⟨w, u⟩ | x
        · rw [hp] at ha; exact ha.elim
        · exact absurd hp (hset i h B hB)
        · have := (hl i him).wait h B w u hB hp
          have := (h1 i him).2 h B w u hB hp
          omega
        · rw [hp] at ha; exact ha.elim
    have sleep : ∀ k ∈ s.tasks, ∀ i u, k.pc = .sleeping i u → ∃ i, i < m ∧ (s.api i).now + d ≤ b i := by
      intro k hk i u hpc
      have := h3 k hk
      rw [hpc] at this
      exact ⟨i, (hc k hk).2 i u hpc, Nat.le_trans this (hs k hk i u hpc)⟩
    have hm := List.mem_of_getElem? hk
    rcases hpc : k.pc with ⟨o, w⟩ | ⟨i, t⟩ | ⟨i, u⟩ | x
    · -- the semaphore is taken, so somebody is inside
      have h0 := h3 k hm
      rw [hpc] at h0
      have h0 : s.sem k.sem = 0 := h0
      have hg := hlim _ (ai.semLt k hm hd)
      have hsem := ai.sem k.sem
      have hpos : 0 < s.tasks.countP (AppTask.inside k.sem) := by omega
      obtain ⟨x, hx, hin⟩ := List.countP_pos_iff.mp hpos
      have hpast := (inside_iff.mp hin).2
      unfold AppTask.past at hpast
      rcases hxp : x.pc with ⟨o, w⟩ | ⟨i, t⟩ | ⟨i, u⟩ | y
      · rw [hxp] at hpast; cases hpast
      · exact api x hx i t hxp
      · exact sleep x hx i u hxp
      · rw [hxp] at hpast; cases hpast
    · exact api k hm i t hpc
    · exact sleep k hm i u hpc
    · exact absurd hpc (hd x)
  obtain ⟨i, him, hi⟩ := hb
  have nowl : ∀ v < m, ((afterAll m d s).api v).now = (s.api v).now + d := by
    intro v hv
    unfold afterAll
    dsimp only
    rw [if_pos hv]
  have key := total_less (m := m) (i := i) (x := d) him
    (f := fun v => max (b v) ((s.api v).now + d) - ((afterAll m d s).api v).now + r v)
    (g := fun v => b v - (s.api v).now + r v) (fun v hv => by
      rw [nowl v hv]; omega) (by
      rw [nowl i him]; omega)
  refine ⟨by omega, hc, fun v => max (b v) ((s.api v).now + d), r, ?_, ?_, ?_⟩
  · intro v hv
    have hl := hl v hv
    unfold afterAll
    dsimp only
    rw [if_pos hv]
    exact ⟨fun h k w u a1 a2 => Nat.le_trans (hl.wait h k w u a1 a2) (Nat.le_max_left ..),
      Nat.le_max_right .., hl.queue⟩
  · intro k hk i u hp
    exact Nat.le_trans (hs k hk i u hp) (Nat.le_max_left ..)
  · show total m (fun v => max (b v) ((s.api v).now + d) - ((afterAll m d s).api v).now + r v) +
      restSum s.tasks ≤ D - d
    omega

/-! ## The beginning -/

/-- Calls are at work in connections that exist. -/
def Placed (s : AppSys) : Prop := AmongFirst (s.cur + 1) s.tasks

theorem AmongFirst.mono {m m' : Nat} {T : List AppTask} (h : AmongFirst m T) (hm : m ≤ m') : AmongFirst m' T :=
  fun k hk => ⟨fun i t hp => Nat.lt_of_lt_of_le ((h k hk).1 i t hp) hm,
    fun i d hp => Nat.lt_of_lt_of_le ((h k hk).2 i d hp) hm⟩

theorem AmongFirst.settle {m : Nat} {T : List AppTask} (h : AmongFirst m T) (a : Nat → Api) :
    AmongFirst m (T.map (AppTask.settle a)) := by
  intro k hk
  obtain ⟨k0, hk0, rfl⟩ := List.mem_map.mp hk
  have := h k0 hk0
  rcases settle_cases a k0 with he | ⟨i, t, A, hpc, _, ⟨x, _, ⟨_, he⟩ | ⟨_, he⟩⟩ | ⟨e, _, he⟩⟩
  · rw [he]; exact this
  · rw [he]
    exact ⟨fun _ _ h => (by cases h), fun _ _ h => by cases h; exact this.1 _ _ hpc⟩
  · rw [he]
    exact ⟨fun _ _ h => (by cases h), fun _ _ h => (by cases h)⟩
  · rw [he]
    exact ⟨fun _ _ h => (by cases h), fun _ _ h => (by cases h)⟩

theorem AmongFirst.set {m : Nat} {T : List AppTask} (h : AmongFirst m T) (n : Nat) {k : AppTask}
    (hk : (∀ i t, k.pc = .inApi i t → i < m) ∧ ∀ i d, k.pc = .sleeping i d → i < m) :
    AmongFirst m (T.set n k) := by
  intro k' hk'
  rcases List.mem_or_eq_of_mem_set hk' with h' | rfl
  · exact h k' h'
  · exact hk

theorem AmongFirst.add {m : Nat} {T : List AppTask} (h : AmongFirst m T) {k : AppTask}
    (hk : (∃ o w, k.pc = .waiting o w) ∨ ∃ x, k.pc = .done x) : AmongFirst m (T ++ [k]) := by
  intro k' hk'
  rcases List.mem_append.mp hk' with h' | h'
  · exact h k' h'
  · rw [List.mem_singleton] at h'; subst h'
    rcases hk with ⟨o, w, h⟩ | ⟨x, h⟩ <;> rw [h] <;>
      exact ⟨fun _ _ h => (by cases h), fun _ _ h => (by cases h)⟩

theorem done_nowhere (m : Nat) (k : AppTask) (x : Result) :
    (∀ i t, ({ k with pc := .done x } : AppTask).pc = .inApi i t → i < m) ∧
    ∀ i d, ({ k with pc := .done x } : AppTask).pc = .sleeping i d → i < m :=
  ⟨fun _ _ h => (by cases h), fun _ _ h => (by cases h)⟩

theorem Placed.step {s : AppSys} (h : Placed s) (ev : AppEvent) : Placed (s.step ev) := by
  cases ev with
  | api i e => exact AmongFirst.settle h _
  | call c =>
    show Placed (s.begin c)
    unfold AppSys.begin
    split
    · exact AmongFirst.add h (.inr ⟨_, rfl⟩)
    · split
      · exact AmongFirst.add h (gate_cases s c _ none).1
      · split
        · exact AmongFirst.add h (.inr ⟨_, rfl⟩)
        · exact AmongFirst.add h (gate_cases s c _ _).1
  | enter n =>
    show Placed (s.enter n)
    unfold AppSys.enter
    split
    · split
      · split
        · exact h
        · refine AmongFirst.settle (AmongFirst.set h n ?_) _
          exact ⟨fun _ _ h => (by cases h; exact Nat.lt_succ_self _), fun _ _ h => (by cases h)⟩
      · exact h
    · exact h
  | wakeUp n =>
    rw [AppSys.step]
    split
    · split
      · split
        · exact AmongFirst.set h n (done_nowhere _ _ _)
        · exact h
      · exact h
    · exact h
  | cancel n =>
    rw [AppSys.step]
    split
    · split
      · exact AmongFirst.set h n (done_nowhere _ _ _)
      · exact AmongFirst.settle h _
      · exact AmongFirst.set h n (done_nowhere _ _ _)
      · exact h
    · exact h
  | newApi => exact AmongFirst.mono h (Nat.le_succ _)
  | newSemaphore p => exact h

theorem placed_run (es : List AppEvent) : Placed (AppSys.init.run es) := by
  suffices h : ∀ (es : List AppEvent) (s : AppSys), Placed s → Placed (s.run es) from
    h es _ fun k hk => by cases hk
  intro es
  induction es with
  | nil => intro s h; exact h
  | cons e es ih => intro s h; exact ih _ (h.step e)

/-- The pauses in progress in the `i`th connection. -/
def sleepIn (T : List AppTask) (i : Nat) : Nat :=
  (T.map fun k => match k.pc with | .sleeping j _ => if j = i then pause k.call else 0 | _ => 0).sum

theorem sleepIn_ge : ∀ (T : List AppTask) (k : AppTask) (i d : Nat), k ∈ T → k.pc = .sleeping i d →
    pause k.call ≤ sleepIn T i
  | [], k, i, d, hk, _ => by cases hk
  | x :: T, k, i, d, hk, hp => by
    have e : sleepIn (x :: T) i =
        (match x.pc with | .sleeping j _ => if j = i then pause x.call else 0 | _ => 0) + sleepIn T i := by
      simp [sleepIn]
    rw [e]
    rcases List.mem_cons.mp hk with rfl | hk
    · rw [hp]; dsimp only; rw [if_pos rfl]; exact Nat.le_add_right ..
    · exact Nat.le_trans (sleepIn_ge T k i d hk hp) (Nat.le_add_left ..)

theorem total_add (m : Nat) (f g : Nat → Nat) : total m (fun i => f i + g i) = total m f + total m g := by
  induction m with
  | zero => rfl
  | succ m ih => rw [total_succ, total_succ, total_succ, ih]; omega

theorem total_zero (m : Nat) : total m (fun _ => 0) = 0 := by
  induction m with
  | zero => rfl
  | succ m ih => rw [total_succ, ih]

theorem total_pick (m j x : Nat) : total m (fun i => if j = i then x else 0) ≤ x := by
  have := total_one (m := m) (f := fun i => if j = i then x else 0) (g := fun _ => 0) (i := j) (x := x)
    (fun v _ hn => by rw [if_neg (Ne.symm hn)]; exact Nat.le_refl _)
    (fun _ => by rw [if_pos rfl]; omega)
  rw [total_zero] at this
  omega

theorem sleepIn_total (m : Nat) : ∀ T : List AppTask, total m (sleepIn T) ≤ sleepSum T
  | [] => Nat.le_of_eq (total_zero m)
  | x :: T => by
    have ih := sleepIn_total m T
    have e1 : total m (sleepIn (x :: T)) = total m (sleepIn [x]) + total m (sleepIn T) := by
      rw [← total_add]
      exact congrArg (total m) (funext fun i => by simp [sleepIn])
    have e2 : sleepSum (x :: T) = sleepSum [x] + sleepSum T := by
      simp [sleepSum]
    have e3 : total m (sleepIn [x]) ≤ sleepSum [x] := by
      have h0 : ∀ {f : Nat → Nat} {y : Nat}, (∀ i, f i = 0) → total m f ≤ y := fun h => by
        rw [show _ = fun _ => 0 from funext h, total_zero]; exact Nat.zero_le _
      rcases hp : x.pc with ⟨o, w⟩ | ⟨i, t⟩ | ⟨j, u⟩ | y
      · exact h0 fun i => by simp [sleepIn, hp]
      · exact h0 fun i => by simp [sleepIn, hp]
      · have h1 : sleepIn [x] = fun i => if j = i then pause x.call else 0 := by
          funext i; simp [sleepIn, hp]
        have h2 : sleepSum [x] = pause x.call := by simp [sleepSum, hp]
        rw [h1, h2]
        exact total_pick m j _
      · exact h0 fun i => by simp [sleepIn, hp]
    rw [e1, e2]
    omega

theorem loaded_start {m : Nat} {s : AppSys} (ai : AInv s) (hz : Dozing s) (hp : Placed s) (hm : s.cur < m) :
    Loaded m (workEverywhere m s) s := by
  have hload : ∀ i, ∃ x r, Load ((s.api i).now + x) r (s.api i) ∧
      x + r ≤ limitsAhead (s.api i).nextTid (s.api i).log := by
    intro i
    obtain ⟨E, hE⟩ := ai.proj i
    refine load_start (ai.api i) ?_
    rw [hE]
    exact deadline_run E Api.init (by intro t k w d h; simp [Api.init] at h)
  refine ⟨AmongFirst.mono hp (by omega), fun i => (s.api i).now + Classical.choose (hload i) + sleepIn s.tasks i,
    fun i => Classical.choose (Classical.choose_spec (hload i)), ?_, ?_, ?_⟩
  · intro i _
    have hl := (Classical.choose_spec (Classical.choose_spec (hload i))).1
    exact ⟨fun h k w d a1 a2 => Nat.le_trans (hl.wait h k w d a1 a2) (Nat.le_add_right ..),
      Nat.le_trans hl.now (Nat.le_add_right ..), hl.queue⟩
  · intro k hk i d hpc
    have h1 := hz k hk i d hpc
    have h3 := sleepIn_ge s.tasks k i d hk hpc
    have h4 := (ai.tasks k hk).pc
    rw [hpc] at h4
    rw [pause_settles h4.1] at h3
    show d ≤ (s.api i).now + _ + sleepIn s.tasks i
    omega
  · have h1 : total m (fun i => (s.api i).now + Classical.choose (hload i) + sleepIn s.tasks i - (s.api i).now +
        Classical.choose (Classical.choose_spec (hload i))) ≤
        total m (fun i => limitsAhead (s.api i).nextTid (s.api i).log + sleepIn s.tasks i) :=
      total_le fun i _ => by
        have := (Classical.choose_spec (Classical.choose_spec (hload i))).2
        omega
    rw [total_add m (fun i => limitsAhead (s.api i).nextTid (s.api i).log) (sleepIn s.tasks)] at h1
    have h2 := sleepIn_total m s.tasks
    have h3 : workEverywhere m s = restSum s.tasks + sleepSum s.tasks +
        total m (fun i => limitsAhead (s.api i).nextTid (s.api i).log) := by
      unfold workEverywhere
      rw [sum_needed]
      rfl
    rw [h3]
    dsimp only
    omega

end Zcc
