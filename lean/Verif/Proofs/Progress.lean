import Verif.Proofs.Pause
import Verif.Proofs.Waiter

/-!
# Lemmas for C71: the application's calls can always go on
-/

namespace Zcc
open Spec

/-- How far a call is from its end. -/
def AppTask.rank (k : AppTask) : Nat :=
  match k.pc with
  | .waiting .. => 3
  | .inApi .. => 2
  | .sleeping .. => 1
  | .done _ => 0

/-- No call is farther from its end than before. -/
def Nearer (T T' : List AppTask) : Prop :=
  T'.length = T.length ∧
    ∀ (n : Nat) (k : AppTask), T[n]? = some k → ∃ k', T'[n]? = some k' ∧ k'.rank ≤ k.rank

theorem Nearer.refl (T : List AppTask) : Nearer T T := ⟨rfl, fun _ k h => ⟨k, h, Nat.le_refl _⟩⟩

theorem Nearer.trans {A B C : List AppTask} (h : Nearer A B) (h' : Nearer B C) : Nearer A C := by
  refine ⟨h'.1.trans h.1, fun n k hk => ?_⟩
  obtain ⟨k1, a, b⟩ := h.2 n k hk
  obtain ⟨k2, c, d⟩ := h'.2 n k1 a
  exact ⟨k2, c, Nat.le_trans d b⟩

/-- The distance of all calls together. -/
def totalRank (T : List AppTask) : Nat := (T.map AppTask.rank).sum

theorem rank_le_total {T : List AppTask} {k : AppTask} (h : k ∈ T) : k.rank ≤ totalRank T := by
  induction T with
  | nil => exact (List.not_mem_nil h).elim
  | cons x T ih =>
    have e : totalRank (x :: T) = x.rank + totalRank T := by
      unfold totalRank; rw [List.map_cons, List.sum_cons]
    rw [e]
    rcases List.mem_cons.mp h with h | h
    · rw [h]; exact Nat.le_add_right ..
    · exact Nat.le_trans (ih h) (Nat.le_add_left ..)

theorem Nearer.total : ∀ {T T' : List AppTask}, Nearer T T' → totalRank T' ≤ totalRank T
  | [], T', h => by
    have : T' = [] := List.length_eq_zero_iff.mp h.1
    subst this; exact Nat.le_refl _
  | k :: T, [], h => by cases h.1
  | k :: T, k' :: T', h => by
    obtain ⟨k2, h1, h2⟩ := h.2 0 k rfl
    cases h1
    have ht : Nearer T T' := ⟨by simpa using h.1, fun n x hx => h.2 (n + 1) x hx⟩
    have := ht.total
    simp only [totalRank, List.map_cons, List.sum_cons] at this ⊢
    omega

theorem Nearer.total_lt : ∀ {T T' : List AppTask}, Nearer T T' → ∀ {n : Nat} {k k' : AppTask},
    T[n]? = some k → T'[n]? = some k' → k'.rank < k.rank → totalRank T' < totalRank T
  | [], _, _, n, _, _, hk, _, _ => by simp at hk
  | k :: T, [], h, _, _, _, _, _, _ => by cases h.1
  | x :: T, x' :: T', h, n, k, k', hk, hk', hlt => by
    obtain ⟨k2, h1, h2⟩ := h.2 0 x rfl
    cases h1
    have ht : Nearer T T' := ⟨by simpa using h.1, fun n x hx => h.2 (n + 1) x hx⟩
    cases n with
    | zero =>
      cases hk; cases hk'
      have := ht.total
      simp only [totalRank, List.map_cons, List.sum_cons] at this ⊢
      omega
    | succ n =>
      have := ht.total_lt (n := n) hk hk' hlt
      simp only [totalRank, List.map_cons, List.sum_cons] at this ⊢
      omega

theorem rank_settle (a : Nat → Api) (k : AppTask) : (k.settle a).rank ≤ k.rank := by
  rcases settle_cases a k with he | ⟨i, t, A, hpc, _, ⟨x, _, ⟨_, he⟩ | ⟨_, he⟩⟩ | ⟨e, _, he⟩⟩
  · rw [he]; exact Nat.le_refl _
  all_goals
    rw [he]
    unfold AppTask.rank
    rw [hpc]
    simp

theorem nearer_settle (s : AppSys) : Nearer s.tasks s.settle.tasks := by
  refine ⟨List.length_map .., fun n k hk => ⟨_, settle_get s n k hk, rank_settle _ _⟩⟩

theorem nearer_set {T : List AppTask} {n : Nat} {k k' : AppTask} (hk : T[n]? = some k)
    (hr : k'.rank ≤ k.rank) : Nearer T (T.set n k') := by
  refine ⟨List.length_set .., fun m x hx => ?_⟩
  by_cases hm : n = m
  · subst hm
    rw [hk] at hx; cases hx
    exact ⟨k', List.getElem?_set_self (List.getElem?_eq_some_iff.mp hk).1, hr⟩
  · exact ⟨x, by rw [List.getElem?_set_ne hm]; exact hx, Nat.le_refl _⟩

theorem nearer_apiStep (s : AppSys) (i : Nat) (e : Event) : Nearer s.tasks (s.apiStep i e).tasks :=
  nearer_settle { s with api := upd s.api i ((s.api i).step e) }

/-- Events of one API only. -/
theorem api_run (i : Nat) : ∀ (E : List Event) (s : AppSys),
    (s.run (E.map (AppEvent.api i))).api i = (s.api i).run E ∧
      Nearer s.tasks (s.run (E.map (AppEvent.api i))).tasks
  | [], s => ⟨rfl, Nearer.refl _⟩
  | e :: E, s => by
    have ih := api_run i E (s.apiStep i e)
    have h : (s.apiStep i e).api i = (s.api i).step e := by rw [apiStep_api, if_pos rfl]
    rw [h] at ih
    exact ⟨ih.1, (nearer_apiStep s i e).trans ih.2⟩

end Zcc
