import Verif.Spec.Connection

/-!
# The search for a port
-/

namespace Zcc.Conn

open Spec

theorem startsWith_iff (p text : List Char) : startsWith p text = true ↔ ∃ b, text = p ++ b := by
  induction p generalizing text with
  | nil => exact ⟨fun _ => ⟨text, rfl⟩, fun _ => rfl⟩
  | cons x p ih =>
    cases text with
    | nil => exact ⟨fun h => (by cases h), fun ⟨b, h⟩ => (by cases h)⟩
    | cons y text =>
      show (x == y && startsWith p text) = true ↔ _
      rw [Bool.and_eq_true, ih, beq_iff_eq]
      constructor
      · rintro ⟨rfl, b, rfl⟩
        exact ⟨b, rfl⟩
      · rintro ⟨b, h⟩
        cases h
        exact ⟨rfl, b, rfl⟩

theorem searchFor_iff (p text : List Char) : searchFor p text = true ↔ ∃ a b, text = a ++ p ++ b := by
  induction text with
  | nil =>
    show startsWith p [] = true ↔ _
    rw [startsWith_iff]
    constructor
    · rintro ⟨b, h⟩
      exact ⟨[], b, h⟩
    · rintro ⟨a, b, h⟩
      have h2 := List.append_eq_nil_iff.mp h.symm
      have h3 := List.append_eq_nil_iff.mp h2.1
      exact ⟨[], by rw [h3.2]; rfl⟩
  | cons y text ih =>
    show (startsWith p (y :: text) || searchFor p text) = true ↔ _
    rw [Bool.or_eq_true, startsWith_iff, ih]
    constructor
    · rintro (⟨b, h⟩ | ⟨a, b, rfl⟩)
      · exact ⟨[], b, h⟩
      · exact ⟨y :: a, b, rfl⟩
    · rintro ⟨a, b, h⟩
      cases a with
      | nil => exact .inl ⟨b, h⟩
      | cons z a =>
        cases h
        exact .inr ⟨a, b, rfl⟩

theorem regexp_iff (text : String) :
    regexp text = true ↔ Mentions text "0451:" ∨ Mentions text "1a86:7523" := by
  unfold regexp Mentions
  rw [Bool.or_eq_true, searchFor_iff, searchFor_iff]

theorem grep_mem {ports : List PortInfo} {p : PortInfo} : p ∈ grep ports ↔ p ∈ ports ∧ IsStick p := by
  unfold grep IsStick
  rw [List.mem_filter, Bool.or_eq_true, Bool.or_eq_true, regexp_iff, regexp_iff, regexp_iff]
  refine and_congr_right fun _ => ⟨?_, ?_⟩
  · rintro ((h | h) | h)
    · exact ⟨_, .head _, h⟩
    · exact ⟨_, .tail _ (.head _), h⟩
    · exact ⟨_, .tail _ (.tail _ (.head _)), h⟩
  · rintro ⟨text, ht, h⟩
    simp only [List.mem_cons, List.not_mem_nil, or_false] at ht
    rcases ht with rfl | rfl | rfl
    · exact .inl (.inl h)
    · exact .inl (.inr h)
    · exact .inr h

theorem filter_singleton {α : Type} (q : α → Bool) (xs : List α) (d : α) :
    xs.filter q = [d] ↔ ∃ a b, xs = a ++ d :: b ∧ q d = true ∧ ∀ p ∈ a ++ b, q p = false := by
  constructor
  · intro h
    induction xs with
    | nil => cases h
    | cons x xs ih =>
      by_cases hx : q x = true
      · rw [List.filter_cons_of_pos hx] at h
        obtain ⟨rfl, hn⟩ := List.cons.inj h
        refine ⟨[], xs, rfl, hx, fun p hp => ?_⟩
        have := List.filter_eq_nil_iff.mp hn p hp
        simpa using this
      · rw [List.filter_cons_of_neg hx] at h
        obtain ⟨a, b, h1, h2, h3⟩ := ih h
        refine ⟨x :: a, b, by rw [h1]; rfl, h2, fun p hp => ?_⟩
        rcases List.mem_cons.mp hp with rfl | hp
        · simpa using hx
        · exact h3 p hp
  · rintro ⟨a, b, rfl, h2, h3⟩
    have ha : a.filter q = [] := List.filter_eq_nil_iff.mpr fun p hp => by
      rw [h3 p (List.mem_append_left _ hp)]; exact nofun
    have hb : b.filter q = [] := List.filter_eq_nil_iff.mpr fun p hp => by
      rw [h3 p (List.mem_append_right _ hp)]; exact nofun
    rw [List.filter_append, ha, List.filter_cons_of_pos h2, hb]
    rfl

theorem not_stick {p : PortInfo} :
    (regexp p.device || regexp p.description || regexp p.hwid) = false ↔ ¬ IsStick p := by
  have : p ∈ grep [p] ↔ _ := grep_mem
  unfold grep at this
  rw [List.mem_filter] at this
  simp only [List.mem_singleton, true_and] at this
  rw [← this, Bool.not_eq_true]

end Zcc.Conn
