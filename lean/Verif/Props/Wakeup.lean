import Verif.Proofs.ConnectionWake
import Verif.Props.Reconnect

/-!
# The wake-up byte: C63

`run c evs` is the state after the events `evs`; times are in milliseconds.
-/

namespace Zcc

open Spec Conn

/-- A connection that `connect` has returned for (closed since or not) has had its wake-up byte, when
its port was open, and at least one second passed since. -/
theorem c63_wakeup (c : Config) (evs : List Ev) (l : Nat)
    (h : ((run c evs).links l).uart = true ∨ Note.closed l ∈ (run c evs).log) : Woken c evs l := by
  obtain ⟨τ, ⟨a, t, b, h1, h2, h3⟩, h4⟩ := (wakeInv c evs).known l h
  refine ⟨a, .write t, b, h1, h2, ?_, by rw [h3]; exact h4⟩
  have hi := Conn.inv_run c a
  have hs := wake_step c (run c a) (.write t)
  rw [← Conn.run_snoc c a (.write t)] at hs
  cases hs with
  | asleep hq =>
    have := hq.woken
    rw [h2, woken_append] at this
    have := congrArg List.length this
    rw [List.length_append] at this
    exact absurd this (Nat.ne_of_gt (Nat.lt_add_of_pos_right (Nat.zero_lt_one)))
  | write t' l' hev hl hp hh =>
    have hlog : (run c (a ++ [.write t])).log = (run c a).log ++ [.wakeup l'] := by rw [hh]; rfl
    have he := List.append_cancel_left (h2.symm.trans hlog)
    cases he
    have ht := (hi.task t').2
    rw [hp] at ht
    obtain ⟨l'', k1, -, -, k2, -⟩ := ht
    rw [hl] at k1
    cases k1
    exact (hi.link l).opened k2
  | settled t' l' u hev => cases hev

/-- Never more than one wake-up byte for a connection. -/
theorem c63_once (c : Config) (evs : List Ev) (l : Nat) : (run c evs).log.count (.wakeup l) ≤ 1 := by
  rw [← woken_count]
  exact (wakeInv c evs).once l

/-- While a task waits for the radio to answer a command, its port has had the wake-up byte, once, and
at least one second passed since. -/
theorem c63_before_use (c : Config) (evs : List Ev) (t : Nat) (h : ((run c evs).tasks t).pc = .running) :
    ∃ l, ((run c evs).tasks t).link = some l ∧ Woken c evs l ∧ (run c evs).log.count (.wakeup l) = 1 := by
  have ht := ((Conn.inv_run c evs).task t).2
  rw [h] at ht
  obtain ⟨l, h1, h2, -⟩ := ht
  have hw := c63_wakeup c evs l h2
  refine ⟨l, h1, hw, Nat.le_antisymm (c63_once c evs l) (List.count_pos_iff.mpr ?_)⟩
  obtain ⟨a, ev, b, hab, hlog, -, -⟩ := hw
  have := run_log c (a ++ [ev]) b
  rw [List.append_assoc, List.singleton_append, ← hab, hlog] at this
  exact this.subset (List.mem_append_right _ (List.mem_singleton_self _))

example : ((run exampleConfig connected).tasks 0).pc = .running ∧ ((run exampleConfig connected).links 0).uart = true :=
  ⟨rfl, rfl⟩

end Zcc
