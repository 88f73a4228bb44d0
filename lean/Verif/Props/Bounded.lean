import Verif.Proofs.Bounded
import Verif.Props.Runtime

/-!
# C66: every call ends, and when

`Spec.limit o` is the time limit of a call, `Spec.limitsAhead` the sum of the limits of the calls
that are ahead of a call in the queue, and of its own, `Spec.KeepsUp` says that the event loop does
what can be done before time passes.
-/

namespace Zcc
open Spec

/-- A call that was submitted and has not ended. -/
theorem open_task {es : List Event} {t : Nat} {o : Obj} {w : Option Nat} {e : Option (List Int)}
    (hs : .submitted t o w e ∈ (Api.init.run es).log)
    (hf : ∀ r, .finished t r ∉ (Api.init.run es).log) :
    ∃ k, (Api.init.run es).tasks t = some k ∧ ∀ r, k.pc ≠ .done r := by
  obtain ⟨k, hk, _⟩ := ((inv_run es).log.subIff t o w e).mp hs
  exact ⟨k, hk, fun r hp => hf r (((inv_run es).log.fin t r).mpr ⟨k, hk, hp⟩)⟩

theorem within_run {D t : Nat} {o : Obj} {w : Option Nat} {x : Option (List Int)} (es2 : List Event) :
    ∀ es1 : List Event, KeepsUp es1 es2 → .submitted t o w x ∈ (Api.init.run es1).log →
    Within D t (Api.init.run es1) → (∀ r, .finished t r ∉ (Api.init.run (es1 ++ es2)).log) →
    Within D t (Api.init.run (es1 ++ es2)) := by
  induction es2 with
  | nil => intro es1 _ _ hw _; rw [List.append_nil]; exact hw
  | cons e es2 ih =>
    intro es1 hk hs hw hf
    have hsplit : es1 ++ e :: es2 = (es1 ++ [e]) ++ es2 := by simp
    have hlog : (Api.init.run es1).log <+: (Api.init.run (es1 ++ e :: es2)).log := by
      rw [Zcc.run_append]; exact (grows_run _ _).log
    have hs' : .submitted t o w x ∈ (Api.init.run (es1 ++ [e])).log := by
      rw [Zcc.run_append]; exact (grows_run _ _).log.subset hs
    rw [hsplit] at hf ⊢
    refine ih (es1 ++ [e]) ?_ hs' ?_ hf
    · intro a ms b h
      have := hk (e :: a) ms b (by rw [h]; rfl)
      rwa [show es1 ++ e :: a = (es1 ++ [e]) ++ a by simp] at this
    · rw [Zcc.run_snoc]
      refine hw.step (Zcc.inv_run es1) (settled_run settled_init es1) e
        (open_task hs fun r h => hf r (hsplit ▸ hlog.subset h)) ?_
      intro ms he
      have := hk [] ms es2 (by rw [he]; rfl)
      rw [List.append_nil] at this
      exact ⟨this.1, fun h k w d a b => (this.2 h k w d a b).2⟩

/-- C66: if the event loop keeps up, a call ends before the time limits of the calls ahead of it and
its own have passed: at any moment after that it has ended. Nothing is assumed about what the NCP
does, about other calls, cancellations, or the port. -/
theorem c66_bounded (es1 es2 : List Event) (t : Nat) (o : Obj) (w : Option Nat)
    (e : Option (List Int)) (hs : .submitted t o w e ∈ (Api.init.run es1).log)
    (hk : KeepsUp es1 es2)
    (hn : (Api.init.run es1).now + limitsAhead t (Api.init.run es1).log <
      (Api.init.run (es1 ++ es2)).now) :
    ∃ r, .finished t r ∈ (Api.init.run (es1 ++ es2)).log := by
  refine Classical.byContradiction fun hc => ?_
  have hf : ∀ r, .finished t r ∉ (Api.init.run (es1 ++ es2)).log := fun r h => hc ⟨r, h⟩
  have hlog : (Api.init.run es1).log <+: (Api.init.run (es1 ++ es2)).log := by
    rw [Zcc.run_append]; exact (grows_run _ _).log
  have h0 := within_start (t := t) (Zcc.inv_run es1) (deadline_run es1 Api.init (by
    intro t k w d h; simp [Api.init] at h)) (open_task hs fun r h => hf r (hlog.subset h))
  obtain ⟨b, _, h2, h3⟩ := within_run es2 es1 hk hs h0 hf
  omega

/-- What `KeepsUp` asks for before one `tick`, as a program. -/
def promptly (s : Api) (ms : Nat) : Bool :=
  match s.holder with
  | none => s.queue.isEmpty
  | some h =>
    match s.tasks h with
    | some k =>
      match k.pc with
      | .waiting w d => (match s.fut w with | .pending => true | _ => false) && decide (s.now + ms ≤ d)
      | _ => true
    | none => true

def promptAt (s : Api) : Event → Bool
  | .tick ms => promptly s ms
  | _ => true

def keepsUpCheck (s : Api) : List Event → Bool
  | [] => true
  | e :: es => promptAt s e && keepsUpCheck (s.step e) es

theorem promptly_sound {s : Api} (i : Inv s) {ms : Nat} (h : promptly s ms = true) :
    (s.holder = none → s.queue = []) ∧
    ∀ t k w d, s.tasks t = some k → k.pc = .waiting w d → s.fut w = .pending ∧ s.now + ms ≤ d := by
  unfold promptly at h
  refine ⟨fun hh => ?_, fun t k w d hk hp => ?_⟩
  · rw [hh] at h
    simpa using h
  · have := (i.lock.hIff t).mpr ⟨k, hk, by rw [hp]; trivial⟩
    rw [this] at h
    dsimp only at h
    rw [hk] at h
    dsimp only at h
    rw [hp] at h
    dsimp only at h
    rw [Bool.and_eq_true, decide_eq_true_eq] at h
    refine ⟨?_, h.2⟩
    rcases hf : s.fut w with _ | _ | _
    · rfl
    all_goals rw [hf] at h; simp at h

theorem keepsUp_of (es2 : List Event) : ∀ es1, keepsUpCheck (Api.init.run es1) es2 = true →
    KeepsUp es1 es2 := by
  induction es2 with
  | nil => intro es1 _ a ms b h; simp at h
  | cons e es2 ih =>
    intro es1 h a ms b he
    rw [keepsUpCheck, Bool.and_eq_true] at h
    rcases a with _ | ⟨x, a⟩
    · simp only [List.nil_append, List.cons.injEq] at he
      rw [List.append_nil]
      refine promptly_sound (Zcc.inv_run es1) ?_
      have := h.1
      rw [he.1] at this
      exact this
    · simp only [List.cons_append, List.cons.injEq] at he
      have h2 := ih (es1 ++ [e]) (by rw [Zcc.run_snoc]; exact h.2) a ms b he.2
      rw [← he.1]
      rwa [show (es1 ++ [e]) ++ a = es1 ++ e :: a by simp] at h2

/-- Two version requests, the NCP is silent: each is given up after 6 s, and at the first moment after
12 s both have ended. -/
def exSilent : List Event :=
  [.tick 6000, .timeout 0, .grant, .tick 6000, .timeout 1, .tick 1]

example : ∃ r, .finished 1 r ∈ (Api.init.run
    ([.setUart true, .submit exVersion none none, .submit exVersion none none] ++ exSilent)).log :=
  c66_bounded _ exSilent 1 exVersion none none (by decide +kernel)
    (keepsUp_of _ _ (by decide +kernel)) (by decide +kernel)

/-- The bound is reached: after 12 s, not later, the second call is still waiting. -/
example : limitsAhead 1 (Api.init.run
      [.setUart true, .submit exVersion none none, .submit exVersion none none]).log = 12000 ∧
    (Api.init.run ([.setUart true, .submit exVersion none none, .submit exVersion none none] ++
      exSilent.take 4)).now = 12000 ∧
    ∀ r, .finished 1 r ∉ (Api.init.run
      ([.setUart true, .submit exVersion none none, .submit exVersion none none] ++
        exSilent.take 4)).log := by
  refine ⟨by decide +kernel, by decide +kernel, openIn_iff.mp (by decide +kernel)⟩

end Zcc
