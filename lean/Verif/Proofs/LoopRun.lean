import Verif.Proofs.Loop

/-! # One attempt of the reconnect loop, event by event -/

namespace Zcc
open Spec

theorem raised_boot {b : Boot} {e : PyErr} (h : b.client.prog = .raise e) (x : BootEvent) :
    (b.step x).client.prog = .raise e := by
  cases x with
  | bytes c =>
    unfold Boot.step; dsimp only
    split <;> exact h
  | client x =>
    have hc : (b.client.step x).prog = .raise e := by
      cases x <;> unfold Client.step <;> try (rw [h]; exact h)
      · exact h
      · show b.client.runSpawned.prog = _
        unfold Client.runSpawned
        split
        · exact h
        · split <;> exact h
    rcases boot_client b x [] with ⟨hst, -, -⟩ | ⟨hst, -, -⟩
    · rw [hst]; exact h
    · rw [hst]; exact hc

theorem raised_boots {e : PyErr} (es : List BootEvent) : ∀ {b : Boot}, b.client.prog = .raise e →
    (b.run es).client.prog = .raise e := by
  induction es with
  | nil => intro b h; exact h
  | cons x es ih => intro b h; exact ih (raised_boot h x)

theorem ended_loop {l : Loop} {r : Except PyErr Unit} (h : l.pc = .ended r) (e : LoopEvent) :
    (l.step e).pc = .ended r := by
  cases e with
  | client x => rw [loop_client_of (by rw [h]; simp)]; exact h
  | _ => unfold Loop.step; simp only [h]

theorem ended_loops {r : Except PyErr Unit} (es : List LoopEvent) : ∀ {l : Loop}, l.pc = .ended r →
    (l.run es).pc = .ended r := by
  induction es with
  | nil => intro l h; exact h
  | cons e es ih => intro l h; exact ih (ended_loop h e)

/-- An attempt begins. -/
theorem begins (app : App) (o : Options) (pre : List LoopEvent) (d : Nat)
    (h : ((Loop.init app o).run (pre ++ [.wake none d])).begun =
      ((Loop.init app o).run pre).begun ++ [((Loop.init app o).run pre).now]) :
    ((Loop.init app o).run (pre ++ [.wake none d])).pc = .opening ∧
    ((Loop.init app o).run (pre ++ [.wake none d])).boot =
      (Boot.init ((Loop.init app o).run pre).boot.app o true).run [.client (.api (.tick d))] := by
  have ho := (loopInv_run app o pre).options
  rw [loop_snoc] at h ⊢
  generalize (Loop.init app o).run pre = l at *
  unfold Loop.step at h ⊢
  dsimp only at h ⊢
  rcases hp : l.pc with t | _ | t | _ | r <;> rw [hp] at h <;> dsimp only at h ⊢
  · by_cases ht : t ≤ l.now
    · rw [if_pos ht, ← ho]; exact ⟨rfl, rfl⟩
    · rw [if_neg ht] at h; simp at h
  all_goals simp at h

/-- While the port is opened. -/
theorem opening_run (es : List LoopEvent) : ∀ {l : Loop}, l.pc = .opening → .made ∉ es → .cancel ∉ es →
    (l.run es).pc = .opening ∧ (l.run es).boot = l.boot.run (es.filterMap whileOpening) ∧
    (l.run es).begun = l.begun := by
  induction es with
  | nil => intro l h _ _; exact ⟨h, rfl, rfl⟩
  | cons e es ih =>
    intro l h hm hc
    have go : ∀ l' : Loop, l.step e = l' → l'.pc = .opening →
        l'.boot.run (es.filterMap whileOpening) = l.boot.run ((e :: es).filterMap whileOpening) →
        l'.begun = l.begun → _ := fun l' h1 h2 h3 h4 => by
      obtain ⟨k1, k2, k3⟩ := ih h2 (fun h => hm (.tail _ h)) (fun h => hc (.tail _ h))
      have hrun : l.run (e :: es) = l'.run es := by rw [← h1]; rfl
      exact (⟨by rw [hrun]; exact k1, by rw [hrun, k2, h3], by rw [hrun, k3, h4]⟩ :
        (l.run (e :: es)).pc = .opening ∧ (l.run (e :: es)).boot = l.boot.run ((e :: es).filterMap whileOpening) ∧
        (l.run (e :: es)).begun = l.begun)
    cases e with
    | made => exact absurd (.head _) hm
    | cancel => exact absurd (.head _) hc
    | client x => exact go l (loop_client_of (by rw [h]; simp) x) h rfl rfl
    | tick ms =>
      exact go { l with now := l.now + ms, boot := l.boot.step (.client (.api (.tick ms))) }
        (by unfold Loop.step; rw [h]) h rfl rfl
    | bytes c => exact go { l with boot := l.boot.step (.bytes c) } (by unfold Loop.step; rw [h]) h rfl rfl
    | wake opens d => exact go l (by unfold Loop.step; rw [h]) h rfl rfl
    | settled => exact go l (by unfold Loop.step; rw [h]) h rfl rfl

/-- While the loop waits for a second. -/
theorem settling_run (es : List LoopEvent) : ∀ {l : Loop} {t : Nat}, l.pc = .settling t → .cancel ∉ es →
    (∀ a b, es = a ++ .settled :: b → l.now + ticksIn a < t) →
    (l.run es).pc = .settling t ∧ (l.run es).boot = l.boot.run (es.filterMap whileOpening) ∧
    (l.run es).begun = l.begun ∧ (l.run es).now = l.now + ticksIn es := by
  induction es with
  | nil => intro l t h _ _; exact ⟨h, rfl, rfl, rfl⟩
  | cons e es ih =>
    intro l t h hc hs
    have hticks : ticksIn (e :: es) = ticksIn [e] + ticksIn es := ticksIn_append [e] es
    have go : ∀ l' : Loop, l.step e = l' → l'.pc = .settling t →
        l'.boot.run (es.filterMap whileOpening) = l.boot.run ((e :: es).filterMap whileOpening) →
        l'.begun = l.begun → l'.now = l.now + ticksIn [e] →
        (l.run (e :: es)).pc = .settling t ∧
        (l.run (e :: es)).boot = l.boot.run ((e :: es).filterMap whileOpening) ∧
        (l.run (e :: es)).begun = l.begun ∧ (l.run (e :: es)).now = l.now + ticksIn (e :: es) := by
      intro l' h1 h2 h3 h4 h5
      obtain ⟨k1, k2, k3, k4⟩ := ih h2 (fun h => hc (.tail _ h)) (by
        intro a b hab
        have := hs (e :: a) b (by rw [hab]; rfl)
        have ht : ticksIn (e :: a) = ticksIn [e] + ticksIn a := ticksIn_append [e] a
        omega)
      have hrun : l.run (e :: es) = l'.run es := by rw [← h1]; rfl
      rw [hrun]
      exact ⟨k1, by rw [k2, h3], by rw [k3, h4], by rw [k4, h5, hticks, Nat.add_assoc]⟩
    cases e with
    | made => exact go l (by unfold Loop.step; rw [h]) h rfl rfl rfl
    | cancel => exact absurd (.head _) hc
    | client x => exact go l (loop_client_of (by rw [h]; simp) x) h rfl rfl rfl
    | tick ms =>
      exact go { l with now := l.now + ms, boot := l.boot.step (.client (.api (.tick ms))) }
        (by unfold Loop.step; rw [h]) h rfl rfl rfl
    | bytes c => exact go { l with boot := l.boot.step (.bytes c) } (by unfold Loop.step; rw [h]) h rfl rfl rfl
    | wake opens d => exact go l (by unfold Loop.step; rw [h]) h rfl rfl rfl
    | settled =>
      have := hs [] es rfl
      have : l.now < t := this
      exact go l (by unfold Loop.step; rw [h]; dsimp only; rw [if_neg (by omega)]) h rfl rfl rfl

/-- While start-up talks to the radio, or after that. -/
def Talking (l : Loop) (es : List LoopEvent) : Prop :=
  (l.run es).pc = .ended (.ok ()) ∨ (l.run es).pc = .started ∧ (l.run es).begun = l.begun ∨
  ∃ a b e, es = a ++ b ∧ (l.boot.run (a.filterMap whileStarted)).client.prog = .raise e

theorem talking_run (es : List LoopEvent) : ∀ {l : Loop}, l.pc = .started → Talking l es := by
  induction es with
  | nil => intro l h; exact .inr (.inl ⟨h, rfl⟩)
  | cons e es ih =>
    intro l h
    have go : ∀ l' : Loop, l.step e = l' → l'.pc = .started → l'.begun = l.begun →
        (∀ a, l'.boot.run (a.filterMap whileStarted) = l.boot.run ((e :: a).filterMap whileStarted)) →
        Talking l (e :: es) := by
      intro l' h1 h2 h3 h4
      have hrun : l.run (e :: es) = l'.run es := by rw [← h1]; rfl
      unfold Talking
      rw [hrun]
      rcases ih h2 with k | ⟨k1, k2⟩ | ⟨a, b, x, k1, k2⟩
      · exact .inl k
      · exact .inr (.inl ⟨k1, k2.trans h3⟩)
      · exact .inr (.inr ⟨e :: a, b, x, by rw [k1]; rfl, by rw [← h4]; exact k2⟩)
    cases e with
    | made => exact go l (by unfold Loop.step; rw [h]) h rfl fun _ => rfl
    | cancel => exact go l (by unfold Loop.step; rw [h]) h rfl fun _ => rfl
    | tick ms =>
      exact go { l with now := l.now + ms, boot := l.boot.step (.client (.api (.tick ms))) }
        (by unfold Loop.step; rw [h]) h rfl fun _ => rfl
    | bytes c => exact go { l with boot := l.boot.step (.bytes c) } (by unfold Loop.step; rw [h]) h rfl fun _ => rfl
    | wake opens d => exact go l (by unfold Loop.step; rw [h]) h rfl fun _ => rfl
    | settled => exact go l (by unfold Loop.step; rw [h]) h rfl fun _ => rfl
    | client x =>
      rcases loop_client' h x with ⟨hs, hx⟩ | ⟨hs, hx⟩
      · refine go l hs h rfl fun a => ?_
        rw [List.filterMap_cons, hx]
      · rcases hp : (l.boot.step (.client x)).client.prog with u | e | ⟨op, k⟩
        · left
          refine ended_loops es ?_
          rw [hs]
          unfold Loop.after
          rw [hp]
        · right; right
          refine ⟨[.client x], es, e, rfl, ?_⟩
          rw [List.filterMap_cons, hx]
          exact hp
        · refine go { l with boot := l.boot.step (.client x) } ?_ h rfl fun a => ?_
          · rw [hs]
            unfold Loop.after
            rw [hp]
          · rw [List.filterMap_cons, hx]; rfl

/-- An attempt: it is going on, or has returned, or has raised. -/
theorem attempt_run {l : Loop} (h : l.pc = .opening) {es opening settling talking : List LoopEvent}
    (hph : Phases es opening settling talking) (hc : .cancel ∉ es) :
    (l.run es).pc = .ended (.ok ()) ∨ (l.run es).pc = .started ∧ (l.run es).begun = l.begun ∨
    ∃ a b e, talking = a ++ b ∧
      (l.boot.run ((opening ++ .made :: settling).filterMap whileOpening ++ [.client (.api (.setUart true))] ++
        .client (.connected (.ok ())) :: a.filterMap whileStarted)).client.prog = .raise e := by
  obtain ⟨rfl, h1, h2, h3⟩ := hph
  rw [loop_append, loop_append]
  obtain ⟨a1, a2, a3⟩ := opening_run opening h h1 (fun hm => hc (by simp [hm]))
  have hm : ((l.run opening).step .made) = { l.run opening with pc := .settling ((l.run opening).now + 1000) } := by
    unfold Loop.step; rw [a1]
  have hmade : (l.run opening).run (.made :: settling) = ((l.run opening).step .made).run settling := rfl
  obtain ⟨b1, b2, b3, b4⟩ := settling_run settling (l := (l.run opening).step .made)
    (t := (l.run opening).now + 1000) (by rw [hm]) (fun hm => hc (by simp [hm])) (by
      intro a b hab
      have := h3 a b hab
      rw [hm]
      show (l.run opening).now + _ < _
      omega)
  rw [hmade]
  have m1 : ((l.run opening).step .made).boot = (l.run opening).boot := by rw [hm]
  have m2 : ((l.run opening).step .made).begun = (l.run opening).begun := by rw [hm]
  have m3 : ((l.run opening).step .made).now = (l.run opening).now := by rw [hm]
  rw [m1] at b2
  rw [m2] at b3
  rw [m3] at b4
  generalize Loop.run (Loop.step _ .made) settling = l2 at *
  have hst : l2.step .settled = { l2 with pc := .started }.after
      ((l2.boot.step (.client (.api (.setUart true)))).step (.client (.connected (.ok ())))) := by
    unfold Loop.step; rw [b1]; dsimp only
    rw [if_pos (by omega)]
  have hboot : (l2.boot.step (.client (.api (.setUart true)))).step (.client (.connected (.ok ()))) =
      l.boot.run ((opening ++ .made :: settling).filterMap whileOpening ++ [.client (.api (.setUart true))] ++
        [.client (.connected (.ok ()))]) := by
    rw [boot_snoc, boot_snoc, List.filterMap_append, boot_append, b2, a2]
    rfl
  have hall : ∀ a : List LoopEvent, l.boot.run ((opening ++ .made :: settling).filterMap whileOpening ++
        [.client (.api (.setUart true))] ++ .client (.connected (.ok ())) :: a.filterMap whileStarted) =
      ((l2.boot.step (.client (.api (.setUart true)))).step (.client (.connected (.ok ())))).run
        (a.filterMap whileStarted) := by
    intro a
    rw [hboot, ← boot_append]
    simp
  simp only [hall]
  show (((l2.step .settled).run talking).pc = _) ∨ _
  show _ ∨ (((l2.step .settled).run talking).pc = _ ∧ ((l2.step .settled).run talking).begun = _) ∨ _
  rw [hst]
  generalize (l2.boot.step (.client (.api (.setUart true)))).step (.client (.connected (.ok ()))) = b at *
  rcases hp : b.client.prog with u | e | ⟨op, k⟩
  · left
    refine ended_loops talking ?_
    unfold Loop.after
    rw [hp]
  · exact .inr (.inr ⟨[], talking, e, rfl, hp⟩)
  · have : ({ l2 with pc := .started } : Loop).after b = { l2 with pc := .started, boot := b } := by
      unfold Loop.after
      rw [hp]
    rw [this]
    rcases talking_run talking (l := { l2 with pc := .started, boot := b }) rfl with k | ⟨k1, k2⟩ | k
    · exact .inl k
    · exact .inr (.inl ⟨k1, k2.trans (b3.trans a3)⟩)
    · exact .inr (.inr k)

end Zcc
