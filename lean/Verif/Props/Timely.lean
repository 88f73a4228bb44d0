import Verif.Props.Runtime
import Verif.Proofs.Timely

/-!
# Time limits: C22, C23 (further), C54
-/

namespace Zcc
open Spec

/-- **C22.** A waiter whose owner gave up (time limit or cancellation) never gets a result. -/
theorem c22_given_up (es es' : List Event) (w : Nat) (h : (Api.init.run es).fut w = .cancelled)
    (o : Obj) : .resolved w o ∉ (Api.init.run (es ++ es')).log := by
  intro hm
  have h1 := ((inv_run (es ++ es')).wait.resIff w o).mp hm
  rw [run_append] at h1
  have h2 := futStay_run es' (Api.init.run es) w (by rw [h]; simp)
  rw [h2, h] at h1; simp at h1

example : (Api.init.run [.setUart true, .submit exVersion none none, .tick 6000,
    .timeout 0]).fut 0 = .cancelled := by decide +kernel

/-- **C23**, the other direction: nobody takes a waiter away early. Until its timeout plus 0.1 s
has passed, a waiter that was not resolved and whose owner did not give up is in the table. -/
theorem c23_stays (es : List Event) (x : Waiter) (time : Nat)
    (hr : .registered x time ∈ (Api.init.run es).log)
    (hf : (Api.init.run es).fut x.id = .pending)
    (ht : (Api.init.run es).now < time + x.timeout + 100) : x ∈ (Api.init.run es).waiters := by
  rcases (timed_run es Api.init (inv_run []) timed_init).kept x time hr hf with h | h
  · exact h
  · omega

/-- **C54.** The time limit of a written request that waits starts when the request is written
(its waiter is registered at that moment). It is 6 s for a synchronous request, 20 s for the two
commands that form a network, 30 s for a reset. -/
theorem c54_limit (es : List Event) (t w d : Nat) (k : Task)
    (hk : (Api.init.run es).tasks t = some k) (hpc : k.pc = .waiting w d) :
    ∃ x time b, [Entry.registered x time, .sent t b] <:+: (Api.init.run es).log ∧ x.id = w ∧
      d = time + (if k.obj.commandType = .AREQ then 30000 else
        if k.obj.command = "bdbStartCommissioning" ∨ k.obj.command = "startupFromApp" then 20000
        else 6000) := by
  obtain ⟨x, time, _, h2, h3, h4, b, h5⟩ := callTimes_run es _ callTimes_init t k w d hk hpc
  refine ⟨x, time, b, h5, h2, ?_⟩
  rw [h4]
  unfold ownWaiter at h3
  split at h3
  · rename_i hs
    rw [if_neg (by rw [hs]; decide)]
    simp only [Option.some.injEq, Prod.mk.injEq] at h3
    rw [← h3.2]; rfl
  · split at h3
    · rename_i ha
      simp only [Option.some.injEq, Prod.mk.injEq] at h3
      rw [if_pos ha.1, ← h3.2]; rfl
    · simp at h3

example : (Api.init.run [.setUart true, .tick 50, .submit exVersion none none]).tasks 0 =
    some ⟨exVersion, none, none, .waiting 0 6050⟩ := by decide +kernel

/-- **C54.** Nobody times out before the limit, and nobody who got a response times out. -/
theorem c54_not_early (es : List Event) (e : Event) (t : Nat)
    (hn : ∀ r, .finished t r ∉ (Api.init.run es).log)
    (hf : .finished t (.error .timeoutError) ∈ (Api.init.run (es ++ [e])).log) :
    ∃ k w d, (Api.init.run es).tasks t = some k ∧ k.pc = .waiting w d ∧
      d ≤ (Api.init.run es).now ∧ ∀ o, .resolved w o ∉ (Api.init.run es).log := by
  have i := inv_run es
  have i' := inv_run (es ++ [e])
  obtain ⟨k', hk', hpc'⟩ := (i'.log.fin t _).mp hf
  rw [run_snoc] at hk'
  rcases timedOut_step hk' hpc' with h | ⟨k, w, d, h1, h2, h3, h4, _⟩
  · exact absurd ((i.log.fin t _).mpr ⟨k', h, hpc'⟩) (hn _)
  · refine ⟨k, w, d, h1, h2, h4, fun o ho => ?_⟩
    have := (i.wait.resIff w o).mp ho
    rw [h3] at this; simp at this

example : Entry.finished 0 (.error .timeoutError) ∈ (Api.init.run ([.setUart true,
    .submit exVersion none none, .tick 6000] ++ [.timeout 0])).log := by decide +kernel

/-- One millisecond before the limit nothing happens. -/
example : (Api.init.run ([.setUart true, .submit exVersion none none, .tick 5999] ++
    [.timeout 0])).log.filterMap Entry.finId = [] := by decide +kernel

/-- Waiters with a transaction number wait for ZDO responses only, and no waiter asks for a field
that a message of its kind lacks. -/
theorem waiters_plain (es : List Event)
    (hreg : ∀ m to q, .register m to q ∈ es → StartupMatcher m ∧ q = none) :
    RegsSat (fun m q => (∀ f r, Obj.fromUnpiFrame f = .ok r → Comparable m r) ∧
      (q ≠ none → m.commandType = .AREQ ∧ m.subsystem = .ZDO)) (Api.init.run es).log := by
  refine regsSat_run (fun o m to h => ⟨fun f r _ => own_comparable h r, fun h => absurd rfl h⟩)
    (fun o q m q' h => ⟨fun f r hr => response_comparable h hr, fun hq => by
      rcases responseWaiter_some h with ⟨v, rfl, h', _⟩ | ⟨v, rfl, _⟩
      · exact absurd h' hq
      · exact ⟨rfl, rfl⟩⟩) es Api.init (fun x t h => by simp [Api.init] at h) ?_
  intro e he m to q heq
  subst heq
  obtain ⟨h1, h2⟩ := hreg m to q he
  exact ⟨fun f r hr => startup_comparable h1 hr, fun h => absurd h2 h⟩

/-- **C54.** A response that comes in time is not lost: if the message a written request waits for
arrives before its time limit (plus 0.1 s) is over, the request does not end with a timeout. Waiters
are registered only through requests, `create_response_waiter` and the startup code. -/
theorem c54_in_time (es es' : List Event) (f : Frame) (o : Obj) (t w d : Nat) (k : Task)
    (hreg : ∀ m to q, .register m to q ∈ es → StartupMatcher m ∧ q = none)
    (hk : (Api.init.run es).tasks t = some k) (hpc : k.pc = .waiting w d)
    (hnow : (Api.init.run es).now < d + 100)
    (hd : Obj.fromUnpiFrame f = .ok o) (ho : AwaitedBy k.obj o) :
    .finished t (.error .timeoutError) ∉ (Api.init.run (es ++ [.frame f] ++ es')).log := by
  have i := inv_run es
  have i1 := inv_run (es ++ [.frame f])
  have i2 := inv_run (es ++ [.frame f] ++ es')
  have hk1 : (Api.init.run (es ++ [.frame f])).tasks t = some k := by
    rw [run_snoc, Api.step, (dataReceived_fields _ f).1]; exact hk
  obtain ⟨x, time, hx, hxw, how, hdd, _⟩ := callTimes_run es _ callTimes_init t k w d hk hpc
  have hans : Answers x.matcher o := by
    unfold ownWaiter at how
    split at how
    · rename_i hs
      simp only [Option.some.injEq, Prod.mk.injEq] at how
      rw [← how.1]
      rcases ho with ⟨_, h⟩ | ⟨h, _⟩
      · exact ⟨h.1.symm, h.2.1.symm, h.2.2.symm, by simp⟩
      · rw [hs] at h; simp at h
    · rename_i hs
      split at how
      · simp only [Option.some.injEq, Prod.mk.injEq] at how
        rw [← how.1]
        rcases ho with ⟨h, _⟩ | ⟨_, h⟩
        · exact absurd h hs
        · exact ⟨h.1.symm, h.2.1.symm, h.2.2.symm, by simp⟩
      · simp at how
  have hs := waiters_plain es hreg
  have hfut : ∃ o', (Api.init.run (es ++ [.frame f])).fut w = .result o' := by
    rcases hfw : (Api.init.run es).fut w with _ | o' | _
    · have hin := c23_stays es x time hx (by rw [hxw]; exact hfw) (by omega)
      refine ⟨o, ?_⟩
      have hreach := matchLoop_reaches o (Api.init.run es).waiters
        { Api.init.run es with log := (Api.init.run es).log ++ [.received f o] }
        (fun y hy => by
          obtain ⟨time, h, _⟩ := i.wait.regW y hy
          exact (hs y time h).1 f o hd)
        (fun y hy ha => by
          obtain ⟨time, h, _⟩ := i.wait.regW y hy
          apply Decidable.byContradiction
          intro hq
          have hz := (hs y time h).2 hq
          rcases ho with ⟨_, h⟩ | ⟨_, _, h, _⟩
          · have := ha.1; rw [hz.1, h.1] at this; exact absurd this (by simp)
          · have := ha.2.1; rw [hz.2, h] at this; exact absurd this (by simp))
        x hin hans (by rw [hxw]; exact hfw)
      rw [run_snoc, Api.step]
      unfold Api.dataReceived
      rw [hd]
      dsimp only
      rw [hxw] at hreach
      split
      · rename_i heq; rw [heq] at hreach; exact hreach
      · rename_i heq; rw [heq] at hreach; exact hreach
    · refine ⟨o', ?_⟩
      rw [run_snoc]; exact (grows_step _ _).fut w o' hfw
    · exact absurd hfw (i.resp.live t k w d hk hpc).2.2.1
  obtain ⟨o', hfut⟩ := hfut
  intro hm
  obtain ⟨k', h1, h2⟩ := (i2.log.fin t _).mp hm
  rw [run_append] at h1
  exact no_timeout_run es' _ i1 t k w d o' hk1 hpc hfut k' h1 h2

/-- The response arrives a millisecond before the waiter's timer: the call has not even
noticed that its limit is over, and returns the response. -/
example : (Api.init.run [.setUart true, .submit exVersion none none, .tick 6099]).tasks 0 =
      some ⟨exVersion, none, none, .waiting 0 6000⟩ ∧
    (Api.init.run [.setUart true, .submit exVersion none none, .tick 6099]).now < 6000 + 100 ∧
    (∃ o, Obj.fromUnpiFrame exVersionRsp = .ok o ∧ AwaitedBy exVersion o) := by
  refine ⟨by decide +kernel, by decide +kernel, ?_⟩
  refine ⟨{ commandType := .SRSP, subsystem := .SYS, command := "version", commandId := 2,
            payload := [("transportrev", .int 2), ("product", .int 1), ("majorrel", .int 2),
              ("minorrel", .int 7), ("maintrel", .int 1), ("revision", .int 0)],
            parameters := [("transportrev", .UINT8), ("product", .UINT8), ("majorrel", .UINT8),
              ("minorrel", .UINT8), ("maintrel", .UINT8), ("revision", .UINT32)] }, ?_, ?_⟩
  · decide +kernel
  · exact .inl ⟨rfl, rfl, rfl, rfl⟩

end Zcc
