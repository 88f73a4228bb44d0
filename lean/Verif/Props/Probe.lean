import Verif.Proofs.Probe

/-!
# C88: a probe over the serial port

API.probe with the bytes of its port: what it writes, when it returns True, and how else it ends.
-/

namespace Zcc

open Spec

/-- C88: a probe writes the wake-up byte and the request of the version, and nothing else. -/
theorem c88_writes (es : List ProbeEvent) :
    probeOutput (Probe.run es) = [] ∨ probeOutput (Probe.run es) = [0xEF] ∨
    probeOutput (Probe.run es) = 0xEF :: versionBytes := by
  rcases (probe_inv es).sent with h | ⟨h, hw⟩
  · rw [output_eq, h]
    cases (Probe.run es).woken with
    | false => exact .inl rfl
    | true => exact .inr (.inl rfl)
  · rw [output_eq, h, hw]
    exact .inr (.inr rfl)

/-- C88: the request follows the wake-up byte after at least a second. -/
theorem c88_pause (es : List ProbeEvent) (h : probeOutput (Probe.run es) = 0xEF :: versionBytes) :
    ∃ a b, es = a ++ .made :: b ∧ probeOutput (Probe.run a) = [] ∧ probeOutput (Probe.run (a ++ [.made])) = [0xEF] ∧
      (Probe.run a).client.api.now + 1000 ≤ (Probe.run es).client.api.now := by
  obtain ⟨h1, h2⟩ := (sent_output (probe_inv es)).mp h
  obtain ⟨a, b, k1, k2, k3, -, k5⟩ := probe_pause es h1
  exact ⟨a, b, k1, k2, k3, k5 (.inr h2)⟩

/-- C88: it writes to an open port. -/
theorem c88_port (es : List ProbeEvent) (ev : ProbeEvent)
    (h : probeOutput (Probe.run (es ++ [ev])) ≠ probeOutput (Probe.run es)) :
    (Probe.run es).port = true ∧ (Probe.run (es ++ [ev])).port = true := by
  have hi := probe_inv es
  have hi' := probe_inv (es ++ [ev])
  obtain ⟨_, ht⟩ := probe_trace es
  rw [probeRun_snoc] at h hi' ⊢
  rcases step_woken (Probe.run es) ev with hw | ⟨rfl, hpc, -, -⟩
  · have hs : sentIn ((Probe.run es).step ev).client.api.log ≠ sentIn (Probe.run es).client.api.log := by
      intro hs
      rw [output_eq, output_eq, hw, hs] at h
      exact h rfl
    have hb : ∀ c, ev ≠ .bytes c := by
      rintro c rfl
      exact hs (bytes_step hi ht.buf c).2.2.2.2.1.2
    rcases (quiet_step hi ev hb).wrote with hx | hx
    · exact absurd hx hs
    · refine ⟨?_, ?_⟩
      · rcases step_asking hx.1 with ha | ⟨t, ha, -⟩
        · unfold PInv at hi
          rw [ha] at hi
          exact hi.2.2.1
        · unfold PInv at hi
          rw [ha] at hi
          exact hi.2.2.2.1
      · unfold PInv at hi'
        rw [hx.1] at hi'
        exact hi'.2.2.1
  · have hp : (Probe.run es).port = true := by
      unfold PInv at hi
      rw [hpc] at hi
      exact hi.2.2.2.1
    refine ⟨hp, ?_⟩
    generalize Probe.run es = p at *
    obtain ⟨client, buffer, pc, port, woken, raised⟩ := p
    have hpc : pc = .opening := hpc
    subst hpc
    exact hp

/-- C88: it returns True only if the answer of the radio was received after the request was written. -/
theorem c88_true (es : List ProbeEvent) (h : (Probe.run es).pc = .ended (.returned true)) :
    ∃ a b hA hB, es = a ++ b ∧ PrefixEach hA (probeChunks a) ∧ PrefixEach hB (probeChunks b) ∧
      probeOutput (Probe.run a) = 0xEF :: versionBytes ∧
      ∃ f, Fits f ∧ VersionAnswer f ∧ EndsAfter hA.flatten.length (hA ++ hB).flatten f := by
  obtain ⟨heard, ht⟩ := probe_trace es
  obtain ⟨a, b, hA, hB, h1, h2, h3, h4, h5, h6⟩ := ht.returned h
  exact ⟨a, b, hA, hB, h1, h3, h4, h5, h2 ▸ h6 trivial⟩

/-- C88: and within its time limit. -/
theorem c88_in_time (es : List ProbeEvent) (hp : ProbePunctual es)
    (h : (Probe.run es).pc = .ended (.returned true)) :
    ∃ a ev b, es = a ++ ev :: b ∧ (∀ o, (Probe.run a).pc ≠ .ended o) ∧
      (Probe.run (a ++ [ev])).pc = .ended (.returned true) ∧ (Probe.run a).client.api.now ≤ 2000 := by
  induction es using snoc_induction with
  | h0 => cases h
  | hs es ev ih =>
    by_cases he : ∃ o, (Probe.run es).pc = .ended o
    · obtain ⟨o, ho⟩ := he
      have hst := ended_stays ho ev
      rw [← probeRun_snoc, h] at hst
      cases hst
      obtain ⟨a, e, b, k1, k2⟩ := ih (fun a ev' b hab => hp a ev' (b ++ [ev]) (by rw [hab, List.append_assoc]; rfl)) ho
      exact ⟨a, e, b ++ [ev], by rw [k1, List.append_assoc]; rfl, k2⟩
    · have hne : ∀ o, (Probe.run es).pc ≠ .ended o := fun o ho => he ⟨o, ho⟩
      refine ⟨es, ev, [], rfl, hne, h, ?_⟩
      rcases Nat.lt_or_ge 2000 (Probe.run es).client.api.now with hn | hn
      · exfalso
        have hev := hp es ev [] rfl hn hne
        rw [probeRun_snoc] at h
        have hb : ∀ c, ev ≠ .bytes c := by
          rintro c rfl
          rcases hev with hx | hx <;> cases hx
        rcases (quiet_step (probe_inv es) ev hb).returned h with hx | ⟨hx, -⟩
        · exact hne _ hx
        · generalize Probe.run es = p at *
          obtain ⟨client, buffer, pc, port, woken, raised⟩ := p
          have hx : pc = .asking := hx.1
          subst hx
          rcases hev with rfl | rfl
          · have h : (if probeLimit ≤ client.api.now then _ else _ : Probe).pc = .ended (.returned true) := h
            split at h <;> cases h
          · cases h
      · exact hn

/-- C88: when the radio answers in time, it returns True, and no message raises. The radio sends the
messages `items` with noise between them; `es` is any execution in which the answer to the request has
arrived, `a` any part of it at the end of which the request had been written. -/
theorem c88_answered (items : List (List UInt8 × Frame)) (hi : ∀ x ∈ items, Noise x.1 ∧ Decodable x.2)
    (a b : List ProbeEvent) (r : List UInt8) (hbytes : (probeChunks (a ++ b)).flatten ++ r = portStream items)
    (hport : FromPort (a ++ b)) (hc : .cancel ∉ a ++ b) (hnow : (Probe.run (a ++ b)).client.api.now < 2000)
    (hreq : probeOutput (Probe.run a) = 0xEF :: versionBytes) (f : Frame) (hf : VersionAnswer f)
    (hin : f ∈ (inFirst items (probeChunks (a ++ b)).flatten.length).drop
      (inFirst items (probeChunks a).flatten.length).length) :
    (Probe.run (a ++ b ++ [.wake, .go])).pc = .ended (.returned true) ∧ (Probe.run (a ++ b)).raised = [] := by
  have hstream : portStream items = stream items [] := by unfold portStream stream; rw [List.append_nil]
  rw [hstream] at hbytes
  obtain ⟨told, rest, k1, k2, k3, k4, k5⟩ := probe_good
    (fun p hp => ⟨⟨(hi p hp).1, (hi p hp).2.1, (hi p hp).2.2.1⟩, (hi p hp).2.2.2⟩) (a ++ b) r hbytes hport hc hnow
  have heq : inFirst items (probeChunks (a ++ b)).flatten.length = told.map fun q => received q.2 := by
    rw [k1]
    exact inFirst_eq k2 (by rw [← k1, ← hbytes, List.length_append])
  rw [heq] at hin
  refine ⟨?_, k3⟩
  have hsure := (k5 a b rfl ((sent_output (probe_inv a)).mp hreq).2).2 ⟨f, hin, hf⟩
  have : Probe.run (a ++ b ++ [.wake, .go]) = ((Probe.run (a ++ b)).step .wake).step .go := by
    unfold Probe.run
    rw [List.foldl_append (l := a ++ b)]
    rfl
  rw [this]
  exact sure_goes (probe_inv _) hsure

/-- C88: it raises only when it is cancelled, or with an error that opening the port raised and that is
neither a timeout nor an error of the port or the radio. -/
theorem c88_raises (es : List ProbeEvent) (e : PyErr) (h : (Probe.run es).pc = .ended (.raised e)) :
    (e = .cancelledError ∧ .cancel ∈ es) ∨ ∃ d, .begin (some e) d ∈ es ∧ ¬ RadioError e := by
  induction es using snoc_induction with
  | h0 => cases h
  | hs es ev ih =>
    have more : (e = .cancelledError ∧ .cancel ∈ es) ∨ (∃ d, .begin (some e) d ∈ es ∧ ¬ RadioError e) →
        (e = .cancelledError ∧ .cancel ∈ es ++ [ev]) ∨ ∃ d, .begin (some e) d ∈ es ++ [ev] ∧ ¬ RadioError e := by
      rintro (⟨h1, h2⟩ | ⟨d, h1, h2⟩)
      · exact .inl ⟨h1, List.mem_append_left _ h2⟩
      · exact .inr ⟨d, List.mem_append_left _ h1, h2⟩
    rw [probeRun_snoc] at h
    by_cases hb : ∃ c, ev = .bytes c
    · obtain ⟨c, rfl⟩ := hb
      obtain ⟨_, ht⟩ := probe_trace es
      rw [(bytes_step ht.inv ht.buf c).2.2.1] at h
      exact more (ih h)
    · rcases (quiet_step (probe_inv es) ev fun c hc => hb ⟨c, hc⟩).raised e h with hx | ⟨rfl, hx⟩ | ⟨d, rfl, hx⟩
      · exact more (ih hx)
      · exact .inl ⟨hx, List.mem_append_right _ (.head _)⟩
      · exact .inr ⟨d, List.mem_append_right _ (.head _), hx⟩

/-- C88: the limit is two seconds. When it strikes, the probe returns False; before, it does not strike. -/
theorem c88_limit (es : List ProbeEvent) (hn : ∀ o, (Probe.run es).pc ≠ .ended o) :
    (2000 ≤ (Probe.run es).client.api.now → (Probe.run (es ++ [.timeout])).pc = .ended (.returned false)) ∧
    ((Probe.run es).client.api.now < 2000 → Probe.run (es ++ [.timeout]) = Probe.run es) := by
  rw [probeRun_snoc]
  generalize Probe.run es = p at *
  obtain ⟨client, buffer, pc, port, woken, raised⟩ := p
  have hst : Probe.step ⟨client, buffer, pc, port, woken, raised⟩ .timeout =
      if probeLimit ≤ client.api.now then Probe.throw ⟨client, buffer, pc, port, woken, raised⟩ .timeoutError
      else ⟨client, buffer, pc, port, woken, raised⟩ := by
    cases pc with
    | ended o => exact absurd rfl (hn o)
    | _ => rfl
  rw [hst]
  refine ⟨fun h => ?_, fun h => ?_⟩
  · rw [if_pos (by exact h)]
    rfl
  · rw [if_neg (by unfold probeLimit; exact Nat.not_le.mpr h)]

/-- C88: after its end it writes nothing, and the result does not change. -/
theorem c88_final (a b : List ProbeEvent) (o : Conn.Outcome) (h : (Probe.run a).pc = .ended o) :
    (Probe.run (a ++ b)).pc = .ended o ∧ probeOutput (Probe.run (a ++ b)) = probeOutput (Probe.run a) := by
  induction b using snoc_induction with
  | h0 => rw [List.append_nil]; exact ⟨h, rfl⟩
  | hs b ev ih =>
    rw [← List.append_assoc, probeRun_snoc]
    obtain ⟨_, ht⟩ := probe_trace (a ++ b)
    exact ⟨ended_stays ih.1 ev, (ended_output ht.inv ht.buf ih.1 ev).trans ih.2⟩

/-- C88: a probe that wrote its request has closed its port when it ends. -/
theorem c88_closed (es : List ProbeEvent) (o : Conn.Outcome) (h : (Probe.run es).pc = .ended o)
    (hw : probeOutput (Probe.run es) = 0xEF :: versionBytes) : (Probe.run es).port = false := by
  have hi := probe_inv es
  unfold PInv at hi
  rw [h] at hi
  rcases hi.2 with hf | hf
  · have := ((sent_output (probe_inv es)).mp hw).2
    rw [hf.sent] at this
    cases this
  · exact hf.2.2

/-! ## An execution -/

/-- The radio's answer. -/
def probeReply : Frame := { commandType := .SRSP, subsystem := .SYS, commandId := 2, data := [2, 0, 2, 6, 3, 1, 2, 3, 4] }

/-- A message that came in between. -/
def probeOther : Frame := { commandType := .AREQ, subsystem := .SYS, commandId := 0x80, data := [0, 2, 0, 2, 6, 3] }

/-- A probe: the radio sends an indication while the port is being opened, and answers in two pieces. -/
def probeEvents : List ProbeEvent :=
  [.begin none 10, .bytes (wire probeOther), .made, .tick 1000, .settled, .go]

def probeEvents2 : List ProbeEvent :=
  [.tick 5, .bytes (0x33 :: (wire probeReply).take 4), .tick 1, .bytes ((wire probeReply).drop 4)]

def probeItems : List (List UInt8 × Frame) := [([], probeOther), ([0x33], probeReply)]

theorem fromPort_of {es : List ProbeEvent}
    (h : ∀ n < es.length, (match es[n]? with | some (.bytes _) => (Probe.run (es.take n)).port | _ => true) = true) :
    FromPort es := by
  intro a c b he
  have := h a.length (by rw [he]; simp)
  rw [he] at this
  simpa using this

theorem decodable_of {f : Frame} (h1 : Fits f) (h2 : f.data ≠ [])
    (h3 : (Obj.fromUnpiFrame (received f)).toOption.isSome = true) : Decodable f := by
  refine ⟨h1, h2, ?_⟩
  cases h : Obj.fromUnpiFrame (received f) with
  | ok o => exact ⟨o, rfl⟩
  | error e => rw [h] at h3; cases h3

/-- The radio answers in time. -/
example : (Probe.run (probeEvents ++ probeEvents2 ++ [.wake, .go])).pc = .ended (.returned true) ∧
    (Probe.run (probeEvents ++ probeEvents2)).raised = [] := by
  refine c88_answered probeItems ?_ probeEvents probeEvents2 [] (by decide +kernel)
    (fromPort_of (by decide +kernel)) ?_ (by decide +kernel) (by decide +kernel) (received probeReply) ?_ (by decide +kernel)
  · intro x hx
    rcases List.mem_cons.mp hx with rfl | hx
    · exact ⟨by decide +kernel, decodable_of (by decide +kernel) (by decide +kernel) (by decide +kernel)⟩
    · rw [List.mem_singleton.mp hx]
      exact ⟨by decide +kernel, decodable_of (by decide +kernel) (by decide +kernel) (by decide +kernel)⟩
  · intro h
    simp [probeEvents, probeEvents2] at h
  · exact ⟨rfl, rfl, rfl, by decide +kernel⟩

/-- It has written its request and has ended: C88 tells that the answer came, that its port is closed, that a
second passed. -/
example : (Probe.run (probeEvents ++ probeEvents2 ++ [.wake, .go])).pc = .ended (.returned true) ∧
    probeOutput (Probe.run (probeEvents ++ probeEvents2 ++ [.wake, .go])) = 0xEF :: versionBytes := by
  decide +kernel

/-- The moment at which the request is written. -/
example : probeOutput (Probe.run (probeEvents.take 5 ++ [.go])) ≠ probeOutput (Probe.run (probeEvents.take 5)) := by
  decide +kernel

/-- No answer: the time limit strikes, the probe returns False and closes the port. -/
example : (∀ o, (Probe.run (probeEvents ++ [.tick 1000])).pc ≠ .ended o) ∧
    2000 ≤ (Probe.run (probeEvents ++ [.tick 1000])).client.api.now ∧
    (Probe.run (probeEvents ++ [.tick 1000, .timeout])).pc = .ended (.returned false) ∧
    (Probe.run (probeEvents ++ [.tick 1000, .timeout])).port = false := by
  have : (Probe.run (probeEvents ++ [.tick 1000])).pc = .asking := by decide +kernel
  refine ⟨fun o h => ?_, by decide +kernel, by decide +kernel, by decide +kernel⟩
  rw [this] at h
  cases h

/-- An answer that came before the request is no answer. -/
example : (Probe.run ([.begin none 10, .made, .tick 1000, .bytes (wire probeReply), .settled, .go, .wake, .go])).pc =
    .asking := by decide +kernel

/-- A probe may raise: nobody turns this error into False. -/
example : (Probe.run [.begin (some .indexError) 10]).pc = .ended (.raised .indexError) ∧ ¬ RadioError .indexError := by
  refine ⟨by decide +kernel, fun h => ?_⟩
  rcases h with h | h | ⟨_, h⟩ <;> cases h

/-- A port that has not become ready when the time is over stays open. -/
example : (Probe.run [.begin none 10, .tick 2000, .timeout]).pc = .ended (.returned false) ∧
    (Probe.run [.begin none 10, .tick 2000, .timeout]).port = true := by decide +kernel

/-- A punctual execution. -/
example : ProbePunctual (probeEvents ++ probeEvents2 ++ [.wake, .go]) := by
  intro a ev b he hn
  exfalso
  have : ∀ n ≤ (probeEvents ++ probeEvents2 ++ [ProbeEvent.wake, .go]).length,
      (Probe.run ((probeEvents ++ probeEvents2 ++ [ProbeEvent.wake, .go]).take n)).client.api.now ≤ 2000 := by decide +kernel
  have := this a.length (by rw [he]; simp)
  rw [he] at this
  simp at this
  omega

/-- The successful probe, seen through the theorems. -/
example : ∃ a b, probeEvents ++ probeEvents2 ++ [.wake, .go] = a ++ .made :: b ∧
    probeOutput (Probe.run a) = [] := by
  obtain ⟨a, b, h1, h2, _⟩ := c88_pause (probeEvents ++ probeEvents2 ++ [.wake, .go]) (by decide +kernel)
  exact ⟨a, b, h1, h2⟩

example : (Probe.run (probeEvents.take 5)).port = true ∧ (Probe.run (probeEvents.take 5 ++ [.go])).port = true :=
  c88_port (probeEvents.take 5) .go (by decide +kernel)

example : ∃ f, VersionAnswer f := by
  obtain ⟨_, _, _, _, _, _, _, _, f, _, h, _⟩ :=
    c88_true (probeEvents ++ probeEvents2 ++ [.wake, .go]) (by decide +kernel)
  exact ⟨f, h⟩

example (b : List ProbeEvent) :
    (Probe.run (probeEvents ++ probeEvents2 ++ [.wake, .go] ++ b)).pc = .ended (.returned true) := by
  have h := c88_final (probeEvents ++ probeEvents2 ++ [ProbeEvent.wake, .go]) b (.returned true) (by decide +kernel)
  exact h.1

example : (Probe.run (probeEvents ++ probeEvents2 ++ [.wake, .go])).port = false :=
  c88_closed _ (.returned true) (by decide +kernel) (by decide +kernel)

/-- Cancelled while it waits for the answer. -/
example : (PyErr.cancelledError = .cancelledError ∧ ProbeEvent.cancel ∈ probeEvents ++ [.cancel]) ∨
    ∃ d, .begin (some .cancelledError) d ∈ probeEvents ++ [.cancel] ∧ ¬ RadioError .cancelledError :=
  c88_raises (probeEvents ++ [.cancel]) .cancelledError (by decide +kernel)

/-- The limit does not strike early, and strikes in time. -/
example : Probe.run (probeEvents ++ [.timeout]) = Probe.run probeEvents := by
  refine (c88_limit probeEvents fun o h => ?_).2 (by decide +kernel)
  rw [show (Probe.run probeEvents).pc = .asking by decide +kernel] at h
  cases h

end Zcc
