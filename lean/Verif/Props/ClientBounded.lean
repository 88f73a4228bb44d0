import Verif.Proofs.ClientBounded
import Verif.Props.Bounded
import Verif.Props.Start

/-!
# C79: start-up ends, and when

`Spec.ClientKeepsUp` says that the event loop does what can be done before time passes,
`Spec.limitsAhead` is the sum of the time limits of the calls that others had made when start-up
began to talk to the radio, `Spec.othersLimits` that of the calls that they make meanwhile.
-/

namespace Zcc
open Spec

/-- Until it is connected, `startup` does nothing. -/
theorem before_connect {α : Type} {k : Except PyErr Unit → Prog α} (evs : List ClientEvent) :
    ∀ c : Client α, c.prog = .call .connect k → c.pend = .idle → c.spawned = [] →
    (∀ r, ClientEvent.connected r ∉ evs) →
    (evs.foldl Client.step c).prog = .call .connect k ∧ (evs.foldl Client.step c).pend = .idle ∧
      (evs.foldl Client.step c).spawned = [] := by
  induction evs with
  | nil => intro c h1 h2 h3 _; exact ⟨h1, h2, h3⟩
  | cons ev evs ih =>
    intro c h1 h2 h3 h4
    have hrest : ∀ r, ClientEvent.connected r ∉ evs := fun r h => h4 r (List.mem_cons_of_mem _ h)
    rw [List.foldl_cons]
    cases ev with
    | api e => exact ih _ h1 h2 h3 hrest
    | go =>
      have : c.step .go = c := by unfold Client.step; rw [h1]; rfl
      rw [this]; exact ih _ h1 h2 h3 hrest
    | connected r => exact absurd List.mem_cons_self (h4 r)
    | spawned =>
      have : c.step .spawned = c := by
        show c.runSpawned = c
        unfold Client.runSpawned; rw [h3]
      rw [this]; exact ih _ h1 h2 h3 hrest
    | cancel =>
      have : c.step .cancel = c := by unfold Client.step; rw [h1]; rfl
      rw [this]; exact ih _ h1 h2 h3 hrest

/-- C79: `startup` ends. Once it is connected, it has returned or raised 502 seconds later at the
latest, and the time limits of the calls that others had made or make meanwhile; whatever the radio
answers or does not answer, and whoever is cancelled. -/
theorem c79_startup (o : Options) (autoForm : Bool) (before after : List ClientEvent)
    (hb : ∀ r, ClientEvent.connected r ∉ before)
    (hk : ClientKeepsUp (startup o autoForm) (before ++ [.connected (.ok ())]) after)
    (hn : (Client.run (startup o autoForm) before).api.now +
        limitsAhead (Client.run (startup o autoForm) before).api.nextTid
          (Client.run (startup o autoForm) before).api.log +
        othersLimits after + 502000 <
      (Client.run (startup o autoForm) (before ++ [.connected (.ok ())] ++ after)).api.now) :
    Ended (Client.run (startup o autoForm) (before ++ [.connected (.ok ())] ++ after)) := by
  obtain ⟨k, hs, ht⟩ := takes_startup o autoForm
  obtain ⟨h1, h2, h3⟩ := before_connect before { prog := startup o autoForm } hs rfl rfl hb
  have h1 : (Client.run (startup o autoForm) before).prog = .call .connect k := h1
  have e : Client.run (startup o autoForm) (before ++ [.connected (.ok ())]) =
      (Client.run (startup o autoForm) before).answer .connect k (.ok ()) := by
    rw [client_snoc]
    unfold Client.step
    rw [h1]; rfl
  refine bounded_run (B := 502000) _ _ after hk (by rw [e]; rfl) (by rw [e]; exact h3)
    (by rw [e]; exact ht _ _) ?_
  have e2 : (Client.run (startup o autoForm) (before ++ [.connected (.ok ())])).api =
      (Client.run (startup o autoForm) before).api := by rw [e]; rfl
  rw [e2]
  exact hn

/-- Until it runs for the first time, a coroutine does nothing. -/
theorem before_go {α : Type} (p : Prog α) (es : List Event) :
    (Client.run p (es.map .api)).prog = p ∧ (Client.run p (es.map .api)).pend = .idle ∧
      (Client.run p (es.map .api)).spawned = [] := by
  have : ∀ c : Client α, ((es.map ClientEvent.api).foldl Client.step c).prog = c.prog ∧
      ((es.map ClientEvent.api).foldl Client.step c).pend = c.pend ∧
      ((es.map ClientEvent.api).foldl Client.step c).spawned = c.spawned := by
    induction es with
    | nil => intro c; exact ⟨rfl, rfl, rfl⟩
    | cons e es ih => intro c; exact ih _
  exact this _

/-- C79: the same for `form_network`, within 484 seconds after it was called. -/
theorem c79_form (version : Int) (o : Options) (before : List Event) (after : List ClientEvent)
    (hk : ClientKeepsUp (formNetwork version o) (before.map .api) after)
    (hn : (Api.init.run before).now +
        limitsAhead (Api.init.run before).nextTid (Api.init.run before).log +
        othersLimits after + 484000 <
      (Client.run (formNetwork version o) (before.map .api ++ after)).api.now) :
    Ended (Client.run (formNetwork version o) (before.map .api ++ after)) := by
  obtain ⟨h1, h2, h3⟩ := before_go (formNetwork version o) before
  have e : (Client.run (formNetwork version o) (before.map .api)).api = Api.init.run before := by
    have : ∀ c : Client Unit, ((before.map ClientEvent.api).foldl Client.step c).api =
        c.api.run before := by
      clear hk hn h1 h2 h3
      induction before with
      | nil => intro c; rfl
      | cons e es ih => intro c; exact ih _
    exact this _
  refine bounded_run (B := 484000) _ _ after hk h2 h3 (by rw [h1]; exact takes_form _ _ _) ?_
  rw [e]
  exact hn

/-! ## Examples -/

/-- What `ClientKeepsUp` asks for before one `tick`, as a program. -/
def clientPromptly {α : Type} (c : Client α) (ms : Nat) : Bool :=
  promptly c.api ms && c.spawned.isEmpty &&
    match c.pend with
    | .idle => (match c.prog with | .call op _ => decide (op = .connect) | _ => true)
    | .call t => (c.api.result t).isNone
    | .wait w d => (match c.api.fut w with | .pending => true | _ => false) && decide (c.api.now + ms ≤ d)

def clientKeepsUpCheck {α : Type} (c : Client α) : List ClientEvent → Bool
  | [] => true
  | .api (.tick ms) :: es =>
    clientPromptly c ms && clientKeepsUpCheck (c.step (.api (.tick ms))) es
  | ev :: es => clientKeepsUpCheck (c.step ev) es

theorem clientPromptly_sound {α : Type} {c : Client α} (i : Inv c.api) {ms : Nat}
    (h : clientPromptly c ms = true) : ClientResting c ms := by
  unfold clientPromptly at h
  rw [Bool.and_eq_true, Bool.and_eq_true] at h
  obtain ⟨⟨h1, h2⟩, h3⟩ := h
  refine ⟨promptly_sound i h1, by simpa using h2, ?_, ?_, ?_⟩
  · intro op k hp hne hi
    rw [hi] at h3
    dsimp only at h3
    rw [hp] at h3
    exact hne (by simpa using h3)
  · intro t hp
    rw [hp] at h3
    simpa using h3
  · intro w d hp
    rw [hp] at h3
    dsimp only at h3
    rw [Bool.and_eq_true, decide_eq_true_eq] at h3
    refine ⟨?_, h3.2⟩
    rcases hf : c.api.fut w with _ | _ | _
    · rfl
    all_goals rw [hf] at h3; simp at h3

theorem clientKeepsUp_of {α : Type} (p : Prog α) (evs2 : List ClientEvent) : ∀ evs1,
    clientKeepsUpCheck (Client.run p evs1) evs2 = true → ClientKeepsUp p evs1 evs2 := by
  induction evs2 with
  | nil => intro evs1 _ a ms b h; simp at h
  | cons ev evs2 ih =>
    intro evs1 h a ms b he
    have hrest : clientKeepsUpCheck (Client.run p (evs1 ++ [ev])) evs2 = true := by
      rw [client_snoc]
      cases ev with
      | api e =>
        cases e <;> first
          | exact h
          | (rw [clientKeepsUpCheck, Bool.and_eq_true] at h; exact h.2)
      | _ => exact h
    rcases a with _ | ⟨x, a⟩
    · simp only [List.nil_append, List.cons.injEq] at he
      rw [List.append_nil]
      obtain ⟨es, hes⟩ := client_events p evs1
      refine clientPromptly_sound (by rw [hes]; exact Zcc.inv_run es) ?_
      rw [he.1, clientKeepsUpCheck, Bool.and_eq_true] at h
      exact h.1
    · simp only [List.cons_append, List.cons.injEq] at he
      have h2 := ih (evs1 ++ [ev]) hrest a ms b he.2
      rw [← he.1]
      rwa [show (evs1 ++ [ev]) ++ a = evs1 ++ ev :: a by simp] at h2

/-- The radio answers the ping after five seconds and is silent from then on. -/
def exStuck : List ClientEvent :=
  [.go, .api (.tick 5000), .api (.frame (Frame.of .SRSP .SYS 1 [0x79, 0x01])), .api (.wake 0), .go,
   .go, .api (.tick 6000), .api (.timeout 1), .go, .api (.tick 500000)]

example : Ended (Client.run (startup exampleOptions true)
    ([.api (.setUart true), .go] ++ [.connected (.ok ())] ++ exStuck)) :=
  c79_startup exampleOptions true [.api (.setUart true), .go] exStuck
    (by intro r h; simp at h) (clientKeepsUp_of _ _ _ (by decide +kernel)) (by decide +kernel)

/-- Before its time limits are over it has not ended. -/
example : ¬ Ended (Client.run (startup exampleOptions true)
    ([.api (.setUart true), .go] ++ [.connected (.ok ())] ++ exStuck.take 7)) := by
  have h : ∀ c : Client Unit, (match c.prog with | .call .. => true | _ => false) = true →
      ¬ Ended c := by
    rintro c h (⟨a, ha⟩ | ⟨e, he⟩)
    · rw [ha] at h; cases h
    · rw [he] at h; cases h
  exact h _ (by decide +kernel)

example : Ended (Client.run (formNetwork 1 exampleOptions)
    ([Event.setUart true].map .api ++ [.go, .api (.tick 6000), .api (.timeout 0), .go,
      .api (.tick 480000)])) :=
  c79_form 1 exampleOptions [.setUart true] _ (clientKeepsUp_of _ _ _ (by decide +kernel))
    (by decide +kernel)

end Zcc
