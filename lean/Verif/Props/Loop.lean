import Verif.Proofs.Loop
import Verif.Props.Boot
import Verif.Props.ClientBounded

/-! # The reconnect loop over the serial port (C84) -/

namespace Zcc
open Spec

/-- **C84.** The loop ends only because a start-up returned, or by cancellation. Each of its attempts is a
start-up on a port and an API object of its own, with the application as the attempt before left it, and
with the events that happened since it began and no others: it failed in opening the port, or is an
`Attempt` that raised; the one that ends the loop is an `Attempt` that returned. -/
theorem c84_attempts (app : App) (o : Options) (es : List LoopEvent) :
    let l0 := Loop.init app o
    let l := l0.run es
    (∀ x ∈ l.failed,
      (∃ pre d post, es = pre ++ .wake (some x.2) d :: post ∧
        (l0.run (pre ++ [.wake (some x.2) d])).failed = (l0.run pre).failed ++ [x]) ∨
      ∃ pre d mid post, es = pre ++ .wake none d :: (mid ++ post) ∧ During l0 pre d mid ∧
        Attempt (l0.run pre).boot.app o d mid x.1 ∧ x.1.client.prog = .raise x.2 ∧
        (l0.run (pre ++ .wake none d :: mid)).failed = (l0.run pre).failed ++ [x]) ∧
    ∀ r, l.pc = .ended r → r = .error .cancelledError ∨ r = .ok () ∧
      ∃ pre d mid post, es = pre ++ .wake none d :: (mid ++ post) ∧ During l0 pre d mid ∧
        Attempt (l0.run pre).boot.app o d mid l.boot ∧ l.boot.client.prog = .ret () := by
  dsimp only
  have h := loopInv_run app o es
  refine ⟨h.failed, ?_⟩
  intro r hr
  have hn := h.now
  rw [hr] at hn
  exact hn

/-- What others do in an attempt they do in the loop. -/
theorem attempt_others {seen es pre post : List LoopEvent} {d : Nat} (he : es = pre ++ .wake none d :: (seen ++ post))
    {before after : List BootEvent}
    (h1 : ∀ e, BootEvent.client e ∈ before → (∃ ms, e = .api (.tick ms)) ∨ e = .api (.setUart true))
    (h2 : ∀ e, BootEvent.client e ∈ after → (∃ ms, e = .api (.tick ms) ∧ .tick ms ∈ seen) ∨ .client e ∈ seen)
    {e : ClientEvent} (hm : BootEvent.client e ∈ before ++ after) (ht : ∀ ms, e ≠ .api (.tick ms))
    (hu : e ≠ .api (.setUart true)) : .client e ∈ es := by
  rcases List.mem_append.mp hm with hm | hm
  · rcases h1 e hm with ⟨ms, h⟩ | h
    · exact absurd h (ht ms)
    · exact absurd h hu
  · rcases h2 e hm with ⟨ms, h, -⟩ | h
    · exact absurd h (ht ms)
    · rw [he]
      exact List.mem_append_right _ (.tail _ (List.mem_append_left _ h))

theorem handed_append (a b : List ClientEvent) : handed (a ++ b) = handed a ++ handed b := List.filterMap_append

theorem handed_portless (es : List BootEvent) : handed (portless es) = [] := by
  induction es with
  | nil => rfl
  | cons e es ih =>
    cases e with
    | bytes c => exact ih
    | client e =>
      cases e with
      | api e => cases e <;> exact ih
      | _ => exact ih

theorem handed_weave (es : List BootEvent) : ∀ gs : List (List Frame), gs.length = (portChunks es).length →
    handed (portWeave es gs) = gs.flatten := by
  induction es with
  | nil =>
    intro gs h
    cases List.eq_nil_of_length_eq_zero h
    rfl
  | cons e es ih =>
    intro gs h
    cases e with
    | bytes c =>
      cases gs with
      | nil => cases h
      | cons g gs =>
        rw [portWeave, handed_append, ih gs (Nat.succ.inj h), List.flatten_cons]
        congr 1
        clear h
        induction g with
        | nil => rfl
        | cons f g ihg => exact congrArg _ ihg
    | client e =>
      cases e with
      | api e => cases e <;> exact ih gs h
      | _ => exact ih gs h

/-- **C84.** Each attempt that failed has a reason of its own: opening the port raised the exception, or
something happened in the attempt for which `Blame` (C81) has the exception: with the messages that were
read from the bytes of its port. -/
theorem c84_reason (app : App) {o : Options} (ho : WellFormed o) (es : List LoopEvent)
    (hu : ∀ c w e, .client (.api (.submit c (some w) e)) ∈ es →
      ∀ x ∈ ((Loop.init app o).run es).failed, ∀ r, (⟨.wait w, r⟩ : Act) ∉ x.1.client.hist)
    (hreg : ∀ m timeout q, .client (.api (.register m timeout q)) ∈ es → StartupMatcher m ∧ q = none) :
    ∀ x ∈ ((Loop.init app o).run es).failed,
      (∃ pre d post, es = pre ++ .wake (some x.2) d :: post ∧
        ((Loop.init app o).run (pre ++ [.wake (some x.2) d])).failed = ((Loop.init app o).run pre).failed ++ [x]) ∨
      ∃ pre d mid post, es = pre ++ .wake none d :: (mid ++ post) ∧ During (Loop.init app o) pre d mid ∧
        ((Loop.init app o).run (pre ++ .wake none d :: mid)).failed = ((Loop.init app o).run pre).failed ++ [x] ∧
        ∃ (evs : List ClientEvent) (lost : List Frame) (heard : List (List UInt8)) (p : List UInt8),
          x.1.client = Client.run (startup o true) evs ∧ Blame (startup o true) evs x.2 ∧
          PrefixEach heard (loopChunks mid) ∧ heard.flatten = p ++ x.1.buffer ∧
          Explains p (lost ++ handed evs) := by
  intro x hx
  rcases (c84_attempts app o es).1 x hx with
    h | ⟨pre, d, mid, post, he, hd, ⟨op, st, ta, hph, hb⟩, hraise, hfail⟩
  · exact .inl h
  · refine .inr ⟨pre, d, mid, post, he, hd, hfail, ?_⟩
    obtain ⟨k1, -, k2, k3, k4⟩ := hph.sees d
    generalize bootOpening d op st = before at *
    generalize ta.filterMap whileStarted = after at *
    have hu' := fun c w e h => hu c w e h x hx
    rw [← k2]
    rw [hb] at hraise hu' ⊢
    obtain ⟨groups, heard, lost, p, g1, g2, g3, g4, g5, g6⟩ := c83_reason _ ho true before after k1
      (fun c w e hm => hu' c w e (attempt_others he k3 k4 hm (by intro ms h; cases h) (by intro h; cases h)))
      (fun m timeout q hm =>
        hreg m timeout q (attempt_others he k3 k4 hm (by intro ms h; cases h) (by intro h; cases h))) hraise
    refine ⟨_, lost, heard, p, g2, g3, g4, g5, ?_⟩
    rw [handed_append, handed_append, handed_portless, handed_weave _ _ g1]
    exact g6

/-- **C84.** When the loop has ended and was not cancelled, the application knows the radio at the port of
the last attempt: among the bytes of that port were the answers to SYS_VERSION and UTIL_GET_DEVICE_INFO, the
application has the product and the table has the coordinator. -/
theorem c84_ready (app : App) {o : Options} (ho : WellFormed o) (es : List LoopEvent)
    (hu : ∀ c w e, .client (.api (.submit c (some w) e)) ∈ es →
      ∀ r, (⟨.wait w, r⟩ : Act) ∉ ((Loop.init app o).run es).boot.client.hist)
    (hr : ((Loop.init app o).run es).pc = .ended (.ok ())) :
    let b := ((Loop.init app o).run es).boot
    ∃ pre d mid post, es = pre ++ .wake none d :: (mid ++ post) ∧ During (Loop.init app o) pre d mid ∧
    ∃ heard bytes frames fv fd tr p x ieee y,
      PrefixEach heard (loopChunks mid) ∧ heard.flatten = bytes ++ b.buffer ∧
      Explains bytes frames ∧ [fv, fd].Sublist frames ∧
      (fv.commandType = .SRSP ∧ fv.subsystem = .SYS ∧ fv.commandId = 0x02) ∧ fv.data = tr :: p :: x ∧
      (fd.commandType = .SRSP ∧ fd.subsystem = .UTIL ∧ fd.commandId = 0x00) ∧ fd.data = 0 :: (ieee ++ y) ∧
      ieee.length = 8 ∧ b.app.product = some (p.toNat : Int) ∧ ieee ∈ b.app.devices.map (·.ieee) := by
  dsimp only
  obtain ⟨-, h⟩ := c84_attempts app o es
  rcases h _ hr with h | ⟨-, pre, d, mid, post, he, hd, ⟨op, st, ta, hph, hb⟩, hret⟩
  · cases h
  · refine ⟨pre, d, mid, post, he, hd, ?_⟩
    obtain ⟨k1, -, k2, k3, k4⟩ := hph.sees d
    generalize bootOpening d op st = before at *
    generalize ta.filterMap whileStarted = after at *
    rw [← k2]
    rw [hb] at hret hu ⊢
    exact c83_ready _ ho true before after k1
      (fun c w e hm => hu c w e (attempt_others he k3 k4 hm (by intro ms h; cases h) (by intro h; cases h))) hret

/-- **C84.** The loop ends when a start-up has returned or was cancelled, and after any other exception it
sleeps again (until it is cancelled). While it sleeps the application is as the last attempt left it. -/
theorem c84_outcome (app : App) (o : Options) (es : List LoopEvent) :
    let l := (Loop.init app o).run es
    (∀ u, l.boot.client.prog = .ret u → l.pc = .ended (.ok ())) ∧
    (l.boot.client.prog = .raise .cancelledError → l.pc = .ended (.error .cancelledError)) ∧
    (∀ e, l.boot.client.prog = .raise e → (∃ t, l.pc = .sleeping t) ∨ l.pc = .ended (.error .cancelledError)) ∧
    (∀ x ∈ l.failed, x.2 ≠ .cancelledError) ∧
    ∀ t, l.pc = .sleeping t → l.boot.app = match l.failed.getLast? with
      | none => app
      | some x => x.1.app := by
  dsimp only
  have h := fate_run app o es
  have hb := loopBusy_run app o es
  have hi := (loopInv_run app o es).now
  generalize (Loop.init app o).run es = l at *
  have hs : l.pc = .started → ∃ op k, l.boot.client.prog = .call op k := by
    intro hp; rw [hp] at hi; exact hi.1
  refine ⟨?_, ?_, ?_, h.failed, fun t ht => (h.asleep t ht).1⟩
  · intro u hu
    rcases hp : l.pc with t | _ | t | _ | r
    · rcases (h.asleep t hp).2 with ⟨op, k, hk⟩ | ⟨e, hk, -⟩ <;> rw [hu] at hk <;> cases hk
    · obtain ⟨op, k, hk⟩ := hb (.inl hp); rw [hu] at hk; cases hk
    · obtain ⟨op, k, hk⟩ := hb (.inr ⟨t, hp⟩); rw [hu] at hk; cases hk
    · obtain ⟨op, k, hk⟩ := hs hp; rw [hu] at hk; cases hk
    · rcases h.ended r hp with ⟨hr, -⟩ | ⟨-, hr⟩
      · rw [hr]
      · exact absurd hu (hr u)
  · intro hu
    rcases hp : l.pc with t | _ | t | _ | r
    · rcases (h.asleep t hp).2 with ⟨op, k, hk⟩ | ⟨e, hk, hne⟩ <;> rw [hu] at hk
      · cases hk
      · injection hk with hk; exact absurd hk.symm hne
    · obtain ⟨op, k, hk⟩ := hb (.inl hp); rw [hu] at hk; cases hk
    · obtain ⟨op, k, hk⟩ := hb (.inr ⟨t, hp⟩); rw [hu] at hk; cases hk
    · obtain ⟨op, k, hk⟩ := hs hp; rw [hu] at hk; cases hk
    · rcases h.ended r hp with ⟨-, hr⟩ | ⟨hr, -⟩
      · rw [hu] at hr; cases hr
      · rw [hr]
  · intro e hu
    rcases hp : l.pc with t | _ | t | _ | r
    · exact .inl ⟨t, rfl⟩
    · obtain ⟨op, k, hk⟩ := hb (.inl hp); rw [hu] at hk; cases hk
    · obtain ⟨op, k, hk⟩ := hb (.inr ⟨t, hp⟩); rw [hu] at hk; cases hk
    · obtain ⟨op, k, hk⟩ := hs hp; rw [hu] at hk; cases hk
    · rcases h.ended r hp with ⟨-, hr⟩ | ⟨hr, -⟩
      · rw [hu] at hr; cases hr
      · exact .inr (by rw [hr])

/-- **C84.** The loop is patient: the first attempt begins five seconds after the loop, every other one at
least five seconds after the one before; and while it sleeps it holds no port. -/
theorem c84_patience (app : App) (o : Options) (es : List LoopEvent) :
    let l := (Loop.init app o).run es
    l.begun.Pairwise (· + 5000 ≤ ·) ∧ (∀ x ∈ l.begun, 5000 ≤ x) ∧
    ∀ t, l.pc = .sleeping t → l.boot.client.api.uart = false := by
  dsimp only
  have h := spaced_run app o es
  exact ⟨h.pairs, h.first, fun t ht => (dormant_run app o es t ht).1⟩

/-- **C84.** The loop does not give up: when the event loop keeps up, the next attempt begins at most 508
seconds (and the time limits of the calls that others make meanwhile) after the loop went to sleep or opened a port,
unless the loop has ended. -/
theorem c84_pace (app : App) (o : Options) (a b : List LoopEvent)
    (hk : LoopKeepsUp (Loop.init app o) (a ++ b))
    (ha : ((Loop.init app o).run a).pc = .opening ∨ ∃ t, ((Loop.init app o).run a).pc = .sleeping t)
    (hn : ((Loop.init app o).run a).now + 508000 + loopOthers b < ((Loop.init app o).run (a ++ b)).now) :
    ((Loop.init app o).run a).begun.length < ((Loop.init app o).run (a ++ b)).begun.length ∨
    ∃ r, ((Loop.init app o).run (a ++ b)).pc = .ended r := by
  have hk1 : LoopKeepsUp (Loop.init app o) a := fun x ms y h => hk x ms (y ++ b) (by rw [h]; simp)
  have hk2 : LoopKeepsUp ((Loop.init app o).run a) b := by
    intro x ms y h
    rw [← loop_append]
    exact hk (a ++ x) ms y (by rw [h]; simp)
  have hpre : ∀ x, x ∈ ((Loop.init app o).run (a ++ b)).begun.length :: [] →
      ((Loop.init app o).run a).begun.length ≤ x := by
    intro x hx
    cases List.mem_singleton.mp hx
    rw [loop_append]
    exact (begun_run _ b).length_le
  have hpre := hpre _ (.head _)
  rcases Nat.lt_or_eq_of_le hpre with hlt | heq
  · exact .inl hlt
  · refine .inr (Classical.byContradiction fun hne => ?_)
    have hp : Pace o (((Loop.init app o).run a).now + 508000) ((Loop.init app o).run a) := by
      have hi := loopInv_run app o a
      have ht := timely_run app o a hk1
      have hd := dormant_run app o a
      generalize (Loop.init app o).run a = l at *
      unfold Pace
      rcases ha with ha | ⟨t, ha⟩
      · have hn := hi.now
        rw [ha] at hn ⊢
        obtain ⟨pre, d, mid, -, h⟩ := hn
        exact ⟨Nat.le_refl _, h.1.quiet⟩
      · have h1 := ht t ha
        have h2 := (hd t ha).2
        rw [ha]
        exact ⟨h1, by omega⟩
    have := pace_run b hp hk2 (by rw [← loop_append]; exact heq.symm)
    rw [← loop_append] at this
    have := this.now (fun r h => hne ⟨r, h⟩)
    omega

/-! ## Examples -/

/-- `LoopResting`, computed. -/
def loopPromptly (l : Loop) (ms : Nat) : Bool :=
  match l.pc with
  | .sleeping t => decide (l.now + ms ≤ t)
  | .opening => false
  | .settling t => decide (l.now + ms ≤ t)
  | .started => clientPromptly l.boot.client ms
  | .ended _ => true

def loopKeepsUpCheck (l : Loop) : List LoopEvent → Bool
  | [] => true
  | .tick ms :: es => loopPromptly l ms && loopKeepsUpCheck (l.step (.tick ms)) es
  | e :: es => loopKeepsUpCheck (l.step e) es

theorem loopPromptly_sound {app : App} {o : Options} {es : List LoopEvent} {ms : Nat}
    (h : loopPromptly ((Loop.init app o).run es) ms = true) : LoopResting ((Loop.init app o).run es) ms := by
  have hi := (loopInv_run app o es).now
  unfold loopPromptly at h
  unfold LoopResting
  rcases hp : ((Loop.init app o).run es).pc with t | _ | t | _ | r <;> rw [hp] at h hi <;> dsimp only at h ⊢
  · exact of_decide_eq_true h
  · cases h
  · exact of_decide_eq_true h
  · obtain ⟨-, pre, d, mid, -, op, st, ta, hph, hb⟩ := hi
    obtain ⟨k1, -⟩ := hph.sees d
    generalize bootOpening d op st = before at *
    generalize ta.filterMap whileStarted = after at *
    obtain ⟨groups, -, -, -, -, g, -⟩ := c83_refines ((Loop.init app o).run pre).boot.app o true before after k1
    refine clientPromptly_sound ?_ h
    rw [hb, g]
    obtain ⟨es, hes⟩ := client_events (startup o true) _
    rw [hes]
    exact Zcc.inv_run es

theorem loopKeepsUp_of {app : App} {o : Options} (es : List LoopEvent) : ∀ es',
    loopKeepsUpCheck ((Loop.init app o).run es') es = true → ∀ a ms b, es = a ++ .tick ms :: b →
      LoopResting ((Loop.init app o).run (es' ++ a)) ms := by
  induction es with
  | nil => intro es' _ a ms b h; simp at h
  | cons e es ih =>
    intro es' h a ms b he
    have hrest : loopKeepsUpCheck ((Loop.init app o).run (es' ++ [e])) es = true := by
      rw [loop_snoc]
      cases e <;> first
        | exact h
        | (rw [loopKeepsUpCheck, Bool.and_eq_true] at h; exact h.2)
    rcases a with _ | ⟨x, a⟩
    · simp only [List.nil_append, List.cons.injEq] at he
      rw [List.append_nil]
      refine loopPromptly_sound ?_
      rw [he.1, loopKeepsUpCheck, Bool.and_eq_true] at h
      exact h.1
    · simp only [List.cons_append, List.cons.injEq] at he
      have h2 := ih (es' ++ [e]) hrest a ms b he.2
      rw [← he.1]
      rwa [show (es' ++ [e]) ++ a = es' ++ e :: a by simp] at h2

/-- The events of an attempt, as events of the loop. -/
def inLoop (es : List BootEvent) : List LoopEvent :=
  es.map fun
    | .bytes c => .bytes c
    | .client (.api (.tick ms)) => .tick ms
    | .client e => .client e

/-- The first attempt: there is no port. -/
def loopFirst : List LoopEvent := [.tick 5000, .wake (some .serialException) 20]

/-- The second attempt: a frame and the beginning of another arrive, then the radio is silent. -/
def loopSecond : List LoopEvent :=
  [.tick 5000, .wake none 30, .bytes (wire (Frame.of .AREQ .ZDO 0xC0 [9]) ++ [0xFE, 3, 0x41]), .made, .tick 1000,
   .settled, .client .go, .tick 6000, .client (.api (.timeout 0)), .client .go]

/-- The third attempt: a new stick. -/
def loopThird : List LoopEvent :=
  [.tick 5000, .wake none 30, .made, .tick 1000, .settled] ++ inLoop bootAfter

/-- Nobody else uses the API. -/
def loopAlone (es : List LoopEvent) : Bool :=
  es.all fun
    | .client (.api (.submit ..)) => false
    | .client (.api (.register ..)) => false
    | .client (.api (.registerResponse ..)) => false
    | _ => true

theorem loop_done :
    let l := (Loop.init {} exampleOptions).run (loopFirst ++ loopSecond ++ loopThird)
    (match l.pc with | .ended (.ok ()) => true | _ => false) = true ∧
    l.begun = [5000, 10020, 22050] ∧ l.failed.map (·.2) = [.serialException, .timeoutError] ∧
    loopKeepsUpCheck (Loop.init {} exampleOptions) (loopFirst ++ loopSecond ++ loopThird) = true ∧
    loopAlone (loopFirst ++ loopSecond ++ loopThird) = true := by decide +kernel

theorem loop_ended : ((Loop.init {} exampleOptions).run (loopFirst ++ loopSecond ++ loopThird)).pc =
    .ended (.ok ()) := by
  have h := loop_done.1
  generalize ((Loop.init {} exampleOptions).run (loopFirst ++ loopSecond ++ loopThird)).pc = pc at h
  rcases pc with _ | _ | _ | _ | r
  · cases h
  · cases h
  · cases h
  · cases h
  · rcases r with _ | _
    · cases h
    · rfl

/-- C84: after three attempts the application knows the radio. -/
example :
    let b := ((Loop.init {} exampleOptions).run (loopFirst ++ loopSecond ++ loopThird)).boot
    ∃ (p : UInt8) (ieee : List UInt8), b.app.product = some (p.toNat : Int) ∧ ieee ∈ b.app.devices.map (·.ieee) := by
  obtain ⟨-, -, -, -, -, -, -, -, -, -, -, -, p, -, ieee, -, -, -, -, -, -, -, -, -, -, h1, h2⟩ :=
    c84_ready {} (o := exampleOptions) ⟨rfl, rfl⟩ (loopFirst ++ loopSecond ++ loopThird)
      (fun c w e h => by cases List.all_eq_true.mp loop_done.2.2.2.2 _ h) loop_ended
  exact ⟨p, ieee, h1, h2⟩

/-- C84: three attempts, at least five seconds apart. -/
example : ([5000, 10020, 22050] : List Nat).Pairwise (· + 5000 ≤ ·) := by
  rw [← loop_done.2.1]
  exact (c84_patience {} exampleOptions (loopFirst ++ loopSecond ++ loopThird)).1

/-- C84: a start-up that is cancelled ends the loop. -/
example : ((Loop.init {} exampleOptions).run
    (loopFirst ++ loopSecond.take 7 ++ [.client .cancel, .client (.api (.wake 0)), .client .go])).pc =
    .ended (.error .cancelledError) := by
  refine (c84_outcome {} exampleOptions _).2.1 (raised_eq ?_)
  decide +kernel

/-- C84: the second attempt failed for a reason. -/
example : ∀ x ∈ ((Loop.init {} exampleOptions).run (loopFirst ++ loopSecond ++ loopThird)).failed,
    (∃ pre d post, loopFirst ++ loopSecond ++ loopThird = pre ++ .wake (some x.2) d :: post) ∨
    ∃ evs, x.1.client = Client.run (startup exampleOptions true) evs ∧ Blame (startup exampleOptions true) evs x.2 := by
  intro x hx
  rcases c84_reason {} (o := exampleOptions) ⟨rfl, rfl⟩ (loopFirst ++ loopSecond ++ loopThird)
    (fun c w e h => by cases List.all_eq_true.mp loop_done.2.2.2.2 _ h)
    (fun m timeout q h => by cases List.all_eq_true.mp loop_done.2.2.2.2 _ h) x hx with
    ⟨pre, d, post, h, -⟩ | ⟨-, -, -, -, -, -, -, evs, -, -, -, h1, h2, -⟩
  · exact .inl ⟨pre, d, post, h⟩
  · exact .inr ⟨evs, h1, h2⟩

/-- A radio that is silent for ever: the loop keeps up and goes through one attempt after the other. -/
def loopSilent : Nat → List LoopEvent
  | 0 => []
  | n + 1 => loopSecond ++ loopSilent n

/-- C84: after the first of fifty silent attempts another one follows. -/
example :
    let l := (Loop.init {} exampleOptions).run ([] ++ loopSilent 50)
    ((Loop.init {} exampleOptions).run []).begun.length < l.begun.length ∨ ∃ r, l.pc = .ended r :=
  c84_pace {} exampleOptions [] (loopSilent 50)
    (loopKeepsUp_of _ [] (by decide +kernel)) (.inr ⟨5000, rfl⟩) (by decide +kernel)

end Zcc
