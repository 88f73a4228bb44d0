import Verif.Props.Works
import Verif.Props.Loop
import Verif.Proofs.LoopRun

/-! # A radio that works is started (C85), over the serial port -/

namespace Zcc
open Spec

theorem leftAlone_of_mem {a b : List ClientEvent} (h : LeftAlone b)
    (hm : ∀ ev ∈ a, ev ∈ b ∨ ev = .connected (.ok ()) ∨ ∃ f, ev = .api (.frame f)) : LeftAlone a := by
  intro ev he
  rcases hm ev he with h1 | rfl | ⟨f, rfl⟩
  · exact h ev h1
  · trivial
  · trivial

theorem mem_portless {es : List BootEvent} {e : ClientEvent} (h : .client e ∈ es) (hf : ∀ f, e ≠ .api (.frame f)) :
    e ∈ portless es := by
  induction es with
  | nil => cases h
  | cons x es ih =>
    rcases List.mem_cons.mp h with rfl | h
    · cases e with
      | api e =>
        cases e with
        | frame f => exact absurd rfl (hf f)
        | _ => exact .head _
      | _ => exact .head _
    · have := ih h
      cases x with
      | bytes c => exact this
      | client x =>
        cases x with
        | api x =>
          cases x with
          | frame f => exact this
          | _ => exact .tail _ this
        | _ => exact .tail _ this

theorem portless_append (a b : List BootEvent) : portless (a ++ b) = portless a ++ portless b := by
  induction a with
  | nil => rfl
  | cons x a ih =>
    cases x with
    | bytes c => exact ih
    | client x =>
      cases x with
      | api x =>
        cases x with
        | frame f => exact ih
        | _ => exact congrArg _ ih
      | _ => exact congrArg _ ih

/-- Where the events of `messagewise` come from. -/
theorem messagewise_mem {before after : List BootEvent} {late : List (List UInt8 × Frame)} {n : Nat} :
    ∀ ev ∈ messagewise before after late n,
      ev ∈ portless (before ++ after) ∨ ev = .connected (.ok ()) ∨ ∃ f, ev = .api (.frame f) := by
  intro ev he
  rw [portless_append]
  rcases List.mem_append.mp he with he | he
  · rcases List.mem_append.mp he with he | he
    · exact .inl (List.mem_append_left _ he)
    · exact .inr (.inl (List.mem_singleton.mp he))
  · rcases portWeave_mem _ _ _ he with h | h
    · by_cases hf : ∃ f, ev = .api (.frame f)
      · exact .inr (.inr hf)
      · exact .inl (List.mem_append_right _ (mem_portless h fun f hf' => hf ⟨f, hf'⟩))
    · exact .inr (.inr h)

/-- Start-up over the port, message by message. -/
theorem messagewise_run (app : App) {o : Options} (ho : WellFormed o) (autoForm : Bool)
    (before after : List BootEvent) (hb : ∀ r, .client (.connected r) ∉ before)
    {late : List (List UInt8 × Frame)} {n : Nat} (hs : SoundPort before after late n)
    (hled : NoLedYet ((Boot.init app o autoForm).run (before ++ [.client (.connected (.ok ()))])) after late n)
    (hu : LeftAlone (portless (before ++ after))) :
    let b := (Boot.init app o autoForm).run (before ++ .client (.connected (.ok ())) :: after)
    b.client = Client.run (startup o autoForm) (messagewise before after late n) ∧ b.raised = [] := by
  obtain ⟨early, p, rest, rfl, hi, h1, h2, h3⟩ := hs
  have hreg : ∀ m timeout q, .client (.api (.register m timeout q)) ∈ before ++ after →
      StartupMatcher m ∧ q = none :=
    fun m timeout q hm => (hu _ (mem_portless hm fun f h => by cases h)).elim
  have hseq : ∀ c n, .client (.api (.registerResponse c (some n))) ∈ before ++ after → 0 ≤ n ∧ n < 256 :=
    fun c n hm => (hu _ (mem_portless hm fun f h => by cases h)).elim
  refine ⟨c83_exact_partial app ho autoForm before after hb early late p rest hi h1 h2 h3 hled hreg hseq, ?_⟩
  obtain ⟨-, -, -, -, -, h, -⟩ :=
    c83_all_partial app ho autoForm before after hb early late p rest hi h1 h2 h3 hled hreg hseq
  exact h

theorem othersLimits_weave (es : List BootEvent) : ∀ gs : List (List Frame),
    othersLimits (portWeave es gs) = othersLimits (portless es) := by
  have hf : ∀ (g : List Frame) (l : List ClientEvent),
      othersLimits (g.map (fun f => .api (.frame f)) ++ l) = othersLimits l := by
    intro g l
    induction g with
    | nil => rfl
    | cons f g ih =>
      show 0 + othersLimits (g.map (fun f => .api (.frame f)) ++ l) = _
      rw [ih, Nat.zero_add]
  have hc : ∀ (e : ClientEvent) {a b : List ClientEvent}, othersLimits a = othersLimits b →
      othersLimits (e :: a) = othersLimits (e :: b) := by
    intro e a b h
    show _ + othersLimits a = _ + othersLimits b
    rw [h]
  induction es with
  | nil => intro gs; cases gs <;> rfl
  | cons x es ih =>
    intro gs
    cases x with
    | bytes c =>
      cases gs with
      | nil => exact ih []
      | cons g gs => rw [portWeave, hf]; exact ih gs
    | client e =>
      cases e with
      | api e =>
        cases e with
        | frame f => exact ih gs
        | _ => exact hc _ (ih gs)
      | _ => exact hc _ (ih gs)

/-- **C85 over the serial port.** The port delivers sound messages with noise between them, in chunks of any
kind. If, taking each message as arriving with its last byte, the radio works, start-up does not raise and
neither does `data_received`. Missing: the two indications that switch the LED, as long as the application does not
know the version of the radio (`c83_refuted`). -/
theorem c85_port_never_fails (app : App) {o : Options} (ho : WellFormed o) (autoForm : Bool)
    (before after : List BootEvent) (hb : ∀ r, .client (.connected r) ∉ before)
    {late : List (List UInt8 × Frame)} {n : Nat} (hs : SoundPort before after late n)
    (hled : NoLedYet ((Boot.init app o autoForm).run (before ++ [.client (.connected (.ok ()))])) after late n)
    (hp : PortOpened (portless before)) (hc : .client (.api (.setUart false)) ∉ after)
    (hu : LeftAlone (portless (before ++ after)))
    (hw : Works (startup o autoForm) (messagewise before after late n)) :
    let b := (Boot.init app o autoForm).run (before ++ .client (.connected (.ok ())) :: after)
    (∀ e, b.client.prog ≠ .raise e) ∧ b.raised = [] := by
  obtain ⟨h1, h2⟩ := messagewise_run app ho autoForm before after hb hs hled hu
  refine ⟨fun e => ?_, h2⟩
  rw [h1]
  refine c85_never_fails ho autoForm _ _ (fun r hm => hb r (portless_mem _ _ hm)) hp ?_
    (leftAlone_of_mem hu messagewise_mem) hw e
  intro hm
  rcases portWeave_mem _ _ _ hm with h | ⟨f, h⟩
  · exact hc h
  · cases h

/-- C85: ... and it returns in time. -/
theorem c85_port (app : App) {o : Options} (ho : WellFormed o) (autoForm : Bool)
    (before after : List BootEvent) (hb : ∀ r, .client (.connected r) ∉ before)
    {late : List (List UInt8 × Frame)} {n : Nat} (hs : SoundPort before after late n)
    (hled : NoLedYet ((Boot.init app o autoForm).run (before ++ [.client (.connected (.ok ()))])) after late n)
    (hp : PortOpened (portless before)) (hc : .client (.api (.setUart false)) ∉ after)
    (hu : LeftAlone (portless (before ++ after)))
    (hw : Works (startup o autoForm) (messagewise before after late n))
    (hk : ClientKeepsUp (startup o autoForm) (portless before ++ [.connected (.ok ())])
      (portWeave after (perChunk late n (portChunks after))))
    (hn : (Client.run (startup o autoForm) (portless before)).api.now +
        limitsAhead (Client.run (startup o autoForm) (portless before)).api.nextTid
          (Client.run (startup o autoForm) (portless before)).api.log +
        othersLimits (portless after) + 502000 <
      ((Boot.init app o autoForm).run (before ++ .client (.connected (.ok ())) :: after)).client.api.now) :
    ((Boot.init app o autoForm).run (before ++ .client (.connected (.ok ())) :: after)).client.prog = .ret () := by
  obtain ⟨h1, -⟩ := messagewise_run app ho autoForm before after hb hs hled hu
  obtain ⟨h3, -⟩ := c85_port_never_fails app ho autoForm before after hb hs hled hp hc hu hw
  rw [h1] at hn h3 ⊢
  rcases c79_startup o autoForm _ _ (fun r hm => hb r (portless_mem _ _ hm)) hk (by
    rw [othersLimits_weave]; exact hn) with ⟨⟨⟩, h⟩ | ⟨e, h⟩
  · exact h
  · exact absurd h (h3 e)

/-- Nobody disturbs an attempt if nobody disturbs the loop. -/
theorem phases_left {seen opening settling talking : List LoopEvent} (hph : Phases seen opening settling talking)
    (d : Nat) (hu : LeftAlone (doneIn seen)) (hc : .api (.setUart false) ∉ doneIn seen) {P : Prop}
    (h : (∀ r, .client (.connected r) ∉ bootOpening d opening settling) →
      PortOpened (portless (bootOpening d opening settling)) →
      .client (.api (.setUart false)) ∉ talking.filterMap whileStarted →
      LeftAlone (portless (bootOpening d opening settling ++ talking.filterMap whileStarted)) → P) : P := by
  obtain ⟨k1, ko, k2, k3, k4⟩ := hph.sees d
  generalize bootOpening d opening settling = before at *
  generalize talking.filterMap whileStarted = after at *
  have hdone : ∀ {e : ClientEvent}, .client e ∈ after → (∀ ms, e ≠ .api (.tick ms)) → e ∈ doneIn seen := by
    intro e hm ht
    rcases k4 e hm with ⟨ms, h, -⟩ | h
    · exact absurd h (ht ms)
    · exact List.mem_filterMap.mpr ⟨_, h, rfl⟩
  refine h k1 ⟨mem_portless ko (fun f h => by cases h), fun h => ?_⟩ (fun h => ?_) fun ev hev => ?_
  · rcases k3 _ (portless_mem _ _ h) with ⟨ms, h⟩ | h <;> cases h
  · exact hc (hdone h fun ms h => by cases h)
  · rcases List.mem_append.mp (portless_mem _ _ hev) with hm | hm
    · rcases k3 _ hm with ⟨ms, rfl⟩ | rfl <;> trivial
    · by_cases ht : ∃ ms, ev = .api (.tick ms)
      · obtain ⟨ms, rfl⟩ := ht; trivial
      · exact hu ev (hdone hm fun ms h => ht ⟨ms, h⟩)

/-- C85: in the reconnect loop, if nobody disturbs it, an attempt fails only if the port cannot be opened or
the radio does not work. -/
theorem c85_loop (app : App) {o : Options} (ho : WellFormed o) (es : List LoopEvent)
    (hu : LeftAlone (doneIn es)) (hc : .api (.setUart false) ∉ doneIn es) :
    ∀ x ∈ ((Loop.init app o).run es).failed,
      (∃ pre d post, es = pre ++ .wake (some x.2) d :: post ∧
        ((Loop.init app o).run (pre ++ [.wake (some x.2) d])).failed = ((Loop.init app o).run pre).failed ++ [x]) ∨
      ∃ pre d mid post opening settling talking, es = pre ++ .wake none d :: (mid ++ post) ∧
        During (Loop.init app o) pre d mid ∧
        ((Loop.init app o).run (pre ++ .wake none d :: mid)).failed = ((Loop.init app o).run pre).failed ++ [x] ∧
        Phases mid opening settling talking ∧
        ∀ late n, SoundPort (bootOpening d opening settling) (talking.filterMap whileStarted) late n →
          NoLedYet ((Boot.init ((Loop.init app o).run pre).boot.app o true).run
            (bootOpening d opening settling ++ [.client (.connected (.ok ()))]))
            (talking.filterMap whileStarted) late n →
          ¬ Works (startup o true)
            (messagewise (bootOpening d opening settling) (talking.filterMap whileStarted) late n) := by
  intro x hx
  rcases (c84_attempts app o es).1 x hx with
    h | ⟨pre, d, mid, post, he, hd, ⟨op, st, ta, hph, hb⟩, hraise, hfail⟩
  · exact .inl h
  · refine .inr ⟨pre, d, mid, post, op, st, ta, he, hd, hfail, hph, ?_⟩
    intro late n hs hled hw
    rw [hb] at hraise
    refine phases_left hph d ?_ ?_ fun k1 k2 k3 k4 =>
      (c85_port_never_fails _ ho true _ _ k1 hs hled k2 k3 k4 hw).1 _ hraise
    · intro ev hev
      obtain ⟨x, h1, h2⟩ := List.mem_filterMap.mp hev
      exact hu ev (List.mem_filterMap.mpr ⟨x, by rw [he]; simp [h1], h2⟩)
    · intro hev
      obtain ⟨x, h1, h2⟩ := List.mem_filterMap.mp hev
      exact hc (List.mem_filterMap.mpr ⟨x, by rw [he]; simp [h1], h2⟩)

/-- **C85, the reconnect loop.** An attempt begins and its port is opened (after which `connection_made` is
called, and a second later the loop goes on). If the radio works, and nobody disturbs or cancels the loop,
it has ended, and start-up has returned, 508 s later at the latest (and the time limits of the calls that
others make meanwhile). -/
theorem c85_reconnects (app : App) {o : Options} (ho : WellFormed o) (pre : List LoopEvent) (d : Nat)
    (es : List LoopEvent) {opening settling talking : List LoopEvent}
    (hbeg : ((Loop.init app o).run (pre ++ [.wake none d])).begun =
      ((Loop.init app o).run pre).begun ++ [((Loop.init app o).run pre).now])
    (hph : Phases es opening settling talking)
    {late : List (List UInt8 × Frame)} {n : Nat}
    (hs : SoundPort (bootOpening d opening settling) (talking.filterMap whileStarted) late n)
    (hled : NoLedYet ((Boot.init ((Loop.init app o).run pre).boot.app o true).run
      (bootOpening d opening settling ++ [.client (.connected (.ok ()))])) (talking.filterMap whileStarted) late n)
    (hw : Works (startup o true)
      (messagewise (bootOpening d opening settling) (talking.filterMap whileStarted) late n))
    (hu : LeftAlone (doneIn es)) (hc : .api (.setUart false) ∉ doneIn es) (hcancel : .cancel ∉ es)
    (hk : LoopKeepsUp (Loop.init app o) (pre ++ .wake none d :: es))
    (hn : ((Loop.init app o).run (pre ++ [.wake none d])).now + 508000 + loopOthers es <
      ((Loop.init app o).run (pre ++ .wake none d :: es)).now) :
    ((Loop.init app o).run (pre ++ .wake none d :: es)).pc = .ended (.ok ()) := by
  obtain ⟨hop, hboot⟩ := begins app o pre d hbeg
  have hfull := phases_left hph d hu hc fun k1 k2 k3 k4 =>
    (c85_port_never_fails _ ho true _ _ k1 hs hled k2 k3 k4 hw).1
  have hes : pre ++ .wake none d :: es = (pre ++ [.wake none d]) ++ es := by simp
  rw [hes] at hk hn ⊢
  have hpace := c84_pace app o (pre ++ [.wake none d]) es hk (.inl hop) hn
  rw [loop_append (Loop.init app o) (pre ++ [LoopEvent.wake none d])] at hpace ⊢
  generalize (Loop.init app o).run (pre ++ [.wake none d]) = l at *
  rcases attempt_run hop hph hcancel with h | ⟨h1, h2⟩ | ⟨a, b, e, hab, h⟩
  · exact h
  · exfalso
    rcases hpace with h | ⟨r, h⟩
    · rw [h2] at h; omega
    · rw [h1] at h; cases h
  · refine absurd ?_ (hfull e)
    rw [hboot, ← boot_append] at h
    have := raised_boots (b.filterMap whileStarted) h
    rw [← boot_append] at this
    rw [hab, List.filterMap_append, bootOpening, ← this]
    simp

/-! ### The slow radio over the port -/

/-- Each message in two pieces. -/
def slowAfter : List BootEvent :=
  .bytes ((wire (Frame.of .AREQ .ZDO 0xC0 [9])).drop 3) :: overPort exSlow

def slowLate : List (List UInt8 × Frame) :=
  ([], Frame.of .AREQ .ZDO 0xC0 [9]) :: (framesIn exSlow).map fun f => ([], f)

theorem slow_port : SoundPort bootBefore slowAfter slowLate 3 := by
  have hs : ∀ x ∈ bootEarly ++ slowLate, Noise x.1 ∧ soundly x.2 = true := by decide +kernel
  exact ⟨bootEarly, (wire (Frame.of .AREQ .ZDO 0xC0 [9])).take 3, [], by decide +kernel,
    fun x hx => ⟨(hs x hx).1, soundly_sound (hs x hx).2⟩, by decide +kernel, by decide +kernel,
    by intro x l h; cases h; decide⟩

theorem slow_check : unhurriedAll { prog := startup exampleOptions true }
    (messagewise bootBefore slowAfter slowLate 3) = true ∧
    (messagewise bootBefore slowAfter slowLate 3).all friendly = true ∧
    (portless (bootBefore ++ slowAfter)).all friendly = true ∧
    clientKeepsUpCheck (Client.run (startup exampleOptions true) (portless bootBefore ++ [.connected (.ok ())]))
      (portWeave slowAfter (perChunk slowLate 3 (portChunks slowAfter))) = true := by decide +kernel

example : ((Boot.init {} exampleOptions true).run
    (bootBefore ++ .client (.connected (.ok ())) :: slowAfter)).client.prog = .ret () := by
  obtain ⟨h1, h2, h3, h4⟩ := slow_check
  obtain ⟨-, -, w3⟩ := works_of (startup exampleOptions true) _ h1 h2
  have hf : ∀ ev ∈ portless (bootBefore ++ slowAfter), friendly ev = true := List.all_eq_true.mp h3
  refine c85_port {} ⟨rfl, rfl⟩ true bootBefore slowAfter bootBefore_unconnected slow_port
    (noLedYet_of _ _ _ _ _ (.inr (by decide +kernel))) ⟨.head _, by simp [bootBefore, portless]⟩ ?_ (leftAlone_friendly hf) w3
    (clientKeepsUp_of _ _ _ h4) (by decide +kernel)
  intro h
  cases hf _ (mem_portless (List.mem_append_right _ h) fun f h => by cases h)

/-- The loop of C84: in its second attempt the radio did not work. -/
example : ∀ x ∈ ((Loop.init {} exampleOptions).run (loopFirst ++ loopSecond ++ loopThird)).failed,
    (∃ pre d post, loopFirst ++ loopSecond ++ loopThird = pre ++ .wake (some x.2) d :: post) ∨
    ∃ pre d mid post opening settling talking,
      loopFirst ++ loopSecond ++ loopThird = pre ++ .wake none d :: (mid ++ post) ∧
      Phases mid opening settling talking ∧
      ∀ late n, SoundPort (bootOpening d opening settling) (talking.filterMap whileStarted) late n →
        NoLedYet ((Boot.init ((Loop.init {} exampleOptions).run pre).boot.app exampleOptions true).run
          (bootOpening d opening settling ++ [.client (.connected (.ok ()))]))
          (talking.filterMap whileStarted) late n →
        ¬ Works (startup exampleOptions true)
          (messagewise (bootOpening d opening settling) (talking.filterMap whileStarted) late n) := by
  intro x hx
  have hf : ∀ ev ∈ doneIn (loopFirst ++ loopSecond ++ loopThird), friendly ev = true :=
    List.all_eq_true.mp (by decide +kernel)
  rcases c85_loop {} (o := exampleOptions) ⟨rfl, rfl⟩ (loopFirst ++ loopSecond ++ loopThird)
    (leftAlone_friendly hf) (fun h => by cases hf _ h) x hx with
    ⟨pre, d, post, h, -⟩ | ⟨pre, d, mid, post, op, st, ta, h1, -, -, h2, h3⟩
  · exact .inl ⟨pre, d, post, h⟩
  · exact .inr ⟨pre, d, mid, post, op, st, ta, h1, h2, h3⟩

/-- The slow radio in the loop. -/
def slowTalking : List LoopEvent :=
  slowAfter.map fun
    | .bytes c => .bytes c
    | .client (.api (.tick ms)) => .tick ms
    | .client e => .client e

def slowSettling : List LoopEvent :=
  [.tick 1000, .bytes (portStream bootEarly), .bytes ((wire (Frame.of .AREQ .ZDO 0xC0 [9])).take 3)]

theorem slow_sound : SoundPort (bootOpening 20 [] slowSettling) (slowTalking.filterMap whileStarted)
    slowLate 3 := by
  have hs : ∀ x ∈ bootEarly ++ slowLate, Noise x.1 ∧ soundly x.2 = true := by decide +kernel
  exact ⟨bootEarly, (wire (Frame.of .AREQ .ZDO 0xC0 [9])).take 3, [], by decide +kernel,
    fun x hx => ⟨(hs x hx).1, soundly_sound (hs x hx).2⟩, by decide +kernel, by decide +kernel,
    by intro x l h; cases h; decide⟩

theorem slow_loop :
    unhurriedAll { prog := startup exampleOptions true }
      (messagewise (bootOpening 20 [] slowSettling) (slowTalking.filterMap whileStarted) slowLate 3) = true ∧
    (messagewise (bootOpening 20 [] slowSettling) (slowTalking.filterMap whileStarted)
      slowLate 3).all friendly = true ∧
    loopKeepsUpCheck (Loop.init {} exampleOptions) ([.tick 5000] ++ .wake none 20 ::
      ([] ++ .made :: slowSettling ++ .settled :: slowTalking)) = true := by decide +kernel

example : ((Loop.init {} exampleOptions).run ([.tick 5000] ++ .wake none 20 ::
    ([] ++ .made :: slowSettling ++ .settled :: slowTalking))).pc = .ended (.ok ()) := by
  obtain ⟨h1, h2, h3⟩ := slow_loop
  obtain ⟨-, -, w3⟩ := works_of (startup exampleOptions true) _ h1 h2
  have hf : ∀ ev ∈ doneIn ([] ++ .made :: slowSettling ++ .settled :: slowTalking), friendly ev = true :=
    List.all_eq_true.mp (by decide +kernel)
  have hn : ∀ e ∈ ([] ++ .made :: slowSettling ++ .settled :: slowTalking),
      (match e with | .cancel => false | _ => true) = true := List.all_eq_true.mp (by decide +kernel)
  exact c85_reconnects {} ⟨rfl, rfl⟩ [.tick 5000] 20 _ rfl
    ⟨rfl, by simp, by decide, by
      intro a b h
      have := congrArg (LoopEvent.settled ∈ ·) h
      simp [slowSettling] at this⟩
    slow_sound (noLedYet_of _ _ _ _ _ (.inr (by decide +kernel))) w3 (leftAlone_friendly hf) (fun h => by cases hf _ h)
    (fun h => by cases hn _ h)
    (loopKeepsUp_of _ [] h3) (by decide +kernel)

end Zcc
