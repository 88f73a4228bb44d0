import Verif.Proofs.Works

/-! # A radio that works is started (C85) -/

namespace Zcc
open Spec

/-- **C85.** If the port is open when the connection is made and stays so, and the radio works, the
start-up of the application does not raise an exception at any time, whatever else the radio sends,
whatever is stored on it, and whatever requests others make meanwhile. -/
theorem c85_never_fails {o : Options} (ho : WellFormed o) (autoForm : Bool) (before after : List ClientEvent)
    (hb : ∀ r, ClientEvent.connected r ∉ before) (hp : PortOpened before)
    (hc : .api (.setUart false) ∉ after)
    (hu : LeftAlone (before ++ [.connected (.ok ())] ++ after))
    (hw : Works (startup o autoForm) (before ++ [.connected (.ok ())] ++ after)) (e : PyErr) :
    (Client.run (startup o autoForm) (before ++ [.connected (.ok ())] ++ after)).prog ≠ .raise e := by
  intro hr
  refine no_blame hu ?_ hw e (c81_startup ho _ (leftAlone_unshared hu _) (leftAlone_polite hu) hr)
  rintro ⟨a, ev, b, sub, command, payload, expected, k, hab, hprog, -, hua⟩
  have hopen : PortOpened a := by
    have later : ∀ c d, a = before ++ [.connected (.ok ())] ++ c → after = c ++ d → PortOpened a := by
      intro c d h1 h2
      rw [h1]
      refine portOpened_more (portOpened_more hp (by simp)) fun hm => hc ?_
      rw [h2]
      exact List.mem_append_left _ hm
    rcases List.append_eq_append_iff.mp hab with ⟨c, h1, h2⟩ | ⟨c, h1, h2⟩
    · exact later c (ev :: b) h1 h2
    · rcases List.eq_nil_or_concat c with rfl | ⟨c, x, rfl⟩
      · exact later [] after (by simpa using h1.symm) rfl
      · exfalso
        rw [List.concat_eq_append, ← List.append_assoc] at h1
        have h1 := (List.append_inj' h1 rfl).1
        obtain ⟨k', hs, -⟩ := takes_startup o autoForm
        have hn : ∀ r, ClientEvent.connected r ∉ a := fun r hm => hb r (by
          rw [h1]; exact List.mem_append_left _ hm)
        have := (before_connect a { prog := startup o autoForm } hs rfl rfl hn).1
        have hprog : (a.foldl Client.step { prog := startup o autoForm }).prog = _ := hprog
        rw [this] at hprog
        cases hprog
  rw [client_open _ a hopen] at hua
  cases hua

/-- C85: ... and it returns, 502 seconds after the connection was made at the latest, and the time limits
of the requests that others had made or make meanwhile. -/
theorem c85_startup {o : Options} (ho : WellFormed o) (autoForm : Bool) (before after : List ClientEvent)
    (hb : ∀ r, ClientEvent.connected r ∉ before) (hp : PortOpened before)
    (hc : .api (.setUart false) ∉ after)
    (hu : LeftAlone (before ++ [.connected (.ok ())] ++ after))
    (hw : Works (startup o autoForm) (before ++ [.connected (.ok ())] ++ after))
    (hk : ClientKeepsUp (startup o autoForm) (before ++ [.connected (.ok ())]) after)
    (hn : (Client.run (startup o autoForm) before).api.now +
        limitsAhead (Client.run (startup o autoForm) before).api.nextTid
          (Client.run (startup o autoForm) before).api.log +
        othersLimits after + 502000 <
      (Client.run (startup o autoForm) (before ++ [.connected (.ok ())] ++ after)).api.now) :
    (Client.run (startup o autoForm) (before ++ [.connected (.ok ())] ++ after)).prog = .ret () := by
  rcases c79_startup o autoForm before after hb hk hn with ⟨⟨⟩, h⟩ | ⟨e, h⟩
  · exact h
  · exact absurd h (c85_never_fails ho autoForm before after hb hp hc hu hw e)

/-- C85: the same for `form_network`, within 484 seconds after it was called. -/
theorem c85_form {version : Int} {o : Options} (ho : WellFormed o) (before : List Event)
    (after : List ClientEvent) (hp : PortOpened (before.map .api)) (hc : .api (.setUart false) ∉ after)
    (hu : LeftAlone (before.map .api ++ after))
    (hw : Works (formNetwork version o) (before.map .api ++ after))
    (hk : ClientKeepsUp (formNetwork version o) (before.map .api) after)
    (hn : (Api.init.run before).now +
        limitsAhead (Api.init.run before).nextTid (Api.init.run before).log +
        othersLimits after + 484000 <
      (Client.run (formNetwork version o) (before.map .api ++ after)).api.now) :
    (Client.run (formNetwork version o) (before.map .api ++ after)).prog = .ret () := by
  rcases c79_form version o before after hk hn with ⟨⟨⟩, h⟩ | ⟨e, h⟩
  · exact h
  · exfalso
    refine no_blame hu ?_ hw e (c81_form ho _ (leftAlone_unshared hu _) (leftAlone_polite hu) h)
    rintro ⟨a, ev, b, sub, command, payload, expected, k, hab, hprog, hgo, hua⟩
    have hopen : PortOpened a := by
      rcases List.append_eq_append_iff.mp hab with ⟨c, h1, h2⟩ | ⟨c, h1, h2⟩
      · rw [h1]
        refine portOpened_more hp fun hm => hc ?_
        rw [h2]
        exact List.mem_append_left _ hm
      · cases c with
        | nil =>
          rw [List.append_nil] at h1
          exact h1 ▸ hp
        | cons x c =>
          exfalso
          cases h2
          obtain ⟨l1, l2, rfl, e1, e2⟩ := List.map_eq_append_iff.mp h1
          cases l2 with
          | nil => cases e2
          | cons y l2 =>
            cases e2
            have := hgo (by rw [← e1]; exact (before_go _ l1).2.1)
            cases this
    rw [client_open _ a hopen] at hua
    cases hua

/-! ### A radio that takes its time -/

/-- The radio takes two seconds for each synchronous answer. -/
def slowly : List ClientEvent → List ClientEvent
  | .api (.frame f) :: evs =>
    if f.commandType = .SRSP ∧ (f.subsystem, f.commandId) ≠ (.ZDO, 0x05) ∧
      (f.subsystem, f.commandId) ≠ (.UTIL, 0x0A)
    then .api (.tick 2000) :: .api (.frame f) :: slowly evs
    else .api (.frame f) :: slowly evs
  | ev :: evs => ev :: slowly evs
  | [] => []

/-- The radio has neither settings nor a network; all is done in less than two minutes. -/
def exSlow : List ClientEvent := (slowly exampleStartup).drop 3 ++ [.api (.tick 503000)]

/-- Checks that no time limit is over. -/
def unhurried {α : Type} (c : Client α) : Bool :=
  match c.pend with
  | .call t => (c.api.log.zip (c.api.log.drop 1)).all fun
    | (.registered _ time, .sent t' _) => decide (t' = t → c.api.now < time + 6000)
    | _ => true
  | .wait w _ => c.api.log.all fun
    | .registered x time => decide (x.id = w → c.api.now < time + 10000)
    | _ => true
  | .idle => true

def unhurriedAll {α : Type} : Client α → List ClientEvent → Bool
  | c, [] => unhurried c
  | c, ev :: evs => unhurried c && unhurriedAll (c.step ev) evs

/-- Checks that all is accepted. -/
def friendly : ClientEvent → Bool
  | .api (.frame f) => f.commandType != .SRSP ||
    (if (f.subsystem, f.commandId) = (.SYS, 0x01) then true
     else if (f.subsystem, f.commandId) = (.SYS, 0x02) then decide ((f.data[1]?.getD 0) ≤ 2)
     else f.data.head? == some 0)
  | .connected (.error _) | .cancel | .api (.cancel _) | .api (.abandon _) | .api (.register ..)
  | .api (.registerResponse ..) | .api (.submit ..) | .api (.setUart false) => false
  | _ => true

theorem exSlow_check : unhurriedAll { prog := startup exampleOptions true }
    ([.api (.setUart true)] ++ [.connected (.ok ())] ++ exSlow) = true ∧
    exSlow.all friendly = true ∧
    clientKeepsUpCheck (Client.run (startup exampleOptions true)
      ([.api (.setUart true)] ++ [.connected (.ok ())])) exSlow = true := by decide +kernel

theorem friendly_frame (f : Frame) : friendly (.api (.frame f)) = (f.commandType != .SRSP ||
    (if (f.subsystem, f.commandId) = (.SYS, 0x01) then true
     else if (f.subsystem, f.commandId) = (.SYS, 0x02) then decide ((f.data[1]?.getD 0) ≤ 2)
     else f.data.head? == some 0)) := rfl

theorem arrives_frame {ev : ClientEvent} {f : Frame}
    (h : (match ev with | .api e => e.arrives | _ => none) = some f) : ev = .api (.frame f) := by
  cases ev with
  | api e =>
    cases e with
    | frame g =>
      change Event.arrives _ = _ at h
      unfold Event.arrives at h
      dsimp only at h
      split at h
      · cases h; rfl
      · cases h
    | _ => cases h
  | _ => cases h

theorem leftAlone_friendly {evs : List ClientEvent} (hf : ∀ ev ∈ evs, friendly ev = true) : LeftAlone evs := by
  intro ev hm
  have := hf ev hm
  revert this
  unfold friendly
  split <;> simp_all

/-- What the checks are good for. -/
theorem works_of {α : Type} (p : Prog α) (evs : List ClientEvent)
    (h1 : unhurriedAll { prog := p } evs = true) (h2 : evs.all friendly = true) :
    LeftAlone evs ∧ .api (.setUart false) ∉ evs ∧ Works p evs := by
  have hf : ∀ ev ∈ evs, friendly ev = true := List.all_eq_true.mp h2
  have hun : ∀ (evs : List ClientEvent) (c : Client α), unhurriedAll c evs = true →
      ∀ a b, evs = a ++ b → unhurried (a.foldl Client.step c) = true := by
    intro evs
    induction evs with
    | nil =>
      intro c h a b hab
      obtain ⟨rfl, -⟩ := List.append_eq_nil_iff.mp hab.symm
      exact h
    | cons ev evs ih =>
      intro c h a b hab
      rw [unhurriedAll, Bool.and_eq_true] at h
      cases a with
      | nil => exact h.1
      | cons x a =>
        cases hab
        exact ih _ h.2 a b rfl
  have hun := hun evs _ h1
  have hrec : ∀ a b, evs = a ++ b → ∀ f n, .received f n ∈ (Client.run p a).api.log →
      friendly (.api (.frame f)) = true := by
    intro a b hab f n hm
    have h4 : f ∈ (Client.run p a).api.log.filterMap Entry.frame? := List.mem_filterMap.mpr ⟨_, hm, rfl⟩
    rw [client_arrived p a] at h4
    obtain ⟨ev, h5, h6⟩ := List.mem_filterMap.mp h4
    have : ev = .api (.frame f) := arrives_frame h6
    rw [← this]
    exact hf ev (by rw [hab]; exact List.mem_append_left _ h5)
  have calls : ∀ a b, evs = a ++ b → ∀ t x time bytes, (Client.run p a).pend = .call t →
      [Entry.registered x time, .sent t bytes] <:+: (Client.run p a).api.log →
      (Client.run p a).api.now < time + 6000 := by
    intro a b hab t x time bytes hp ⟨l1, l2, hl⟩
    have := hun a b hab
    have hp' : (a.foldl Client.step { prog := p }).pend = .call t := hp
    unfold unhurried at this
    rw [hp'] at this
    dsimp only at this
    have hz : (Entry.registered x time, Entry.sent t bytes) ∈
        (Client.run p a).api.log.zip ((Client.run p a).api.log.drop 1) := by
      rw [← hl]
      refine List.mem_iff_getElem?.mpr ⟨l1.length, ?_⟩
      rw [List.getElem?_zip_eq_some]
      simp [List.append_assoc]
    have := List.all_eq_true.mp this _ hz
    dsimp only at this
    exact of_decide_eq_true this rfl
  have waits : ∀ a b, evs = a ++ b → ∀ w d x time, (Client.run p a).pend = .wait w d →
      .registered x time ∈ (Client.run p a).api.log → x.id = w →
      (Client.run p a).api.now < time + 10000 := by
    intro a b hab w d x time hp hm hx
    have := hun a b hab
    have hp' : (a.foldl Client.step { prog := p }).pend = .wait w d := hp
    unfold unhurried at this
    rw [hp'] at this
    dsimp only at this
    have := List.all_eq_true.mp this _ hm
    dsimp only at this
    exact of_decide_eq_true this hx
  refine ⟨?_, fun hm => ?_, ?_, ?_, ?_, ?_, ?_⟩
  · exact leftAlone_friendly hf
  · cases hf _ hm
  · intro a b t x time ask hab hp hl hn
    have := calls a b hab t x time _ hp hl
    unfold answerLimit at hn
    split at hn
    · omega
    · split at hn <;> omega
  · intro a b t ask f n z rest hab hp hl e1 e2 e3 n1 n2 hd
    have := hrec a b hab f n (hl.subset (by simp))
    rw [friendly_frame, e1, e2, e3, if_neg n1, if_neg n2, hd] at this
    have hz : z = 0 := by simpa using this
    subst hz
    unfold acceptedStatus
    split
    · split <;> decide
    all_goals decide
  · intro a b w d time hab hp hm hn
    have := waits a b hab w d _ time hp hm rfl
    omega
  · intro a b w d time hab hp hm hn
    have := waits a b hab w d _ time hp hm rfl
    omega
  · rintro f x y rest ⟨t, n, hl, e1, e2, e3⟩ hd
    have := hrec evs [] (by simp) f n (hl.subset (by simp))
    rw [friendly_frame, e1, e2, e3, hd] at this
    have h : decide (y ≤ 2) = true := this
    exact of_decide_eq_true h

example : (Client.run (startup exampleOptions true)
    ([.api (.setUart true)] ++ [.connected (.ok ())] ++ exSlow)).prog = .ret () := by
  obtain ⟨h1, h2, h3⟩ := exSlow_check
  obtain ⟨w1, w2, w3⟩ := works_of (startup exampleOptions true) _ h1 (by
    rw [List.all_append, h2]; decide)
  exact c85_startup ⟨rfl, rfl⟩ true [.api (.setUart true)] exSlow (by intro r h; simp at h)
    ⟨.head _, by simp⟩ (fun h => w2 (List.mem_append_right _ h)) w1 w3 (clientKeepsUp_of _ _ _ h3)
    (by decide +kernel)

/-- The same for `form_network` on such a radio. -/
def exForm : List ClientEvent :=
  (slowly (Radio.session 0 100 (fun _ => none) (formNetwork 1 exampleOptions))).drop 1 ++ [.api (.tick 503000)]

theorem exForm_check : unhurriedAll { prog := formNetwork 1 exampleOptions }
    ([Event.setUart true].map .api ++ exForm) = true ∧ exForm.all friendly = true ∧
    clientKeepsUpCheck (Client.run (formNetwork 1 exampleOptions) ([Event.setUart true].map .api)) exForm =
      true := by decide +kernel

example : (Client.run (formNetwork 1 exampleOptions) ([Event.setUart true].map .api ++ exForm)).prog =
    .ret () := by
  obtain ⟨h1, h2, h3⟩ := exForm_check
  obtain ⟨w1, w2, w3⟩ := works_of (formNetwork 1 exampleOptions) _ h1 (by
    rw [List.all_append, h2]; decide)
  exact c85_form ⟨rfl, rfl⟩ [.setUart true] exForm ⟨.head _, by simp⟩
    (fun h => w2 (List.mem_append_right _ h)) w1 w3 (clientKeepsUp_of _ _ _ h3) (by decide +kernel)

end Zcc
