import Verif.Proofs.StartBlame
import Verif.Props.Reports
import Verif.Props.ClientBounded

/-!
# Start-up fails only for a reason: C81
-/

namespace Zcc
open Spec

/-- **C81.** The start-up of the application raises an exception only for a reason, and the exception
fits the reason: no connection (whatever that raised), connection lost (`AttributeError`), cancelled
(`CancelledError`), a request without an answer in its time limit (`TimeoutError`), a request that the
radio refused (`CommandError` with the status that the radio sent, and only if that status is not one of
those that are accepted for this request), no report that the network was started in 60 s
(`TimeoutError`; `Exception` while the radio is initialised), no list of endpoints in 10 s
(`TimeoutError`), or a radio of an unknown kind (`ValueError`). No answer of the radio leads to any other
exception. -/
theorem c81_startup {o : Options} (ho : WellFormed o) {autoForm : Bool} (evs : List ClientEvent)
    (hu : Unshared evs (Client.run (startup o autoForm) evs).hist)
    (hreg : ∀ m timeout q, ClientEvent.api (.register m timeout q) ∈ evs → StartupMatcher m ∧ q = none)
    {e : PyErr} (hr : (Client.run (startup o autoForm) evs).prog = .raise e) :
    Blame (startup o autoForm) evs e :=
  blame_of (blames_startup o autoForm) (asks_startup ho autoForm) hu hreg hr

/-- C81: the same for `form_network`. -/
theorem c81_form {version : Int} {o : Options} (ho : WellFormed o) (evs : List ClientEvent)
    (hu : Unshared evs (Client.run (formNetwork version o) evs).hist)
    (hreg : ∀ m timeout q, ClientEvent.api (.register m timeout q) ∈ evs → StartupMatcher m ∧ q = none)
    {e : PyErr} (hr : (Client.run (formNetwork version o) evs).prog = .raise e) :
    Blame (formNetwork version o) evs e :=
  blame_of (blames_form version o) (asks_form ho version) hu hreg hr

/-- C81: within the time that C79 gives, `startup` has returned, or has raised for a reason. -/
theorem c81_outcome {o : Options} (ho : WellFormed o) (autoForm : Bool) (before after : List ClientEvent)
    (hb : ∀ r, ClientEvent.connected r ∉ before)
    (hk : ClientKeepsUp (startup o autoForm) (before ++ [.connected (.ok ())]) after)
    (hn : (Client.run (startup o autoForm) before).api.now +
        limitsAhead (Client.run (startup o autoForm) before).api.nextTid
          (Client.run (startup o autoForm) before).api.log +
        othersLimits after + 502000 <
      (Client.run (startup o autoForm) (before ++ [.connected (.ok ())] ++ after)).api.now)
    (hu : Unshared (before ++ [.connected (.ok ())] ++ after)
      (Client.run (startup o autoForm) (before ++ [.connected (.ok ())] ++ after)).hist)
    (hreg : ∀ m timeout q, ClientEvent.api (.register m timeout q) ∈
      before ++ [.connected (.ok ())] ++ after → StartupMatcher m ∧ q = none) :
    (Client.run (startup o autoForm) (before ++ [.connected (.ok ())] ++ after)).prog = .ret () ∨
    ∃ e, (Client.run (startup o autoForm) (before ++ [.connected (.ok ())] ++ after)).prog = .raise e ∧
      Blame (startup o autoForm) (before ++ [.connected (.ok ())] ++ after) e := by
  rcases c79_startup o autoForm before after hb hk hn with ⟨⟨⟩, h⟩ | ⟨e, h⟩
  · exact .inl h
  · exact .inr ⟨e, h, c81_startup ho _ hu hreg h⟩

/-- The exception that a coroutine has ended with. -/
def raised {α : Type} : Prog α → Option PyErr
  | .raise e => some e
  | _ => none

theorem raised_eq {α : Type} {p : Prog α} {e : PyErr} (h : raised p = some e) : p = .raise e := by
  cases p with
  | raise e' => cases h; rfl
  | _ => cases h

/-- Nobody registers waiters. -/
def modest (evs : List ClientEvent) : Bool :=
  evs.all fun | .api (.register ..) => false | _ => true

theorem modest_polite {evs : List ClientEvent} (h : modest evs = true) : ∀ m timeout q,
    ClientEvent.api (.register m timeout q) ∈ evs → StartupMatcher m ∧ q = none := by
  intro m timeout q hm
  cases List.all_eq_true.mp h _ hm

/-- The radio answers the ping and then says that it is of kind 7; the same with an acceptable kind and
a refused request for the device information; and it does not answer the version request. -/
def exReasons : List (List ClientEvent × PyErr) :=
  let begun : List ClientEvent := [.api (.setUart true), .connected (.ok ()), .go,
    .api (.frame (Frame.of .SRSP .SYS 1 [0x79, 0x01])), .api (.wake 0), .go, .go]
  [(begun ++ [.api (.frame (Frame.of .SRSP .SYS 2 [2, 7, 2, 6, 3, 0, 0, 0, 0])), .api (.wake 1), .go, .go],
    .valueError),
   (begun ++ [.api (.frame (Frame.of .SRSP .SYS 2 [2, 1, 2, 6, 3, 0, 0, 0, 0])), .api (.wake 1), .go, .go,
     .go, .api (.frame (Frame.of .SRSP .UTIL 0 [3, 1, 2, 3, 4, 5, 6, 7, 8, 0, 0, 7, 9, 0])), .api (.wake 2), .go],
    .commandError 3),
   (begun ++ [.api (.tick 6000), .api (.timeout 1), .go], .timeoutError)]

example : ∀ x ∈ exReasons, Blame (startup exampleOptions false) x.1 x.2 := by
  have h : ∀ x ∈ exReasons, raised (Client.run (startup exampleOptions false) x.1).prog = some x.2 ∧
      Radio.alone x.1 = true ∧ modest x.1 = true := by decide +kernel
  intro x hx
  obtain ⟨h1, h2, h3⟩ := h x hx
  exact c81_startup ⟨rfl, rfl⟩ x.1 (Radio.alone_unshared (Radio.alone_alone h2)) (modest_polite h3)
    (raised_eq h1)

/-- `form_network` while the port is closed. -/
example : Blame (formNetwork 1 exampleOptions) [.go, .go] .attributeError :=
  c81_form ⟨rfl, rfl⟩ [.go, .go] (Radio.alone_unshared (Radio.alone_alone (by decide)))
    (modest_polite (by decide)) (raised_eq (by decide +kernel))

/-- The radio of C79's example, which stops answering. -/
example : ∃ e, Blame (startup exampleOptions true)
    ([.api (.setUart true), .go] ++ [.connected (.ok ())] ++ exStuck) e := by
  rcases c81_outcome (o := exampleOptions) ⟨rfl, rfl⟩ true [.api (.setUart true), .go] exStuck
    (by intro r h; simp at h) (clientKeepsUp_of _ _ _ (by decide +kernel)) (by decide +kernel)
    (Radio.alone_unshared (Radio.alone_alone (by decide))) (modest_polite (by decide)) with h | ⟨e, -, h⟩
  · have hr : raised (Client.run (startup exampleOptions true)
      ([.api (.setUart true), .go] ++ [.connected (.ok ())] ++ exStuck)).prog = some .timeoutError := by
      decide +kernel
    rw [h] at hr
    cases hr
  · exact ⟨e, h⟩

/-- The radio is a Z-Stack 3.x.0 that is marked as configured, but has no channel list. -/
def exUnreadable : List ClientEvent :=
  [.api (.setUart true), .connected (.ok ()), .go,
   .api (.frame (Frame.of .SRSP .SYS 1 [0x79, 0x01])), .api (.wake 0), .go, .go,
   .api (.frame (Frame.of .SRSP .SYS 2 [2, 1, 2, 6, 3, 0, 0, 0, 0])), .api (.wake 1), .go, .go, .go,
   .api (.frame (Frame.of .SRSP .SYS 8 [0, 1, 0x55])), .api (.wake 2), .go, .go,
   .api (.frame (Frame.of .SRSP .SYS 8 [0, 1, 0x55])), .api (.wake 3), .go, .go,
   .api (.frame (Frame.of .SRSP .SYS 8 [2, 0])), .api (.wake 4), .go]

/-- C81: a setting that cannot be read does not lead to a new initialisation, as one with another value
does: `startup` raises `CommandError` with the status, and nothing was written to the radio but reads. -/
theorem c81_unreadable : (Client.run (startup exampleOptions true) exUnreadable).prog =
      .raise (.commandError 2) ∧
    writes (Client.run (startup exampleOptions true) exUnreadable).api.log =
      ([ping, versionReq, nvRead 0x60, nvRead 0x60, nvRead 0x84].map wire) :=
  ⟨raised_eq (by decide +kernel), by decide +kernel⟩

example : Refused (startup exampleOptions true) exUnreadable 2 := by
  have := c81_startup (o := exampleOptions) ⟨rfl, rfl⟩ exUnreadable
    (Radio.alone_unshared (Radio.alone_alone (by decide))) (modest_polite (by decide)) c81_unreadable.1
  generalize he : PyErr.commandError 2 = e at this
  cases this with
  | refused h =>
    injection he with he
    rename_i z
    have : z = 2 := UInt8.toNat_inj.mp (by simp; omega)
    exact this ▸ h
  | connect h =>
    exfalso
    subst he
    have hd : (Client.run (startup exampleOptions true) exUnreadable).hist.all (fun
      | ⟨.connect, .error _⟩ => false | _ => true) = true := by decide +kernel
    cases List.all_eq_true.mp hd _ h
  | _ => cases he

end Zcc
