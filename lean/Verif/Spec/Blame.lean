import Verif.Spec.Reports

/-!
# Specification: for which reasons start-up may fail

`p` is a coroutine on a new API object, `evs` what has happened so far.
-/

namespace Zcc.Spec

open Zcc

/-- The port was closed when the coroutine began a request or waited for its turn. -/
def PortLost {α : Type} (p : Prog α) (evs : List ClientEvent) : Prop :=
  ∃ a ev b sub command payload expected k, evs = a ++ ev :: b ∧
    (Client.run p a).prog = .call (.request sub command payload expected) k ∧
    ((Client.run p a).pend = .idle → ev = .go) ∧ (Client.run p a).api.uart = false

/-- Somebody cancelled the coroutine, the call it was waiting for, or a waiter it had made. -/
def Interrupted {α : Type} (p : Prog α) (evs : List ClientEvent) : Prop :=
  ∃ a ev b, evs = a ++ ev :: b ∧
    (ev = .cancel ∧ (Client.run p a).pend ≠ .idle ∨
     (∃ t, ev = .api (.cancel t) ∧ (Client.run p a).pend = .call t) ∨
     ∃ m timeout w, ev = .api (.abandon w) ∧
       (⟨.waitFor m timeout, .ok w⟩ : Act) ∈ (Client.run p a).hist)

/-- The time limit of a request of start-up, in ms: APP_CNF_BDB_START_COMMISSIONING and
ZDO_STARTUP_FROM_APP take longer, and so does a reset, the only request that is not synchronous. -/
def answerLimit (ask : Frame) : Nat :=
  if ask.commandType = .AREQ then 30000
  else if (ask.subsystem, ask.commandId) = (.APP_CNF, 0x05) ∨ (ask.subsystem, ask.commandId) = (.ZDO, 0x40)
    then 20000
  else 6000

/-- The message has the layout of its kind. -/
def WellLaid (f : Frame) : Prop :=
  ∃ r ∈ reports, r.1 = f.commandType ∧ r.2.1 = f.subsystem ∧ r.2.2.1 = f.commandId ∧
    (readLayout 0 r.2.2.2.2 f.data).isSome

/-- The message that ends the request `ask`: its synchronous response, or, for a reset, the notification
SYS_RESET_IND. -/
def Concludes (ask f : Frame) : Prop :=
  WellLaid f ∧
  if ask.commandType = .AREQ then f.commandType = .AREQ ∧ f.subsystem = .SYS ∧ f.commandId = 0x80
  else f.commandType = .SRSP ∧ f.subsystem = ask.subsystem ∧ f.commandId = ask.commandId

/-- The coroutine wrote the request `ask` to the port, and the time limit went by without the message
that ends it. -/
def Unanswered {α : Type} (p : Prog α) (evs : List ClientEvent) (ask : Frame) : Prop :=
  ∃ a b t x time, evs = a ++ b ∧ (Client.run p a).pend = .call t ∧
    [Entry.registered x time, .sent t (wire ask)] <:+: (Client.run p a).api.log ∧
    time + answerLimit ask ≤ (Client.run p a).api.now ∧
    ∀ a' f b', a = a' ++ .api (.frame f) :: b' → .registered x time ∈ (Client.run p a').api.log →
      (Client.run p a').api.now < time + answerLimit ask → ¬ Concludes ask f

/-- The coroutine waited for a message that `m` describes, and in the whole time since it had begun to
listen there was none, except messages that a waiter with a transaction number took first. -/
def InVain {α : Type} (p : Prog α) (evs : List ClientEvent) (m : Matcher) (timeout : Nat) : Prop :=
  ∃ a b w d time, evs = a ++ b ∧ (Client.run p a).pend = .wait w d ∧
    .registered { id := w, matcher := m, timeout, sequence := none } time ∈ (Client.run p a).api.log ∧
    time + timeout ≤ (Client.run p a).api.now ∧
    ∀ a' f b' rsp, a = a' ++ .api (.frame f) :: b' →
      .registered { id := w, matcher := m, timeout, sequence := none } time ∈ (Client.run p a').api.log →
      (Client.run p a').api.now < time + timeout → Obj.fromUnpiFrame f = .ok rsp → Answers m rsp →
      ∃ y ∈ (Client.run p a').api.waiters, y.sequence ≠ none ∧ Answers y.matcher rsp

/-- The status values that start-up accepts in the response to a frame: 2 says that an item was created
when it was read, 9 that it did not exist, 1 that there was no network or group yet. -/
def acceptedStatus (ask : Frame) : List UInt8 :=
  match ask.subsystem, ask.commandId with
  | .SYS, 0x08 => if ask = nvRead 0x0F00 ∨ ask = nvRead 0x60 then [0, 2] else [0]
  | .SYS, 0x07 => [0, 9]
  | .ZDO, 0x40 | .ZDO, 0x4A => [0, 1]
  | _, _ => [0]

/-- The state change that start-up waits for: coordinator started. -/
def startedMatcher : Matcher := ⟨.AREQ, .ZDO, "stateChangeInd", [("state", .int 9)]⟩

/-- The list of active endpoints that start-up waits for. -/
def endpointsMatcher : Matcher := ⟨.AREQ, .ZDO, "activeEpRsp", []⟩

/-- SYS_PING and SYS_VERSION. -/
def ping : Frame := Frame.of .SREQ .SYS 0x01 []

@[inherit_doc ping] def versionReq : Frame := Frame.of .SREQ .SYS 0x02 []

/-- The coroutine wrote a request other than SYS_PING and SYS_VERSION, and while it waited for the
response one was received whose status `z` start-up does not accept. -/
def Refused {α : Type} (p : Prog α) (evs : List ClientEvent) (z : UInt8) : Prop :=
  ∃ a b t ask f n rest, evs = a ++ b ∧ (Client.run p a).pend = .call t ∧
    [Entry.sent t (wire ask), .received f n].Sublist (Client.run p a).api.log ∧
    f.commandType = .SRSP ∧ f.subsystem = ask.subsystem ∧ f.commandId = ask.commandId ∧
    (ask.subsystem, ask.commandId) ≠ (.SYS, 0x01) ∧ (ask.subsystem, ask.commandId) ≠ (.SYS, 0x02) ∧
    f.data = z :: rest ∧ z ∉ acceptedStatus ask

/-- `Blame p evs e`: there is a reason for a start-up to raise `e`. -/
inductive Blame {α : Type} (p : Prog α) (evs : List ClientEvent) : PyErr → Prop where
  /-- no connection to the radio -/
  | connect {e} (h : (⟨.connect, .error e⟩ : Act) ∈ (Client.run p evs).hist) : Blame p evs e
  /-- the connection was lost -/
  | closed (h : PortLost p evs) : Blame p evs .attributeError
  /-- cancelled -/
  | cancelled (h : Interrupted p evs) : Blame p evs .cancelledError
  /-- the radio did not answer a request in time -/
  | unanswered {ask} (h : Unanswered p evs ask) : Blame p evs .timeoutError
  /-- the radio refused a command -/
  | refused {z} (h : Refused p evs z) : Blame p evs (.commandError z.toNat)
  /-- the radio did not report that the network was started within a minute -/
  | notStarted (h : InVain p evs startedMatcher 60000)
      (hl : (frames (Client.run p evs).hist).getLast? = some startupFromApp) : Blame p evs .timeoutError
  /-- the same, while the radio was initialised -/
  | notCommissioned (h : InVain p evs startedMatcher 60000)
      (hl : (frames (Client.run p evs).hist).getLast? = some (commission 4)) : Blame p evs .exception
  /-- the radio did not report its endpoints within ten seconds -/
  | noEndpoints (h : InVain p evs endpointsMatcher 10000)
      (hl : (frames (Client.run p evs).hist).getLast? = some activeEpReq) : Blame p evs .timeoutError
  /-- the radio is of an unknown kind -/
  | product {f a b rest} (h : Exchanged (Client.run p evs).api.log versionReq f)
      (hf : f.data = a :: b :: rest) (hb : 2 < b) : Blame p evs .valueError

end Zcc.Spec
