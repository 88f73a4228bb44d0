import Verif.Spec.Blame
import Verif.Spec.Boot
import Verif.Spec.Loop

/-!
# Specification of a radio that works

What is asked of the radio (and of its surroundings) for start-up to succeed. `p` is a coroutine on a new
API object, `evs` what has happened so far. The messages are described as frames, byte by byte.
-/

namespace Zcc.Spec

open Zcc

/-- The connection is made; nobody cancels the coroutine, a call or a waiter; nobody else listens to
messages on this API object or passes waiters to it. Others may make requests. -/
def LeftAlone (evs : List ClientEvent) : Prop :=
  ∀ ev ∈ evs, match ev with
    | .connected (.error _) | .cancel | .api (.cancel _) | .api (.abandon _) | .api (.register ..)
    | .api (.registerResponse ..) | .api (.submit _ (some _) _) => False
    | _ => True

/-- The port was opened and has not been closed. -/
def PortOpened (evs : List ClientEvent) : Prop :=
  .api (.setUart true) ∈ evs ∧ .api (.setUart false) ∉ evs

/-- Among the events `evs` a message that `P` describes has arrived after the waiter `x` was registered,
which was at the time `time`, and less than `ms` later. -/
def Arrives {α : Type} (p : Prog α) (evs : List ClientEvent) (x : Waiter) (time ms : Nat)
    (P : Frame → Prop) : Prop :=
  ∃ a f b, evs = a ++ .api (.frame f) :: b ∧ .registered x time ∈ (Client.run p a).api.log ∧
    (Client.run p a).api.now < time + ms ∧ P f

/-- While the coroutine waits for the end of a request that it has written, its time limit is not over
before the radio has sent the message that ends it. -/
def AnswersInTime {α : Type} (p : Prog α) (evs : List ClientEvent) : Prop :=
  ∀ a b t x time ask, evs = a ++ b → (Client.run p a).pend = .call t →
    [Entry.registered x time, .sent t (wire ask)] <:+: (Client.run p a).api.log →
    time + answerLimit ask ≤ (Client.run p a).api.now → Arrives p a x time (answerLimit ask) (Concludes ask)

/-- While the coroutine waits for the end of a request that it has written, other than SYS_PING and
SYS_VERSION, which have no status, the radio sends no response to it but with a status that start-up
accepts. -/
def AcceptsAll {α : Type} (p : Prog α) (evs : List ClientEvent) : Prop :=
  ∀ a b t ask f n z rest, evs = a ++ b → (Client.run p a).pend = .call t →
    [Entry.sent t (wire ask), .received f n].Sublist (Client.run p a).api.log →
    f.commandType = .SRSP → f.subsystem = ask.subsystem → f.commandId = ask.commandId →
    (ask.subsystem, ask.commandId) ≠ (.SYS, 0x01) → (ask.subsystem, ask.commandId) ≠ (.SYS, 0x02) →
    f.data = z :: rest → z ∈ acceptedStatus ask

/-- ZDO_STATE_CHANGE_IND: the coordinator is started. -/
def StartedFrame (f : Frame) : Prop :=
  f.commandType = .AREQ ∧ f.subsystem = .ZDO ∧ f.commandId = 0xC0 ∧ ∃ rest, f.data = 9 :: rest

/-- ZDO_ACTIVE_EP_RSP, complete. -/
def EndpointsFrame (f : Frame) : Prop :=
  f.commandType = .AREQ ∧ f.subsystem = .ZDO ∧ f.commandId = 0x85 ∧ WellLaid f

/-- While the coroutine waits for a message that it began to listen to with the time limit `ms`, that time
is not over before the radio has sent one. -/
def ReportsInTime {α : Type} (p : Prog α) (evs : List ClientEvent) (m : Matcher) (ms : Nat)
    (P : Frame → Prop) : Prop :=
  ∀ a b w d time, evs = a ++ b → (Client.run p a).pend = .wait w d →
    .registered { id := w, matcher := m, timeout := ms, sequence := none } time ∈ (Client.run p a).api.log →
    time + ms ≤ (Client.run p a).api.now →
    Arrives p a { id := w, matcher := m, timeout := ms, sequence := none } time ms P

/-- The radio works: it answers every request in time, refuses none, reports the start of the network
within a minute and its endpoints within ten seconds, and is of a kind that is known. -/
structure Works {α : Type} (p : Prog α) (evs : List ClientEvent) : Prop where
  answers : AnswersInTime p evs
  accepts : AcceptsAll p evs
  starts : ReportsInTime p evs startedMatcher 60000 StartedFrame
  lists : ReportsInTime p evs endpointsMatcher 10000 EndpointsFrame
  kind : ∀ f a b rest, Exchanged (Client.run p evs).api.log versionReq f → f.data = a :: b :: rest → b ≤ 2

/-- Over the serial port: the bytes are sound messages with noise between them. `before` is what happens
before the port is connected, `after` what happens later. Of the messages `late` the last byte arrives
after the port is connected, the first `n` bytes before. `rest` has not arrived yet. -/
def SoundPort (before after : List BootEvent) (late : List (List UInt8 × Frame)) (n : Nat) : Prop :=
  ∃ early p rest, p.length = n ∧ (∀ x ∈ early ++ late, Noise x.1 ∧ Sound x.2) ∧
    portBytes before = portStream early ++ p ∧ p ++ portBytes after ++ rest = portStream late ∧
    ∀ x l, late = x :: l → n < (portStream [x]).length

/-- The execution in which each chunk of bytes is the messages whose last bytes are in it. -/
def messagewise (before after : List BootEvent) (late : List (List UInt8 × Frame)) (n : Nat) :
    List ClientEvent :=
  portless before ++ [.connected (.ok ())] ++ portWeave after (perChunk late n (portChunks after))

/-- What happens to the coroutine and its API in an execution of the reconnect loop, apart from bytes and
time. -/
def doneIn (es : List LoopEvent) : List ClientEvent :=
  es.filterMap fun
    | .client e => some e
    | _ => none

end Zcc.Spec
