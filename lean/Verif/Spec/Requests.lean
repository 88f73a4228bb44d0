import Verif.Spec.Wire
import Verif.Spec.Codec
import Verif.Spec.App
import Verif.Spec.Runtime
import Verif.Model.AppRuntime

/-!
# Specification of the frames of outgoing requests

The layouts, written from the MT protocol description and the Zigbee device profile, byte by byte.
-/

namespace Zcc.Spec

open Zcc

/-- A byte. -/
def u8 (n : Int) : UInt8 := UInt8.ofNat n.toNat

/-- A 64-bit number, low byte first. -/
def le64 (n : Nat) : List UInt8 := (List.range 8).map (fun i => UInt8.ofNat (n / 256 ^ i % 256))

/-- AF_DATA_REQUEST: destination address, destination endpoint, source endpoint, cluster,
transaction number, options 0, radius 30, length of the data, data. -/
def unicastFrame (nwk cluster srcEp dstEp sequence : Int) (data : List UInt8) : Frame :=
  .of .SREQ .AF 1
    (le16 nwk.toNat ++ [u8 dstEp, u8 srcEp] ++ le16 cluster.toNat ++
     [u8 sequence, 0, 30, UInt8.ofNat data.length] ++ data)

/-- AF_DATA_REQUEST_EXT: address mode, address (8 bytes), destination endpoint, PAN id 0, source
endpoint, cluster, transaction number, options 0, radius, length of the data (two bytes), data. -/
def extFrame (mode : UInt8) (address cluster srcEp dstEp sequence radius : Int)
    (data : List UInt8) : Frame :=
  .of .SREQ .AF 2
    ([mode] ++ le64 address.toNat ++ [u8 dstEp, 0, 0, u8 srcEp] ++ le16 cluster.toNat ++
     [u8 sequence, 0, u8 radius] ++ le16 data.length ++ data)

/-- The fields of a unicast request fit their bytes and the frame its maximal length. -/
def UnicastFits (nwk cluster srcEp dstEp sequence : Int) (data : List UInt8) : Prop :=
  IsUInt 2 nwk ∧ IsUInt 1 dstEp ∧ IsUInt 1 srcEp ∧ IsUInt 2 cluster ∧ IsUInt 1 sequence ∧
  data.length ≤ 245

instance (nwk cluster srcEp dstEp sequence : Int) (data : List UInt8) :
    Decidable (UnicastFits nwk cluster srcEp dstEp sequence data) := by
  unfold UnicastFits; infer_instance

/-- The fields of an extended request fit their bytes and the frame its maximal length. -/
def ExtFits (address cluster srcEp dstEp sequence radius : Int) (data : List UInt8) : Prop :=
  IsUInt 8 address ∧ IsUInt 1 dstEp ∧ IsUInt 1 srcEp ∧ IsUInt 2 cluster ∧ IsUInt 1 sequence ∧
  IsUInt 1 radius ∧ data.length ≤ 235

instance (address cluster srcEp dstEp sequence radius : Int) (data : List UInt8) :
    Decidable (ExtFits address cluster srcEp dstEp sequence radius data) := by
  unfold ExtFits; infer_instance

/-- The bodies of the ZDO requests of the Zigbee device profile whose MT command has the same
number and takes the destination address and then the body. -/
inductive ZdoBody : Nat → List UInt8 → Prop
  /-- node, power, complex, user descriptor, active endpoints: address of interest -/
  | desc (cluster : Nat) (h : cluster ∈ [0x02, 0x03, 0x05, 0x07, 0x08]) (a b : UInt8) :
      ZdoBody cluster [a, b]
  /-- simple descriptor: address of interest, endpoint -/
  | simple (a b ep : UInt8) : ZdoBody 0x04 [a, b, ep]
  /-- match descriptor: address of interest, profile, number of input clusters, input clusters,
  number of output clusters, output clusters -/
  | matchDesc (a b p q n m : UInt8) (ins outs : List UInt8) (hi : ins.length = 2 * n.toNat)
      (ho : outs.length = 2 * m.toNat) :
      ZdoBody 0x06 ([a, b, p, q, n] ++ ins ++ [m] ++ outs)
  /-- bind, unbind: source address, source endpoint, cluster, address mode 3 (extended), target
  address, target endpoint -/
  | bind (cluster : Nat) (h : cluster ∈ [0x21, 0x22]) (src dst : List UInt8) (ep c d de : UInt8)
      (hs : src.length = 8) (hd : dst.length = 8) :
      ZdoBody cluster (src ++ [ep, c, d, 3] ++ dst ++ [de])
  /-- network discovery: channels, duration, start index -/
  | nwkDisc (c0 c1 c2 c3 dur start : UInt8) : ZdoBody 0x30 [c0, c1, c2, c3, dur, start]
  /-- neighbour table, routing table, binding table: start index -/
  | table (cluster : Nat) (h : cluster ∈ [0x31, 0x32, 0x33]) (start : UInt8) :
      ZdoBody cluster [start]
  /-- leave, direct join: device address, flags -/
  | device (cluster : Nat) (h : cluster ∈ [0x34, 0x35]) (ieee : List UInt8) (flags : UInt8)
      (hi : ieee.length = 8) : ZdoBody cluster (ieee ++ [flags])
  /-- permit joining: duration, trust centre significance -/
  | permit (duration tc : UInt8) : ZdoBody 0x36 [duration, tc]

/-- The MT frame of a ZDO request: destination address, body. Permit joining has an address mode
first: 15 for the broadcast to all routers, 2 for a single device. -/
def zdoFrame (nwk : Int) (cluster : Nat) (body : List UInt8) : Frame :=
  .of .SREQ .ZDO cluster
    ((if cluster = 0x36 then [if nwk = 0xFFFC then 15 else 2] else []) ++
      le16 nwk.toNat ++ body)

/-- The broadcast permit-join request: address mode 15, address 0xFFFC, duration, trust centre
significance 0. -/
def permitFrame (time : Int) : Frame := .of .SREQ .ZDO 0x36 [15, 0xFC, 0xFF, u8 time, 0]

/-! ## What is seen of the application's calls -/

/-- The `n`th call of the application is `c`. -/
def IsCall (s : AppSys) (n : Nat) (c : Call) : Prop := ∃ k, s.tasks[n]? = some k ∧ k.call = c

/-- The `n`th call has ended with `r`. -/
def EndedWith (s : AppSys) (n : Nat) (r : Result) : Prop :=
  ∃ k, s.tasks[n]? = some k ∧ k.pc = .done r

/-- The `n`th call has written `b` to the serial port. -/
def Wrote (s : AppSys) (n : Nat) (b : List UInt8) : Prop :=
  ∃ k i t, s.tasks[n]? = some k ∧ k.ran = some (i, t) ∧ .sent t b ∈ (s.api i).log

/-- After the `n`th call (object `o`) wrote its request, the radio answered this kind of command
with status `z`. -/
def Answered (s : AppSys) (n : Nat) (o : Obj) (z : Int) : Prop :=
  ∃ k i t b f rsp, s.tasks[n]? = some k ∧ k.ran = some (i, t) ∧ Obj.fromUnpiFrame f = .ok rsp ∧
    ResponseTo o rsp ∧ rsp.payload.lookup "status" = some (.int z) ∧
    [Entry.sent t b, .received f rsp].Sublist (s.api i).log

/-- Requests, multicasts and broadcasts of the Home Automation profile, and those of the Zigbee
device profile with the number of a request (the MT numbers from 0x40 on are not requests of that
profile). -/
def Ordinary : Call → Prop
  | .request _ profile cluster _ _ _ _ _ => profile = 260 ∨ (0 ≤ cluster ∧ cluster < 0x40)
  | .mrequest _ profile cluster _ _ _ _ => profile = 260 ∨ (0 ≤ cluster ∧ cluster < 0x40)
  | .broadcast profile cluster _ _ _ _ _ _ => profile = 260 ∨ (0 ≤ cluster ∧ cluster < 0x40)
  | .permit _ => True

/-- The call is past the concurrency gate: it got its place and has not ended. -/
def PastGate (k : AppTask) : Bool :=
  k.ran.isSome && match k.pc with
    | .done _ => false
    | _ => true

/-- Broadcasts and multicasts, which nobody confirms. -/
def Unconfirmed : Call → Prop
  | .mrequest .. | .broadcast .. => True
  | _ => False

/-- The API request of the `n`th call: the `t`th call of the `i`th API. -/
def RequestOf (s : AppSys) (n i t : Nat) : Prop := ∃ k, s.tasks[n]? = some k ∧ k.ran = some (i, t)

/-- The radios the application was started with, oldest first. -/
def starts (es : List AppEvent) : List Int :=
  es.filterMap fun
    | .newSemaphore product => some product
    | _ => none

/-- What happens without anybody's help: time passes, a timeout is noticed, a call that can go on goes
on. No message of the radio, no cancellation, no restart. -/
def Unaided : AppEvent → Prop
  | .api _ (.tick _) | .api _ (.wake _) | .api _ (.timeout _) | .api _ .grant => True
  | .enter _ | .wakeUp _ => True
  | _ => False

/-- The pause after a broadcast or multicast (ms). -/
def pause : Call → Nat
  | .mrequest .. | .broadcast .. => 200
  | _ => 0

/-- How long a new call may take for itself: the time limit of its request and its pause. -/
def callTime (c : Call) : Nat :=
  match c.obj with
  | .ok o => limit o + pause c
  | .error _ => 0

/-- How long a call may still take for itself: the time limit of its request if it did not get to it
yet, and its pause. -/
def stillNeeded (k : AppTask) : Nat :=
  match k.pc with
  | .waiting o _ => limit o + pause k.call
  | .inApi .. | .sleeping .. => pause k.call
  | .done _ => 0

/-- All the work that is left: what the calls of the application still need, and the limits of the
requests in the current API that have not ended. -/
def workLeft (s : AppSys) : Nat :=
  (s.tasks.map stillNeeded).sum + limitsAhead (s.api s.cur).nextTid (s.api s.cur).log

/-- The work that comes in with new calls and with requests from elsewhere. -/
def workAdded (es : List AppEvent) : Nat :=
  (es.map fun e => match e with
    | .call c => callTime c
    | .api _ (.submit o _ _) => limit o
    | _ => 0).sum

/-- No call is still at work in an API that has been replaced. -/
def AllCurrent (s : AppSys) : Prop :=
  ∀ k ∈ s.tasks, match k.pc with
    | .inApi i _ | .sleeping i _ => i = s.cur
    | _ => True

/-- After `es1` the event loop keeps up during `es2`: time passes only when nothing is left to do, that
is, the API's lock is not free while calls wait for it, the request at work has no response yet, its
time limit and the pauses of the calls are not over before that time has passed, and no call stands in
front of a free semaphore. -/
def AppKeepsUp (es1 es2 : List AppEvent) : Prop :=
  ∀ a i ms b, es2 = a ++ .api i (.tick ms) :: b →
    (((AppSys.init.run (es1 ++ a)).api i).holder = none →
      ((AppSys.init.run (es1 ++ a)).api i).queue = []) ∧
    (∀ t k w d, ((AppSys.init.run (es1 ++ a)).api i).tasks t = some k → k.pc = .waiting w d →
      ((AppSys.init.run (es1 ++ a)).api i).fut w = .pending ∧
      ((AppSys.init.run (es1 ++ a)).api i).now + ms ≤ d) ∧
    ∀ k ∈ (AppSys.init.run (es1 ++ a)).tasks, match k.pc with
      | .waiting .. => (AppSys.init.run (es1 ++ a)).sem k.sem = 0
      | .sleeping j d => j = i → ((AppSys.init.run (es1 ++ a)).api i).now + ms ≤ d
      | _ => True

/-- A step of an execution in which time passes for all connections alike: an event, or time. -/
inductive Moment where
  | happens (e : AppEvent)
  | passes (ms : Nat)

/-- The events of a moment, for a driver with `m` connections. -/
def Moment.events (m : Nat) : Moment → List AppEvent
  | .happens e => [e]
  | .passes ms => (List.range m).map fun i => .api i (.tick ms)

/-- The events of an execution with `m` connections. -/
def timeline (m : Nat) (ms : List Moment) : List AppEvent := ms.flatMap (Moment.events m)

/-- How much time passes. -/
def elapsed (ms : List Moment) : Nat :=
  (ms.map fun
    | .passes d => d
    | .happens _ => 0).sum

/-- Time passes by itself only, not as an event in one connection. -/
def SameClock (ms : List Moment) : Prop := ∀ i d, .happens (.api i (.tick d)) ∉ ms

/-- All the work that is left: what the calls of the application still need, and the limits of the
requests in the first `m` connections, current or not, that have not ended. -/
def workEverywhere (m : Nat) (s : AppSys) : Nat :=
  (s.tasks.map stillNeeded).sum +
    ((List.range m).map fun i => limitsAhead (s.api i).nextTid (s.api i).log).sum

/-- `AppKeepsUp` for all connections: before time passes, no lock is free while calls wait for it, no
request at work has its response yet, no time limit and no pause is over before that time has passed,
and no call stands in front of a free semaphore. -/
def AllKeepUp (m : Nat) (es : List AppEvent) (ms : List Moment) : Prop :=
  ∀ a d b, ms = a ++ .passes d :: b →
    let s := AppSys.init.run (es ++ timeline m a)
    (∀ i < m, ((s.api i).holder = none → (s.api i).queue = []) ∧
      ∀ t k w u, (s.api i).tasks t = some k → k.pc = .waiting w u →
        (s.api i).fut w = .pending ∧ (s.api i).now + d ≤ u) ∧
    ∀ k ∈ s.tasks, match k.pc with
      | .waiting .. => s.sem k.sem = 0
      | .sleeping i u => (s.api i).now + d ≤ u
      | _ => True

end Zcc.Spec
