import Verif.Proofs.ConnectionLog
import Verif.Props.Connection

/-!
# Closing, losing and re-establishing the connection: C51, C52, C59
-/

namespace Zcc

open Spec Conn

/-! ## C51: closing and losing -/

/-- However often it is closed, `transport.close()` is called at most once for a connection. -/
theorem c51_once (c : Config) (evs : List Ev) (l : Nat) : (run c evs).log.count (.closed l) ≤ 1 :=
  ((Conn.inv_run c evs).link l).once

/-- `shutdown` closes the port of the application; a second `shutdown` changes nothing. -/
theorem c51_shutdown (c : Config) (evs : List Ev) (l : Nat) (h : (run c evs).api = some l) :
    ¬ Open (run c (evs ++ [.shutdown])) l ∧ Note.closed l ∈ (run c (evs ++ [.shutdown])).log ∧
    run c (evs ++ [.shutdown, .shutdown]) = run c (evs ++ [.shutdown]) := by
  have hk := api_known c evs l h
  have hs : run c (evs ++ [.shutdown]) = (run c evs).closeApi := Conn.run_snoc ..
  have hshut := closeApi_shut (Conn.inv_run c evs) h hk
  have hc : Note.closed l ∈ (run c evs).closeApi.log ∧ (run c evs).closeApi.api = some l := by
    unfold St.closeApi
    rw [h]
    dsimp only
    rcases hk with hk | hk
    · unfold St.closeLink
      dsimp only
      rw [if_pos hk]
      exact ⟨List.mem_append_right _ (List.mem_singleton_self _), h⟩
    · exact ⟨(closeLink_log _ _).subset hk, (closeLink_api _ _).trans h⟩
  have hcl := ((Conn.inv_run c (evs ++ [.shutdown])).link l).closed (by rw [hs]; exact hc.1)
  have h2 : run c (evs ++ [.shutdown, .shutdown]) = (run c (evs ++ [.shutdown])).closeApi := by
    rw [show evs ++ [Ev.shutdown, .shutdown] = (evs ++ [.shutdown]) ++ [.shutdown] by simp]
    exact Conn.run_snoc ..
  refine ⟨by rw [hs]; exact hshut, by rw [hs]; exact hc.1, ?_⟩
  rw [h2]
  conv => lhs; unfold St.closeApi
  rw [show (run c (evs ++ [.shutdown])).api = some l by rw [hs]; exact hc.2]
  dsimp only
  unfold St.closeLink
  dsimp only
  rw [if_neg (by rw [hcl.2.2.1]; exact nofun)]

/-- A closed port is not open, in no continuation. -/
theorem c51_closed (c : Config) (a b : List Ev) (l : Nat) (h : Note.closed l ∈ (run c a).log) :
    ¬ Open (run c (a ++ b)) l :=
  (((Conn.inv_run c (a ++ b)).link l).closed ((run_log c a b).subset h)).2.2.2

/-- After `transport.close()` the loss of this connection is not reported. -/
theorem c51_deliberate (c : Config) (evs : List Ev) (l : Nat) (a b : List Note)
    (h : (run c evs).log = a ++ .closed l :: b) : Note.reported l ∉ b ∧ Note.unreported l ∉ b :=
  ((Conn.inv_run c evs).link l).later a b h

/-- `connection_lost` of the event loop, for a port that nobody closed, after `API.new` has returned:
the application is told, a reconnect loop starts, and this remains the only report. -/
theorem c51_loss (c : Config) (evs b : List Ev) (l : Nat)
    (ht : ((run c evs).links l).transport = .closing) (hn : Note.closed l ∉ (run c evs).log)
    (ha : ((run c evs).links l).app = true) :
    (run c (evs ++ [.lost l])).log = (run c evs).log ++ [.reported l] ∧
    (run c (evs ++ [.lost l])).ntasks = (run c evs).ntasks + 1 ∧
    ((run c (evs ++ [.lost l])).tasks (run c evs).ntasks).kind = .reconnect ∧
    ((run c (evs ++ [.lost l])).tasks (run c evs).ntasks).pc = .ready ∧
    (run c (evs ++ .lost l :: b)).log.count (.reported l) = 1 := by
  have hi := (Conn.inv_run c evs).link l
  have ho := hi.still (hi.gone (.inl ht)) hn
  have hs : run c (evs ++ [.lost l]) =
      (((run c evs).setLink l { (run c evs).links l with transport := .closed }).spawn .reconnect).note
        (.reported l) := by
    rw [Conn.run_snoc]
    show (if _ then (run c evs).lost l else run c evs) = _
    rw [if_pos ht]
    unfold St.lost
    dsimp only
    rw [if_pos ho, if_pos ha]
  have hself : (run c (evs ++ [.lost l])).tasks (run c evs).ntasks =
      { kind := .reconnect, deadline := (run c evs).now + 2000 } := by
    rw [hs]
    exact upd_same _ _ _
  refine ⟨by rw [hs]; rfl, by rw [hs]; rfl, by rw [hself], by rw [hself], ?_⟩
  have h1 := ((Conn.inv_run c (evs ++ .lost l :: b)).link l).reportedOnce
  have h2 : 1 ≤ (run c (evs ++ .lost l :: b)).log.count (.reported l) := by
    refine List.one_le_count_iff.mpr ?_
    rw [show evs ++ Ev.lost l :: b = (evs ++ [.lost l]) ++ b by simp]
    refine (run_log c _ b).subset ?_
    rw [hs]
    exact List.mem_append_right _ (List.mem_singleton_self _)
  omega

/-- Before `API.new` has returned, the callback raises `AttributeError` instead, and the loss is never
reported. -/
theorem c51_unreported (c : Config) (evs b : List Ev) (l : Nat)
    (ht : ((run c evs).links l).transport = .closing) (hn : Note.closed l ∉ (run c evs).log)
    (ha : ((run c evs).links l).app = false) :
    (run c (evs ++ [.lost l])).log = (run c evs).log ++ [.unreported l] ∧
    (run c (evs ++ [.lost l])).ntasks = (run c evs).ntasks ∧
    Note.reported l ∉ (run c (evs ++ .lost l :: b)).log := by
  have hi := (Conn.inv_run c evs).link l
  have ho := hi.still (hi.gone (.inl ht)) hn
  have hs : run c (evs ++ [.lost l]) =
      ((run c evs).setLink l { (run c evs).links l with transport := .closed }).note (.unreported l) := by
    rw [Conn.run_snoc]
    show (if _ then (run c evs).lost l else run c evs) = _
    rw [if_pos ht]
    unfold St.lost
    dsimp only
    rw [if_pos ho, if_neg (by rw [ha]; exact nofun)]
  refine ⟨by rw [hs]; rfl, by rw [hs]; rfl, fun hr => ?_⟩
  have h1 := ((Conn.inv_run c (evs ++ .lost l :: b)).link l).reportedOnce
  have h2 : 1 ≤ (run c (evs ++ .lost l :: b)).log.count (.unreported l) := by
    refine List.one_le_count_iff.mpr ?_
    rw [show evs ++ Ev.lost l :: b = (evs ++ [.lost l]) ++ b by simp]
    refine (run_log c _ b).subset ?_
    rw [hs]
    exact List.mem_append_right _ (List.mem_singleton_self _)
  have h3 := List.one_le_count_iff.mpr hr
  omega

/-- A start-up that is in its `sleep(1)`. -/
def opening : List Ev := [.startup true, .begin 0 examplePorts none 10, .made 0, .write 0]

/-- A start-up that has the connection and waits for the ping. -/
def connected : List Ev := opening ++ [.tick 1000, .settled 0]

/-- The same start-up after the connection broke. -/
theorem opening_broken : OfApp (run exampleConfig (opening ++ [.break 0])) 0 ∧
    ((run exampleConfig (opening ++ [.break 0])).links 0).transport = .closing ∧
    ((run exampleConfig (opening ++ [.break 0])).links 0).app = false ∧
    Note.closed 0 ∉ (run exampleConfig (opening ++ [.break 0])).log := by
  unfold OfApp
  decide +kernel

/-- **Refuted:** an unexpected loss of a connection of the application is not always reported. -/
theorem c51_refuted : ¬ ∀ (c : Config) (evs b : List Ev) (l : Nat), OfApp (run c evs) l →
    ((run c evs).links l).transport = .closing → Note.closed l ∉ (run c evs).log →
    Note.reported l ∈ (run c (evs ++ .lost l :: b)).log := by
  intro h
  obtain ⟨h1, h2, h3, h4⟩ := opening_broken
  exact (c51_unreported exampleConfig _ [] 0 h2 h4 h3).2.2 (h exampleConfig _ [] 0 h1 h2 h4)

example : ((run exampleConfig (connected ++ [.break 0])).links 0).transport = .closing ∧
    Note.closed 0 ∉ (run exampleConfig (connected ++ [.break 0])).log ∧
    ((run exampleConfig (connected ++ [.break 0])).links 0).app = true := by decide +kernel

example : (run exampleConfig (connected ++ [.shutdown, .shutdown, .lost 0])).log =
    [.opened 0 ⟨"/dev/ttyACM0", 115200, false, true⟩, .wakeup 0, .closed 0] := by decide +kernel

example : ¬ Open (run exampleConfig (connected ++ [.shutdown])) 0 :=
  (c51_shutdown exampleConfig connected 0 rfl).1

example (b : List Ev) : ¬ Open (run exampleConfig (connected ++ [.shutdown] ++ b)) 0 := by
  have h := c51_closed exampleConfig (connected ++ [Ev.shutdown]) b 0 (by decide +kernel)
  exact h

/-- The loss of a connection that was shut down is not reported. -/
example : Note.reported 0 ∉ ([] : List Note) :=
  (c51_deliberate exampleConfig (connected ++ [.shutdown, .lost 0]) 0
    [.opened 0 ⟨"/dev/ttyACM0", 115200, false, true⟩, .wakeup 0] [] (by decide +kernel)).1

example (b : List Ev) :
    (run exampleConfig (connected ++ [.break 0] ++ .lost 0 :: b)).log.count (.reported 0) = 1 := by
  have h := c51_loss exampleConfig (connected ++ [Ev.break 0]) b 0 (by decide +kernel) (by decide +kernel)
    (by decide +kernel)
  exact h.2.2.2.2

/-! ## C52: the reconnect loop -/

/-- A reconnect loop ends only with a start-up that succeeded, or when it is cancelled. -/
theorem c52_until (c : Config) (evs : List Ev) (t : Nat) (o : Conn.Outcome)
    (hk : ((run c evs).tasks t).kind = .reconnect) (hd : ((run c evs).tasks t).pc = .done o) :
    o = .returned true ∧ Returns (startup c.options true) ((run c evs).tasks t).hist () ∨
    o = .raised .cancelledError := by
  have hi := (Conn.inv_run c evs).task t
  rw [Conn.TaskInv, hd] at hi
  cases o with
  | returned b =>
    cases b with
    | true =>
      have := hi.2.1
      rw [hk] at this
      exact .inl ⟨rfl, this⟩
    | false =>
      have := hi.2
      rw [hk] at this
      cases this
  | raised e => exact .inr (by rw [hi.2.1 hk])

/-- The loop begins by closing the connection and waits for five seconds. -/
theorem c52_begin (c : Config) (evs : List Ev) (t : Nat) (ports : List PortInfo) (opens : Option PyErr)
    (d : Nat) (ht : t < (run c evs).ntasks) (hk : ((run c evs).tasks t).kind = .reconnect)
    (hp : ((run c evs).tasks t).pc = .ready) :
    ((run c (evs ++ [.begin t ports opens d])).tasks t).pc = .waking ((run c evs).now + 5000) ∧
    ∀ l, (run c evs).api = some l → ¬ Open (run c (evs ++ [.begin t ports opens d])) l := by
  have hs : run c (evs ++ [.begin t ports opens d]) =
      (run c evs).closeApi.setPc t (.waking ((run c evs).now + 5000)) := by
    rw [Conn.run_snoc]
    show (if _ then (run c evs).begin c t ports opens d else _) = _
    rw [if_pos ht]
    unfold St.begin
    rw [hk, hp]
  rw [hs]
  exact ⟨setPc_pc _ _ _, fun l hl => closeApi_shut (Conn.inv_run c evs) hl (api_known c evs l hl)⟩

/-- When the five seconds are over, it opens the port (`x` is what C53 says). -/
theorem c52_attempt (c : Config) (evs : List Ev) (t : Nat) (ports : List PortInfo) (d u : Nat) (x : Settings)
    (ht : t < (run c evs).ntasks) (hk : ((run c evs).tasks t).kind = .reconnect)
    (hp : ((run c evs).tasks t).pc = .waking u) (hu : u ≤ (run c evs).now)
    (hx : portSettings ports c.device = .ok x) :
    ((run c (evs ++ [.begin t ports none d])).tasks t).pc = .connecting ∧
    ((run c (evs ++ [.begin t ports none d])).tasks t).link = some (run c evs).nlinks ∧
    Open (run c (evs ++ [.begin t ports none d])) (run c evs).nlinks ∧
    (run c (evs ++ [.begin t ports none d])).log = (run c evs).log ++ [.opened (run c evs).nlinks x] := by
  have hs : run c (evs ++ [.begin t ports none d]) = (run c evs).connect c t ports none d := by
    rw [Conn.run_snoc]
    show (if _ then (run c evs).begin c t ports none d else _) = _
    rw [if_pos ht]
    unfold St.begin
    rw [hk, hp]
    exact if_pos hu
  rw [hs]
  unfold St.connect
  rw [hx]
  dsimp only
  refine ⟨?_, ?_, ?_, rfl⟩
  · show Conn.Task.pc (upd _ t _ t) = _
    rw [upd_same]
  · show Conn.Task.link (upd _ t _ t) = _
    rw [upd_same]
  · show Link.transport (upd _ (run c evs).nlinks _ (run c evs).nlinks) = _
    rw [upd_same]

/-- If the port cannot be opened, it waits for five seconds and tries again. -/
theorem c52_retry_open (c : Config) (evs : List Ev) (t : Nat) (ports : List PortInfo) (opens : Option PyErr)
    (d u : Nat) (e : PyErr) (ht : t < (run c evs).ntasks) (hk : ((run c evs).tasks t).kind = .reconnect)
    (hp : ((run c evs).tasks t).pc = .waking u) (hu : u ≤ (run c evs).now)
    (he : portSettings ports c.device = .error e ∨
      (∃ x, portSettings ports c.device = .ok x) ∧ opens = some e) (hc : e ≠ .cancelledError) :
    ((run c (evs ++ [.begin t ports opens d])).tasks t).pc = .waking ((run c evs).now + d + 5000) := by
  have hs : run c (evs ++ [.begin t ports opens d]) = (run c evs).connect c t ports opens d := by
    rw [Conn.run_snoc]
    show (if _ then (run c evs).begin c t ports opens d else _) = _
    rw [if_pos ht]
    unfold St.begin
    rw [hk, hp]
    exact if_pos hu
  rw [hs]
  generalize run c evs = s at *
  have hself := setTask_same ({ s with nlinks := s.nlinks + 1, now := s.now + d }.setLink s.nlinks { owner := t }) t
      { s.tasks t with pc := .connecting, link := some s.nlinks, hist := [] }
  have hcon : s.connect c t ports opens d =
      (({ s with nlinks := s.nlinks + 1, now := s.now + d }.setLink s.nlinks { owner := t }).setTask t
      { s.tasks t with pc := .connecting, link := some s.nlinks, hist := [] }).resume c t ⟨.connect, .error e⟩ := by
    unfold St.connect
    rcases he with he | ⟨⟨x, hx⟩, rfl⟩
    · rw [he]
    · rw [hx]
  rw [hcon, resume_error (by rw [hself]), fail_reconnect (by rw [setTask_same, hself]; exact hk) hc]
  exact setPc_pc _ _ _

/-- If an operation makes the start-up fail, the connection is closed and it tries again after five
seconds. -/
theorem c52_retry (c : Config) (evs : List Ev) (t : Nat) (a : Act) (e : PyErr)
    (hk : ((run c evs).tasks t).kind = .reconnect) (hp : ((run c evs).tasks t).pc = .running)
    (ha : Raises (startup c.options true) (((run c evs).tasks t).hist ++ [a]) e) (hc : e ≠ .cancelledError) :
    ((run c (evs ++ [.act t a])).tasks t).pc = .waking ((run c evs).now + 5000) ∧
    ∀ l, (run c evs).api = some l → ¬ Open (run c (evs ++ [.act t a])) l := by
  have hs : run c (evs ++ [.act t a]) = ((run c evs).setTask t { (run c evs).tasks t with
      pc := .running, hist := ((run c evs).tasks t).hist ++ [a] }).fail t e := by
    rw [Conn.run_snoc]
    show (if _ then _ else _ : Conn.St) = _
    rw [if_pos hp]
    unfold St.resume
    dsimp only
    rw [hk, show (program c .reconnect).feed (((run c evs).tasks t).hist ++ [a]) = some (.raise e) from ha]
  rw [hs, fail_reconnect (by rw [setTask_same]; exact hk) hc]
  refine ⟨setPc_pc _ _ _, fun l hl => ?_⟩
  have := closeApi_shut (Conn.inv_run c evs) hl (api_known c evs l hl)
  unfold St.closeApi at this
  rw [hl] at this
  unfold Open St.closeApi
  rw [show ((run c evs).setTask t { (run c evs).tasks t with
      pc := .running, hist := ((run c evs).tasks t).hist ++ [a] }).api = some l from hl]
  dsimp only at this ⊢
  rw [closeLink_setTask]
  exact this

/-- **Partial:** if no connection is lost while a start-up or reconnect loop is under way, and the user
does not interfere with one (`OrderlyRun`), there is at most one of them at any time, and at most one
open port of the application. Without this see `c52_refuted`. -/
theorem c52_one_partial (c : Config) (evs : List Ev) (h : OrderlyRun c evs) :
    (∀ t t', Active (run c evs) t → Active (run c evs) t' → t = t') ∧
    ∀ l l', OfApp (run c evs) l → OfApp (run c evs) l' → Open (run c evs) l → Open (run c evs) l' → l = l' := by
  have ho := order_run h
  refine ⟨ho.one, fun l l' h1 h2 h3 h4 => ?_⟩
  rcases ho.tidy l h1 (.inl h3) with ⟨k1, k2, -⟩ | ⟨t, k1, k2, -⟩ <;>
    rcases ho.tidy l' h2 (.inl h4) with ⟨m1, m2, -⟩ | ⟨t', m1, m2, -⟩
  · rw [k2] at m2; cases m2; rfl
  · exact absurd m1 (k1 t')
  · exact absurd k1 (m1 t)
  · rw [ho.one t t' k1 m1, m2] at k2
    cases k2
    rfl

/-- **Partial:** likewise, while the loop waits for its next attempt no port of the application is
open: the previous connection is closed before each attempt. -/
theorem c52_closed_partial (c : Config) (evs : List Ev) (h : OrderlyRun c evs) (t u : Nat)
    (ht : t < (run c evs).ntasks) (hp : ((run c evs).tasks t).pc = .waking u) (l : Nat)
    (hl : OfApp (run c evs) l) : ¬ Open (run c evs) l := by
  have hk : ((run c evs).tasks t).kind = .reconnect := by
    have := ((Conn.inv_run c evs).task t).2
    rw [hp] at this
    exact this
  refine fun ho => none_live (order_run h) (t := t) ⟨ht, ?_, ?_⟩ ?_ ?_ l hl (.inl ho)
  · rw [hk]; exact nofun
  · intro o; rw [hp]; exact nofun
  · rintro (h | ⟨u, h⟩) <;> rw [hp] at h <;> cases h
  · rw [hp]; exact nofun

/-- The stick does not answer the ping: `startup` raises and leaves the port open. -/
def pingFails : List Ev :=
  connected ++ [.act 0 ⟨.request .SYS "ping" [("capabilities", .int 1)] none, .error .timeoutError⟩]

/-- The connection breaks later and is opened again. -/
def lostOnce : List Ev :=
  pingFails ++ [.break 0, .lost 0, .begin 1 examplePorts none 0, .tick 5000, .begin 1 examplePorts none 10]

theorem pingFails_done : (run exampleConfig pingFails).ntasks = 1 ∧
    ((run exampleConfig pingFails).tasks 0).pc = .done (.raised .timeoutError) ∧
    ((run exampleConfig pingFails).links 0).transport = .opened ∧
    (run exampleConfig (pingFails ++ [.break 0])).ntasks = 1 ∧
    ((run exampleConfig (pingFails ++ [.break 0])).tasks 0).pc = .done (.raised .timeoutError) := by
  decide +kernel

theorem pingFails_orderly : OrderlyRun exampleConfig pingFails :=
  orderly_from ⟨⟨fun _ h => absurd h.1 (Nat.not_lt_zero _), fun _ h => absurd h.1 (Nat.not_lt_zero _)⟩,
    trivial, trivial, trivial, trivial, trivial, trivial, trivial⟩

theorem orderly_snoc {c : Config} {evs : List Ev} {ev : Ev} (h : OrderlyRun c evs) (hev : Orderly (run c evs) ev) :
    OrderlyRun c (evs ++ [ev]) := by
  intro a x b hab
  rcases snoc_split hab with ⟨-, rfl, rfl⟩ | ⟨b', -, hb⟩
  · exact hev
  · exact h a x b' hb

theorem lostOnce_orderly : OrderlyRun exampleConfig lostOnce := by
  have h1 := orderly_snoc (ev := .break 0) pingFails_orderly trivial
  obtain ⟨-, -, -, k4, k5⟩ := pingFails_done
  have h2 := orderly_snoc (ev := .lost 0) h1 (fun _ _ => no_active fun t ht => by
    rw [k4] at ht
    cases Nat.lt_one_iff.mp ht
    exact ⟨_, k5⟩)
  have h3 := orderly_snoc (ev := .begin 1 examplePorts none 0) h2 trivial
  have h4 := orderly_snoc (ev := .tick 5000) h3 trivial
  have h5 := orderly_snoc (ev := .begin 1 examplePorts none 10) h4 trivial
  simpa [lostOnce] using h5

example : OrderlyRun exampleConfig lostOnce ∧ Active (run exampleConfig lostOnce) 1 ∧
    Open (run exampleConfig lostOnce) 1 ∧ ¬ Open (run exampleConfig lostOnce) 0 := by
  have h : (1 < (run exampleConfig lostOnce).ntasks ∧ ((run exampleConfig lostOnce).tasks 1).kind ≠ .probe) ∧
      ((run exampleConfig lostOnce).tasks 1).pc = .connecting ∧
      ((run exampleConfig lostOnce).links 1).transport = .opened ∧
      ((run exampleConfig lostOnce).links 0).transport ≠ .opened := by decide +kernel
  exact ⟨lostOnce_orderly, ⟨h.1.1, h.1.2, fun o => by rw [h.2.1]; exact nofun⟩, h.2.2.1, h.2.2.2⟩

/-- The connection breaks while the start-up runs, and breaks again while the reconnect loop runs the
start-up; the stick does not answer the ping. -/
def lostTwice : List Ev :=
  connected ++ [.break 0, .lost 0, .begin 1 examplePorts none 0, .tick 5000, .begin 1 examplePorts none 10,
    .made 1, .write 1, .tick 1000, .settled 1, .break 1, .lost 1, .begin 2 examplePorts none 0,
    .act 1 ⟨.request .SYS "ping" [("capabilities", .int 1)] none, .error .timeoutError⟩, .tick 5000,
    .begin 1 examplePorts none 10, .begin 2 examplePorts none 10]

/-- **Refuted:** there can be two reconnect loops, with two ports open at the same time. -/
theorem c52_refuted : ∃ (c : Config) (evs : List Ev) (t t' l l' : Nat), t ≠ t' ∧ l ≠ l' ∧
    Active (run c evs) t ∧ Active (run c evs) t' ∧
    ((run c evs).tasks t).kind = .reconnect ∧ ((run c evs).tasks t').kind = .reconnect ∧
    OfApp (run c evs) l ∧ OfApp (run c evs) l' ∧ Open (run c evs) l ∧ Open (run c evs) l' := by
  have h1 : ((run exampleConfig lostTwice).tasks 1).pc = .connecting := by decide +kernel
  have h2 : ((run exampleConfig lostTwice).tasks 2).pc = .connecting := by decide +kernel
  have h3 : ((run exampleConfig lostTwice).tasks 1).kind = .reconnect := by decide +kernel
  have h4 : ((run exampleConfig lostTwice).tasks 2).kind = .reconnect := by decide +kernel
  have h5 : ((run exampleConfig lostTwice).links 2).transport = .opened := by decide +kernel
  have h6 : ((run exampleConfig lostTwice).links 3).transport = .opened := by decide +kernel
  refine ⟨exampleConfig, lostTwice, 1, 2, 2, 3, by decide, by decide, ⟨by decide +kernel, ?_, ?_⟩,
    ⟨by decide +kernel, ?_, ?_⟩, h3, h4, ⟨by decide +kernel, ?_⟩, ⟨by decide +kernel, ?_⟩, h5, h6⟩
  · rw [h3]; exact nofun
  · intro o; rw [h1]; exact nofun
  · rw [h4]; exact nofun
  · intro o; rw [h2]; exact nofun
  · decide +kernel
  · decide +kernel

/-- The rounds of the loop: it begins, tries, and fails at the port, at the ping. -/
example : ((run exampleConfig (pingFails ++ [.break 0, .lost 0] ++ [.begin 1 examplePorts none 0])).tasks 1).pc =
    .waking 6010 := by
  have h := c52_begin exampleConfig (pingFails ++ [Ev.break 0, Ev.lost 0]) 1 examplePorts none 0
    (by decide +kernel) (by decide +kernel) (by decide +kernel)
  rw [h.1]
  decide +kernel

example : Open (run exampleConfig (lostOnce.take 11 ++ [.begin 1 examplePorts none 10])) 1 :=
  (c52_attempt exampleConfig (lostOnce.take 11) 1 examplePorts 10 6010
    ⟨"/dev/ttyACM0", 115200, false, true⟩ (by decide +kernel) (by decide +kernel) (by decide +kernel)
    (by decide +kernel) (by decide +kernel)).2.2.1

example : ((run exampleConfig (lostOnce.take 11 ++ [.begin 1 [] none 10])).tasks 1).pc = .waking 11020 :=
  c52_retry_open exampleConfig (lostOnce.take 11) 1 [] none 10 6010 .serialException (by decide +kernel)
    (by decide +kernel) (by decide +kernel) (by decide +kernel) (.inl (by decide +kernel)) (by decide)

example : ∀ t t', Active (run exampleConfig lostOnce) t → Active (run exampleConfig lostOnce) t' → t = t' :=
  (c52_one_partial exampleConfig lostOnce lostOnce_orderly).1

/-- While the loop waits. -/
example : ¬ Open (run exampleConfig (lostOnce.take 10)) 0 := by
  refine c52_closed_partial exampleConfig (lostOnce.take 10) ?_ 1 6010 (by decide +kernel)
    (by decide +kernel) 0 (by unfold OfApp; decide +kernel)
  intro a ev b h
  exact lostOnce_orderly a ev (b ++ lostOnce.drop 10) (by
    have h' := congrArg (· ++ lostOnce.drop 10) h
    simpa using h')

/-- A loop that was cancelled. -/
example : Conn.Outcome.raised .cancelledError = .returned true ∧
      Returns (startup exampleConfig.options true) ((run exampleConfig (lostOnce ++ [.cancel 1])).tasks 1).hist () ∨
    Conn.Outcome.raised .cancelledError = .raised .cancelledError := by
  have h := c52_until exampleConfig (lostOnce ++ [Ev.cancel 1]) 1 (.raised .cancelledError)
    (by decide +kernel) (by decide +kernel)
  exact h

/-- The ping fails in the loop. -/
example : ((run exampleConfig (lostOnce ++ [.made 1, .write 1, .tick 1000, .settled 1] ++
      [.act 1 ⟨.request .SYS "ping" [("capabilities", .int 1)] none, .error .timeoutError⟩])).tasks 1).pc =
    .waking 12020 := by
  have h := c52_retry exampleConfig (lostOnce ++ [Ev.made 1, Ev.write 1, Ev.tick 1000, Ev.settled 1]) 1
    ⟨.request .SYS "ping" [("capabilities", .int 1)] none, .error .timeoutError⟩ .timeoutError
    (by decide +kernel) (by decide +kernel) ?_ (by decide)
  · rw [h.1]; decide +kernel
  · rw [show ((run exampleConfig (lostOnce ++ [Ev.made 1, Ev.write 1, Ev.tick 1000, Ev.settled 1])).tasks 1).hist
      = [⟨.connect, .ok ()⟩] by rfl]
    rfl

/-! ## C59: shutdown is final -/

/-- **Partial:** likewise, after `shutdown` no port of the application is open and no reconnect loop
runs, until the user calls `startup`. -/
theorem c59_partial (c : Config) (a b : List Ev) (h : OrderlyRun c (a ++ [.shutdown]))
    (hb : ∀ x, Ev.startup x ∉ b) :
    (∀ t, ¬ Active (run c (a ++ .shutdown :: b)) t) ∧
    ∀ l, OfApp (run c (a ++ .shutdown :: b)) l → ¬ Open (run c (a ++ .shutdown :: b)) l := by
  have hact : ∀ t, ¬ Active (run c a) t := h a .shutdown [] rfl
  have ho : Order (run c a) := order_run fun x ev y hxy => h x ev (y ++ [.shutdown]) (by rw [hxy]; simp)
  have hs : run c (a ++ [.shutdown]) = (run c a).closeApi := Conn.run_snoc ..
  have hfr := closeApi_frame (run c a)
  have hq : Conn.Quiet (run c (a ++ [.shutdown])) := by
    rw [hs]
    constructor
    · intro t ht
      refine hact t ?_
      unfold Active at ht ⊢
      rwa [hfr.1, closeApi_tasks] at ht
    · intro l hl hlive
      have hl' : OfApp (run c a) l := by
        unfold OfApp at hl ⊢
        rwa [hfr.2.1, closeApi_tasks, hfr.2.2.2] at hl
      rcases ho.tidy l hl' (live_closeApi hlive) with ⟨-, k2, k3⟩ | ⟨t, k1, -⟩
      · unfold St.closeApi at hlive
        rw [k2] at hlive
        exact not_live_close k3 hlive
      · exact hact t k1
  have := quiet_run hq hb
  rw [show a ++ Ev.shutdown :: b = (a ++ [.shutdown]) ++ b by simp]
  exact ⟨this.1, fun l hl hopen => this.2 l hl (.inl hopen)⟩

example : OrderlyRun exampleConfig (pingFails ++ [.shutdown]) ∧ Open (run exampleConfig pingFails) 0 := by
  obtain ⟨k1, k2, k3, -, -⟩ := pingFails_done
  refine ⟨orderly_snoc pingFails_orderly (no_active fun t ht => ?_), k3⟩
  rw [k1] at ht
  cases Nat.lt_one_iff.mp ht
  exact ⟨_, k2⟩

/-- The connection is lost, and the user calls `shutdown` while the reconnect loop waits. -/
def shutdownEarly : List Ev := connected ++ [.break 0, .lost 0, .begin 1 examplePorts none 0]

def reopened : List Ev := [.tick 5000, .begin 1 examplePorts none 10]

theorem reopened_open : OfApp (run exampleConfig (shutdownEarly ++ .shutdown :: reopened)) 1 ∧
    ((run exampleConfig (shutdownEarly ++ .shutdown :: reopened)).links 1).transport = .opened := by
  unfold OfApp
  decide +kernel

/-- **Refuted:** `shutdown` does not stop a reconnect loop that is under way: the port is opened
again. -/
theorem c59_refuted : ¬ ∀ (c : Config) (a b : List Ev) (l : Nat), (∀ x, Ev.startup x ∉ b) →
    OfApp (run c (a ++ .shutdown :: b)) l → ¬ Open (run c (a ++ .shutdown :: b)) l := by
  intro h
  obtain ⟨h1, h2⟩ := reopened_open
  exact h exampleConfig shutdownEarly reopened 1 (fun x hx => by simp [reopened] at hx) h1 h2

example (b : List Ev) (hb : ∀ x, Ev.startup x ∉ b) : ∀ t, ¬ Active (run exampleConfig (pingFails ++ .shutdown :: b)) t := by
  obtain ⟨k1, k2, -, -, -⟩ := pingFails_done
  refine (c59_partial exampleConfig pingFails b
    (orderly_snoc pingFails_orderly (no_active fun t ht => ?_)) hb).1
  rw [k1] at ht
  cases Nat.lt_one_iff.mp ht
  exact ⟨_, k2⟩

end Zcc
