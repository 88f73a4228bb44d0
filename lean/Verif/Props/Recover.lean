import Verif.Proofs.Recover
import Verif.Props.Reconnect

/-!
# Success of probe and reconnect: C50, C52
-/

namespace Zcc

open Spec Conn

/-- If the radio answers the version request, `probe` returns `True` and has closed the port. -/
theorem c50_answered (c : Config) (evs : List Ev) (t : Nat) (r : Obj)
    (hk : ((run c evs).tasks t).kind = .probe) (hp : ((run c evs).tasks t).pc = .running) :
    ((run c (evs ++ [.act t ⟨.request .SYS "version" [] none, .ok (some r)⟩])).tasks t).pc =
      .done (.returned true) ∧
    ∀ l, ((run c evs).tasks t).link = some l →
      ¬ Open (run c (evs ++ [.act t ⟨.request .SYS "version" [] none, .ok (some r)⟩])) l := by
  have hi := (Conn.inv_run c evs).task t
  rw [Conn.TaskInv, hp, hk] at hi
  obtain ⟨-, l, hl, huart, -, ⟨o, f, h4⟩, h5⟩ := hi
  have hh := probe_waits h4 h5
  obtain ⟨k, hkeq⟩ : ∃ k, k = { (run c evs).tasks t with
      pc := .running, hist := [⟨.connect, .ok ()⟩, ⟨.request .SYS "version" [] none, .ok (some r)⟩] } := ⟨_, rfl⟩
  have h1 : run c (evs ++ [.act t ⟨.request .SYS "version" [] none, .ok (some r)⟩]) =
      ((run c evs).setTask t k).finish t := by
    rw [Conn.run_snoc, hkeq]
    show (if _ then _ else _ : Conn.St) = _
    rw [if_pos hp]
    unfold St.resume
    dsimp only
    rw [hk, hh]
    rfl
  have hkk : ((run c evs).setTask t k).tasks t = k := setTask_same _ _ _
  have hkind : k.kind = .probe := by rw [hkeq]; exact hk
  have hlink : k.link = ((run c evs).tasks t).link := by rw [hkeq]
  have h2 : ((run c evs).setTask t k).finish t =
      (((run c evs).closeOwn t).setTask t k).setPc t (.done (.returned true)) := by
    unfold St.finish
    rw [hkk, hkind]
    dsimp only
    rw [closeOwn_setTask _ _ _ hlink]
  rw [h1, h2]
  refine ⟨setPc_pc _ _ _, fun l' hl' => ?_⟩
  exact closeOwn_shut hl' (by
    rw [hl] at hl'
    cases hl'
    rcases huart with hu | hu
    · exact .inl hu
    · exact .inr (((Conn.inv_run c evs).link l).closed hu).2.2.2)

example : ((run exampleConfig (goodProbe.take 6)).tasks 0).kind = .probe ∧
    ((run exampleConfig (goodProbe.take 6)).tasks 0).pc = .running := ⟨rfl, rfl⟩

/-- The loop gets through as soon as the port can be opened and a start-up succeeds (`h`: any way in
which the operations after `connect` can end such that `startup` returns): it ends, and the application
is connected. The port is opened once, gets the wake-up byte, and is not closed. -/
theorem c52_recovers (c : Config) (evs : List Ev) (t u : Nat) (ports : List PortInfo) (d : Nat) (x : Settings)
    (h : List Act) (ht : t < (run c evs).ntasks) (hk : ((run c evs).tasks t).kind = .reconnect)
    (hp : ((run c evs).tasks t).pc = .waking u) (hx : portSettings ports c.device = .ok x)
    (hr : Returns (startup c.options true) (⟨.connect, .ok ()⟩ :: h) ()) :
    let l := (run c evs).nlinks
    let s := run c (evs ++ ([.tick (u - (run c evs).now), .begin t ports none d, .made l, .write t, .tick 1000,
      .settled t] ++ h.map (.act t)))
    (s.tasks t).pc = .done (.returned true) ∧ Open s l ∧ s.api = some l ∧
      s.log = (run c evs).log ++ [.opened l x, .wakeup l] := by
  dsimp only
  obtain ⟨s0, hs0⟩ : ∃ s0 : St, s0 = { run c evs with now := (run c evs).now + (u - (run c evs).now) } := ⟨_, rfl⟩
  have e1 : step c (run c evs) (.tick (u - (run c evs).now)) = s0 := by rw [hs0]; rfl
  have t0 : s0.tasks = (run c evs).tasks := by rw [hs0]
  have n0 : s0.nlinks = (run c evs).nlinks := by rw [hs0]
  have e2 : step c s0 (.begin t ports none d) = s0.connect c t ports none d := by
    show (if t < s0.ntasks then s0.begin c t ports none d else _) = _
    rw [if_pos (by rw [hs0]; exact ht)]
    unfold St.begin
    rw [t0, hk, hp]
    exact if_pos (by rw [hs0]; show u ≤ (run c evs).now + _; omega)
  obtain ⟨s1, hs1⟩ : ∃ s1, s1 = s0.connect c t ports none d := ⟨_, rfl⟩
  have c1 : s1 = ((({ s0 with nlinks := s0.nlinks + 1, now := s0.now + d } : Conn.St).setLink s0.nlinks
      { owner := t, transport := .opened }).setTask t
      { s0.tasks t with pc := .connecting, link := some s0.nlinks, hist := [] }).note (.opened s0.nlinks x) := by
    rw [hs1]
    unfold St.connect
    rw [hx]
  have t1 : s1.tasks t = { s0.tasks t with pc := .connecting, link := some s0.nlinks, hist := [] } := by
    rw [c1]
    exact upd_same _ _ _
  have l1 : s1.links s0.nlinks = { owner := t, transport := .opened } := by
    rw [c1]
    exact upd_same _ _ _
  have g1 : s1.log = (run c evs).log ++ [.opened s0.nlinks x] := by
    rw [c1, hs0]
    rfl
  have hfin := connect_completes (c := c) (s := s1) (t := t) (l := s0.nlinks) (h := h) (by rw [t1]) (by rw [t1])
    (by rw [t1]) (by rw [t1, t0]; show ((run c evs).tasks t).kind ≠ _; rw [hk]; exact nofun) l1
    (by rw [t1, t0]; show Returns (program c ((run c evs).tasks t).kind) _ _; rw [hk]; exact hr)
  dsimp only at hfin
  have hrun : run c (evs ++ ([.tick (u - (run c evs).now), .begin t ports none d, .made (run c evs).nlinks,
      .write t, .tick 1000, .settled t] ++ h.map (.act t))) =
      ([Ev.made s0.nlinks, .write t, .tick 1000, .settled t] ++ h.map (Ev.act t)).foldl (step c) s1 := by
    rw [Conn.run_append, List.cons_append, List.cons_append, List.foldl_cons, List.foldl_cons, e1, e2, ← hs1, n0]
  rw [hrun, ← n0]
  obtain ⟨f1, f2, f3, f4⟩ := hfin
  refine ⟨f1, ?_, f3, ?_⟩
  · unfold Open
    rw [f2]
  · rw [f4, g1, List.append_assoc]
    rfl

/-- The port has been lost and is opened again five seconds later. -/
example : ∃ h, ((run exampleConfig (connected ++ [.break 0, .lost 0, .begin 1 examplePorts none 0])).tasks 1).kind =
      .reconnect ∧
    ((run exampleConfig (connected ++ [.break 0, .lost 0, .begin 1 examplePorts none 0])).tasks 1).pc =
      .waking 6010 ∧
    (∃ x, portSettings examplePorts exampleConfig.device = .ok x) ∧
    Returns (startup exampleConfig.options true) (⟨.connect, .ok ()⟩ :: h) () := by
  have h1 : Stick.returned () (Stick.run 100 (startup exampleOptions true) (Stick.memory [])).2.1 = true := by
    decide +kernel
  obtain ⟨k, hk⟩ : ∃ k, startup exampleOptions true = .call .connect k := ⟨_, rfl⟩
  have h2 := Stick.run_returns h1
  have h3 : (Stick.run 100 (startup exampleOptions true) (Stick.memory [])).1 =
      ⟨.connect, .ok ()⟩ :: (Stick.run 99 (k (.ok ())) (Stick.memory [])).1 := by rw [hk]; rfl
  rw [h3] at h2
  exact ⟨_, by decide +kernel, by decide +kernel, ⟨_, rfl⟩, h2⟩

/-- Every loss that the application is told of starts one reconnect loop, and nothing else does. -/
theorem c52_loops (c : Config) (evs : List Ev) : loopsBegun (run c evs) = lossesReported (run c evs).log :=
  loops_run c evs

example : loopsBegun (run exampleConfig lostTwice) = 2 := by decide +kernel

end Zcc
