import Verif.Proofs.ConnectionOrder
import Verif.Proofs.ConnectionPort
import Verif.Props.Start

/-!
# Connections: C50-C53, C59

`run c evs` is the state after the events `evs`, in any order the event loop and the outside world may
produce; `c` is the configuration. Events that are not possible in a state change nothing.
-/

namespace Zcc

open Spec Conn

/-! ## C53: port selection -/

/-- With `auto`, the port used is that of the one device that is a stick, at whatever place in the
list. -/
theorem c53_auto (ports : List PortInfo) (config : DeviceConfig) (h : config.path = "auto") (x : Settings) :
    portSettings ports config = .ok x ↔
    x.baudrate = config.baudrate ∧ x.xonxoff = decide (config.flowControl = some "software") ∧
    x.rtscts = decide (config.flowControl = some "hardware") ∧
    ∃ a d b, ports = a ++ d :: b ∧ IsStick d ∧ (∀ p ∈ a ++ b, ¬ IsStick p) ∧ x.url = d.device := by
  have hd : ∀ d, detectPort ports = .ok d ↔ grep ports = [d] := by
    intro d
    unfold detectPort
    split
    · next hg => rw [hg]; exact ⟨fun h => (by cases h), fun h => (by cases h)⟩
    · next d' hg =>
      rw [hg]
      exact ⟨fun h => by cases h; rfl, fun h => by cases h; rfl⟩
    · next hg => rw [hg]; exact ⟨fun h => (by cases h), fun h => (by cases h)⟩
  have hflow : (if config.flowControl = some "hardware" then (false, true)
      else if config.flowControl = some "software" then (true, false) else (false, false)) =
      (decide (config.flowControl = some "software"), decide (config.flowControl = some "hardware")) := by
    by_cases h1 : config.flowControl = some "hardware"
    · rw [if_pos h1, h1]; decide
    · rw [if_neg h1]
      by_cases h2 : config.flowControl = some "software"
      · rw [if_pos h2, h2]; decide
      · rw [if_neg h2]; simp [h1, h2]
  unfold portSettings
  rw [if_pos h]
  cases hdp : detectPort ports with
  | error e =>
    constructor
    · intro hh; cases hh
    · rintro ⟨-, -, -, a, d, b, h1, h2, h3, -⟩
      have hg : grep ports = [d] := (filter_singleton _ ports d).mpr ⟨a, b, h1, by
        rw [← Bool.not_eq_false, not_stick]; exact fun hh => hh h2, fun p hp => not_stick.mpr (h3 p hp)⟩
      rw [(hd d).mpr hg] at hdp
      cases hdp
  | ok d =>
    have hg := (hd d).mp hdp
    obtain ⟨a, b, h1, h2, h3⟩ := (filter_singleton _ ports d).mp hg
    have h2 : IsStick d := (grep_mem.mp (show d ∈ grep ports by rw [hg]; exact .head _)).2
    show Except.ok _ = Except.ok x ↔ _
    rw [hflow]
    constructor
    · intro hh
      cases hh
      exact ⟨rfl, rfl, rfl, a, d, b, h1, h2, fun p hp => not_stick.mp (h3 p hp), rfl⟩
    · rintro ⟨k1, k2, k3, a', d', b', k4, k5, k6, k7⟩
      have hg' : grep ports = [d'] := (filter_singleton _ ports d').mpr ⟨a', b', k4, by
        rw [← Bool.not_eq_false, not_stick]; exact fun hh => hh k5, fun p hp => not_stick.mpr (k6 p hp)⟩
      rw [hg] at hg'
      cases hg'
      cases x
      dsimp only at k1 k2 k3 k7
      rw [k1, k2, k3, k7]

/-- With `auto` and no stick or more than one, `connect` fails with `SerialException`. -/
theorem c53_none (ports : List PortInfo) (config : DeviceConfig) (h : config.path = "auto")
    (hn : ¬ ∃ a d b, ports = a ++ d :: b ∧ IsStick d ∧ ∀ p ∈ a ++ b, ¬ IsStick p) :
    portSettings ports config = .error .serialException := by
  cases hx : portSettings ports config with
  | ok x =>
    obtain ⟨-, -, -, a, d, b, h1, h2, h3, -⟩ := (c53_auto ports config h x).mp hx
    exact absurd ⟨a, d, b, h1, h2, h3⟩ hn
  | error e =>
    unfold portSettings at hx
    rw [if_pos h] at hx
    unfold detectPort at hx
    split at hx
    · cases hx; rfl
    · cases hx
    · cases hx; rfl

/-- Any other path is used as it is, whatever ports there are. -/
theorem c53_path (ports : List PortInfo) (config : DeviceConfig) (h : config.path ≠ "auto") :
    portSettings ports config = .ok
      { url := config.path, baudrate := config.baudrate,
        xonxoff := decide (config.flowControl = some "software"),
        rtscts := decide (config.flowControl = some "hardware") } := by
  have hflow : (if config.flowControl = some "hardware" then (false, true)
      else if config.flowControl = some "software" then (true, false) else (false, false)) =
      (decide (config.flowControl = some "software"), decide (config.flowControl = some "hardware")) := by
    by_cases h1 : config.flowControl = some "hardware"
    · rw [if_pos h1, h1]; decide
    · rw [if_neg h1]
      by_cases h2 : config.flowControl = some "software"
      · rw [if_pos h2, h2]; decide
      · rw [if_neg h2]; simp [h1, h2]
  unfold portSettings
  rw [if_neg h, hflow]
  rfl

/-- Never both kinds of flow control. -/
theorem c53_flow (ports : List PortInfo) (config : DeviceConfig) (x : Settings)
    (h : portSettings ports config = .ok x) :
    (config.flowControl = none → x.xonxoff = false ∧ x.rtscts = false) ∧
    (config.flowControl = some "hardware" → x.xonxoff = false ∧ x.rtscts = true) ∧
    (config.flowControl = some "software" → x.xonxoff = true ∧ x.rtscts = false) ∧
    ¬ (x.xonxoff = true ∧ x.rtscts = true) := by
  have key : x.xonxoff = decide (config.flowControl = some "software") ∧
      x.rtscts = decide (config.flowControl = some "hardware") := by
    by_cases hp : config.path = "auto"
    · obtain ⟨-, h1, h2, -⟩ := (c53_auto ports config hp x).mp h
      exact ⟨h1, h2⟩
    · rw [c53_path ports config hp] at h
      cases h
      exact ⟨rfl, rfl⟩
  rw [key.1, key.2]
  refine ⟨fun hf => ?_, fun hf => ?_, fun hf => ?_, fun hf => ?_⟩
  · rw [hf]; decide
  · rw [hf]; decide
  · rw [hf]; decide
  · have h1 := of_decide_eq_true hf.1
    rw [h1] at hf
    exact absurd hf.2 (by decide)

/-- The ports of the examples: one stick among others. -/
def examplePorts : List PortInfo :=
  [⟨"/dev/ttyS0", "ttyS0", "n/a"⟩,
   ⟨"/dev/ttyACM0", "TI CC2531 USB CDC", "USB VID:PID=0451:16A8 SER=__0X00 LOCATION=1-1"⟩,
   ⟨"/dev/ttyUSB0", "FT232R", "USB VID:PID=0403:6001"⟩]

def exampleDevice : DeviceConfig := ⟨"auto", 115200, some "hardware"⟩

def exampleConfig : Config := ⟨exampleDevice, exampleOptions⟩

example : portSettings examplePorts exampleDevice = .ok ⟨"/dev/ttyACM0", 115200, false, true⟩ := by decide
example : portSettings (examplePorts ++ [⟨"/dev/ttyUSB1", "zzh", "USB VID:PID=1A86:7523"⟩]) exampleDevice =
    .error .serialException := by decide
example : portSettings [] exampleDevice = .error .serialException := by decide
example : portSettings [] ⟨"/dev/zigbee", 9600, some "software"⟩ = .ok ⟨"/dev/zigbee", 9600, true, false⟩ := by
  decide

/-- Whatever port is opened, by a start-up, a reconnect loop or a probe, was selected like this from the
ports there were at that time. -/
theorem c53_run (c : Config) (evs : List Ev) (l : Nat) (x : Settings) (h : Note.opened l x ∈ (run c evs).log) :
    ∃ t ports d, Ev.begin t ports none d ∈ evs ∧ portSettings ports c.device = .ok x :=
  opened_run h

/-- If no port can be selected, `startup` raises `SerialException` and opens nothing. -/
theorem c53_fails (c : Config) (evs : List Ev) (t : Nat) (autoForm : Bool) (ports : List PortInfo)
    (opens : Option PyErr) (d : Nat) (ht : t < (run c evs).ntasks)
    (hk : ((run c evs).tasks t).kind = .startup autoForm) (hp : ((run c evs).tasks t).pc = .ready)
    (h : c.device.path = "auto")
    (hn : ¬ ∃ a p b, ports = a ++ p :: b ∧ IsStick p ∧ ∀ q ∈ a ++ b, ¬ IsStick q) :
    ((run c (evs ++ [.begin t ports opens d])).tasks t).pc = .done (.raised .serialException) ∧
    (run c (evs ++ [.begin t ports opens d])).log = (run c evs).log := by
  rw [Conn.run_snoc]
  generalize run c evs = s at *
  have hs : step c s (.begin t ports opens d) = s.connect c t ports opens d := by
    show (if _ then s.begin c t ports opens d else s) = _
    rw [if_pos ht]
    unfold St.begin
    rw [hk, hp]
  rw [hs]
  unfold St.connect
  dsimp only
  rw [c53_none ports c.device h hn]
  dsimp only
  have hself : (({ s with nlinks := s.nlinks + 1, now := s.now + d }.setLink s.nlinks { owner := t }).setTask t
      { s.tasks t with pc := .connecting, link := some s.nlinks, hist := [] }).tasks t =
      { s.tasks t with pc := .connecting, link := some s.nlinks, hist := [] } := upd_same _ _ _
  rw [resume_error (by rw [hself]), hself]
  unfold St.fail
  have hk' : ((((({ s with nlinks := s.nlinks + 1, now := s.now + d } : St).setLink s.nlinks { owner := t }).setTask t
      { s.tasks t with pc := .connecting, link := some s.nlinks, hist := [] }).setTask t
      { s.tasks t with pc := .running, link := some s.nlinks,
                       hist := [] ++ [⟨.connect, .error .serialException⟩] }).tasks t).kind = .startup autoForm := by
    show Conn.Task.kind (upd _ t _ t) = _
    rw [upd_same]
    exact hk
  rw [hk']
  refine ⟨?_, rfl⟩
  show Conn.Task.pc (upd _ t _ t) = _
  rw [upd_same]

example : ∃ t ports d, Ev.begin t ports none d ∈ [.startup true, .begin 0 examplePorts none 10] ∧
    portSettings ports exampleConfig.device = .ok ⟨"/dev/ttyACM0", 115200, false, true⟩ :=
  c53_run exampleConfig [.startup true, .begin 0 examplePorts none 10] 0 _ (by decide +kernel)

example : ((run exampleConfig ([.startup true] ++ [.begin 0 [] none 10])).tasks 0).pc =
    .done (.raised .serialException) :=
  (c53_fails exampleConfig [.startup true] 0 true [] none 10 (by decide) rfl rfl rfl
    (by rintro ⟨a, p, b, h, _⟩; cases a <;> cases h)).1

/-! ## C50: probe -/

/-- `probe` returns `True` only if it opened a port and the radio answered the version request on it. -/
theorem c50_true (c : Config) (evs : List Ev) (t : Nat) (hk : ((run c evs).tasks t).kind = .probe)
    (hd : ((run c evs).tasks t).pc = .done (.returned true)) :
    ∃ l x r, Note.opened l x ∈ (run c evs).log ∧ ((run c evs).links l).owner = t ∧
      ((run c evs).tasks t).hist =
        [⟨.connect, .ok ()⟩, ⟨.request .SYS "version" [] none, .ok (some r)⟩] := by
  have hi := Conn.inv_run c evs
  obtain ⟨h1, h2⟩ := hi.task t
  rw [hd] at h2
  obtain ⟨h3, l, h4, h5⟩ := h2
  rw [hk] at h3
  obtain ⟨x, hx⟩ := (hi.link l).opened h5
  have h3 : Returns probeProg ((run c evs).tasks t).hist () := h3
  obtain ⟨k1, k2, u, e1, e2, e3⟩ := returns_bind.mp h3
  have e2 := returns_op.mp e2
  obtain ⟨k3, k4, v, f1, f2, f3⟩ := returns_bind.mp e3
  cases v with
  | none => exact absurd f3 returns_raise
  | some r =>
    have f3 := (returns_ret.mp f3).1
    have f2 := returns_op.mp f2
    refine ⟨l, x, r, hx, (h1 l h4).2, ?_⟩
    rw [e1, e2, f1, f2, f3]
    rfl

/-- The time limit of a probe is two seconds after the call. -/
theorem c50_limit (c : Config) (a b : List Ev) :
    ((run c (a ++ .probe :: b)).tasks (run c a).ntasks).kind = .probe ∧
    ((run c (a ++ .probe :: b)).tasks (run c a).ntasks).deadline = (run c a).now + 2000 := by
  have hab : a ++ Ev.probe :: b = (a ++ [Ev.probe]) ++ b := by simp
  rw [hab]
  have key : ∀ b, (run c a).ntasks < (run c ((a ++ [Ev.probe]) ++ b)).ntasks ∧
      ((run c ((a ++ [Ev.probe]) ++ b)).tasks (run c a).ntasks).kind = .probe ∧
      ((run c ((a ++ [Ev.probe]) ++ b)).tasks (run c a).ntasks).deadline = (run c a).now + 2000 := by
    intro b
    induction b using list_induction with
    | h0 =>
      rw [List.append_nil, Conn.run_snoc]
      have hself : (step c (run c a) .probe).tasks (run c a).ntasks =
        { kind := .probe, deadline := (run c a).now + 2000 } := upd_same _ _ _
      rw [hself]
      exact ⟨Nat.lt_succ_self _, rfl, rfl⟩
    | hs b ev ih =>
      rw [← List.append_assoc, Conn.run_snoc]
      obtain ⟨h1, h2, h3⟩ := ih
      have hs := step_step (c := c) (s := run c ((a ++ [Ev.probe]) ++ b)) ev
      refine ⟨Nat.lt_of_lt_of_le h1 hs.ntasks, ?_, ?_⟩
      · rw [(hs.kind _ h1).1]; exact h2
      · rw [(hs.kind _ h1).2]; exact h3
  exact (key b).2

/-- If the time limit strikes before the probe has ended, it returns `False`, whatever comes later. -/
theorem c50_timeout (c : Config) (a b : List Ev) (t : Nat) (ht : t < (run c a).ntasks)
    (hk : ((run c a).tasks t).kind = .probe) (hn : ∀ o, ((run c a).tasks t).pc ≠ .done o)
    (hd : ((run c a).tasks t).deadline ≤ (run c a).now) :
    ((run c (a ++ .timeout t :: b)).tasks t).pc = .done (.returned false) := by
  have hab : a ++ Ev.timeout t :: b = (a ++ [Ev.timeout t]) ++ b := by simp
  have h1 : run c (a ++ [.timeout t]) = (run c a).fail t .timeoutError := by
    rw [Conn.run_snoc]
    unfold step
    dsimp only
    split
    · next o hp => exact absurd hp (hn o)
    · rw [if_pos ⟨ht, hd⟩]
    · next h _ => exact absurd hk h
  have h2 : ((run c (a ++ [.timeout t])).tasks t).pc = .done (.returned false) := by
    rw [h1]
    unfold St.fail
    rw [hk]
    show Conn.Task.pc (upd _ t _ t) = _
    rw [upd_same]
    rfl
  have ht' : t < (run c (a ++ [.timeout t])).ntasks := by
    rw [h1, (ended_frame (fail_ended' _ _ _)).1]
    exact ht
  rw [hab, done_run ht' h2]
  exact h2

theorem probeFails_iff (e : PyErr) : probeFails e = true ↔ RadioError e := by
  constructor
  · intro h
    cases e with
    | timeoutError => exact .inl rfl
    | serialException => exact .inr (.inl rfl)
    | commandError s => exact .inr (.inr ⟨s, rfl⟩)
    | _ => cases h
  · rintro (rfl | rfl | ⟨s, rfl⟩) <;> rfl

/-- If the version request raises, `probe` returns `False` for a timeout, a serial error or an error
status, and passes on anything else. -/
theorem c50_request (c : Config) (evs : List Ev) (t : Nat) (e : PyErr)
    (hk : ((run c evs).tasks t).kind = .probe) (hp : ((run c evs).tasks t).pc = .running) :
    (RadioError e → ((run c (evs ++ [.act t ⟨.request .SYS "version" [] none, .error e⟩])).tasks t).pc =
      .done (.returned false)) ∧
    (¬ RadioError e → ((run c (evs ++ [.act t ⟨.request .SYS "version" [] none, .error e⟩])).tasks t).pc =
      .done (.raised e)) := by
  have hi := (Conn.inv_run c evs).task t
  rw [Conn.TaskInv, hp, hk] at hi
  obtain ⟨-, l, -, -, -, ⟨o, f, h4⟩, h5⟩ := hi
  have hh := probe_waits h4 h5
  have h1 : run c (evs ++ [.act t ⟨.request .SYS "version" [] none, .error e⟩]) =
      ((run c evs).setTask t { (run c evs).tasks t with
        pc := .running, hist := [⟨.connect, .ok ()⟩, ⟨.request .SYS "version" [] none, .error e⟩] }).fail t e := by
    rw [Conn.run_snoc]
    show (if _ then _ else _ : Conn.St) = _
    rw [if_pos hp]
    unfold St.resume
    dsimp only
    rw [hk, hh]
    rfl
  have h2 : ((run c (evs ++ [.act t ⟨.request .SYS "version" [] none, .error e⟩])).tasks t).pc =
      .done (if probeFails e then .returned false else .raised e) := by
    rw [h1]
    unfold St.fail
    have hkk : (((run c evs).setTask t { (run c evs).tasks t with
        pc := .running, hist := [⟨.connect, .ok ()⟩, ⟨.request .SYS "version" [] none, .error e⟩] }).tasks t).kind =
        .probe := by
      show Conn.Task.kind (upd _ t _ t) = _
      rw [upd_same]
      exact hk
    rw [hkk]
    show Conn.Task.pc (upd _ t _ t) = _
    rw [upd_same]
  rw [h2]
  constructor
  · intro he
    rw [if_pos ((probeFails_iff e).mpr he)]
  · intro he
    rw [if_neg (fun hf => he ((probeFails_iff e).mp hf))]

/-- If the port cannot be opened, likewise; `e` is what selecting or opening the port raises. -/
theorem c50_open (c : Config) (evs : List Ev) (t : Nat) (ports : List PortInfo) (opens : Option PyErr)
    (d : Nat) (e : PyErr) (ht : t < (run c evs).ntasks)
    (hk : ((run c evs).tasks t).kind = .probe) (hp : ((run c evs).tasks t).pc = .ready)
    (he : portSettings ports c.device = .error e ∨
      (∃ x, portSettings ports c.device = .ok x) ∧ opens = some e) :
    (RadioError e → ((run c (evs ++ [.begin t ports opens d])).tasks t).pc = .done (.returned false)) ∧
    (¬ RadioError e → ((run c (evs ++ [.begin t ports opens d])).tasks t).pc = .done (.raised e)) ∧
    (run c (evs ++ [.begin t ports opens d])).log = (run c evs).log := by
  rw [Conn.run_snoc]
  generalize run c evs = s at *
  have hs : step c s (.begin t ports opens d) = s.connect c t ports opens d := by
    show (if _ then s.begin c t ports opens d else s) = _
    rw [if_pos ht]
    unfold St.begin
    rw [hk, hp]
  have hself : (({ s with nlinks := s.nlinks + 1, now := s.now + d }.setLink s.nlinks { owner := t }).setTask t
      { s.tasks t with pc := .connecting, link := some s.nlinks, hist := [] }).tasks t =
      { s.tasks t with pc := .connecting, link := some s.nlinks, hist := [] } := upd_same _ _ _
  have hc : s.connect c t ports opens d =
      (({ s with nlinks := s.nlinks + 1, now := s.now + d }.setLink s.nlinks { owner := t }).setTask t
      { s.tasks t with pc := .connecting, link := some s.nlinks, hist := [] }).resume c t ⟨.connect, .error e⟩ := by
    unfold St.connect
    rcases he with he | ⟨⟨x, hx⟩, rfl⟩
    · rw [he]
    · rw [hx]
  rw [hs, hc, resume_error (by rw [hself]), hself]
  unfold St.fail
  have hk' : ((((({ s with nlinks := s.nlinks + 1, now := s.now + d } : Conn.St).setLink s.nlinks { owner := t }).setTask t
      { s.tasks t with pc := .connecting, link := some s.nlinks, hist := [] }).setTask t
      { s.tasks t with pc := .running, link := some s.nlinks, hist := [] ++ [⟨.connect, .error e⟩] }).tasks t).kind =
      .probe := by
    show Conn.Task.kind (upd _ t _ t) = _
    rw [upd_same]
    exact hk
  have hlog : (((({ s with nlinks := s.nlinks + 1, now := s.now + d } : Conn.St).setLink s.nlinks { owner := t }).setTask t
      { s.tasks t with pc := .connecting, link := some s.nlinks, hist := [] }).setTask t
      { s.tasks t with pc := .running, link := some s.nlinks, hist := [] ++ [⟨.connect, .error e⟩] }).closeOwn t =
      ((({ s with nlinks := s.nlinks + 1, now := s.now + d } : Conn.St).setLink s.nlinks { owner := t }).setTask t
      { s.tasks t with pc := .connecting, link := some s.nlinks, hist := [] }).setTask t
      { s.tasks t with pc := .running, link := some s.nlinks, hist := [] ++ [⟨.connect, .error e⟩] } := by
    unfold St.closeOwn
    have : ((((({ s with nlinks := s.nlinks + 1, now := s.now + d } : Conn.St).setLink s.nlinks { owner := t }).setTask t
      { s.tasks t with pc := .connecting, link := some s.nlinks, hist := [] }).setTask t
      { s.tasks t with pc := .running, link := some s.nlinks, hist := [] ++ [⟨.connect, .error e⟩] }).tasks t).link =
      some s.nlinks := by
      show Conn.Task.link (upd _ t _ t) = _
      rw [upd_same]
    rw [this]
    refine if_neg ?_
    show ¬ (upd s.links s.nlinks _ s.nlinks).uart = true
    rw [upd_same]
    exact nofun
  rw [hk']
  dsimp only
  rw [hlog]
  have hpc : ∀ (s : Conn.St) pc, ((s.setPc t pc).tasks t).pc = pc := fun s pc => by
    show Conn.Task.pc (upd _ t _ t) = _
    rw [upd_same]
  refine ⟨fun hr => ?_, fun hr => ?_, rfl⟩
  · rw [hpc, if_pos ((probeFails_iff e).mpr hr)]
  · rw [hpc, if_neg (fun hf => hr ((probeFails_iff e).mp hf))]

/-- There is no other way to end. -/
theorem c50_outcome (c : Config) (evs : List Ev) (t : Nat) (e : PyErr)
    (hk : ((run c evs).tasks t).kind = .probe) (hd : ((run c evs).tasks t).pc = .done (.raised e)) :
    ¬ RadioError e := by
  have hi := (Conn.inv_run c evs).task t
  rw [Conn.TaskInv, hd] at hi
  intro he
  have := hi.2.2 hk
  rw [(probeFails_iff e).mpr he] at this
  cases this

/-- When a probe has ended, the port it opened is not open, if neither the time limit nor a cancellation
struck while it was opening it (see `c50_refuted`). -/
theorem c50_closed_partial (c : Config) (evs : List Ev) (t : Nat) (o : Conn.Outcome)
    (ht : t < (run c evs).ntasks) (hk : ((run c evs).tasks t).kind = .probe)
    (hd : ((run c evs).tasks t).pc = .done o) (hs : ¬ Struck c evs t) (l : Nat)
    (hl : l < (run c evs).nlinks) (ho : ((run c evs).links l).owner = t) : ¬ Open (run c evs) l := by
  rcases probe_closed c evs t o ht hk hd with h | h
  · exact absurd h hs
  · refine h l ?_
    have := (own_run c evs l hl).2
    rw [ho] at this
    exact this hk

/-- If the time limit (or a cancellation) strikes while the port is open but `connect` has not returned,
the port stays open for good: until the connection breaks by itself. -/
theorem c50_leaks (c : Config) (a b : List Ev) (t l : Nat) (ev : Ev) (ht : t < (run c a).ntasks)
    (hk : ((run c a).tasks t).kind = .probe) (hop : Opening (run c a) t)
    (hl : ((run c a).tasks t).link = some l) (ho : Open (run c a) l)
    (hev : ev = .cancel t ∨ ev = .timeout t ∧ ((run c a).tasks t).deadline ≤ (run c a).now)
    (hb : Ev.break l ∉ b) :
    Open (run c (a ++ ev :: b)) l ∧ ∃ o, ((run c (a ++ ev :: b)).tasks t).pc = .done o := by
  have hi := Conn.inv_run c a
  have hn : ∀ o, ((run c a).tasks t).pc ≠ .done o := by
    intro o hh
    rcases hop with h | ⟨u, h⟩ <;> rw [hh] at h <;> cases h
  have hu : ((run c a).links l).uart = false := by
    have := (hi.task t).2
    rcases hop with h | ⟨u, h⟩
    · rw [h] at this
      obtain ⟨l', hl', h1, -⟩ := this
      rw [hl] at hl'
      cases hl'
      exact h1
    · rw [h] at this
      obtain ⟨l', hl', h1, -⟩ := this
      rw [hl] at hl'
      cases hl'
      exact h1
  obtain ⟨hlt, hown⟩ := (hi.task t).1 l hl
  have hs : ∃ e, run c (a ++ [ev]) = (run c a).fail t e := by
    rw [Conn.run_snoc]
    rcases hev with rfl | ⟨rfl, hd⟩
    · refine ⟨.cancelledError, ?_⟩
      unfold step
      dsimp only
      split
      · next o hp => exact absurd hp (hn o)
      · rw [if_pos ht]
    · refine ⟨.timeoutError, ?_⟩
      unfold step
      dsimp only
      split
      · next o hp => exact absurd hp (hn o)
      · rw [if_pos ⟨ht, hd⟩]
      · next h _ => exact absurd hk h
  obtain ⟨e, hs⟩ := hs
  have hdone : ∃ o, (((run c a).fail t e).tasks t).pc = .done o := by
    unfold St.fail
    rw [hk]
    refine ⟨if probeFails e then .returned false else .raised e, ?_⟩
    show Conn.Task.pc (upd _ t _ t) = _
    rw [upd_same]
  have hlink := ended_links (fail_ended' (run c a) t e) hu
  obtain ⟨f1, f2, -, f4, -, pc, f6⟩ := ended_frame (fail_ended' (run c a) t e)
  have hleak : Leaked l (run c (a ++ [ev])) := by
    rw [hs]
    refine ⟨by rw [f2]; exact hlt, by rw [hlink]; exact ho, by rw [hlink]; exact hu, ?_, ?_⟩
    · rw [f1, hlink, hown]; exact ht
    · rw [hlink, hown]; exact hdone
  have := leaked_run hleak b hb
  rw [show a ++ ev :: b = (a ++ [ev]) ++ b by simp]
  refine ⟨this.transport, ?_⟩
  obtain ⟨o, h6⟩ := hdone
  refine ⟨o, ?_⟩
  rw [done_run (by rw [hs, f1]; exact ht) (by rw [hs]; exact h6), hs]
  exact h6

/-- A stick is found, opening the port takes 1.5 s (a blocking call), the time limit strikes while
`connect` sleeps for one second. -/
def slowProbe : List Ev :=
  [.probe, .begin 0 examplePorts none 1500, .made 0, .write 0, .tick 500]

/-- **Refuted:** `probe` does not leave every port closed: after `slowProbe` the time limit strikes,
`probe` returns `False`, and the port stays open until the connection breaks by itself. -/
theorem c50_refuted : ¬ ∀ (c : Config) (evs : List Ev) (t : Nat) (o : Conn.Outcome),
    t < (run c evs).ntasks → ((run c evs).tasks t).kind = .probe → ((run c evs).tasks t).pc = .done o →
    ∀ l, l < (run c evs).nlinks → ((run c evs).links l).owner = t → ¬ Open (run c evs) l := by
  intro h
  exact h exampleConfig (slowProbe ++ [.timeout 0]) 0 (.returned false) (by decide) rfl rfl 0 (by decide) rfl
    (by rfl : (_ : Transport) = _)

example (b : List Ev) (hb : Ev.break 0 ∉ b) : Open (run exampleConfig (slowProbe ++ .timeout 0 :: b)) 0 :=
  (c50_leaks exampleConfig slowProbe b 0 0 (.timeout 0) (by decide) rfl (.inr ⟨_, rfl⟩) rfl rfl
    (.inr ⟨rfl, by decide⟩) hb).1

/-- A probe that succeeds. -/
def goodProbe : List Ev :=
  [.probe, .begin 0 examplePorts none 10, .made 0, .write 0, .tick 1000, .settled 0,
   .act 0 ⟨.request .SYS "version" [] none, .ok (some (default : Obj))⟩]

example : ((run exampleConfig goodProbe).tasks 0).pc = .done (.returned true) ∧
    ¬ Open (run exampleConfig goodProbe) 0 := ⟨rfl, fun h => by cases h⟩

example : ∃ l x, Note.opened l x ∈ (run exampleConfig goodProbe).log := by
  obtain ⟨l, x, _, h, _⟩ := c50_true exampleConfig goodProbe 0 rfl rfl
  exact ⟨l, x, h⟩

example (b : List Ev) : ((run exampleConfig (slowProbe ++ .timeout 0 :: b)).tasks 0).pc =
    .done (.returned false) :=
  c50_timeout exampleConfig slowProbe b 0 (by decide) rfl
    (fun o h => by rw [show ((run exampleConfig slowProbe).tasks 0).pc = .settling 2500 from rfl] at h; cases h)
    (by decide)

/-- The radio refuses to tell its version; or the program has a bug. -/
example : ((run exampleConfig (goodProbe.take 6 ++
      [.act 0 ⟨.request .SYS "version" [] none, .error (.commandError 2)⟩])).tasks 0).pc = .done (.returned false) ∧
    ((run exampleConfig (goodProbe.take 6 ++
      [.act 0 ⟨.request .SYS "version" [] none, .error .attributeError⟩])).tasks 0).pc = .done (.raised .attributeError) :=
  ⟨(c50_request exampleConfig (goodProbe.take 6) 0 (.commandError 2) rfl rfl).1 (.inr (.inr ⟨2, rfl⟩)),
   (c50_request exampleConfig (goodProbe.take 6) 0 .attributeError rfl rfl).2
    (fun h => by rcases h with h | h | ⟨_, h⟩ <;> cases h)⟩

/-- No stick is there. -/
example : ((run exampleConfig ([.probe] ++ [.begin 0 [] none 10])).tasks 0).pc = .done (.returned false) :=
  (c50_open exampleConfig [.probe] 0 [] none 10 .serialException (by decide) rfl rfl (.inl rfl)).1
    (.inr (.inl rfl))

example : ¬ RadioError .attributeError :=
  c50_outcome exampleConfig (goodProbe.take 6 ++
    [.act 0 ⟨.request .SYS "version" [] none, .error .attributeError⟩]) 0 _ rfl rfl

/-- `c50_closed_partial` for a probe that succeeds: nothing strikes. -/
example : ¬ Open (run exampleConfig goodProbe) 0 :=
  c50_closed_partial exampleConfig goodProbe 0 (.returned true) (by decide) rfl rfl
    (by
      rintro ⟨a, ev, b, h, hev, -⟩
      have : ev ∈ goodProbe := by rw [h]; simp
      rcases hev with rfl | rfl <;> simp [goodProbe] at this) 0 (by decide) rfl

end Zcc
