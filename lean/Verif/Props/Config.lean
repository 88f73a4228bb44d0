import Verif.Model.Config
import Verif.Props.Connection

/-!
# C78: what a configuration of the port leads to
-/

namespace Zcc

open Spec Conn

namespace Spec

/-- What the documentation of the configuration promises: a path that exists or `auto`; the other two
entries may be left out; nothing else. -/
structure ValidConfig (pathExists : String → Bool) (raw : List (String × CfgVal)) : Prop where
  path : ∃ p, raw.lookup "path" = some (.str p) ∧ (p = "auto" ∨ p ≠ "" ∧ pathExists p = true)
  baudrate : ∀ v, raw.lookup "baudrate" = some v → ∃ n, v = .int n
  flow : ∀ v, raw.lookup "flow_control" = some v → v = .none ∨ v = .str "hardware" ∨ v = .str "software"
  keys : ∀ kv ∈ raw, kv.1 ∈ ["path", "baudrate", "flow_control"]

end Spec

/-- **C78.** The schema accepts exactly the valid configurations; entries that are given are kept, the
others are 115200 baud and no flow control. -/
theorem c78_exact (pathExists : String → Bool) (raw : List (String × CfgVal)) (c : DeviceConfig) :
    schemaDevice pathExists raw = some c ↔
      ValidConfig pathExists raw ∧ raw.lookup "path" = some (.str c.path) ∧
      raw.lookup "baudrate" = (if raw.lookup "baudrate" = none then none else some (.int c.baudrate)) ∧
      (raw.lookup "baudrate" = none → c.baudrate = 115200) ∧
      (∀ f, c.flowControl = some f ↔ raw.lookup "flow_control" = some (.str f)) := by
  have hk : (raw.all (fun kv => kv.1 = "path" ∨ kv.1 = "baudrate" ∨ kv.1 = "flow_control") = true) ↔
      ∀ kv ∈ raw, kv.1 ∈ ["path", "baudrate", "flow_control"] := by
    simp [List.all_eq_true]
  constructor
  · intro h
    unfold schemaDevice at h
    split at h
    case isFalse => cases h
    case isTrue hall =>
    split at h
    case h_2 => cases h
    next p b fl hp hb hf =>
    cases h
    dsimp only
    have g0 : raw.lookup "path" = some (.str p) ∧ (p = "auto" ∨ p ≠ "" ∧ pathExists p = true) := by
      cases hl : raw.lookup "path" with
      | none => rw [hl] at hp; cases hp
      | some v =>
        rw [hl] at hp
        cases v with
        | int n => cases hp
        | none => cases hp
        | other => cases hp
        | str q =>
          by_cases hx : (q ≠ "" ∧ pathExists q) ∨ q = "auto"
          · have : checkPath pathExists (.str q) = some q := by simp only [checkPath]; rw [if_pos hx]
            rw [show (some (CfgVal.str q)).bind (checkPath pathExists) = _ from this] at hp
            cases hp
            exact ⟨rfl, hx.symm⟩
          · have : checkPath pathExists (.str q) = none := by simp only [checkPath]; rw [if_neg hx]
            rw [show (some (CfgVal.str q)).bind (checkPath pathExists) = _ from this] at hp
            cases hp
    have g1 : ∀ v, raw.lookup "baudrate" = some v → v = .int b := by
      intro v hv
      rw [hv] at hb
      cases v <;> simp [optionalKey, checkInt] at hb
      rw [hb]
    have g2 : raw.lookup "baudrate" = none → b = 115200 := by
      intro hv
      rw [hv] at hb
      cases hb
      rfl
    have g3 : ∀ v, raw.lookup "flow_control" = some v →
        (v = .none ∧ fl = none ∨ ∃ s, v = .str s ∧ fl = some s ∧ (s = "hardware" ∨ s = "software")) := by
      intro v hv
      rw [hv] at hf
      cases v with
      | none => cases hf; exact .inl ⟨rfl, rfl⟩
      | int n => cases hf
      | other => cases hf
      | str s =>
        right
        refine ⟨s, rfl, ?_⟩
        by_cases hs : s = "hardware" ∨ s = "software"
        · simp [optionalKey, checkFlow, hs] at hf
          exact ⟨hf.symm, hs⟩
        · simp [optionalKey, checkFlow, hs] at hf
    have g4 : raw.lookup "flow_control" = none → fl = none := by
      intro hv
      rw [hv] at hf
      cases hf
      rfl
    refine ⟨⟨⟨p, g0⟩, fun v hv => ⟨b, g1 v hv⟩, fun v hv => ?_, hk.mp hall⟩, g0.1, ?_, g2, fun f => ?_⟩
    · rcases g3 v hv with ⟨h, -⟩ | ⟨s, h, -, hs | hs⟩
      · exact .inl h
      · exact .inr (.inl (by rw [h, hs]))
      · exact .inr (.inr (by rw [h, hs]))
    · cases hv : raw.lookup "baudrate" with
      | none => rfl
      | some v => rw [g1 v hv]; rfl
    · cases hv : raw.lookup "flow_control" with
      | none => simp [g4 hv]
      | some v =>
        rcases g3 v hv with ⟨h, h'⟩ | ⟨s, h, h', -⟩
        · simp [h, h']
        · simp [h, h']
  · rintro ⟨hv, h1, h2, h3, h4⟩
    obtain ⟨p, hp, hval⟩ := hv.path
    rw [h1] at hp
    cases hp
    unfold schemaDevice
    rw [if_pos (hk.mpr hv.keys)]
    have hcp : (raw.lookup "path").bind (checkPath pathExists) = some c.path := by
      rw [h1]
      show checkPath pathExists (.str c.path) = some c.path
      simp only [checkPath]; rw [if_pos hval.symm]
    have hb : optionalKey CONF_DEVICE_BAUDRATE_DEFAULT checkInt (raw.lookup "baudrate") = some c.baudrate := by
      cases hb : raw.lookup "baudrate" with
      | none => rw [h3 hb]; rfl
      | some v =>
        rw [hb] at h2
        rw [h2]
        rfl
    have hf : optionalKey .none checkFlow (raw.lookup "flow_control") = some c.flowControl := by
      cases hb : raw.lookup "flow_control" with
      | none =>
        cases hc : c.flowControl with
        | none => rfl
        | some f => rw [(h4 f).mp hc] at hb; cases hb
      | some v =>
        rcases hv.flow v hb with rfl | rfl | rfl
        · cases hc : c.flowControl with
          | none => rfl
          | some f => rw [(h4 f).mp hc] at hb; cases hb
        · rw [(h4 _).mpr hb]; rfl
        · rw [(h4 _).mpr hb]; rfl
    rw [hcp, hb, hf]

/-- **C78.** Whatever the driver is asked to do with a valid configuration, every port it opens is the one
configured (with `auto` the only stick there is at that moment), with the configured speed and flow
control. -/
theorem c78_opened (pathExists : String → Bool) (raw : List (String × CfgVal)) (c : DeviceConfig) (o : Options)
    (hc : schemaDevice pathExists raw = some c) (evs : List Ev) (l : Nat) (x : Settings)
    (hx : Note.opened l x ∈ (Conn.run ⟨c, o⟩ evs).log) :
    (raw.lookup "path" = some (.str x.url) ∧ x.url ≠ "auto" ∨
      raw.lookup "path" = some (.str "auto") ∧ ∃ t a d b w, Ev.begin t (a ++ d :: b) none w ∈ evs ∧ IsStick d ∧
        (∀ p ∈ a ++ b, ¬ IsStick p) ∧ x.url = d.device) ∧
    (raw.lookup "baudrate" = some (.int x.baudrate) ∨ raw.lookup "baudrate" = none ∧ x.baudrate = 115200) ∧
    (x.rtscts = true ↔ raw.lookup "flow_control" = some (.str "hardware")) ∧
    (x.xonxoff = true ↔ raw.lookup "flow_control" = some (.str "software")) := by
  obtain ⟨hv, h1, h2, h3, h4⟩ := (c78_exact pathExists raw c).mp hc
  obtain ⟨t, ports, w, hmem, hs⟩ := opened_run hx
  have hs : portSettings ports c = .ok x := hs
  have hb : raw.lookup "baudrate" = some (.int c.baudrate) ∨
      raw.lookup "baudrate" = none ∧ c.baudrate = 115200 := by
    cases hb : raw.lookup "baudrate" with
    | none => exact .inr ⟨rfl, h3 hb⟩
    | some v => left; rw [hb] at h2; exact h2
  by_cases ha : c.path = "auto"
  · obtain ⟨k1, k2, k3, a, d, b, k4, k5, k6, k7⟩ := (c53_auto ports c ha x).mp hs
    subst k4
    refine ⟨.inr ⟨by rw [h1, ha], t, a, d, b, w, hmem, k5, k6, k7⟩, by rw [k1]; exact hb, ?_, ?_⟩
    · rw [k3, decide_eq_true_iff]; exact h4 _
    · rw [k2, decide_eq_true_iff]; exact h4 _
  · rw [c53_path ports c ha] at hs
    cases hs
    refine ⟨.inl ⟨h1, ha⟩, hb, ?_, ?_⟩
    · exact Iff.trans decide_eq_true_iff (h4 _)
    · exact Iff.trans decide_eq_true_iff (h4 _)

/-- **C78.** `probe` checks the configuration itself: it raises exactly for an invalid one. -/
theorem c78_probe (pathExists : String → Bool) (raw : List (String × CfgVal)) (o : Options) (evs : List Ev) :
    probeRaw pathExists raw o evs = none ↔ ¬ ValidConfig pathExists raw := by
  unfold probeRaw
  rw [Option.map_eq_none_iff]
  constructor
  · intro h hv
    obtain ⟨p, hp, -⟩ := hv.path
    have : ∃ c, schemaDevice pathExists raw = some c := by
      let c : DeviceConfig :=
        { path := p
          baudrate := match raw.lookup "baudrate" with | some (.int n) => n | _ => 115200
          flowControl := match raw.lookup "flow_control" with | some (.str s) => some s | _ => none }
      refine ⟨c, (c78_exact pathExists raw c).mpr ⟨hv, hp, ?_, ?_, ?_⟩⟩
      · cases hb : raw.lookup "baudrate" with
        | none => rfl
        | some v =>
          obtain ⟨n, rfl⟩ := hv.baudrate v hb
          simp [c, hb]
      · intro hb; simp [c, hb]
      · intro f
        cases hb : raw.lookup "flow_control" with
        | none => simp [c, hb]
        | some v =>
          rcases hv.flow v hb with rfl | rfl | rfl <;> simp [c, hb]
    obtain ⟨c, hc⟩ := this
    rw [h] at hc
    cases hc
  · intro hv
    cases hs : schemaDevice pathExists raw with
    | none => rfl
    | some c => exact absurd ((c78_exact pathExists raw c).mp hs).1 hv

/-- **C78.** With a valid configuration `probe` is an attempt to connect with these settings, before anything
else happens. -/
theorem c78_probe_valid (pathExists : String → Bool) (raw : List (String × CfgVal)) (o : Options) (evs : List Ev)
    (hv : ValidConfig pathExists raw) :
    ∃ c, schemaDevice pathExists raw = some c ∧ probeRaw pathExists raw o evs = some (run ⟨c, o⟩ (.probe :: evs)) := by
  cases hs : schemaDevice pathExists raw with
  | none =>
    have : probeRaw pathExists raw o evs = none := by unfold probeRaw; rw [hs]; rfl
    exact absurd hv ((c78_probe pathExists raw o evs).mp this)
  | some c => exact ⟨c, rfl, by unfold probeRaw; rw [hs]; rfl⟩

example : ∃ s, probeRaw (fun _ => false) [("path", .str "auto")] exampleOptions
      [.begin 0 examplePorts none 10] = some s ∧
    (.opened 0 ⟨"/dev/ttyACM0", 115200, false, false⟩) ∈ s.log := by
  obtain ⟨c, hc, h⟩ := c78_probe_valid (fun _ => false) [("path", .str "auto")] exampleOptions
    [.begin 0 examplePorts none 10] ((c78_exact _ _ ⟨"auto", 115200, none⟩).mp (by decide +kernel)).1
  have hc' : schemaDevice (fun _ => false) [("path", .str "auto")] = some ⟨"auto", 115200, none⟩ := by
    decide +kernel
  rw [hc'] at hc
  cases hc
  exact ⟨_, h, .head _⟩

/-- A stick that is not plugged in: `probe` of its path does not return `False`, it raises. -/
theorem c78_missing_raises (p : String) (h : p ≠ "auto") (pathExists : String → Bool)
    (hm : pathExists p = false) (o : Options) (evs : List Ev) :
    probeRaw pathExists [("path", .str p)] o evs = none := by
  rw [c78_probe]
  rintro ⟨⟨q, hq, hq'⟩, -⟩
  cases hq
  rcases hq' with hq | ⟨-, hq⟩
  · exact h hq
  · rw [hm] at hq; cases hq

/-- Paths of the form `socket://…`, which pyserial could open, are refused, too; they are no files. -/
example : schemaDevice (fun p => p = "/dev/ttyUSB0") [("path", .str "socket://10.0.0.1:6638")] = none := by
  decide +kernel

example : schemaDevice (fun p => p = "/dev/ttyUSB0")
    [("baudrate", .int 57600), ("path", .str "/dev/ttyUSB0"), ("flow_control", .str "software")] =
      some ⟨"/dev/ttyUSB0", 57600, some "software"⟩ ∧
    schemaDevice (fun _ => false) [("path", .str "auto")] = some ⟨"auto", 115200, none⟩ ∧
    (∃ x, Note.opened 0 x ∈ (Conn.run ⟨⟨"/dev/ttyUSB0", 57600, some "software"⟩, exampleOptions⟩
      [.probe, .begin 0 [] none 5]).log) ∧
    schemaDevice (fun _ => true) [("path", .str "x"), ("baudrate", .str "9600")] = none := by
  refine ⟨by decide +kernel, by decide +kernel, ⟨_, .head _⟩, by decide +kernel⟩

/-- `auto` and no other settings: the only stick is opened, with the defaults. -/
example : "/dev/ttyACM0" = (examplePorts[1]).device ∧ ∃ c x, schemaDevice (fun _ => false) [("path", .str "auto")] = some c ∧
    Note.opened 0 x ∈ (Conn.run ⟨c, exampleOptions⟩ [.startup true, .begin 0 examplePorts none 10]).log ∧
    x.baudrate = 115200 ∧ x.rtscts = false := by
  have hc : schemaDevice (fun _ => false) [("path", .str "auto")] = some ⟨"auto", 115200, none⟩ := by decide +kernel
  have hx : Note.opened 0 ⟨"/dev/ttyACM0", 115200, false, false⟩ ∈
      (Conn.run ⟨⟨"auto", 115200, none⟩, exampleOptions⟩ [.startup true, .begin 0 examplePorts none 10]).log := by
    decide +kernel
  obtain ⟨-, h2, h3, -⟩ := c78_opened _ _ _ _ hc _ 0 _ hx
  refine ⟨rfl, _, _, hc, hx, ?_, ?_⟩
  · rcases h2 with h | h
    · cases h
    · exact h.2
  · rcases hr : (⟨"/dev/ttyACM0", 115200, false, false⟩ : Settings).rtscts with _ | _
    · rfl
    · cases h3.mp hr

end Zcc
