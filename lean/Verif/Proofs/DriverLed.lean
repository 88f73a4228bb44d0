import Verif.Proofs.Driver
import Verif.Proofs.ClientLimit
import Verif.Proofs.Requests
import Verif.Proofs.Cluster

/-!
# Lemmas about the LED requests
-/

namespace Zcc
open Spec

theorem fromCluster_subsystem {nwk profile cluster srcEp dstEp sequence radius : Int} {data : List UInt8}
    {addrMode : Option Int} {o : Obj}
    (h : Obj.fromCluster nwk profile cluster srcEp dstEp sequence data radius addrMode = .ok o) :
    o.subsystem = .AF ∨ o.subsystem = .ZDO := by
  by_cases hp : profile = 260
  · subst hp
    cases addrMode with
    | none => rw [fromCluster_unicast] at h; cases h; exact .inl rfl
    | some m => rw [fromCluster_ext] at h; cases h; exact .inl rfl
  · obtain ⟨c, payload, -, -, -, -, rfl⟩ := fromCluster_zdo_ok hp h
    exact .inr rfl

/-- No call of the application is an LED request. -/
theorem call_not_led {c : Call} {o : Obj} (h : c.obj = .ok o) : ¬ LedRequest o := by
  have : o.subsystem = .AF ∨ o.subsystem = .ZDO := by
    cases c with
    | request => exact fromCluster_subsystem h
    | mrequest => exact fromCluster_subsystem h
    | broadcast => exact fromCluster_subsystem h
    | permit time =>
      have h : (if 0 ≤ time ∧ time ≤ 254 then
          Obj.fromCommand .ZDO "mgmtPermitJoinReq" [("addrmode", .int addrBroadcast),
          ("dstaddr", .int allRoutersAndCoordinator), ("duration", .int time), ("tcsignificance", .int 0)]
        else .error .assertionError) = .ok o := h
      split at h
      · have hdec : ∃ c ∈ defZDO, c.name = "mgmtPermitJoinReq" := by decide +kernel
        obtain ⟨c, hc, hn⟩ := hdec
        have := fromCommand_eq (s := .ZDO) ⟨defZDO, rfl, hc⟩ [("addrmode", .int addrBroadcast),
          ("dstaddr", .int allRoutersAndCoordinator), ("duration", .int time), ("tcsignificance", .int 0)]
        rw [hn, h] at this
        cases this
        exact .inr rfl
      · cases h
  rintro ⟨h1, -⟩
  rw [h1] at this
  rcases this with h | h <;> cases h

/-- The LED requests that were made to an API. -/
theorem ledRequests_step {s : Api} (i : Inv s) (e : Event) (h : ∀ o w x, e = .submit o w x → ¬ LedRequest o) :
    ledRequests (s.step e).log = ledRequests s.log := by
  unfold ledRequests
  rw [submissions_eq, submissions_eq]
  obtain ⟨ext, h1, -, h3⟩ := submissions_step i e
  rw [h1, List.filterMap_append, List.filter_append]
  have : (ext.filterMap Entry.subObj).filter (fun o => decide (LedRequest o)) = [] := by
    rw [List.filter_eq_nil_iff]
    intro o ho
    obtain ⟨w, x, he⟩ := h3 o ho
    simpa using h o w x he
  rw [this, List.append_nil]

theorem ledRequests_submit {s : Api} (i : Inv s) {o : Obj} (h : LedRequest o) :
    ledRequests (s.step (.submit o none none)).log = ledRequests s.log ++ [o] := by
  unfold ledRequests
  rw [submissions_add i, List.filter_append]
  congr 1
  rw [List.filter_cons_of_pos (by simpa using h), List.filter_nil]

theorem ledRequests_app {s : AppSys} (ha : AInv s) (ev : AppEvent) (j : Nat)
    (h : ∀ o w x, ev = .api j (.submit o w x) → ¬ LedRequest o) :
    ledRequests ((s.step ev).api j).log = ledRequests (s.api j).log := by
  rcases app_api_step s ev j with he | ⟨e, hc, he⟩
  · rw [he]
  · rw [he]
    refine ledRequests_step (ha.api j) e ?_
    intro o w x hex
    subst hex
    cases hc with
    | api e => exact h o w x rfl
    | enter n k o x hk hpc hs hi =>
      have := (ha.tasks k (List.mem_of_getElem? hk)).pc
      rw [hpc] at this
      exact call_not_led this.2.1

theorem ledRequests_run (j : Nat) : ∀ (es : List AppEvent) {s : AppSys}, AInv s →
    (∀ o w x, .api j (.submit o w x) ∈ es → ¬ LedRequest o) →
    ledRequests ((s.run es).api j).log = ledRequests (s.api j).log
  | [], _, _, _ => rfl
  | ev :: es, s, ha, h => by
    have h1 := ledRequests_app ha ev j (fun o w x he => h o w x (he ▸ .head _))
    have h2 := ledRequests_run j es (ha.step ev) (fun o w x he => h o w x (.tail _ he))
    exact h2.trans h1

theorem ledTasks_modes (i : Nat) (es : List Effect) :
    ledTasks i es = (ledModes es).map fun mode => (i, mode) := by
  unfold ledTasks ledModes
  induction es with
  | nil => rfl
  | cons e es ih => cases e <;> simpa using ih

/-- The LED tasks that have run (`sent`), and all that were created (`all`). -/
structure LedInv (d : Driver) (sent all : List (Nat × Int)) : Prop where
  sys : AInv d.sys
  all : sent ++ d.leds = all
  made : ∀ i, (ledRequests (d.sys.api i).log).map (·.payload) =
    (sent.filter (·.1 = i)).map fun p => [("ledid", .int 3), ("mode", .int p.2)]

theorem led_fields (mode : Int) : ∃ o : Obj,
    Obj.fromCommand .UTIL "ledControl" [("ledid", .int 3), ("mode", .int mode)] = .ok o ∧
    LedRequest o ∧ o.payload = [("ledid", .int 3), ("mode", .int mode)] := by
  have hdec : ∃ c ∈ defUTIL, c.name = "ledControl" := by decide +kernel
  obtain ⟨c, hc, hn⟩ := hdec
  have := fromCommand_eq (s := .UTIL) ⟨defUTIL, rfl, hc⟩ [("ledid", .int 3), ("mode", .int mode)]
  rw [hn] at this
  exact ⟨_, this, ⟨rfl, rfl⟩, rfl⟩

theorem ledInv_step {d : Driver} {sent all : List (Nat × Int)} (h : LedInv d sent all) (e : DriverEvent)
    (hno : ∀ i o w x, e = .sys (.api i (.submit o w x)) → ¬ LedRequest o) :
    ∃ sent', LedInv (d.step e) sent'
      (all ++ (ledModes ((d.step e).effects.drop d.effects.length)).map fun mode => (d.sys.cur, mode)) := by
  have hsys : AInv (d.step e).sys := by
    rw [driver_step_sys]; exact ainv_from h.sys _
  -- everything but LED tasks
  have plain : (d.step e).leds = d.leds → (d.step e).effects = d.effects →
      (∀ i, ledRequests ((d.step e).sys.api i).log = ledRequests (d.sys.api i).log) →
      ∃ sent', LedInv (d.step e) sent'
        (all ++ (ledModes ((d.step e).effects.drop d.effects.length)).map fun mode => (d.sys.cur, mode)) := by
    intro h1 h2 h3
    refine ⟨sent, hsys, ?_, fun i => by rw [h3]; exact h.made i⟩
    rw [h1, h2, List.drop_length, h.all]
    exact (List.append_nil _).symm
  cases e with
  | bytes i c =>
    by_cases hi : i ≤ d.sys.cur
    · have hl : ∀ j, ledRequests ((d.step (.bytes i c)).sys.api j).log = ledRequests (d.sys.api j).log := by
        intro j
        rw [driver_step_sys]
        refine ledRequests_run j _ h.sys ?_
        intro o w x hm
        unfold Driver.moves at hm
        dsimp only at hm
        rw [if_pos hi] at hm
        obtain ⟨f, -, hf⟩ := List.mem_map.mp hm
        cases hf
      have h1 : ∃ new, (d.step (.bytes i c)).leds = d.leds ++ ledTasks d.sys.cur new ∧
          (d.step (.bytes i c)).effects = d.effects ++ new := by
        unfold Driver.step
        dsimp only
        rw [if_pos hi]
        exact ⟨_, rfl, rfl⟩
      obtain ⟨new, h1, h2⟩ := h1
      refine ⟨sent, hsys, ?_, fun j => by rw [hl]; exact h.made j⟩
      rw [h1, h2, List.drop_left, ← List.append_assoc, h.all, ledTasks_modes]
    · have : (d.step (.bytes i c)).leds = d.leds ∧ (d.step (.bytes i c)).effects = d.effects ∧
          (d.step (.bytes i c)).sys = d.sys := by
        unfold Driver.step
        dsimp only
        rw [if_neg hi]
        exact ⟨rfl, rfl, rfl⟩
      exact plain (by rw [this.1]) (by rw [this.2.1]) (fun _ => by rw [this.2.2])
  | led =>
    rcases hl : d.leds with _ | ⟨⟨i, mode⟩, rest⟩
    · have : d.step .led = d := by simp only [Driver.step, hl]
      exact plain (by rw [this]) (by rw [this]) (fun _ => by rw [this])
    · obtain ⟨o, ho, hled, hpay⟩ := led_fields mode
      have hs : d.step .led = { d with leds := rest, sys := d.sys.apiStep i (.submit o none none) } := by
        simp only [Driver.step, hl, ho]
      refine ⟨sent ++ [(i, mode)], hsys, ?_, ?_⟩
      · rw [hs]
        show _ = all ++ (ledModes (d.effects.drop d.effects.length)).map _
        rw [List.drop_length, ← h.all, hl]
        simp [ledModes]
      · intro j
        rw [hs]
        show (ledRequests ((d.sys.apiStep i (.submit o none none)).api j).log).map _ = _
        rw [apiStep_api, List.filter_append, List.map_append, ← h.made j]
        by_cases hj : j = i
        · subst hj
          rw [if_pos rfl, ledRequests_submit (h.sys.api j) hled, List.map_append]
          simp [hpay]
        · rw [if_neg hj, List.filter_cons_of_neg (by simpa using fun h => hj h.symm)]
          simp
  | devices ds => exact plain rfl rfl (fun _ => rfl)
  | sys e =>
    by_cases hf : ∃ i f, e = .api i (.frame f)
    · obtain ⟨i, f, rfl⟩ := hf
      exact plain rfl rfl (fun _ => rfl)
    · have h1 : (d.step (.sys e)).leds = d.leds ∧ (d.step (.sys e)).effects = d.effects ∧
          (d.step (.sys e)).sys = d.sys.step e := by
        cases e with
        | api i e => cases e <;> first | exact ⟨rfl, rfl, rfl⟩ | exact absurd ⟨_, _, rfl⟩ hf
        | _ => exact ⟨rfl, rfl, rfl⟩
      refine plain h1.1 h1.2.1 (fun j => ?_)
      rw [h1.2.2]
      exact ledRequests_app h.sys e j (fun o w x he => hno j o w x (by rw [he]))

theorem ledInv_run : ∀ (es : List DriverEvent) {d : Driver} {sent all : List (Nat × Int)}, LedInv d sent all →
    (∀ i o w x, .sys (.api i (.submit o w x)) ∈ es → ¬ LedRequest o) →
    ∃ sent', LedInv (d.run es) sent' (all ++ ledDecisions d es)
  | [], _, sent, _, h, _ => ⟨sent, by rw [ledDecisions, List.append_nil]; exact h⟩
  | e :: es, _, _, _, h, hno => by
    obtain ⟨sent', h'⟩ := ledInv_step h e (fun i o w x he => hno i o w x (he ▸ .head _))
    have := ledInv_run es h' (fun i o w x he => hno i o w x (.tail _ he))
    rw [List.append_assoc] at this
    exact this

end Zcc
