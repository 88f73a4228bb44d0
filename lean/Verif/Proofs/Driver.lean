import Verif.Spec.Driver
import Verif.Proofs.Stack
import Verif.Proofs.Reply

/-!
# Lemmas about the whole driver
-/

namespace Zcc
open Spec

/-! ## The parser in the middle of a good stream that is followed by anything -/

/-- The parser holds `buf`, the bytes `rest` are still to come, and they will deliver `fs`, before
`k` is left. -/
inductive SyncTo (k : List UInt8) : List UInt8 → List UInt8 → List Frame → Prop
  | idle (items : List (List UInt8 × Frame)) (h : ∀ p ∈ items, GoodItem p) :
      SyncTo k [] (stream items k) (items.map (·.2))
  | part (f : Frame) (b c : List UInt8) (items : List (List UInt8 × Frame))
      (hf : Fits f) (hd : f.data ≠ []) (hw : wire f = b ++ c) (hb : b ≠ []) (hc : c ≠ [])
      (h : ∀ p ∈ items, GoodItem p) : SyncTo k b (c ++ stream items k) (f :: items.map (·.2))

theorem stream_length (items : List (List UInt8 × Frame)) (k : List UInt8) :
    k.length ≤ (stream items k).length := by
  simp [stream]

/-- The end of the stream. -/
theorem SyncTo.nil {k b r : List UInt8} {fs : List Frame} (h : SyncTo k b r fs) (hr : r = k) :
    b = [] ∧ fs = [] := by
  have hl := congrArg List.length hr
  cases h with
  | idle items h =>
    cases items with
    | nil => exact ⟨rfl, rfl⟩
    | cons p items => simp [stream, wire] at hl; omega
  | part f b c items hf hd hw hb hc h =>
    have := stream_length items k
    have hc' : 0 < c.length := List.length_pos_iff.mpr hc
    rw [List.length_append] at hl
    omega

theorem SyncTo.more {k b r : List UInt8} {fs : List Frame} (h : SyncTo k b r fs)
    (hr : k.length < r.length) : fs ≠ [] := by
  cases h with
  | idle items h =>
    cases items with
    | nil => simp [stream] at hr
    | cons p items => simp
  | part f b c items hf hd hw hb hc h => simp

/-- One byte. -/
theorem SyncTo.step {k b xr : List UInt8} {x : UInt8} {r : List UInt8} {fs : List Frame}
    (h : SyncTo k b xr fs) (hr : x :: r = xr) (hk : k.length ≤ r.length) :
    (∃ b', Parser.write b x = (b', .ok none) ∧ SyncTo k b' r fs) ∨
    (∃ f fs', fs = f :: fs' ∧ Parser.write b x = ([], .ok (some (received f))) ∧
      SyncTo k [] r fs') := by
  cases h with
  | idle items h =>
    cases items with
    | nil =>
      have := congrArg List.length hr
      simp [stream] at this
      omega
    | cons p items =>
      obtain ⟨n, f⟩ := p
      obtain ⟨hn, hf, hd⟩ := h (n, f) (by simp)
      cases n with
      | cons y n =>
        simp only [stream, List.flatMap_cons, List.cons_append, List.cons.injEq] at hr
        obtain ⟨rfl, hr⟩ := hr
        left
        refine ⟨[], write_drop [] x x [] rfl (hn x (by simp)), ?_⟩
        have := SyncTo.idle (k := k) ((n, f) :: items) (by
          intro p hp
          rcases List.mem_cons.mp hp with rfl | hp
          · exact ⟨fun z hz => hn z (by simp [hz]), hf, hd⟩
          · exact h p (by simp [hp]))
        rw [hr]
        simpa only [stream, List.flatMap_cons, List.map_cons] using this
      | nil =>
        have hw : wire f = [0xFE] ++ (body f ++ [xorAll (body f)]) := rfl
        simp only [stream, List.flatMap_cons, List.nil_append, hw, List.cons_append,
          List.cons.injEq] at hr
        obtain ⟨rfl, hr⟩ := hr
        left
        refine ⟨[0xFE], write_part hf hd (b := []) (c := body f ++ [xorAll (body f)]) hw (by simp), ?_⟩
        have := SyncTo.part (k := k) f [0xFE] (body f ++ [xorAll (body f)]) items hf hd hw (by simp)
          (by simp) (fun p hp => h p (by simp [hp]))
        rw [hr]
        simpa [stream] using this
  | part f b c items hf hd hw hb hc h =>
    cases c with
    | nil => exact absurd rfl hc
    | cons y c =>
      simp only [List.cons_append, List.cons.injEq] at hr
      obtain ⟨rfl, hr⟩ := hr
      by_cases hc' : c = []
      · subst hc'
        right
        refine ⟨f, _, rfl, write_last hf hd hw, ?_⟩
        rw [hr]
        exact SyncTo.idle items h
      · left
        refine ⟨b ++ [x], write_part hf hd hw hc', ?_⟩
        rw [hr]
        exact SyncTo.part f (b ++ [x]) c items hf hd (by simpa using hw) (by simp) hc' h

/-! ## The application's part of an execution -/

/-- The frames that a chunk delivers. -/
def delivered {σ : Type} (h : Handler σ) (g : Gateway σ) : List UInt8 → List Frame
  | [] => []
  | b :: rest =>
    match Parser.write g.buffer b with
    | (_, .error _) => []
    | (buf, .ok none) => delivered h { g with buffer := buf } rest
    | (buf, .ok (some f)) =>
      f :: match h g.api f with
        | (_, some _) => []
        | (s, none) => delivered h { buffer := buf, api := s } rest

/-- What an event of the driver is for the application. -/
def Driver.moves (d : Driver) : DriverEvent → List AppEvent
  | .bytes i chunk =>
    if i ≤ d.sys.cur then
      (delivered (Driver.handler i) ⟨d.buffer i, d.sys, d.app, []⟩ chunk).map fun f => .api i (.frame f)
    else []
  | .led =>
    match d.leds with
    | [] => []
    | (i, mode) :: _ =>
      match Obj.fromCommand .UTIL "ledControl" [("ledid", .int 3), ("mode", .int mode)] with
      | .ok o => [.api i (.submit o none none)]
      | .error _ => []
  | .devices _ => []
  | .sys (.api _ (.frame _)) => []
  | .sys e => [e]

/-- What an execution of the driver is for the application. -/
def Driver.trace (d : Driver) : List DriverEvent → List AppEvent
  | [] => []
  | e :: es => d.moves e ++ (d.step e).trace es

theorem delivered_sys (i : Nat) (c : List UInt8) : ∀ (b : List UInt8) (s : AppSys) (a : App) (e : List Effect),
    (Gateway.dataReceived (Driver.handler i) ⟨b, s, a, e⟩ c).1.api.1 =
      s.run ((delivered (Driver.handler i) ⟨b, s, a, e⟩ c).map fun f => .api i (.frame f)) := by
  induction c with
  | nil => intros; rfl
  | cons x c ih =>
    intro b s a e
    unfold Gateway.dataReceived delivered
    dsimp only
    rcases Parser.write b x with ⟨b', er | _ | f⟩
    · rfl
    · exact ih b' s a e
    · dsimp only
      have hh : Driver.handler i (s, a, e) f = ((s.apiStep i (.frame f), (receive (s.api i) a f).2.app,
        e ++ (receive (s.api i) a f).2.effects), (receive (s.api i) a f).2.raised) := rfl
      rw [hh]
      rcases (receive (s.api i) a f).2.raised with _ | er
      · exact ih b' _ _ _
      · rfl

theorem driver_step_sys (d : Driver) (e : DriverEvent) : (d.step e).sys = d.sys.run (d.moves e) := by
  cases e with
  | bytes i c =>
    show (if i ≤ d.sys.cur then _ else _ : Driver).sys = d.sys.run (if i ≤ d.sys.cur then _ else [])
    split
    · exact delivered_sys _ _ _ _ _ _
    · rfl
  | led =>
    unfold Driver.step Driver.moves
    dsimp only
    rcases d.leds with _ | ⟨⟨i, mode⟩, rest⟩
    · rfl
    · dsimp only
      rcases Obj.fromCommand .UTIL "ledControl" [("ledid", .int 3), ("mode", .int mode)] with e | o <;> rfl
  | devices ds => rfl
  | sys e =>
    cases e with
    | api i e => cases e <;> rfl
    | _ => rfl

theorem driver_run_sys : ∀ (es : List DriverEvent) (d : Driver), (d.run es).sys = d.sys.run (d.trace es)
  | [], _ => rfl
  | e :: es, d => by
    rw [Driver.trace, app_run_append, ← driver_step_sys]
    exact driver_run_sys es (d.step e)

theorem driver_run_append (d : Driver) (a b : List DriverEvent) : d.run (a ++ b) = (d.run a).run b := by
  simp [Driver.run, List.foldl_append]

theorem trace_append : ∀ (a b : List DriverEvent) (d : Driver),
    d.trace (a ++ b) = d.trace a ++ (d.run a).trace b
  | [], _, _ => rfl
  | e :: a, b, d => by
    show d.moves e ++ (d.step e).trace (a ++ b) = d.moves e ++ (d.step e).trace a ++ _
    rw [trace_append a b (d.step e), List.append_assoc]
    rfl

theorem interleaved_inner {out all : List AppEvent} (h : Interleaved out all) :
    ∀ l : List AppEvent, (∀ e ∈ l, Internal e) → Interleaved out (l ++ all)
  | [], _ => h
  | e :: l, hl => .inner e (hl e (.head _)) (interleaved_inner h l fun x hx => hl x (.tail _ hx))

theorem led_obj (mode : Int) : ∃ o : Obj,
    Obj.fromCommand .UTIL "ledControl" [("ledid", .int 3), ("mode", .int mode)] = .ok o ∧
    o.subsystem = .UTIL ∧ o.command = "ledControl" := by
  have hdec : ∃ c ∈ defUTIL, c.name = "ledControl" := by decide +kernel
  obtain ⟨c, hc, hn⟩ := hdec
  have := fromCommand_eq (s := .UTIL) ⟨defUTIL, rfl, hc⟩ [("ledid", .int 3), ("mode", .int mode)]
  rw [hn] at this
  exact ⟨_, this, rfl, rfl⟩

theorem trace_interleaved : ∀ (es : List DriverEvent) (d : Driver), Interleaved (outside es) (d.trace es)
  | [], _ => .nil
  | e :: es, d => by
    have ih := trace_interleaved es (d.step e)
    show Interleaved _ (d.moves e ++ (d.step e).trace es)
    generalize (d.step e).trace es = all at ih
    cases e with
    | bytes i c =>
      refine interleaved_inner ih _ ?_
      intro x hx
      unfold Driver.moves at hx
      dsimp only at hx
      split at hx
      · obtain ⟨f, -, rfl⟩ := List.mem_map.mp hx
        exact True.intro
      · cases hx
    | led =>
      refine interleaved_inner ih _ ?_
      intro x hx
      unfold Driver.moves at hx
      dsimp only at hx
      split at hx
      · cases hx
      · split at hx
        · rename_i i mode rest hl _ o ho
          rw [List.mem_singleton] at hx
          subst hx
          obtain ⟨o', h1, h2⟩ := led_obj mode
          rw [h1] at ho
          cases ho
          exact h2
        · cases hx
    | devices ds => exact ih
    | sys e =>
      by_cases hf : ∃ i f, e = .api i (.frame f)
      · obtain ⟨i, f, rfl⟩ := hf
        exact ih
      · have h1 : d.moves (.sys e) = [e] ∧ outside (.sys e :: es) = e :: outside es := by
          cases e with
          | api i e => cases e <;> first | exact ⟨rfl, rfl⟩ | exact absurd ⟨_, _, rfl⟩ hf
          | _ => exact ⟨rfl, rfl⟩
        rw [h1.1, h1.2]
        exact .outer e ih

/-! ## What the APIs and zigpy's table have in common in all executions -/

/-- The events of one of the APIs. -/
def Hist (j : Nat) (s : AppSys) : Prop :=
  ∃ E, s.api j = Api.init.run E ∧ StartupWaiters E ∧ ByteSequences E

/-- The events of the application that keep to the rules. -/
def Lawful (ev : AppEvent) : Prop :=
  (∀ i m to q, ev = .api i (.register m to q) → StartupMatcher m ∧ q = none) ∧
  (∀ i o q, ev ≠ .api i (.registerResponse o q)) ∧
  ∀ c q, ev = .call c → c.wantsReply = some q → 0 ≤ q ∧ q < 256

theorem plain_event {e : Event} (h1 : ∀ m to q, e ≠ .register m to q)
    (h2 : ∀ o q, e ≠ .registerResponse o q) : StartupWaiters [e] ∧ ByteSequences [e] := by
  refine ⟨?_, ?_, ?_⟩
  · intro m to q hm
    exact absurd (List.mem_singleton.mp hm).symm (h1 m to q)
  · intro o n hm
    exact absurd (List.mem_singleton.mp hm).symm (h2 o _)
  · intro m to q hm
    exact absurd (List.mem_singleton.mp hm).symm (h1 m to q)

theorem hist_step {j : Nat} {s : AppSys} (h : Hist j s) {ev : AppEvent} (hl : Lawful ev) :
    Hist j (s.step ev) := by
  obtain ⟨E, h1, h2, h3⟩ := h
  rcases app_api_step s ev j with he | ⟨e, hc, he⟩
  · exact ⟨E, he.trans h1, h2, h3⟩
  · have hx : StartupWaiters [e] ∧ ByteSequences [e] := by
      cases hc with
      | api e =>
        refine ⟨?_, ?_, ?_⟩
        · intro m to q hm
          rw [List.mem_singleton] at hm
          exact (hl.1 j m to q (by rw [hm])).1
        · intro o n hm
          rw [List.mem_singleton] at hm
          exact absurd (by rw [hm]) (hl.2.1 j o (some n))
        · intro m to q hm
          rw [List.mem_singleton] at hm
          exact (hl.1 j m to q (by rw [hm])).2
      | cancel n t =>
        exact plain_event (by intro m to q h; cases h) (by intro o q h; cases h)
      | call c o q hq hi =>
        refine ⟨?_, ?_, ?_⟩
        · intro m to q hm
          rw [List.mem_singleton] at hm
          cases hm
        · intro o n hm
          rw [List.mem_singleton] at hm
          cases hm
          exact hl.2.2 c _ rfl hq
        · intro m to q hm
          rw [List.mem_singleton] at hm
          cases hm
      | enter n k o x hk hpc hs hi =>
        exact plain_event (by intro m to q h; cases h) (by intro o q h; cases h)
      | newApi =>
        exact plain_event (by intro m to q h; cases h) (by intro o q h; cases h)
    refine ⟨E ++ [e], ?_, startupWaiters_append h2 hx.1, byteSequences_append h3 hx.2⟩
    rw [api_run_append, ← h1, he]
    rfl

theorem hist_run {j : Nat} : ∀ (es : List AppEvent) {s : AppSys}, Hist j s → (∀ ev ∈ es, Lawful ev) →
    Hist j (s.run es)
  | [], _, h, _ => h
  | ev :: es, _, h, hl => hist_run es (hist_step h (hl ev (.head _))) fun x hx => hl x (.tail _ hx)

theorem hist_init (j : Nat) : Hist j AppSys.init :=
  ⟨[], rfl, by intro m to q h; simp at h, by intro o n h; simp at h, by intro m to q h; simp at h⟩

theorem internal_lawful {ev : AppEvent} (h : Internal ev) : Lawful ev := by
  unfold Internal at h
  split at h
  · exact ⟨(by intro i m to q h; cases h), (by intro i o q h; cases h), (by intro c q h; cases h)⟩
  · exact ⟨(by intro i m to q h; cases h), (by intro i o q h; cases h), (by intro c q h; cases h)⟩
  · exact absurd h id

theorem interleaved_mem {out all : List AppEvent} (h : Interleaved out all) :
    ∀ e ∈ all, e ∈ out ∨ Internal e := by
  induction h with
  | nil => intro e he; cases he
  | outer e _ ih =>
    intro x hx
    rcases List.mem_cons.mp hx with rfl | hx
    · exact .inl (.head _)
    · exact (ih x hx).imp (.tail _) id
  | inner e hi _ ih =>
    intro x hx
    rcases List.mem_cons.mp hx with rfl | hx
    · exact .inr hi
    · exact ih x hx

theorem outside_mem : ∀ (es : List DriverEvent), ∀ e ∈ outside es, .sys e ∈ es
  | [], e, h => by cases h
  | ev :: es, e, h => by
    have ih := outside_mem es e
    cases ev with
    | bytes i c => exact .tail _ (ih h)
    | led => exact .tail _ (ih h)
    | devices ds => exact .tail _ (ih h)
    | sys e' =>
      by_cases hf : ∃ i f, e' = .api i (.frame f)
      · obtain ⟨i, f, rfl⟩ := hf
        exact .tail _ (ih h)
      · have h1 : outside (.sys e' :: es) = e' :: outside es := by
          cases e' with
          | api i e => cases e <;> first | rfl | exact absurd ⟨_, _, rfl⟩ hf
          | _ => rfl
        rw [h1] at h
        rcases List.mem_cons.mp h with rfl | h
        · exact .head _
        · exact .tail _ (ih h)

/-- Only start-up registers waiters directly. -/
def StartupOnly (es : List DriverEvent) : Prop :=
  ∀ i m to q, .sys (.api i (.register m to q)) ∈ es → StartupMatcher m ∧ q = none

theorem trace_lawful (es : List DriverEvent) (d : Driver) (hr : Regular es) (hs : StartupOnly es) :
    ∀ ev ∈ d.trace es, Lawful ev := by
  intro ev he
  rcases interleaved_mem (trace_interleaved es d) ev he with h | h
  · have h := outside_mem es ev h
    refine ⟨?_, ?_, ?_⟩
    · rintro i m to q rfl; exact hs i m to q h
    · rintro i o q rfl; exact hr.responses i o q h
    · rintro c q rfl hq; exact hr.calls c q h hq
  · exact internal_lawful h

/-! ### zigpy's table -/

theorem receive_app (s : Api) (a : App) (f : Frame) (hd : DistinctIeee a.devices) :
    (receive s a f).2.app.product = a.product ∧ DistinctIeee (receive s a f).2.app.devices := by
  unfold receive
  rcases s.dataReceived f with ⟨s', e | o⟩
  · exact ⟨rfl, hd⟩
  · exact handleZnp_app a o hd

theorem chunk_app (i : Nat) (c : List UInt8) : ∀ (b : List UInt8) (s : AppSys) (a : App) (e : List Effect),
    DistinctIeee a.devices →
    (Gateway.dataReceived (Driver.handler i) ⟨b, s, a, e⟩ c).1.api.2.1.product = a.product ∧
    DistinctIeee (Gateway.dataReceived (Driver.handler i) ⟨b, s, a, e⟩ c).1.api.2.1.devices := by
  induction c with
  | nil => intro b s a e hd; exact ⟨rfl, hd⟩
  | cons x c ih =>
    intro b s a e hd
    unfold Gateway.dataReceived
    dsimp only
    rcases Parser.write b x with ⟨b', er | _ | f⟩
    · exact ⟨rfl, hd⟩
    · exact ih b' s a e hd
    · dsimp only
      have hh : Driver.handler i (s, a, e) f = ((s.apiStep i (.frame f), (receive (s.api i) a f).2.app,
        e ++ (receive (s.api i) a f).2.effects), (receive (s.api i) a f).2.raised) := rfl
      obtain ⟨h1, h2⟩ := receive_app (s.api i) a f hd
      rw [hh]
      rcases (receive (s.api i) a f).2.raised with _ | er
      · have := ih b' (s.apiStep i (.frame f)) _ (e ++ (receive (s.api i) a f).2.effects) h2
        rw [h1] at this
        exact this
      · exact ⟨h1, h2⟩

theorem step_app (d : Driver) (e : DriverEvent) (hd : DistinctIeee d.app.devices)
    (he : ∀ ds, e = .devices ds → DistinctIeee ds) :
    (d.app.product ≠ none → (d.step e).app.product ≠ none) ∧ DistinctIeee (d.step e).app.devices := by
  cases e with
  | bytes i c =>
    show (_ → (if i ≤ d.sys.cur then _ else _ : Driver).app.product ≠ none) ∧
      DistinctIeee (if i ≤ d.sys.cur then _ else _ : Driver).app.devices
    split
    · obtain ⟨h1, h2⟩ := chunk_app i c (d.buffer i) d.sys d.app [] hd
      exact ⟨fun h => h1 ▸ h, h2⟩
    · exact ⟨id, hd⟩
  | led =>
    unfold Driver.step
    dsimp only
    split
    · exact ⟨id, hd⟩
    · split <;> exact ⟨id, hd⟩
  | devices ds => exact ⟨id, he ds rfl⟩
  | sys e =>
    cases e with
    | api i e => cases e <;> exact ⟨id, hd⟩
    | newSemaphore p => exact ⟨fun _ h => (by cases h), hd⟩
    | _ => exact ⟨id, hd⟩

theorem handleZnp_product (a : App) (o : Obj) : (a.handleZnp o).app.product = a.product := by
  unfold App.handleZnp
  split
  · rfl
  split
  · rfl
  dsimp only
  split
  · split
    · rfl
    · split
      · dsimp only
        rw [dispatch_app]
        unfold App.handleJoin
        split <;> rfl
      · rfl
  · rw [dispatch_app]

theorem chunk_product (i : Nat) (c : List UInt8) : ∀ (b : List UInt8) (s : AppSys) (a : App) (e : List Effect),
    (Gateway.dataReceived (Driver.handler i) ⟨b, s, a, e⟩ c).1.api.2.1.product = a.product := by
  induction c with
  | nil => intro b s a e; rfl
  | cons x c ih =>
    intro b s a e
    unfold Gateway.dataReceived
    dsimp only
    rcases Parser.write b x with ⟨b', er | _ | f⟩
    · rfl
    · exact ih b' s a e
    · dsimp only
      have hh : Driver.handler i (s, a, e) f = ((s.apiStep i (.frame f), (receive (s.api i) a f).2.app,
        e ++ (receive (s.api i) a f).2.effects), (receive (s.api i) a f).2.raised) := rfl
      have h1 : (receive (s.api i) a f).2.app.product = a.product := by
        unfold receive
        rcases (s.api i).dataReceived f with ⟨s', e | o⟩
        · rfl
        · exact handleZnp_product a o
      rw [hh]
      rcases (receive (s.api i) a f).2.raised with _ | er
      · exact (ih b' _ _ _).trans h1
      · exact h1

theorem step_product (d : Driver) (e : DriverEvent) :
    (d.step e).app.product = (match productRead e with | some p => some p | none => d.app.product) := by
  cases e with
  | bytes i c =>
    show (if i ≤ d.sys.cur then _ else _ : Driver).app.product = d.app.product
    split
    · exact chunk_product i c (d.buffer i) d.sys d.app []
    · rfl
  | led =>
    unfold Driver.step
    dsimp only
    split
    · rfl
    · split <;> rfl
  | devices ds => rfl
  | sys e =>
    cases e with
    | api i e => cases e <;> rfl
    | _ => rfl

theorem run_app : ∀ (es : List DriverEvent) (d : Driver), DistinctIeee d.app.devices →
    (∀ ds, .devices ds ∈ es → DistinctIeee ds) →
    (d.app.product ≠ none → (d.run es).app.product ≠ none) ∧ DistinctIeee (d.run es).app.devices
  | [], _, hd, _ => ⟨id, hd⟩
  | e :: es, d, hd, he => by
    obtain ⟨h1, h2⟩ := step_app d e hd (fun ds h => he ds (h ▸ .head _))
    obtain ⟨h3, h4⟩ := run_app es (d.step e) h2 (fun ds h => he ds (.tail _ h))
    exact ⟨fun h => h3 (h1 h), h4⟩

/-! ## Good streams -/

/-- The frames of items as events of the `i`th API. -/
def framesOf (i : Nat) (items : List Item) : List AppEvent :=
  items.map fun x => .api i (.frame (received x.frame))

theorem framesOf_lawful (i : Nat) (items : List Item) : ∀ ev ∈ framesOf i items, Lawful ev := by
  intro ev h
  obtain ⟨x, -, rfl⟩ := List.mem_map.mp h
  exact internal_lawful (ev := .api i (.frame (received x.frame))) True.intro

theorem good_chunk (i : Nat) (k : List UInt8) (c : List UInt8) :
    ∀ (b : List UInt8) (s : AppSys) (a : App) (e : List Effect) (r : List UInt8) (items : List Item),
    Hist i s → a.product ≠ none → DistinctIeee a.devices → (∀ x ∈ items, x.Proper) →
    SyncTo k b (c ++ r) (items.map Item.frame) → k.length ≤ r.length →
    ∃ told rest b' a' e', items = told ++ rest ∧ SyncTo k b' r (rest.map Item.frame) ∧
      Gateway.dataReceived (Driver.handler i) ⟨b, s, a, e⟩ c =
        (⟨b', s.run (framesOf i told), a', e ++ e'⟩, none) ∧
      delivered (Driver.handler i) ⟨b, s, a, e⟩ c = told.map (fun x => received x.frame) ∧
      a'.product = a.product ∧ DistinctIeee a'.devices ∧ Story a.devices told e' a'.devices := by
  induction c with
  | nil =>
    intro b s a e r items _ _ hd _ hs _
    refine ⟨[], items, b, a, [], rfl, hs, ?_, rfl, rfl, hd, .done _⟩
    rw [List.append_nil]; rfl
  | cons x c ih =>
    intro b s a e r items hh hp hd hi hs hk
    rcases SyncTo.step (r := c ++ r) hs rfl (by rw [List.length_append]; omega) with ⟨b', hw, hs'⟩ | ⟨f, fs', hfs, hw, hs'⟩
    · obtain ⟨told, rest, b'', a', e', h1, h2, h3, h4, h5, h6, h7⟩ := ih b' s a e r items hh hp hd hi hs' hk
      refine ⟨told, rest, b'', a', e', h1, h2, ?_, ?_, h5, h6, h7⟩
      · unfold Gateway.dataReceived
        dsimp only
        rw [hw]
        exact h3
      · unfold delivered
        dsimp only
        rw [hw]
        exact h4
    · cases items with
      | nil => cases hfs
      | cons y items =>
        rw [List.map_cons] at hfs
        injection hfs with hf hfs
        subst hf hfs
        obtain ⟨E, g1, g2, g3⟩ := id hh
        obtain ⟨k1, k2, k3, k4⟩ := item_handled E g2 g3 a hp hd y (hi y (.head _))
        rw [← g1] at k1 k2 k3 k4
        obtain ⟨told, rest, b'', a', e', h1, h2, h3, h4, h5, h6, h7⟩ := ih []
          (s.apiStep i (.frame (received y.frame))) (receive (s.api i) a (received y.frame)).2.app
          (e ++ (receive (s.api i) a (received y.frame)).2.effects) r items
          (hist_step hh (ev := .api i (.frame (received y.frame))) (internal_lawful True.intro))
          (by rw [k2]; exact hp) k3 (fun z hz => hi z (.tail _ hz)) hs' hk
        have hhand : Driver.handler i (s, a, e) (received y.frame) =
            ((s.apiStep i (.frame (received y.frame)), (receive (s.api i) a (received y.frame)).2.app,
              e ++ (receive (s.api i) a (received y.frame)).2.effects), none) := by
          unfold Driver.handler
          dsimp only
          rw [k1]
        refine ⟨y :: told, rest, b'', a', (receive (s.api i) a (received y.frame)).2.effects ++ e',
          by rw [h1]; rfl, h2, ?_, ?_, h5.trans k2, h6, k4.trans h7⟩
        · unfold Gateway.dataReceived
          dsimp only
          rw [hw]
          dsimp only
          rw [hhand]
          dsimp only
          rw [h3, List.append_assoc]
          rfl
        · unfold delivered
          dsimp only
          rw [hw]
          dsimp only
          rw [hhand]
          dsimp only
          rw [h4]
          rfl

theorem cur_mono_run : ∀ (es : List AppEvent) (s : AppSys), s.cur ≤ (s.run es).cur
  | [], _ => Nat.le_refl _
  | e :: es, s => Nat.le_trans (app_cur_step s e) (cur_mono_run es (s.step e))

/-- The parser of a port is touched by its bytes only. -/
theorem step_buffer (d : Driver) (j : Nat) (e : DriverEvent) (he : ∀ c, e ≠ .bytes j c) :
    (d.step e).buffer j = d.buffer j := by
  cases e with
  | bytes i c =>
    show (if i ≤ d.sys.cur then _ else _ : Driver).buffer j = _
    split
    · exact upd_other _ _ (fun h => he c (by rw [h]))
    · exact upd_other _ _ (fun h => he c (by rw [h]))
  | led =>
    unfold Driver.step
    dsimp only
    split
    · rfl
    · split <;> rfl
  | devices ds => rfl
  | sys e =>
    cases e with
    | api i e => cases e <;> rfl
    | _ => rfl

theorem step_arrivedAt (j : Nat) (e : DriverEvent) (es : List DriverEvent) (he : ∀ c, e ≠ .bytes j c) :
    arrivedAt j (e :: es) = arrivedAt j es := by
  cases e with
  | bytes i c =>
    show (if i = j then _ else _) = _
    rw [if_neg (fun h => he c (by rw [h]))]
  | _ => rfl

/-- A message of another port, or another event, is no frame for this API. -/
theorem step_frames (d : Driver) (j : Nat) (e : DriverEvent) (he : ∀ c, e ≠ .bytes j c) (f : Frame) :
    .api j (.frame f) ∉ d.moves e := by
  intro h
  cases e with
  | bytes i c =>
    unfold Driver.moves at h
    dsimp only at h
    split at h
    · obtain ⟨g, -, hg⟩ := List.mem_map.mp h
      cases hg
      exact he c rfl
    · cases h
  | led =>
    unfold Driver.moves at h
    dsimp only at h
    split at h
    · cases h
    · split at h
      · rw [List.mem_singleton] at h; cases h
      · cases h
  | devices ds => cases h
  | sys e =>
    cases e with
    | api i e => cases e <;> first | (cases h; done) | (have h := List.mem_singleton.mp h; cases h)
    | _ => have h := List.mem_singleton.mp h; cases h

theorem Spec.Regular.tail {e : DriverEvent} {es : List DriverEvent} (h : Regular (e :: es)) : Regular es :=
  ⟨fun c q hm => h.calls c q (.tail _ hm), fun i o q hm => h.responses i o q (.tail _ hm),
    fun ds hm => h.devices ds (.tail _ hm)⟩

/-- Good bytes at port `j`, while anything happens elsewhere. -/
theorem good_run (j : Nat) (k r : List UInt8) (hk : k.length ≤ r.length) :
    ∀ (es : List DriverEvent) (d : Driver) (items : List Item), j ≤ d.sys.cur → Hist j d.sys →
    d.app.product ≠ none → DistinctIeee d.app.devices → Regular es → StartupOnly es →
    (∀ x ∈ items, x.Proper) → SyncTo k (d.buffer j) (arrivedAt j es ++ r) (items.map Item.frame) →
    ∃ told rest, items = told ++ rest ∧ SyncTo k ((d.run es).buffer j) r (rest.map Item.frame) ∧
      ∀ f, .api j (.frame f) ∈ d.trace es → ∃ x ∈ told, f = received x.frame
  | [], d, items, _, _, _, _, _, _, _, hs => ⟨[], items, rfl, hs, by intro f h; cases h⟩
  | e :: es, d, items, hj, hh, hp, hd, hr, hst, hi, hs => by
    have hmoves : ∀ ev ∈ d.moves e, Lawful ev := by
      have := trace_lawful [e] d ⟨fun c q hm => hr.calls c q (by rw [List.mem_singleton.mp hm]; exact .head _),
        fun i o q hm => hr.responses i o q (by rw [List.mem_singleton.mp hm]; exact .head _),
        fun ds hm => hr.devices ds (by rw [List.mem_singleton.mp hm]; exact .head _)⟩
        (fun i m to q hm => hst i m to q (by rw [List.mem_singleton.mp hm]; exact .head _))
      intro ev hev
      exact this ev (List.mem_append_left _ hev)
    have hh' : Hist j (d.step e).sys := by
      rw [driver_step_sys]; exact hist_run _ hh hmoves
    have hj' : j ≤ (d.step e).sys.cur := by
      rw [driver_step_sys]; exact Nat.le_trans hj (cur_mono_run _ _)
    obtain ⟨hp', hd'⟩ := step_app d e hd (fun ds h => hr.devices ds (h ▸ .head _))
    have next := good_run j k r hk es (d.step e)
    by_cases he : ∃ c, e = .bytes j c
    · obtain ⟨c, rfl⟩ := he
      have ha : arrivedAt j (.bytes j c :: es) = c ++ arrivedAt j es := by
        show (if j = j then _ else _) = _
        rw [if_pos rfl]
      rw [ha, List.append_assoc] at hs
      obtain ⟨told, rest, b', a', e', h1, h2, h3, h4, -⟩ := good_chunk j k c (d.buffer j) d.sys d.app []
        (arrivedAt j es ++ r) items hh hp hd hi hs (by rw [List.length_append]; omega)
      have hb : (d.step (.bytes j c)).buffer j = b' := by
        show (if j ≤ d.sys.cur then _ else _ : Driver).buffer j = _
        rw [if_pos hj]
        dsimp only
        rw [h3, upd_same]
      obtain ⟨told', rest', g1, g2, g3⟩ := next rest hj' hh' (hp' hp) hd' hr.tail
        (fun i m to q hm => hst i m to q (.tail _ hm))
        (fun x hx => hi x (by rw [h1]; exact List.mem_append_right _ hx)) (by rw [hb]; exact h2)
      refine ⟨told ++ told', rest', by rw [h1, g1, List.append_assoc], g2, ?_⟩
      intro f hf
      rcases List.mem_append.mp hf with hf | hf
      · have hm : d.moves (.bytes j c) = (delivered (Driver.handler j) ⟨d.buffer j, d.sys, d.app, []⟩ c).map
            fun f => .api j (.frame f) := by
          unfold Driver.moves
          dsimp only
          rw [if_pos hj]
        rw [hm, h4, List.map_map] at hf
        obtain ⟨x, hx, hxf⟩ := List.mem_map.mp hf
        cases hxf
        exact ⟨x, List.mem_append_left _ hx, rfl⟩
      · obtain ⟨x, hx, hxf⟩ := g3 f hf
        exact ⟨x, List.mem_append_right _ hx, hxf⟩
    · have he : ∀ c, e ≠ .bytes j c := fun c h => he ⟨c, h⟩
      rw [step_arrivedAt j e es he] at hs
      obtain ⟨told, rest, g1, g2, g3⟩ := next items hj' hh' (hp' hp) hd' hr.tail
        (fun i m to q hm => hst i m to q (.tail _ hm)) hi (by rw [step_buffer d j e he]; exact hs)
      refine ⟨told, rest, g1, g2, ?_⟩
      intro f hf
      rcases List.mem_append.mp hf with hf | hf
      · exact absurd hf (step_frames d j e he f)
      · exact g3 f hf

/-- An event that is neither bytes of `j` (the only port that speaks) nor a change of the table. -/
theorem step_silent (d : Driver) (e : DriverEvent) (j : Nat) (he : ∀ c, e ≠ .bytes j c)
    (honly : ∀ i c, e = .bytes i c → i = j) (hdev : ∀ ds, e ≠ .devices ds) :
    (d.step e).effects = d.effects ∧ (d.step e).raised = d.raised ∧
      (d.step e).app.devices = d.app.devices := by
  cases e with
  | bytes i c => exact absurd (by rw [honly i c rfl]) (he c)
  | led =>
    unfold Driver.step
    dsimp only
    split
    · exact ⟨rfl, rfl, rfl⟩
    · split <;> exact ⟨rfl, rfl, rfl⟩
  | devices ds => exact absurd rfl (hdev ds)
  | sys e =>
    cases e with
    | api i e => cases e <;> exact ⟨rfl, rfl, rfl⟩
    | _ => exact ⟨rfl, rfl, rfl⟩

/-- The same, if the other ports are silent and nobody else touches zigpy's table. -/
theorem story_run (j : Nat) (k r : List UInt8) (hk : k.length ≤ r.length) :
    ∀ (es : List DriverEvent) (d : Driver) (items : List Item), j ≤ d.sys.cur → Hist j d.sys →
    d.app.product ≠ none → DistinctIeee d.app.devices → Regular es → StartupOnly es →
    (∀ i c, .bytes i c ∈ es → i = j) → (∀ ds, .devices ds ∉ es) →
    (∀ x ∈ items, x.Proper) → SyncTo k (d.buffer j) (arrivedAt j es ++ r) (items.map Item.frame) →
    ∃ said unsaid told, items = said ++ unsaid ∧
      SyncTo k ((d.run es).buffer j) r (unsaid.map Item.frame) ∧
      (d.run es).effects = d.effects ++ told ∧ (d.run es).raised = d.raised ∧
      Story d.app.devices said told (d.run es).app.devices
  | [], d, items, _, _, _, _, _, _, _, _, _, hs =>
    ⟨[], items, [], rfl, hs, (List.append_nil _).symm, rfl, .done _⟩
  | e :: es, d, items, hj, hh, hp, hd, hr, hst, honly, hdev, hi, hs => by
    have hmoves : ∀ ev ∈ d.moves e, Lawful ev := by
      have := trace_lawful [e] d ⟨fun c q hm => hr.calls c q (by rw [List.mem_singleton.mp hm]; exact .head _),
        fun i o q hm => hr.responses i o q (by rw [List.mem_singleton.mp hm]; exact .head _),
        fun ds hm => hr.devices ds (by rw [List.mem_singleton.mp hm]; exact .head _)⟩
        (fun i m to q hm => hst i m to q (by rw [List.mem_singleton.mp hm]; exact .head _))
      intro ev hev
      exact this ev (List.mem_append_left _ hev)
    have hh' : Hist j (d.step e).sys := by
      rw [driver_step_sys]; exact hist_run _ hh hmoves
    have hj' : j ≤ (d.step e).sys.cur := by
      rw [driver_step_sys]; exact Nat.le_trans hj (cur_mono_run _ _)
    obtain ⟨hp', hd'⟩ := step_app d e hd (fun ds h => hr.devices ds (h ▸ .head _))
    have next := fun items => story_run j k r hk es (d.step e) items hj' hh' (hp' hp) hd' hr.tail
      (fun i m to q hm => hst i m to q (.tail _ hm)) (fun i c hm => honly i c (.tail _ hm))
      (fun ds hm => hdev ds (.tail _ hm))
    by_cases he : ∃ c, e = .bytes j c
    · obtain ⟨c, rfl⟩ := he
      have ha : arrivedAt j (.bytes j c :: es) = c ++ arrivedAt j es := by
        show (if j = j then _ else _) = _
        rw [if_pos rfl]
      rw [ha, List.append_assoc] at hs
      obtain ⟨told, rest, b', a', e', h1, h2, h3, h4, h5, h6, h7⟩ := good_chunk j k c (d.buffer j) d.sys d.app []
        (arrivedAt j es ++ r) items hh hp hd hi hs (by rw [List.length_append]; omega)
      have hb : (d.step (.bytes j c)).buffer j = b' ∧ (d.step (.bytes j c)).effects = d.effects ++ e' ∧
          (d.step (.bytes j c)).raised = d.raised ∧ (d.step (.bytes j c)).app = a' := by
        unfold Driver.step
        dsimp only
        rw [if_pos hj, h3]
        exact ⟨upd_same _ _ _, rfl, List.append_nil _, rfl⟩
      obtain ⟨told', rest', e'', g1, g2, g3, g4, g5⟩ := next rest
        (fun x hx => hi x (by rw [h1]; exact List.mem_append_right _ hx)) (by rw [hb.1]; exact h2)
      rw [hb.2.2.2] at g5
      refine ⟨told ++ told', rest', e' ++ e'', by rw [h1, g1, List.append_assoc], g2, ?_, g4.trans hb.2.2.1,
        h7.trans g5⟩
      exact g3.trans (by rw [hb.2.1, List.append_assoc])
    · have he : ∀ c, e ≠ .bytes j c := fun c h => he ⟨c, h⟩
      have hsame := step_silent d e j he (fun i c h => honly i c (h ▸ .head _)) (fun ds h => hdev ds (h ▸ .head _))
      rw [step_arrivedAt j e es he] at hs
      obtain ⟨told, rest, e'', g1, g2, g3, g4, g5⟩ := next items hi (by rw [step_buffer d j e he]; exact hs)
      rw [hsame.2.2] at g5
      exact ⟨told, rest, e'', g1, g2, g3.trans (by rw [hsame.1]), g4.trans hsame.2.1, g5⟩

/-! ## A port that is being connected -/

/-- Proper messages can be decoded. -/
theorem proper_decodes {x : Item} (hx : x.Proper) : ∃ o, Obj.fromUnpiFrame (received x.frame) = .ok o := by
  have h := (item_handled [] (by intro m to q h; cases h) ⟨(by intro o n h; cases h), (by intro m to q h; cases h)⟩
    { devices := [], product := some 0 } (fun h => by cases h) List.Pairwise.nil x hx).1
  rcases ho : Obj.fromUnpiFrame (received x.frame) with e | o
  · exfalso
    unfold receive Api.dataReceived at h
    rw [ho] at h
    cases h
  · exact ⟨o, rfl⟩

/-- Like `SyncTo []`, with the items as they were sent: the parser is in the noise before the first of
them, or in its frame. -/
inductive SyncIt : List UInt8 → List UInt8 → List (List UInt8 × Frame) → Prop
  | done : SyncIt [] [] []
  | noise (n n' : List UInt8) (f : Frame) (items : List (List UInt8 × Frame)) (hl : n'.length ≤ n.length)
      (h : ∀ p ∈ (n', f) :: items, GoodItem p) : SyncIt [] (n' ++ wire f ++ stream items []) ((n, f) :: items)
  | part (n : List UInt8) (f : Frame) (b c : List UInt8) (items : List (List UInt8 × Frame))
      (hf : Fits f) (hd : f.data ≠ []) (hw : wire f = b ++ c) (hb : b ≠ []) (hc : c ≠ [])
      (h : ∀ p ∈ items, GoodItem p) : SyncIt b (c ++ stream items []) ((n, f) :: items)

theorem SyncIt.start : ∀ (items : List (List UInt8 × Frame)), (∀ p ∈ items, GoodItem p) →
    SyncIt [] (stream items []) items
  | [], _ => .done
  | (n, f) :: items, h => by
    have := SyncIt.noise n n f items (Nat.le_refl _) h
    simpa [stream] using this

/-- It is a good stream. -/
theorem SyncIt.sync {b r : List UInt8} {items : List (List UInt8 × Frame)} (h : SyncIt b r items) :
    SyncTo [] b r (items.map (·.2)) := by
  cases h with
  | done => exact .idle [] (by intro p h; cases h)
  | noise n n' f items hl h =>
    have := SyncTo.idle (k := []) ((n', f) :: items) h
    simpa [stream] using this
  | part n f b c items hf hd hw hb hc h => exact .part f b c items hf hd hw hb hc h

/-- The number of bytes left tells which items are left. -/
theorem SyncIt.length {b r : List UInt8} {p : List UInt8 × Frame} {items : List (List UInt8 × Frame)}
    (h : SyncIt b r (p :: items)) :
    (stream items []).length < r.length ∧ r.length ≤ (stream (p :: items) []).length := by
  cases h with
  | noise n n' f items hl h =>
    simp [stream, wire]
    omega
  | part n f b c items hf hd hw hb hc h =>
    have h1 := congrArg List.length hw
    have h2 : 0 < c.length := List.length_pos_iff.mpr hc
    have h3 : 0 < b.length := List.length_pos_iff.mpr hb
    simp [stream] at h1 ⊢
    omega

theorem SyncIt.step {b r : List UInt8} {x : UInt8} {items : List (List UInt8 × Frame)}
    (h : SyncIt b (x :: r) items) :
    (∃ b', Parser.write b x = (b', .ok none) ∧ SyncIt b' r items) ∨
    (∃ p items', items = p :: items' ∧ Parser.write b x = ([], .ok (some (received p.2))) ∧
      SyncIt [] r items') := by
  generalize hr : x :: r = xr at h
  cases h with
  | done => cases hr
  | noise n n' f items hl h =>
    obtain ⟨hn, hf, hd⟩ := h (n', f) (by simp)
    cases n' with
    | cons y n' =>
      simp only [List.cons_append, List.cons.injEq] at hr
      obtain ⟨rfl, rfl⟩ := hr
      left
      refine ⟨[], write_drop [] x x [] rfl (hn x (by simp)), .noise n n' f items ?_ ?_⟩
      · exact Nat.le_of_succ_le hl
      · intro p hp
        rcases List.mem_cons.mp hp with rfl | hp
        · exact ⟨fun z hz => hn z (by simp [hz]), hf, hd⟩
        · exact h p (by simp [hp])
    | nil =>
      have hw : wire f = [0xFE] ++ (body f ++ [xorAll (body f)]) := rfl
      simp only [List.nil_append, hw, List.cons_append, List.cons.injEq] at hr
      obtain ⟨rfl, rfl⟩ := hr
      left
      exact ⟨[0xFE], write_part hf hd (b := []) (c := body f ++ [xorAll (body f)]) hw (by simp),
        .part n f [0xFE] (body f ++ [xorAll (body f)]) items hf hd hw (by simp) (by simp)
          (fun p hp => h p (by simp [hp]))⟩
  | part n f b c items hf hd hw hb hc h =>
    cases c with
    | nil => exact absurd rfl hc
    | cons y c =>
      simp only [List.cons_append, List.cons.injEq] at hr
      obtain ⟨rfl, rfl⟩ := hr
      by_cases hc' : c = []
      · subst hc'
        right
        exact ⟨(n, f), items, rfl, write_last hf hd hw, SyncIt.start items h⟩
      · left
        exact ⟨b ++ [x], write_part hf hd hw hc',
          .part n f (b ++ [x]) c items hf hd (by simpa using hw) (by simp) hc' h⟩

/-- Two ways to see what is left agree. -/
theorem syncIt_unique {b r : List UInt8} {lost rest early late : List (List UInt8 × Frame)}
    (h : SyncIt b r rest) (he : lost ++ rest = early ++ late)
    (h1 : r.length ≤ (stream late []).length) (h2 : ∀ p l, late = p :: l → (stream l []).length < r.length) :
    rest = late := by
  have mono : ∀ a c : List (List UInt8 × Frame), (stream c []).length ≤ (stream (a ++ c) []).length := by
    intro a c; simp [stream]
  have hsuf : ∀ {a c a' c' : List (List UInt8 × Frame)}, a ++ c = a' ++ c' → c.length ≤ c'.length →
      ∃ m, c' = m ++ c := by
    intro a c a' c' h hl
    rcases List.append_eq_append_iff.mp h with ⟨m, h1, h2⟩ | ⟨m, h1, h2⟩
    · have := congrArg List.length h2
      rw [List.length_append] at this
      have : m = [] := List.length_eq_zero_iff.mp (by omega)
      subst this
      exact ⟨[], by rw [h2]; rfl⟩
    · exact ⟨m, h2⟩
  by_cases hl : rest.length ≤ late.length
  · obtain ⟨m, hm⟩ := hsuf he hl
    cases m with
    | nil => exact hm.symm
    | cons p m =>
      exfalso
      have h3 := h2 p (m ++ rest) hm
      have h4 := mono m rest
      cases rest with
      | nil => cases h; simp at h3
      | cons q rest => have := h.length; omega
  · obtain ⟨m, hm⟩ := hsuf he.symm (by omega)
    cases m with
    | nil => exact hm
    | cons p m =>
      exfalso
      subst hm
      have h3 : (stream (m ++ late) []).length < r.length := h.length.1
      have h4 := mono m late
      omega

theorem early_chunk (c : List UInt8) : ∀ (b r : List UInt8) (items : List (List UInt8 × Item)),
    (∀ p ∈ items, p.2.Proper) → SyncIt b (c ++ r) (items.map fun p => (p.1, p.2.frame)) →
    ∃ lost rest b', items = lost ++ rest ∧ SyncIt b' r (rest.map fun p => (p.1, p.2.frame)) ∧
      Gateway.dataReceived Driver.earlyHandler ⟨b, ()⟩ c = (⟨b', ()⟩, none) := by
  induction c with
  | nil =>
    intro b r items _ hs
    exact ⟨[], items, b, rfl, hs, rfl⟩
  | cons x c ih =>
    intro b r items hi hs
    rcases SyncIt.step (r := c ++ r) hs with ⟨b', hw, hs'⟩ | ⟨p, fs', hfs, hw, hs'⟩
    · obtain ⟨lost, rest, b'', h1, h2, h3⟩ := ih b' r items hi hs'
      refine ⟨lost, rest, b'', h1, h2, ?_⟩
      unfold Gateway.dataReceived
      dsimp only
      rw [hw]
      exact h3
    · cases items with
      | nil => cases hfs
      | cons y items =>
        rw [List.map_cons] at hfs
        injection hfs with hf hfs
        subst hf hfs
        obtain ⟨lost, rest, b'', h1, h2, h3⟩ := ih [] r items (fun z hz => hi z (.tail _ hz)) hs'
        obtain ⟨o, ho⟩ := proper_decodes (hi y (.head _))
        have hhand : Driver.earlyHandler () (received y.2.frame) = ((), none) := by
          unfold Driver.earlyHandler
          rw [ho]
        refine ⟨y :: lost, rest, b'', by rw [h1]; rfl, h2, ?_⟩
        unfold Gateway.dataReceived
        dsimp only
        rw [hw]
        dsimp only
        rw [hhand]
        exact h3

/-- While a port is being connected its messages are decoded and dropped. -/
theorem early_run (j : Nat) (r : List UInt8) :
    ∀ (es : List DriverEvent) (d : Driver) (items : List (List UInt8 × Item)), (d.run es).sys.cur < j →
    (∀ i c, .bytes i c ∈ es → i = j) → (∀ ds, .devices ds ∉ es) →
    (∀ p ∈ items, p.2.Proper) →
    SyncIt (d.buffer j) (arrivedAt j es ++ r) (items.map fun p => (p.1, p.2.frame)) →
    ∃ lost rest, items = lost ++ rest ∧
      SyncIt ((d.run es).buffer j) r (rest.map fun p => (p.1, p.2.frame)) ∧
      (d.run es).effects = d.effects ∧ (d.run es).raised = d.raised ∧
      (d.run es).app.devices = d.app.devices
  | [], d, items, _, _, _, _, hs => ⟨[], items, rfl, hs, rfl, rfl, rfl⟩
  | e :: es, d, items, hj, honly, hdev, hi, hs => by
    have next := fun items => early_run j r es (d.step e) items hj
      (fun i c hm => honly i c (.tail _ hm)) (fun ds hm => hdev ds (.tail _ hm))
    have hj' : ¬ j ≤ d.sys.cur := by
      have h1 : d.sys.cur ≤ (d.step e).sys.cur := by rw [driver_step_sys]; exact cur_mono_run _ _
      have h2 : (d.step e).sys.cur ≤ ((d.step e).run es).sys.cur := by
        rw [driver_run_sys]; exact cur_mono_run _ _
      have h3 : ((d.step e).run es).sys.cur < j := hj
      omega
    by_cases he : ∃ c, e = .bytes j c
    · obtain ⟨c, rfl⟩ := he
      have ha : arrivedAt j (.bytes j c :: es) = c ++ arrivedAt j es := by
        show (if j = j then _ else _) = _
        rw [if_pos rfl]
      rw [ha, List.append_assoc] at hs
      obtain ⟨lost, rest, b', h1, h2, h3⟩ := early_chunk c (d.buffer j) (arrivedAt j es ++ r) items hi hs
      have hb : (d.step (.bytes j c)).buffer j = b' ∧ (d.step (.bytes j c)).effects = d.effects ∧
          (d.step (.bytes j c)).raised = d.raised ∧ (d.step (.bytes j c)).app = d.app := by
        unfold Driver.step
        dsimp only
        rw [if_neg hj', h3]
        exact ⟨upd_same _ _ _, rfl, List.append_nil _, rfl⟩
      obtain ⟨lost', rest', g1, g2, g3, g4, g5⟩ := next rest
        (fun x hx => hi x (by rw [h1]; exact List.mem_append_right _ hx)) (by rw [hb.1]; exact h2)
      exact ⟨lost ++ lost', rest', by rw [h1, g1, List.append_assoc], g2, g3.trans hb.2.1, g4.trans hb.2.2.1,
        g5.trans (by rw [hb.2.2.2])⟩
    · have he : ∀ c, e ≠ .bytes j c := fun c h => he ⟨c, h⟩
      obtain ⟨s1, s2, s3⟩ := step_silent d e j he (fun i c h => honly i c (h ▸ .head _))
        (fun ds h => hdev ds (h ▸ .head _))
      rw [step_arrivedAt j e es he] at hs
      obtain ⟨lost, rest, g1, g2, g3, g4, g5⟩ := next items hi (by rw [step_buffer d j e he]; exact hs)
      exact ⟨lost, rest, g1, g2, g3.trans s1, g4.trans s2, g5.trans s3⟩

/-! ## A port as a connection -/

/-- The gateways of the driver and of a connection do the same. -/
theorem port_chunk (j : Nat) (c : List UInt8) : ∀ (b : List UInt8) (s : AppSys) (a : App) (e0 e : List Effect),
    (Gateway.dataReceived Stack.handler ⟨b, s.api j, a, e0 ++ e⟩ c).2 =
      (Gateway.dataReceived (Driver.handler j) ⟨b, s, a, e⟩ c).2 ∧
    (Gateway.dataReceived Stack.handler ⟨b, s.api j, a, e0 ++ e⟩ c).1 =
      ⟨(Gateway.dataReceived (Driver.handler j) ⟨b, s, a, e⟩ c).1.buffer,
        (Gateway.dataReceived (Driver.handler j) ⟨b, s, a, e⟩ c).1.api.1.api j,
        (Gateway.dataReceived (Driver.handler j) ⟨b, s, a, e⟩ c).1.api.2.1,
        e0 ++ (Gateway.dataReceived (Driver.handler j) ⟨b, s, a, e⟩ c).1.api.2.2⟩ := by
  induction c with
  | nil => intro b s a e0 e; exact ⟨rfl, rfl⟩
  | cons x c ih =>
    intro b s a e0 e
    unfold Gateway.dataReceived
    dsimp only
    rcases Parser.write b x with ⟨b', er | _ | f⟩
    · exact ⟨rfl, rfl⟩
    · exact ih b' s a e0 e
    · dsimp only
      have h1 : Driver.handler j (s, a, e) f = ((s.apiStep j (.frame f), (receive (s.api j) a f).2.app,
        e ++ (receive (s.api j) a f).2.effects), (receive (s.api j) a f).2.raised) := rfl
      have h3 : (s.apiStep j (.frame f)).api j = (receive (s.api j) a f).1 := by
        rw [apiStep_api, if_pos rfl, receive_api]
      have h2 : Stack.handler (s.api j, a, e0 ++ e) f = (((s.apiStep j (.frame f)).api j,
        (receive (s.api j) a f).2.app,
        e0 ++ (e ++ (receive (s.api j) a f).2.effects)), (receive (s.api j) a f).2.raised) := by
        rw [h3, ← List.append_assoc]
        rfl
      rw [h1, h2]
      rcases (receive (s.api j) a f).2.raised with _ | er
      · exact ih b' _ _ _ _
      · exact ⟨rfl, rfl⟩

/-! ## A chunk with a message in the middle -/

theorem received_append {σ : Type} (h : Handler σ) (a : List UInt8) : ∀ (g g' : Gateway σ) (b : List UInt8),
    Gateway.dataReceived h g a = (g', none) →
    Gateway.dataReceived h g (a ++ b) = Gateway.dataReceived h g' b := by
  induction a with
  | nil => intro g g' b hg; cases hg; rfl
  | cons x a ih =>
    intro g g' b hg
    rw [List.cons_append]
    rcases hw : Parser.write g.buffer x with ⟨b', e | _ | f⟩
    · simp only [Gateway.dataReceived, hw] at hg
      cases hg
    · simp only [Gateway.dataReceived, hw] at hg
      have := ih _ g' b hg
      rw [← this]
      simp only [Gateway.dataReceived, hw]
    · rcases hh : h g.api f with ⟨s, _ | e⟩
      · simp only [Gateway.dataReceived, hw, hh] at hg
        have := ih _ g' b hg
        rw [← this]
        simp only [Gateway.dataReceived, hw, hh]
      · simp only [Gateway.dataReceived, hw, hh] at hg
        cases hg

theorem received_effects (i : Nat) (c : List UInt8) : ∀ (b : List UInt8) (s : AppSys) (a : App) (e : List Effect),
    ∃ later, (Gateway.dataReceived (Driver.handler i) ⟨b, s, a, e⟩ c).1.api.2.2 = e ++ later := by
  induction c with
  | nil => intro b s a e; exact ⟨[], (List.append_nil _).symm⟩
  | cons x c ih =>
    intro b s a e
    unfold Gateway.dataReceived
    dsimp only
    rcases Parser.write b x with ⟨b', er | _ | f⟩
    · exact ⟨[], (List.append_nil _).symm⟩
    · exact ih b' s a e
    · dsimp only
      have hh : Driver.handler i (s, a, e) f = ((s.apiStep i (.frame f), (receive (s.api i) a f).2.app,
        e ++ (receive (s.api i) a f).2.effects), (receive (s.api i) a f).2.raised) := rfl
      rw [hh]
      rcases (receive (s.api i) a f).2.raised with _ | er
      · obtain ⟨l, hl⟩ := ih b' (s.apiStep i (.frame f)) (receive (s.api i) a f).2.app
          (e ++ (receive (s.api i) a f).2.effects)
        exact ⟨_, hl.trans (List.append_assoc _ _ _)⟩
      · exact ⟨_, rfl⟩

theorem answered_mono {s : AppSys} (ha : AInv s) (es : List AppEvent) {n : Nat} {o : Obj} {z : Int}
    (h : Answered s n o z) : Answered (s.run es) n o z := by
  obtain ⟨k, i, t, b, f, rsp, h1, h2, h3, h4, h5, h6⟩ := h
  obtain ⟨k', g1, -, g3, -⟩ := app_moves_run es s ha n k h1
  exact ⟨k', i, t, b, f, rsp, g1, g3 _ h2, h3, h4, h5, h6.trans (app_grows_run i es s).log.sublist⟩

theorem frames_now (i j : Nat) : ∀ (items : List Item) (s : AppSys),
    ((s.run (framesOf i items)).api j).now = (s.api j).now
  | [], _ => rfl
  | x :: items, s => by
    have h := frames_now i j items (s.step (.api i (.frame (received x.frame))))
    have h2 : ((s.step (.api i (.frame (received x.frame)))).api j).now = (s.api j).now := by
      show ((s.apiStep i (.frame (received x.frame))).api j).now = _
      rw [apiStep_api]
      split
      · exact (dataReceived_fields _ _).2.2.2.2.2.1
      · rfl
    exact h.trans h2

end Zcc
