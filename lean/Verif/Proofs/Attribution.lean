import Verif.Spec.Attribution
import Verif.Proofs.Stack
import Verif.Proofs.Boot

/-! Lemmas for C91: the table of devices in the course of an execution. -/

namespace Zcc
open Spec

/-- The table has every device under its last address, and all messages so far came from a device
under the address it had then. -/
structure Attributed (ds : List Device) (a : App) (es : List Effect) : Prop where
  distinct : DistinctIeee a.devices
  table : ∀ x, x ∈ a.devices ↔ lastAddress ds es x.ieee = some x.nwk
  msgs : ∀ pre dev p c s t v post, es = pre ++ .message dev p c s t v :: post →
    lastAddress ds pre dev.ieee = some dev.nwk

theorem addressIn_iff {ds : List Device} (h : DistinctIeee ds) (x : Device) :
    x ∈ ds ↔ addressIn ds x.ieee = some x.nwk := by
  unfold addressIn
  induction ds with
  | nil => simp
  | cons d ds ih =>
    unfold DistinctIeee at h ih
    simp only [List.map_cons, List.nodup_cons] at h
    rw [List.find?_cons]
    by_cases e : d.ieee = x.ieee
    · simp only [e, decide_true, Option.map_some, Option.some.injEq, List.mem_cons]
      constructor
      · rintro (rfl | hx)
        · rfl
        · exact absurd (List.mem_map_of_mem (f := (·.ieee)) hx) (e ▸ h.1)
      · intro hn
        left
        obtain ⟨i, n⟩ := x
        obtain ⟨j, m⟩ := d
        simp only at e hn
        rw [e, hn]
    · simp only [e, decide_false, List.mem_cons]
      rw [← ih h.2]
      constructor
      · rintro (rfl | hx)
        · exact absurd rfl e
        · exact hx
      · exact .inr

theorem attributed_init {a : App} (h : DistinctIeee a.devices) : Attributed a.devices a [] where
  distinct := h
  table := fun x => addressIn_iff h x
  msgs := fun pre dev p c s t v post he => by simp at he

theorem lastAddress_append (ds : List Device) (es fs : List Effect) (i : List UInt8) :
    lastAddress ds (es ++ fs) i = fs.foldl (addressAfter i) (lastAddress ds es i) :=
  List.foldl_append

/-- An effect that is no announcement leaves the table as it is. -/
theorem attributed_other {ds : List Device} {a : App} {es : List Effect} (h : Attributed ds a es)
    (e : Effect) (hj : ∀ m b p, e ≠ .join m b p)
    (hm : ∀ dev p c s t v, e = .message dev p c s t v → dev ∈ a.devices) :
    Attributed ds a (es ++ [e]) where
  distinct := h.distinct
  table := fun x => by
    rw [h.table x, lastAddress_append]
    cases e with
    | join m b p => exact absurd rfl (hj m b p)
    | _ => rfl
  msgs := fun pre dev p c s t v post he => by
    rcases List.append_eq_append_iff.mp he with ⟨k, h1, h2⟩ | ⟨k, h1, h2⟩
    · cases k with
      | nil =>
        simp only [List.append_nil, List.nil_append, List.cons.injEq] at h1 h2
        rw [h1]
        exact (h.table dev).mp (hm _ _ _ _ _ _ h2.1)
      | cons y k => simp at h2
    · cases k with
      | nil =>
        simp only [List.append_nil, List.nil_append, List.cons.injEq] at h1 h2
        rw [← h1]
        exact (h.table dev).mp (hm _ _ _ _ _ _ h2.1.symm)
      | cons y k =>
        simp only [List.cons_append, List.cons.injEq] at h2
        exact h.msgs pre dev p c s t v k (by rw [h1, h2.1])

/-- An announcement. -/
theorem attributed_join {ds : List Device} {a : App} {es : List Effect} (h : Attributed ds a es)
    (n : Int) (b : List UInt8) (p : Int) : Attributed ds (a.handleJoin n b) (es ++ [.join n b p]) := by
  obtain ⟨j1, -, -, j4⟩ := handleJoin_spec a n b h.distinct
  refine ⟨j1, fun x => ?_, fun pre dev p' c s t v post he => ?_⟩
  · rw [j4, lastAddress_append]
    simp only [List.foldl_cons, List.foldl_nil, addressAfter]
    by_cases e : b = x.ieee
    · rw [if_pos e]
      constructor
      · rintro (rfl | ⟨-, hx⟩)
        · rfl
        · exact absurd e.symm hx
      · intro hn
        left
        obtain ⟨i, m⟩ := x
        simp only [Option.some.injEq] at e hn
        rw [e, hn]
    · rw [if_neg e, ← h.table x]
      constructor
      · rintro (rfl | ⟨hx, -⟩)
        · exact absurd rfl e
        · exact hx
      · exact fun hx => .inr ⟨hx, fun hi => e hi.symm⟩
  · rcases List.append_eq_append_iff.mp he with ⟨k, h1, h2⟩ | ⟨k, h1, h2⟩
    · cases k with
      | nil => simp at h2
      | cons y k => simp at h2
    · cases k with
      | nil => simp at h2
      | cons y k =>
        simp only [List.cons_append, List.cons.injEq] at h2
        exact h.msgs pre dev p' c s t v k (by rw [h1, h2.1])

/-- An effect that may follow without an announcement. -/
def Plainly (a : App) (e : Effect) : Prop :=
  (∀ m b p, e ≠ .join m b p) ∧ ∀ dev p c s t v, e = .message dev p c s t v → dev ∈ a.devices

theorem attributed_plain {ds : List Device} {a : App} (fs : List Effect) :
    ∀ {es : List Effect}, Attributed ds a es → (∀ e ∈ fs, Plainly a e) → Attributed ds a (es ++ fs) := by
  induction fs with
  | nil => intro es h _; rwa [List.append_nil]
  | cons e fs ih =>
    intro es h hp
    have h1 := attributed_other h e (hp e (.head _)).1 (hp e (.head _)).2
    have := ih h1 (fun x hx => hp x (.tail _ hx))
    rwa [List.append_assoc, List.singleton_append] at this

theorem plainly_led (a : App) (m : Int) : Plainly a (.led m) :=
  ⟨fun _ _ _ h => (by cases h), fun _ _ _ _ _ _ h => (by cases h)⟩

theorem plainly_setLed (a : App) (m : Int) : ∀ e ∈ (a.setLed m).1, Plainly a e := by
  intro e he
  unfold App.setLed at he
  split at he
  · simp at he
  · dsimp only at he
    split at he
    · simp only [List.mem_singleton] at he
      rw [he]
      exact plainly_led a m
    · simp at he

theorem sender_mem {a : App} {nwk ieee : Option Val} {d : Device} (h : a.sender nwk ieee = some d) :
    d ∈ a.devices := by
  have key : ∀ n, a.deviceByNwk n = some d → d ∈ a.devices := fun n hn => List.mem_of_find?_eq_some hn
  unfold App.sender at h
  split at h
  · split at h
    · split at h
      · exact List.mem_of_find?_eq_some h
      · cases h
    · exact key _ h
  · exact key _ h

theorem plainly_forward (a : App) (nwk ieee : Option Val) (cl se de da lq : Val) :
    ∀ e ∈ a.forward nwk ieee cl se de da lq, Plainly a e := by
  intro e he
  unfold App.forward at he
  split at he
  · simp at he
  · rename_i dev hs
    simp only [List.mem_cons, List.not_mem_nil, or_false] at he
    rcases he with rfl | rfl
    · exact ⟨fun _ _ _ h => (by cases h), fun _ _ _ _ _ _ h => (by cases h)⟩
    · refine ⟨fun _ _ _ h => (by cases h), fun _ _ _ _ _ _ h => ?_⟩
      cases h
      exact sender_mem hs

theorem plainly_dispatch (a : App) (o : Obj) (data : List UInt8) (nwk ieee : Option Val) :
    (a.dispatch o data nwk ieee).app = a ∧ ∀ e ∈ (a.dispatch o data nwk ieee).effects, Plainly a e := by
  refine ⟨by rw [dispatch_app], ?_⟩
  have none_mem : ∀ e ∈ ([] : List Effect), Plainly a e := fun e he => by cases he
  have app : ∀ {l k : List Effect}, (∀ e ∈ l, Plainly a e) → (∀ e ∈ k, Plainly a e) →
      ∀ e ∈ l ++ k, Plainly a e := fun hl hk e he => (List.mem_append.mp he).elim (hl e) (hk e)
  unfold App.dispatch
  split
  · exact none_mem
  · have hled : ∀ e ∈ (if o.subsystem = .ZDO ∧ o.command = "mgmtPermitJoinRsp" then a.setLed ledOn
        else ([], none)).1, Plainly a e := by
      split
      · exact plainly_setLed a _
      · exact none_mem
    generalize (if o.subsystem = .ZDO ∧ o.command = "mgmtPermitJoinRsp" then a.setLed ledOn
        else ([], none)) = r at hled
    obtain ⟨e1, err⟩ := r
    dsimp only at hled
    rcases err with _ | err
    · dsimp only
      split
      · split
        · exact hled
        · exact app hled (plainly_setLed a _)
      · split
        · split
          · split
            · exact hled
            · exact app hled (plainly_forward a _ _ _ _ _ _ _)
          · exact hled
        · split
          · split
            · exact hled
            · exact app hled (plainly_forward a _ _ _ _ _ _ _)
          · exact hled
    · exact hled

theorem attributed_handle {ds : List Device} {a : App} {es : List Effect} (h : Attributed ds a es)
    (o : Obj) : Attributed ds (a.handleZnp o).app (es ++ (a.handleZnp o).effects) := by
  have same : Attributed ds a (es ++ []) := by rwa [List.append_nil]
  unfold App.handleZnp
  split
  · exact same
  split
  · exact same
  dsimp only
  split
  · split
    · exact same
    · split
      · dsimp only
        rw [(plainly_dispatch _ _ _ _ _).1, ← List.singleton_append, ← List.append_assoc]
        exact attributed_plain _ (attributed_join h _ _ _) (plainly_dispatch _ _ _ _ _).2
      · exact same
  · obtain ⟨h1, h2⟩ := plainly_dispatch a o ‹Frame›.data (o.payload.lookup "srcaddr") (o.payload.lookup "ieeeaddr")
    rw [h1]
    exact attributed_plain _ h h2

theorem attributed_receive {ds : List Device} {a : App} {es : List Effect} (h : Attributed ds a es)
    (s : Api) (f : Frame) :
    Attributed ds (receive s a f).2.app (es ++ (receive s a f).2.effects) := by
  unfold receive
  rcases s.dataReceived f with ⟨s', e | o⟩
  · dsimp only
    rwa [List.append_nil]
  · exact attributed_handle h o

theorem attributed_frames {ds : List Device} (i : Nat) (es : List Effect) (fs : List Frame) :
    ∀ (s : AppSys × App × List Effect), Attributed ds s.2.1 (es ++ s.2.2) →
      Attributed ds (fs.foldl (fun s f => (Driver.handler i s f).1) s).2.1
        (es ++ (fs.foldl (fun s f => (Driver.handler i s f).1) s).2.2) := by
  induction fs with
  | nil => intro s h; exact h
  | cons f fs ih =>
    intro s h
    rw [List.foldl_cons]
    refine ih _ ?_
    have := attributed_receive h (s.1.api i) f
    rw [List.append_assoc] at this
    exact this

theorem attributed_step {ds : List Device} {d : Driver} {es new : List Effect}
    (he : d.effects = es ++ new) (h : Attributed ds d.app new) (ev : DriverEvent)
    (hk : ∀ l, ev ≠ .devices l) :
    ∃ new', (d.step ev).effects = es ++ new' ∧ Attributed ds (d.step ev).app new' := by
  have keep : ∀ a : App, a.devices = d.app.devices → Attributed ds a new := fun a ha =>
    ⟨ha ▸ h.distinct, fun x => ha ▸ h.table x, h.msgs⟩
  cases ev with
  | bytes i chunk =>
    unfold Driver.step
    dsimp only
    split
    · obtain ⟨fs, h1, -⟩ := dr_any (Driver.handler i) chunk ⟨d.buffer i, d.sys, d.app, []⟩
      have := attributed_frames (ds := ds) i new fs (d.sys, d.app, []) (by rwa [List.append_nil])
      rw [← h1] at this
      exact ⟨_, by rw [he, List.append_assoc], this⟩
    · exact ⟨new, he, h⟩
  | led =>
    obtain ⟨sys, buffer, app, leds, effects, raised⟩ := d
    cases leds with
    | nil => exact ⟨new, he, h⟩
    | cons l rest =>
      refine ⟨new, ?_⟩
      simp only [Driver.step]
      cases Obj.fromCommand .UTIL "ledControl" [("ledid", .int 3), ("mode", .int l.2)] <;>
        exact ⟨he, h⟩
  | devices l => exact absurd rfl (hk l)
  | sys e =>
    cases e with
    | newSemaphore p => exact ⟨new, he, keep _ rfl⟩
    | api i e => cases e <;> exact ⟨new, he, h⟩
    | _ => exact ⟨new, he, h⟩

theorem attributed_run {ds : List Device} (evs : List DriverEvent) :
    ∀ {d : Driver} {es new : List Effect}, d.effects = es ++ new → Attributed ds d.app new →
      TableKept evs → ∃ new', (d.run evs).effects = es ++ new' ∧ Attributed ds (d.run evs).app new' := by
  induction evs with
  | nil => intro d es new he h _; exact ⟨new, he, h⟩
  | cons ev evs ih =>
    intro d es new he h hk
    obtain ⟨new', h1, h2⟩ := attributed_step he h ev (fun l hl => hk l (by rw [hl]; exact .head _))
    exact ih h1 h2 (fun l hl => hk l (.tail _ hl))

/-- The effects of an execution, and the table behind it. -/
theorem attributed {d : Driver} (hd : DistinctIeee d.app.devices) {evs : List DriverEvent}
    (hk : TableKept evs) {new : List Effect} (hn : (d.run evs).effects = d.effects ++ new) :
    Attributed d.app.devices (d.run evs).app new := by
  obtain ⟨new', h1, h2⟩ := attributed_run evs (es := d.effects) (new := []) (by simp)
    (attributed_init hd) hk
  rw [hn] at h1
  rwa [List.append_cancel_left h1]

end Zcc
