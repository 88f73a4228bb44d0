import Verif.Spec.Probe
import Verif.Spec.Connection
import Verif.Proofs.Boot
import Verif.Proofs.Reports

/-! # Lemmas for a probe over the serial port -/

namespace Zcc
open Spec

/-- The bytes that calls wrote. -/
def sentIn (log : List Entry) : List UInt8 :=
  log.flatMap fun
    | .sent _ b => b
    | _ => []

/-- What messages of the radio leave alone. -/
structure SameCalls (s s' : Api) : Prop where
  tasks : s'.tasks = s.tasks
  now : s'.now = s.now
  uart : s'.uart = s.uart
  timers : s'.timers = s.timers
  sent : sentIn s'.log = sentIn s.log
  id : s'.waiterId = s.waiterId
  tid : s'.nextTid = s.nextTid
  holder : s'.holder = s.holder
  queue : s'.queue = s.queue
  ext : s'.ext = s.ext

theorem SameCalls.refl (s : Api) : SameCalls s s := ⟨rfl, rfl, rfl, rfl, rfl, rfl, rfl, rfl, rfl, rfl⟩

theorem SameCalls.trans {a b c : Api} (h : SameCalls a b) (h' : SameCalls b c) : SameCalls a c :=
  ⟨h'.1.trans h.1, h'.2.trans h.2, h'.3.trans h.3, h'.4.trans h.4, h'.5.trans h.5, h'.6.trans h.6,
    h'.7.trans h.7, h'.8.trans h.8, h'.9.trans h.9, h'.10.trans h.10⟩

theorem sameCalls_log (s : Api) (e : Entry) (he : ∀ t b, e ≠ .sent t b) :
    SameCalls s { s with log := s.log ++ [e] } := by
  refine ⟨rfl, rfl, rfl, rfl, ?_, rfl, rfl, rfl, rfl, rfl⟩
  unfold sentIn
  rw [List.flatMap_append]
  cases e with
  | sent t b => exact absurd rfl (he t b)
  | _ => simp

theorem sameCalls_setResult (s : Api) (w : Nat) (o : Obj) : SameCalls s ((s.pop w).setResult w o) := by
  unfold Api.setResult
  split
  · have h := sameCalls_log (s.pop w) (.resolved w o) (fun _ _ h => by cases h)
    exact ⟨h.1, h.2, h.3, h.4, h.5, h.6, h.7, h.8, h.9, h.10⟩
  · exact ⟨rfl, rfl, rfl, rfl, rfl, rfl, rfl, rfl, rfl, rfl⟩

theorem sameCalls_loop (o : Obj) (ws : List Waiter) : ∀ s : Api, SameCalls s (Api.matchLoop o ws s).1 := by
  induction ws with
  | nil => intro s; exact .refl s
  | cons w ws ih =>
    intro s
    unfold Api.matchLoop
    split
    · exact .refl s
    · exact ih s
    · dsimp only
      split
      · exact sameCalls_setResult s _ _
      · exact (sameCalls_setResult s _ _).trans (ih _)

theorem sameCalls_frame (s : Api) (f : Frame) : SameCalls s (s.dataReceived f).1 := by
  unfold Api.dataReceived
  split
  · exact .refl s
  · rename_i o ho
    dsimp only
    have h1 := sameCalls_log s (.received f o) (fun _ _ h => by cases h)
    have h2 := sameCalls_loop o s.waiters { s with log := s.log ++ [.received f o] }
    split
    · rename_i s' e he
      rw [he] at h2
      exact h1.trans h2
    · rename_i s' q he
      rw [he] at h2
      exact (h1.trans h2).trans (sameCalls_log s' _ (fun _ _ h => by cases h))

theorem sameCalls_frames (fs : List Frame) : ∀ s : Api, SameCalls s (s.run (fs.map .frame)) := by
  induction fs with
  | nil => intro s; exact .refl s
  | cons f fs ih => intro s; exact (sameCalls_frame s f).trans (ih _)

theorem handler_fst (s : Api) (f : Frame) : (Probe.handler s f).1 = s.step (.frame f) := by
  unfold Probe.handler
  show _ = (s.dataReceived f).1
  split <;> simp_all

theorem handler_foldl (fs : List Frame) : ∀ s : Api,
    fs.foldl (fun s f => (Probe.handler s f).1) s = s.run (fs.map .frame) := by
  induction fs with
  | nil => intro s; rfl
  | cons f fs ih =>
    intro s
    rw [List.foldl_cons, handler_fst, ih]
    rfl

/-- The object of the version request. -/
def probeObj : Obj :=
  { commandType := .SREQ, subsystem := .SYS, command := "version", commandId := 2, payload := [], parameters := [] }

theorem probeObj_eq : Obj.fromCommand .SYS "version" [] = .ok probeObj := by decide +kernel

/-- The waiter of the version request. -/
def probeWaiter : Waiter :=
  { id := 0, matcher := { commandType := .SRSP, subsystem := .SYS, command := "version", payload := [] }
    timeout := 6000, sequence := none }

/-- The message answers the version request. -/
def IsVersion (o : Obj) : Prop := o.commandType = .SRSP ∧ o.subsystem = .SYS ∧ o.command = "version"

instance (o : Obj) : Decidable (IsVersion o) := by unfold IsVersion; infer_instance

theorem probeWaiter_match (o : Obj) : probeWaiter.matcher.match o = .ok (decide (IsVersion o)) := by
  unfold Matcher.match probeWaiter
  dsimp only
  by_cases h : IsVersion o
  · rw [if_neg (by rcases h with ⟨h1, h2, h3⟩; simp [h1, h2, h3])]
    simp [matchPayload, h]
  · rw [if_pos (by
      by_cases h1 : o.commandType = .SRSP
      · by_cases h2 : o.subsystem = .SYS
        · exact Or.inr (.inr fun h3 => h ⟨h1, h2, h3.symm⟩)
        · exact Or.inr (.inl fun h3 => h2 h3.symm)
      · exact Or.inl fun h3 => h1 h3.symm)]
    simp [h]

/-- A message arrives while nobody waits. -/
theorem frame_nobody {s : Api} (hw : s.waiters = []) (f : Frame) :
    (s.dataReceived f).1.waiters = [] ∧ (s.dataReceived f).1.fut = s.fut ∧
    ∀ o, Obj.fromUnpiFrame f = .ok o → ∃ o', (s.dataReceived f).2 = .ok o' := by
  cases ho : Obj.fromUnpiFrame f with
  | error e =>
    have : s.dataReceived f = (s, .error e) := by unfold Api.dataReceived; rw [ho]
    rw [this]
    exact ⟨hw, rfl, fun o h => by cases h⟩
  | ok o =>
    have : s.dataReceived f = ({ s with log := s.log ++ [.received f o] ++ [.handed { o with sequence := none }] },
        .ok { o with sequence := none }) := by
      unfold Api.dataReceived
      rw [ho]
      dsimp only
      rw [hw]
      rfl
    rw [this]
    exact ⟨hw, rfl, fun _ _ => ⟨_, rfl⟩⟩

theorem loop_waiting {s : Api} {o : Obj} (hf : s.fut 0 = .pending) (h : IsVersion o) :
    Api.matchLoop o [probeWaiter] s =
      ({ s.pop 0 with fut := upd s.fut 0 (.result o), log := s.log ++ [.resolved 0 o] }, .ok none) := by
  unfold Api.matchLoop
  rw [probeWaiter_match, decide_eq_true h]
  have : (s.pop probeWaiter.id).setResult probeWaiter.id o =
      { s.pop 0 with fut := upd s.fut 0 (.result o), log := s.log ++ [.resolved 0 o] } := by
    unfold Api.setResult
    rw [show (s.pop probeWaiter.id).fut probeWaiter.id = .pending from hf]
    rfl
  rw [this]
  rfl

/-- A message arrives while the probe waits for its answer. -/
theorem frame_waiting {s : Api} (hw : s.waiters = [probeWaiter]) (hf : s.fut 0 = .pending) (f : Frame) :
    (∀ o, Obj.fromUnpiFrame f = .ok o → IsVersion o →
      (s.dataReceived f).1.waiters = [] ∧ (s.dataReceived f).1.fut 0 = .result o) ∧
    ((∀ o, Obj.fromUnpiFrame f = .ok o → ¬ IsVersion o) →
      (s.dataReceived f).1.waiters = [probeWaiter] ∧ (s.dataReceived f).1.fut 0 = .pending) ∧
    ∀ o, Obj.fromUnpiFrame f = .ok o → ∃ o', (s.dataReceived f).2 = .ok o' := by
  cases ho : Obj.fromUnpiFrame f with
  | error e =>
    have : s.dataReceived f = (s, .error e) := by unfold Api.dataReceived; rw [ho]
    rw [this]
    exact ⟨fun o h => (by cases h), fun _ => ⟨hw, hf⟩, fun o h => by cases h⟩
  | ok o =>
    by_cases h : IsVersion o
    · have : s.dataReceived f = ({ s with
          waiters := []
          fut := upd s.fut 0 (.result o)
          log := s.log ++ [.received f o] ++ [.resolved 0 o] ++ [.handed { o with sequence := none }] },
          .ok { o with sequence := none }) := by
        unfold Api.dataReceived
        rw [ho]
        dsimp only
        rw [hw]
        rw [loop_waiting (by exact hf) h]
        simp [Api.pop, hw, probeWaiter]
      rw [this]
      refine ⟨fun o' h' _ => ?_, fun hn => absurd h (hn o rfl), fun _ _ => ⟨_, rfl⟩⟩
      cases h'
      exact ⟨rfl, by simp [upd]⟩
    · have : s.dataReceived f = ({ s with log := s.log ++ [.received f o] ++ [.handed { o with sequence := none }] },
          .ok { o with sequence := none }) := by
        unfold Api.dataReceived
        rw [ho]
        dsimp only
        rw [hw]
        unfold Api.matchLoop
        rw [probeWaiter_match, decide_eq_false h]
        rfl
      rw [this]
      refine ⟨fun o' h' hv => ?_, fun _ => ⟨hw, hf⟩, fun _ _ => ⟨_, rfl⟩⟩
      cases h'
      exact absurd hv h

/-! ## The coroutine -/

/-- What `_probe` does after the version request. -/
def probeEnd : Except PyErr (Option Obj) → Prog Unit
  | .ok (some _) => .ret ()
  | .ok none => .raise .attributeError
  | .error e => .raise e

/-- What it does before. -/
def probeStart (k : Except PyErr (Option Obj) → Prog Unit) : Except PyErr Unit → Prog Unit
  | .ok _ => .call (.request .SYS "version" [] none) k
  | .error e => .raise e

theorem probeProg_eq : Conn.probeProg = .call .connect (probeStart probeEnd) := by
  show Prog.call _ _ = _
  congr 1
  funext r
  rcases r with e | a
  · rfl
  · show Prog.call _ _ = Prog.call _ _
    congr 1
    funext r
    rcases r with e | _ | o <;> rfl

/-- What `_probe` does once it is connected. -/
def probeRest : Prog Unit := .call (.request .SYS "version" [] none) probeEnd

theorem probe_connected {c : Client Unit} (h : c.prog = Conn.probeProg) :
    (c.step (.connected (.ok ()))).prog = probeRest ∧ (c.step (.connected (.ok ()))).pend = .idle ∧
    (c.step (.connected (.ok ()))).api = c.api := by
  have : c.step (.connected (.ok ())) = c.answer .connect (probeStart probeEnd) (.ok ()) := by
    unfold Client.step
    dsimp only
    rw [h, probeProg_eq]
    rfl
  rw [this]
  exact ⟨rfl, rfl, rfl⟩

theorem probe_refused {c : Client Unit} (h : c.prog = Conn.probeProg) (e : PyErr) :
    (c.step (.connected (.error e))).prog = .raise e ∧ (c.step (.connected (.error e))).api = c.api := by
  have : c.step (.connected (.error e)) = c.answer .connect (probeStart probeEnd) (.error e) := by
    unfold Client.step
    dsimp only
    rw [h, probeProg_eq]
    rfl
  rw [this]
  exact ⟨rfl, rfl⟩

theorem probe_go {c : Client Unit} (h : c.prog = probeRest) :
    c.step .go = c.advance (.request .SYS "version" [] none) probeEnd := by
  unfold Client.step
  dsimp only
  rw [h]
  rfl

theorem probe_ask {c : Client Unit} (h : c.prog = probeRest) (hp : c.pend = .idle) (hn : c.api.nextTid = 0) :
    (c.step .go).prog = probeRest ∧ (c.step .go).pend = .call 0 ∧
    (c.step .go).api = c.api.step (.submit probeObj none none) := by
  have : c.step .go = { c with api := c.api.step (.submit probeObj none none), pend := .call c.api.nextTid } := by
    rw [probe_go h]
    unfold Client.advance
    dsimp only
    rw [hp, probeObj_eq]
  rw [this, hn]
  exact ⟨h, rfl, rfl⟩

theorem probe_waits {c : Client Unit} (h : c.prog = probeRest) (hp : c.pend = .call 0) (hr : c.api.result 0 = none) :
    c.step .go = c := by
  rw [probe_go h]
  unfold Client.advance
  dsimp only
  rw [hp]
  dsimp only
  rw [hr]

theorem probe_goes {c : Client Unit} (h : c.prog = probeRest) (hp : c.pend = .call 0)
    {r : Except PyErr (Option Obj)} (hr : c.api.result 0 = some r) :
    (c.step .go).api = c.api ∧ (c.step .go).prog = probeEnd (leaveRequest r) := by
  have : c.step .go = c.answer (.request .SYS "version" [] none) probeEnd (leaveRequest r) := by
    rw [probe_go h]
    unfold Client.advance
    dsimp only
    rw [hp]
    dsimp only
    rw [hr]
  rw [this]
  exact ⟨rfl, rfl⟩

/-! ## The API object -/

/-- Nothing has happened to the API object but messages. -/
structure PFresh (s : Api) : Prop where
  waiters : s.waiters = []
  fut : s.fut 0 = .pending
  id : s.waiterId = 0
  timers : s.timers = []
  tid : s.nextTid = 0
  holder : s.holder = none
  queue : s.queue = []
  sent : sentIn s.log = []
  task : s.tasks 0 = none

/-- The request was written at `t0` and its call has not ended: it waits, has its answer, or will never get
one. -/
structure PAsked (t0 : Nat) (s : Api) : Prop where
  task : s.tasks 0 = some { obj := probeObj, waiterId := none, expected := none, pc := .waiting 0 (t0 + 6000) }
  timers : ∀ x ∈ s.timers, x = (0, t0 + 6100)
  sent : sentIn s.log = versionBytes
  hold : (s.waiters = [probeWaiter] ∧ s.fut 0 = .pending) ∨
    (s.waiters = [] ∧ ∃ o f, s.fut 0 = .result o ∧ Obj.fromUnpiFrame f = .ok o ∧ IsVersion o) ∨
    (s.waiters = [] ∧ s.fut 0 = .pending ∧ t0 + 6100 ≤ s.now)

/-- The call has ended. -/
structure POver (r : Except PyErr (Option Obj)) (s : Api) : Prop where
  task : ∃ k, s.tasks 0 = some k ∧ k.pc = .done r
  sent : sentIn s.log = versionBytes

theorem PFresh.frame {s : Api} (h : PFresh s) (f : Frame) : PFresh (s.dataReceived f).1 := by
  have hs := sameCalls_frame s f
  obtain ⟨k1, k2, -⟩ := frame_nobody h.waiters f
  exact ⟨k1, by rw [k2]; exact h.fut, hs.id.trans h.id, hs.timers.trans h.timers, hs.tid.trans h.tid,
    hs.holder.trans h.holder, hs.queue.trans h.queue, hs.sent.trans h.sent, by rw [hs.tasks]; exact h.task⟩

theorem PFresh.tick {s : Api} (h : PFresh s) (ms : Nat) : PFresh (s.step (.tick ms)) :=
  ⟨h.1, h.2, h.3, h.4, h.5, h.6, h.7, h.8, h.9⟩

theorem PFresh.setUart {s : Api} (h : PFresh s) (b : Bool) : PFresh (s.step (.setUart b)) :=
  ⟨h.1, h.2, h.3, h.4, h.5, h.6, h.7, h.8, h.9⟩

theorem PFresh.timer {s : Api} (h : PFresh s) (w : Nat) : s.step (.timer w) = s := by
  show (match s.timers.find? _ with | some x => _ | none => s) = s
  rw [h.timers]
  rfl

theorem PFresh.ask {s : Api} (h : PFresh s) (hu : s.uart = true) :
    PAsked s.now (s.step (.submit probeObj none none)) ∧ (s.step (.submit probeObj none none)).now = s.now ∧
    (s.step (.submit probeObj none none)).uart = true ∧
    (s.step (.submit probeObj none none)).waiters = [probeWaiter] ∧
    (s.step (.submit probeObj none none)).fut 0 = .pending := by
  obtain ⟨waiters, waiterId, fut, timers, now, uart, tasks, nextTid, holder, queue, ext, log⟩ := s
  obtain ⟨h1, h2, h3, h4, h5, h6, h7, h8, h9⟩ := h
  dsimp only at h1 h2 h3 h4 h5 h6 h7 h8 h9 hu
  subst h1 h3 h4 h5 h6 h7 hu
  have hf : probeObj.toUnpiFrame = .ok { commandType := .SREQ, subsystem := .SYS, commandId := 2, data := [] } := by
    decide +kernel
  have hb : Gateway.send { commandType := .SREQ, subsystem := .SYS, commandId := 2, data := [] } =
      .ok versionBytes := by decide +kernel
  have ho : ownWaiter probeObj = some (probeWaiter.matcher, 6000) := by decide +kernel
  have main : ((Api.mk [] 0 fut [] now true tasks 0 none [] ext log).step (.submit probeObj none none)) =
      { waiters := [probeWaiter], waiterId := 1, fut, timers := [(0, now + 6000 + 100)], now, uart := true
        tasks := upd (upd (upd tasks 0 (some { obj := probeObj, waiterId := none, expected := none, pc := .queued })) 0
          (some { obj := probeObj, waiterId := none, expected := none, pc := .running })) 0
          (some { obj := probeObj, waiterId := none, expected := none, pc := .waiting 0 (now + 6000) })
        nextTid := 1, holder := some 0, queue := [], ext
        log := log ++ [.submitted 0 probeObj none none] ++ [.registered probeWaiter now] ++
          [.sent 0 versionBytes] } := by
    unfold Api.step
    dsimp only
    rw [if_pos ⟨rfl, rfl⟩]
    unfold Api.enqueue Api.grant Api.setPc Api.start
    simp only [upd, if_true, List.nil_append, hf, ho]
    unfold Api.waitFor Api.uartSend
    simp only [if_true, hb]
    unfold Api.setPc
    simp only [upd, if_true]
    rfl
  rw [main]
  refine ⟨⟨by simp [upd], by simp, ?_, .inl ⟨rfl, h2⟩⟩, rfl, rfl, rfl, h2⟩
  have : sentIn log = [] := h8
  unfold sentIn at this ⊢
  simp [this]

/-- A message that answers the version request has nine bytes, and no status. -/
theorem version_answer {f : Frame} {o : Obj} (h : Obj.fromUnpiFrame f = .ok o) (hv : IsVersion o) :
    VersionAnswer f ∧ badStatus none o = none := by
  obtain ⟨k1, k2, k3, hlay⟩ := report_received (t := .SRSP) (s := .SYS) (n := 0x02) (name := "version")
    (fields := [("transportrev", .u8), ("product", .u8), ("majorrel", .u8), ("minorrel", .u8),
      ("maintrel", .u8), ("revision", .u32)]) (by decide +kernel) h hv.1 hv.2.1 hv.2.2
  unfold VersionAnswer badStatus
  rcases hd : f.data with _ | ⟨x1, _ | ⟨x2, _ | ⟨x3, _ | ⟨x4, _ | ⟨x5, _ | ⟨x6, _ | ⟨x7, _ | ⟨x8, _ | ⟨x9, r⟩⟩⟩⟩⟩⟩⟩⟩⟩ <;>
    rw [hd] at hlay
  all_goals first
    | (cases hlay; done)
    | skip
  have hp : o.payload = [("transportrev", .int x1.toNat), ("product", .int x2.toNat), ("majorrel", .int x3.toNat),
      ("minorrel", .int x4.toNat), ("maintrel", .int x5.toNat), ("revision", .int
        (x6.toNat + 256 * x7.toNat + 65536 * x8.toNat + 16777216 * x9.toNat : Nat))] :=
    (Option.some.inj hlay).symm
  refine ⟨⟨k1, k2, k3, by simp⟩, ?_⟩
  rw [hp]
  rfl

/-- And every such message is decoded. -/
theorem version_decoded {f : Frame} (h : VersionAnswer f) : ∃ o, Obj.fromUnpiFrame f = .ok o ∧ IsVersion o := by
  obtain ⟨k1, k2, k3, hd⟩ := h
  have hr := report_decoded (t := .SRSP) (s := .SYS) (n := 0x02) (name := "version")
    (fields := [("transportrev", .u8), ("product", .u8), ("majorrel", .u8), ("minorrel", .u8),
      ("maintrel", .u8), ("revision", .u32)]) (by decide +kernel) k1 k2 k3
  rcases hd' : f.data with _ | ⟨x1, _ | ⟨x2, _ | ⟨x3, _ | ⟨x4, _ | ⟨x5, _ | ⟨x6, _ | ⟨x7, _ | ⟨x8, _ | ⟨x9, r⟩⟩⟩⟩⟩⟩⟩⟩⟩ <;>
    rw [hd'] at hd hr
  all_goals first
    | exact ⟨_, hr, rfl, rfl, rfl⟩
    | exact absurd hd (by simp)

theorem sent_log (log : List Entry) (e : Entry) (he : ∀ t b, e ≠ .sent t b) : sentIn (log ++ [e]) = sentIn log := by
  unfold sentIn
  rw [List.flatMap_append]
  cases e with
  | sent t b => exact absurd rfl (he t b)
  | _ => simp

theorem PAsked.frame {t0 : Nat} {s : Api} (h : PAsked t0 s) (f : Frame) :
    PAsked t0 (s.dataReceived f).1 ∧
    ∀ o, (s.dataReceived f).1.fut 0 = .result o → s.fut 0 = .result o ∨ Obj.fromUnpiFrame f = .ok o ∧ IsVersion o := by
  have hs := sameCalls_frame s f
  have hold : ∀ {P : Prop}, P → PAsked t0 (s.dataReceived f).1 ∨ P := fun h => .inr h
  have mk : ∀ h' : ((s.dataReceived f).1.waiters = [probeWaiter] ∧ (s.dataReceived f).1.fut 0 = .pending) ∨
      ((s.dataReceived f).1.waiters = [] ∧ ∃ o g, (s.dataReceived f).1.fut 0 = .result o ∧
        Obj.fromUnpiFrame g = .ok o ∧ IsVersion o) ∨
      ((s.dataReceived f).1.waiters = [] ∧ (s.dataReceived f).1.fut 0 = .pending ∧ t0 + 6100 ≤ s.now),
      PAsked t0 (s.dataReceived f).1 := fun h' =>
    ⟨by rw [hs.tasks]; exact h.task, by rw [hs.timers]; exact h.timers, by rw [hs.sent]; exact h.sent,
      by rw [hs.now]; exact h'⟩
  rcases h.hold with ⟨hw, hf⟩ | ⟨hw, o, g, hf, hg, hv⟩ | ⟨hw, hf, hn⟩
  · obtain ⟨k1, k2, -⟩ := frame_waiting hw hf f
    by_cases hx : ∃ o, Obj.fromUnpiFrame f = .ok o ∧ IsVersion o
    · obtain ⟨o, ho, hv⟩ := hx
      obtain ⟨g1, g2⟩ := k1 o ho hv
      refine ⟨mk (.inr (.inl ⟨g1, o, f, g2, ho, hv⟩)), fun o' ho' => .inr ?_⟩
      rw [g2] at ho'
      cases ho'
      exact ⟨ho, hv⟩
    · obtain ⟨g1, g2⟩ := k2 fun o ho hv => hx ⟨o, ho, hv⟩
      refine ⟨mk (.inl ⟨g1, g2⟩), fun o' ho' => ?_⟩
      rw [g2] at ho'
      cases ho'
  · obtain ⟨k1, k2, -⟩ := frame_nobody hw f
    refine ⟨mk (.inr (.inl ⟨k1, o, g, by rw [k2]; exact hf, hg, hv⟩)), fun o' ho' => .inl ?_⟩
    rw [k2] at ho'
    exact ho'
  · obtain ⟨k1, k2, -⟩ := frame_nobody hw f
    refine ⟨mk (.inr (.inr ⟨k1, by rw [k2]; exact hf, hn⟩)), fun o' ho' => .inl ?_⟩
    rw [k2] at ho'
    exact ho'

theorem PAsked.frames {t0 : Nat} (fs : List Frame) : ∀ {s : Api}, PAsked t0 s →
    PAsked t0 (s.run (fs.map .frame)) ∧
    ∀ o, (s.run (fs.map .frame)).fut 0 = .result o →
      s.fut 0 = .result o ∨ ∃ f ∈ fs, Obj.fromUnpiFrame f = .ok o ∧ IsVersion o := by
  induction fs with
  | nil => intro s h; exact ⟨h, fun o ho => .inl ho⟩
  | cons f fs ih =>
    intro s h
    obtain ⟨h1, h2⟩ := h.frame f
    obtain ⟨k1, k2⟩ := ih h1
    refine ⟨k1, fun o ho => ?_⟩
    rcases k2 o ho with hk | ⟨g, hg, hk⟩
    · rcases h2 o hk with hk | hk
      · exact .inl hk
      · exact .inr ⟨f, .head _, hk⟩
    · exact .inr ⟨g, .tail _ hg, hk⟩

theorem PFresh.frames (fs : List Frame) : ∀ {s : Api}, PFresh s → PFresh (s.run (fs.map .frame)) := by
  induction fs with
  | nil => intro s h; exact h
  | cons f fs ih => intro s h; exact ih (h.frame f)

theorem POver.frames {r : Except PyErr (Option Obj)} {s : Api} (h : POver r s) (fs : List Frame) :
    POver r (s.run (fs.map .frame)) := by
  have hs := sameCalls_frames fs s
  exact ⟨by rw [hs.tasks]; exact h.task, by rw [hs.sent]; exact h.sent⟩

theorem PAsked.tick {t0 : Nat} {s : Api} (h : PAsked t0 s) (ms : Nat) : PAsked t0 (s.step (.tick ms)) := by
  refine ⟨h.task, h.timers, h.sent, ?_⟩
  rcases h.hold with hk | hk | ⟨hw, hf, hn⟩
  · exact .inl hk
  · exact .inr (.inl hk)
  · exact .inr (.inr ⟨hw, hf, Nat.le_trans hn (Nat.le_add_right _ _)⟩)

/-- A timer goes off. -/
theorem step_timer (s : Api) (w : Nat) :
    s.step (.timer w) = s ∨ ∃ x ∈ s.timers, x.1 = w ∧ x.2 ≤ s.now ∧
      ((∃ o, s.fut w = .result o ∧ s.step (.timer w) = { s with timers := s.timers.erase x }) ∨
       (∀ o, s.fut w ≠ .result o) ∧ s.step (.timer w) =
          { s with
            timers := s.timers.erase x
            waiters := s.waiters.filter (fun x => x.id != w)
            log := s.log ++ [.dropped w] }) := by
  unfold Api.step
  dsimp only
  split
  · rename_i x hx
    have hm := List.mem_of_find?_eq_some hx
    have hp := List.find?_some hx
    simp only [Bool.and_eq_true, beq_iff_eq, decide_eq_true_eq] at hp
    refine .inr ⟨x, hm, hp.1, hp.2, ?_⟩
    unfold Api.timerCallback
    dsimp only
    cases hf : s.fut w with
    | result o => exact .inl ⟨o, rfl, rfl⟩
    | pending => exact .inr ⟨fun o h => (by cases h), rfl⟩
    | cancelled => exact .inr ⟨fun o h => (by cases h), rfl⟩
  · exact .inl rfl

theorem PAsked.timer {t0 : Nat} {s : Api} (h : PAsked t0 s) (w : Nat) :
    PAsked t0 (s.step (.timer w)) ∧ (s.step (.timer w)).fut = s.fut ∧
    (s.now < t0 + 6100 → s.step (.timer w) = s) := by
  rcases step_timer s w with hs | ⟨x, hx, hxw, hxn, hr⟩
  · rw [hs]; exact ⟨h, rfl, fun _ => rfl⟩
  · have hx0 := h.timers x hx
    subst hx0
    subst hxw
    have hxn : t0 + 6100 ≤ s.now := hxn
    rcases hr with ⟨o, ho, hs⟩ | ⟨hno, hs⟩
    · rw [hs]
      exact ⟨⟨h.task, fun y hy => h.timers y (List.mem_of_mem_erase hy), h.sent, h.hold⟩, rfl,
        fun hlt => absurd hxn (by omega)⟩
    · rw [hs]
      refine ⟨⟨h.task, fun y hy => h.timers y (List.mem_of_mem_erase hy), ?_, ?_⟩, rfl,
        fun hlt => absurd hxn (by omega)⟩
      · exact (sent_log _ _ (fun _ _ h => by cases h)).trans h.sent
      · rcases h.hold with ⟨hw, hf⟩ | ⟨hw, o, g, hf, -⟩ | ⟨hw, hf, hn⟩
        · refine .inr (.inr ⟨?_, hf, hxn⟩)
          show s.waiters.filter _ = []
          rw [hw]
          rfl
        · exact absurd hf (hno o)
        · refine .inr (.inr ⟨?_, hf, hxn⟩)
          show s.waiters.filter _ = []
          rw [hw]
          rfl

theorem POver.timer {r : Except PyErr (Option Obj)} {s : Api} (h : POver r s) (w : Nat) :
    POver r (s.step (.timer w)) := by
  rcases step_timer s w with hs | ⟨x, -, -, -, ⟨o, ho, hs⟩ | ⟨hno, hs⟩⟩
  · rw [hs]; exact h
  · rw [hs]; exact ⟨h.task, h.sent⟩
  · rw [hs]; exact ⟨h.task, (sent_log _ _ (fun _ _ h => by cases h)).trans h.sent⟩

theorem finish_over {s : Api} {k : Task} (hk : s.tasks 0 = some k) (hs : sentIn s.log = versionBytes)
    (r : Except PyErr (Option Obj)) : POver r (s.finish 0 r) := by
  have : s.setPc 0 (.done r) = { s with tasks := upd s.tasks 0 (some { k with pc := .done r }) } := by
    unfold Api.setPc
    rw [hk]
  unfold Api.finish
  rw [this]
  exact ⟨⟨{ k with pc := .done r }, by simp [upd], rfl⟩, (sent_log _ _ (fun _ _ h => by cases h)).trans hs⟩

theorem conclude_ok {s : Api} {k : Task} {o : Obj} (hk : k.obj.commandType = .SREQ)
    (hb : badStatus k.expected o = none) (t : Nat) : s.conclude t k o = s.finish t (.ok (some o)) := by
  unfold Api.conclude
  rw [if_pos hk, hb]

theorem step_wake {s : Api} {t w d : Nat} {k : Task} {o : Obj} (hk : s.tasks t = some k) (hp : k.pc = .waiting w d)
    (hf : s.fut w = .result o) : s.step (.wake t) = s.conclude t k o := by
  unfold Api.step
  dsimp only
  rw [hk]
  dsimp only
  rw [hp]
  dsimp only
  rw [hf]

theorem step_wake_pending {s : Api} {t w d : Nat} {k : Task} (hk : s.tasks t = some k) (hp : k.pc = .waiting w d)
    (hf : s.fut w = .pending) : s.step (.wake t) = s := by
  unfold Api.step
  dsimp only
  rw [hk]
  dsimp only
  rw [hp]
  dsimp only
  rw [hf]

theorem PAsked.wake {t0 : Nat} {s : Api} (h : PAsked t0 s) :
    (∃ o f, s.fut 0 = .result o ∧ Obj.fromUnpiFrame f = .ok o ∧ IsVersion o ∧ POver (.ok (some o)) (s.step (.wake 0))) ∨
    s.fut 0 = .pending ∧ s.step (.wake 0) = s := by
  rcases h.hold with ⟨hw, hf⟩ | ⟨hw, o, g, hf, hg, hv⟩ | ⟨hw, hf, hn⟩
  · exact .inr ⟨hf, step_wake_pending h.task rfl hf⟩
  · refine .inl ⟨o, g, hf, hg, hv, ?_⟩
    rw [step_wake h.task rfl hf, conclude_ok rfl (version_answer hg hv).2]
    exact finish_over h.task h.sent _
  · exact .inr ⟨hf, step_wake_pending h.task rfl hf⟩

theorem PAsked.expire {t0 : Nat} {s : Api} (h : PAsked t0 s) :
    s.step (.timeout 0) = s ∨ s.fut 0 = .pending ∧ t0 + 6000 ≤ s.now ∧
      POver (.error .timeoutError) (s.step (.timeout 0)) := by
  have hst : s.step (.timeout 0) =
      if s.fut 0 = .pending ∧ t0 + 6000 ≤ s.now then
        { s.finish 0 (.error .timeoutError) with fut := upd s.fut 0 .cancelled }
      else s := by
    conv => lhs; unfold Api.step
    dsimp only
    rw [h.task]
  rw [hst]
  by_cases hc : s.fut 0 = .pending ∧ t0 + 6000 ≤ s.now
  · rw [if_pos hc]
    have := finish_over h.task h.sent (.error .timeoutError)
    exact .inr ⟨hc.1, hc.2, this.1, this.2⟩
  · rw [if_neg hc]; exact .inl rfl

theorem POver.wake {r : Except PyErr (Option Obj)} {s : Api} (h : POver r s) : s.step (.wake 0) = s := by
  obtain ⟨k, hk, hp⟩ := h.task
  unfold Api.step
  dsimp only
  rw [hk]
  dsimp only
  rw [hp]

theorem POver.expire {r : Except PyErr (Option Obj)} {s : Api} (h : POver r s) : s.step (.timeout 0) = s := by
  obtain ⟨k, hk, hp⟩ := h.task
  unfold Api.step
  dsimp only
  rw [hk]
  dsimp only
  rw [hp]

theorem POver.result {r : Except PyErr (Option Obj)} {s : Api} (h : POver r s) : s.result 0 = some r := by
  obtain ⟨k, hk, hp⟩ := h.task
  unfold Api.result
  rw [hk]
  dsimp only
  rw [hp]

theorem PAsked.result {t0 : Nat} {s : Api} (h : PAsked t0 s) : s.result 0 = none := by
  unfold Api.result
  rw [h.task]

theorem sent_cancel (s : Api) (t : Nat) : sentIn (s.step (.cancel t)).log = sentIn s.log ∧
    (s.step (.cancel t)).uart = s.uart ∧ (s.step (.cancel t)).now = s.now := by
  unfold Api.step
  dsimp only
  split
  · split
    · exact ⟨sent_log _ _ (fun _ _ h => by cases h), by unfold Api.setPc; split <;> rfl,
        by unfold Api.setPc; split <;> rfl⟩
    · exact ⟨sent_log _ _ (fun _ _ h => by cases h), by unfold Api.finish Api.setPc; split <;> rfl,
        by unfold Api.finish Api.setPc; split <;> rfl⟩
    · exact ⟨rfl, rfl, rfl⟩
  · exact ⟨rfl, rfl, rfl⟩

theorem finish_rest (s : Api) (t : Nat) (r : Except PyErr (Option Obj)) : (s.finish t r).uart = s.uart ∧
    (s.finish t r).now = s.now ∧ (s.finish t r).waiters = s.waiters := by
  unfold Api.finish Api.setPc
  split <;> exact ⟨rfl, rfl, rfl⟩

theorem client_cancel {α : Type} (c : Client α) :
    sentIn (c.step .cancel).api.log = sentIn c.api.log ∧ (c.step .cancel).api.uart = c.api.uart ∧
    (c.step .cancel).api.now = c.api.now := by
  unfold Client.step
  dsimp only
  split
  · unfold Client.interrupt
    split
    · split
      · exact sent_cancel _ _
      · exact ⟨rfl, rfl, rfl⟩
    · split
      · unfold Client.answer
        dsimp only
        unfold Api.step
        dsimp only
        split <;> exact ⟨rfl, rfl, rfl⟩
      · exact ⟨rfl, rfl, rfl⟩
    · exact ⟨rfl, rfl, rfl⟩
  · exact ⟨rfl, rfl, rfl⟩

/-! ## The probe -/

/-- The call has ended: with an answer of the radio, or by its time limit. -/
def POverBy (s : Api) : Prop :=
  (POver (.error .timeoutError) s ∧ 6000 ≤ s.now) ∨
  ∃ o, POver (.ok (some o)) s ∧ s.waiters = []

/-- What is known at each place. -/
def PInv (p : Probe) : Prop :=
  match p.pc with
  | .ready => p.client.prog = Conn.probeProg ∧ PFresh p.client.api ∧ p.client.api.uart = false ∧
      p.port = false ∧ p.woken = false
  | .opening => p.client.prog = Conn.probeProg ∧ PFresh p.client.api ∧ p.client.api.uart = false ∧
      p.port = true ∧ p.woken = false
  | .settling _ => p.client.prog = Conn.probeProg ∧ PFresh p.client.api ∧ p.client.api.uart = false ∧
      p.port = true ∧ p.woken = true
  | .asking => p.client.prog = probeRest ∧ p.client.api.uart = true ∧ p.port = true ∧ p.woken = true ∧
      (p.client.pend = .idle ∧ PFresh p.client.api ∨
        p.client.pend = .call 0 ∧ ((∃ t0, PAsked t0 p.client.api) ∨ POverBy p.client.api))
  | .ended _ => p.client.api.uart = false ∧ (PFresh p.client.api ∨
      sentIn p.client.api.log = versionBytes ∧ p.woken = true ∧ p.port = false)

/-- The request has been made. -/
def PWaits (p : Probe) : Prop := p.pc = .asking ∧ p.client.pend = .call 0

/-- The radio has answered. -/
def PGot (s : Api) : Prop :=
  (s.result 0 = none ∧ ∃ o, s.fut 0 = .result o) ∨ ∃ o, s.result 0 = some (.ok (some o))

theorem output_eq (p : Probe) : probeOutput p = (if p.woken then [0xEF] else []) ++ sentIn p.client.api.log := rfl

theorem PInv.sent {p : Probe} (h : PInv p) : sentIn p.client.api.log = [] ∨
    sentIn p.client.api.log = versionBytes ∧ p.woken = true := by
  unfold PInv at h
  split at h
  · exact .inl h.2.1.sent
  · exact .inl h.2.1.sent
  · exact .inl h.2.1.sent
  · obtain ⟨-, -, -, hw, ⟨-, hf⟩ | ⟨-, ⟨t0, ha⟩ | ⟨ho, -⟩ | ⟨o, ho, -⟩⟩⟩ := h
    · exact .inl hf.sent
    · exact .inr ⟨ha.sent, hw⟩
    · exact .inr ⟨ho.sent, hw⟩
    · exact .inr ⟨ho.sent, hw⟩
  · rcases h.2 with h | h
    · exact .inl h.sent
    · exact .inr ⟨h.1, h.2.1⟩

/-- A probe that ends like this. -/
theorem finish_inv {p : Probe} {o : Conn.Outcome} (hs : PFresh p.client.api ∨
    sentIn p.client.api.log = versionBytes ∧ p.woken = true ∧ p.client.api.uart = true) : PInv (p.finish o) := by
  show _ ∧ _
  refine ⟨rfl, ?_⟩
  rcases hs with hs | ⟨h1, h2, h3⟩
  · exact .inl (hs.setUart false)
  · refine .inr ⟨h1, h2, ?_⟩
    show (if _ then _ else _) = _
    rw [if_pos h3]

theorem cancel_connect {c : Client Unit} (h : c.prog = Conn.probeProg) : c.step .cancel = c := by
  unfold Client.step
  dsimp only
  rw [h, probeProg_eq]
  rfl

theorem cancel_idle {c : Client Unit} (h : c.prog = probeRest) (hp : c.pend = .idle) : c.step .cancel = c := by
  unfold Client.step
  dsimp only
  rw [h]
  unfold probeRest
  dsimp only
  unfold Client.interrupt
  dsimp only
  rw [hp]

theorem throw_inv {p : Probe} (h : PInv p) (hn : ∀ o, p.pc ≠ .ended o) (e : PyErr) : PInv (p.throw e) := by
  unfold Probe.throw
  apply finish_inv
  show PFresh (p.client.step .cancel).api ∨ sentIn (p.client.step .cancel).api.log = _ ∧ _ ∧
    (p.client.step .cancel).api.uart = _
  obtain ⟨h1, h2, -⟩ := client_cancel p.client
  unfold PInv at h
  split at h
  · rw [cancel_connect h.1]; exact .inl h.2.1
  · rw [cancel_connect h.1]; exact .inl h.2.1
  · rw [cancel_connect h.1]; exact .inl h.2.1
  · rw [h1, h2]
    obtain ⟨hp, hu, -, hw, ⟨hd, hf⟩ | ⟨-, ⟨t0, ha⟩ | ⟨ho, -⟩ | ⟨o, ho, -⟩⟩⟩ := h
    · rw [cancel_idle hp hd]; exact .inl hf
    · exact .inr ⟨ha.sent, hw, hu⟩
    · exact .inr ⟨ho.sent, hw, hu⟩
    · exact .inr ⟨ho.sent, hw, hu⟩
  · rename_i o ho
    exact absurd ho (hn o)

theorem throw_sent (p : Probe) (e : PyErr) : sentIn (p.throw e).client.api.log = sentIn p.client.api.log :=
  (client_cancel p.client).1

/-- What one event other than bytes does. -/
structure PQuiet (p p' : Probe) (ev : ProbeEvent) : Prop where
  inv : PInv p'
  now : p.client.api.now ≤ p'.client.api.now
  wrote : sentIn p'.client.api.log = sentIn p.client.api.log ∨ PWaits p'
  buffer : p'.buffer = p.buffer
  waits : PWaits p' → PWaits p ∧ (PGot p'.client.api → PGot p.client.api) ∨
    probeOutput p' = 0xEF :: versionBytes ∧ ¬ PGot p'.client.api
  returned : p'.pc = .ended (.returned true) → p.pc = .ended (.returned true) ∨ PWaits p ∧ PGot p.client.api
  raised : ∀ e, p'.pc = .ended (.raised e) → p.pc = .ended (.raised e) ∨ ev = .cancel ∧ e = .cancelledError ∨
    ∃ d, ev = .begin (some e) d ∧ ¬ RadioError e

theorem PQuiet.same {p : Probe} (h : PInv p) (ev : ProbeEvent) : PQuiet p p ev :=
  ⟨h, Nat.le_refl _, .inl rfl, rfl, fun h => .inl ⟨h, fun h => h⟩, fun h => .inl h, fun _ h => .inl h⟩

theorem probe_fails (e : PyErr) : Conn.probeFails e = true ↔ RadioError e := by
  unfold RadioError
  cases e <;> simp [Conn.probeFails]

/-- It ends with an exception. -/
theorem outcome_raised {e e' : PyErr} (h : (if Conn.probeFails e then Conn.Outcome.returned false else .raised e) =
    .raised e') : e' = e ∧ ¬ RadioError e := by
  split at h
  · cases h
  · rename_i hf
    cases h
    exact ⟨rfl, fun hr => hf ((probe_fails e).mpr hr)⟩

theorem outcome_true {e : PyErr} (h : (if Conn.probeFails e then Conn.Outcome.returned false else .raised e) =
    .returned true) : False := by
  split at h <;> cases h

theorem after_raise {p : Probe} {c : Client Unit} {e : PyErr} (h : c.prog = .raise e) :
    p.after c = { p with client := c }.finish (if Conn.probeFails e then .returned false else .raised e) := by
  unfold Probe.after
  rw [h]

theorem after_ret {p : Probe} {c : Client Unit} (h : c.prog = .ret ()) :
    p.after c = { p with client := c }.finish (.returned true) := by
  unfold Probe.after
  rw [h]

theorem after_rest {p : Probe} {c : Client Unit} (h : c.prog = probeRest) :
    p.after c = { p with client := c } := by
  unfold Probe.after
  rw [h]
  rfl

theorem quiet_step {p : Probe} (h : PInv p) (ev : ProbeEvent) (hb : ∀ c, ev ≠ .bytes c) :
    PQuiet p (p.step ev) ev := by
  obtain ⟨client, buffer, pc, port, woken, raised⟩ := p
  have nope : ∀ {q : Probe}, q.pc ≠ .asking → ¬ PWaits q := fun hq hw => hq hw.1
  cases ev with
  | bytes c => exact absurd rfl (hb c)
  | tick ms =>
    have hgot : ∀ s : Api, PGot (s.step (.tick ms)) → PGot s := fun _ h => h
    refine ⟨?_, Nat.le_add_right _ _, .inl rfl, rfl, fun hw => .inl ⟨hw, hgot _⟩, fun hr => .inl hr, fun e hr => .inl hr⟩
    cases pc with
    | ready => exact ⟨h.1, h.2.1.tick ms, h.2.2⟩
    | opening => exact ⟨h.1, h.2.1.tick ms, h.2.2⟩
    | settling t => exact ⟨h.1, h.2.1.tick ms, h.2.2⟩
    | asking =>
      refine ⟨h.1, h.2.1, h.2.2.1, h.2.2.2.1, ?_⟩
      rcases h.2.2.2.2 with ⟨k1, k2⟩ | ⟨k1, ⟨t0, ha⟩ | ⟨ho, hn⟩ | ⟨o, ho, k2⟩⟩
      · exact .inl ⟨k1, k2.tick ms⟩
      · exact .inr ⟨k1, .inl ⟨t0, ha.tick ms⟩⟩
      · exact .inr ⟨k1, .inr (.inl ⟨⟨ho.1, ho.2⟩, Nat.le_trans hn (Nat.le_add_right _ _)⟩)⟩
      · exact .inr ⟨k1, .inr (.inr ⟨o, ⟨ho.1, ho.2⟩, k2⟩)⟩
    | ended o => exact ⟨h.1, h.2.imp_left fun h => h.tick ms⟩
  | begin opens d =>
    cases pc with
    | ready =>
      obtain ⟨h1, h2, h3, h4, h5⟩ := h
      dsimp only at h1 h2 h3 h4 h5
      cases opens with
      | none =>
        refine ⟨⟨h1, h2.tick d, h3, rfl, h5⟩, Nat.le_add_right _ _, .inl rfl, rfl, fun hw => absurd hw (nope (fun h => by cases h)),
          fun hr => (by cases hr), fun e hr => by cases hr⟩
      | some e =>
        obtain ⟨k1, k2⟩ := probe_refused (c := client.step (.api (.tick d))) h1 e
        have hst : Probe.step ⟨client, buffer, .ready, port, woken, raised⟩ (.begin (some e) d) =
            Probe.finish ⟨(client.step (.api (.tick d))).step (.connected (.error e)), buffer, .ready, port, woken, raised⟩
              (if Conn.probeFails e then .returned false else .raised e) := after_raise k1
        rw [hst]
        refine ⟨finish_inv (.inl ?_), ?_, .inl ?_, rfl, fun hw => absurd hw (nope (fun h => by cases h)), ?_, ?_⟩
        · show PFresh ((client.step (.api (.tick d))).step (.connected (.error e))).api
          rw [k2]
          exact h2.tick d
        · show client.api.now ≤ ((client.step (.api (.tick d))).step (.connected (.error e))).api.now
          rw [k2]
          exact Nat.le_add_right _ _
        · show sentIn ((client.step (.api (.tick d))).step (.connected (.error e))).api.log = _
          rw [k2]
          rfl
        · intro hr
          exact (outcome_true (ProbePc.ended.inj hr)).elim
        · intro e' hr
          obtain ⟨rfl, hn⟩ := outcome_raised (ProbePc.ended.inj hr)
          exact .inr (.inr ⟨d, rfl, hn⟩)
    | _ => exact .same h _
  | made =>
    cases pc with
    | opening =>
      obtain ⟨h1, h2, h3, h4, h5⟩ := h
      exact ⟨⟨h1, h2, h3, h4, rfl⟩, Nat.le_refl _, .inl rfl, rfl, fun hw => absurd hw (nope (fun h => by cases h)),
          fun hr => (by cases hr), fun e hr => by cases hr⟩
    | _ => exact .same h _
  | settled =>
    cases pc with
    | settling t =>
      by_cases ht : t ≤ client.api.now
      · obtain ⟨h1, h2, h3, h4, h5⟩ := h
        dsimp only at h1 h2 h3 h4 h5
        obtain ⟨k1, k2, k3⟩ := probe_connected (c := client.step (.api (.setUart true))) h1
        have hst : Probe.step ⟨client, buffer, .settling t, port, woken, raised⟩ .settled =
            ⟨(client.step (.api (.setUart true))).step (.connected (.ok ())), buffer, .asking, port, woken, raised⟩ := by
          show (if t ≤ client.api.now then _ else _) = _
          rw [if_pos ht]
          exact after_rest k1
        rw [hst]
        refine ⟨⟨k1, ?_, h4, h5, .inl ⟨k2, ?_⟩⟩, ?_, .inl ?_, rfl, fun hw => ?_, fun hr => (by cases hr),
          fun e hr => by cases hr⟩
        · show ((client.step (.api (.setUart true))).step (.connected (.ok ()))).api.uart = true
          rw [k3]
          rfl
        · show PFresh ((client.step (.api (.setUart true))).step (.connected (.ok ()))).api
          rw [k3]
          exact h2.setUart true
        · show client.api.now ≤ ((client.step (.api (.setUart true))).step (.connected (.ok ()))).api.now
          rw [k3]
          exact Nat.le_refl _
        · show sentIn ((client.step (.api (.setUart true))).step (.connected (.ok ()))).api.log = _
          rw [k3]
          rfl
        · have := hw.2
          rw [k2] at this
          cases this
      · have hst : Probe.step ⟨client, buffer, .settling t, port, woken, raised⟩ .settled =
            ⟨client, buffer, .settling t, port, woken, raised⟩ := by
          show (if t ≤ client.api.now then _ else _) = _
          rw [if_neg ht]
        rw [hst]
        exact .same h _
    | _ => exact .same h _
  | go =>
    cases pc with
    | asking =>
      have h0 := h
      obtain ⟨h1, h2, h3, h4, hh⟩ := h
      dsimp only at h1 h2 h3 h4 hh
      rcases hh with ⟨k1, k2⟩ | ⟨k1, hh⟩
      · obtain ⟨g1, g2, g3⟩ := probe_ask h1 k1 k2.tid
        have hst : Probe.step ⟨client, buffer, .asking, port, woken, raised⟩ .go =
            ⟨client.step .go, buffer, .asking, port, woken, raised⟩ := after_rest g1
        rw [hst]
        obtain ⟨a1, a2, a3, a4, a5⟩ := k2.ask h2
        rw [← g3] at a1 a2 a3 a4 a5
        refine ⟨⟨g1, a3, h3, h4, .inr ⟨g2, .inl ⟨_, a1⟩⟩⟩, Nat.le_of_eq a2.symm, .inr ⟨rfl, g2⟩, rfl, fun _ => .inr ⟨?_, ?_⟩, fun hr => (by cases hr),
          fun e hr => by cases hr⟩
        · rw [output_eq]
          show (if woken then _ else _) ++ sentIn (client.step .go).api.log = _
          rw [h4, a1.sent]
          rfl
        · rintro (⟨-, o, ho⟩ | ⟨o, ho⟩)
          · have ho : (client.step .go).api.fut 0 = .result o := ho
            rw [a5] at ho
            cases ho
          · have ho : (client.step .go).api.result 0 = some (.ok (some o)) := ho
            rw [a1.result] at ho
            cases ho
      · rcases hh with ⟨t0, ha⟩ | ⟨ho, hn⟩ | ⟨o, ho, k2⟩
        · have hst : Probe.step ⟨client, buffer, .asking, port, woken, raised⟩ .go =
              ⟨client, buffer, .asking, port, woken, raised⟩ := by
            show Probe.after _ (client.step .go) = _
            rw [probe_waits h1 k1 ha.result]
            exact after_rest h1
          rw [hst]
          exact .same h0 _
        · obtain ⟨g1, g2⟩ := probe_goes h1 k1 ho.result
          have hst : Probe.step ⟨client, buffer, .asking, port, woken, raised⟩ .go =
              Probe.finish ⟨client.step .go, buffer, .asking, port, woken, raised⟩ (.returned false) := after_raise g2
          rw [hst]
          refine ⟨finish_inv (.inr ⟨?_, h4, ?_⟩), ?_, .inl ?_, rfl, fun hw => absurd hw (nope (fun h => by cases h)),
            fun hr => (by cases hr), fun e hr => by cases hr⟩
          · show sentIn (client.step .go).api.log = _
            rw [g1]; exact ho.sent
          · show (client.step .go).api.uart = true
            rw [g1]; exact h2
          · show client.api.now ≤ (client.step .go).api.now
            rw [g1]; exact Nat.le_refl _
          · show sentIn (client.step .go).api.log = _
            rw [g1]
        · obtain ⟨g1, g2⟩ := probe_goes h1 k1 ho.result
          have hst : Probe.step ⟨client, buffer, .asking, port, woken, raised⟩ .go =
              Probe.finish ⟨client.step .go, buffer, .asking, port, woken, raised⟩ (.returned true) := after_ret g2
          rw [hst]
          refine ⟨finish_inv (.inr ⟨?_, h4, ?_⟩), ?_, .inl ?_, rfl, fun hw => absurd hw (nope (fun h => by cases h)),
            fun _ => .inr ⟨⟨rfl, k1⟩, .inr ⟨o, ho.result⟩⟩, fun e hr => by cases hr⟩
          · show sentIn (client.step .go).api.log = _
            rw [g1]; exact ho.sent
          · show (client.step .go).api.uart = true
            rw [g1]; exact h2
          · show client.api.now ≤ (client.step .go).api.now
            rw [g1]; exact Nat.le_refl _
          · show sentIn (client.step .go).api.log = _
            rw [g1]
    | _ => exact .same h _
  | wake =>
    cases pc with
    | asking =>
      have h0 := h
      obtain ⟨h1, h2, h3, h4, hh⟩ := h
      dsimp only at h1 h2 h3 h4 hh
      have same : ∀ (hs : client.api.step (.wake 0) = client.api),
          PQuiet ⟨client, buffer, .asking, port, woken, raised⟩
            (Probe.step ⟨client, buffer, .asking, port, woken, raised⟩ .wake) .wake := by
        intro hs
        have hst : Probe.step ⟨client, buffer, .asking, port, woken, raised⟩ .wake =
            ⟨client, buffer, .asking, port, woken, raised⟩ := by
          show Probe.mk { client with api := client.api.step (.wake 0) } _ _ _ _ _ = _
          rw [hs]
        rw [hst]
        exact .same h0 _
      rcases hh with ⟨k1, k2⟩ | ⟨k1, ⟨t0, ha⟩ | ⟨ho, -⟩ | ⟨o, ho, -⟩⟩
      · refine same ?_
        unfold Api.step
        dsimp only
        rw [k2.task]
      · rcases ha.wake with ⟨o, f, hf, hd, hv, ho⟩ | ⟨-, hs⟩
        · have hst : client.api.step (.wake 0) = client.api.finish 0 (.ok (some o)) := by
            rw [step_wake ha.task rfl hf, conclude_ok rfl (version_answer hd hv).2]
          obtain ⟨u1, u2, u3⟩ := finish_rest client.api 0 (.ok (some o))
          rw [← hst] at u1 u2 u3
          have hw : client.api.waiters = [] := by
            rcases ha.hold with ⟨-, hx⟩ | hx | ⟨-, hx, -⟩
            · rw [hf] at hx; cases hx
            · exact hx.1
            · rw [hf] at hx; cases hx
          exact ⟨⟨h1, u1.trans h2, h3, h4, .inr ⟨k1, .inr (.inr ⟨o, ho, u3.trans hw⟩)⟩⟩, Nat.le_of_eq u2.symm,
            .inr ⟨rfl, k1⟩, rfl, fun hw => .inl ⟨⟨rfl, k1⟩, fun _ => .inl ⟨ha.result, o, hf⟩⟩,
            fun hr => (by cases hr), fun e hr => by cases hr⟩
        · exact same hs
      · exact same ho.wake
      · exact same ho.wake
    | _ => exact .same h _
  | expire =>
    cases pc with
    | asking =>
      have h0 := h
      obtain ⟨h1, h2, h3, h4, hh⟩ := h
      dsimp only at h1 h2 h3 h4 hh
      have same : ∀ (hs : client.api.step (.timeout 0) = client.api),
          PQuiet ⟨client, buffer, .asking, port, woken, raised⟩
            (Probe.step ⟨client, buffer, .asking, port, woken, raised⟩ .expire) .expire := by
        intro hs
        have hst : Probe.step ⟨client, buffer, .asking, port, woken, raised⟩ .expire =
            ⟨client, buffer, .asking, port, woken, raised⟩ := by
          show Probe.mk { client with api := client.api.step (.timeout 0) } _ _ _ _ _ = _
          rw [hs]
        rw [hst]
        exact .same h0 _
      rcases hh with ⟨k1, k2⟩ | ⟨k1, ⟨t0, ha⟩ | ⟨ho, -⟩ | ⟨o, ho, -⟩⟩
      · refine same ?_
        unfold Api.step
        dsimp only
        rw [k2.task]
      · rcases ha.expire with hs | ⟨hf, hn, ho⟩
        · exact same hs
        · have hst : client.api.step (.timeout 0) =
              { client.api.finish 0 (.error .timeoutError) with fut := upd client.api.fut 0 .cancelled } := by
            unfold Api.step
            dsimp only
            rw [ha.task]
            dsimp only
            rw [if_pos ⟨hf, hn⟩]
          obtain ⟨u1, u2, -⟩ := finish_rest client.api 0 (.error .timeoutError)
          have u1 : (client.api.step (.timeout 0)).uart = client.api.uart := by rw [hst]; exact u1
          have u2 : (client.api.step (.timeout 0)).now = client.api.now := by rw [hst]; exact u2
          refine ⟨⟨h1, u1.trans h2, h3, h4, .inr ⟨k1, .inr (.inl ⟨ho, ?_⟩)⟩⟩, Nat.le_of_eq u2.symm, .inr ⟨rfl, k1⟩,
            rfl, fun hw => .inl ⟨⟨rfl, k1⟩, ?_⟩, fun hr => (by cases hr), fun e hr => by cases hr⟩
          · show 6000 ≤ (client.api.step (.timeout 0)).now
            rw [u2]
            omega
          · have hr : (client.api.step (.timeout 0)).result 0 = _ := ho.result
            rintro (⟨hn, -⟩ | ⟨o, hx⟩)
            · rw [show (Probe.step ⟨client, buffer, .asking, port, woken, raised⟩ .expire).client.api.result 0 = _
                from hr] at hn
              cases hn
            · rw [show (Probe.step ⟨client, buffer, .asking, port, woken, raised⟩ .expire).client.api.result 0 = _
                from hr] at hx
              cases hx
      · exact same ho.expire
      · exact same ho.expire
    | _ => exact .same h _
  | timer w =>
    have hur : ∀ s : Api, (s.step (.timer w)).uart = s.uart ∧ (s.step (.timer w)).fut = s.fut ∧
        (s.step (.timer w)).result 0 = s.result 0 ∧ sentIn (s.step (.timer w)).log = sentIn s.log ∧
        (s.step (.timer w)).now = s.now ∧ (s.waiters = [] → (s.step (.timer w)).waiters = []) := by
      intro s
      rcases step_timer s w with hs | ⟨x, -, -, -, ⟨o, ho, hs⟩ | ⟨hno, hs⟩⟩
      · rw [hs]; exact ⟨rfl, rfl, rfl, rfl, rfl, fun h => h⟩
      · rw [hs]; exact ⟨rfl, rfl, rfl, rfl, rfl, fun h => h⟩
      · rw [hs]
        exact ⟨rfl, rfl, rfl, sent_log _ _ (fun _ _ h => by cases h), rfl, fun h => by
          show s.waiters.filter _ = []
          rw [h]
          rfl⟩
    obtain ⟨u1, u2, u3, u4, u5, u6⟩ := hur client.api
    have hgot : PGot (client.api.step (.timer w)) → PGot client.api := by
      intro hg
      unfold PGot at hg
      rw [u2, u3] at hg
      exact hg
    refine ⟨?_, Nat.le_of_eq u5.symm, .inl u4, rfl, fun hw => .inl ⟨hw, hgot⟩, fun hr => .inl hr, fun e hr => .inl hr⟩
    cases pc with
    | ready => exact ⟨h.1, (by rw [h.2.1.timer w]; exact h.2.1 : PFresh (client.api.step (.timer w))), u1.trans h.2.2.1, h.2.2.2⟩
    | opening => exact ⟨h.1, (by rw [h.2.1.timer w]; exact h.2.1 : PFresh (client.api.step (.timer w))), u1.trans h.2.2.1, h.2.2.2⟩
    | settling t => exact ⟨h.1, (by rw [h.2.1.timer w]; exact h.2.1 : PFresh (client.api.step (.timer w))), u1.trans h.2.2.1, h.2.2.2⟩
    | asking =>
      refine ⟨h.1, u1.trans h.2.1, h.2.2.1, h.2.2.2.1, ?_⟩
      rcases h.2.2.2.2 with ⟨k1, k2⟩ | ⟨k1, ⟨t0, ha⟩ | ⟨ho, hn⟩ | ⟨o, ho, k2⟩⟩
      · exact .inl ⟨k1, (by rw [k2.timer w]; exact k2 : PFresh (client.api.step (.timer w)))⟩
      · exact .inr ⟨k1, .inl ⟨t0, (ha.timer w).1⟩⟩
      · exact .inr ⟨k1, .inr (.inl ⟨ho.timer w, Nat.le_trans hn (Nat.le_of_eq u5.symm)⟩)⟩
      · exact .inr ⟨k1, .inr (.inr ⟨o, ho.timer w, u6 k2⟩)⟩
    | ended o =>
      refine ⟨u1.trans h.1, ?_⟩
      rcases h.2 with hf | ⟨k1, k2⟩
      · exact .inl (by rw [hf.timer w]; exact hf : PFresh (client.api.step (.timer w)))
      · exact .inr ⟨u4.trans k1, k2⟩
  | timeout =>
    by_cases he : ∃ o, pc = .ended o
    · obtain ⟨o, rfl⟩ := he
      exact .same h _
    · have hst : Probe.step ⟨client, buffer, pc, port, woken, raised⟩ .timeout =
          if probeLimit ≤ client.api.now then Probe.throw ⟨client, buffer, pc, port, woken, raised⟩ .timeoutError
          else ⟨client, buffer, pc, port, woken, raised⟩ := by
        cases pc with
        | ended o => exact absurd ⟨o, rfl⟩ he
        | _ => rfl
      rw [hst]
      split
      · exact ⟨throw_inv h (fun o ho => he ⟨o, ho⟩) _, Nat.le_of_eq (client_cancel client).2.2.symm,
          .inl (throw_sent _ _), rfl, fun hw => absurd hw (nope (fun h => by cases h)),
          fun hr => (outcome_true (ProbePc.ended.inj hr)).elim,
          fun e hr => absurd ((probe_fails .timeoutError).mp rfl) (outcome_raised (ProbePc.ended.inj hr)).2⟩
      · exact .same h _
  | cancel =>
    by_cases he : ∃ o, pc = .ended o
    · obtain ⟨o, rfl⟩ := he
      exact .same h _
    · have hst : Probe.step ⟨client, buffer, pc, port, woken, raised⟩ .cancel =
          Probe.throw ⟨client, buffer, pc, port, woken, raised⟩ .cancelledError := by
        cases pc with
        | ended o => exact absurd ⟨o, rfl⟩ he
        | _ => rfl
      rw [hst]
      exact ⟨throw_inv h (fun o ho => he ⟨o, ho⟩) _, Nat.le_of_eq (client_cancel client).2.2.symm,
        .inl (throw_sent _ _), rfl, fun hw => absurd hw (nope (fun h => by cases h)),
        fun hr => (outcome_true (ProbePc.ended.inj hr)).elim,
        fun e hr => .inr (.inl ⟨rfl, (outcome_raised (ProbePc.ended.inj hr)).1⟩)⟩

/-- Nobody waits for these messages. -/
theorem frames_nobody (fs : List Frame) : ∀ {s : Api}, s.waiters = [] → (s.run (fs.map .frame)).waiters = [] := by
  induction fs with
  | nil => intro s h; exact h
  | cons f fs ih => intro s h; exact ih (s := (s.dataReceived f).1) (frame_nobody h f).1

/-! ## Bytes -/

/-- A message with data is complete with its last byte. -/
theorem write_data {buf : List UInt8} {b : UInt8} (hb : BufInv buf) {f : Frame} (hd : f.data ≠ [])
    (h : (Parser.write buf b).2 = .ok (some f)) : ∃ k, Fits k ∧ f = received k ∧ buf ++ [b] = wire k := by
  obtain ⟨c, h1, h2⟩ := write_sound buf b hb
  obtain ⟨k, hk, hr, hc⟩ := h2 f h
  refine ⟨k, hk, hr, ?_⟩
  rcases write_cases buf b hb with hw | ⟨-, hw⟩ | ⟨hdr, cid, data, fcs, -, -, -, hw⟩ | ⟨hdr, cid, fcs, hB, hw⟩
  · rw [hw] at h; cases h
  · rw [hw] at h; cases h
  · rw [hw, hc, List.append_nil] at h1
    exact h1
  · exfalso
    rw [hw, hc, hB] at h1
    have h3 := congrArg List.length h1
    have : (wire k).length = 5 + k.data.length := by simp [wire, body]; omega
    rw [List.length_append, List.length_append, this] at h3
    have h4 : (packet hdr cid [] fcs).length = 5 := rfl
    rw [h4] at h3
    have : k.data = [] := List.length_eq_zero_iff.mp (by
      simp only [List.length_singleton] at h3
      omega)
    rw [hr] at hd
    exact hd this

theorem _root_.Zcc.Spec.EndsAfter.more {n m : Nat} {input : List UInt8} {k : Frame} (h : EndsAfter n input k) (hm : m ≤ n)
    (w : List UInt8) : EndsAfter m (input ++ w) k := by
  obtain ⟨pre, post, h1, h2⟩ := h
  exact ⟨pre, post ++ w, by rw [h1, List.append_assoc], by omega⟩

theorem dr_ends {σ : Type} (h : Handler σ) (c : List UInt8) : ∀ (g : Gateway σ), BufInv g.buffer →
    ∃ fs : List Frame,
      (Gateway.dataReceived h g c).1.api = fs.foldl (fun s f => (h s f).1) g.api ∧
      BufInv (Gateway.dataReceived h g c).1.buffer ∧
      ∃ a, a <+: c ∧ ∀ q, (∃ q', q ++ g.buffer ++ a = q' ++ (Gateway.dataReceived h g c).1.buffer) ∧
        ∀ f ∈ fs, f.data ≠ [] → ∃ k, Fits k ∧ f = received k ∧
          EndsAfter (q ++ g.buffer).length (q ++ g.buffer ++ a) k := by
  induction c with
  | nil =>
    intro g hg
    exact ⟨[], rfl, hg, [], List.prefix_rfl, fun q => ⟨⟨q, by simp [Gateway.dataReceived]⟩, fun f hf => by cases hf⟩⟩
  | cons x c ih =>
    intro g hg
    obtain ⟨cc, hcc, -⟩ := write_sound g.buffer x hg
    have hb' := write_bufInv g.buffer x hg
    rcases hw : Parser.write g.buffer x with ⟨b', err | _ | f⟩
    · rw [hw] at hcc hb'
      simp only [Gateway.dataReceived, hw]
      refine ⟨[], rfl, hb', [x], by simp, fun q => ⟨⟨q ++ cc, ?_⟩, fun f hf => by cases hf⟩⟩
      rw [List.append_assoc, hcc, List.append_assoc]
    · rw [hw] at hcc hb'
      obtain ⟨fs, g1, g2, a, g3, g4⟩ := ih ⟨b', g.api⟩ hb'
      simp only [Gateway.dataReceived, hw]
      refine ⟨fs, g1, g2, x :: a, by simpa using g3, fun q => ?_⟩
      have e1 : q ++ g.buffer ++ x :: a = q ++ cc ++ b' ++ a := by
        rw [List.append_cons, List.append_assoc q, hcc]
        simp
      obtain ⟨k1, k2⟩ := g4 (q ++ cc)
      rw [e1]
      refine ⟨k1, fun f hf hd => ?_⟩
      obtain ⟨k, m1, m2, pre, post, m3, m4⟩ := k2 f hf hd
      refine ⟨k, m1, m2, pre, post, m3, ?_⟩
      have := congrArg List.length hcc
      simp only [List.length_append, List.length_singleton] at *
      omega
    · have hfr : ∀ q, f.data ≠ [] → ∃ k, Fits k ∧ f = received k ∧
          EndsAfter (q ++ g.buffer).length (q ++ g.buffer ++ [x]) k := by
        intro q hd
        obtain ⟨k, k1, k2, k3⟩ := write_data hg hd (by rw [hw])
        refine ⟨k, k1, k2, q, [], by rw [List.append_assoc, k3, List.append_nil], ?_⟩
        rw [← k3]
        simp only [List.length_append, List.length_singleton]
        omega
      rw [hw] at hcc hb'
      rcases hh : h g.api f with ⟨s, _ | err⟩
      · obtain ⟨fs, g1, g2, a, g3, g4⟩ := ih ⟨b', s⟩ hb'
        simp only [Gateway.dataReceived, hw, hh]
        refine ⟨f :: fs, by rw [List.foldl_cons, hh]; exact g1, g2, x :: a, by simpa using g3, fun q => ?_⟩
        have e1 : q ++ g.buffer ++ x :: a = q ++ cc ++ b' ++ a := by
          rw [List.append_cons, List.append_assoc q, hcc]
          simp
        obtain ⟨k1, k2⟩ := g4 (q ++ cc)
        refine ⟨by rw [e1]; exact k1, fun f' hf' hd => ?_⟩
        rcases List.mem_cons.mp hf' with rfl | hf'
        · obtain ⟨k, m1, m2, m3⟩ := hfr q hd
          refine ⟨k, m1, m2, ?_⟩
          rw [List.append_cons]
          exact m3.more (Nat.le_refl _) a
        · obtain ⟨k, m1, m2, pre, post, m3, m4⟩ := k2 f' hf' hd
          refine ⟨k, m1, m2, pre, post, by rw [e1]; exact m3, ?_⟩
          have := congrArg List.length hcc
          simp only [List.length_append, List.length_singleton] at *
          omega
      · simp only [Gateway.dataReceived, hw, hh]
        refine ⟨[f], by simp [hh], hb', [x], by simp, fun q => ⟨⟨q ++ cc, ?_⟩, fun f' hf' hd => ?_⟩⟩
        · rw [List.append_assoc, hcc, List.append_assoc]
        · rw [List.mem_singleton.mp hf'] at hd ⊢
          exact hfr q hd

/-- Frames in any state. -/
theorem PInv.frames {p : Probe} (h : PInv p) (hp : p.port = true) (fs : List Frame) {s : Api}
    (hs : s = p.client.api.run (fs.map .frame)) (b : List UInt8) (r : List PyErr) :
    PInv { p with client := { p.client with api := s }, buffer := b, raised := r } ∧
    (PWaits p → PGot s → PGot p.client.api ∨ ∃ f ∈ fs, VersionAnswer f) := by
  have hc := sameCalls_frames fs p.client.api
  rw [← hs] at hc
  obtain ⟨client, buffer, pc, port, woken, raised⟩ := p
  dsimp only at hp hs hc
  have nope : pc ≠ .asking → PWaits ⟨client, buffer, pc, port, woken, raised⟩ →
      PGot s → PGot client.api ∨ ∃ f ∈ fs, VersionAnswer f := fun hq hw => absurd hw.1 hq
  have fresh : PFresh client.api → PFresh s := by
    intro hf
    rw [hs]
    exact hf.frames fs
  cases pc with
  | ready => exact ⟨⟨h.1, fresh h.2.1, hc.uart.trans h.2.2.1, h.2.2.2⟩, nope (fun h => by cases h)⟩
  | opening => exact ⟨⟨h.1, fresh h.2.1, hc.uart.trans h.2.2.1, h.2.2.2⟩, nope (fun h => by cases h)⟩
  | settling t => exact ⟨⟨h.1, fresh h.2.1, hc.uart.trans h.2.2.1, h.2.2.2⟩, nope (fun h => by cases h)⟩
  | ended o =>
    refine ⟨⟨hc.uart.trans h.1, ?_⟩, nope (fun h => by cases h)⟩
    rcases h.2 with hf | hf
    · exact .inl (fresh hf)
    · exact .inr ⟨hc.sent.trans hf.1, hf.2⟩
  | asking =>
    obtain ⟨h1, h2, h3, h4, hh⟩ := h
    dsimp only at h1 h2 h3 h4 hh
    rcases hh with ⟨k1, k2⟩ | ⟨k1, ⟨t0, ha⟩ | ⟨ho, hn⟩ | ⟨o, ho, hw⟩⟩
    · refine ⟨⟨h1, hc.uart.trans h2, h3, h4, .inl ⟨k1, fresh k2⟩⟩, fun hw => ?_⟩
      have := hw.2
      rw [show client.pend = _ from this] at k1
      cases k1
    · obtain ⟨g1, g2⟩ := ha.frames fs
      rw [← hs] at g1 g2
      refine ⟨⟨h1, hc.uart.trans h2, h3, h4, .inr ⟨k1, .inl ⟨t0, g1⟩⟩⟩, fun _ hg => ?_⟩
      rcases hg with ⟨-, o, ho⟩ | ⟨o, ho⟩
      · rcases g2 o ho with hx | ⟨f, hf, hd, hv⟩
        · exact .inl (.inl ⟨ha.result, o, hx⟩)
        · exact .inr ⟨f, hf, (version_answer hd hv).1⟩
      · rw [g1.result] at ho
        cases ho
    · have g := ho.frames fs
      rw [← hs] at g
      refine ⟨⟨h1, hc.uart.trans h2, h3, h4, .inr ⟨k1, .inr (.inl ⟨g, hc.now ▸ hn⟩)⟩⟩, fun _ hg => ?_⟩
      rcases hg with ⟨hx, -⟩ | ⟨o, hx⟩
      · rw [g.result] at hx; cases hx
      · rw [g.result] at hx; cases hx
    · have g := ho.frames fs
      have gw : s.waiters = [] := by rw [hs]; exact frames_nobody fs hw
      rw [← hs] at g
      exact ⟨⟨h1, hc.uart.trans h2, h3, h4, .inr ⟨k1, .inr (.inr ⟨o, g, gw⟩)⟩⟩, fun _ _ => .inl (.inr ⟨o, ho.result⟩)⟩

/-- One chunk. -/
theorem bytes_step {p : Probe} (h : PInv p) (hb : BufInv p.buffer) (c : List UInt8) :
    PInv (p.step (.bytes c)) ∧ BufInv (p.step (.bytes c)).buffer ∧ (p.step (.bytes c)).pc = p.pc ∧
    (p.step (.bytes c)).client.pend = p.client.pend ∧
    ((p.step (.bytes c)).woken = p.woken ∧ sentIn (p.step (.bytes c)).client.api.log = sentIn p.client.api.log) ∧
    (p.step (.bytes c)).client.api.now = p.client.api.now ∧
    ∃ a, a <+: c ∧ ∀ q, (∃ q', q ++ p.buffer ++ a = q' ++ (p.step (.bytes c)).buffer) ∧
      (PWaits p → PGot (p.step (.bytes c)).client.api → PGot p.client.api ∨ ∃ k, Fits k ∧ VersionAnswer k ∧
        EndsAfter (q ++ p.buffer).length (q ++ p.buffer ++ a) k) := by
  by_cases hp : p.port = true
  · obtain ⟨fs, g1, g2, a, g3, g4⟩ := dr_ends Probe.handler c ⟨p.buffer, p.client.api⟩ hb
    rw [handler_foldl] at g1
    obtain ⟨k1, k2⟩ := h.frames hp fs g1
      (Gateway.dataReceived Probe.handler ⟨p.buffer, p.client.api⟩ c).1.buffer
      (p.raised ++ (Gateway.dataReceived Probe.handler ⟨p.buffer, p.client.api⟩ c).2.toList)
    have hst : p.step (.bytes c) = { p with
        client := { p.client with api := (Gateway.dataReceived Probe.handler ⟨p.buffer, p.client.api⟩ c).1.api }
        buffer := (Gateway.dataReceived Probe.handler ⟨p.buffer, p.client.api⟩ c).1.buffer
        raised := p.raised ++ (Gateway.dataReceived Probe.handler ⟨p.buffer, p.client.api⟩ c).2.toList } := by
      show (if p.port = true then _ else _) = _
      rw [if_pos hp]
    have hc := sameCalls_frames fs p.client.api
    rw [← g1] at hc
    rw [hst]
    refine ⟨k1, g2, rfl, rfl, ⟨rfl, hc.sent⟩, hc.now, a, g3, fun q => ⟨(g4 q).1, fun hw hg => ?_⟩⟩
    · rcases k2 hw hg with hx | ⟨f, hf, hv⟩
      · exact .inl hx
      · obtain ⟨k, m1, m2, m3⟩ := (g4 q).2 f hf (fun hd => by
          have := hv.2.2.2
          rw [hd] at this
          exact absurd this (by decide))
        rw [m2] at hv
        exact .inr ⟨k, m1, hv, m3⟩
  · have hst : p.step (.bytes c) = p := by
      show (if p.port = true then _ else _) = _
      rw [if_neg hp]
    rw [hst]
    exact ⟨h, hb, rfl, rfl, ⟨rfl, rfl⟩, rfl, [], List.nil_prefix, fun q => ⟨⟨q, by simp⟩, fun _ hg => .inl hg⟩⟩

/-! ## Executions -/

theorem snoc_induction {α : Type} {P : List α → Prop} (h0 : P []) (hs : ∀ l x, P l → P (l ++ [x])) :
    ∀ l, P l := by
  intro l
  generalize hn : l.length = n
  induction n generalizing l with
  | zero => rw [List.length_eq_zero_iff.mp hn]; exact h0
  | succ n ih =>
    rcases List.eq_nil_or_concat l with rfl | ⟨l', x, rfl⟩
    · exact h0
    · rw [List.concat_eq_append]
      exact hs l' x (ih l' (by simpa using hn))

theorem probeChunks_append (a b : List ProbeEvent) : probeChunks (a ++ b) = probeChunks a ++ probeChunks b := by
  induction a with
  | nil => rfl
  | cons e a ih =>
    cases e with
    | bytes c => exact congrArg (c :: ·) ih
    | _ => exact ih

theorem probeRun_snoc (es : List ProbeEvent) (ev : ProbeEvent) :
    Probe.run (es ++ [ev]) = (Probe.run es).step ev := by
  unfold Probe.run
  rw [List.foldl_append]
  rfl

/-- The request was written during `es`, of which `heard` reached the parser; and the radio answered, if
`G`. -/
def WroteAt (es : List ProbeEvent) (heard : List (List UInt8)) (G : Prop) : Prop :=
  ∃ a b hA hB, es = a ++ b ∧ heard = hA ++ hB ∧ PrefixEach hA (probeChunks a) ∧ PrefixEach hB (probeChunks b) ∧
    probeOutput (Probe.run a) = 0xEF :: versionBytes ∧
    (G → ∃ k, Fits k ∧ VersionAnswer k ∧ EndsAfter hA.flatten.length heard.flatten k)

theorem WroteAt.weaken {es : List ProbeEvent} {heard : List (List UInt8)} {G G' : Prop} (h : WroteAt es heard G)
    (hg : G' → G) : WroteAt es heard G' := by
  obtain ⟨a, b, hA, hB, h1, h2, h3, h4, h5, h6⟩ := h
  exact ⟨a, b, hA, hB, h1, h2, h3, h4, h5, fun h => h6 (hg h)⟩

theorem WroteAt.more {es : List ProbeEvent} {heard : List (List UInt8)} {G : Prop} (h : WroteAt es heard G)
    {ev : ProbeEvent} {w : List (List UInt8)} (hw : PrefixEach w (probeChunks [ev])) :
    WroteAt (es ++ [ev]) (heard ++ w) G := by
  obtain ⟨a, b, hA, hB, rfl, rfl, h3, h4, h5, h6⟩ := h
  refine ⟨a, b ++ [ev], hA, hB ++ w, by rw [List.append_assoc], by rw [List.append_assoc], h3, ?_, h5, fun hg => ?_⟩
  · rw [probeChunks_append]
    exact prefixEach_append h4 hw
  · obtain ⟨k, k1, k2, k3⟩ := h6 hg
    refine ⟨k, k1, k2, ?_⟩
    rw [List.flatten_append]
    exact k3.more (Nat.le_refl _) _

/-- What an execution leaves. -/
structure PTrace (es : List ProbeEvent) (heard : List (List UInt8)) : Prop where
  inv : PInv (Probe.run es)
  each : PrefixEach heard (probeChunks es)
  buf : BufInv (Probe.run es).buffer
  split : ∃ q, heard.flatten = q ++ (Probe.run es).buffer
  waits : PWaits (Probe.run es) → WroteAt es heard (PGot (Probe.run es).client.api)
  returned : (Probe.run es).pc = .ended (.returned true) → WroteAt es heard True

theorem chunks_one {ev : ProbeEvent} (h : ∀ c, ev ≠ .bytes c) : probeChunks [ev] = [] := by
  cases ev with
  | bytes c => exact absurd rfl (h c)
  | _ => rfl

theorem probe_trace (es : List ProbeEvent) : ∃ heard, PTrace es heard := by
  induction es using snoc_induction with
  | h0 =>
    exact ⟨[], ⟨⟨rfl, ⟨rfl, rfl, rfl, rfl, rfl, rfl, rfl, rfl, rfl⟩, rfl, rfl, rfl⟩, trivial, .inl rfl, ⟨[], rfl⟩,
      fun h => (by cases h.1), fun h => by cases h⟩⟩
  | hs es ev ih =>
    obtain ⟨heard, h⟩ := ih
    by_cases hb : ∃ c, ev = .bytes c
    · obtain ⟨c, rfl⟩ := hb
      obtain ⟨k1, k2, k3, k4, k5, k6, a, k7, k8⟩ := bytes_step h.inv h.buf c
      obtain ⟨q, hq⟩ := h.split
      obtain ⟨g1, g2⟩ := k8 q
      have hone : PrefixEach [a] (probeChunks [.bytes c]) := ⟨k7, trivial⟩
      refine ⟨heard ++ [a], ?_⟩
      rw [← probeRun_snoc] at k1 k2 k3 k4 g1 g2
      refine ⟨k1, ?_, k2, ?_, fun hw => ?_, fun hr => ?_⟩
      · rw [probeChunks_append]
        exact prefixEach_append h.each hone
      · rw [List.flatten_append, hq]
        simpa using g1
      · have hw' : PWaits (Probe.run es) := ⟨k3 ▸ hw.1, k4 ▸ hw.2⟩
        by_cases hg : PGot (Probe.run es).client.api
        · exact ((h.waits hw').more hone).weaken fun _ => hg
        · obtain ⟨a', b, hA, hB, e1, e2, e3, e4, e5, -⟩ := h.waits hw'
          refine ⟨a', b ++ [.bytes c], hA, hB ++ [a], by rw [e1, List.append_assoc], by rw [e2, List.append_assoc],
            e3, ?_, e5, fun hg' => ?_⟩
          · rw [probeChunks_append]
            exact prefixEach_append e4 hone
          · rcases g2 hw' hg' with hx | ⟨k, m1, m2, m3⟩
            · exact absurd hx hg
            · refine ⟨k, m1, m2, ?_⟩
              rw [← hq] at m3
              have := m3.more (m := hA.flatten.length) (by rw [e2, List.flatten_append, List.length_append]; omega) []
              rw [List.append_nil] at this
              rw [List.flatten_append]
              simpa using this
      · exact (h.returned (k3 ▸ hr)).more hone
    · have hb' : ∀ c, ev ≠ .bytes c := fun c hc => hb ⟨c, hc⟩
      have hq := quiet_step h.inv ev hb'
      rw [← probeRun_snoc] at hq
      have hone : PrefixEach [] (probeChunks [ev]) := by rw [chunks_one hb']; trivial
      refine ⟨heard, hq.inv, ?_, by rw [hq.buffer]; exact h.buf, by rw [hq.buffer]; exact h.split, fun hw => ?_,
        fun hr => ?_⟩
      · rw [probeChunks_append, chunks_one hb', List.append_nil]
        exact h.each
      · rcases hq.waits hw with ⟨k1, k2⟩ | ⟨k1, k2⟩
        · have := (h.waits k1).more hone
          rw [List.append_nil] at this
          exact this.weaken k2
        · refine ⟨es ++ [ev], [], heard, [], by rw [List.append_nil], by rw [List.append_nil], ?_, trivial, k1,
            fun hg => absurd hg k2⟩
          rw [probeChunks_append, chunks_one hb', List.append_nil]
          exact h.each
      · rcases hq.returned hr with hr | ⟨hw, hg⟩
        · have := (h.returned hr).more hone
          rw [List.append_nil] at this
          exact this
        · have := (h.waits hw).more hone
          rw [List.append_nil] at this
          exact this.weaken fun _ => hg

theorem probe_inv (es : List ProbeEvent) : PInv (Probe.run es) := by
  obtain ⟨_, h⟩ := probe_trace es
  exact h.inv

/-! ## A good stream -/

/-- Nobody waits, or the version request does. -/
def Listening (s : Api) : Prop := s.waiters = [] ∨ s.waiters = [probeWaiter] ∧ s.fut 0 = .pending

theorem Listening.frame {s : Api} (h : Listening s) {f : Frame} {o : Obj} (ho : Obj.fromUnpiFrame f = .ok o) :
    Listening (s.step (.frame f)) ∧ Probe.handler s f = (s.step (.frame f), none) := by
  have key : Listening (s.dataReceived f).1 ∧ ∃ o', (s.dataReceived f).2 = .ok o' := by
    rcases h with hw | ⟨hw, hf⟩
    · obtain ⟨k1, -, k3⟩ := frame_nobody hw f
      exact ⟨.inl k1, k3 o ho⟩
    · obtain ⟨k1, k2, k3⟩ := frame_waiting hw hf f
      by_cases hv : IsVersion o
      · exact ⟨.inl (k1 o ho hv).1, k3 o ho⟩
      · refine ⟨.inr (k2 fun o' ho' => ?_), k3 o ho⟩
        rw [ho] at ho'
        cases ho'
        exact hv
  obtain ⟨k1, o', k2⟩ := key
  refine ⟨k1, ?_⟩
  have : s.dataReceived f = ((s.dataReceived f).1, .ok o') := by rw [← k2]
  unfold Probe.handler
  rw [this]
  rfl

theorem probe_chunk (c : List UInt8) : ∀ (b r : List UInt8) (items : List (List UInt8 × Frame)) (s : Api),
    (∀ p ∈ items, ∃ o, Obj.fromUnpiFrame (received p.2) = .ok o) → SyncIt b (c ++ r) items → Listening s →
    ∃ told rest b', items = told ++ rest ∧ SyncIt b' r rest ∧
      Gateway.dataReceived Probe.handler ⟨b, s⟩ c =
        (⟨b', s.run ((told.map fun p => received p.2).map .frame)⟩, none) := by
  induction c with
  | nil =>
    intro b r items s _ hs _
    exact ⟨[], items, b, rfl, hs, rfl⟩
  | cons x c ih =>
    intro b r items s hi hs hl
    rcases SyncIt.step (r := c ++ r) hs with ⟨b', hw, hs'⟩ | ⟨p, items', rfl, hw, hs'⟩
    · obtain ⟨told, rest, b'', h1, h2, h3⟩ := ih b' r items s hi hs' hl
      refine ⟨told, rest, b'', h1, h2, ?_⟩
      simp only [Gateway.dataReceived, hw]
      exact h3
    · obtain ⟨o, ho⟩ := hi p (.head _)
      obtain ⟨k1, k2⟩ := hl.frame ho
      obtain ⟨told, rest, b'', h1, h2, h3⟩ := ih [] r items' _ (fun q hq => hi q (.tail _ hq)) hs' k1
      refine ⟨p :: told, rest, b'', by rw [h1]; rfl, h2, ?_⟩
      simp only [Gateway.dataReceived, hw, k2]
      exact h3

/-- Until the request times out. -/
theorem PInv.listening {p : Probe} (h : PInv p) (hp : p.port = true) (hn : p.client.api.now < 6000) :
    Listening p.client.api := by
  unfold PInv at h
  split at h
  · exact .inl h.2.1.waiters
  · exact .inl h.2.1.waiters
  · exact .inl h.2.1.waiters
  · obtain ⟨-, -, -, -, ⟨-, hf⟩ | ⟨-, ⟨t0, ha⟩ | ⟨-, hx⟩ | ⟨o, -, hw⟩⟩⟩ := h
    · exact .inl hf.waiters
    · rcases ha.hold with hx | hx | hx
      · exact .inr hx
      · exact .inl hx.1
      · exact .inl hx.1
    · omega
    · exact .inl hw
  · rcases h.2 with hf | ⟨-, -, hx⟩
    · exact .inl hf.waiters
    · rw [hx] at hp; cases hp

/-- The request was made; or the probe has succeeded. -/
def PLive (p : Probe) : Prop := PWaits p ∨ p.pc = .ended (.returned true)

/-- The radio has answered; or the probe has succeeded. -/
def PSure (p : Probe) : Prop := PWaits p ∧ PGot p.client.api ∨ p.pc = .ended (.returned true)

theorem ended_stays {p : Probe} {o : Conn.Outcome} (h : p.pc = .ended o) (ev : ProbeEvent) :
    (p.step ev).pc = .ended o := by
  obtain ⟨client, buffer, pc, port, woken, raised⟩ := p
  dsimp only at h
  subst h
  cases ev with
  | bytes c =>
    show (if _ then _ else _ : Probe).pc = _
    split <;> rfl
  | _ => rfl

/-- The request is not disturbed. -/
theorem live_step {p : Probe} (h : PInv p) (ev : ProbeEvent) (hb : ∀ c, ev ≠ .bytes c) (hc : ev ≠ .cancel)
    (hn : p.client.api.now < 2000) (hl : PLive p) : PLive (p.step ev) ∧ (PSure p → PSure (p.step ev)) := by
  rcases hl with hw | he
  · obtain ⟨client, buffer, pc, port, woken, raised⟩ := p
    obtain ⟨w1, w2⟩ := hw
    dsimp only at w1 w2 hn
    subst w1
    obtain ⟨h1, h2, h3, h4, hh⟩ := h
    dsimp only at h1 h2 h3 h4 hh
    have same : ∀ {q : Probe}, q = ⟨client, buffer, .asking, port, woken, raised⟩ →
        PLive q ∧ (PSure ⟨client, buffer, .asking, port, woken, raised⟩ → PSure q) := by
      rintro q rfl
      exact ⟨.inl ⟨rfl, w2⟩, fun h => h⟩
    have mk : ∀ {s : Api}, (PGot client.api → PGot s) →
        PLive ⟨{ client with api := s }, buffer, .asking, port, woken, raised⟩ ∧
        (PSure ⟨client, buffer, .asking, port, woken, raised⟩ →
          PSure ⟨{ client with api := s }, buffer, .asking, port, woken, raised⟩) := by
      intro s hs
      refine ⟨.inl ⟨rfl, w2⟩, fun hx => ?_⟩
      rcases hx with ⟨-, hx⟩ | hx
      · exact .inl ⟨⟨rfl, w2⟩, hs hx⟩
      · cases hx
    have hh : (∃ t0, PAsked t0 client.api) ∨ ∃ o, POver (.ok (some o)) client.api := by
      rcases hh with ⟨k1, -⟩ | ⟨-, ha | ⟨-, hx⟩ | ⟨o, ho, -⟩⟩
      · rw [w2] at k1; cases k1
      · exact .inl ha
      · omega
      · exact .inr ⟨o, ho⟩
    cases ev with
    | bytes c => exact absurd rfl (hb c)
    | cancel => exact absurd rfl hc
    | tick ms => exact mk fun h => h
    | begin opens d => exact same rfl
    | made => exact same rfl
    | settled => exact same rfl
    | go =>
      rcases hh with ⟨t0, ha⟩ | ⟨o, ho⟩
      · refine same ?_
        show Probe.after _ (client.step .go) = _
        rw [probe_waits h1 w2 ha.result]
        exact after_rest h1
      · obtain ⟨g1, g2⟩ := probe_goes h1 w2 ho.result
        have hst : Probe.step ⟨client, buffer, .asking, port, woken, raised⟩ .go =
            Probe.finish ⟨client.step .go, buffer, .asking, port, woken, raised⟩ (.returned true) := after_ret g2
        rw [hst]
        exact ⟨.inr rfl, fun _ => .inr rfl⟩
    | wake =>
      refine mk fun hg => ?_
      rcases hh with ⟨t0, ha⟩ | ⟨o, ho⟩
      · rcases ha.wake with ⟨o, f, hf, hd, hv, ho⟩ | ⟨hf, hs⟩
        · exact .inr ⟨o, ho.result⟩
        · show PGot (client.api.step (.wake 0))
          rw [hs]; exact hg
      · show PGot (client.api.step (.wake 0))
        rw [ho.wake]; exact hg
    | expire =>
      refine mk fun hg => ?_
      show PGot (client.api.step (.timeout 0))
      rcases hh with ⟨t0, ha⟩ | ⟨o, ho⟩
      · rcases ha.expire with hs | ⟨hf, hx, -⟩
        · rw [hs]; exact hg
        · omega
      · rw [ho.expire]; exact hg
    | timer w =>
      refine mk fun hg => ?_
      show PGot (client.api.step (.timer w))
      rcases step_timer client.api w with hs | ⟨x, -, -, -, ⟨o, ho, hs⟩ | ⟨hno, hs⟩⟩ <;> rw [hs] <;> exact hg
    | timeout =>
      refine same ?_
      show (if probeLimit ≤ client.api.now then _ else _) = _
      rw [if_neg (by unfold probeLimit; omega)]
  · exact ⟨.inr (ended_stays he ev), fun _ => .inr (ended_stays he ev)⟩

theorem got_frames {t0 : Nat} (fs : List Frame) : ∀ {s : Api}, PAsked t0 s → s.now < 6000 →
    ((∃ o, s.fut 0 = .result o) ∨ ∃ f ∈ fs, VersionAnswer f) → ∃ o, (s.run (fs.map .frame)).fut 0 = .result o := by
  induction fs with
  | nil =>
    intro s _ _ h
    rcases h with h | ⟨f, hf, -⟩
    · exact h
    · cases hf
  | cons f fs ih =>
    intro s h hn hx
    refine ih (s := (s.dataReceived f).1) (h.frame f).1 (by rw [(sameCalls_frame s f).now]; exact hn) ?_
    rcases h.hold with ⟨hw, hf⟩ | ⟨hw, o, g, hf, -⟩ | ⟨-, -, hx⟩
    · by_cases hv : VersionAnswer f
      · obtain ⟨o, ho, hv⟩ := version_decoded hv
        exact .inl ⟨o, ((frame_waiting hw hf f).1 o ho hv).2⟩
      · rcases hx with ⟨o, ho⟩ | ⟨g, hg, hgv⟩
        · rw [hf] at ho; cases ho
        · rcases List.mem_cons.mp hg with rfl | hg
          · exact absurd hgv hv
          · exact .inr ⟨g, hg, hgv⟩
    · refine .inl ⟨o, ?_⟩
      rw [(frame_nobody hw f).2.1]
      exact hf
    · omega

/-- A chunk of a good stream. -/
theorem live_bytes {p : Probe} (h : PInv p) (hp : p.port = true) (hn : p.client.api.now < 2000)
    (c r : List UInt8) {items : List (List UInt8 × Frame)}
    (hi : ∀ p ∈ items, ∃ o, Obj.fromUnpiFrame (received p.2) = .ok o) (hs : SyncIt p.buffer (c ++ r) items) :
    ∃ told rest, items = told ++ rest ∧ SyncIt (p.step (.bytes c)).buffer r rest ∧
      (p.step (.bytes c)).raised = p.raised ∧
      (PWaits p → PWaits (p.step (.bytes c)) ∧
        ((PGot p.client.api ∨ ∃ q ∈ told, VersionAnswer (received q.2)) → PGot (p.step (.bytes c)).client.api)) := by
  obtain ⟨told, rest, b', k1, k2, k3⟩ := probe_chunk c p.buffer r items p.client.api hi hs
    (h.listening hp (by omega))
  have hst : p.step (.bytes c) = { p with
      client := { p.client with api := p.client.api.run ((told.map fun p => received p.2).map .frame) }
      buffer := b' } := by
    show (if p.port = true then _ else _) = _
    rw [if_pos hp]
    dsimp only
    rw [k3]
    dsimp only [Option.toList]
    rw [List.append_nil]
  rw [hst]
  refine ⟨told, rest, k1, k2, rfl, fun hw => ⟨hw, fun hg => ?_⟩⟩
  have hc := sameCalls_frames (told.map fun p => received p.2) p.client.api
  have hres : (p.client.api.run ((told.map fun p => received p.2).map .frame)).result 0 = p.client.api.result 0 := by
    unfold Api.result
    rw [hc.tasks]
  show PGot (p.client.api.run ((told.map fun p => received p.2).map .frame))
  obtain ⟨w1, w2⟩ := hw
  unfold PInv at h
  rw [w1] at h
  obtain ⟨-, -, -, -, ⟨k1, -⟩ | ⟨-, ⟨t0, ha⟩ | ⟨-, hx⟩ | ⟨o, ho, -⟩⟩⟩ := h
  · rw [w2] at k1; cases k1
  · refine .inl ⟨by rw [hres]; exact ha.result, got_frames _ ha (by omega) ?_⟩
    rcases hg with (⟨-, hg⟩ | ⟨o, hg⟩) | ⟨q, hq, hv⟩
    · exact .inl hg
    · rw [ha.result] at hg; cases hg
    · exact .inr ⟨_, List.mem_map_of_mem hq, hv⟩
  · omega
  · exact .inr ⟨o, by rw [hres]; exact ho.result⟩

theorem probe_now (es : List ProbeEvent) (ev : ProbeEvent) :
    (Probe.run es).client.api.now ≤ (Probe.run (es ++ [ev])).client.api.now := by
  obtain ⟨_, h⟩ := probe_trace es
  rw [probeRun_snoc]
  by_cases hb : ∃ c, ev = .bytes c
  · obtain ⟨c, rfl⟩ := hb
    exact Nat.le_of_eq (bytes_step h.inv h.buf c).2.2.2.2.2.1.symm
  · exact (quiet_step h.inv ev fun c hc => hb ⟨c, hc⟩).now

theorem _root_.Zcc.Spec.FromPort.init {es : List ProbeEvent} {ev : ProbeEvent} (h : FromPort (es ++ [ev])) : FromPort es :=
  fun a c b he => h a c (b ++ [ev]) (by rw [he, List.append_assoc]; rfl)

theorem sent_output {p : Probe} (hp : PInv p) : probeOutput p = 0xEF :: versionBytes ↔
    p.woken = true ∧ sentIn p.client.api.log = versionBytes := by
  rw [output_eq]
  rcases hp.sent with hs | ⟨hs, hw⟩
  · rw [hs]
    refine ⟨fun h => ?_, fun h => by cases h.2⟩
    split at h <;> cases h
  · rw [hs, hw]
    exact ⟨fun _ => ⟨rfl, rfl⟩, fun _ => rfl⟩

theorem PInv.wrote {p : Probe} (h : PInv p) (hw : PWaits p) : sentIn p.client.api.log = versionBytes := by
  obtain ⟨w1, w2⟩ := hw
  unfold PInv at h
  rw [w1] at h
  obtain ⟨-, -, -, -, ⟨k1, -⟩ | ⟨-, ⟨t0, ha⟩ | ⟨ho, -⟩ | ⟨o, ho, -⟩⟩⟩ := h
  · rw [w2] at k1; cases k1
  · exact ha.sent
  · exact ho.sent
  · exact ho.sent

theorem after_raised (p : Probe) (c : Client Unit) : (p.after c).raised = p.raised := by
  unfold Probe.after
  split <;> rfl

theorem step_raised (p : Probe) {ev : ProbeEvent} (hb : ∀ c, ev ≠ .bytes c) : (p.step ev).raised = p.raised := by
  obtain ⟨client, buffer, pc, port, woken, raised⟩ := p
  cases ev with
  | bytes c => exact absurd rfl (hb c)
  | begin opens d =>
    cases pc with
    | ready =>
      cases opens with
      | none => rfl
      | some e => exact after_raised _ _
    | _ => rfl
  | settled =>
    cases pc with
    | settling t =>
      show (if t ≤ client.api.now then _ else _ : Probe).raised = _
      split
      · exact after_raised _ _
      · rfl
    | _ => rfl
  | go =>
    cases pc with
    | asking => exact after_raised _ _
    | _ => rfl
  | timeout =>
    cases pc with
    | ended o => rfl
    | _ =>
      show (if probeLimit ≤ client.api.now then _ else _ : Probe).raised = _
      split <;> rfl
  | _ => cases pc <;> rfl

/-- While nothing disturbs a probe that has made its request. -/
theorem probe_good {items : List (List UInt8 × Frame)}
    (hi : ∀ p ∈ items, GoodItem p ∧ ∃ o, Obj.fromUnpiFrame (received p.2) = .ok o) (es : List ProbeEvent) :
    ∀ r, (probeChunks es).flatten ++ r = stream items [] → FromPort es → .cancel ∉ es →
    (Probe.run es).client.api.now < 2000 →
    ∃ told rest, items = told ++ rest ∧ SyncIt (Probe.run es).buffer r rest ∧ (Probe.run es).raised = [] ∧
      (sentIn (Probe.run es).client.api.log = versionBytes → PLive (Probe.run es)) ∧
      ∀ a b, es = a ++ b → sentIn (Probe.run a).client.api.log = versionBytes →
        sentIn (Probe.run es).client.api.log = versionBytes ∧
        ((∃ f ∈ (told.map fun q => received q.2).drop (inFirst items (probeChunks a).flatten.length).length,
          VersionAnswer f) → PSure (Probe.run es)) := by
  induction es using snoc_induction with
  | h0 =>
    intro r hr _ _ _
    refine ⟨[], items, rfl, ?_, rfl, fun h => (by cases h), fun a b hab hs => ?_⟩
    · rw [show r = stream items [] from hr]
      exact SyncIt.start items fun p hp => (hi p hp).1
    · obtain ⟨rfl, rfl⟩ := List.append_eq_nil_iff.mp hab.symm
      cases hs
  | hs es ev ih =>
    intro r hr hport hc hn
    have hmono := probe_now es ev
    have hc' : .cancel ∉ es := fun h => hc (List.mem_append_left _ h)
    have hcev : ev ≠ .cancel := fun h => hc (by rw [h]; exact List.mem_append_right _ (.head _))
    have hinv := probe_inv es
    -- the place where the request was written is the end
    have last : ∀ {told rest : List (List UInt8 × Frame)}, items = told ++ rest →
        SyncIt (Probe.run (es ++ [ev])).buffer r rest →
        (told.map fun q => received q.2).drop (inFirst items (probeChunks (es ++ [ev])).flatten.length).length = [] := by
      intro told rest hit hsy
      rw [hit, inFirst_eq hsy (by
        rw [← hit, ← hr, List.length_append])]
      exact List.drop_length
    by_cases hb : ∃ c, ev = .bytes c
    · obtain ⟨c, rfl⟩ := hb
      have hpt := hport es c [] rfl
      obtain ⟨told, rest, k1, k2, k3, k4, k5⟩ := ih (c ++ r) (by
        rw [probeChunks_append, List.flatten_append] at hr
        simpa [probeChunks] using hr) hport.init hc' (by omega)
      obtain ⟨told', rest', g1, g2, g3, g4⟩ := live_bytes hinv hpt (by omega) c r
        (fun p hp => (hi p (by rw [k1]; exact List.mem_append_right _ hp)).2) k2
      obtain ⟨_, htr⟩ := probe_trace es
      obtain ⟨b1, b2, b3, b4, b5, b6, -⟩ := bytes_step hinv htr.buf c
      rw [← probeRun_snoc] at g2 g3 g4 b1 b2 b3 b4 b5 b6
      have hsent : sentIn (Probe.run (es ++ [.bytes c])).client.api.log = sentIn (Probe.run es).client.api.log :=
        b5.2
      have hnot : sentIn (Probe.run es).client.api.log = versionBytes → PWaits (Probe.run es) := by
        intro hs
        rcases k4 hs with h | h
        · exact h
        · have hx := hinv
          unfold PInv at hx
          rw [h] at hx
          rcases hx.2 with hf | hf
          · rw [hf.sent] at hs; cases hs
          · rw [hf.2.2] at hpt; cases hpt
      have hit : items = (told ++ told') ++ rest' := by rw [k1, g1, List.append_assoc]
      refine ⟨told ++ told', rest', hit, g2, g3.trans k3, fun hs => .inl (g4 (hnot (hsent ▸ hs))).1,
        fun a b hab hs => ?_⟩
      rcases List.eq_nil_or_concat b with rfl | ⟨b', y, rfl⟩
      · rw [List.append_nil] at hab
        subst hab
        refine ⟨hs, fun hx => ?_⟩
        obtain ⟨f, hf, -⟩ := hx
        rw [last hit g2] at hf
        cases hf
      · rw [List.concat_eq_append, ← List.append_assoc] at hab
        obtain ⟨hab, -⟩ := List.append_inj' hab rfl
        obtain ⟨m1, m2⟩ := k5 a b' hab hs
        refine ⟨hsent.trans m1, fun hx => ?_⟩
        obtain ⟨f, hf, hv⟩ := hx
        have hw := hnot m1
        refine .inl ⟨(g4 hw).1, (g4 hw).2 ?_⟩
        rw [List.map_append, List.drop_append] at hf
        rcases List.mem_append.mp hf with hf | hf
        · rcases m2 ⟨f, hf, hv⟩ with ⟨-, h⟩ | h
          · exact .inl h
          · rw [hw.1] at h; cases h
        · obtain ⟨q, hq, rfl⟩ := List.mem_map.mp (List.mem_of_mem_drop hf)
          exact .inr ⟨q, hq, hv⟩
    · have hb' : ∀ c, ev ≠ .bytes c := fun c h => hb ⟨c, h⟩
      have hch : probeChunks (es ++ [ev]) = probeChunks es := by
        rw [probeChunks_append, chunks_one hb', List.append_nil]
      obtain ⟨told, rest, k1, k2, k3, k4, k5⟩ := ih r (by rw [← hch]; exact hr) hport.init hc' (by omega)
      have hq := quiet_step hinv ev hb'
      have hl := live_step hinv ev hb' hcev (by omega)
      rw [← probeRun_snoc] at hq hl
      have hra : (Probe.run (es ++ [ev])).raised = (Probe.run es).raised := by
        rw [probeRun_snoc]
        exact step_raised _ hb'
      have hbk : PLive (Probe.run es) ∨ PWaits (Probe.run (es ++ [ev])) → PLive (Probe.run (es ++ [ev])) := by
        rintro (h | h)
        · exact (hl h).1
        · exact .inl h
      have hsy : SyncIt (Probe.run (es ++ [ev])).buffer r rest := by rw [hq.buffer]; exact k2
      have hkeep : sentIn (Probe.run es).client.api.log = versionBytes →
          sentIn (Probe.run (es ++ [ev])).client.api.log = versionBytes := by
        intro h
        rcases hq.wrote with hx | hx
        · rw [hx]; exact h
        · exact hq.inv.wrote hx
      refine ⟨told, rest, k1, hsy, hra.trans k3, fun hs => hbk ?_, fun a b hab hs => ?_⟩
      · rcases hq.wrote with hx | hx
        · exact .inl (k4 (hx ▸ hs))
        · exact .inr hx
      · rcases List.eq_nil_or_concat b with rfl | ⟨b', y, rfl⟩
        · rw [List.append_nil] at hab
          subst hab
          refine ⟨hs, fun hx => ?_⟩
          obtain ⟨f, hf, -⟩ := hx
          rw [last k1 hsy] at hf
          cases hf
        · rw [List.concat_eq_append, ← List.append_assoc] at hab
          obtain ⟨hab, -⟩ := List.append_inj' hab rfl
          obtain ⟨m1, m2⟩ := k5 a b' hab hs
          exact ⟨hkeep m1, fun hx => (hl (k4 m1)).2 (m2 hx)⟩

/-! ## The order of things -/

theorem after_fields (p : Probe) (c : Client Unit) : (p.after c).woken = p.woken ∧
    ((p.after c).pc = p.pc ∨ ∃ o, (p.after c).pc = .ended o) := by
  unfold Probe.after
  split
  · exact ⟨rfl, .inl rfl⟩
  · exact ⟨rfl, .inr ⟨_, rfl⟩⟩
  · exact ⟨rfl, .inr ⟨_, rfl⟩⟩

theorem step_woken (p : Probe) (ev : ProbeEvent) :
    (p.step ev).woken = p.woken ∨ ev = .made ∧ p.pc = .opening ∧ (p.step ev).woken = true ∧
      (p.step ev).client = p.client := by
  obtain ⟨client, buffer, pc, port, woken, raised⟩ := p
  cases ev with
  | bytes c =>
    left
    show (if _ then _ else _ : Probe).woken = _
    split <;> rfl
  | begin opens d =>
    cases pc with
    | ready =>
      cases opens with
      | none => exact .inl rfl
      | some e => exact .inl (after_fields _ _).1
    | _ => exact .inl rfl
  | made =>
    cases pc with
    | opening => exact .inr ⟨rfl, rfl, rfl, rfl⟩
    | _ => exact .inl rfl
  | settled =>
    cases pc with
    | settling t =>
      left
      show (if t ≤ client.api.now then _ else _ : Probe).woken = _
      split
      · exact (after_fields _ _).1
      · rfl
    | _ => exact .inl rfl
  | go =>
    cases pc with
    | asking => exact .inl (after_fields _ _).1
    | _ => exact .inl rfl
  | timeout =>
    cases pc with
    | ended o => exact .inl rfl
    | _ =>
      left
      show (if probeLimit ≤ client.api.now then _ else _ : Probe).woken = _
      split <;> rfl
  | _ => left; cases pc <;> rfl

theorem step_settling {p : Probe} {ev : ProbeEvent} {t : Nat} (h : (p.step ev).pc = .settling t) :
    p.pc = .settling t ∨ ev = .made ∧ p.pc = .opening ∧ t = p.client.api.now + 1000 := by
  obtain ⟨client, buffer, pc, port, woken, raised⟩ := p
  cases ev with
  | bytes c =>
    left
    have : (if port = true then _ else _ : Probe).pc = .settling t := h
    split at this <;> exact this
  | begin opens d =>
    cases pc with
    | ready =>
      cases opens with
      | none => cases h
      | some e =>
        have h : (Probe.after _ _).pc = .settling t := h
        rcases (after_fields _ _).2 with hx | ⟨o, hx⟩
        · rw [hx] at h; cases h
        · rw [hx] at h; cases h
    | _ => exact .inl h
  | made =>
    cases pc with
    | opening => cases h; exact .inr ⟨rfl, rfl, rfl⟩
    | _ => exact .inl h
  | settled =>
    cases pc with
    | settling t' =>
      have h : (if t' ≤ client.api.now then _ else _ : Probe).pc = .settling t := h
      split at h
      · rcases (after_fields _ _).2 with hx | ⟨o, hx⟩
        · rw [hx] at h; cases h
        · rw [hx] at h; cases h
      · exact .inl h
    | _ => exact .inl h
  | go =>
    cases pc with
    | asking =>
      have h : (Probe.after _ _).pc = .settling t := h
      rcases (after_fields _ _).2 with hx | ⟨o, hx⟩
      · rw [hx] at h; cases h
      · rw [hx] at h; cases h
    | _ => exact .inl h
  | timeout =>
    cases pc with
    | ended o => exact .inl h
    | settling t' =>
      have h : (if probeLimit ≤ client.api.now then _ else _ : Probe).pc = .settling t := h
      split at h
      · cases h
      · exact .inl h
    | _ =>
      have h : (if probeLimit ≤ client.api.now then _ else _ : Probe).pc = .settling t := h
      split at h <;> cases h
  | _ =>
    cases pc with
    | settling t' => first | exact .inl h | cases h
    | _ => cases h

theorem step_asking {p : Probe} {ev : ProbeEvent} (h : (p.step ev).pc = .asking) :
    p.pc = .asking ∨ ∃ t, p.pc = .settling t ∧ t ≤ p.client.api.now := by
  obtain ⟨client, buffer, pc, port, woken, raised⟩ := p
  cases ev with
  | bytes c =>
    left
    have : (if port = true then _ else _ : Probe).pc = .asking := h
    split at this <;> exact this
  | begin opens d =>
    cases pc with
    | ready =>
      cases opens with
      | none => cases h
      | some e =>
        have h : (Probe.after _ _).pc = .asking := h
        rcases (after_fields _ _).2 with hx | ⟨o, hx⟩
        · rw [hx] at h; cases h
        · rw [hx] at h; cases h
    | _ => exact .inl h
  | made =>
    cases pc with
    | opening => cases h
    | _ => exact .inl h
  | settled =>
    cases pc with
    | settling t' =>
      have h : (if t' ≤ client.api.now then _ else _ : Probe).pc = .asking := h
      split at h
      · rename_i ht
        exact .inr ⟨t', rfl, ht⟩
      · cases h
    | _ => exact .inl h
  | go =>
    cases pc with
    | asking => exact .inl rfl
    | _ => exact .inl h
  | timeout =>
    cases pc with
    | ended o => exact .inl h
    | asking => exact .inl rfl
    | _ =>
      have h : (if probeLimit ≤ client.api.now then _ else _ : Probe).pc = .asking := h
      split at h <;> cases h
  | _ =>
    cases pc with
    | asking => exact .inl rfl
    | _ => cases h

/-- A second passes between the wake-up byte and the request. -/
theorem probe_pause (es : List ProbeEvent) : (Probe.run es).woken = true →
    ∃ a b, es = a ++ .made :: b ∧ probeOutput (Probe.run a) = [] ∧ probeOutput (Probe.run (a ++ [.made])) = [0xEF] ∧
      (∀ t, (Probe.run es).pc = .settling t → t = (Probe.run a).client.api.now + 1000) ∧
      ((Probe.run es).pc = .asking ∨ sentIn (Probe.run es).client.api.log = versionBytes →
        (Probe.run a).client.api.now + 1000 ≤ (Probe.run es).client.api.now) := by
  induction es using snoc_induction with
  | h0 => intro h; cases h
  | hs es ev ih =>
    intro hw
    have hinv := probe_inv es
    have hmono := probe_now es ev
    rw [probeRun_snoc] at hw hmono
    rcases step_woken (Probe.run es) ev with hs | ⟨rfl, hpc, hs, hcl⟩
    · obtain ⟨a, b, k1, k2, k3, k4, k5⟩ := ih (hs ▸ hw)
      refine ⟨a, b ++ [ev], by rw [k1, List.append_assoc]; rfl, k2, k3, fun t ht => ?_, fun hx => ?_⟩
      · rw [probeRun_snoc] at ht
        rcases step_settling ht with hx | ⟨-, hx, -⟩
        · exact k4 t hx
        · have hi := hinv
          unfold PInv at hi
          rw [hx] at hi
          rw [hs, hi.2.2.2.2] at hw
          cases hw
      · rw [probeRun_snoc] at hx ⊢
        have key : (Probe.run es).pc = .asking ∨ sentIn (Probe.run es).client.api.log = versionBytes ∨
            ∃ t, (Probe.run es).pc = .settling t ∧ t ≤ (Probe.run es).client.api.now := by
          have ask : ((Probe.run es).step ev).pc = .asking → (Probe.run es).pc = .asking ∨
              sentIn (Probe.run es).client.api.log = versionBytes ∨
              ∃ t, (Probe.run es).pc = .settling t ∧ t ≤ (Probe.run es).client.api.now := fun h => by
            rcases step_asking h with h | h
            · exact .inl h
            · exact .inr (.inr h)
          rcases hx with hx | hx
          · exact ask hx
          · by_cases hb : ∃ c, ev = .bytes c
            · obtain ⟨c, rfl⟩ := hb
              obtain ⟨_, htr⟩ := probe_trace es
              exact .inr (.inl ((bytes_step hinv htr.buf c).2.2.2.2.1.2 ▸ hx))
            · rcases (quiet_step hinv ev fun c hc => hb ⟨c, hc⟩).wrote with h | h
              · exact .inr (.inl (h ▸ hx))
              · exact ask h.1
        rcases key with h | h | ⟨t, h1, h2⟩
        · exact Nat.le_trans (k5 (.inl h)) hmono
        · exact Nat.le_trans (k5 (.inr h)) hmono
        · have := k4 t h1
          omega
    · have hi := hinv
      unfold PInv at hi
      rw [hpc] at hi
      refine ⟨es, [], rfl, ?_, ?_, fun t ht => ?_, fun hx => ?_⟩
      · rw [output_eq, hi.2.2.2.2, hi.2.1.sent]
        rfl
      · rw [probeRun_snoc, output_eq, hs, hcl, hi.2.1.sent]
        rfl
      · rw [probeRun_snoc] at ht
        rcases step_settling ht with hx | ⟨-, -, hx⟩
        · rw [hpc] at hx; cases hx
        · exact hx
      · exfalso
        rw [probeRun_snoc] at hx
        rcases hx with hx | hx
        · rcases step_asking hx with h | ⟨t, h, -⟩
          · rw [hpc] at h; cases h
          · rw [hpc] at h; cases h
        · rw [hcl, hi.2.1.sent] at hx
          cases hx

/-- Nothing is written after the end. -/
theorem ended_output {p : Probe} (hp : PInv p) (hb : BufInv p.buffer) {o : Conn.Outcome} (h : p.pc = .ended o)
    (ev : ProbeEvent) : probeOutput (p.step ev) = probeOutput p := by
  have h1 : (p.step ev).woken = p.woken := by
    rcases step_woken p ev with hx | ⟨-, hx, -⟩
    · exact hx
    · rw [h] at hx; cases hx
  have h2 : sentIn (p.step ev).client.api.log = sentIn p.client.api.log := by
    by_cases hb' : ∃ c, ev = .bytes c
    · obtain ⟨c, rfl⟩ := hb'
      exact (bytes_step hp hb c).2.2.2.2.1.2
    · rcases (quiet_step hp ev fun c hc => hb' ⟨c, hc⟩).wrote with hx | hx
      · exact hx
      · have := ended_stays h ev
        rw [hx.1] at this
        cases this
  rw [output_eq, output_eq, h1, h2]

/-- The answer is there: `version` goes on. -/
theorem sure_goes {p : Probe} (h : PInv p) (hs : PSure p) : ((p.step .wake).step .go).pc = .ended (.returned true) := by
  rcases hs with ⟨⟨w1, w2⟩, hg⟩ | he
  · obtain ⟨client, buffer, pc, port, woken, raised⟩ := p
    dsimp only at w1 w2 hg
    subst w1
    obtain ⟨h1, h2, h3, h4, hh⟩ := h
    dsimp only at h1 h2 h3 h4 hh
    have hov : ∃ o, POver (.ok (some o)) (client.api.step (.wake 0)) := by
      rcases hh with ⟨k1, -⟩ | ⟨-, ⟨t0, ha⟩ | ⟨ho, -⟩ | ⟨o, ho, -⟩⟩
      · rw [w2] at k1; cases k1
      · rcases ha.wake with ⟨o, f, hf, hd, hv, ho⟩ | ⟨hf, -⟩
        · exact ⟨o, ho⟩
        · rcases hg with ⟨-, o, hx⟩ | ⟨o, hx⟩
          · rw [hf] at hx; cases hx
          · rw [ha.result] at hx; cases hx
      · rcases hg with ⟨hx, -⟩ | ⟨o, hx⟩
        · rw [ho.result] at hx; cases hx
        · rw [ho.result] at hx; cases hx
      · exact ⟨o, by rw [ho.wake]; exact ho⟩
    obtain ⟨o, ho⟩ := hov
    obtain ⟨g1, g2⟩ := probe_goes (c := client.step (.api (.wake 0))) h1 w2 ho.result
    have hst : Probe.step (Probe.step ⟨client, buffer, .asking, port, woken, raised⟩ .wake) .go =
        Probe.finish ⟨(client.step (.api (.wake 0))).step .go, buffer, .asking, port, woken, raised⟩ (.returned true) :=
      after_ret g2
    rw [hst]
    rfl
  · exact ended_stays (ended_stays he _) _

end Zcc
