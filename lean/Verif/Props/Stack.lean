import Verif.Proofs.StackTime
import Verif.Props.Handling

/-!
# From the serial port to zigpy: C61, C62

`Verif/Props/Framing.lean` speaks about bytes and frames, `Verif/Props/Runtime.lean` about frames
and the API, `Verif/Props/App.lean` about one message and zigpy. Here a connection is taken as a
whole: bytes arrive in chunks, while calls are made, time passes and timers fire.
-/

namespace Zcc

open Spec

/-- A connection whose application is `app`. -/
def connection (app : App) : Stack := { app }

theorem connection_healthy {app : App} (hp : app.product ≠ none) (hd : DistinctIeee app.devices) :
    Healthy (connection app) :=
  ⟨⟨[], rfl, (by intro m to q h; simp at h), (by intro o n h; simp at h), (by intro m to q h; simp at h)⟩,
    hp, hd⟩

theorem proper_data {i : Item} (h : i.Proper) : Fits i.frame ∧ i.frame.data ≠ [] := by
  cases i with
  | report m tr =>
    refine ⟨h, fun hd => ?_⟩
    have := congrArg List.length hd
    simp [Item.frame, AppMessage.frame, Frame.of, le16] at this
  | reportExt m mode addr panId =>
    refine ⟨h.1, fun hd => ?_⟩
    have := congrArg List.length hd
    simp [Item.frame, AppMessage.frameExt, Frame.of, le16] at this
  | announce src nwk ieee caps tr =>
    refine ⟨h.1, fun hd => ?_⟩
    have := congrArg List.length hd
    simp [Item.frame, announcement, Frame.of, le16] at this
  | other f => exact ⟨h.1, h.2.1⟩

/-! ## C61 -/

/-- **C61 (partial).** After any history of the connection that left no half-received frame behind:
if the radio sends messages, in any chunks, with noise between them, while anything else happens in
the API, then nothing raises, all of the messages and only they reach the API in their order, and
zigpy is told about each of them in order what there is to tell.
Missing: messages that cannot be handled (see `c61_refuted`) and frames without data, which wait for
the next byte (C06). -/
theorem c61_story_partial (app : App) (hp : app.product ≠ none) (hd : DistinctIeee app.devices)
    (es0 es : List StackEvent) (hreg : StartupWaiters (others (es0 ++ es)))
    (hb : ByteSequences (others (es0 ++ es)))
    (hbuf : ((connection app).run es0).buffer = [])
    (items : List (List UInt8 × Item)) (tail : List UInt8)
    (hi : ∀ p ∈ items, Noise p.1 ∧ p.2.Proper) (ht : Noise tail)
    (ha : arrived es = onWire items tail) :
    let s := (connection app).run es0
    let s' := (connection app).run (es0 ++ es)
    s'.buffer = [] ∧ s'.raised = s.raised ∧
    (∃ told, s'.effects = s.effects ++ told ∧
      Story s.app.devices (items.map (·.2)) told s'.app.devices) ∧
    ∃ groups : List (List Item), groups.flatten = items.map (·.2) ∧ groups.length = chunks es ∧
      s'.api = s.api.run (weave es groups) := by
  rw [others_append] at hreg hb
  have h0 := run_any es0 (connection app) (connection_healthy hp hd)
    (fun m to q h => hreg m to q (List.mem_append_left _ h))
    ⟨fun o n h => hb.1 o n (List.mem_append_left _ h), fun m to q h => hb.2 m to q (List.mem_append_left _ h)⟩
  dsimp only
  rw [stack_run_append]
  refine run_handled es _ (items.map (·.2)) h0 ?_
    (fun m to q h => hreg m to q (List.mem_append_right _ h))
    ⟨fun o n h => hb.1 o n (List.mem_append_right _ h), fun m to q h => hb.2 m to q (List.mem_append_right _ h)⟩ ?_
  · intro i him
    obtain ⟨p, hpm, rfl⟩ := List.mem_map.mp him
    exact (hi p hpm).2
  · rw [hbuf, ha]
    have := Sync.idle (items.map fun p => (p.1, p.2.frame)) tail (by
      intro q hq
      obtain ⟨p, hpm, rfl⟩ := List.mem_map.mp hq
      exact ⟨(hi p hpm).1, proper_data (hi p hpm).2⟩) ht
    rw [List.map_map] at this ⊢
    have hs : stream (items.map fun p => (p.1, p.2.frame)) tail = onWire items tail := by
      unfold stream onWire
      rw [List.flatMap_map]
    rw [hs] at this
    exact this

/-- A story of reports of known devices only. -/
theorem story_reports {ds ds' : List Device} {told : List Effect}
    (msgs : List (Device × AppMessage × List UInt8)) :
    (∀ x ∈ msgs, FirstWithNwk ds x.2.1.src.toNat x.1) →
    Story ds (msgs.map fun x => .report x.2.1 x.2.2) told ds' →
    ds' = ds ∧ told = msgs.flatMap (fun x => handOver x.1 x.2.1.lqi.toNat x.2.1.cluster.toNat
      x.2.1.srcEp.toNat x.2.1.dstEp.toNat x.2.1.data) := by
  induction msgs generalizing told with
  | nil => intro _ h; cases h; exact ⟨rfl, rfl⟩
  | cons x msgs ih =>
    intro hk h
    have hx := hk x (.head _)
    cases h with
    | known _ _ _ d hd rest es _ h =>
      obtain ⟨h1, h2⟩ := ih (fun y hy => hk y (.tail _ hy)) h
      refine ⟨h1, ?_⟩
      have hdx : d = x.1 := by
        obtain ⟨a, b, e1, e2, e3⟩ := hd
        obtain ⟨a', b', e1', e2', e3'⟩ := hx
        rw [e1] at e1'
        rcases List.append_eq_append_iff.mp e1' with ⟨c, h1, h2⟩ | ⟨c, h1, h2⟩
        · cases c with
          | nil => simp at h2; exact h2.1
          | cons y c =>
            simp at h2
            exact absurd e2 (e3' d (by rw [h1, h2.1]; simp))
        · cases c with
          | nil => simp at h2; exact h2.1.symm
          | cons y c =>
            simp at h2
            exact absurd e2' (e3 x.1 (by rw [h1, h2.1]; simp))
      rw [h2, hdx]; rfl
    | unknown _ _ _ hd rest es _ h =>
      obtain ⟨a, b, e1, e2, _⟩ := hx
      exact absurd e2 (hd x.1 (by rw [e1]; simp))

/-- C61 for application messages of known devices: zigpy gets exactly the messages that were sent, in
their order, each once and with its own device, endpoints, cluster and data. -/
theorem c61_reports (app : App) (hp : app.product ≠ none) (hd : DistinctIeee app.devices)
    (es : List StackEvent) (hreg : StartupWaiters (others es)) (hb : ByteSequences (others es))
    (msgs : List (Device × AppMessage × List UInt8)) (noise tail : List UInt8)
    (hn : Noise noise) (ht : Noise tail)
    (hk : ∀ x ∈ msgs, FirstWithNwk app.devices x.2.1.src.toNat x.1 ∧ Fits (x.2.1.frame x.2.2))
    (ha : arrived es = onWire (msgs.map fun x => (noise, .report x.2.1 x.2.2)) tail) :
    ((connection app).run es).effects = msgs.flatMap (fun x => handOver x.1 x.2.1.lqi.toNat
      x.2.1.cluster.toNat x.2.1.srcEp.toNat x.2.1.dstEp.toNat x.2.1.data) ∧
    ((connection app).run es).app.devices = app.devices := by
  obtain ⟨-, -, ⟨told, h1, h2⟩, -⟩ := c61_story_partial app hp hd [] es hreg hb rfl
    (msgs.map fun x => (noise, .report x.2.1 x.2.2)) tail (by
      intro p hpm
      obtain ⟨x, hx, rfl⟩ := List.mem_map.mp hpm
      exact ⟨hn, (hk x hx).2⟩) ht ha
  rw [List.map_map] at h2
  obtain ⟨h3, h4⟩ := story_reports msgs (fun x hx => (hk x hx).1) h2
  rw [h4] at h1
  exact ⟨h1, h3⟩

/-- A message that makes the receiver raise takes with it the rest of its chunk, but no more: the
connection is ready for the next chunk. -/
theorem c61_raises (s : Stack) (hbuf : s.buffer = []) (f : Frame) (hf : Fits f) (hd : f.data ≠ [])
    (e : PyErr) (hr : (receive s.api s.app (received f)).2.raised = some e) (rest : List UInt8) :
    (s.step (.bytes (wire f ++ rest))).buffer = [] ∧
    (s.step (.bytes (wire f ++ rest))).raised = s.raised ++ [e] ∧
    (s.step (.bytes (wire f ++ rest))).api = s.api.step (.frame (received f)) ∧
    (s.step (.bytes (wire f ++ rest))).app = (receive s.api s.app (received f)).2.app ∧
    (s.step (.bytes (wire f ++ rest))).effects =
      s.effects ++ (receive s.api s.app (received f)).2.effects := by
  have hh : Stack.handler (s.api, s.app, s.effects) (received f) =
      (((receive s.api s.app (received f)).1, (receive s.api s.app (received f)).2.app,
        s.effects ++ (receive s.api s.app (received f)).2.effects), some e) := by
    unfold Stack.handler
    dsimp only
    rw [hr]
  have h1 := (c06_prompt_partial Stack.handler (s.api, s.app, s.effects) f hf hd).2
  rw [hh] at h1
  obtain ⟨a, b, ignored, g1, h2, h3, h4⟩ := c02_damage_confined _ _ _ _ _ h1
  have hlast : ignored = [] := by
    apply Decidable.byContradiction
    intro hne
    have hw : wire f = (a ++ [b]) ++ ignored := by rw [h2]; simp
    have h5 := (c06_prompt_partial Stack.handler (s.api, s.app, s.effects) f hf hd).1 _ _ hw hne
    have h6 := h4 []
    have h7 : Gateway.dataReceived Stack.handler ⟨[], (s.api, s.app, s.effects)⟩ (a ++ [b]) =
        Gateway.dataReceived Stack.handler g1 [b] := by
      rw [dr_append, h3]
    rw [h7, h6] at h5
    simp at h5
  subst hlast
  have h8 : Gateway.dataReceived Stack.handler ⟨[], (s.api, s.app, s.effects)⟩ (wire f ++ rest) =
      (⟨[], ((receive s.api s.app (received f)).1, (receive s.api s.app (received f)).2.app,
        s.effects ++ (receive s.api s.app (received f)).2.effects)⟩, some e) := by
    rw [h2, List.append_assoc, dr_append, h3]
    exact h4 _
  unfold Stack.step
  rw [hbuf]
  dsimp only
  rw [h8]
  exact ⟨rfl, rfl, receive_api _ _ _, rfl, rfl⟩

/-- A report of a known device, a version response, and the announcement of a new device. -/
def exItems : List (List UInt8 × Item) :=
  [([0, 7], .report exMessage []), ([], .other exVersionRsp),
   ([1], .announce 0x2222 0x2222 [9, 9, 9, 9, 9, 9, 9, 9] 0x8E [])]

theorem exItems_proper : ∀ p ∈ exItems, Noise p.1 ∧ p.2.Proper := by
  intro p hp
  simp only [exItems, List.mem_cons, List.not_mem_nil, or_false] at hp
  rcases hp with rfl | rfl | rfl
  · exact ⟨by decide, by show Fits _; decide +kernel⟩
  · refine ⟨by decide, by decide, by decide, ?_, by decide, by decide⟩
    have : (Obj.fromUnpiFrame exVersionRsp).toOption.isSome = true := by decide +kernel
    rcases h : Obj.fromUnpiFrame exVersionRsp with e | o
    · rw [h] at this; cases this
    · exact ⟨o, h, fun h => by cases h⟩
  · exact ⟨by decide, by show Fits _; decide +kernel, rfl⟩

/-- They arrive in three chunks, cut somewhere, after a request was written; time passes between. -/
def exEvents : List StackEvent :=
  [.api (.setUart true), .api (.submit exVersion none none),
   .bytes ((onWire exItems [5]).take 11), .api (.tick 20), .bytes (((onWire exItems [5]).drop 11).take 30),
   .bytes ((onWire exItems [5]).drop 41), .api (.wake 0)]

theorem exEvents_arrived : arrived exEvents = onWire exItems [5] := by decide +kernel

example : Story exApp.devices (exItems.map (·.2)) ((connection exApp).run exEvents).effects
    ((connection exApp).run exEvents).app.devices := by
  obtain ⟨-, -, ⟨told, h1, h2⟩, -⟩ := c61_story_partial exApp (by decide) (by decide) [] exEvents
    (by intro m to q h; simp [exEvents, others] at h)
    ⟨by intro o n h; simp [exEvents, others] at h, by intro m to q h; simp [exEvents, others] at h⟩ rfl
    exItems [5] exItems_proper (by decide) exEvents_arrived
  have h1 : ((connection exApp).run exEvents).effects = told := h1
  rw [h1]; exact h2

/-- The request of that execution has got its response. -/
example : ∃ r, .finished 0 (.ok (some r)) ∈ ((connection exApp).run exEvents).api.log ∧
    r.commandType = .SRSP := by
  refine ⟨⟨.SRSP, .SYS, "version", 2, [("transportrev", .int 2), ("product", .int 1), ("majorrel", .int 2),
    ("minorrel", .int 7), ("maintrel", .int 1), ("revision", .int 0)],
    [("transportrev", .UINT8), ("product", .UINT8), ("majorrel", .UINT8),
              ("minorrel", .UINT8), ("maintrel", .UINT8), ("revision", .UINT32)], none⟩, ?_, rfl⟩
  decide +kernel

example : ((connection exApp).run [.bytes (onWire [([], .report exMessage []),
    ([], .report exMessage [])] [])]).effects.length = 4 := by
  obtain ⟨h, -⟩ := c61_reports exApp (by decide) (by decide) [.bytes (onWire [([], .report exMessage []),
      ([], .report exMessage [])] [])] (by intro m to q h; simp [others] at h)
    ⟨by intro o n h; simp [others] at h, by intro m to q h; simp [others] at h⟩
    [(⟨[2, 2, 2, 2, 2, 2, 2, 2], 0x1234⟩, exMessage, []), (⟨[2, 2, 2, 2, 2, 2, 2, 2], 0x1234⟩, exMessage, [])]
    [] [] (by decide) (by decide) (by
      have key : FirstWithNwk exApp.devices exMessage.src.toNat ⟨[2, 2, 2, 2, 2, 2, 2, 2], 0x1234⟩ :=
        ⟨[⟨[1, 1, 1, 1, 1, 1, 1, 1], 0x1111⟩], [⟨[3, 3, 3, 3, 3, 3, 3, 3], 0x1234⟩], rfl, rfl, by decide⟩
      have hf : Fits (exMessage.frame []) := by decide +kernel
      intro x hx
      simp only [List.mem_cons, List.not_mem_nil, or_false, or_self] at hx
      subst hx
      exact ⟨key, hf⟩) rfl
  rw [h]; rfl

/-- An orphan indication of the MAC layer; it decodes, but it cannot be encoded again (C56). -/
def orphanInd : Frame := Frame.of .AREQ .MAC 0x8A (List.replicate 19 0)

example : (receive Api.init exApp (received orphanInd)).2.raised = some .todo := by decide +kernel

/-- **C61 (refuted).** A message of a known device is lost if in the same chunk an indication of the MAC
layer comes before it, although both frames are intact and decode. -/
theorem c61_refuted : ¬ ∀ (app : App) (f : Frame) (m : AppMessage) (d : Device), app.product ≠ none →
    Fits f → f.data ≠ [] → (∃ o, Obj.fromUnpiFrame f = .ok o) → Fits (m.frame []) →
    FirstWithNwk app.devices m.src.toNat d →
    ∃ x y, ((connection app).run [.bytes (wire f ++ wire (m.frame []))]).effects =
      x ++ handOver d m.lqi.toNat m.cluster.toNat m.srcEp.toNat m.dstEp.toNat m.data ++ y := by
  intro h
  have key : ((connection exApp).run [.bytes (wire orphanInd ++ wire (exMessage.frame []))]).effects = [] ∧
      (Obj.fromUnpiFrame orphanInd).toOption.isSome = true := by decide +kernel
  have ho : ∃ o, Obj.fromUnpiFrame orphanInd = .ok o := by
    rcases h : Obj.fromUnpiFrame orphanInd with e | o
    · rw [h] at key; cases key.2
    · exact ⟨o, rfl⟩
  obtain ⟨x, y, hxy⟩ := h exApp orphanInd exMessage ⟨[2, 2, 2, 2, 2, 2, 2, 2], 0x1234⟩ (by decide) (by decide)
    (by decide) ho (by decide +kernel)
    ⟨[⟨[1, 1, 1, 1, 1, 1, 1, 1], 0x1111⟩], [⟨[3, 3, 3, 3, 3, 3, 3, 3], 0x1234⟩], rfl, rfl, by decide⟩
  rw [key.1] at hxy
  have := congrArg List.length hxy
  simp [handOver] at this

/-! ## C62 -/

/-- **C62 (partial).** A response whose bytes have arrived before the time limit is over is never lost. If a
request waits with time limit `d`, and the messages that arrive, in any chunks and with noise between
them, contain its response, and all this happened before `d`, then whatever happens later, the
request does not end with a timeout.
Missing: messages that cannot be handled, see `c62_refuted`. -/
theorem c62_in_time_partial (app : App) (hp : app.product ≠ none) (hd : DistinctIeee app.devices)
    (es0 es es' : List StackEvent)
    (hreg : ∀ m to q, .register m to q ∈ others (es0 ++ es) → StartupMatcher m ∧ q = none)
    (hb : ByteSequences (others (es0 ++ es)))
    (hbuf : ((connection app).run es0).buffer = [])
    (items : List (List UInt8 × Item)) (tail : List UInt8)
    (hi : ∀ p ∈ items, Noise p.1 ∧ p.2.Proper) (ht : Noise tail)
    (ha : arrived es = onWire items tail)
    (t w d : Nat) (k : Task) (hk : ((connection app).run es0).api.tasks t = some k)
    (hpc : k.pc = .waiting w d)
    (n : List UInt8) (i : Item) (him : (n, i) ∈ items) (rsp : Obj)
    (hrsp : Obj.fromUnpiFrame i.frame = .ok rsp) (haw : AwaitedBy k.obj rsp)
    (hnow : ((connection app).run (es0 ++ es)).api.now < d) :
    .finished t (.error .timeoutError) ∉ ((connection app).run (es0 ++ es ++ es')).api.log := by
  have hsw : StartupWaiters (others (es0 ++ es)) := fun m to q h => (hreg m to q h).1
  obtain ⟨-, -, -, groups, hg, hl, hapi⟩ := c61_story_partial app hp hd es0 es hsw hb hbuf items tail hi ht ha
  obtain ⟨h0, hh0, hreg0⟩ := run_registers es0 (connection app)
  have hh0 : ((connection app).run es0).api = Api.init.run h0 := hh0
  obtain ⟨h1, hh1⟩ := run_api es' ((connection app).run (es0 ++ es))
  have hmem := weave_mem es groups _ hg hl i (List.mem_map.mpr ⟨_, him, rfl⟩)
  obtain ⟨a, b, hab⟩ := List.append_of_mem hmem
  rw [stack_run_append, hh1, hapi, hh0, hab]
  rw [hapi, hh0, hab] at hnow
  rw [hh0] at hk
  have i0 := inv_run h0
  rw [api_run_append] at hnow
  have hna : ((Api.init.run h0).run a).now < d :=
    Nat.lt_of_le_of_lt (grows_run _ _).now hnow
  rcases waiting_run a _ i0 t k w d hk hpc hna with hw | ⟨r, hr, hne⟩
  · have key := c54_in_time (h0 ++ a) (b ++ h1) (received i.frame) rsp t w d k ?_ (by rw [api_run_append]; exact hw)
      hpc (by rw [api_run_append]; omega) hrsp haw
    · have e : h0 ++ a ++ [.frame (received i.frame)] ++ (b ++ h1) =
          h0 ++ (a ++ .frame (received i.frame) :: b ++ h1) := by simp
      rw [e] at key
      rw [← api_run_append, ← api_run_append]
      exact key
    · intro m to q hm
      rcases List.mem_append.mp hm with hm | hm
      · exact hreg m to q (by rw [others_append]; exact List.mem_append_left _ (hreg0 m to q hm))
      · refine hreg m to q (by
          rw [others_append]
          refine List.mem_append_right _ (weave_register es groups m to q ?_)
          rw [hab]; exact List.mem_append_left _ hm)
  · have i1 := inv_run_from i0 a
    have := done_kept i1 hr rfl (.frame (received i.frame) :: b ++ h1)
    intro hm
    refine hne (this.2 _ ?_).symm
    rw [← api_run_append, ← api_run_append] at hm
    rw [← api_run_append, ← api_run_append]
    simpa using hm

/-- The request of `exEvents`: the three messages arrive while it waits. -/
example (es' : List StackEvent) : .finished 0 (.error .timeoutError) ∉
    ((connection exApp).run (exEvents.take 2 ++ exEvents.drop 2 ++ es')).api.log := by
  have hrsp : ∃ rsp, Obj.fromUnpiFrame exVersionRsp = .ok rsp ∧ AwaitedBy exVersion rsp := by
    have key : (match Obj.fromUnpiFrame exVersionRsp with
      | .ok o => decide (o.commandType = .SRSP ∧ o.subsystem = .SYS ∧ o.command = "version")
      | _ => false) = true := by decide +kernel
    rcases h : Obj.fromUnpiFrame exVersionRsp with e | o
    · rw [h] at key; cases key
    · rw [h] at key
      have key : o.commandType = .SRSP ∧ o.subsystem = .SYS ∧ o.command = "version" := of_decide_eq_true key
      exact ⟨o, rfl, .inl ⟨rfl, key⟩⟩
  obtain ⟨rsp, h1, h2⟩ := hrsp
  exact c62_in_time_partial exApp (by decide) (by decide) (exEvents.take 2) (exEvents.drop 2) es'
    (by intro m to q h; simp [exEvents, others] at h)
    ⟨by intro o n h; simp [exEvents, others] at h, by intro m to q h; simp [exEvents, others] at h⟩ rfl
    exItems [5] exItems_proper (by decide) exEvents_arrived 0 0 6000 ⟨exVersion, none, none, .waiting 0 6000⟩
    (by decide +kernel) rfl [] (.other exVersionRsp) (by simp [exItems]) rsp h1 h2 (by decide +kernel)

/-- **C62 (refuted).** The response arrives in time and intact, but in one chunk after an indication of
the MAC layer that makes the receiver raise: it is lost and the request times out. -/
theorem c62_refuted : ¬ ∀ (es0 es es' : List StackEvent) (f : Frame) (t w d : Nat) (k : Task) (o rsp : Obj),
    Fits f → f.data ≠ [] → Obj.fromUnpiFrame f = .ok o →
    ((connection exApp).run es0).buffer = [] →
    ((connection exApp).run es0).api.tasks t = some k → k.pc = .waiting w d →
    arrived es = wire f ++ wire exVersionRsp →
    Obj.fromUnpiFrame exVersionRsp = .ok rsp → AwaitedBy k.obj rsp →
    ((connection exApp).run (es0 ++ es)).api.now < d →
    .finished t (.error .timeoutError) ∉ ((connection exApp).run (es0 ++ es ++ es')).api.log := by
  intro h
  have key : (match Obj.fromUnpiFrame exVersionRsp with
      | .ok o => decide (o.commandType = .SRSP ∧ o.subsystem = .SYS ∧ o.command = "version")
      | _ => false) = true ∧ (Obj.fromUnpiFrame orphanInd).toOption.isSome = true := by decide +kernel
  rcases h1 : Obj.fromUnpiFrame exVersionRsp with e | rsp
  · rw [h1] at key; cases key.1
  rcases h2 : Obj.fromUnpiFrame orphanInd with e | o
  · rw [h2] at key; cases key.2
  rw [h1] at key
  have ha : rsp.commandType = .SRSP ∧ rsp.subsystem = .SYS ∧ rsp.command = "version" :=
    of_decide_eq_true key.1
  refine h [.api (.setUart true), .api (.submit exVersion none none)]
    [.bytes (wire orphanInd ++ wire exVersionRsp)] [.api (.tick 6000), .api (.timeout 0)]
    orphanInd 0 0 6000 ⟨exVersion, none, none, .waiting 0 6000⟩ o rsp (by decide) (by decide) h2 rfl
    (by decide +kernel) rfl (by simp [arrived]) h1 (.inl ⟨rfl, ha⟩) (by decide +kernel) ?_
  decide +kernel

end Zcc
