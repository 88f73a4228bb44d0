import Verif.Spec.Stack
import Verif.Props.Handling
import Verif.Props.Framing

/-!
# Lemmas about a whole connection
-/

namespace Zcc
open Spec

/-! ## The parser in the middle of a good stream -/

/-- A proper prefix of a frame with data is kept by the parser. -/
theorem write_part {f : Frame} (hf : Fits f) (hd : f.data ≠ []) {b c : List UInt8} {x : UInt8}
    (h : wire f = b ++ x :: c) (hc : c ≠ []) : Parser.write b x = (b ++ [x], .ok none) := by
  apply write_incomplete
  have hd' : 0 < f.data.length := List.length_pos_iff.mpr hd
  have hc' : 0 < c.length := List.length_pos_iff.mpr hc
  have hn : (UInt8.ofNat f.data.length).toNat = f.data.length := by simpa using hf.1
  have hab : wire f = (b ++ [x]) ++ c := by simpa using h
  have hl := congrArg List.length hab
  simp [wire, body] at hl
  match hb : b ++ [x], hab with
  | [], _ => simp at hb
  | [y], hab => exact ⟨by simp [wire] at hab; simp [SOF, hab.1.symm], Or.inl (by simp)⟩
  | y :: z :: t, hab =>
    simp [wire, body] at hab
    refine ⟨by simp [SOF, hab.1.symm], Or.inr ?_⟩
    have hbl := congrArg List.length hb
    simp only [List.length_append, List.length_cons, List.length_nil] at hbl
    simp only [List.getD_cons_succ, List.getD_cons_zero, ← hab.2.1, hn]
    simp only [List.length_cons] at hl hbl ⊢
    omega

/-- The last byte of a frame with data delivers it. -/
theorem write_last {f : Frame} (hf : Fits f) (hd : f.data ≠ []) {b : List UInt8} {x : UInt8}
    (h : wire f = b ++ [x]) : Parser.write b x = ([], .ok (some (received f))) := by
  have hd' : 0 < f.data.length := List.length_pos_iff.mpr hd
  have hn : (UInt8.ofNat f.data.length).toNat = f.data.length := by simpa using hf.1
  have hlen : (b ++ [x]).length = 5 + f.data.length := by
    rw [← h, wire_eq_packet, packet_length]
  rw [write_long b x (UInt8.ofNat f.data.length) (header f.commandType f.subsystem ::
    UInt8.ofNat f.commandId :: (f.data ++ [xorAll (body f)])) (by rw [← h]; simp [wire, body, SOF])
    (by rw [hlen]; omega), hn, if_pos (by omega), List.take_of_length_le (by omega), ← h,
    fromBuffer_wire f hf]
  rw [List.drop_of_length_le (by rw [wire_eq_packet, packet_length]; omega)]

/-- Good items: noise without start byte, frames that fit and have data. -/
def GoodItem (p : List UInt8 × Frame) : Prop := Noise p.1 ∧ Fits p.2 ∧ p.2.data ≠ []

/-- The parser holds `buf`, the bytes `rest` are still to come, and they will deliver `fs`. -/
inductive Sync : List UInt8 → List UInt8 → List Frame → Prop
  | idle (items : List (List UInt8 × Frame)) (tail : List UInt8) (h : ∀ p ∈ items, GoodItem p)
      (ht : Noise tail) : Sync [] (stream items tail) (items.map (·.2))
  | part (f : Frame) (b c : List UInt8) (items : List (List UInt8 × Frame)) (tail : List UInt8)
      (hf : Fits f) (hd : f.data ≠ []) (hw : wire f = b ++ c) (hb : b ≠ []) (hc : c ≠ [])
      (h : ∀ p ∈ items, GoodItem p) (ht : Noise tail) :
      Sync b (c ++ stream items tail) (f :: items.map (·.2))

/-- The end of the stream. -/
theorem Sync.nil {b r : List UInt8} {fs : List Frame} (h : Sync b r fs) (hr : [] = r) :
    b = [] ∧ fs = [] := by
  cases h with
  | idle items tail h ht =>
    cases items with
    | nil => exact ⟨rfl, rfl⟩
    | cons p items => simp [stream, wire] at hr
  | part f b c items tail hf hd hw hb hc h ht =>
    cases c with
    | nil => exact absurd rfl hc
    | cons x c => simp at hr

/-- One byte. -/
theorem Sync.step {b xr : List UInt8} {x : UInt8} {r : List UInt8} {fs : List Frame}
    (h : Sync b xr fs) (hr : x :: r = xr) :
    (∃ b', Parser.write b x = (b', .ok none) ∧ Sync b' r fs) ∨
    (∃ f fs', fs = f :: fs' ∧ Parser.write b x = ([], .ok (some (received f))) ∧ Sync [] r fs') := by
  cases h with
  | idle items tail h ht =>
    cases items with
    | nil =>
      simp only [stream, List.flatMap_nil, List.nil_append] at hr
      subst hr
      left
      refine ⟨[], write_drop [] x x [] rfl (ht x (by simp)), ?_⟩
      have := Sync.idle [] r (by simp) (fun y hy => ht y (by simp [hy]))
      simpa [stream] using this
    | cons p items =>
      obtain ⟨n, f⟩ := p
      obtain ⟨hn, hf, hd⟩ := h (n, f) (by simp)
      cases n with
      | cons y n =>
        simp only [stream, List.flatMap_cons, List.cons_append, List.cons.injEq] at hr
        obtain ⟨rfl, hr⟩ := hr
        left
        refine ⟨[], write_drop [] x x [] rfl (hn x (by simp)), ?_⟩
        have := Sync.idle ((n, f) :: items) tail (by
          intro p hp
          rcases List.mem_cons.mp hp with rfl | hp
          · exact ⟨fun z hz => hn z (by simp [hz]), hf, hd⟩
          · exact h p (by simp [hp])) ht
        rw [hr]
        simpa only [stream, List.flatMap_cons, List.map_cons] using this
      | nil =>
        have hw : wire f = [0xFE] ++ (body f ++ [xorAll (body f)]) := rfl
        simp only [stream, List.flatMap_cons, List.nil_append, hw, List.cons_append,
          List.cons.injEq] at hr
        obtain ⟨rfl, hr⟩ := hr
        left
        refine ⟨[0xFE], write_part hf hd (b := []) (c := body f ++ [xorAll (body f)]) hw (by simp), ?_⟩
        have := Sync.part f [0xFE] (body f ++ [xorAll (body f)]) items tail hf hd hw (by simp)
          (by simp) (fun p hp => h p (by simp [hp])) ht
        rw [hr]
        simpa [stream] using this
  | part f b c items tail hf hd hw hb hc h ht =>
    cases c with
    | nil => exact absurd rfl hc
    | cons y c =>
      simp only [List.cons_append, List.cons.injEq] at hr
      obtain ⟨rfl, hr⟩ := hr
      by_cases hc' : c = []
      · subst hc'
        right
        refine ⟨f, _, rfl, write_last hf hd hw, ?_⟩
        rw [hr]
        exact Sync.idle items tail h ht
      · left
        refine ⟨b ++ [x], write_part hf hd hw hc', ?_⟩
        rw [hr]
        exact Sync.part f (b ++ [x]) c items tail hf hd (by simpa using hw) (by simp) hc' h ht

/-! ## The story of the items -/

theorem Spec.Story.trans {ds ds' ds'' : List Device} {i j : List Item} {e e' : List Effect}
    (h : Story ds i e ds') : Story ds' j e' ds'' → Story ds (i ++ j) (e ++ e') ds'' := by
  induction h with
  | done ds => exact id
  | known ds m tr d hd rest es ds' _ ih =>
    intro h'
    have := Story.known ds m tr d hd _ _ _ (ih h')
    simpa using this
  | unknown ds m tr hd rest es ds' _ ih =>
    intro h'
    exact Story.unknown ds m tr hd _ _ _ (ih h')
  | ext ds m mode addr pan rest es ds' _ ih =>
    intro h'
    exact Story.ext ds m mode addr pan _ _ _ (ih h')
  | join ds ds1 src nwk ieee caps tr h1 h2 rest es ds' _ ih =>
    intro h'
    have := Story.join ds ds1 src nwk ieee caps tr h1 h2 _ _ _ (ih h')
    simpa using this
  | other ds f es0 h0 rest es ds' _ ih =>
    intro h'
    have := Story.other ds f es0 h0 _ _ _ (ih h')
    simpa using this

/-- The commands of application messages and announcements have their own numbers. -/
theorem told_ids : (∀ cs ∈ definition .AF, ∀ c ∈ cs, (c.name = "incomingMsg" → c.id = 0x81) ∧
      (c.name = "incomingMsgExt" → c.id = 0x82)) ∧
    (∀ cs ∈ definition .ZDO, ∀ c ∈ cs, c.name = "endDeviceAnnceInd" → c.id = 0xC1) := by
  decide +kernel

theorem dispatch_zdo (a : App) (o : Obj) (d : List UInt8) (nwk ieee : Option Val)
    (haf : ¬ (o.subsystem = .AF ∧ (o.command = "incomingMsg" ∨ o.command = "incomingMsgExt"))) :
    ∀ e ∈ (a.dispatch o d nwk ieee).effects, ZdoEffect e := by
  have hset : ∀ m, ∀ e ∈ (a.setLed m).1, ZdoEffect e := by
    intro m e he
    unfold App.setLed at he
    split at he
    · simp at he
    · dsimp only at he
      split at he
      · simp at he; subst he; trivial
      · simp at he
  have hled : ∀ e ∈ (if o.subsystem = .ZDO ∧ o.command = "mgmtPermitJoinRsp" then a.setLed ledOn
      else (([], none) : List Effect × Option PyErr)).1, ZdoEffect e := by
    split
    · exact hset _
    · simp
  unfold App.dispatch
  split
  · simp
  dsimp only
  split
  · rename_i heq; rw [heq] at hled; exact hled
  · rename_i heq
    rw [heq] at hled
    split
    · split
      · exact hled
      · intro e he
        rcases List.mem_append.mp he with h | h
        · exact hled e h
        · exact hset _ e h
    · split
      · split
        · split
          · exact hled
          · intro e he
            rcases List.mem_append.mp he with h | h
            · exact hled e h
            · unfold App.forward at h
              split at h
              · simp at h
              · simp only [List.mem_cons, List.not_mem_nil, or_false] at h
                rcases h with rfl | rfl
                · exact ⟨rfl, rfl⟩
                · exact ⟨rfl, rfl, rfl, _, _, rfl⟩
        · exact hled
      · first | exact hled | (rw [if_neg haf]; exact hled)

theorem other_zdo {f : Frame} {o : Obj} (ho : Obj.fromUnpiFrame f = .ok o)
    (haf : ¬ (f.commandType = .AREQ ∧ f.subsystem = .AF ∧ (f.commandId = 0x81 ∨ f.commandId = 0x82)))
    (hzdo : ¬ (f.commandType = .AREQ ∧ f.subsystem = .ZDO ∧ f.commandId = 0xC1)) (a : App)
    (q : Option Int) :
    (a.handleZnp { o with sequence := q }).app = a ∧
      ∀ e ∈ (a.handleZnp { o with sequence := q }).effects, ZdoEffect e := by
  obtain ⟨c, ⟨cs, hcs, hc⟩, hid, _, _, hoe⟩ := fromUnpiFrame_ok ho
  have hot : o.commandType = f.commandType := by rw [hoe]
  have hos : o.subsystem = f.subsystem := by rw [hoe]
  have hon : o.command = c.name := by rw [hoe]
  unfold App.handleZnp
  split
  · simp
  rename_i ht
  have ht : f.commandType = .AREQ := by
    rw [← hot]; simpa using ht
  split
  · simp
  dsimp only
  have h1 : ¬ (o.subsystem = .ZDO ∧ o.command = "endDeviceAnnceInd") := by
    rintro ⟨h1, h2⟩
    rw [hos] at h1
    rw [h1] at hcs
    exact hzdo ⟨ht, h1, hid ▸ told_ids.2 cs hcs c hc (hon ▸ h2)⟩
  rw [if_neg h1]
  refine ⟨dispatch_app _ _ _ _ _, dispatch_zdo _ _ _ _ _ ?_⟩
  rintro ⟨h2, h3⟩
  dsimp only at h2 h3
  rw [hos] at h2
  rw [h2] at hcs
  rw [hon] at h3
  refine haf ⟨ht, h2, ?_⟩
  rw [← hid]
  rcases h3 with h3 | h3
  · exact .inl ((told_ids.1 cs hcs c hc).1 h3)
  · exact .inr ((told_ids.1 cs hcs c hc).2 h3)

/-- One item is handled as it should be, whatever has happened in the API. -/
theorem item_handled_of (es : List Event) (hreg : StartupWaiters es) (a : App)
    (hdist : DistinctIeee a.devices) (i : Item) (hi : i.Proper)
    (hno : ∀ f, i = .other f → (receive (Api.init.run es) a (received f)).2.raised = none) :
    let r := receive (Api.init.run es) a (received i.frame)
    r.2.raised = none ∧ r.2.app.product = a.product ∧ DistinctIeee r.2.app.devices ∧
      Story a.devices [i] r.2.effects r.2.app.devices := by
  cases i with
  | report m tr =>
    have hlen : m.data.length < 256 := by
      have := hi.1
      simp [AppMessage.frame] at this
      omega
    obtain ⟨o, h1, h2⟩ := incoming_handled m hlen tr
    obtain ⟨q, hq⟩ := receive_ok es hreg a (received (m.frame tr)) o h1
    show _ ∧ _
    dsimp only [Item.frame]
    rw [hq, h2 a q]
    refine ⟨rfl, rfl, hdist, ?_⟩
    dsimp only
    generalize hfd : a.devices.find? (fun d => decide (some (Val.int m.src.toNat) = some (.int d.nwk))) = fd
    rcases fd with _ | d
    · refine Story.unknown _ m tr ?_ _ _ _ (.done _)
      intro d hd he
      have := List.find?_eq_none.mp hfd d hd
      simp [he] at this
    · have hfirst : FirstWithNwk a.devices m.src.toNat d := by
        obtain ⟨h3, pre, post, h4, h5⟩ := List.find?_eq_some_iff_append.mp hfd
        refine ⟨pre, post, h4, ?_, ?_⟩
        · have h3 : (m.src.toNat : Int) = d.nwk := by simpa using h3
          exact h3.symm
        · intro x hx he
          have := h5 x hx
          simp [he] at this
      have := Story.known a.devices m tr d hfirst [] [] _ (.done _)
      simpa using this
  | reportExt m mode addr pan =>
    have hlen : m.data.length < 65536 := by
      have := hi.1.1
      simp [AppMessage.frameExt] at this
      omega
    obtain ⟨o, h1, h2⟩ := incomingExt_handled m mode addr pan hi.2.1 hi.2.2 hlen
    obtain ⟨q, hq⟩ := receive_ok es hreg a (received (m.frameExt mode addr pan)) o h1
    show _ ∧ _
    dsimp only [Item.frame]
    rw [hq, h2 a q]
    exact ⟨rfl, rfl, hdist, Story.ext _ m mode addr pan _ _ _ (.done _)⟩
  | announce src nwk ieee caps tr =>
    obtain ⟨o, h1, h2⟩ := annce_handled src nwk ieee caps hi.2 tr
    obtain ⟨q, hq⟩ := receive_ok es hreg a (received (announcement src nwk ieee caps tr)) o h1
    obtain ⟨j1, j2, _, j4⟩ := handleJoin_spec a nwk.toNat ieee hdist
    show _ ∧ _
    dsimp only [Item.frame]
    rw [hq, h2 a q hdist]
    refine ⟨rfl, j2, j1, ?_⟩
    have := Story.join a.devices _ src nwk ieee caps tr j4 j1 [] [] _ (.done _)
    simpa using this
  | other f =>
    obtain ⟨_, _, ⟨o, ho, hw⟩, haf, hzdo⟩ := hi
    obtain ⟨q, hq⟩ := receive_ok es hreg a (received f) o ho
    have hno := hno f rfl
    obtain ⟨h1, h2⟩ := other_zdo ho haf hzdo a q
    show _ ∧ _
    dsimp only [Item.frame]
    rw [hq] at hno ⊢
    refine ⟨hno, by rw [h1], by rw [h1]; exact hdist, ?_⟩
    rw [h1]
    have := Story.other a.devices f _ h2 [] [] _ (.done _)
    simpa using this

theorem item_handled (es : List Event) (hreg : StartupWaiters es) (hb : ByteSequences es) (a : App)
    (hp : a.product ≠ none) (hdist : DistinctIeee a.devices) (i : Item) (hi : i.Proper) :
    let r := receive (Api.init.run es) a (received i.frame)
    r.2.raised = none ∧ r.2.app.product = a.product ∧ DistinctIeee r.2.app.devices ∧
      Story a.devices [i] r.2.effects r.2.app.devices :=
  item_handled_of es hreg a hdist i hi fun f hf => by
    subst hf
    obtain ⟨_, _, ⟨o, ho, hw⟩, -, -⟩ := hi
    exact c56_never_raises_partial es hreg hb a hp (received f) o ho hw

/-! ## Executions -/

/-- Requirements on the events so far carry over when a frame is received or another event
happens. -/
theorem startupWaiters_append {es es' : List Event} (h : StartupWaiters es) (h' : StartupWaiters es') :
    StartupWaiters (es ++ es') := by
  intro m to q hm
  rcases List.mem_append.mp hm with hm | hm
  · exact h m to q hm
  · exact h' m to q hm

theorem byteSequences_append {es es' : List Event} (h : ByteSequences es) (h' : ByteSequences es') :
    ByteSequences (es ++ es') := by
  constructor
  · intro o n hm
    rcases List.mem_append.mp hm with hm | hm
    · exact h.1 o n hm
    · exact h'.1 o n hm
  · intro m to q hm
    rcases List.mem_append.mp hm with hm | hm
    · exact h.2 m to q hm
    · exact h'.2 m to q hm

theorem api_run_append (s : Api) (es es' : List Event) : s.run (es ++ es') = (s.run es).run es' := by
  unfold Api.run; rw [List.foldl_append]

theorem receive_api (s : Api) (a : App) (f : Frame) : (receive s a f).1 = s.step (.frame f) := by
  show _ = (s.dataReceived f).1
  unfold receive
  rcases s.dataReceived f with ⟨s', e | o⟩ <;> rfl

/-- What is known of a connection in a good state: the API has a history, the product is known. -/
structure Healthy (s : Stack) : Prop where
  hist : ∃ es, s.api = Api.init.run es ∧ StartupWaiters es ∧ ByteSequences es
  product : s.app.product ≠ none
  distinct : DistinctIeee s.app.devices

/-- The state after a frame was handled. -/
def Stack.after (s : Stack) (f : Frame) : Stack :=
  let r := receive s.api s.app f
  { s with buffer := [], api := r.1, app := r.2.app, effects := s.effects ++ r.2.effects }

theorem after_healthy {s : Stack} (h : Healthy s) {i : Item} (hi : i.Proper) :
    (receive s.api s.app (received i.frame)).2.raised = none ∧ Healthy (s.after (received i.frame)) ∧
    ∃ e, (s.after (received i.frame)).effects = s.effects ++ e ∧
      Story s.app.devices [i] e (s.after (received i.frame)).app.devices := by
  obtain ⟨⟨es, h1, h2, h3⟩, hp, hd⟩ := h
  obtain ⟨k1, k2, k3, k4⟩ := item_handled es h2 h3 s.app hp hd i hi
  rw [← h1] at k1 k2 k3 k4
  refine ⟨k1, ⟨⟨es ++ [.frame (received i.frame)], ?_, ?_, ?_⟩, ?_, k3⟩, _, rfl, k4⟩
  · rw [api_run_append, ← h1]
    exact receive_api _ _ _
  · exact startupWaiters_append h2 (by intro m to q hm; simp at hm)
  · exact byteSequences_append h3 ⟨by intro o n hm; simp at hm, by intro m to q hm; simp at hm⟩
  · show (receive s.api s.app (received i.frame)).2.app.product ≠ none
    rw [k2]; exact hp

theorem handleZnp_app (a : App) (o : Obj) (hd : DistinctIeee a.devices) :
    (a.handleZnp o).app.product = a.product ∧ DistinctIeee (a.handleZnp o).app.devices := by
  unfold App.handleZnp
  split
  · exact ⟨rfl, hd⟩
  split
  · exact ⟨rfl, hd⟩
  dsimp only
  split
  · split
    · exact ⟨rfl, hd⟩
    · split
      · dsimp only
        rw [dispatch_app]
        obtain ⟨j1, j2, _⟩ := handleJoin_spec a _ _ hd
        exact ⟨j2, j1⟩
      · exact ⟨rfl, hd⟩
  · rw [dispatch_app]; exact ⟨rfl, hd⟩

theorem after_any {s : Stack} (h : Healthy s) (f : Frame) : Healthy (s.after f) := by
  obtain ⟨⟨es, h1, h2, h3⟩, hp, hd⟩ := h
  have happ : (receive s.api s.app f).2.app.product = s.app.product ∧
      DistinctIeee (receive s.api s.app f).2.app.devices := by
    unfold receive
    rcases s.api.dataReceived f with ⟨s', e | o⟩
    · exact ⟨rfl, hd⟩
    · exact handleZnp_app s.app o hd
  refine ⟨⟨es ++ [.frame f], ?_, ?_, ?_⟩, ?_, happ.2⟩
  · rw [api_run_append, ← h1]
    exact receive_api _ _ _
  · exact startupWaiters_append h2 (by intro m to q hm; simp at hm)
  · exact byteSequences_append h3 ⟨by intro o n hm; simp at hm, by intro m to q hm; simp at hm⟩
  · show (receive s.api s.app f).2.app.product ≠ none
    rw [happ.1]; exact hp

/-- Any chunk at all leaves the connection in a good state. -/
theorem chunk_any (c : List UInt8) : ∀ s : Stack, Healthy s → Healthy (s.step (.bytes c)) := by
  induction c with
  | nil => intro s hs; exact ⟨hs.hist, hs.product, hs.distinct⟩
  | cons x c ih =>
    intro s hs
    rcases hw : Parser.write s.buffer x with ⟨b', e | _ | f⟩
    · have hstep : s.step (.bytes (x :: c)) = { s with buffer := b', raised := s.raised ++ [e] } := by
        simp only [Stack.step, Gateway.dataReceived, hw, Option.toList]
      rw [hstep]
      exact ⟨hs.hist, hs.product, hs.distinct⟩
    · have hstep : s.step (.bytes (x :: c)) = ({ s with buffer := b' } : Stack).step (.bytes c) := by
        simp only [Stack.step, Gateway.dataReceived, hw]
      rw [hstep]
      exact ih _ ⟨hs.hist, hs.product, hs.distinct⟩
    · have ha : Healthy ({ s.after f with buffer := b' } : Stack) := by
        have := after_any hs f
        exact ⟨this.hist, this.product, this.distinct⟩
      rcases hr : (receive s.api s.app f).2.raised with _ | e
      · have hstep : s.step (.bytes (x :: c)) = ({ s.after f with buffer := b' } : Stack).step (.bytes c) := by
          have hh : Stack.handler (s.api, s.app, s.effects) f =
              (((receive s.api s.app f).1, (receive s.api s.app f).2.app,
                s.effects ++ (receive s.api s.app f).2.effects), none) := by
            unfold Stack.handler
            dsimp only
            rw [hr]
          simp only [Stack.step, Gateway.dataReceived, hw, hh, Stack.after]
        rw [hstep]
        exact ih _ ha
      · have hstep : s.step (.bytes (x :: c)) =
            { s.after f with buffer := b', raised := s.raised ++ [e] } := by
          have hh : Stack.handler (s.api, s.app, s.effects) f =
              (((receive s.api s.app f).1, (receive s.api s.app f).2.app,
                s.effects ++ (receive s.api s.app f).2.effects), some e) := by
            unfold Stack.handler
            dsimp only
            rw [hr]
          simp only [Stack.step, Gateway.dataReceived, hw, hh, Stack.after, Option.toList]
        rw [hstep]
        exact ⟨ha.hist, ha.product, ha.distinct⟩

/-- A chunk of a good stream. -/
theorem chunk_handled (c : List UInt8) : ∀ (s : Stack) (r : List UInt8) (items : List Item),
    Healthy s → (∀ i ∈ items, i.Proper) → Sync s.buffer (c ++ r) (items.map Item.frame) →
    ∃ told rest e, items = told ++ rest ∧
      Sync (s.step (.bytes c)).buffer r (rest.map Item.frame) ∧ Healthy (s.step (.bytes c)) ∧
      (s.step (.bytes c)).raised = s.raised ∧ (s.step (.bytes c)).effects = s.effects ++ e ∧
      Story s.app.devices told e (s.step (.bytes c)).app.devices ∧
      (s.step (.bytes c)).api = s.api.run (told.map fun i => .frame (received i.frame)) := by
  induction c with
  | nil =>
    intro s r items hs hi hsync
    refine ⟨[], items, [], rfl, hsync, ⟨hs.hist, hs.product, hs.distinct⟩, ?_, ?_, Story.done _, ?_⟩ <;>
      simp [Stack.step, Gateway.dataReceived, Api.run]
  | cons x c ih =>
    intro s r items hs hi hsync
    rcases Sync.step hsync rfl with ⟨b', hw, hsync'⟩ | ⟨f, fs', hfs, hw, hsync'⟩
    · have hstep : s.step (.bytes (x :: c)) = ({ s with buffer := b' } : Stack).step (.bytes c) := by
        simp only [Stack.step, Gateway.dataReceived, hw]
      rw [hstep]
      exact ih { s with buffer := b' } r items ⟨hs.hist, hs.product, hs.distinct⟩ hi hsync'
    · cases items with
      | nil => simp at hfs
      | cons i items =>
        simp only [List.map_cons, List.cons.injEq] at hfs
        obtain ⟨hf, hfs⟩ := hfs
        obtain ⟨k1, k2, e, k3, k4⟩ := after_healthy hs (hi i (by simp))
        rw [hf] at k1 k2 k3 k4
        have hstep : s.step (.bytes (x :: c)) = (s.after (received f)).step (.bytes c) := by
          have hh : Stack.handler (s.api, s.app, s.effects) (received f) =
              (((receive s.api s.app (received f)).1, (receive s.api s.app (received f)).2.app,
                s.effects ++ (receive s.api s.app (received f)).2.effects), none) := by
            unfold Stack.handler
            dsimp only
            rw [k1]
          simp only [Stack.step, Gateway.dataReceived, hw, hh, Stack.after]
        rw [← hfs] at hsync'
        obtain ⟨told, rest, e', j1, j2, j3, j4, j5, j6, j7⟩ :=
          ih (s.after (received f)) r items k2 (fun j hj => hi j (by simp [hj])) hsync'
        rw [hstep]
        refine ⟨i :: told, rest, e ++ e', by rw [j1]; rfl, j2, j3, ?_, ?_, ?_, ?_⟩
        · rw [j4]; rfl
        · rw [j5, k3, List.append_assoc]
        · exact k4.trans j6
        · rw [j7, List.map_cons, show (Event.frame (received i.frame) ::
            told.map fun i => Event.frame (received i.frame)) = [Event.frame (received i.frame)] ++
            told.map fun i => Event.frame (received i.frame) from rfl, api_run_append, hf]
          congr 1
          exact receive_api _ _ _

/-- Another event. -/
theorem api_healthy {s : Stack} (h : Healthy s) (e : Event) (h1 : StartupWaiters [e])
    (h2 : ByteSequences [e]) :
    Healthy (s.step (.api e)) ∧ (s.step (.api e)).buffer = s.buffer ∧
      (s.step (.api e)).app = s.app ∧ (s.step (.api e)).effects = s.effects ∧
      (s.step (.api e)).raised = s.raised := by
  by_cases hf : ∃ f, e = .frame f
  · obtain ⟨f, rfl⟩ := hf
    exact ⟨h, rfl, rfl, rfl, rfl⟩
  · have hstep : s.step (.api e) = { s with api := s.api.step e } := by
      cases e <;> first | rfl | exact absurd ⟨_, rfl⟩ hf
    rw [hstep]
    obtain ⟨⟨es, k1, k2, k3⟩, hp, hd⟩ := h
    refine ⟨⟨⟨es ++ [e], ?_, startupWaiters_append k2 h1, byteSequences_append k3 h2⟩, hp, hd⟩,
      rfl, rfl, rfl, rfl⟩
    rw [api_run_append, ← k1]; rfl

theorem run_any (es : List StackEvent) : ∀ s : Stack, Healthy s → StartupWaiters (others es) →
    ByteSequences (others es) → Healthy (s.run es) := by
  induction es with
  | nil => intro s hs _ _; exact hs
  | cons e es ih =>
    intro s hs hreg hb
    cases e with
    | bytes c => exact ih _ (chunk_any c s hs) hreg hb
    | api e =>
      have h1 : StartupWaiters [e] := fun m to q hm => hreg m to q (by simp at hm; simp [others, hm])
      have h2 : ByteSequences [e] :=
        ⟨fun o n hm => hb.1 o n (by simp at hm; simp [others, hm]),
          fun m to q hm => hb.2 m to q (by simp at hm; simp [others, hm])⟩
      exact ih _ (api_healthy hs e h1 h2).1 (fun m to q hm => hreg m to q (by simp [others, hm]))
        ⟨fun o n hm => hb.1 o n (by simp [others, hm]), fun m to q hm => hb.2 m to q (by simp [others, hm])⟩

/-- An execution. -/
theorem run_handled (es : List StackEvent) : ∀ (s : Stack) (items : List Item),
    Healthy s → (∀ i ∈ items, i.Proper) → StartupWaiters (others es) → ByteSequences (others es) →
    Sync s.buffer (arrived es) (items.map Item.frame) →
    (s.run es).buffer = [] ∧ (s.run es).raised = s.raised ∧
      (∃ e, (s.run es).effects = s.effects ++ e ∧
        Story s.app.devices items e (s.run es).app.devices) ∧
      ∃ groups : List (List Item), groups.flatten = items ∧ groups.length = chunks es ∧
        (s.run es).api = s.api.run (weave es groups) := by
  induction es with
  | nil =>
    intro s items hs hi _ _ hsync
    obtain ⟨h1, h2⟩ := hsync.nil rfl
    have : items = [] := by simpa using h2
    subst this
    exact ⟨h1, rfl, ⟨[], by simp [Stack.run], Story.done _⟩, [], rfl, rfl, rfl⟩
  | cons e es ih =>
    intro s items hs hi hreg hb hsync
    cases e with
    | bytes c =>
      obtain ⟨told, rest, e, k1, k2, k3, k4, k5, k6, k7⟩ :=
        chunk_handled c s (arrived es) items hs hi hsync
      obtain ⟨j1, j3, ⟨e', j4, j5⟩, groups, j6, j8, j7⟩ := ih (s.step (.bytes c)) rest k3
        (fun i hi' => hi i (by rw [k1]; simp [hi'])) hreg hb k2
      have hrun : s.run (.bytes c :: es) = (s.step (.bytes c)).run es := rfl
      refine ⟨j1, j3.trans k4, ⟨e ++ e', ?_, ?_⟩, told :: groups, ?_, ?_, ?_⟩
      · rw [hrun, j4, k5, List.append_assoc]
      · rw [k1]; exact k6.trans j5
      · rw [k1, List.flatten_cons, j6]
      · rw [List.length_cons, j8]; rfl
      · rw [hrun, j7, k7, weave, api_run_append]
    | api e =>
      have h1 : StartupWaiters [e] := fun m to q hm => hreg m to q (by simp at hm; simp [others, hm])
      have h2 : ByteSequences [e] :=
        ⟨fun o n hm => hb.1 o n (by simp at hm; simp [others, hm]),
          fun m to q hm => hb.2 m to q (by simp at hm; simp [others, hm])⟩
      obtain ⟨k1, k2, k3, k4, k5⟩ := api_healthy hs e h1 h2
      obtain ⟨j1, j3, ⟨e', j4, j5⟩, groups, j6, j8, j7⟩ := ih (s.step (.api e)) items k1 hi
        (fun m to q hm => hreg m to q (by simp [others, hm]))
        ⟨fun o n hm => hb.1 o n (by simp [others, hm]), fun m to q hm => hb.2 m to q (by simp [others, hm])⟩
        (by rw [k2]; exact hsync)
      rw [k5] at j3
      rw [k4] at j4
      rw [k3] at j5
      refine ⟨j1, j3, ⟨e', j4, j5⟩, groups, j6, j8, ?_⟩
      have hrun : s.run (.api e :: es) = (s.step (.api e)).run es := rfl
      rw [hrun, j7]
      cases e <;> rfl

end Zcc
