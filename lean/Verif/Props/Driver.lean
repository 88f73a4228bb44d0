import Verif.Proofs.DriverLed
import Verif.Props.Stack
import Verif.Props.Reply

/-!
# The whole driver: C74, C75

`es₁` is what happened before a request, `es₂` what happens until the chunk of bytes that completes
the reply.
-/

namespace Zcc
open Spec

/-! ## The application's part of an execution -/

/-- **C74.** In every execution of the driver the application runs an execution of `AppSys`: the
events from outside in their order, and in between frames that the ports delivered and LED requests.
So what is proved of `AppSys` (C18-C31, C36-C41, C64-C68, C70-C73) is proved of the driver. -/
theorem c74_calls (es : List DriverEvent) : ∃ E, Interleaved (outside es) E ∧
    (Driver.init.run es).sys = AppSys.init.run E :=
  ⟨_, trace_interleaved es Driver.init, driver_run_sys es Driver.init⟩

/-- Each port is a connection (`Model/Stack`): its bytes do what they do there, and so do the events of
its API; bytes leave the other ports alone. So what is proved of connections (C56, C61, C62) is proved
of every port of the driver. -/
theorem c76_port (d : Driver) (j : Nat) (hj : j ≤ d.sys.cur) :
    (∀ c, port (d.step (.bytes j c)) j = (port d j).step (.bytes c)) ∧
    (∀ e, port (d.step (.sys (.api j e))) j = (port d j).step (.api e)) ∧
    ∀ i c, i ≠ j → (d.step (.bytes j c)).buffer i = d.buffer i ∧
      (d.step (.bytes j c)).sys.api i = d.sys.api i := by
  refine ⟨?_, ?_, ?_⟩
  · intro c
    obtain ⟨h1, h2⟩ := port_chunk j c (d.buffer j) d.sys d.app d.effects []
    rw [List.append_nil] at h1 h2
    unfold port Driver.step Stack.step
    dsimp only
    rw [if_pos hj, h1, h2]
    dsimp only
    rw [upd_same]
  · intro e
    cases e with
    | frame f => rfl
    | _ =>
      simp only [port, Driver.step, Stack.step, AppSys.step]
      rw [apiStep_api, if_pos rfl]
  · intro i c hi
    refine ⟨step_buffer d i _ (fun c h => by cases h; exact hi rfl), ?_⟩
    rw [driver_step_sys]
    unfold Driver.moves
    dsimp only
    rw [if_pos hj]
    generalize delivered _ _ c = fs
    generalize d.sys = s
    induction fs generalizing s with
    | nil => rfl
    | cons f fs ih =>
      refine (ih _).trans ?_
      show ((s.apiStep j (.frame f)).api i) = _
      rw [apiStep_api, if_neg hi]

/-- The radio's product, which decides whether an LED is switched, is the one that the last start-up
read; before the first it is unknown (C56). Nothing that arrives and nobody who calls changes it. -/
theorem c76_product (es : List DriverEvent) :
    (Driver.init.run es).app.product = (es.filterMap productRead).getLast? := by
  suffices ∀ (es : List DriverEvent) (d : Driver), (d.run es).app.product =
      (match (es.filterMap productRead).getLast? with | some p => some p | none => d.app.product) by
    rw [this es Driver.init]
    split <;> rename_i h <;> rw [h]
    rfl
  intro es
  induction es with
  | nil => intro d; rfl
  | cons e es ih =>
    intro d
    refine (ih (d.step e)).trans ?_
    rw [step_product, List.filterMap_cons]
    rcases productRead e with _ | p
    · rfl
    · dsimp only
      rw [List.getLast?_cons]
      rcases (es.filterMap productRead).getLast? with _ | q <;> rfl

/-- **C76.** What comes in over a port is told to zigpy, whatever zigpy's calls do meanwhile. After the
start-up, and when no message is half received, port `j` delivers noise and well-formed messages, cut into
chunks in any way (`r`: what is still to come), between any other events of the driver; the other ports are
silent and zigpy's table of devices is changed by these messages only. Then nothing raises, and what zigpy
is told is what the messages so far have for it (C61); all of them, if nothing is still to come. -/
theorem c76_story (es₁ es₂ : List DriverEvent) (d : Driver) (j : Nat) (hd : d = Driver.init.run es₁)
    (hj : j ≤ d.sys.cur) (hreg : Regular (es₁ ++ es₂)) (hstart : StartupOnly (es₁ ++ es₂))
    (hprod : d.app.product ≠ none) (hbuf : d.buffer j = [])
    (honly : ∀ i c, .bytes i c ∈ es₂ → i = j) (hdev : ∀ ds, .devices ds ∉ es₂)
    (items : List (List UInt8 × Item)) (hi : ∀ p ∈ items, Noise p.1 ∧ p.2.Proper) (r : List UInt8)
    (ha : arrivedAt j es₂ ++ r = onWire items []) :
    ∃ (said unsaid : List Item) (told : List Effect), items.map (·.2) = said ++ unsaid ∧
      (d.run es₂).effects = d.effects ++ told ∧ (d.run es₂).raised = d.raised ∧
      Story d.app.devices said told (d.run es₂).app.devices ∧
      (r = [] → unsaid = [] ∧ (d.run es₂).buffer j = []) := by
  have hr₁ : Regular es₁ := ⟨fun c q h => hreg.calls c q (List.mem_append_left _ h),
    fun i o q h => hreg.responses i o q (List.mem_append_left _ h),
    fun ds h => hreg.devices ds (List.mem_append_left _ h)⟩
  have hr₂ : Regular es₂ := ⟨fun c q h => hreg.calls c q (List.mem_append_right _ h),
    fun i o q h => hreg.responses i o q (List.mem_append_right _ h),
    fun ds h => hreg.devices ds (List.mem_append_right _ h)⟩
  have hs₁ : StartupOnly es₁ := fun i m to q h => hstart i m to q (List.mem_append_left _ h)
  have hs₂ : StartupOnly es₂ := fun i m to q h => hstart i m to q (List.mem_append_right _ h)
  have hh : Hist j d.sys := by
    have := hist_run (Driver.init.trace es₁) (hist_init j) (trace_lawful es₁ _ hr₁ hs₁)
    rw [show AppSys.init = Driver.init.sys from rfl, ← driver_run_sys, ← hd] at this
    exact this
  have hdd : DistinctIeee d.app.devices := by
    rw [hd]; exact (run_app es₁ Driver.init List.Pairwise.nil hr₁.devices).2
  have hsync : SyncTo [] (d.buffer j) (arrivedAt j es₂ ++ r) ((items.map (·.2)).map Item.frame) := by
    have := SyncTo.idle (k := []) (items.map fun p => (p.1, p.2.frame)) (by
      intro p hp
      obtain ⟨p', hp', rfl⟩ := List.mem_map.mp hp
      obtain ⟨g1, g2⟩ := hi p' hp'
      exact ⟨g1, proper_data g2⟩)
    have hst : onWire items [] = stream (items.map fun p => (p.1, p.2.frame)) [] := by
      unfold onWire stream
      rw [List.flatMap_map]
    rw [ha, hbuf, hst]
    rw [List.map_map] at this ⊢
    exact this
  obtain ⟨said, unsaid, told, h1, h2, h3, h4, h5⟩ := story_run j [] r (Nat.zero_le _) es₂ d (items.map (·.2))
    hj hh hprod hdd hr₂ hs₂ honly hdev (by
      intro x hx
      obtain ⟨p, hp, rfl⟩ := List.mem_map.mp hx
      exact (hi p hp).2) hsync
  refine ⟨said, unsaid, told, h1, h3, h4, h5, fun hr => ?_⟩
  obtain ⟨g1, g2⟩ := h2.nil hr
  exact ⟨List.map_eq_nil_iff.mp g2, g1⟩

/-- **C77.** The same as C76 from the moment a port is opened, before `API.new` has returned and the driver
listens to it (at the `newApi` event), on a restart (the product is known). The port has delivered the
messages `early` and possibly a beginning `p` of the next, then `late` goes on: nothing raises, `early` is
lost, and of `late` everything is told, also of the message that began before. -/
theorem c77_connecting (es₁ es₂ es₃ : List DriverEvent) (d d' : Driver) (j : Nat)
    (hd : d = Driver.init.run es₁) (hd' : d' = (d.run es₂).step (.sys .newApi)) (hj : d'.sys.cur = j)
    (hreg : Regular (es₁ ++ (es₂ ++ .sys .newApi :: es₃)))
    (hstart : StartupOnly (es₁ ++ (es₂ ++ .sys .newApi :: es₃)))
    (hprod : d.app.product ≠ none) (hbuf : d.buffer j = [])
    (honly : ∀ i c, .bytes i c ∈ es₂ ++ es₃ → i = j) (hdev : ∀ ds, .devices ds ∉ es₂ ++ es₃)
    (early late : List (List UInt8 × Item)) (hi : ∀ x ∈ early ++ late, Noise x.1 ∧ x.2.Proper)
    (p r : List UInt8) (h₂ : arrivedAt j es₂ = onWire early [] ++ p)
    (h₃ : p ++ arrivedAt j es₃ ++ r = onWire late [])
    (hp : ∀ x l, late = x :: l → p.length < (onWire [x] []).length) :
    ∃ (said unsaid : List Item) (told : List Effect), late.map (·.2) = said ++ unsaid ∧
      (d'.run es₃).effects = d.effects ++ told ∧ (d'.run es₃).raised = d.raised ∧
      Story d.app.devices said told (d'.run es₃).app.devices ∧
      (r = [] → unsaid = [] ∧ (d'.run es₃).buffer j = []) := by
  have hr : Regular es₁ ∧ Regular es₂ ∧ Regular es₃ := by
    refine ⟨⟨fun c q h => hreg.calls c q ?_, fun i o q h => hreg.responses i o q ?_,
        fun ds h => hreg.devices ds ?_⟩,
      ⟨fun c q h => hreg.calls c q ?_, fun i o q h => hreg.responses i o q ?_, fun ds h => hreg.devices ds ?_⟩,
      ⟨fun c q h => hreg.calls c q ?_, fun i o q h => hreg.responses i o q ?_, fun ds h => hreg.devices ds ?_⟩⟩ <;>
    simp only [List.mem_append, List.mem_cons] <;> simp [h]
  have hs : StartupOnly es₁ ∧ StartupOnly es₂ ∧ StartupOnly es₃ := by
    refine ⟨fun i m to q h => hstart i m to q ?_, fun i m to q h => hstart i m to q ?_,
      fun i m to q h => hstart i m to q ?_⟩ <;>
    simp only [List.mem_append, List.mem_cons] <;> simp [h]
  have hrun : d.run (es₂ ++ [.sys .newApi]) = d' := by
    rw [hd']; unfold Driver.run; rw [List.foldl_append]; rfl
  have hcur : (d.run es₂).sys.cur < j := by
    rw [← hj, hd']; exact Nat.lt_succ_self _
  have hr₂' : Regular (es₂ ++ [.sys .newApi]) := by
    refine ⟨fun c q h => hr.2.1.calls c q ?_, fun i o q h => hr.2.1.responses i o q ?_,
      fun ds h => hr.2.1.devices ds ?_⟩ <;> simpa using h
  have hs₂' : StartupOnly (es₂ ++ [.sys .newApi]) := by
    intro i m to q h
    exact hs.2.1 i m to q (by simpa using h)
  have hh : Hist j d'.sys := by
    have h1 := hist_run (Driver.init.trace es₁) (hist_init j) (trace_lawful es₁ _ hr.1 hs.1)
    rw [show AppSys.init = Driver.init.sys from rfl, ← driver_run_sys, ← hd] at h1
    have h2 := hist_run (d.trace (es₂ ++ [.sys .newApi])) h1 (trace_lawful _ _ hr₂' hs₂')
    rw [← driver_run_sys, hrun] at h2
    exact h2
  have hdd : DistinctIeee d.app.devices := by
    rw [hd]; exact (run_app es₁ Driver.init List.Pairwise.nil hr.1.devices).2
  have happ := run_app (es₂ ++ [.sys .newApi]) d hdd hr₂'.devices
  rw [hrun] at happ
  have hstream : ∀ items : List (List UInt8 × Item),
      onWire items [] = stream (items.map fun p => (p.1, p.2.frame)) [] := by
    intro items
    unfold onWire stream
    rw [List.flatMap_map]
  have hsync : SyncIt (d.buffer j) (arrivedAt j es₂ ++ (arrivedAt j es₃ ++ r))
      ((early ++ late).map fun p => (p.1, p.2.frame)) := by
    have h1 : arrivedAt j es₂ ++ (arrivedAt j es₃ ++ r) = onWire (early ++ late) [] := by
      rw [h₂, List.append_assoc, ← List.append_assoc p, h₃]
      simp [onWire]
    rw [h1, hbuf, hstream]
    refine SyncIt.start _ ?_
    intro q hq
    obtain ⟨p', hp', rfl⟩ := List.mem_map.mp hq
    obtain ⟨g1, g2⟩ := hi p' hp'
    exact ⟨g1, proper_data g2⟩
  obtain ⟨lost, rest, e1, e2, e3, e4, e5⟩ := early_run j (arrivedAt j es₃ ++ r) es₂ d (early ++ late) hcur
    (fun i c h => honly i c (List.mem_append_left _ h)) (fun ds h => hdev ds (List.mem_append_left _ h))
    (fun x hx => (hi x hx).2) hsync
  have hlen := congrArg List.length h₃
  rw [List.append_assoc, List.length_append, hstream] at hlen
  have hrest : rest.map (fun p => (p.1, p.2.frame)) = late.map (fun p => (p.1, p.2.frame)) := by
    refine syncIt_unique (lost := lost.map fun p => (p.1, p.2.frame))
      (early := early.map fun p => (p.1, p.2.frame)) e2 (by rw [← List.map_append, ← List.map_append, e1]) ?_ ?_
    · omega
    · intro q l hq
      cases late with
      | nil => cases hq
      | cons x l' =>
        rw [List.map_cons] at hq
        injection hq with hq1 hq2
        have := hp x l' rfl
        rw [hstream] at this
        subst hq1 hq2
        simp only [List.map_cons, List.map_nil, stream, List.flatMap_cons, List.flatMap_nil, List.length_append,
          List.append_nil] at this hlen ⊢
        omega
  have hsync' : SyncTo [] (d'.buffer j) (arrivedAt j es₃ ++ r) ((late.map (·.2)).map Item.frame) := by
    have := e2.sync
    rw [hrest] at this
    have hb : d'.buffer j = (d.run es₂).buffer j := by rw [hd']; rfl
    rw [hb]
    simpa [List.map_map, Function.comp_def] using this
  obtain ⟨said, unsaid, told, k1, k2, k3, k4, k5⟩ := story_run j [] r (Nat.zero_le _) es₃ d' (late.map (·.2))
    (by omega) hh (happ.1 hprod) happ.2 hr.2.2 hs.2.2 (fun i c h => honly i c (List.mem_append_right _ h))
    (fun ds h => hdev ds (List.mem_append_right _ h)) (by
      intro x hx
      obtain ⟨p, hp, rfl⟩ := List.mem_map.mp hx
      exact (hi p (List.mem_append_right _ hp)).2) hsync'
  have g1 : d'.effects = d.effects := by rw [hd']; exact e3
  have g2 : d'.raised = d.raised := by rw [hd']; exact e4
  have g3 : d'.app.devices = d.app.devices := by rw [hd']; exact e5
  rw [g1] at k3
  rw [g2] at k4
  rw [g3] at k5
  refine ⟨said, unsaid, told, k1, k3, k4, k5, fun hr => ?_⟩
  obtain ⟨g1, g2⟩ := k2.nil hr
  exact ⟨List.map_eq_nil_iff.mp g2, g1⟩

theorem reply_proper {r : Nat × String × Nat} (hr : r ∈ zdoReplies) {nwk : UInt16} {f : Frame} {rsp : Obj}
    (hf : ReplyFrom r.1 nwk f) (hrsp : Obj.fromUnpiFrame f = .ok rsp) (hfit : Fits f) :
    (Item.other f).Proper := by
  obtain ⟨f1, f2, f3, body, f4⟩ := hf
  obtain ⟨-, -, -, -, -, p6, -⟩ := reply_parts hr f1 f2 f3 hrsp f4
  refine ⟨hfit, ?_, ⟨rsp, hrsp, fun _ => p6⟩, ?_, ?_⟩
  · rw [f4]; exact fun h => by cases h
  · rintro ⟨-, h, -⟩; rw [f2] at h; cases h
  · rintro ⟨-, -, h⟩
    have hdec : ∀ r ∈ zdoReplies, r.1 ≠ 0xC1 := by decide
    exact hdec r hr (f3.symm.trans h)

theorem onWire_stream (items : List (List UInt8 × Item)) (n : List UInt8) (f : Frame) (k : List UInt8) :
    onWire items n ++ wire f ++ k =
      stream ((items ++ [(n, Item.other f)]).map fun p => (p.1, p.2.frame)) k := by
  unfold onWire stream
  rw [List.flatMap_map, List.flatMap_append]
  simp [Item.frame]

/-- The chunk that completes the reply, and the API that gives it its number. -/
theorem driver_tagged (es₁ es₂ : List DriverEvent) (d₀ d : Driver) (nwk : UInt16)
    (profile cluster srcEp dstEp : Int) (q : Nat) (data : List UInt8) (o : Obj) (f : Frame) (rsp : Obj)
    (r : Nat × String × Nat) (items : List (List UInt8 × Item)) (n c₁ c₂ : List UInt8)
    (h₀ : d₀ = Driver.init.run es₁)
    (hd : d = Driver.init.run
      (es₁ ++ .sys (.call (.request nwk.toNat profile cluster srcEp dstEp q data true)) :: es₂))
    (hp : profile ≠ 260)
    (ho : Obj.fromCluster nwk.toNat profile cluster srcEp dstEp q data = .ok o)
    (hr : r ∈ zdoReplies) (hc : cluster + 0x80 = r.1) (hq : 1 ≤ q ∧ q ≤ 255)
    (hf : ReplyFrom r.1 nwk f) (hrsp : Obj.fromUnpiFrame f = .ok rsp) (hfit : Fits f)
    (hreg : Regular (es₁ ++ es₂)) (hstart : StartupOnly (es₁ ++ es₂))
    (hprod : d₀.app.product ≠ none) (hbuf : d₀.buffer d₀.sys.cur = [])
    (hi : ∀ p ∈ items, Noise p.1 ∧ p.2.Proper) (hn : Noise n)
    (ha : arrivedAt d₀.sys.cur es₂ ++ c₁ = onWire items n ++ wire f) (hc₁ : c₁ ≠ [])
    (hold : ∀ k ∈ d₀.sys.tasks, ∀ o j w, k.pc = .waiting o (some (j, w)) → j = d₀.sys.cur)
    (hused : ∀ t o x, .submitted t o (some (d₀.sys.api d₀.sys.cur).waiterId) x ∉ (d₀.sys.api d₀.sys.cur).log)
    (hfirst : ∀ x ∈ (d₀.sys.api d₀.sys.cur).waiters, ¬ Answers x.matcher rsp)
    (hpriv : ∀ e, .sys (.api d₀.sys.cur e) ∈ es₂ → e ≠ .abandon (d₀.sys.api d₀.sys.cur).waiterId ∧
      ∀ o x, e ≠ .submit o (some (d₀.sys.api d₀.sys.cur).waiterId) x)
    (hnone : ∀ p ∈ items, ¬ ReplyFrom r.1 nwk p.2.frame)
    (hacc : ∀ z, Answered (d.step (.bytes d₀.sys.cur (c₁ ++ c₂))).sys d₀.sys.tasks.length o z → z = 0)
    (htime : (d.sys.api d₀.sys.cur).now < (d₀.sys.api d₀.sys.cur).now + 10100) :
    ∃ (said unsaid : List Item) (told : List Effect) (a : App), items.map (·.2) = said ++ unsaid ∧
      Story d.app.devices unsaid told a.devices ∧ a.product = d.app.product ∧ a.product ≠ none ∧
      ∃ later, (d.step (.bytes d₀.sys.cur (c₁ ++ c₂))).effects =
        d.effects ++ told ++ (a.handleZnp { rsp with sequence := some (q : Int) }).effects ++ later := by
  generalize hcall : Call.request nwk.toNat profile cluster srcEp dstEp q data true = call at hd
  -- before the request
  have hr₁ : Regular es₁ := ⟨fun c q h => hreg.calls c q (List.mem_append_left _ h),
    fun i o q h => hreg.responses i o q (List.mem_append_left _ h),
    fun ds h => hreg.devices ds (List.mem_append_left _ h)⟩
  have hr₂ : Regular es₂ := ⟨fun c q h => hreg.calls c q (List.mem_append_right _ h),
    fun i o q h => hreg.responses i o q (List.mem_append_right _ h),
    fun ds h => hreg.devices ds (List.mem_append_right _ h)⟩
  have hs₁ : StartupOnly es₁ := fun i m to q h => hstart i m to q (List.mem_append_left _ h)
  have hs₂ : StartupOnly es₂ := fun i m to q h => hstart i m to q (List.mem_append_right _ h)
  have hh₀ : Hist d₀.sys.cur d₀.sys := by
    have := hist_run (Driver.init.trace es₁) (hist_init d₀.sys.cur) (trace_lawful es₁ _ hr₁ hs₁)
    rw [show AppSys.init = Driver.init.sys from rfl, ← driver_run_sys, ← h₀] at this
    exact this
  have hd₀ : DistinctIeee d₀.app.devices := by
    rw [h₀]; exact (run_app es₁ Driver.init List.Pairwise.nil hr₁.devices).2
  -- the call
  have hcallq : ∀ c q', AppEvent.call call = .call c → c.wantsReply = some q' → 0 ≤ q' ∧ q' < 256 := by
    intro c q' hc hq'
    cases hc
    rw [← hcall] at hq'
    have : (q : Int) = q' := by simpa [Call.wantsReply] using hq'
    omega
  have hlaw : Lawful (.call call) :=
    ⟨(by intro i m to q h; cases h), (by intro i o q h; cases h), hcallq⟩
  have hsys₁ : (d₀.step (.sys (.call call))).sys = d₀.sys.step (.call call) := rfl
  have hrun : d = (d₀.step (.sys (.call call))).run es₂ := by
    rw [hd, driver_run_append, ← h₀]; rfl
  generalize hj : d₀.sys.cur = j at *
  -- until the chunk
  have hstream : arrivedAt j es₂ ++ (c₁ ++ c₂) =
      stream ((items ++ [(n, Item.other f)]).map fun p => (p.1, p.2.frame)) c₂ := by
    rw [← onWire_stream, ← ha, List.append_assoc]
  have hall : ∀ p ∈ items ++ [(n, Item.other f)], Noise p.1 ∧ p.2.Proper := by
    intro p hp
    rcases List.mem_append.mp hp with hp | hp
    · exact hi p hp
    · rw [List.mem_singleton] at hp
      subst hp
      exact ⟨hn, reply_proper hr hf hrsp hfit⟩
  have hsync : SyncTo c₂ (d₀.buffer j) (arrivedAt j es₂ ++ (c₁ ++ c₂))
      (((items ++ [(n, Item.other f)]).map (·.2)).map Item.frame) := by
    have := SyncTo.idle (k := c₂) ((items ++ [(n, Item.other f)]).map fun p => (p.1, p.2.frame)) (by
      intro p hp
      obtain ⟨p', hp', rfl⟩ := List.mem_map.mp hp
      obtain ⟨g1, g2⟩ := hall p' hp'
      exact ⟨g1, proper_data g2⟩)
    rw [hstream, hbuf]
    rw [List.map_map] at this ⊢
    exact this
  obtain ⟨told₁, rest₁, i1, i2, i3⟩ := good_run j c₂ (c₁ ++ c₂) (by simp) es₂
    (d₀.step (.sys (.call call))) ((items ++ [(n, Item.other f)]).map Prod.snd)
    (by rw [hsys₁, ← hj]; exact app_cur_step _ _) (by rw [hsys₁]; exact hist_step hh₀ hlaw)
    hprod hd₀ hr₂ hs₂
    (by
      intro x hx
      obtain ⟨p, hp, rfl⟩ := List.mem_map.mp hx
      exact (hall p hp).2)
    hsync
  rw [← hrun] at i2
  -- the chunk up to the last byte of the reply
  obtain ⟨c₀, x, rfl⟩ : ∃ c₀ x, c₁ = c₀ ++ [x] :=
    ⟨_, _, (List.dropLast_concat_getLast hc₁).symm⟩
  have hh : Hist j d.sys := by
    rw [hrun, driver_run_sys]
    refine hist_run _ ?_ (trace_lawful es₂ _ hr₂ hs₂)
    rw [hsys₁]; exact hist_step hh₀ hlaw
  obtain ⟨hpd, hdd⟩ := run_app es₂ (d₀.step (.sys (.call call))) hd₀ hr₂.devices
  rw [← hrun] at hpd hdd
  have hpd := hpd hprod
  have hprop₁ : ∀ x ∈ rest₁, x.Proper := by
    intro x hx
    have hx : x ∈ (items ++ [(n, Item.other f)]).map (·.2) := by rw [i1]; exact List.mem_append_right _ hx
    obtain ⟨p, hp, rfl⟩ := List.mem_map.mp hx
    exact (hall p hp).2
  obtain ⟨told₂, rest₂, b', a, e', k1, k2, k3, k4, k5, k6, k7⟩ := good_chunk j c₂ c₀ (d.buffer j) d.sys d.app []
    (x :: c₂) rest₁ hh hpd hdd hprop₁ (by rw [List.append_assoc] at i2; exact i2) (by simp)
  -- its last byte
  have hlast : rest₂ = [Item.other f] ∧ Parser.write b' x = ([], .ok (some (received f))) := by
    rcases SyncTo.step (r := c₂) k2 rfl (Nat.le_refl _) with ⟨b'', -, hs'⟩ | ⟨f', fs', hfs, hw, hs'⟩
    · have := (hs'.nil rfl).2
      exact absurd this (k2.more (by simp))
    · have := (hs'.nil rfl).2
      subst this
      have hl : rest₂.length = 1 := by
        have := congrArg List.length hfs
        simpa using this
      obtain ⟨y, rfl⟩ := List.length_eq_one_iff.mp hl
      have hy : y = .other f := by
        rw [k1, List.map_append, ← List.append_assoc] at i1
        exact (List.cons.inj (List.append_inj_right' i1 rfl)).1.symm
      subst hy
      have hff : f = f' := (List.cons.inj hfs).1
      subst hff
      exact ⟨rfl, hw⟩
  obtain ⟨hlast, hw⟩ := hlast
  subst hlast
  have hitems : items.map (·.2) = told₁ ++ told₂ := by
    rw [k1, List.map_append, ← List.append_assoc] at i1
    exact List.append_inj_left' i1 rfl
  have hj' : j ≤ d.sys.cur := by
    rw [hrun, driver_run_sys]
    refine Nat.le_trans ?_ (cur_mono_run _ _)
    rw [hsys₁, ← hj]; exact app_cur_step _ _
  have hchunk : Gateway.dataReceived (Driver.handler j) ⟨d.buffer j, d.sys, d.app, []⟩ (c₀ ++ [x] ++ c₂) =
      Gateway.dataReceived (Driver.handler j) ⟨b', d.sys.run (framesOf j told₂), a, e'⟩ (x :: c₂) := by
    rw [List.append_assoc]
    exact received_append _ _ _ _ _ k3
  have hstep : (d.step (.bytes j (c₀ ++ [x] ++ c₂))).sys =
        (Gateway.dataReceived (Driver.handler j) ⟨b', d.sys.run (framesOf j told₂), a, e'⟩ (x :: c₂)).1.api.1 ∧
      (d.step (.bytes j (c₀ ++ [x] ++ c₂))).effects = d.effects ++
        (Gateway.dataReceived (Driver.handler j) ⟨b', d.sys.run (framesOf j told₂), a, e'⟩ (x :: c₂)).1.api.2.2 := by
    unfold Driver.step
    dsimp only
    rw [if_pos hj', hchunk]
    exact ⟨rfl, rfl⟩
  -- the reply
  have hsys : d.sys.run (framesOf j told₂) = AppSys.init.run (Driver.init.trace es₁ ++ .call call ::
      ((d₀.step (.sys (.call call))).trace es₂ ++ framesOf j told₂)) := by
    have h1 : d₀.sys = AppSys.init.run (Driver.init.trace es₁) := by rw [h₀]; exact driver_run_sys es₁ Driver.init
    rw [hrun, driver_run_sys, app_run_append, ← h1, ← app_run_append]
    rfl
  have hmem : ∀ ev, ev ∈ (d₀.step (.sys (.call call))).trace es₂ ++ framesOf j told₂ →
      .sys ev ∈ es₂ ∨ Internal ev := by
    intro ev hev
    rcases List.mem_append.mp hev with hev | hev
    · exact (interleaved_mem (trace_interleaved es₂ _) ev hev).imp (outside_mem es₂ ev) id
    · obtain ⟨y, -, rfl⟩ := List.mem_map.mp hev
      exact .inr True.intro
  have hAI : AInv (d.sys.run (framesOf j told₂)) := by rw [hsys]; exact ainv_run _
  have htag := (reply_tagged (Driver.init.trace es₁)
    ((d₀.step (.sys (.call call))).trace es₂ ++ framesOf j told₂) d₀.sys (d.sys.run (framesOf j told₂))
    nwk call q o (received f) rsp r a
    (by rw [h₀, driver_run_sys]; rfl) hsys (by rw [← hcall]; exact ho) (by rw [← hcall]; rfl)
    (reply_waiter hp ho hr hc _) hr hq hf hrsp
    (by
      intro i m to y hm
      rw [← List.append_assoc] at hm
      have : .sys (.api i (.register m to y)) ∈ es₁ ++ es₂ := by
        rw [List.append_assoc] at hm
        rcases List.mem_append.mp hm with hm | hm
        · rcases interleaved_mem (trace_interleaved es₁ _) _ hm with h | h
          · exact List.mem_append_left _ (outside_mem es₁ _ h)
          · exact absurd h id
        · rcases hmem _ hm with h | h
          · exact List.mem_append_right _ h
          · exact absurd h id
      exact (hstart i m to y this).1)
    (by rw [hj]; exact hold) (by rw [hj]; exact hused) (by rw [hj]; exact hfirst)
    (by
      rw [hj]
      intro e he
      rcases hmem _ he with h | h
      · exact hpriv e h
      · refine ⟨?_, ?_⟩
        · rintro rfl; exact absurd h id
        · rintro o y rfl; exact absurd h id)
    (by
      rw [hj]
      intro f' hf' hrf
      have : ∃ y ∈ told₁ ++ told₂, f' = received y.frame := by
        rcases List.mem_append.mp hf' with h | h
        · obtain ⟨y, hy, rfl⟩ := i3 f' h
          exact ⟨y, List.mem_append_left _ hy, rfl⟩
        · obtain ⟨y, hy, he⟩ := List.mem_map.mp h
          cases he
          exact ⟨y, List.mem_append_right _ hy, rfl⟩
      obtain ⟨y, hy, rfl⟩ := this
      rw [← hitems] at hy
      obtain ⟨p, hp, rfl⟩ := List.mem_map.mp hy
      exact hnone p hp hrf)
    (by
      intro z hz
      refine hacc z ?_
      rw [hstep.1, delivered_sys]
      exact answered_mono hAI _ hz)
    (by rw [hj, frames_now]; exact htime)).1
  rw [hj] at htag
  refine ⟨told₁, told₂, e', a, hitems, k7, k5, by rw [k5]; exact hpd, ?_⟩
  have hfin : ∃ later, (Gateway.dataReceived (Driver.handler j)
      ⟨b', d.sys.run (framesOf j told₂), a, e'⟩ (x :: c₂)).1.api.2.2 =
      e' ++ (a.handleZnp { rsp with sequence := some (q : Int) }).effects ++ later := by
    rw [← htag]
    have hh : Driver.handler j (d.sys.run (framesOf j told₂), a, e') (received f) =
        (((d.sys.run (framesOf j told₂)).apiStep j (.frame (received f)),
          (receive ((d.sys.run (framesOf j told₂)).api j) a (received f)).2.app,
          e' ++ (receive ((d.sys.run (framesOf j told₂)).api j) a (received f)).2.effects),
          (receive ((d.sys.run (framesOf j told₂)).api j) a (received f)).2.raised) := rfl
    unfold Gateway.dataReceived
    dsimp only
    rw [hw]
    dsimp only
    rw [hh]
    rcases (receive ((d.sys.run (framesOf j told₂)).api j) a (received f)).2.raised with _ | er
    · exact received_effects j c₂ _ _ _ _
    · exact ⟨[], (List.append_nil _).symm⟩
  obtain ⟨later, hlater⟩ := hfin
  refine ⟨later, ?_⟩
  rw [hstep.2, hlater]
  simp only [List.append_assoc]

/-- **C74.** From zigpy's request to zigpy's answer, in bytes. zigpy asks the node `nwk` with the
transaction number `q`, 1..255, when no message is half received (`hbuf`). After that the port delivers
noise and well-formed messages, and then the reply `f`, cut into chunks in any way, while anything else
happens; the chunk with the last byte of the reply goes on with any bytes `c₂`. If less than 10.1 s
have passed, zigpy gets in this chunk: what the messages before the reply in this chunk have for it
(`told`, see C61), and then the reply with the number `q`. Other conditions as in C64. -/
theorem c74_reply (es₁ es₂ : List DriverEvent) (d₀ d : Driver) (nwk : UInt16)
    (profile cluster srcEp dstEp : Int) (q : Nat) (data : List UInt8) (o : Obj) (f : Frame) (rsp : Obj)
    (r : Nat × String × Nat) (items : List (List UInt8 × Item)) (n c₁ c₂ : List UInt8)
    (h₀ : d₀ = Driver.init.run es₁)
    (hd : d = Driver.init.run
      (es₁ ++ .sys (.call (.request nwk.toNat profile cluster srcEp dstEp q data true)) :: es₂))
    (hp : profile ≠ 260)
    (ho : Obj.fromCluster nwk.toNat profile cluster srcEp dstEp q data = .ok o)
    (hr : r ∈ zdoReplies) (hc : cluster + 0x80 = r.1) (hq : 1 ≤ q ∧ q ≤ 255)
    (hf : ReplyFrom r.1 nwk f) (hrsp : Obj.fromUnpiFrame f = .ok rsp)
    (hlqi : r.2.1 ≠ "mgmtLqiRsp") (hfit : Fits f)
    (hreg : Regular (es₁ ++ es₂)) (hstart : StartupOnly (es₁ ++ es₂))
    (hprod : d₀.app.product ≠ none) (hbuf : d₀.buffer d₀.sys.cur = [])
    (hi : ∀ p ∈ items, Noise p.1 ∧ p.2.Proper) (hn : Noise n)
    (ha : arrivedAt d₀.sys.cur es₂ ++ c₁ = onWire items n ++ wire f) (hc₁ : c₁ ≠ [])
    (hold : ∀ k ∈ d₀.sys.tasks, ∀ o j w, k.pc = .waiting o (some (j, w)) → j = d₀.sys.cur)
    (hused : ∀ t o x, .submitted t o (some (d₀.sys.api d₀.sys.cur).waiterId) x ∉ (d₀.sys.api d₀.sys.cur).log)
    (hfirst : ∀ x ∈ (d₀.sys.api d₀.sys.cur).waiters, ¬ Answers x.matcher rsp)
    (hpriv : ∀ e, .sys (.api d₀.sys.cur e) ∈ es₂ → e ≠ .abandon (d₀.sys.api d₀.sys.cur).waiterId ∧
      ∀ o x, e ≠ .submit o (some (d₀.sys.api d₀.sys.cur).waiterId) x)
    (hnone : ∀ p ∈ items, ¬ ReplyFrom r.1 nwk p.2.frame)
    (hacc : ∀ z, Answered (d.step (.bytes d₀.sys.cur (c₁ ++ c₂))).sys d₀.sys.tasks.length o z → z = 0)
    (htime : (d.sys.api d₀.sys.cur).now < (d₀.sys.api d₀.sys.cur).now + 10100) :
    ∃ (said unsaid : List Item) (told : List Effect) (devs : List Device) (b rest : List UInt8),
      items.map (·.2) = said ++ unsaid ∧ Story d.app.devices unsaid told devs ∧
      f.data = le16 nwk.toNat ++ b ++ rest ∧ ReplyBody r.1 b ∧
      ∀ dev, FirstWithNwk devs nwk.toNat dev →
        ∃ later, (d.step (.bytes d₀.sys.cur (c₁ ++ c₂))).effects = d.effects ++ told ++
          (ledFor d.app r.2.1 ++ handOver dev 0 r.2.2 0 0 (UInt8.ofNat q :: b)) ++ later := by
  obtain ⟨said, unsaid, told, a, h1, h2, h3, h4, later, h5⟩ := driver_tagged es₁ es₂ d₀ d nwk profile cluster
    srcEp dstEp q data o f rsp r items n c₁ c₂ h₀ hd hp ho hr hc hq hf hrsp hfit hreg hstart hprod hbuf hi hn ha
    hc₁ hold hused hfirst hpriv hnone hacc htime
  obtain ⟨f1, f2, f3, body, f4⟩ := hf
  obtain ⟨b, rest, g1, g2, g3, -⟩ := c34_reply_partial a h4 f rsp r hr hlqi f1 f2 f3 hrsp nwk body f4 q
    (by omega)
  refine ⟨said, unsaid, told, a.devices, b, rest, h1, h2, by rw [f4, g1, List.append_assoc], g2, fun dev hdev => ⟨later, ?_⟩⟩
  rw [h5, g3 dev hdev]
  unfold ledFor
  rw [h3]

/-- **C74** for neighbour lists: the same, except that the reserved bits of each entry arrive
cleared. -/
theorem c74_neighbors (es₁ es₂ : List DriverEvent) (d₀ d : Driver) (nwk : UInt16)
    (profile srcEp dstEp : Int) (q : Nat) (data : List UInt8) (o : Obj) (f : Frame) (rsp : Obj)
    (items : List (List UInt8 × Item)) (n c₁ c₂ : List UInt8)
    (h₀ : d₀ = Driver.init.run es₁)
    (hd : d = Driver.init.run
      (es₁ ++ .sys (.call (.request nwk.toNat profile 0x31 srcEp dstEp q data true)) :: es₂))
    (hp : profile ≠ 260)
    (ho : Obj.fromCluster nwk.toNat profile 0x31 srcEp dstEp q data = .ok o)
    (hq : 1 ≤ q ∧ q ≤ 255)
    (hf : ReplyFrom 0xB1 nwk f) (hrsp : Obj.fromUnpiFrame f = .ok rsp) (hfit : Fits f)
    (hreg : Regular (es₁ ++ es₂)) (hstart : StartupOnly (es₁ ++ es₂))
    (hprod : d₀.app.product ≠ none) (hbuf : d₀.buffer d₀.sys.cur = [])
    (hi : ∀ p ∈ items, Noise p.1 ∧ p.2.Proper) (hn : Noise n)
    (ha : arrivedAt d₀.sys.cur es₂ ++ c₁ = onWire items n ++ wire f) (hc₁ : c₁ ≠ [])
    (hold : ∀ k ∈ d₀.sys.tasks, ∀ o j w, k.pc = .waiting o (some (j, w)) → j = d₀.sys.cur)
    (hused : ∀ t o x, .submitted t o (some (d₀.sys.api d₀.sys.cur).waiterId) x ∉ (d₀.sys.api d₀.sys.cur).log)
    (hfirst : ∀ x ∈ (d₀.sys.api d₀.sys.cur).waiters, ¬ Answers x.matcher rsp)
    (hpriv : ∀ e, .sys (.api d₀.sys.cur e) ∈ es₂ → e ≠ .abandon (d₀.sys.api d₀.sys.cur).waiterId ∧
      ∀ o x, e ≠ .submit o (some (d₀.sys.api d₀.sys.cur).waiterId) x)
    (hnone : ∀ p ∈ items, ¬ ReplyFrom 0xB1 nwk p.2.frame)
    (hacc : ∀ z, Answered (d.step (.bytes d₀.sys.cur (c₁ ++ c₂))).sys d₀.sys.tasks.length o z → z = 0)
    (htime : (d.sys.api d₀.sys.cur).now < (d₀.sys.api d₀.sys.cur).now + 10100) :
    ∃ (said unsaid : List Item) (told : List Effect) (devs : List Device) (head : List UInt8)
      (entries : List (List UInt8)) (rest : List UInt8),
      items.map (·.2) = said ++ unsaid ∧ Story d.app.devices unsaid told devs ∧
      head.length = 4 ∧ (∀ e ∈ entries, e.length = 22) ∧
      f.data = le16 nwk.toNat ++ head ++ entries.flatten ++ rest ∧
      ReplyBody 0xB1 (head ++ entries.flatten) ∧
      ∀ dev, FirstWithNwk devs nwk.toNat dev →
        ∃ later, (d.step (.bytes d₀.sys.cur (c₁ ++ c₂))).effects = d.effects ++ told ++
          handOver dev 0 0x8031 0 0 (UInt8.ofNat q :: (head ++ (entries.map maskEntry).flatten)) ++ later := by
  obtain ⟨said, unsaid, told, a, h1, h2, h3, h4, later, h5⟩ := driver_tagged es₁ es₂ d₀ d nwk profile 0x31
    srcEp dstEp q data o f rsp (0xB1, "mgmtLqiRsp", 0x8031) items n c₁ c₂ h₀ hd hp ho (by decide) rfl hq hf hrsp
    hfit hreg hstart hprod hbuf hi hn ha hc₁ hold hused hfirst hpriv hnone hacc htime
  obtain ⟨f1, f2, f3, body, f4⟩ := hf
  obtain ⟨head, entries, rest, g1, g2, g3, gb, g4, -⟩ := c34_neighbors a h4 f rsp f1 f2 f3 hrsp nwk body f4 q
    (by omega)
  refine ⟨said, unsaid, told, a.devices, head, entries, rest, h1, h2, g1, g2, ?_, gb, fun dev hdev => ⟨later, ?_⟩⟩
  · rw [f4, g3]; simp
  · rw [h5, g4 dev hdev]

/-- Port 1 of a driver that has connected twice: a message on it does what it does to a connection by
itself, and port 2 does not notice. -/
example (c : List UInt8) :
    port ((Driver.init.run [.sys .newApi, .sys .newApi]).step (.bytes 1 c)) 1 =
      (port (Driver.init.run [.sys .newApi, .sys .newApi]) 1).step (.bytes c) ∧
    ((Driver.init.run [.sys .newApi, .sys .newApi]).step (.bytes 1 c)).buffer 2 = [] := by
  have h := c76_port (Driver.init.run [.sys .newApi, .sys .newApi]) 1 (by decide)
  exact ⟨h.1 c, (h.2.2 2 c (by decide)).1⟩

/-! ### An example -/

/-- The calls of `exBefore`; zigpy has loaded its devices. -/
def exDriverBefore : List DriverEvent := exBefore.map .sys ++ [.devices exApp.devices]

/-- The radio accepts the two requests, a message arrives, another node replies. -/
def exDriverItems : List (List UInt8 × Item) :=
  [([], .other (Frame.of .SRSP .ZDO 2 [0])), ([3, 4], .other (Frame.of .SRSP .ZDO 2 [0])),
   ([], .report exMessage []),
   ([7], .other (Frame.of .AREQ .ZDO 0x82
    [0x11, 0x11, 0, 0x11, 0x11, 1, 0x40, 0x8E, 0x5F, 0x11, 80, 160, 0, 0, 0, 160, 0, 0]))]

/-- What the radio sends. -/
def exDriverBytes : List UInt8 := onWire exDriverItems [9] ++ wire exAnswer

/-- In three chunks; the third has the end of the message, the two replies, and the beginning of the
next message. -/
def exDriverBetween : List DriverEvent :=
  [.bytes 1 (exDriverBytes.take 6), .sys (.api 1 (.wake 0)), .sys (.enter 2),
   .bytes 1 ((exDriverBytes.drop 6).take 12), .sys (.api 1 (.wake 1)), .sys (.call exToggle), .sys (.cancel 1),
   .led, .sys (.api 1 (.tick 10000))]

theorem exDriver_proper : ∀ p ∈ exDriverItems, Noise p.1 ∧ p.2.Proper := by
  have hs : (Item.other (Frame.of .SRSP .ZDO 2 [0])).Proper := by
    refine ⟨by decide, by decide, ?_, by decide, by decide⟩
    have : (Obj.fromUnpiFrame (Frame.of .SRSP .ZDO 2 [0])).toOption.isSome = true := by decide +kernel
    rcases h : Obj.fromUnpiFrame (Frame.of .SRSP .ZDO 2 [0]) with e | o
    · rw [h] at this; cases this
    · exact ⟨o, h, fun h => by cases h⟩
  intro p hp
  simp only [exDriverItems, List.mem_cons, List.not_mem_nil, or_false] at hp
  rcases hp with rfl | rfl | rfl | rfl
  · exact ⟨by decide, hs⟩
  · exact ⟨by decide, hs⟩
  · exact ⟨by decide, by show Fits _; decide +kernel⟩
  · refine ⟨by decide, ?_⟩
    have : (Obj.fromUnpiFrame (Frame.of .AREQ .ZDO 0x82
      [0x11, 0x11, 0, 0x11, 0x11, 1, 0x40, 0x8E, 0x5F, 0x11, 80, 160, 0, 0, 0, 160, 0, 0])).toOption.isSome = true := by
      decide +kernel
    rcases h : Obj.fromUnpiFrame (Frame.of .AREQ .ZDO 0x82
      [0x11, 0x11, 0, 0x11, 0x11, 1, 0x40, 0x8E, 0x5F, 0x11, 80, 160, 0, 0, 0, 160, 0, 0]) with e | rsp
    · rw [h] at this; cases this
    · exact reply_proper (r := (0x82, "nodeDescRsp", 0x8002)) (nwk := 0x1111) (by decide)
        ⟨rfl, rfl, rfl,
          [0, 0x11, 0x11, 1, 0x40, 0x8E, 0x5F, 0x11, 80, 160, 0, 0, 0, 160, 0, 0], by decide +kernel⟩ h
        (by decide +kernel)

/-- The hypotheses of `c74_reply` hold for this execution. -/
example : ∃ o rsp, Obj.fromCluster (0x1234 : UInt16).toNat 0 2 0 0 7 [7, 0x34, 0x12] = .ok o ∧
    Obj.fromUnpiFrame exAnswer = .ok rsp ∧ Fits exAnswer ∧
    Regular (exDriverBefore ++ exDriverBetween) ∧ StartupOnly (exDriverBefore ++ exDriverBetween) ∧
    (Driver.init.run exDriverBefore).sys.cur = 1 ∧
    (Driver.init.run exDriverBefore).app.product ≠ none ∧ (Driver.init.run exDriverBefore).buffer 1 = [] ∧
    arrivedAt 1 exDriverBetween ++ exDriverBytes.drop 18 = onWire exDriverItems [9] ++ wire exAnswer ∧
    (∀ k ∈ (Driver.init.run exDriverBefore).sys.tasks, ∀ o j w, k.pc = .waiting o (some (j, w)) → j = 1) ∧
    (∀ t o x, .submitted t o (some ((Driver.init.run exDriverBefore).sys.api 1).waiterId) x ∉
      ((Driver.init.run exDriverBefore).sys.api 1).log) ∧
    (∀ x ∈ ((Driver.init.run exDriverBefore).sys.api 1).waiters, ¬ Answers x.matcher rsp) ∧
    (∀ e, .sys (.api 1 e) ∈ exDriverBetween →
      e ≠ .abandon ((Driver.init.run exDriverBefore).sys.api 1).waiterId ∧
      ∀ o x, e ≠ .submit o (some ((Driver.init.run exDriverBefore).sys.api 1).waiterId) x) ∧
    (∀ p ∈ exDriverItems, ¬ ReplyFrom 0x82 0x1234 p.2.frame) ∧
    (∀ z, Answered ((Driver.init.run (exDriverBefore ++ .sys (.call exAsk) :: exDriverBetween)).step
      (.bytes 1 (exDriverBytes.drop 18 ++ [0xFE, 3]))).sys 2 o z → z = 0) ∧
    ((Driver.init.run (exDriverBefore ++ .sys (.call exAsk) :: exDriverBetween)).sys.api 1).now = 10500 ∧
    ((Driver.init.run exDriverBefore).sys.api 1).now = 500 := by
  have key : (match Obj.fromCluster (0x1234 : UInt16).toNat 0 2 0 0 7 [7, 0x34, 0x12],
      Obj.fromUnpiFrame exAnswer with
    | .ok _, .ok rsp => decide
      (∀ x ∈ ((Driver.init.run exDriverBefore).sys.api 1).waiters, ¬ Answers x.matcher rsp)
    | _, _ => false) = true := by decide +kernel
  have hst : statusesOf ((Driver.init.run (exDriverBefore ++ .sys (.call exAsk) :: exDriverBetween)).step
      (.bytes 1 (exDriverBytes.drop 18 ++ [0xFE, 3]))).sys 2 = [some (.int 0), some (.int 0)] := by
    decide +kernel
  rcases h1 : Obj.fromCluster (0x1234 : UInt16).toNat 0 2 0 0 7 [7, 0x34, 0x12] with e | o
  · rw [h1] at key; cases key
  rcases h2 : Obj.fromUnpiFrame exAnswer with e | rsp
  · rw [h1, h2] at key; cases key
  rw [h1, h2] at key
  refine ⟨o, rsp, rfl, rfl, by decide +kernel, ⟨?_, ?_, ?_⟩, ?_, by decide +kernel, by decide +kernel,
    by decide +kernel, by decide +kernel, ?_, ?_, of_decide_eq_true key, ?_, ?_, ?_, by decide +kernel, by decide +kernel⟩
  · intro c q h hq
    simp only [exDriverBefore, exDriverBetween, exBefore, List.map_cons, List.map_nil, List.cons_append,
      List.nil_append, List.mem_cons, List.not_mem_nil, or_false, DriverEvent.sys.injEq, AppEvent.call.injEq,
      reduceCtorEq, false_or] at h
    rcases h with rfl | rfl | rfl
    · have : (6 : Int) = q := by simpa [Call.wantsReply] using hq
      omega
    · have : (7 : Int) = q := by simpa [exToggle, Call.wantsReply] using hq
      omega
    · have : (7 : Int) = q := by simpa [exToggle, Call.wantsReply] using hq
      omega
  · intro i o q h
    simp [exDriverBefore, exDriverBetween, exBefore] at h
  · intro ds h
    have : ds = exApp.devices := by
      simpa [exDriverBefore, exDriverBetween, exBefore] using h
    subst this
    decide
  · intro i m to q h
    simp [exDriverBefore, exDriverBetween, exBefore] at h
  · intro k hk o j w hpc
    have hw : (Driver.init.run exDriverBefore).sys.tasks.all (fun k => match k.pc with
        | .waiting _ (some (j, _)) => j == 1
        | _ => true) = true := by decide +kernel
    have := List.all_eq_true.mp hw k hk
    rw [hpc] at this
    exact of_decide_eq_true this
  · intro t o x hm
    have hall : ((Driver.init.run exDriverBefore).sys.api 1).log.all (fun ev => match ev with
        | .submitted _ _ (some w) _ => w != ((Driver.init.run exDriverBefore).sys.api 1).waiterId
        | _ => true) = true := by decide +kernel
    have := List.all_eq_true.mp hall _ hm
    dsimp only at this
    rw [bne_self_eq_false] at this
    cases this
  · intro e he
    simp only [exDriverBetween, List.mem_cons, List.not_mem_nil, or_false, DriverEvent.sys.injEq,
      AppEvent.api.injEq, reduceCtorEq, false_or, true_and] at he
    rcases he with rfl | rfl | rfl <;> exact ⟨fun h => (by cases h), fun o x h => (by cases h)⟩
  · intro p hp hr
    obtain ⟨g1, g2⟩ := replyFrom_bytes hr
    have hall : exDriverItems.all (fun p =>
        !decide (p.2.frame.commandId = 0x82 ∧ p.2.frame.data.take 2 = le16 0x1234)) = true := by decide +kernel
    have := List.all_eq_true.mp hall _ hp
    have h : decide (p.2.frame.commandId = 0x82 ∧ p.2.frame.data.take 2 = le16 0x1234) = true :=
      decide_eq_true ⟨g1, g2⟩
    rw [h] at this
    cases this
  · intro z hz
    have := answered_statuses hz
    rw [hst] at this
    simpa using this

/-- What zigpy gets in the third chunk: the message, the other node's reply (number 6), ours. -/
example : ((Driver.init.run (exDriverBefore ++ .sys (.call exAsk) :: exDriverBetween)).step
      (.bytes 1 (exDriverBytes.drop 18 ++ [0xFE, 3]))).effects =
    handOver ⟨[2, 2, 2, 2, 2, 2, 2, 2], 0x1234⟩ 87 6 1 1 exMessage.data ++
    handOver ⟨[1, 1, 1, 1, 1, 1, 1, 1], 0x1111⟩ 0 0x8002 0 0
      [6, 0, 0x11, 0x11, 1, 0x40, 0x8E, 0x5F, 0x11, 80, 160, 0, 0, 0, 160, 0, 0] ++
    handOver ⟨[2, 2, 2, 2, 2, 2, 2, 2], 0x1234⟩ 0 0x8002 0 0
      [7, 0, 0x34, 0x12, 1, 0x40, 0x8E, 0x5F, 0x11, 80, 160, 0, 0, 0, 160, 0, 0] := by decide +kernel

/-- For `c76_story`: the two chunks between the other events, the rest still to come. The message of the
third item and the neighbour table of the fourth are not complete, nothing is told yet; then they are. -/
example : (∀ i c, .bytes i c ∈ exDriverBetween → i = 1) ∧ (∀ ds, .devices ds ∉ exDriverBetween) ∧
    arrivedAt 1 exDriverBetween ++ exDriverBytes.drop 18 = onWire (exDriverItems ++ [([9], .other exAnswer)]) [] ∧
    ((Driver.init.run (exDriverBefore ++ exDriverBetween)).effects = []) ∧
    ((Driver.init.run (exDriverBefore ++ exDriverBetween ++
      [.sys (.call exToggle), .bytes 1 ((exDriverBytes.drop 18).take 40), .led])).effects ≠ []) := by
  refine ⟨?_, ?_, by decide +kernel, by decide +kernel, by decide +kernel⟩
  · intro i c h
    simp only [exDriverBetween, List.mem_cons, DriverEvent.bytes.injEq, reduceCtorEq, false_or, List.not_mem_nil,
      or_false] at h
    rcases h with h | h <;> exact h.1
  · intro ds h
    simp [exDriverBetween] at h

example : (Driver.init.run (exDriverBefore ++ exDriverBetween)).app.product = some 0 := by decide +kernel

/-- For `c77_connecting`: a restart during which the new port delivers a whole message and the beginning of
the same message again. Only the second is told. -/
def exConnecting : List DriverEvent × List DriverEvent :=
  ([.bytes 2 (onWire [([5], .report exMessage [])] []), .sys (.api 1 (.tick 500)),
    .bytes 2 ((onWire [([], .report exMessage [])] []).take 9)],
   [.sys (.newSemaphore 0), .bytes 2 ((onWire [([], .report exMessage [])] []).drop 9)])

example : (Driver.init.run exDriverBefore).app.product ≠ none ∧
    (Driver.init.run exDriverBefore).buffer 2 = [] ∧
    ((Driver.init.run (exDriverBefore ++ exConnecting.1)).step (.sys .newApi)).sys.cur = 2 ∧
    arrivedAt 2 exConnecting.1 =
      onWire [([5], .report exMessage [])] [] ++ (onWire [([], .report exMessage [])] []).take 9 ∧
    (onWire [([], .report exMessage [])] []).take 9 ++ arrivedAt 2 exConnecting.2 =
      onWire [([], .report exMessage [])] [] ∧
    (Driver.init.run (exDriverBefore ++ exConnecting.1)).effects = [] ∧
    (Driver.init.run (exDriverBefore ++ (exConnecting.1 ++ .sys .newApi :: exConnecting.2))).effects =
      handOver ⟨[2, 2, 2, 2, 2, 2, 2, 2], 0x1234⟩ 87 6 1 1 exMessage.data := by decide +kernel

/-! ## The LED -/

/-- **C75.** When `handle_znp` decides to switch the LED, the request is made exactly once, in the order
of the decisions, to the API that was current when it was decided: at every moment the decisions so far
are the LED requests made (`sent`) followed by the tasks that have not begun; and the LED requests that an
API got are exactly its part of `sent`, for LED 3. (`hno`: nobody else makes such requests.) -/
theorem c75_led (es : List DriverEvent)
    (hno : ∀ i o w x, .sys (.api i (.submit o w x)) ∈ es → ¬ LedRequest o) :
    ∃ sent : List (Nat × Int),
      sent ++ (Driver.init.run es).leds = ledDecisions Driver.init es ∧
      ∀ i, (ledRequests ((Driver.init.run es).sys.api i).log).map (·.payload) =
        (sent.filter (·.1 = i)).map fun p => [("ledid", .int 3), ("mode", .int p.2)] := by
  obtain ⟨sent, h⟩ := ledInv_run es (d := Driver.init) (sent := []) (all := [])
    ⟨ainv_run [], rfl, fun i => rfl⟩ hno
  exact ⟨sent, h.all, h.made⟩

/-- Nothing is left to do: every decision was carried out. -/
theorem c75_done (es : List DriverEvent)
    (hno : ∀ i o w x, .sys (.api i (.submit o w x)) ∈ es → ¬ LedRequest o) :
    ∃ n, (Driver.init.run (es ++ List.replicate n .led)).leds = [] ∧
      ∀ i, (ledRequests ((Driver.init.run (es ++ List.replicate n .led)).sys.api i).log).map (·.payload) =
        ((ledDecisions Driver.init es).filter (·.1 = i)).map fun p =>
          [("ledid", .int 3), ("mode", .int p.2)] := by
  have key : ∀ (l : List (Nat × Int)) (d : Driver) (sent : List (Nat × Int)), d.leds = l →
      LedInv d sent (ledDecisions Driver.init es) → ∃ n sent', (d.run (List.replicate n .led)).leds = [] ∧
        LedInv (d.run (List.replicate n .led)) sent' (ledDecisions Driver.init es) := by
    intro l
    induction l with
    | nil => intro d sent hl h; exact ⟨0, sent, hl, h⟩
    | cons p l ih =>
      intro d sent hl h
      obtain ⟨o, ho, -⟩ := led_fields p.2
      have hs : d.step .led = { d with leds := l, sys := d.sys.apiStep p.1 (.submit o none none) } := by
        simp only [Driver.step, hl, ho]
      obtain ⟨sent', h'⟩ := ledInv_step h .led (by intro i o w x he; cases he)
      have he : (d.step .led).effects = d.effects := by rw [hs]
      rw [he, List.drop_length, show ledModes [] = [] from rfl, List.map_nil, List.append_nil] at h'
      obtain ⟨n, sent'', h1, h2⟩ := ih (d.step .led) sent' (by rw [hs]) h'
      exact ⟨n + 1, sent'', h1, h2⟩
  obtain ⟨sent, h⟩ := ledInv_run es (d := Driver.init) (sent := []) (all := [])
    ⟨ainv_run [], rfl, fun i => rfl⟩ hno
  obtain ⟨n, sent', h1, h2⟩ := key _ _ sent rfl h
  refine ⟨n, ?_⟩
  rw [driver_run_append]
  refine ⟨h1, fun i => ?_⟩
  rw [h2.made i, ← h2.all, h1, List.append_nil]

/-- Permit join is reported on and off, with a restart between; the first request has been made, the
second not yet. -/
def exLed : List DriverEvent :=
  [.sys .newApi, .sys (.newSemaphore 0), .bytes 1 (wire (Frame.of .AREQ .ZDO 0xCB [60])), .sys .newApi,
   .led, .bytes 1 (wire (Frame.of .AREQ .ZDO 0xCB [0]))]

example : ledDecisions Driver.init exLed = [(1, 1), (2, 0)] ∧ (Driver.init.run exLed).leds = [(2, 0)] ∧
    (ledRequests ((Driver.init.run exLed).sys.api 1).log).map (·.payload) =
      [[("ledid", .int 3), ("mode", .int 1)]] := by decide +kernel

/-- `c75_led` for it: the decisions are those that were carried out and the one that is left. -/
example : ∃ sent : List (Nat × Int), sent ++ [(2, 0)] = [(1, 1), (2, 0)] ∧
    (ledRequests ((Driver.init.run exLed).sys.api 2).log).map (·.payload) =
      (sent.filter (·.1 = 2)).map fun p => [("ledid", .int 3), ("mode", .int p.2)] := by
  obtain ⟨sent, h1, h2⟩ := c75_led exLed (by simp [exLed])
  rw [show (Driver.init.run exLed).leds = [(2, 0)] by decide +kernel,
    show ledDecisions Driver.init exLed = [(1, 1), (2, 0)] by decide +kernel] at h1
  exact ⟨sent, h1, h2 2⟩

end Zcc
