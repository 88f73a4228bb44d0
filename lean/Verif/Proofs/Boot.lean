import Verif.Spec.Boot
import Verif.Props.Stack
import Verif.Props.Blame
import Verif.Proofs.Driver
import Verif.Proofs.StartSeq

/-! # Lemmas for start-up over the serial port -/

namespace Zcc

open Spec

/-! ## The coroutine's API -/

/-- The API of a coroutine goes through the events of others and those of the coroutine. -/
theorem client_history {α : Type} (p : Prog α) (evs : List ClientEvent) :
    ∃ es, (Client.run p evs).api = Api.init.run es ∧
      (∀ m timeout q, .register m timeout q ∈ es → ClientEvent.api (.register m timeout q) ∈ evs ∨
        q = none ∧ ∃ w, (⟨.waitFor m timeout, .ok w⟩ : Act) ∈ (Client.run p evs).hist) ∧
      ∀ o n, .registerResponse o n ∈ es → ClientEvent.api (.registerResponse o n) ∈ evs := by
  induction evs using client_ind with
  | h0 => exact ⟨[], rfl, fun m timeout q h => by (cases h), fun o n h => by cases h⟩
  | h1 evs ev ih =>
    obtain ⟨es, he, hr, hb⟩ := ih
    rw [client_snoc]
    have keep : ∀ {c' : Client α}, c'.api = (Client.run p evs).api →
        (∀ a ∈ (Client.run p evs).hist, a ∈ c'.hist) →
        ∃ es, c'.api = Api.init.run es ∧
          (∀ m timeout q, .register m timeout q ∈ es → ClientEvent.api (.register m timeout q) ∈ evs ++ [ev] ∨
            q = none ∧ ∃ w, (⟨.waitFor m timeout, .ok w⟩ : Act) ∈ c'.hist) ∧
          ∀ o n, .registerResponse o n ∈ es → ClientEvent.api (.registerResponse o n) ∈ evs ++ [ev] := by
      intro c' h1 hh
      refine ⟨es, h1.trans he, fun m timeout q h => ?_, fun o n h => List.mem_append_left _ (hb o n h)⟩
      rcases hr m timeout q h with h | ⟨h1, w, h2⟩
      · exact .inl (List.mem_append_left _ h)
      · exact .inr ⟨h1, w, hh _ h2⟩
    have more : ∀ {c' : Client α} {e : Event}, (∀ a ∈ (Client.run p evs).hist, a ∈ c'.hist) →
        c'.api = (Client.run p evs).api.step e →
        (∀ m timeout q, e = .register m timeout q → ClientEvent.api (.register m timeout q) ∈ evs ++ [ev] ∨
          q = none ∧ ∃ w, (⟨.waitFor m timeout, .ok w⟩ : Act) ∈ c'.hist) →
        (∀ o n, e = .registerResponse o n → ClientEvent.api (.registerResponse o n) ∈ evs ++ [ev]) →
        ∃ es, c'.api = Api.init.run es ∧
          (∀ m timeout q, .register m timeout q ∈ es → ClientEvent.api (.register m timeout q) ∈ evs ++ [ev] ∨
            q = none ∧ ∃ w, (⟨.waitFor m timeout, .ok w⟩ : Act) ∈ c'.hist) ∧
          ∀ o n, .registerResponse o n ∈ es → ClientEvent.api (.registerResponse o n) ∈ evs ++ [ev] := by
      intro c' e hh h1 h2 h3
      refine ⟨es ++ [e], by rw [h1, he, run_snoc], fun m timeout q h => ?_, fun o n h => ?_⟩
      · rcases List.mem_append.mp h with h | h
        · rcases hr m timeout q h with h | ⟨h1, w, h2⟩
          · exact .inl (List.mem_append_left _ h)
          · exact .inr ⟨h1, w, hh _ h2⟩
        · exact h2 m timeout q (List.mem_singleton.mp h).symm
      · rcases List.mem_append.mp h with h | h
        · exact List.mem_append_left _ (hb o n h)
        · exact h3 o n (List.mem_singleton.mp h).symm
    cases client_stepped (Client.run p evs) ev with
    | same h1 h2 h3 h4 => exact keep h1 (by rw [h3]; exact fun _ h => h)
    | event e hc h1 h2 h3 h4 =>
      refine more (by rw [h3]; exact fun _ h => h) h1 (fun m timeout q h => ?_) fun o n h => ?_
      · rcases hc with rfl | ⟨o, rfl⟩ | ⟨t, -, rfl, -⟩
        · exact .inl (List.mem_append_right _ (by rw [h]; exact .head _))
        · cases h
        · cases h
      · rcases hc with rfl | ⟨o, rfl⟩ | ⟨t, -, rfl, -⟩
        · exact List.mem_append_right _ (by rw [h]; exact .head _)
        · cases h
        · cases h
    | submit hp hn ho h1 h2 h3 h4 =>
      exact more (by rw [h3]; exact fun _ h => h) h1 (fun m timeout q h => by cases h) fun o n h => by cases h
    | wait hp h1 h2 h3 h4 => exact keep h1 (by rw [h3]; exact fun _ h => h)
    | @ended _ _ op k r hp hend h2 h3 h4 =>
      have hh : ∀ a ∈ (Client.run p evs).hist, a ∈ ((Client.run p evs).step ev).hist := by
        rw [h3]; exact fun _ h => List.mem_append_left _ h
      generalize ha : (⟨op, r⟩ : Act) = a at hend
      obtain ⟨s, hs⟩ : ∃ s, ((Client.run p evs).step ev).api = s := ⟨_, rfl⟩
      rw [hs] at hend
      cases hend with
      | @waitFor m timeout =>
        refine more hh hs (fun m' timeout' q h => ?_) fun o n h => by cases h
        cases h
        exact .inr ⟨rfl, _, by rw [h3, ha]; exact List.mem_append_right _ (.head _)⟩
      | late => exact more hh hs (fun m' timeout' q h => by cases h) fun o n h => by cases h
      | interrupted => exact more hh hs (fun m' timeout' q h => by cases h) fun o n h => by cases h
      | _ => exact keep hs hh

/-- The transaction numbers that others wait with are bytes. -/
def ByteNumbers (evs : List ClientEvent) : Prop :=
  ∀ o n, ClientEvent.api (.registerResponse o (some n)) ∈ evs → 0 ≤ n ∧ n < 256

theorem client_lawful {α : Type} {p : Prog α} (hm : Modest p) {evs : List ClientEvent} (hr : Polite evs)
    (hb : ByteNumbers evs) :
    ∃ es, (Client.run p evs).api = Api.init.run es ∧ StartupWaiters es ∧ ByteSequences es := by
  obtain ⟨es, he, h1, h2⟩ := client_history p evs
  refine ⟨es, he, fun m to q h => ?_, fun o n h => hb o n (h2 o _ h), fun m to q h => ?_⟩
  · rcases h1 m to q h with h | ⟨-, w, h⟩
    · exact (hr m to q h).1
    · exact hm _ (hist_runs p evs) _ h m to rfl
  · rcases h1 m to q h with h | ⟨h, -⟩
    · exact (hr m to q h).2
    · exact h

theorem modest_startup {o : Options} (ho : WellFormed o) (autoForm : Bool) : Modest (startup o autoForm) := by
  intro h hr a ha m timeout hop
  have := asks_startup ho autoForm h hr a ha
  rw [hop] at this
  exact this

theorem client_hist {α : Type} (c : Client α) (ev : ClientEvent) : ∃ l, (c.step ev).hist = c.hist ++ l := by
  cases client_stepped c ev with
  | same h1 h2 h3 h4 => exact ⟨[], by rw [h3, List.append_nil]⟩
  | event e he h1 h2 h3 h4 => exact ⟨[], by rw [h3, List.append_nil]⟩
  | submit hp hn ho h1 h2 h3 h4 => exact ⟨[], by rw [h3, List.append_nil]⟩
  | wait hp h1 h2 h3 h4 => exact ⟨[], by rw [h3, List.append_nil]⟩
  | ended hp he h2 h3 h4 => exact ⟨_, h3⟩

theorem isOpen_step {α : Type} {c : Client α} (h : c.isOpen = true) (ev : ClientEvent) :
    (c.step ev).isOpen = true := by
  obtain ⟨l, hl⟩ := client_hist c ev
  unfold Client.isOpen at *
  rw [hl, List.any_append, h, Bool.true_or]

/-- The frames of a chunk. -/
theorem client_frames {α : Type} (p : Prog α) (evs : List ClientEvent) (fs : List Frame) :
    Client.run p (evs ++ fs.map fun f => .api (.frame f)) =
      { Client.run p evs with api := (Client.run p evs).api.run (fs.map .frame) } := by
  unfold Client.run
  rw [List.foldl_append]
  generalize evs.foldl Client.step { prog := p } = c
  induction fs generalizing c with
  | nil => rfl
  | cons f fs ih => exact ih _

/-! ## One message -/

theorem led_ids : ∀ cs ∈ definition .ZDO, ∀ c ∈ cs, (c.name = "permitJoinInd" → c.id = 0xCB) ∧
    (c.name = "mgmtPermitJoinRsp" → c.id = 0xB6) := by decide +kernel

/-- A message that can be handled does not raise, if the product is known or it does not switch the LED. -/
theorem sound_handled {es : List Event} (hreg : StartupWaiters es) (hb : ByteSequences es) {a : App} {f : Frame}
    (hf : Handleable f) (hl : a.product ≠ none ∨ ¬ LedFrame f) :
    (receive (Api.init.run es) a (received f)).2.raised = none := by
  obtain ⟨o, ho', hw⟩ := hf
  have ho : Obj.fromUnpiFrame (received f) = .ok o := ho'
  obtain ⟨q, hq⟩ := c27_matching_never_raises es hreg _ o ho
  have hs := handed_sequence es hb _ _ hq
  unfold receive
  rcases hr : (Api.init.run es).dataReceived (received f) with ⟨s, e | o'⟩
  · rw [hr] at hq; simp at hq
  · rw [hr] at hq
    simp only [Except.ok.injEq] at hq
    subst hq
    by_cases ht : f.commandType = .AREQ
    · refine handleZnp_no_raise ho hw (hl.imp_right fun hl hx => hl ?_) hs
      obtain ⟨c, ⟨cs, hcs, hc⟩, hid, hpar, hrp, hoe⟩ := fromUnpiFrame_ok ho
      have h1 : o.subsystem = f.subsystem := by rw [hoe]; rfl
      have h2 : o.command = c.name := by rw [hoe]
      obtain ⟨hx1, hx2⟩ := hx
      rw [h1] at hx1
      rw [show (received f).subsystem = .ZDO from hx1] at hcs
      rw [h2] at hx2
      have hid : f.commandId = c.id := hid.symm
      obtain ⟨g1, g2⟩ := led_ids cs hcs c hc
      exact ⟨ht, hx1, hx2.imp (fun h => hid.trans (g1 h)) fun h => hid.trans (g2 h)⟩
    · have h1 : o.commandType = f.commandType := by
        obtain ⟨c, _, _, _, _, hoe⟩ := fromUnpiFrame_ok ho
        rw [hoe]; rfl
      unfold App.handleZnp
      dsimp only
      rw [if_pos (by rw [h1]; exact ht)]

/-! ## Chunks of bytes -/

/-- What messages leave of the application's state. -/
structure Keeps (a a' : App) : Prop where
  product : a'.product = a.product
  devices : ∀ i ∈ a.devices.map (·.ieee), i ∈ a'.devices.map (·.ieee)

theorem Keeps.refl (a : App) : Keeps a a := ⟨rfl, fun _ h => h⟩

theorem Keeps.trans {a b c : App} (h : Keeps a b) (h' : Keeps b c) : Keeps a c :=
  ⟨h'.product.trans h.product, fun i hi => h'.devices i (h.devices i hi)⟩

theorem handleJoin_keeps (a : App) (nwk : Int) (ieee : List UInt8) :
    Keeps a (a.handleJoin nwk ieee) ∧ ieee ∈ (a.handleJoin nwk ieee).devices.map (·.ieee) := by
  unfold App.handleJoin
  split
  · rename_i h
    have hm : (a.devices.map fun d => if d.ieee = ieee then { d with nwk } else d).map (·.ieee) =
        a.devices.map (·.ieee) := by
      rw [List.map_map]
      refine List.map_congr_left fun d _ => ?_
      dsimp only [Function.comp]
      split <;> rfl
    refine ⟨⟨rfl, fun i hi => ?_⟩, ?_⟩
    · show i ∈ List.map _ (List.map _ _)
      rw [hm]; exact hi
    · show ieee ∈ List.map _ (List.map _ _)
      rw [hm]
      obtain ⟨d, hd, he⟩ := List.any_eq_true.mp h
      exact List.mem_map.mpr ⟨d, hd, of_decide_eq_true he⟩
  · refine ⟨⟨rfl, fun i hi => ?_⟩, ?_⟩
    · show i ∈ List.map _ (a.devices ++ _)
      rw [List.map_append]; exact List.mem_append_left _ hi
    · show ieee ∈ List.map _ (a.devices ++ _)
      rw [List.map_append]; exact List.mem_append_right _ (.head _)

theorem handleZnp_keeps (a : App) (o : Obj) : Keeps a (a.handleZnp o).app := by
  unfold App.handleZnp
  split
  · exact .refl a
  split
  · exact .refl a
  dsimp only
  split
  · split
    · exact .refl a
    · split
      · dsimp only
        rw [dispatch_app]
        exact (handleJoin_keeps a _ _).1
      · exact .refl a
  · rw [dispatch_app]; exact .refl a

theorem receive_keeps (s : Api) (a : App) (f : Frame) : Keeps a (receive s a f).2.app := by
  unfold receive
  rcases s.dataReceived f with ⟨s', e | o⟩
  · exact .refl a
  · exact handleZnp_keeps a o

/-- A chunk of arbitrary bytes: the handler gets frames, all of which were among the bytes. -/
theorem dr_any {σ : Type} (h : Handler σ) (c : List UInt8) : ∀ (g : Gateway σ),
    ∃ fs : List Frame,
      (Gateway.dataReceived h g c).1.api = fs.foldl (fun s f => (h s f).1) g.api ∧
      ∀ input ds, Accounted input ⟨g.buffer, ds⟩ → ∃ a, a <+: c ∧
        ((Gateway.dataReceived h g c).2 = none → a = c) ∧
        Accounted (input ++ a) ⟨(Gateway.dataReceived h g c).1.buffer, ds ++ fs⟩ := by
  induction c with
  | nil =>
    intro g
    refine ⟨[], rfl, fun input ds hg => ⟨[], List.prefix_rfl, fun _ => rfl, ?_⟩⟩
    simpa [Gateway.dataReceived] using hg
  | cons x c ih =>
    intro g
    have main : ∀ input ds, Accounted input ⟨g.buffer, ds⟩ → ∃ p cc, BufInv (Parser.write g.buffer x).1 ∧
        input ++ [x] = (p ++ cc) ++ (Parser.write g.buffer x).1 ∧ Explains p ds ∧
        ∀ fr, (Parser.write g.buffer x).2 = .ok (some fr) → ∃ f, Fits f ∧ fr = received f ∧ cc = wire f := by
      rintro input ds ⟨hbi, p, hp, hex⟩
      obtain ⟨cc, hcc, hfr⟩ := write_sound g.buffer x hbi
      refine ⟨p, cc, write_bufInv g.buffer x hbi, ?_, hex, hfr⟩
      rw [hp]
      have hcc : g.buffer ++ [x] = cc ++ (Parser.write g.buffer x).1 := hcc
      simp [hcc]
    rcases hw : Parser.write g.buffer x with ⟨b', err | _ | f⟩
    · refine ⟨[], ?_, ?_⟩ <;> simp only [Gateway.dataReceived, hw]
      · rfl
      · intro input ds hg
        obtain ⟨p, cc, h1, h2, h3, -⟩ := main input ds hg
        rw [hw] at h1 h2
        exact ⟨[x], by simp, fun h => (by cases h), h1, _, h2, by simpa using h3.skip cc⟩
    · obtain ⟨fs, g1, g2⟩ := ih ⟨b', g.api⟩
      refine ⟨fs, ?_, ?_⟩ <;> simp only [Gateway.dataReceived, hw]
      · exact g1
      · intro input ds hg
        obtain ⟨p, cc, h1, h2, h3, -⟩ := main input ds hg
        rw [hw] at h1 h2
        obtain ⟨a, k1, k2, k3⟩ := g2 (input ++ [x]) ds ⟨h1, _, h2, h3.skip cc⟩
        exact ⟨x :: a, by simpa using k1, fun h => by rw [k2 h], by simpa using k3⟩
    · have acc : ∀ input ds, Accounted input ⟨g.buffer, ds⟩ → Accounted (input ++ [x]) ⟨b', ds ++ [f]⟩ := by
        intro input ds hg
        obtain ⟨p, cc, h1, h2, h3, h4⟩ := main input ds hg
        rw [hw] at h1 h2 h4
        obtain ⟨f', k1, rfl, rfl⟩ := h4 f rfl
        exact ⟨h1, _, h2, h3.snoc f' k1⟩
      rcases hh : h g.api f with ⟨s, _ | err⟩
      · obtain ⟨fs, g1, g2⟩ := ih ⟨b', s⟩
        refine ⟨f :: fs, ?_, ?_⟩ <;> simp only [Gateway.dataReceived, hw, hh, List.foldl_cons]
        · exact g1
        · intro input ds hg
          obtain ⟨a, k1, k2, k3⟩ := g2 _ _ (acc input ds hg)
          exact ⟨x :: a, by simpa using k1, fun h => by rw [k2 h], by simpa using k3⟩
      · refine ⟨[f], ?_, ?_⟩ <;> simp only [Gateway.dataReceived, hw, hh, List.foldl_cons, List.foldl_nil]
        intro input ds hg
        exact ⟨[x], by simp, fun h => (by cases h), acc input ds hg⟩

/-- The frames that the application and the API get. -/
theorem handler_frames (fs : List Frame) : ∀ (s : Api) (a : App) (e : List Effect),
    (fs.foldl (fun t f => (Stack.handler t f).1) (s, a, e)).1 = s.run (fs.map .frame) ∧
    Keeps a (fs.foldl (fun t f => (Stack.handler t f).1) (s, a, e)).2.1 := by
  induction fs with
  | nil => intro s a e; exact ⟨rfl, .refl a⟩
  | cons f fs ih =>
    intro s a e
    have h1 := receive_api s a f
    have h2 := receive_keeps s a f
    obtain ⟨k1, k2⟩ := ih (receive s a f).1 (receive s a f).2.app (e ++ (receive s a f).2.effects)
    refine ⟨?_, h2.trans k2⟩
    refine k1.trans ?_
    rw [h1]; rfl

/-- The same for the gateway of a start-up. -/
theorem boot_any (c : List UInt8) (b : List UInt8) (s : Api) (a : App) (e : List Effect) :
    ∃ fs : List Frame,
      (Gateway.dataReceived Stack.handler ⟨b, s, a, e⟩ c).1.api.1 = s.run (fs.map .frame) ∧
      Keeps a (Gateway.dataReceived Stack.handler ⟨b, s, a, e⟩ c).1.api.2.1 ∧
      ∀ input ds, Accounted input ⟨b, ds⟩ → ∃ w, w <+: c ∧
        ((Gateway.dataReceived Stack.handler ⟨b, s, a, e⟩ c).2 = none → w = c) ∧
        Accounted (input ++ w) ⟨(Gateway.dataReceived Stack.handler ⟨b, s, a, e⟩ c).1.buffer, ds ++ fs⟩ := by
  obtain ⟨fs, h1, h2⟩ := dr_any Stack.handler c ⟨b, s, a, e⟩
  obtain ⟨k1, k2⟩ := handler_frames fs s a e
  refine ⟨fs, ?_, ?_, h2⟩
  · rw [h1]; exact k1
  · rw [h1]; exact k2

/-- A chunk of a good stream completes some of its messages. -/
theorem SyncIt.split {c : List UInt8} : ∀ {b r : List UInt8} {items : List (List UInt8 × Frame)},
    SyncIt b (c ++ r) items → ∃ told rest b', items = told ++ rest ∧ SyncIt b' r rest := by
  induction c with
  | nil => exact fun {b} {r} {items} hs => ⟨[], items, b, rfl, hs⟩
  | cons x c ih =>
    intro b r items hs
    rcases SyncIt.step (r := c ++ r) hs with ⟨b', -, hs'⟩ | ⟨p, items', rfl, -, hs'⟩
    · exact ih hs'
    · obtain ⟨told, rest, b'', h1, h2⟩ := ih hs'
      exact ⟨p :: told, rest, b'', by rw [h1]; rfl, h2⟩

/-- No message that is complete before the bytes `r` switches the LED. -/
def DarkUntil (r : List UInt8) (items : List (List UInt8 × Frame)) : Prop :=
  ∀ told rest b', items = told ++ rest → SyncIt b' r rest → ∀ q ∈ told, ¬ LedFrame q.2

theorem DarkUntil.head {b c r : List UInt8} {p : List UInt8 × Frame} {items : List (List UInt8 × Frame)}
    (h : DarkUntil r (p :: items)) (hs : SyncIt b (c ++ r) items) : ¬ LedFrame p.2 := by
  obtain ⟨told, rest, b', rfl, h2⟩ := hs.split
  exact h (p :: told) rest b' rfl h2 p (.head _)

theorem DarkUntil.tail {r : List UInt8} {p : List UInt8 × Frame} {items : List (List UInt8 × Frame)}
    (h : DarkUntil r (p :: items)) : DarkUntil r items :=
  fun told rest b' h1 h2 q hq => h (p :: told) rest b' (by rw [h1]; rfl) h2 q (.tail _ hq)

/-- A chunk of a good stream: all of its frames. -/
theorem boot_chunk (c : List UInt8) : ∀ (b r : List UInt8) (items : List (List UInt8 × Frame)) (s : Api)
    (a : App) (e : List Effect), (∃ es, s = Api.init.run es ∧ StartupWaiters es ∧ ByteSequences es) →
    (∀ p ∈ items, Handleable p.2) → (a.product ≠ none ∨ DarkUntil r items) → SyncIt b (c ++ r) items →
    ∃ told rest b' a' e', items = told ++ rest ∧ SyncIt b' r rest ∧ Keeps a a' ∧
      Gateway.dataReceived Stack.handler ⟨b, s, a, e⟩ c =
        (⟨b', s.run (told.map fun p => .frame (received p.2)), a', e'⟩, none) := by
  induction c with
  | nil =>
    intro b r items s a e _ _ _ hs
    exact ⟨[], items, b, a, e, rfl, hs, .refl a, rfl⟩
  | cons x c ih =>
    intro b r items s a e hl hi hled hs
    rcases SyncIt.step (r := c ++ r) hs with ⟨b', hw, hs'⟩ | ⟨p, items', rfl, hw, hs'⟩
    · obtain ⟨told, rest, b'', a', e', h1, h2, h3, h4⟩ := ih b' r items s a e hl hi hled hs'
      refine ⟨told, rest, b'', a', e', h1, h2, h3, ?_⟩
      simp only [Gateway.dataReceived, hw]
      exact h4
    · obtain ⟨es, rfl, hreg, hb⟩ := hl
      have k0 := sound_handled hreg hb (hi p (.head _)) (hled.imp_right fun h => h.head hs')
      have k1 := receive_api (Api.init.run es) a (received p.2)
      have k2 := receive_keeps (Api.init.run es) a (received p.2)
      have hh : Stack.handler (Api.init.run es, a, e) (received p.2) =
          ((Api.init.run (es ++ [.frame (received p.2)]), (receive (Api.init.run es) a (received p.2)).2.app,
            e ++ (receive (Api.init.run es) a (received p.2)).2.effects), none) := by
        unfold Stack.handler
        dsimp only
        rw [k0, k1, api_run_append]
        rfl
      obtain ⟨told, rest, b'', a', e', h1, h2, h3, h4⟩ := ih [] r items'
        (Api.init.run (es ++ [.frame (received p.2)])) _ _
        ⟨_, rfl, startupWaiters_append hreg (by intro m to q hm; simp at hm),
          byteSequences_append hb ⟨by intro o n hm; simp at hm, by intro m to q hm; simp at hm⟩⟩
        (fun q hq => hi q (.tail _ hq)) (by rw [k2.product]; exact hled.imp_right DarkUntil.tail) hs'
      refine ⟨p :: told, rest, b'', a', e', by rw [h1]; rfl, h2, k2.trans h3, ?_⟩
      simp only [Gateway.dataReceived, hw, hh]
      rw [h4, List.map_cons, api_run_append]
      rfl

/-- A chunk of a good stream while the port is being connected. -/
theorem boot_early (c : List UInt8) : ∀ (b r : List UInt8) (items : List (List UInt8 × Frame)),
    (∀ p ∈ items, ∃ o, Obj.fromUnpiFrame (received p.2) = .ok o) → SyncIt b (c ++ r) items →
    ∃ lost rest b', items = lost ++ rest ∧ SyncIt b' r rest ∧
      Gateway.dataReceived Driver.earlyHandler ⟨b, ()⟩ c = (⟨b', ()⟩, none) := by
  induction c with
  | nil =>
    intro b r items _ hs
    exact ⟨[], items, b, rfl, hs, rfl⟩
  | cons x c ih =>
    intro b r items hi hs
    rcases SyncIt.step (r := c ++ r) hs with ⟨b', hw, hs'⟩ | ⟨p, items', rfl, hw, hs'⟩
    · obtain ⟨lost, rest, b'', h1, h2, h3⟩ := ih b' r items hi hs'
      refine ⟨lost, rest, b'', h1, h2, ?_⟩
      simp only [Gateway.dataReceived, hw]
      exact h3
    · obtain ⟨lost, rest, b'', h1, h2, h3⟩ := ih [] r items' (fun q hq => hi q (.tail _ hq)) hs'
      obtain ⟨o, ho⟩ := hi p (.head _)
      have hhand : Driver.earlyHandler () (received p.2) = ((), none) := by
        unfold Driver.earlyHandler
        rw [show Obj.fromUnpiFrame (received p.2) = .ok o from ho]
      refine ⟨p :: lost, rest, b'', by rw [h1]; rfl, h2, ?_⟩
      simp only [Gateway.dataReceived, hw, hhand]
      exact h3

/-! ## Executions -/

theorem boot_append (b : Boot) (es es' : List BootEvent) : b.run (es ++ es') = (b.run es).run es' := by
  unfold Boot.run; rw [List.foldl_append]

theorem portBytes_append (es es' : List BootEvent) : portBytes (es ++ es') = portBytes es ++ portBytes es' := by
  induction es with
  | nil => rfl
  | cons e es ih => cases e <;> simp [portBytes, ih]

/-- A frame of somebody else does not occur; any other event is one of the coroutine. -/
theorem boot_client (b : Boot) (e : ClientEvent) (es : List BootEvent) :
    (b.step (.client e) = b ∧ portless (.client e :: es) = portless es ∧
      ∀ gs, portWeave (.client e :: es) gs = portWeave es gs) ∨
    (b.step (.client e) = { b with
        client := b.client.step e
        app := ((b.client.step e).hist.drop b.client.hist.length).foldl App.learn b.app } ∧
      portless (.client e :: es) = e :: portless es ∧
      ∀ gs, portWeave (.client e :: es) gs = e :: portWeave es gs) := by
  cases e with
  | api e =>
    cases e with
    | frame f => exact .inl ⟨rfl, rfl, fun _ => by rw [portWeave]⟩
    | _ => exact .inr ⟨rfl, rfl, fun _ => rfl⟩
  | _ => exact .inr ⟨rfl, rfl, fun _ => rfl⟩

theorem portWeave_mem (es : List BootEvent) : ∀ (gs : List (List Frame)) (e : ClientEvent),
    e ∈ portWeave es gs → .client e ∈ es ∨ ∃ f, e = .api (.frame f) := by
  induction es with
  | nil => intro gs e h; simp [portWeave] at h
  | cons x es ih =>
    intro gs e h
    cases x with
    | bytes c =>
      cases gs with
      | nil =>
        rw [portWeave] at h
        exact (ih [] e h).imp_left (.tail _)
      | cons g gs =>
        rw [portWeave] at h
        rcases List.mem_append.mp h with h | h
        · obtain ⟨f, -, rfl⟩ := List.mem_map.mp h
          exact .inr ⟨f, rfl⟩
        · exact (ih gs e h).imp_left (.tail _)
    | client x =>
      rcases boot_client ({ client := { prog := .ret () } } : Boot) x es with ⟨-, -, hw⟩ | ⟨-, -, hw⟩
      · rw [hw] at h
        exact (ih gs e h).imp_left (.tail _)
      · rw [hw] at h
        cases h with
        | head => exact .inl (.head _)
        | tail _ h => exact (ih gs e h).imp_left (.tail _)

theorem portless_mem (es : List BootEvent) : ∀ e ∈ portless es, .client e ∈ es := by
  induction es with
  | nil => intro e h; cases h
  | cons x es ih =>
    intro e h
    cases x with
    | bytes c => exact .tail _ (ih e h)
    | client x =>
      rcases boot_client ({ client := { prog := .ret () } } : Boot) x es with ⟨-, hw, -⟩ | ⟨-, hw, -⟩
      · rw [hw] at h
        exact .tail _ (ih e h)
      · rw [hw] at h
        cases h with
        | head => exact .head _
        | tail _ h => exact .tail _ (ih e h)

/-- Until it is connected, `startup` does nothing. -/
theorem connect_waits {α : Type} {c : Client α} {k : Except PyErr Unit → Prog α}
    (h1 : c.prog = .call .connect k) (h2 : c.spawned = []) (ev : ClientEvent) (h3 : ∀ r, ev ≠ .connected r) :
    ∃ s, c.step ev = { c with api := s } := by
  cases ev with
  | api e => exact ⟨_, rfl⟩
  | go =>
    have : c.step .go = c := by unfold Client.step; rw [h1]; rfl
    exact ⟨c.api, this⟩
  | connected r => exact absurd rfl (h3 r)
  | spawned => exact ⟨c.api, by show c.runSpawned = c; unfold Client.runSpawned; rw [h2]⟩
  | cancel =>
    have : c.step .cancel = c := by unfold Client.step; rw [h1]; rfl
    exact ⟨c.api, this⟩

/-- A start-up that is not connected yet. -/
structure Before (k : Except PyErr Unit → Prog Unit) (b : Boot) : Prop where
  prog : b.client.prog = .call .connect k
  hist : b.client.hist = []
  spawned : b.client.spawned = []

theorem Before.closed {k : Except PyErr Unit → Prog Unit} {b : Boot} (h : Before k b) :
    b.client.isOpen = false := by
  unfold Client.isOpen; rw [h.hist]; rfl

theorem before_step {k : Except PyErr Unit → Prog Unit} {b : Boot} (h : Before k b) (e : BootEvent)
    (hc : ∀ r, e ≠ .client (.connected r)) :
    Before k (b.step e) ∧ (b.step e).app = b.app ∧ (b.step e).effects = b.effects := by
  cases e with
  | bytes c =>
    unfold Boot.step
    dsimp only
    rw [if_neg (by rw [h.closed]; exact Bool.false_ne_true)]
    exact ⟨⟨h.prog, h.hist, h.spawned⟩, rfl, rfl⟩
  | client e =>
    rcases boot_client b e [] with ⟨hs, -, -⟩ | ⟨hs, -, -⟩
    · rw [hs]; exact ⟨h, rfl, rfl⟩
    · obtain ⟨s, he⟩ := connect_waits h.prog h.spawned e fun r h => hc r (by rw [h])
      rw [hs, he]
      refine ⟨⟨h.prog, h.hist, h.spawned⟩, ?_, rfl⟩
      show (b.client.hist.drop b.client.hist.length).foldl App.learn b.app = b.app
      rw [h.hist]; rfl

theorem before_run {k : Except PyErr Unit → Prog Unit} (es : List BootEvent) : ∀ {b : Boot}, Before k b →
    (∀ r, .client (.connected r) ∉ es) →
    Before k (b.run es) ∧ (b.run es).client = (portless es).foldl Client.step b.client ∧
      (b.run es).app = b.app ∧ (b.run es).effects = b.effects := by
  induction es with
  | nil => intro b h _; exact ⟨h, rfl, rfl, rfl⟩
  | cons e es ih =>
    intro b h hc
    obtain ⟨h1, h2, h3⟩ := before_step h e fun r he => hc r (he ▸ .head _)
    obtain ⟨g1, g2, g3, g4⟩ := ih h1 fun r hr => hc r (.tail _ hr)
    refine ⟨g1, g2.trans ?_, g3.trans h2, g4.trans h3⟩
    cases e with
    | bytes c =>
      have : (b.step (.bytes c)).client = b.client := by
        unfold Boot.step
        dsimp only
        rw [if_neg (by rw [h.closed]; exact Bool.false_ne_true)]
      rw [this]; rfl
    | client e =>
      rcases boot_client b e es with ⟨hs, hp, -⟩ | ⟨hs, hp, -⟩
      · rw [hs, hp]
      · rw [hs, hp]; rfl

/-- The messages that are complete before it is connected are lost. -/
theorem before_stream {k : Except PyErr Unit → Prog Unit} (es : List BootEvent) :
    ∀ {b : Boot} {r : List UInt8} {items : List (List UInt8 × Frame)}, Before k b →
    (∀ r, .client (.connected r) ∉ es) → (∀ p ∈ items, ∃ o, Obj.fromUnpiFrame (received p.2) = .ok o) →
    SyncIt b.buffer (portBytes es ++ r) items →
    ∃ lost rest, items = lost ++ rest ∧ SyncIt (b.run es).buffer r rest ∧ (b.run es).raised = b.raised := by
  induction es with
  | nil => intro b r items h _ hi hs; exact ⟨[], items, rfl, hs, rfl⟩
  | cons e es ih =>
    intro b r items h hc hi hs
    obtain ⟨h1, h2, h3⟩ := before_step h e fun r he => hc r (he ▸ .head _)
    have hc' : ∀ r, .client (.connected r) ∉ es := fun r hr => hc r (.tail _ hr)
    cases e with
    | bytes c =>
      rw [portBytes, List.append_assoc] at hs
      obtain ⟨lost, rest, b', k1, k2, k3⟩ := boot_early c b.buffer _ items hi hs
      have hst : (b.step (.bytes c)).buffer = b' ∧ (b.step (.bytes c)).raised = b.raised := by
        unfold Boot.step
        dsimp only
        rw [if_neg (by rw [h.closed]; exact Bool.false_ne_true), k3]
        exact ⟨rfl, List.append_nil _⟩
      obtain ⟨lost', rest', g1, g2, g3⟩ := ih h1 hc'
        (fun p hp => hi p (by rw [k1]; exact List.mem_append_right _ hp)) (by rw [hst.1]; exact k2)
      exact ⟨lost ++ lost', rest', by rw [k1, g1, List.append_assoc], g2, g3.trans hst.2⟩
    | client e =>
      have hst : (b.step (.client e)).buffer = b.buffer ∧ (b.step (.client e)).raised = b.raised := by
        rcases boot_client b e [] with ⟨hs, -, -⟩ | ⟨hs, -, -⟩ <;> rw [hs] <;> exact ⟨rfl, rfl⟩
      obtain ⟨lost, rest, g1, g2, g3⟩ := ih h1 hc' hi (by rw [hst.1]; exact hs)
      exact ⟨lost, rest, g1, g2, g3.trans hst.2⟩

theorem portChunks_append (es es' : List BootEvent) : portChunks (es ++ es') = portChunks es ++ portChunks es' := by
  induction es with
  | nil => rfl
  | cons e es ih => cases e <;> simp only [List.cons_append, portChunks, ih]

theorem portChunks_flatten (es : List BootEvent) : (portChunks es).flatten = portBytes es := by
  induction es with
  | nil => rfl
  | cons e es ih => cases e <;> simp only [portChunks, portBytes, List.flatten_cons, ih]

theorem prefixEach_append {as bs cs ds : List (List UInt8)} (h : PrefixEach as bs) (h' : PrefixEach cs ds) :
    PrefixEach (as ++ cs) (bs ++ ds) := by
  induction as generalizing bs with
  | nil => cases bs with
    | nil => exact h'
    | cons b bs => cases h
  | cons a as ih => cases bs with
    | nil => cases h
    | cons b bs => exact ⟨h.1, ih h.2⟩

/-- Before it is connected: the messages are lost, the rest is kept for later. -/
theorem before_any {k : Except PyErr Unit → Prog Unit} (es : List BootEvent) :
    ∀ {b : Boot}, Before k b → (∀ r, .client (.connected r) ∉ es) →
    ∀ input ds, Accounted input ⟨b.buffer, ds⟩ → ∃ heard lost, PrefixEach heard (portChunks es) ∧
      ((b.run es).raised = [] → heard = portChunks es ∧ b.raised = []) ∧
      Accounted (input ++ heard.flatten) ⟨(b.run es).buffer, ds ++ lost⟩ := by
  induction es with
  | nil =>
    intro b _ _ input ds hg
    exact ⟨[], [], trivial, fun h => ⟨rfl, h⟩, by simpa [Boot.run] using hg⟩
  | cons e es ih =>
    intro b h hc input ds hg
    obtain ⟨h1, h2, h3⟩ := before_step h e fun r he => hc r (he ▸ .head _)
    have hc' : ∀ r, .client (.connected r) ∉ es := fun r hr => hc r (.tail _ hr)
    cases e with
    | bytes c =>
      obtain ⟨fs, -, k2⟩ := dr_any Driver.earlyHandler c ⟨b.buffer, ()⟩
      obtain ⟨w, m1, m2, m3⟩ := k2 input ds hg
      have hst : (b.step (.bytes c)).buffer = (Gateway.dataReceived Driver.earlyHandler ⟨b.buffer, ()⟩ c).1.buffer ∧
          (b.step (.bytes c)).raised =
            b.raised ++ (Gateway.dataReceived Driver.earlyHandler ⟨b.buffer, ()⟩ c).2.toList := by
        unfold Boot.step
        dsimp only
        rw [if_neg (by rw [h.closed]; exact Bool.false_ne_true)]
        exact ⟨rfl, rfl⟩
      rw [← hst.1] at m3
      obtain ⟨heard, lost, n1, n2, n3⟩ := ih h1 hc' _ _ m3
      refine ⟨w :: heard, fs ++ lost, ⟨m1, n1⟩, ?_, by simpa [Boot.run] using n3⟩
      intro hr
      obtain ⟨l1, l2⟩ := n2 hr
      rw [hst.2, List.append_eq_nil_iff] at l2
      refine ⟨?_, l2.1⟩
      rw [l1, m2 (by simpa using l2.2)]
      rfl
    | client e =>
      have hst : (b.step (.client e)).buffer = b.buffer ∧ (b.step (.client e)).raised = b.raised := by
        rcases boot_client b e [] with ⟨hs, -, -⟩ | ⟨hs, -, -⟩ <;> rw [hs] <;> exact ⟨rfl, rfl⟩
      obtain ⟨heard, lost, n1, n2, n3⟩ := ih h1 hc' input ds (by rw [hst.1]; exact hg)
      exact ⟨heard, lost, n1, fun hr => by rw [← hst.2]; exact n2 hr, n3⟩

/-- Once it is connected: the coroutine and its API go on as if somebody delivered the frames. -/
theorem open_run {p : Prog Unit} (es : List BootEvent) : ∀ {b : Boot} {evs : List ClientEvent},
    b.client.isOpen = true → b.client = Client.run p evs → ∀ input ds, Accounted input ⟨b.buffer, ds⟩ →
    ∃ (groups : List (List Frame)) (heard : List (List UInt8)), groups.length = (portChunks es).length ∧
      (b.run es).client = Client.run p (evs ++ portWeave es groups) ∧ PrefixEach heard (portChunks es) ∧
      ((b.run es).raised = [] → heard = portChunks es ∧ b.raised = []) ∧
      Accounted (input ++ heard.flatten) ⟨(b.run es).buffer, ds ++ groups.flatten⟩ := by
  induction es with
  | nil =>
    intro b evs _ h input ds hg
    exact ⟨[], [], rfl, by rw [portWeave, List.append_nil]; exact h, trivial, fun h => ⟨rfl, h⟩,
      by simpa [Boot.run] using hg⟩
  | cons e es ih =>
    intro b evs ho h input ds hg
    cases e with
    | bytes c =>
      obtain ⟨fs, k1, -, k3⟩ := boot_any c b.buffer b.client.api b.app b.effects
      obtain ⟨w, m1, m2, m3⟩ := k3 input ds hg
      have hst : (b.step (.bytes c)).client = Client.run p (evs ++ fs.map fun f => .api (.frame f)) ∧
          (b.step (.bytes c)).buffer =
            (Gateway.dataReceived Stack.handler ⟨b.buffer, b.client.api, b.app, b.effects⟩ c).1.buffer ∧
          (b.step (.bytes c)).raised = b.raised ++
            (Gateway.dataReceived Stack.handler ⟨b.buffer, b.client.api, b.app, b.effects⟩ c).2.toList := by
        rw [client_frames, ← h, ← k1]
        unfold Boot.step
        dsimp only
        rw [if_pos ho]
        exact ⟨rfl, rfl, rfl⟩
      have ho' : (b.step (.bytes c)).client.isOpen = true := by
        have : (b.step (.bytes c)).client.hist = b.client.hist := by rw [hst.1, client_frames, ← h]
        unfold Client.isOpen at *
        rw [this]; exact ho
      rw [← hst.2.1] at m3
      obtain ⟨gs, heard, g1, g2, g3, g4, g5⟩ := ih ho' hst.1 _ _ m3
      refine ⟨fs :: gs, w :: heard, by simp only [portChunks, List.length_cons, g1], ?_, ⟨m1, g3⟩, ?_,
        by simpa [Boot.run] using g5⟩
      · rw [portWeave, ← List.append_assoc]
        exact g2
      · intro hr
        obtain ⟨l1, l2⟩ := g4 hr
        rw [hst.2.2, List.append_eq_nil_iff] at l2
        refine ⟨?_, l2.1⟩
        rw [l1, m2 (by simpa using l2.2)]
        rfl
    | client e =>
      rcases boot_client b e es with ⟨hs, -, hw⟩ | ⟨hs, -, hw⟩
      · obtain ⟨gs, heard, g1, g2, g3, g4, g5⟩ := ih (b := b) ho h input ds hg
        have : b.run (.client e :: es) = b.run es := by
          show (b.step (.client e)).run es = _
          rw [hs]
        rw [this]
        exact ⟨gs, heard, g1, by rw [hw]; exact g2, g3, g4, g5⟩
      · obtain ⟨gs, heard, g1, g2, g3, g4, g5⟩ := ih (b := b.step (.client e)) (evs := evs ++ [e])
          (by rw [hs]; exact isOpen_step ho e) (by rw [hs, client_snoc, ← h]) input ds (by rw [hs]; exact hg)
        refine ⟨gs, heard, g1, ?_, g3, fun hr => ?_, g5⟩
        · rw [hw, List.append_cons]
          exact g2
        · have := g4 hr
          rw [hs] at this
          exact this

theorem learn_product {a : App} (h : a.product ≠ none) (x : Act) : (a.learn x).product ≠ none := by
  unfold App.learn
  split
  · split
    · exact fun h => by cases h
    · exact h
  · rw [(handleJoin_keeps a _ _).1.product]; exact h
  · exact h

theorem learn_products {a : App} (h : a.product ≠ none) (l : List Act) : (l.foldl App.learn a).product ≠ none := by
  induction l generalizing a with
  | nil => exact h
  | cons x l ih => exact ih (learn_product h x)

/-- What is left of a good stream tells what is complete. -/
theorem inFirst_eq {b r : List UInt8} {told rest : List (List UInt8 × Frame)} (h : SyncIt b r rest) {n : Nat}
    (hn : n + r.length = (stream (told ++ rest) []).length) :
    inFirst (told ++ rest) n = told.map fun x => received x.2 := by
  have hcons : ∀ x l, (stream (x :: l) []).length = (x.1 ++ wire x.2).length + (stream l []).length := by
    intro x l; simp [stream, Nat.add_assoc]
  have hle : r.length ≤ (stream rest []).length := by
    cases rest with
    | nil => cases h; exact Nat.zero_le _
    | cons x rest => exact h.length.2
  induction told generalizing n with
  | nil =>
    cases rest with
    | nil => rfl
    | cons x rest =>
      have := h.length.1
      rw [List.nil_append, hcons] at hn
      rw [List.nil_append, inFirst, if_neg (by omega)]
      rfl
  | cons x told ih =>
    rw [List.cons_append, hcons] at hn
    have hap : (stream (told ++ rest) []).length = (stream told []).length + (stream rest []).length := by
      simp [stream]
    rw [List.cons_append, inFirst, if_pos (by omega), ih (by omega)]
    rfl

theorem Spec.NoLedYet.bytes {b : Boot} {c : List UInt8} {es : List BootEvent} {items : List (List UInt8 × Frame)}
    {n : Nat} (h : NoLedYet b (.bytes c :: es) items n) : NoLedYet (b.step (.bytes c)) es items (n + c.length) := by
  intro a c' z hes hp f hf
  refine h (.bytes c :: a) c' z (by rw [hes]; rfl) hp f ?_
  rw [portBytes, List.length_append, ← Nat.add_assoc]
  exact hf

theorem Spec.NoLedYet.client {b : Boot} {e : ClientEvent} {es : List BootEvent} {items : List (List UInt8 × Frame)}
    {n : Nat} (h : NoLedYet b (.client e :: es) items n) : NoLedYet (b.step (.client e)) es items n :=
  fun a c' z hes hp f hf => h (.client e :: a) c' z (by rw [hes]; rfl) hp f hf

/-- While the application does not know the version, the next chunk completes no message that switches the
LED. -/
theorem Spec.NoLedYet.dark {b : Boot} {c r : List UInt8} {es : List BootEvent}
    {before items : List (List UInt8 × Frame)} {n : Nat} (h : NoLedYet b (.bytes c :: es) (before ++ items) n)
    (hn : n + (portBytes (.bytes c :: es) ++ r).length = (stream (before ++ items) []).length) :
    b.app.product ≠ none ∨ DarkUntil (portBytes es ++ r) items := by
  by_cases hp : b.app.product = none
  · right
    intro told rest b' h1 h2 q hq hl
    subst h1
    refine h [] c es rfl hp (received q.2) ?_ hl
    rw [← List.append_assoc] at hn ⊢
    rw [inFirst_eq h2 (by
      rw [← hn]
      simp only [portBytes, List.length_append, List.length_nil]
      omega)]
    exact List.mem_map_of_mem (List.mem_append_right _ hq)
  · exact .inl hp

/-- Once it is connected: all messages of a good stream reach the API, and nothing raises. -/
theorem open_stream {p : Prog Unit} (hm : Modest p) (es : List BootEvent) :
    ∀ {b : Boot} {evs : List ClientEvent} {r : List UInt8} {items : List (List UInt8 × Frame)},
    b.client.isOpen = true → b.client = Client.run p evs → Polite evs → ByteNumbers evs →
    (∀ m timeout q, .client (.api (.register m timeout q)) ∈ es → StartupMatcher m ∧ q = none) →
    (∀ o n, .client (.api (.registerResponse o (some n))) ∈ es → 0 ≤ n ∧ n < 256) →
    (∀ p ∈ items, Handleable p.2) → SyncIt b.buffer (portBytes es ++ r) items →
    ∀ {before : List (List UInt8 × Frame)} {n : Nat},
    n + (portBytes es ++ r).length = (stream (before ++ items) []).length → NoLedYet b es (before ++ items) n →
    ∃ groups rest, groups.flatten ++ rest = items.map (fun p => received p.2) ∧
      groups.length = (portChunks es).length ∧
      (b.run es).client = Client.run p (evs ++ portWeave es groups) ∧ (b.run es).raised = b.raised ∧
      (r = [] → rest = [] ∧ (b.run es).buffer = []) ∧
      groups = perChunk (before ++ items) n (portChunks es) := by
  induction es with
  | nil =>
    intro b evs r items _ h _ _ _ _ _ hs before n _ _
    refine ⟨[], items.map (fun p => received p.2), rfl, rfl, by rw [portWeave, List.append_nil]; exact h, rfl,
      fun hr => ?_, rfl⟩
    obtain ⟨h1, h2⟩ := hs.sync.nil hr
    exact ⟨by rw [List.map_eq_nil_iff.mp h2]; rfl, h1⟩
  | cons e es ih =>
    intro b evs r items ho h hpo hby hreg hrsp hi hs before n hn hled
    have hreg' : ∀ m timeout q, .client (.api (.register m timeout q)) ∈ es → StartupMatcher m ∧ q = none :=
      fun m timeout q hx => hreg m timeout q (.tail _ hx)
    have hrsp' : ∀ o n, .client (.api (.registerResponse o (some n))) ∈ es → 0 ≤ n ∧ n < 256 :=
      fun o n hx => hrsp o n (.tail _ hx)
    cases e with
    | bytes c =>
      rw [portBytes, List.append_assoc] at hs
      obtain ⟨told, rest, b', a', e', k1, k2, k3, k4⟩ := boot_chunk c b.buffer _ items b.client.api b.app
        b.effects (by rw [h]; exact client_lawful hm hpo hby) hi (hled.dark hn) hs
      rw [portBytes, List.append_assoc] at hn
      have hn' : n + c.length + (portBytes es ++ r).length = (stream ((before ++ told) ++ rest) []).length := by
        rw [List.append_assoc, ← k1, ← hn, List.length_append (as := c)]
        omega
      have hst : b.step (.bytes c) = { client := Client.run p (evs ++ (told.map fun q => received q.2).map
            fun f => .api (.frame f)), buffer := b', app := a', effects := e', raised := b.raised } := by
        rw [client_frames, ← h]
        unfold Boot.step
        dsimp only
        rw [if_pos ho, k4, List.map_map]
        dsimp only [Option.toList]
        rw [List.append_nil]
        rfl
      have ho' : (b.step (.bytes c)).client.isOpen = true := by
        have : (b.step (.bytes c)).client.hist = b.client.hist := by rw [hst, client_frames, ← h]
        unfold Client.isOpen at *
        rw [this]; exact ho
      have hfr : ∀ x ∈ ((told.map fun q => received q.2).map fun f => ClientEvent.api (.frame f)),
          ∃ f, x = .api (.frame f) := by
        intro x hx
        obtain ⟨f, -, rfl⟩ := List.mem_map.mp hx
        exact ⟨f, rfl⟩
      obtain ⟨gs, rest', g1, g2, g3, g4, g5, g6⟩ := ih (b := b.step (.bytes c)) ho' (by rw [hst]) (by
          intro m timeout q hx
          rcases List.mem_append.mp hx with hx | hx
          · exact hpo m timeout q hx
          · obtain ⟨f, hf⟩ := hfr _ hx; cases hf) (by
          intro o n hx
          rcases List.mem_append.mp hx with hx | hx
          · exact hby o n hx
          · obtain ⟨f, hf⟩ := hfr _ hx; cases hf) hreg' hrsp'
        (fun q hq => hi q (by rw [k1]; exact List.mem_append_right _ hq))
        (by rw [hst]; exact k2) hn' (by rw [List.append_assoc, ← k1]; exact hled.bytes)
      refine ⟨(told.map fun q => received q.2) :: gs, rest', ?_, by rw [List.length_cons, g2]; rfl, ?_, ?_, g5, ?_⟩
      · rw [List.flatten_cons, List.append_assoc, g1, k1, List.map_append]
      · rw [portWeave, ← List.append_assoc]
        exact g3
      · refine g4.trans ?_
        rw [hst]
      · rw [portChunks, perChunk, inFirst_eq hs hn, k1, ← List.append_assoc, inFirst_eq k2 hn', List.map_append,
          List.drop_left, ← g6]
    | client e =>
      rcases boot_client b e es with ⟨hst, -, hw⟩ | ⟨hst, -, hw⟩
      · obtain ⟨gs, rest, g1, g2, g3, g4, g5, g6⟩ := ih (b := b) ho h hpo hby hreg' hrsp' hi hs hn
          (hst ▸ hled.client)
        have hrun : b.run (.client e :: es) = b.run es := by
          show (b.step (.client e)).run es = _
          rw [hst]
        refine ⟨gs, rest, g1, g2, ?_, by rw [hrun]; exact g4, by rw [hrun]; exact g5, g6⟩
        rw [hw, hrun, g3]
      · obtain ⟨gs, rest, g1, g2, g3, g4, g5, g6⟩ := ih (b := b.step (.client e)) (evs := evs ++ [e])
          (by rw [hst]; exact isOpen_step ho e) (by rw [hst, client_snoc, ← h])
          (by
            intro m timeout q hx
            rcases List.mem_append.mp hx with hx | hx
            · exact hpo m timeout q hx
            · exact hreg m timeout q (by rw [List.mem_singleton.mp hx]; exact .head _))
          (by
            intro o n hx
            rcases List.mem_append.mp hx with hx | hx
            · exact hby o n hx
            · exact hrsp o n (by rw [List.mem_singleton.mp hx]; exact .head _)) hreg' hrsp' hi
          (by rw [hst]; exact hs) hn hled.client
        refine ⟨gs, rest, g1, g2, ?_, ?_, g5, g6⟩
        · rw [hw, List.append_cons]
          exact g3
        · refine g4.trans ?_
          rw [hst]

/-! ## What the application knows -/

/-- What an operation tells about the kind of the radio. -/
def productAfter (p : Option Int) : Act → Option Int
  | ⟨.request .SYS "version" [] none, .ok (some v)⟩ =>
    match v.payload.lookup "product" with
    | some (.int p) => some p
    | _ => p
  | _ => p

theorem learn_productAfter (a : App) (x : Act) : (a.learn x).product = productAfter a.product x := by
  unfold App.learn
  split
  · rename_i v
    show _ = productAfter a.product ⟨.request .SYS "version" [] none, .ok (some v)⟩
    rw [productAfter]
    generalize v.payload.lookup "product" = x
    rcases x with _ | x
    · rfl
    · cases x <;> rfl
  · rw [(handleJoin_keeps a _ _).1.product]
    unfold productAfter
    split
    · rename_i h2; cases h2
    · rfl
  · rename_i hn _
    unfold productAfter
    split
    · exact absurd rfl (hn _)
    · rfl

/-- What the application knows after these operations. -/
structure Knows (app : App) (hist : List Act) (a : App) : Prop where
  product : a.product = hist.foldl productAfter app.product
  coordinator : ∀ ieee nwk, (⟨.coordinator (.eui ieee) (.int nwk), .ok ()⟩ : Act) ∈ hist →
    ieee ∈ a.devices.map (·.ieee)

theorem Knows.keep {app : App} {hist : List Act} {a a' : App} (h : Knows app hist a) (hk : Keeps a a') :
    Knows app hist a' :=
  ⟨hk.product.trans h.product, fun ieee nwk hm => hk.devices _ (h.coordinator ieee nwk hm)⟩

theorem learn_devices (a : App) (x : Act) : ∀ i ∈ a.devices.map (·.ieee), i ∈ (a.learn x).devices.map (·.ieee) := by
  intro i hi
  unfold App.learn
  split
  · split <;> exact hi
  · exact (handleJoin_keeps a _ _).1.devices i hi
  · exact hi

theorem Knows.learn {app : App} {hist : List Act} {a : App} (h : Knows app hist a) (x : Act) :
    Knows app (hist ++ [x]) (a.learn x) := by
  refine ⟨?_, fun ieee nwk hm => ?_⟩
  · rw [learn_productAfter, h.product, List.foldl_append]; rfl
  · rcases List.mem_append.mp hm with hm | hm
    · exact learn_devices a x _ (h.coordinator ieee nwk hm)
    · rw [← List.mem_singleton.mp hm]
      exact (handleJoin_keeps a _ _).2

theorem Knows.learns {app : App} (l : List Act) : ∀ {hist : List Act} {a : App}, Knows app hist a →
    Knows app (hist ++ l) (l.foldl App.learn a) := by
  induction l with
  | nil => intro hist a h; rw [List.append_nil]; exact h
  | cons x l ih =>
    intro hist a h
    rw [List.append_cons]
    exact ih (h.learn x)

theorem knows_step {app : App} {b : Boot} (h : Knows app b.client.hist b.app) (e : BootEvent) :
    Knows app (b.step e).client.hist (b.step e).app := by
  cases e with
  | bytes c =>
    unfold Boot.step
    dsimp only
    split
    · obtain ⟨fs, -, hk, -⟩ := boot_any c b.buffer b.client.api b.app b.effects
      exact h.keep hk
    · exact h
  | client e =>
    rcases boot_client b e [] with ⟨hs, -, -⟩ | ⟨hs, -, -⟩
    · rw [hs]; exact h
    · rw [hs]
      obtain ⟨l, hl⟩ := client_hist b.client e
      show Knows app (b.client.step e).hist (((b.client.step e).hist.drop b.client.hist.length).foldl App.learn b.app)
      rw [hl, List.drop_left]
      exact h.learns l

theorem knows_run {app : App} (es : List BootEvent) : ∀ {b : Boot}, Knows app b.client.hist b.app →
    Knows app (b.run es).client.hist (b.run es).app := by
  induction es with
  | nil => intro b h; exact h
  | cons e es ih => intro b h; exact ih (knows_step h e)

theorem no_version_frames (version : Int) (o : Options) (g : Nat) : ∀ f ∈ startFrames version o g,
    ¬ (f.subsystem = .SYS ∧ f.commandId = 2) := by
  have h : (startFrames version o g).all (fun f => !(decide (f.subsystem = .SYS) && f.commandId == 2)) = true := by
    unfold startFrames readFrames initFrames initBody keyRead
    by_cases hv : version = 1 ∨ version = 2
    · rw [if_pos hv]
      by_cases h1 : version = 1
      · rw [if_pos h1]; rfl
      · rw [if_neg h1]; rfl
    · rw [if_neg hv, if_neg fun h => hv (.inl h)]; rfl
  intro f hf hx
  have := List.all_eq_true.mp h f hf
  simp [hx.1, hx.2] at this

theorem form_no_version {o : Options} (ho : WellFormed o) (version : Int) (autoForm : Bool) {h : List Act}
    (hr : Runs (autoFormNetwork version o autoForm) h) :
    ∀ a ∈ h, a.op ≠ .request .SYS "version" [] none := by
  have : Only (fun op => op ≠ .request .SYS "version" [] none) (autoFormNetwork version o autoForm) := by
    unfold autoFormNetwork
    refine only_ite ?_ (only_pure _)
    unfold formNetwork
    refine only_bind (only_mono (fun op hop => ?_) (only_start version ho (g := 0x0B84) (by decide) false)) fun _ =>
      only_ite (only_op (o := .spawn ..) fun h => by cases h) (only_pure _)
    intro he
    subst he
    obtain ⟨f, hf, hfr⟩ := hop
    rw [fVersion] at hfr
    cases hfr
    exact no_version_frames version o _ _ hf ⟨rfl, rfl⟩
  exact this h hr

/-- The state when `API.new` returns. -/
theorem boot_connected (app : App) (o : Options) (autoForm : Bool) (before : List BootEvent)
    (hb : ∀ r, .client (.connected r) ∉ before) :
    let b := ((Boot.init app o autoForm).run before).step (.client (.connected (.ok ())))
    b.client.isOpen = true ∧
    b.client = Client.run (startup o autoForm) (portless before ++ [.connected (.ok ())]) ∧
    b.app = app ∧ b.effects = [] ∧ b.buffer = ((Boot.init app o autoForm).run before).buffer ∧
    b.raised = ((Boot.init app o autoForm).run before).raised := by
  obtain ⟨k, hs, -⟩ := takes_startup o autoForm
  obtain ⟨h1, h2, h3, h4⟩ := before_run before (k := k) (b := Boot.init app o autoForm) ⟨hs, rfl, rfl⟩ hb
  have e : ((Boot.init app o autoForm).run before).client.step (.connected (.ok ())) =
      ((Boot.init app o autoForm).run before).client.answer .connect k (.ok ()) := by
    unfold Client.step
    rw [h1.prog]; rfl
  have eh : (((Boot.init app o autoForm).run before).client.step (.connected (.ok ()))).hist =
      [⟨.connect, .ok ()⟩] := by
    rw [e]
    show ((Boot.init app o autoForm).run before).client.hist ++ _ = _
    rw [h1.hist]; rfl
  refine ⟨?_, ?_, ?_, h4, rfl, rfl⟩
  · show Client.isOpen (Client.step _ _) = true
    unfold Client.isOpen
    rw [eh]; rfl
  · rw [client_snoc]
    exact congrArg (fun c : Client Unit => c.step (.connected (.ok ()))) h2
  · show ((Client.hist (Client.step _ _)).drop _).foldl App.learn _ = _
    rw [eh, h1.hist, h3]; rfl

/-- The frame that arrives with an event, if it can be decoded. -/
def arrivesWith : ClientEvent → Option Frame
  | .api e => e.arrives
  | _ => none

theorem client_arrivals {α : Type} (p : Prog α) (evs : List ClientEvent) :
    (Client.run p evs).api.log.filterMap Entry.frame? = evs.filterMap arrivesWith :=
  client_arrived p evs

theorem portless_arrives (es : List BootEvent) : (portless es).filterMap arrivesWith = [] := by
  induction es with
  | nil => rfl
  | cons e es ih =>
    cases e with
    | bytes c => exact ih
    | client e =>
      cases e with
      | api e =>
        cases e with
        | frame f => exact ih
        | _ => exact ih
      | _ => exact ih

theorem portWeave_arrives (es : List BootEvent) : ∀ gs : List (List Frame),
    ((portWeave es gs).filterMap arrivesWith).Sublist gs.flatten := by
  induction es with
  | nil => intro gs; exact List.nil_sublist _
  | cons e es ih =>
    intro gs
    cases e with
    | bytes c =>
      cases gs with
      | nil => exact ih []
      | cons g gs =>
        rw [portWeave, List.filterMap_append, List.flatten_cons]
        refine List.Sublist.append ?_ (ih gs)
        rw [List.filterMap_map]
        induction g with
        | nil => exact List.nil_sublist _
        | cons f g ihg =>
          rw [List.filterMap_cons]
          split
          · exact ihg.cons _
          · rename_i f' hf
            have : f' = f := by
              have hf : Event.arrives (.frame f) = some f' := hf
              unfold Event.arrives at hf
              dsimp only at hf
              split at hf
              · exact (Option.some.inj hf).symm
              · cases hf
            rw [this]
            exact ihg.cons_cons _
    | client e =>
      cases e with
      | api e =>
        cases e with
        | frame f => exact ih gs
        | _ => exact ih gs
      | _ => exact ih gs

/-- The product is the one of the last version response. -/
theorem product_kept (l : List Act) (h : ∀ a ∈ l, a.op ≠ .request .SYS "version" [] none) (p : Option Int) :
    l.foldl productAfter p = p := by
  induction l generalizing p with
  | nil => rfl
  | cons a l ih =>
    rw [List.foldl_cons, ih (fun x hx => h x (.tail _ hx))]
    unfold productAfter
    split
    · exact absurd rfl (h _ (.head _))
    · rfl

/-! ## What zigpy is told -/

theorem Spec.Chronicle.after {cs : List (List UInt8 × Int)} {ds ds1 ds' : List Device} {i i' : List Item}
    {e e' : List Effect} (h : Story ds i e ds1) (h' : Chronicle cs ds1 i' e' ds') :
    Chronicle cs ds (i ++ i') (e ++ e') ds' := by
  cases h' with
  | story _ _ _ _ h' => exact .story _ _ _ _ (h.trans h')
  | entry ieee nwk cs _ ds1 ds2 _ j j' f f' k k1 k2 k' =>
    rw [← List.append_assoc, ← List.append_assoc]
    exact .entry ieee nwk cs _ _ ds2 _ _ _ _ _ (h.trans k) k1 k2 k'

/-- What start-up itself does to the table. -/
theorem learn_table (l : List Act) : ∀ {a : App}, DistinctIeee a.devices →
    DistinctIeee (l.foldl App.learn a).devices ∧
    ∀ {cs : List (List UInt8 × Int)} {ds' : List Device} {i : List Item} {e : List Effect},
      Chronicle cs (l.foldl App.learn a).devices i e ds' →
      Chronicle (l.filterMap enters ++ cs) a.devices i e ds' := by
  induction l with
  | nil => intro a hd; exact ⟨hd, fun h => h⟩
  | cons x l ih =>
    intro a hd
    have hx : (enters x = none ∧ (a.learn x).devices = a.devices) ∨
        ∃ ieee nwk, enters x = some (ieee, nwk) ∧ a.learn x = a.handleJoin nwk ieee := by
      unfold App.learn
      split
      · left
        refine ⟨rfl, ?_⟩
        split <;> rfl
      · exact .inr ⟨_, _, rfl, rfl⟩
      · rename_i h1 h2
        left
        refine ⟨?_, rfl⟩
        unfold enters
        split
        · rename_i x ieee nwk u
          exact (h2 ieee nwk u rfl).elim
        · rfl
    rcases hx with ⟨h1, h2⟩ | ⟨ieee, nwk, h1, h2⟩
    · obtain ⟨k1, k2⟩ := ih (a := a.learn x) (by rw [h2]; exact hd)
      refine ⟨k1, fun h => ?_⟩
      rw [List.filterMap_cons, h1, ← h2]
      exact k2 h
    · obtain ⟨j1, -, -, j4⟩ := handleJoin_spec a nwk ieee hd
      obtain ⟨k1, k2⟩ := ih (a := a.learn x) (by rw [h2]; exact j1)
      refine ⟨k1, fun h => ?_⟩
      rw [List.filterMap_cons, h1]
      have h := k2 h
      rw [h2] at h
      exact .entry ieee nwk _ _ _ _ _ [] _ [] _ (.done _) j4 j1 h

/-- An item is told to zigpy. -/
theorem item_told {es : List Event} (hreg : StartupWaiters es) (hb : ByteSequences es) {a : App}
    (hdist : DistinctIeee a.devices) {i : Item} (hi : i.Proper) (hl : a.product ≠ none ∨ ¬ LedFrame i.frame) :
    let r := receive (Api.init.run es) a (received i.frame)
    r.2.raised = none ∧ r.2.app.product = a.product ∧ DistinctIeee r.2.app.devices ∧
      Story a.devices [i] r.2.effects r.2.app.devices :=
  item_handled_of es hreg a hdist i hi fun f hf => by
    subst hf
    exact sound_handled hreg hb hi.2.2.1 hl

theorem told_chunk (c : List UInt8) : ∀ (b r : List UInt8) (items : List (List UInt8 × Item)) (s : Api)
    (a : App) (e : List Effect), (∃ es, s = Api.init.run es ∧ StartupWaiters es ∧ ByteSequences es) →
    DistinctIeee a.devices → (∀ p ∈ items, p.2.Proper) →
    (a.product ≠ none ∨ DarkUntil r (items.map fun p => (p.1, p.2.frame))) →
    SyncIt b (c ++ r) (items.map fun p => (p.1, p.2.frame)) →
    ∃ said rest b' s' a' e', items = said ++ rest ∧ SyncIt b' r (rest.map fun p => (p.1, p.2.frame)) ∧
      a'.product = a.product ∧ DistinctIeee a'.devices ∧
      Gateway.dataReceived Stack.handler ⟨b, s, a, e⟩ c = (⟨b', s', a', e ++ e'⟩, none) ∧
      s' = s.run (said.map fun p => .frame (received p.2.frame)) ∧
      Story a.devices (said.map (·.2)) e' a'.devices := by
  induction c with
  | nil =>
    intro b r items s a e _ hd _ _ hs
    exact ⟨[], items, b, s, a, [], rfl, hs, rfl, hd, by rw [List.append_nil]; rfl, rfl, .done _⟩
  | cons x c ih =>
    intro b r items s a e hl hd hi hled hs
    rcases SyncIt.step (r := c ++ r) hs with ⟨b', hw, hs'⟩ | ⟨p, items', hitems, hw, hs'⟩
    · obtain ⟨told, rest, b'', s', a', e', h1, h2, h3, h4, h5, h6⟩ := ih b' r items s a e hl hd hi hled hs'
      refine ⟨told, rest, b'', s', a', e', h1, h2, h3, h4, ?_, h6⟩
      simp only [Gateway.dataReceived, hw]
      exact h5
    · cases items with
      | nil => cases hitems
      | cons q items =>
        rw [List.map_cons] at hitems
        injection hitems with hq hitems
        subst hq hitems
        obtain ⟨es, rfl, hreg, hb⟩ := hl
        obtain ⟨k0, k2, k3, k4⟩ := item_told hreg hb hd (hi q (.head _)) (hled.imp_right fun h => h.head hs')
        have k1 := receive_api (Api.init.run es) a (received q.2.frame)
        have hh : Stack.handler (Api.init.run es, a, e) (received q.2.frame) =
            ((Api.init.run (es ++ [.frame (received q.2.frame)]),
              (receive (Api.init.run es) a (received q.2.frame)).2.app,
              e ++ (receive (Api.init.run es) a (received q.2.frame)).2.effects), none) := by
          unfold Stack.handler
          dsimp only
          rw [k0, k1, api_run_append]
          rfl
        obtain ⟨told, rest, b'', s', a', e', h1, h2, h3, h4, h5, h6, h7⟩ := ih [] r items
          (Api.init.run (es ++ [.frame (received q.2.frame)]))
          (receive (Api.init.run es) a (received q.2.frame)).2.app
          (e ++ (receive (Api.init.run es) a (received q.2.frame)).2.effects)
          ⟨_, rfl, startupWaiters_append hreg (by intro m to q hm; simp at hm),
            byteSequences_append hb ⟨by intro o n hm; simp at hm, by intro m to q hm; simp at hm⟩⟩
          k3 (fun q' hq' => hi q' (.tail _ hq')) (by rw [k2]; exact hled.imp_right DarkUntil.tail) hs'
        refine ⟨q :: told, rest, b'', s', a', _ ++ e', by rw [h1]; rfl, h2, h3.trans k2, h4, ?_, ?_, k4.trans h7⟩
        · simp only [Gateway.dataReceived, hw, hh]
          rw [h5, List.append_assoc]
        · rw [h6, List.map_cons, api_run_append]
          rfl

theorem told_run {p : Prog Unit} (hm : Modest p) (es : List BootEvent) :
    ∀ {b : Boot} {evs : List ClientEvent} {r : List UInt8} {items : List (List UInt8 × Item)},
    b.client.isOpen = true → b.client = Client.run p evs → Polite evs → ByteNumbers evs →
    (∀ m timeout q, .client (.api (.register m timeout q)) ∈ es → StartupMatcher m ∧ q = none) →
    (∀ o n, .client (.api (.registerResponse o (some n))) ∈ es → 0 ≤ n ∧ n < 256) →
    DistinctIeee b.app.devices → (∀ p ∈ items, p.2.Proper) →
    SyncIt b.buffer (portBytes es ++ r) (items.map fun p => (p.1, p.2.frame)) →
    ∀ {before : List (List UInt8 × Frame)} {n : Nat},
    n + (portBytes es ++ r).length = (stream (before ++ items.map fun p => (p.1, p.2.frame)) []).length →
    NoLedYet b es (before ++ items.map fun p => (p.1, p.2.frame)) n →
    ∃ said unsaid told acts, items = said ++ unsaid ∧ (b.run es).effects = b.effects ++ told ∧
      (b.run es).client.hist = b.client.hist ++ acts ∧
      Chronicle (acts.filterMap enters) b.app.devices (said.map (·.2)) told (b.run es).app.devices ∧
      (r = [] → unsaid = []) := by
  induction es with
  | nil =>
    intro b evs r items _ h _ _ _ _ _ _ hs before n _ _
    refine ⟨[], items, [], [], rfl, (List.append_nil _).symm, (List.append_nil _).symm,
      .story _ _ _ _ (.done _), fun hr => ?_⟩
    obtain ⟨-, h2⟩ := hs.sync.nil hr
    exact List.map_eq_nil_iff.mp (List.map_eq_nil_iff.mp h2)
  | cons e es ih =>
    intro b evs r items ho h hpo hby hreg hrsp hd hi hs before n hn hled
    have hreg' : ∀ m timeout q, .client (.api (.register m timeout q)) ∈ es → StartupMatcher m ∧ q = none :=
      fun m timeout q hx => hreg m timeout q (.tail _ hx)
    have hrsp' : ∀ o n, .client (.api (.registerResponse o (some n))) ∈ es → 0 ≤ n ∧ n < 256 :=
      fun o n hx => hrsp o n (.tail _ hx)
    cases e with
    | bytes c =>
      rw [portBytes, List.append_assoc] at hs
      obtain ⟨told, rest, b', s', a', e', k1, k2, k3, k3', k4, k5, k6⟩ := told_chunk c b.buffer _ items
        b.client.api b.app b.effects (by rw [h]; exact client_lawful hm hpo hby) hd hi (hled.dark hn) hs
      rw [portBytes, List.append_assoc] at hn
      have hsplit : (before ++ told.map fun p => (p.1, p.2.frame)) ++ (rest.map fun p => (p.1, p.2.frame)) =
          before ++ items.map fun p => (p.1, p.2.frame) := by
        rw [k1, List.map_append, List.append_assoc]
      have hn' : n + c.length + (portBytes es ++ r).length =
          (stream ((before ++ told.map fun p => (p.1, p.2.frame)) ++ (rest.map fun p => (p.1, p.2.frame))) []).length := by
        rw [hsplit, ← hn, List.length_append (as := c)]
        omega
      have hst : b.step (.bytes c) = { client := Client.run p (evs ++ (told.map fun q => received q.2.frame).map
            fun f => .api (.frame f)), buffer := b', app := a', effects := b.effects ++ e', raised := b.raised } := by
        rw [client_frames, ← h]
        unfold Boot.step
        dsimp only
        rw [if_pos ho, k4, List.map_map, k5]
        dsimp only [Option.toList]
        rw [List.append_nil]
        rfl
      have hhist : (b.step (.bytes c)).client.hist = b.client.hist := by rw [hst, client_frames, ← h]
      have ho' : (b.step (.bytes c)).client.isOpen = true := by
        unfold Client.isOpen at *
        rw [hhist]; exact ho
      have hfr : ∀ x ∈ ((told.map fun q => received q.2.frame).map fun f => ClientEvent.api (.frame f)),
          ∃ f, x = .api (.frame f) := by
        intro x hx
        obtain ⟨f, -, rfl⟩ := List.mem_map.mp hx
        exact ⟨f, rfl⟩
      obtain ⟨said, unsaid, told', acts, g1, g2, g3, g4, g5⟩ := ih (b := b.step (.bytes c)) ho' (by rw [hst]) (by
          intro m timeout q hx
          rcases List.mem_append.mp hx with hx | hx
          · exact hpo m timeout q hx
          · obtain ⟨f, hf⟩ := hfr _ hx; cases hf) (by
          intro o n hx
          rcases List.mem_append.mp hx with hx | hx
          · exact hby o n hx
          · obtain ⟨f, hf⟩ := hfr _ hx; cases hf) hreg' hrsp' (by rw [hst]; exact k3')
        (fun q hq => hi q (by rw [k1]; exact List.mem_append_right _ hq))
        (by rw [hst]; exact k2) hn' (by rw [hsplit]; exact hled.bytes)
      refine ⟨told ++ said, unsaid, e' ++ told', acts, by rw [k1, g1, List.append_assoc], ?_, ?_, ?_, g5⟩
      · refine Eq.trans g2 ?_
        rw [hst, List.append_assoc]
      · rw [← hhist]; exact g3
      · have ha : (b.step (.bytes c)).app = a' := by rw [hst]
        rw [ha] at g4
        rw [List.map_append]
        exact g4.after k6
    | client e =>
      rcases boot_client b e es with ⟨hst, -, -⟩ | ⟨hst, -, -⟩
      · have hrun : b.run (.client e :: es) = b.run es := by
          show (b.step (.client e)).run es = _
          rw [hst]
        rw [hrun]
        exact ih (b := b) ho h hpo hby hreg' hrsp' hd hi hs hn (hst ▸ hled.client)
      · obtain ⟨l, hl⟩ := client_hist b.client e
        have hdrop : (b.client.step e).hist.drop b.client.hist.length = l := by
          rw [hl, List.drop_left]
        rw [hdrop] at hst
        obtain ⟨hd', hc⟩ := learn_table l hd
        obtain ⟨said, unsaid, told, acts, g1, g2, g3, g4, g5⟩ := ih (b := b.step (.client e)) (evs := evs ++ [e])
          (by rw [hst]; exact isOpen_step ho e) (by rw [hst, client_snoc, ← h])
          (by
            intro m timeout q hx
            rcases List.mem_append.mp hx with hx | hx
            · exact hpo m timeout q hx
            · exact hreg m timeout q (by rw [List.mem_singleton.mp hx]; exact .head _))
          (by
            intro o n hx
            rcases List.mem_append.mp hx with hx | hx
            · exact hby o n hx
            · exact hrsp o n (by rw [List.mem_singleton.mp hx]; exact .head _))
          hreg' hrsp' (by rw [hst]; exact hd') hi
          (by rw [hst]; exact hs) hn hled.client
        refine ⟨said, unsaid, told, l ++ acts, g1, ?_, ?_, ?_, g5⟩
        · refine Eq.trans g2 ?_
          rw [hst]
        · refine Eq.trans g3 ?_
          rw [hst]
          show (b.client.step e).hist ++ acts = _
          rw [hl, List.append_assoc]
        · have ha : (b.step (.client e)).app = l.foldl App.learn b.app := by rw [hst]
          rw [ha] at g4
          rw [List.filterMap_append]
          exact hc g4

theorem inFirst_mem {items : List (List UInt8 × Frame)} : ∀ {n : Nat} {f : Frame}, f ∈ inFirst items n →
    ∃ x ∈ items, f = received x.2 := by
  induction items with
  | nil => intro n f h; cases h
  | cons x items ih =>
    intro n f h
    rw [inFirst] at h
    split at h
    · rcases List.mem_cons.mp h with h | h
      · exact ⟨x, .head _, h⟩
      · obtain ⟨y, hy, hf⟩ := ih h
        exact ⟨y, .tail _ hy, hf⟩
    · cases h

/-- The version is known from an earlier start-up, or no message switches the LED. -/
theorem noLedYet_of (app : App) (o : Options) (autoForm : Bool) (es es' : List BootEvent)
    {items : List (List UInt8 × Frame)} {n : Nat} (h : app.product ≠ none ∨ ∀ x ∈ items, ¬ LedFrame x.2) :
    NoLedYet ((Boot.init app o autoForm).run es) es' items n := by
  intro a c z _ hp f hf hl
  rcases h with h | h
  · rw [← boot_append, (knows_run (app := app) (es ++ a) (b := Boot.init app o autoForm)
      ⟨rfl, fun _ _ h => by cases h⟩).product] at hp
    have : ∀ (l : List Act) (p : Option Int), p ≠ none → l.foldl productAfter p ≠ none := by
      intro l
      induction l with
      | nil => exact fun _ h => h
      | cons x l ih =>
        intro p hp
        refine ih _ ?_
        have := learn_product (a := { app with product := p }) hp x
        rwa [learn_productAfter] at this
    exact this _ _ h hp
  · obtain ⟨x, hx, rfl⟩ := inFirst_mem hf
    exact h x hx hl

/-- A start-up that has failed to connect. -/
structure NotOpened (e : PyErr) (b : Boot) : Prop where
  prog : b.client.prog = .raise e
  hist : b.client.hist = [⟨.connect, .error e⟩]
  spawned : b.client.spawned = []

theorem offline_refused {x : PyErr} {b : Boot} (h : NotOpened x b) (e : BootEvent) :
    NotOpened x (b.step e) ∧ (b.step e).app = b.app ∧ (b.step e).effects = b.effects ∧
      (b.step e).client.api = b.client.api.run (othersUse [e]) := by
  have hc : b.client.isOpen = false := by unfold Client.isOpen; rw [h.hist]; rfl
  cases e with
  | bytes c =>
    unfold Boot.step
    dsimp only
    rw [if_neg (by rw [hc]; exact Bool.false_ne_true)]
    exact ⟨⟨h.prog, h.hist, h.spawned⟩, rfl, rfl, rfl⟩
  | client e =>
    have hs : ∀ e, b.client.step e = { b.client with api := b.client.api.run (othersUse [.client e]) } ∨
        ∃ f, e = .api (.frame f) := by
      intro e
      cases e with
      | api e => cases e with
        | frame f => exact .inr ⟨f, rfl⟩
        | _ => exact .inl rfl
      | go =>
        have : b.client.step .go = b.client := by unfold Client.step; dsimp only; rw [h.prog]
        exact .inl this
      | connected r =>
        have : b.client.step (.connected r) = b.client := by unfold Client.step; dsimp only; rw [h.prog]
        exact .inl this
      | spawned => left; show b.client.runSpawned = _; unfold Client.runSpawned; rw [h.spawned]; rfl
      | cancel =>
        have : b.client.step .cancel = b.client := by unfold Client.step; dsimp only; rw [h.prog]
        exact .inl this
    rcases hs e with he | ⟨f, rfl⟩
    · rcases boot_client b e [] with ⟨hs, hp, -⟩ | ⟨hs, -, -⟩
      · rw [hs]
        refine ⟨h, rfl, rfl, ?_⟩
        unfold othersUse; rw [hp]; rfl
      · rw [hs, he]
        refine ⟨⟨h.prog, h.hist, h.spawned⟩, ?_, rfl, rfl⟩
        show (b.client.hist.drop b.client.hist.length).foldl App.learn b.app = b.app
        rw [h.hist]; rfl
    · exact ⟨h, rfl, rfl, rfl⟩

theorem othersUse_cons (e : BootEvent) (es : List BootEvent) : othersUse (e :: es) = othersUse [e] ++ othersUse es := by
  unfold othersUse
  rw [← List.filterMap_append]
  congr 1
  cases e with
  | bytes c => rfl
  | client e => cases e with
    | api e => cases e <;> rfl
    | _ => rfl

/-- Not connected, or connecting failed. -/
def Offline (k : Except PyErr Unit → Prog Unit) (b : Boot) : Prop := Before k b ∨ ∃ e, NotOpened e b

theorem offline_step {k : Except PyErr Unit → Prog Unit} (hk : ∀ e, k (.error e) = .raise e) {b : Boot}
    (h : Offline k b) (e : BootEvent) (hc : e ≠ .client (.connected (.ok ()))) :
    Offline k (b.step e) ∧ (b.step e).app = b.app ∧ (b.step e).effects = b.effects ∧
      (b.step e).client.api = b.client.api.run (othersUse [e]) ∧
      ∀ x, (b.step e).client.prog = .raise x → b.client.prog = .raise x ∨ e = .client (.connected (.error x)) := by
  rcases h with h | ⟨x, h⟩
  · by_cases hr : ∃ x, e = .client (.connected (.error x))
    · obtain ⟨x, rfl⟩ := hr
      have hs : (b.step (.client (.connected (.error x)))).client = b.client.answer .connect k (.error x) := by
        show b.client.step (.connected (.error x)) = _
        unfold Client.step; dsimp only; rw [h.prog]; rfl
      refine ⟨.inr ⟨x, ?_, ?_, ?_⟩, ?_, rfl, ?_, ?_⟩
      · rw [hs]; exact hk x
      · rw [hs]; show b.client.hist ++ _ = _; rw [h.hist]; rfl
      · rw [hs]; exact h.spawned
      · show ((b.client.step _).hist.drop b.client.hist.length).foldl App.learn b.app = b.app
        rw [show b.client.step (.connected (.error x)) = b.client.answer .connect k (.error x) from hs, h.hist]
        show ((b.client.hist ++ _).drop 0).foldl App.learn b.app = b.app
        rw [h.hist]; rfl
      · rw [hs]; rfl
      · intro y hy
        rw [hs] at hy
        have := (hk x).symm.trans hy
        cases this
        exact .inr rfl
    · have hn : ∀ r, e ≠ .client (.connected r) := by
        intro r he
        rcases r with x | ⟨⟩
        · exact hr ⟨x, he⟩
        · exact hc he
      obtain ⟨h1, h2, h3⟩ := before_step h e hn
      refine ⟨.inl h1, h2, h3, ?_, ?_⟩
      · cases e with
        | bytes c =>
          unfold Boot.step
          dsimp only
          rw [if_neg (by rw [h.closed]; exact Bool.false_ne_true)]
          rfl
        | client e =>
          cases e with
          | api e => cases e <;> rfl
          | go => show (b.client.step .go).api = b.client.api; unfold Client.step; dsimp only; rw [h.prog]; rfl
          | connected r => exact absurd rfl (hn r)
          | spawned => show b.client.runSpawned.api = b.client.api; unfold Client.runSpawned; rw [h.spawned]
          | cancel => show (b.client.step .cancel).api = b.client.api; unfold Client.step; dsimp only; rw [h.prog]; rfl
      · intro y hy
        rw [h1.prog] at hy; cases hy
  · obtain ⟨h1, h2, h3, h4⟩ := offline_refused h e
    refine ⟨.inr ⟨x, h1⟩, h2, h3, h4, fun y hy => .inl ?_⟩
    rw [h1.prog] at hy
    rw [h.prog, hy]

theorem offline_run {k : Except PyErr Unit → Prog Unit} (hk : ∀ e, k (.error e) = .raise e) (es : List BootEvent) :
    ∀ {b : Boot}, Offline k b → .client (.connected (.ok ())) ∉ es →
    Offline k (b.run es) ∧ (b.run es).app = b.app ∧ (b.run es).effects = b.effects ∧
      (b.run es).client.api = b.client.api.run (othersUse es) ∧
      ∀ x, (b.run es).client.prog = .raise x → b.client.prog = .raise x ∨ .client (.connected (.error x)) ∈ es := by
  induction es with
  | nil => intro b h _; exact ⟨h, rfl, rfl, rfl, fun x hx => .inl hx⟩
  | cons e es ih =>
    intro b h hn
    obtain ⟨s1, s2, s3, s4, s5⟩ := offline_step hk h e fun he => hn (he ▸ .head _)
    obtain ⟨r1, r2, r3, r4, r5⟩ := ih s1 fun h => hn (.tail _ h)
    refine ⟨r1, r2.trans s2, r3.trans s3, ?_, ?_⟩
    · rw [othersUse_cons]
      show ((b.step e).run es).client.api = _
      rw [r4, s4]; unfold Api.run; rw [List.foldl_append]
    · intro x hx
      rcases r5 x hx with h | h
      · rcases s5 x h with h | h
        · exact .inl h
        · exact .inr (h ▸ .head _)
      · exact .inr (.tail _ h)

end Zcc
