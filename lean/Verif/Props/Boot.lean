import Verif.Proofs.Boot

/-! # Start-up over the serial port (C83) -/

namespace Zcc
open Spec

/-- **C83.** The serial port delivers arbitrary bytes in arbitrary chunks, before and after it is
connected. The start-up of the application and its API object proceed exactly as if somebody handed the
API a group of messages at each chunk that arrives once it is connected (so all that C43, C57, C58, C60
and C79 to C82 say of start-up holds); all these messages were among the bytes, in this order, each
contiguous, with a correct checksum. Only an exception of `data_received` makes it skip bytes: the rest of
the chunk. -/
theorem c83_refines (app : App) (o : Options) (autoForm : Bool) (before after : List BootEvent)
    (hb : ∀ r, .client (.connected r) ∉ before) :
    let b := (Boot.init app o autoForm).run (before ++ .client (.connected (.ok ())) :: after)
    ∃ (groups : List (List Frame)) (lost : List Frame) (heard : List (List UInt8)) (p : List UInt8),
      groups.length = (portChunks after).length ∧
      b.client = Client.run (startup o autoForm)
        (portless before ++ [.connected (.ok ())] ++ portWeave after groups) ∧
      PrefixEach heard (portChunks (before ++ after)) ∧
      (b.raised = [] → heard = portChunks (before ++ after)) ∧
      heard.flatten = p ++ b.buffer ∧ Explains p (lost ++ groups.flatten) := by
  dsimp only
  obtain ⟨k, hs, -⟩ := takes_startup o autoForm
  obtain ⟨heard, lost, m1, m2, m3⟩ := before_any before (k := k) (b := Boot.init app o autoForm)
    ⟨hs, rfl, rfl⟩ hb [] [] ⟨.inl rfl, [], rfl, .done []⟩
  obtain ⟨h1, h2, -, -, h5, h6⟩ := boot_connected app o autoForm before hb
  have hrun : (Boot.init app o autoForm).run (before ++ .client (.connected (.ok ())) :: after) =
      (((Boot.init app o autoForm).run before).step (.client (.connected (.ok ())))).run after := by
    rw [boot_append]; rfl
  rw [hrun]
  rw [← h5] at m3
  obtain ⟨gs, heard', g1, g2, g3, g4, -, p, g5, g6⟩ := open_run after h1 h2 _ _ m3
  refine ⟨gs, lost, heard ++ heard', p, g1, g2, ?_, ?_, ?_, ?_⟩
  · rw [portChunks_append]; exact prefixEach_append m1 g3
  · intro hr
    obtain ⟨l1, l2⟩ := g4 hr
    rw [h6] at l2
    rw [portChunks_append, l1, (m2 l2).1]
  · simpa using g5
  · simpa using g6

/-- C83: if start-up raises, there is a reason (see C81) among what was received. -/
theorem c83_reason (app : App) {o : Options} (ho : WellFormed o) (autoForm : Bool)
    (before after : List BootEvent) (hb : ∀ r, .client (.connected r) ∉ before)
    (hu : ∀ c w e, .client (.api (.submit c (some w) e)) ∈ before ++ after → ∀ r, (⟨.wait w, r⟩ : Act) ∉
      ((Boot.init app o autoForm).run (before ++ .client (.connected (.ok ())) :: after)).client.hist)
    (hreg : ∀ m timeout q, .client (.api (.register m timeout q)) ∈ before ++ after →
      StartupMatcher m ∧ q = none)
    {e : PyErr}
    (hr : ((Boot.init app o autoForm).run
      (before ++ .client (.connected (.ok ())) :: after)).client.prog = .raise e) :
    ∃ (groups : List (List Frame)) (heard : List (List UInt8)) (lost : List Frame) (p : List UInt8),
      groups.length = (portChunks after).length ∧
      ((Boot.init app o autoForm).run (before ++ .client (.connected (.ok ())) :: after)).client =
        Client.run (startup o autoForm) (portless before ++ [.connected (.ok ())] ++ portWeave after groups) ∧
      Blame (startup o autoForm) (portless before ++ [.connected (.ok ())] ++ portWeave after groups) e ∧
      PrefixEach heard (portChunks (before ++ after)) ∧
      heard.flatten =
        p ++ ((Boot.init app o autoForm).run (before ++ .client (.connected (.ok ())) :: after)).buffer ∧
      Explains p (lost ++ groups.flatten) := by
  obtain ⟨groups, lost, heard, p, h1, h2, h3, -, h5, h6⟩ := c83_refines app o autoForm before after hb
  rw [h2] at hr hu
  refine ⟨groups, heard, lost, p, h1, h2, c81_startup ho _ ?_ ?_ hr, h3, h5, h6⟩
  · intro c w x hm
    refine hu c w x ?_
    rcases List.mem_append.mp hm with hm | hm
    · rcases List.mem_append.mp hm with hm | hm
      · exact List.mem_append_left _ (portless_mem _ _ hm)
      · cases List.mem_singleton.mp hm
    · rcases portWeave_mem _ _ _ hm with hm | ⟨f, hm⟩
      · exact List.mem_append_right _ hm
      · cases hm
  · intro m timeout q hm
    refine hreg m timeout q ?_
    rcases List.mem_append.mp hm with hm | hm
    · rcases List.mem_append.mp hm with hm | hm
      · exact List.mem_append_left _ (portless_mem _ _ hm)
      · cases List.mem_singleton.mp hm
    · rcases portWeave_mem _ _ _ hm with hm | ⟨f, hm⟩
      · exact List.mem_append_right _ hm
      · cases hm

/-- C83: when start-up has returned, the answers of the radio to the version request and to the request
for the device information were among the bytes that arrived, in this order and contiguous; the second
byte of the former is the product by which `handle_znp` decides whether there is an LED; the device with
the eight bytes after the status of the latter is in zigpy's table. -/
theorem c83_ready (app : App) {o : Options} (ho : WellFormed o) (autoForm : Bool)
    (before after : List BootEvent) (hb : ∀ r, .client (.connected r) ∉ before)
    (hu : ∀ c w e, .client (.api (.submit c (some w) e)) ∈ before ++ after → ∀ r, (⟨.wait w, r⟩ : Act) ∉
      ((Boot.init app o autoForm).run (before ++ .client (.connected (.ok ())) :: after)).client.hist)
    (hr : ((Boot.init app o autoForm).run
      (before ++ .client (.connected (.ok ())) :: after)).client.prog = .ret ()) :
    let b := (Boot.init app o autoForm).run (before ++ .client (.connected (.ok ())) :: after)
    ∃ heard bytes frames fv fd tr p x ieee y,
      PrefixEach heard (portChunks (before ++ after)) ∧ heard.flatten = bytes ++ b.buffer ∧
      Explains bytes frames ∧ [fv, fd].Sublist frames ∧
      (fv.commandType = .SRSP ∧ fv.subsystem = .SYS ∧ fv.commandId = 0x02) ∧ fv.data = tr :: p :: x ∧
      (fd.commandType = .SRSP ∧ fd.subsystem = .UTIL ∧ fd.commandId = 0x00) ∧ fd.data = 0 :: (ieee ++ y) ∧
      ieee.length = 8 ∧ b.app.product = some (p.toNat : Int) ∧ ieee ∈ b.app.devices.map (·.ieee) := by
  dsimp only
  have hk := knows_run (app := app) (before ++ .client (.connected (.ok ())) :: after)
    (b := Boot.init app o autoForm) ⟨rfl, fun _ _ h => by cases h⟩
  obtain ⟨groups, lost, heard, bytes, -, h2, h3, -, h5, h6⟩ := c83_refines app o autoForm before after hb
  rw [h2] at hr hu hk
  have hu' : Unshared (portless before ++ [.connected (.ok ())] ++ portWeave after groups)
      (Client.run (startup o autoForm)
        (portless before ++ [.connected (.ok ())] ++ portWeave after groups)).hist := by
    intro c w x hm
    refine hu c w x ?_
    rcases List.mem_append.mp hm with hm | hm
    · rcases List.mem_append.mp hm with hm | hm
      · exact List.mem_append_left _ (portless_mem _ _ hm)
      · cases List.mem_singleton.mp hm
    · rcases portWeave_mem _ _ _ hm with hm | ⟨f, hm⟩
      · exact List.mem_append_right _ hm
      · cases hm
  obtain ⟨t1, fv, nv, t2, fd, nd, tr, p, x, ieee, a1, a2, y, k1, k2, k3, k4, -, -, k7, k8, -, k10, k11, k12⟩ :=
    c80_startup _ hu' hr
  have hsub : [fv, fd].Sublist (lost ++ groups.flatten) := by
    have := k1.filterMap Entry.frame?
    rw [client_arrivals, List.filterMap_append, List.filterMap_append, portless_arrives] at this
    exact this.trans ((portWeave_arrives after groups).trans (List.sublist_append_right _ _))
  refine ⟨heard, bytes, _, fv, fd, tr, p, x, ieee, a1 :: a2 :: y, h3, h5, h6, hsub, k2, k4, k3, k7, k8, ?_, ?_⟩
  · obtain ⟨z, v, p', form, i, ie, nwk, he, hv, hp, -, -, hform⟩ := startup_shape ((c60_history _ _).2.1 () hr)
    have hpp : (p.toNat : Int) = p' := by
      rw [he] at k12
      have k12 : some (⟨.request .SYS "version" [] none, .ok (some v)⟩ : Act) = _ := k12
      cases k12
      rw [hv] at k11
      exact (Val.int.inj (Option.some.inj k11)).symm
    rw [hk.product, he, List.foldl_append, List.foldl_append, product_kept form (form_no_version ho _ _ hform.runs)]
    have : productAfter app.product ⟨.request .SYS "version" [] none, .ok (some v)⟩ = some p' := by
      rw [productAfter, hv]
    show productAfter app.product ⟨.request .SYS "version" [] none, .ok (some v)⟩ = _
    rw [this, hpp]
  · exact hk.coordinator _ _ (List.mem_of_getLast? k10)

/-- What the port delivers once it is connected, and to which chunk each message belongs. -/
theorem boot_items (app : App) {o : Options} (ho : WellFormed o) (autoForm : Bool)
    (before after : List BootEvent) (hb : ∀ r, .client (.connected r) ∉ before)
    (early late : List (List UInt8 × Frame)) (p r : List UInt8)
    (hi : ∀ x ∈ early ++ late, Noise x.1 ∧ Sound x.2)
    (hearly : portBytes before = portStream early ++ p)
    (hlate : p ++ portBytes after ++ r = portStream late)
    (hp : ∀ x l, late = x :: l → p.length < (portStream [x]).length)
    (hled : NoLedYet ((Boot.init app o autoForm).run (before ++ [.client (.connected (.ok ()))])) after late
      p.length)
    (hreg : ∀ m timeout q, .client (.api (.register m timeout q)) ∈ before ++ after →
      StartupMatcher m ∧ q = none)
    (hseq : ∀ c n, .client (.api (.registerResponse c (some n))) ∈ before ++ after → 0 ≤ n ∧ n < 256) :
    let b := (Boot.init app o autoForm).run (before ++ .client (.connected (.ok ())) :: after)
    ∃ (groups : List (List Frame)) (rest : List Frame),
      groups.flatten ++ rest = late.map (fun x => received x.2) ∧
      groups.length = (portChunks after).length ∧
      b.client = Client.run (startup o autoForm)
        (portless before ++ [.connected (.ok ())] ++ portWeave after groups) ∧
      b.raised = [] ∧ (r = [] → rest = [] ∧ b.buffer = []) ∧
      groups = perChunk late p.length (portChunks after) := by
  dsimp only
  have hstream : ∀ items, portStream items = stream items [] := by
    intro items; unfold portStream stream; rw [List.append_nil]
  have happ : ∀ a c, portStream (a ++ c) = portStream a ++ portStream c := by
    intro a c; unfold portStream; rw [List.flatMap_append]
  obtain ⟨k, hs, -⟩ := takes_startup o autoForm
  have hsync : SyncIt [] (portBytes before ++ (portBytes after ++ r)) (early ++ late) := by
    have h1 : portBytes before ++ (portBytes after ++ r) = stream (early ++ late) [] := by
      rw [hearly, ← hstream, happ, ← hlate]
      simp only [List.append_assoc]
    rw [h1]
    exact SyncIt.start _ fun q hq => ⟨(hi q hq).1, (hi q hq).2.1, (hi q hq).2.2.1⟩
  obtain ⟨lost, rest, e1, e2, e3⟩ := before_stream before (k := k) (b := Boot.init app o autoForm)
    ⟨hs, rfl, rfl⟩ hb (fun x hx => (hi x hx).2.2.2.imp fun _ h => h.1) hsync
  have hlen := congrArg List.length hlate
  rw [List.append_assoc, List.length_append, hstream] at hlen
  have hrest : rest = late := by
    refine syncIt_unique e2 e1.symm (by omega) ?_
    intro x l hx
    have := hp x l hx
    subst hx
    simp only [portStream, stream, List.flatMap_cons, List.flatMap_nil, List.length_append,
      List.append_nil] at this hlen ⊢
    omega
  obtain ⟨h1, h2, h3, -, h5, h6⟩ := boot_connected app o autoForm before hb
  have hrun : (Boot.init app o autoForm).run (before ++ .client (.connected (.ok ())) :: after) =
      (((Boot.init app o autoForm).run before).step (.client (.connected (.ok ())))).run after := by
    rw [boot_append]; rfl
  rw [hrun]
  rw [hrest, ← h5] at e2
  obtain ⟨gs, rest', g1, g2, g3, g4, g5, g6⟩ := open_stream (modest_startup ho autoForm) after h1 h2
    (by
      intro m timeout q hm
      rcases List.mem_append.mp hm with hm | hm
      · exact hreg m timeout q (List.mem_append_left _ (portless_mem _ _ hm))
      · cases List.mem_singleton.mp hm)
    (by
      intro c n hm
      rcases List.mem_append.mp hm with hm | hm
      · exact hseq c n (List.mem_append_left _ (portless_mem _ _ hm))
      · cases List.mem_singleton.mp hm)
    (fun m timeout q hm => hreg m timeout q (List.mem_append_right _ hm))
    (fun c n hm => hseq c n (List.mem_append_right _ hm))
    (fun x hx => (hi x (List.mem_append_right _ hx)).2.2.2) e2 (before := []) (n := p.length)
    (by simpa [hstream] using congrArg List.length hlate) (by rw [boot_append] at hled; exact hled)
  refine ⟨gs, rest', g1, g2, g3, ?_, g5, g6⟩
  rw [g4, h6, e3]
  rfl

/-- C83 (partial): if the bytes are a sequence of sound messages with noise between them, everything
whose last byte arrives once the port is connected is handed to the API, in order and without delay,
however it is cut into chunks, and `data_received` never raises. What was complete earlier is dropped.
Missing: the two indications that switch the LED, as long as the application does not know the version of
the radio (see `c83_refuted`), indications of the MAC layer that cannot be encoded again (C56), messages
without data (C01). -/
theorem c83_all_partial (app : App) {o : Options} (ho : WellFormed o) (autoForm : Bool)
    (before after : List BootEvent) (hb : ∀ r, .client (.connected r) ∉ before)
    (early late : List (List UInt8 × Frame)) (p r : List UInt8)
    (hi : ∀ x ∈ early ++ late, Noise x.1 ∧ Sound x.2)
    (hearly : portBytes before = portStream early ++ p)
    (hlate : p ++ portBytes after ++ r = portStream late)
    (hp : ∀ x l, late = x :: l → p.length < (portStream [x]).length)
    (hled : NoLedYet ((Boot.init app o autoForm).run (before ++ [.client (.connected (.ok ()))])) after late
      p.length)
    (hreg : ∀ m timeout q, .client (.api (.register m timeout q)) ∈ before ++ after →
      StartupMatcher m ∧ q = none)
    (hseq : ∀ c n, .client (.api (.registerResponse c (some n))) ∈ before ++ after → 0 ≤ n ∧ n < 256) :
    let b := (Boot.init app o autoForm).run (before ++ .client (.connected (.ok ())) :: after)
    ∃ (groups : List (List Frame)) (rest : List Frame),
      groups.flatten ++ rest = late.map (fun x => received x.2) ∧
      groups.length = (portChunks after).length ∧
      b.client = Client.run (startup o autoForm)
        (portless before ++ [.connected (.ok ())] ++ portWeave after groups) ∧
      b.raised = [] ∧ (r = [] → rest = [] ∧ b.buffer = []) := by
  obtain ⟨groups, rest, h1, h2, h3, h4, h5, -⟩ := boot_items app ho autoForm before after hb early late p r hi hearly hlate hp hled hreg hseq
  exact ⟨groups, rest, h1, h2, h3, h4, h5⟩

/-- C83 (partial): under the same conditions start-up proceeds exactly as if each chunk were the messages
whose last bytes are in it. -/
theorem c83_exact_partial (app : App) {o : Options} (ho : WellFormed o) (autoForm : Bool)
    (before after : List BootEvent) (hb : ∀ r, .client (.connected r) ∉ before)
    (early late : List (List UInt8 × Frame)) (p r : List UInt8)
    (hi : ∀ x ∈ early ++ late, Noise x.1 ∧ Sound x.2)
    (hearly : portBytes before = portStream early ++ p)
    (hlate : p ++ portBytes after ++ r = portStream late)
    (hp : ∀ x l, late = x :: l → p.length < (portStream [x]).length)
    (hled : NoLedYet ((Boot.init app o autoForm).run (before ++ [.client (.connected (.ok ()))])) after late
      p.length)
    (hreg : ∀ m timeout q, .client (.api (.register m timeout q)) ∈ before ++ after →
      StartupMatcher m ∧ q = none)
    (hseq : ∀ c n, .client (.api (.registerResponse c (some n))) ∈ before ++ after → 0 ≤ n ∧ n < 256) :
    let b := (Boot.init app o autoForm).run (before ++ .client (.connected (.ok ())) :: after)
    b.client = Client.run (startup o autoForm) (portless before ++ [.connected (.ok ())] ++
      portWeave after (perChunk late p.length (portChunks after))) := by
  obtain ⟨groups, -, -, -, h3, -, -, h6⟩ := boot_items app ho autoForm before after hb early late p r hi hearly hlate hp hled hreg hseq
  rw [← h6]
  exact h3

/-- C83 (partial): under the same conditions zigpy is told what arrives once the port is connected, in
order, also before start-up has ended; its device table changes with the announcements, and when start-up
enters the coordinator. -/
theorem c83_told_partial (app : App) (hd : DistinctIeee app.devices) {o : Options} (ho : WellFormed o)
    (autoForm : Bool) (before after : List BootEvent) (hb : ∀ r, .client (.connected r) ∉ before)
    (early late : List (List UInt8 × Item)) (p r : List UInt8)
    (hi : ∀ x ∈ early ++ late, Noise x.1 ∧ x.2.Proper)
    (hearly : portBytes before = onWire early [] ++ p)
    (hlate : p ++ portBytes after ++ r = onWire late [])
    (hp : ∀ x l, late = x :: l → p.length < (onWire [x] []).length)
    (hled : NoLedYet ((Boot.init app o autoForm).run (before ++ [.client (.connected (.ok ()))])) after
      (late.map fun x => (x.1, x.2.frame)) p.length)
    (hreg : ∀ m timeout q, .client (.api (.register m timeout q)) ∈ before ++ after →
      StartupMatcher m ∧ q = none)
    (hseq : ∀ c n, .client (.api (.registerResponse c (some n))) ∈ before ++ after → 0 ≤ n ∧ n < 256) :
    let b := (Boot.init app o autoForm).run (before ++ .client (.connected (.ok ())) :: after)
    ∃ said unsaid : List Item, late.map (·.2) = said ++ unsaid ∧
      Chronicle (b.client.hist.filterMap enters) app.devices said b.effects b.app.devices ∧
      (r = [] → unsaid = []) := by
  dsimp only
  have hstream : ∀ items : List (List UInt8 × Item),
      onWire items [] = stream (items.map fun p => (p.1, p.2.frame)) [] := by
    intro items
    unfold onWire stream
    rw [List.flatMap_map]
  obtain ⟨k, hs, -⟩ := takes_startup o autoForm
  have hsync : SyncIt [] (portBytes before ++ (portBytes after ++ r))
      ((early ++ late).map fun p => (p.1, p.2.frame)) := by
    have h1 : portBytes before ++ (portBytes after ++ r) = onWire (early ++ late) [] := by
      rw [hearly, List.append_assoc, ← List.append_assoc p, hlate]
      simp [onWire]
    rw [h1, hstream]
    refine SyncIt.start _ ?_
    intro q hq
    obtain ⟨p', hp', rfl⟩ := List.mem_map.mp hq
    obtain ⟨g1, g2⟩ := hi p' hp'
    exact ⟨g1, proper_data g2⟩
  obtain ⟨lost, rest, e1, e2, -⟩ := before_stream before (k := k) (b := Boot.init app o autoForm)
    ⟨hs, rfl, rfl⟩ hb (by
      intro q hq
      obtain ⟨p', hp', rfl⟩ := List.mem_map.mp hq
      exact proper_decodes (hi p' hp').2) hsync
  have hlen := congrArg List.length hlate
  rw [List.append_assoc, List.length_append, hstream] at hlen
  have hrest : rest = late.map fun p => (p.1, p.2.frame) := by
    refine syncIt_unique (lost := lost) (early := early.map fun p => (p.1, p.2.frame)) e2
      (by rw [← List.map_append, e1]) (by omega) ?_
    intro q l hq
    cases late with
    | nil => cases hq
    | cons x l' =>
      rw [List.map_cons] at hq
      injection hq with hq1 hq2
      have := hp x l' rfl
      rw [hstream] at this
      subst hq1 hq2
      simp only [List.map_cons, List.map_nil, stream, List.flatMap_cons, List.flatMap_nil, List.length_append,
        List.append_nil] at this hlen ⊢
      omega
  obtain ⟨h1, h2, h3, h4, h5, -⟩ := boot_connected app o autoForm before hb
  have hrun : (Boot.init app o autoForm).run (before ++ .client (.connected (.ok ())) :: after) =
      (((Boot.init app o autoForm).run before).step (.client (.connected (.ok ())))).run after := by
    rw [boot_append]; rfl
  rw [hrun]
  rw [hrest, ← h5] at e2
  have hh : (((Boot.init app o autoForm).run before).step
      (.client (.connected (.ok ())))).client.hist.filterMap enters = [] := by
    rw [h2, client_snoc]
    obtain ⟨k1, k2, -⟩ := before_run before (k := k) (b := Boot.init app o autoForm) ⟨hs, rfl, rfl⟩ hb
    have k2 : ((Boot.init app o autoForm).run before).client = Client.run (startup o autoForm) (portless before) := k2
    rw [← k2]
    unfold Client.step
    rw [k1.prog]
    show List.filterMap enters (((Boot.init app o autoForm).run before).client.hist ++ _) = _
    rw [k1.hist]
    rfl
  obtain ⟨said, unsaid, told, acts, g1, g2, g3, g4, g5⟩ := told_run (modest_startup ho autoForm) after h1 h2
    (by
      intro m timeout q hm
      rcases List.mem_append.mp hm with hm | hm
      · exact hreg m timeout q (List.mem_append_left _ (portless_mem _ _ hm))
      · cases List.mem_singleton.mp hm)
    (by
      intro c n hm
      rcases List.mem_append.mp hm with hm | hm
      · exact hseq c n (List.mem_append_left _ (portless_mem _ _ hm))
      · cases List.mem_singleton.mp hm)
    (fun m timeout q hm => hreg m timeout q (List.mem_append_right _ hm))
    (fun c n hm => hseq c n (List.mem_append_right _ hm)) (by rw [h3]; exact hd)
    (fun x hx => (hi x (List.mem_append_right _ hx)).2) e2 (before := []) (n := p.length)
    (by simpa [hstream] using congrArg List.length hlate) (by rw [boot_append] at hled; exact hled)
  refine ⟨said.map (·.2), unsaid.map (·.2), by rw [g1, List.map_append], ?_, fun hr => by rw [g5 hr]; rfl⟩
  rw [g3, List.filterMap_append, hh, g2, h4, List.nil_append, List.nil_append]
  rw [h3] at g4
  exact g4

/-! ## Executions -/

/-- The frames of an execution come from the port, each in two pieces. -/
def overPort (evs : List ClientEvent) : List BootEvent :=
  evs.flatMap fun
    | .api (.frame f) => [.bytes ((wire f).take 2), .bytes ((wire f).drop 2)]
    | e => [.client e]

def framesIn (evs : List ClientEvent) : List Frame :=
  evs.filterMap fun
    | .api (.frame f) => some f
    | _ => none

/-- The messages before the port is connected: a reset indication and one that joining is permitted. -/
def bootEarly : List (List UInt8 × Frame) :=
  [([0x41], Frame.of .AREQ .SYS 0x80 [0, 2, 0, 2, 6, 3]), ([], Frame.of .AREQ .ZDO 0xCB [60])]

/-- The others: a state change, and what an empty stick answers. -/
def bootLate : List (List UInt8 × Frame) :=
  ([], Frame.of .AREQ .ZDO 0xC0 [9]) :: (framesIn exampleStartup).map fun f => ([], f)

/-- The state change has begun to arrive when the port is connected. -/
def bootBefore : List BootEvent :=
  [.client (.api (.setUart true)), .bytes (portStream bootEarly),
   .bytes ((wire (Frame.of .AREQ .ZDO 0xC0 [9])).take 3)]

def bootAfter : List BootEvent :=
  .bytes ((wire (Frame.of .AREQ .ZDO 0xC0 [9])).drop 3) :: overPort (exampleStartup.drop 3)

theorem bootBefore_unconnected : ∀ r, .client (.connected r) ∉ bootBefore := by
  intro r h
  simp [bootBefore] at h

/-- Nobody else uses the API. -/
def bootAlone (es : List BootEvent) : Bool :=
  es.all fun
    | .client (.api (.submit ..)) => false
    | .client (.api (.register ..)) => false
    | .client (.api (.registerResponse ..)) => false
    | _ => true

/-- `Sound`, computed. -/
def soundly (f : Frame) : Bool :=
  decide (Fits f) && decide (f.data ≠ []) && match Obj.fromUnpiFrame f with
    | .ok o => decide (f.commandType = .AREQ → ∀ p ∈ o.parameters, Writable p.2)
    | .error _ => false

theorem soundly_sound {f : Frame} (h : soundly f = true) : Sound f := by
  unfold soundly at h
  rw [Bool.and_eq_true, Bool.and_eq_true] at h
  obtain ⟨⟨h1, h2⟩, h3⟩ := h
  refine ⟨of_decide_eq_true h1, of_decide_eq_true h2, ?_⟩
  cases ho : Obj.fromUnpiFrame f with
  | error e => rw [ho] at h3; cases h3
  | ok o => rw [ho] at h3; exact ⟨o, ho, of_decide_eq_true h3⟩

instance (f : Frame) : Decidable (LedFrame f) := by unfold LedFrame; infer_instance

theorem boot_done :
    Radio.done () ((Boot.init {} exampleOptions true).run
      (bootBefore ++ .client (.connected (.ok ())) :: bootAfter)).client.prog = true ∧
    bootAlone (bootBefore ++ bootAfter) = true := by decide +kernel

/-- Start-up with the empty stick over the port returns; then the application knows the radio. -/
example :
    let b := (Boot.init {} exampleOptions true).run (bootBefore ++ .client (.connected (.ok ())) :: bootAfter)
    ∃ (p : UInt8) (ieee : List UInt8), b.app.product = some (p.toNat : Int) ∧ ieee ∈ b.app.devices.map (·.ieee) := by
  obtain ⟨-, -, -, -, -, -, p, -, ieee, -, -, -, -, -, -, -, -, -, -, h1, h2⟩ :=
    c83_ready {} (o := exampleOptions) ⟨rfl, rfl⟩ true bootBefore bootAfter bootBefore_unconnected
      (fun c w e h => by cases List.all_eq_true.mp boot_done.2 _ h) (Radio.done_eq boot_done.1)
  exact ⟨p, ieee, h1, h2⟩

/-- Everything after the two early messages reaches the API. -/
example :
    let b := (Boot.init {} exampleOptions true).run (bootBefore ++ .client (.connected (.ok ())) :: bootAfter)
    ∃ groups : List (List Frame), groups.flatten = bootLate.map (fun x => received x.2) ∧
      b.client = Client.run (startup exampleOptions true)
        (portless bootBefore ++ [.connected (.ok ())] ++ portWeave bootAfter groups) ∧ b.raised = [] := by
  have hs : ∀ x ∈ bootEarly ++ bootLate, Noise x.1 ∧ soundly x.2 = true := by decide +kernel
  obtain ⟨groups, rest, h1, -, h3, h4, h5⟩ :=
    c83_all_partial {} (o := exampleOptions) ⟨rfl, rfl⟩ true bootBefore bootAfter bootBefore_unconnected bootEarly
      bootLate ((wire (Frame.of .AREQ .ZDO 0xC0 [9])).take 3) []
      (fun x hx => ⟨(hs x hx).1, soundly_sound (hs x hx).2⟩) (by decide +kernel) (by decide +kernel)
      (by intro x l h; cases h; decide) (noLedYet_of _ _ _ _ _ (.inr (by decide +kernel)))
      (fun m timeout q h => by cases List.all_eq_true.mp boot_done.2 _ h)
      (fun c n h => by cases List.all_eq_true.mp boot_done.2 _ h)
  rw [(h5 rfl).1, List.append_nil] at h1
  exact ⟨groups, h1, h3, h4⟩

/-- The first chunk completes the state change, the second nothing, the third the answer to the ping. -/
example :
    let b := (Boot.init {} exampleOptions true).run (bootBefore ++ .client (.connected (.ok ())) :: bootAfter)
    b.client = Client.run (startup exampleOptions true) (portless bootBefore ++ [.connected (.ok ())] ++
      portWeave bootAfter (perChunk bootLate 3 (portChunks bootAfter))) ∧
    (perChunk bootLate 3 (portChunks bootAfter)).take 3 =
      [[received (Frame.of .AREQ .ZDO 0xC0 [9])], [], [received (Frame.of .SRSP .SYS 1 [0x79, 0x01])]] := by
  have hs : ∀ x ∈ bootEarly ++ bootLate, Noise x.1 ∧ soundly x.2 = true := by decide +kernel
  exact ⟨c83_exact_partial {} (o := exampleOptions) ⟨rfl, rfl⟩ true bootBefore bootAfter bootBefore_unconnected
      bootEarly bootLate ((wire (Frame.of .AREQ .ZDO 0xC0 [9])).take 3) []
      (fun x hx => ⟨(hs x hx).1, soundly_sound (hs x hx).2⟩) (by decide +kernel) (by decide +kernel)
      (by intro x l h; cases h; decide) (noLedYet_of _ _ _ _ _ (.inr (by decide +kernel)))
      (fun m timeout q h => by cases List.all_eq_true.mp boot_done.2 _ h)
      (fun c n h => by cases List.all_eq_true.mp boot_done.2 _ h), by decide +kernel⟩

/-- `NoLedYet`, computed. -/
def ledLater (items : List (List UInt8 × Frame)) : Boot → Nat → List BootEvent → Bool
  | _, _, [] => true
  | b, n, .bytes c :: es =>
    (b.app.product.isSome || (inFirst items (n + c.length)).all fun f => !decide (LedFrame f)) &&
      ledLater items (b.step (.bytes c)) (n + c.length) es
  | b, n, .client e :: es => ledLater items (b.step (.client e)) n es

theorem ledLater_noLed {items : List (List UInt8 × Frame)} (es : List BootEvent) : ∀ {b : Boot} {n : Nat},
    ledLater items b n es = true → NoLedYet b es items n := by
  induction es with
  | nil => intro b n _ a c z h; cases a <;> cases h
  | cons e es ih =>
    intro b n h a c z hes hp f hf
    cases a with
    | nil =>
      injection hes with h1 h2
      subst h1 h2
      have hp : b.app.product = none := hp
      have hf : f ∈ inFirst items (n + c.length) := hf
      rw [ledLater, Bool.and_eq_true, hp] at h
      exact of_decide_eq_false (by simpa using List.all_eq_true.mp h.1 f hf)
    | cons e' a =>
      injection hes with h1 h2
      subst h1 h2
      cases e with
      | bytes c' =>
        rw [ledLater, Bool.and_eq_true] at h
        refine ih h.2 a c z rfl hp f ?_
        rw [portBytes, List.length_append, ← Nat.add_assoc] at hf
        exact hf
      | client e' => exact ih h a c z rfl hp f hf

/-- The stick permits joining while it starts the network. -/
def ledStartup : List ClientEvent :=
  (exampleStartup.drop 3).take 40 ++ .api (.frame (Frame.of .AREQ .ZDO 0xCB [60])) :: exampleStartup.drop 43

def ledLate : List (List UInt8 × Frame) :=
  ([], Frame.of .AREQ .ZDO 0xC0 [9]) :: (framesIn ledStartup).map fun f => ([], f)

def ledAfter : List BootEvent :=
  .bytes ((wire (Frame.of .AREQ .ZDO 0xC0 [9])).drop 3) :: overPort ledStartup

theorem led_later : ledLater ledLate ((Boot.init {} exampleOptions true).run
    (bootBefore ++ [.client (.connected (.ok ()))])) 3 ledAfter = true ∧
    bootAlone (bootBefore ++ ledAfter) = true := by decide +kernel

/-- Nothing is lost, and start-up returns. -/
example :
    let b := (Boot.init {} exampleOptions true).run (bootBefore ++ .client (.connected (.ok ())) :: ledAfter)
    b.client = Client.run (startup exampleOptions true) (portless bootBefore ++ [.connected (.ok ())] ++
      portWeave ledAfter (perChunk ledLate 3 (portChunks ledAfter))) ∧
    Radio.done () b.client.prog = true ∧
    (framesIn ledStartup).any (fun f => decide (LedFrame f)) = true := by
  have hs : ∀ x ∈ bootEarly ++ ledLate, Noise x.1 ∧ soundly x.2 = true := by decide +kernel
  refine ⟨c83_exact_partial {} (o := exampleOptions) ⟨rfl, rfl⟩ true bootBefore ledAfter bootBefore_unconnected
      bootEarly ledLate ((wire (Frame.of .AREQ .ZDO 0xC0 [9])).take 3) []
      (fun x hx => ⟨(hs x hx).1, soundly_sound (hs x hx).2⟩) (by decide +kernel) (by decide +kernel)
      (by intro x l h; cases h; decide) (ledLater_noLed _ led_later.1)
      (fun m timeout q h => by cases List.all_eq_true.mp led_later.2 _ h)
      (fun c n h => by cases List.all_eq_true.mp led_later.2 _ h), ?_, ?_⟩ <;> decide +kernel

/-- A device joins while start-up waits for the answer to its ping. -/
def bootJoin : List BootEvent :=
  [.client .go, .bytes ((wire (announcement 0x1234 0x1234 [1, 2, 3, 4, 5, 6, 7, 8] 0x8E [])).take 9),
   .client (.api (.tick 3)), .bytes ((wire (announcement 0x1234 0x1234 [1, 2, 3, 4, 5, 6, 7, 8] 0x8E [])).drop 9)]

example :
    let b := (Boot.init {} exampleOptions true).run
      ([.client (.api (.setUart true))] ++ .client (.connected (.ok ())) :: bootJoin)
    Chronicle (b.client.hist.filterMap enters) []
      [.announce 0x1234 0x1234 [1, 2, 3, 4, 5, 6, 7, 8] 0x8E []] b.effects b.app.devices ∧
    b.effects.length = 3 ∧ b.app.devices = [⟨[1, 2, 3, 4, 5, 6, 7, 8], 0x1234⟩] := by
  have ha : bootAlone ([.client (.api (.setUart true))] ++ bootJoin) = true := by decide +kernel
  obtain ⟨said, unsaid, h1, h2, h3⟩ := c83_told_partial {} (by decide) (o := exampleOptions) ⟨rfl, rfl⟩ true
    [.client (.api (.setUart true))] bootJoin (by intro r h; simp at h) []
    [([], .announce 0x1234 0x1234 [1, 2, 3, 4, 5, 6, 7, 8] 0x8E [])] [] []
    (by
      intro x hx
      cases List.mem_singleton.mp hx
      exact ⟨by decide, by decide, rfl⟩) rfl (by decide +kernel)
    (by intro x l h; cases h; decide) (noLedYet_of _ _ _ _ _ (.inr (by
      intro x hx
      cases List.mem_singleton.mp hx
      decide)))
    (fun m timeout q h => by cases List.all_eq_true.mp ha _ h)
    (fun c n h => by cases List.all_eq_true.mp ha _ h)
  rw [h3 rfl, List.append_nil] at h1
  subst h1
  refine ⟨h2, ?_, ?_⟩ <;> decide +kernel

/-- Joining is permitted by a remote command while start-up waits for the version; the indication and
the version response arrive together. -/
def bootLed : List BootEvent :=
  [.client .go, .bytes (wire (Frame.of .SRSP .SYS 1 [0x79, 0x01])), .client (.api (.wake 0)), .client .go,
   .client .go,
   .bytes (wire (Frame.of .AREQ .ZDO 0xCB [60]) ++
     wire (Frame.of .SRSP .SYS 2 [2, 1, 2, 6, 3, 0, 0, 0, 0])),
   .client (.api (.wake 1)), .client .go, .client (.api (.tick 6000)), .client (.api (.timeout 1)), .client .go]

/-- C83: `handle_znp` raises `KeyError` for the indication (`self.version` is still empty), the rest of the
chunk is never looked at, and start-up fails: `TimeoutError`, although the radio has answered at once. -/
theorem c83_led :
    let b := (Boot.init {} exampleOptions true).run
      ([.client (.api (.setUart true))] ++ .client (.connected (.ok ())) :: bootLed)
    b.client.prog = .raise .timeoutError ∧ b.raised = [.keyError "product"] ∧
    Entry.sent 1 [0xFE, 0, 0x21, 2, 0x23] ∈ b.client.api.log := by
  refine ⟨raised_eq ?_, ?_, ?_⟩ <;> decide +kernel

/-- C83: start-up raises for a reason, here that no answer was received in time. -/
example : ∃ groups, Blame (startup exampleOptions true)
    (portless [.client (.api (.setUart true))] ++ [.connected (.ok ())] ++ portWeave bootLed groups)
    .timeoutError := by
  have ha : bootAlone ([.client (.api (.setUart true))] ++ bootLed) = true := by decide +kernel
  obtain ⟨groups, -, -, -, -, -, h, -⟩ := c83_reason {} (o := exampleOptions) ⟨rfl, rfl⟩ true
    [.client (.api (.setUart true))] bootLed (by intro r h; simp at h)
    (fun c w e h => by cases List.all_eq_true.mp ha _ h)
    (fun m timeout q h => by cases List.all_eq_true.mp ha _ h) c83_led.1
  exact ⟨groups, h⟩

/-- **C83 (refuted).** Not everything that arrives reaches the API: an indication that switches the LED
makes `data_received` raise while the version is not known. -/
theorem c83_refuted : ¬ ∀ (app : App) (o : Options), WellFormed o → ∀ (autoForm : Bool)
    (before after : List BootEvent), (∀ r, .client (.connected r) ∉ before) →
    ∀ late : List (List UInt8 × Frame), (∀ x ∈ late, Noise x.1 ∧ Sound x.2) →
    portBytes before = [] → portBytes after = portStream late →
    (∀ m timeout q, .client (.api (.register m timeout q)) ∉ before ++ after) →
    (∀ c n, .client (.api (.registerResponse c n)) ∉ before ++ after) →
    ((Boot.init app o autoForm).run (before ++ .client (.connected (.ok ())) :: after)).raised = [] := by
  intro h
  have hs : ∀ x ∈ [Frame.of .SRSP .SYS 1 [0x79, 0x01], Frame.of .AREQ .ZDO 0xCB [60],
      Frame.of .SRSP .SYS 2 [2, 1, 2, 6, 3, 0, 0, 0, 0]].map (fun f => (([] : List UInt8), f)),
      Noise x.1 ∧ soundly x.2 = true := by decide +kernel
  have ha : bootAlone ([.client (.api (.setUart true))] ++ bootLed) = true := by decide +kernel
  have := h {} exampleOptions ⟨rfl, rfl⟩ true [.client (.api (.setUart true))] bootLed
    (by intro r h; simp at h) _ (fun x hx => ⟨(hs x hx).1, soundly_sound (hs x hx).2⟩) rfl
    (by decide +kernel) (fun m timeout q h => by cases List.all_eq_true.mp ha _ h)
    (fun c n h => by cases List.all_eq_true.mp ha _ h)
  rw [c83_led.2.1] at this
  cases this

/-- C83: until the port is connected, and if connecting fails, start-up tells zigpy nothing, learns
nothing, writes nothing (the API has only what others did with it) and does not return; it raises nothing
but what `API.new` raised. -/
theorem c83_unconnected (app : App) (o : Options) (autoForm : Bool) (es : List BootEvent)
    (h : .client (.connected (.ok ())) ∉ es) :
    let b := (Boot.init app o autoForm).run es
    b.app = app ∧ b.effects = [] ∧ b.client.api = Api.init.run (othersUse es) ∧ b.client.prog ≠ .ret () ∧
      ∀ x, b.client.prog = .raise x → .client (.connected (.error x)) ∈ es := by
  dsimp only
  obtain ⟨k, hs, hk⟩ : ∃ k, startup o autoForm = .call .connect k ∧ ∀ e, k (.error e) = .raise e :=
    ⟨_, rfl, fun _ => rfl⟩
  obtain ⟨h1, h2, h3, h4, h5⟩ := offline_run hk es (b := Boot.init app o autoForm) (.inl ⟨hs, rfl, rfl⟩) h
  refine ⟨h2, h3, h4, ?_, ?_⟩
  · intro hr
    rcases h1 with h1 | ⟨e, h1⟩
    · rw [h1.prog] at hr; cases hr
    · rw [h1.prog] at hr; cases hr
  · intro x hx
    rcases h5 x hx with h | h
    · rw [show (Boot.init app o autoForm).client.prog = _ from hs] at h; cases h
    · exact h

/-- Connecting fails; the radio announces itself all the same, and somebody submits a request. -/
example :
    let b := (Boot.init {} exampleOptions true).run
      [.bytes [0xFE, 6, 0x41], .client .go, .client (.connected (.error .timeoutError)),
       .bytes [0x80, 0, 2, 0, 2, 6, 3, 0xC2], .client .go]
    b.effects = [] ∧ b.client.prog ≠ .ret () ∧ b.client.api = Api.init :=
  let h := c83_unconnected {} exampleOptions true
    [.bytes [0xFE, 6, 0x41], .client .go, .client (.connected (.error .timeoutError)),
       .bytes [0x80, 0, 2, 0, 2, 6, 3, 0xC2], .client .go] (by simp)
  ⟨h.2.1, h.2.2.2.1, h.2.2.1⟩
end Zcc
