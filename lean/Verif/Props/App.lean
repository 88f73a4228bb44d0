import Verif.Proofs.App
import Verif.Props.Codec
import Verif.Props.Timely

/-!
# Properties of the application's message handling: C25, C32-C35
-/

namespace Zcc

open Spec

/-- Only the waiters that start-up registers are registered directly (see C27). -/
def StartupWaiters (es : List Event) : Prop := ∀ m to q, .register m to q ∈ es → StartupMatcher m

theorem receive_ok (es : List Event) (hreg : StartupWaiters es) (a : App) (f : Frame) (o : Obj)
    (hd : Obj.fromUnpiFrame f = .ok o) :
    ∃ q, (receive (Api.init.run es) a f).2 = a.handleZnp { o with sequence := q } := by
  obtain ⟨q, hq⟩ := c27_matching_never_raises es hreg f o hd
  refine ⟨q, ?_⟩
  unfold receive
  rcases hr : (Api.init.run es).dataReceived f with ⟨s, e | o'⟩
  · rw [hr] at hq; simp at hq
  · rw [hr] at hq
    simp at hq
    rw [hq]

/-! ## C32 -/

/-- **C32**: an incoming application message from a known device is forwarded exactly once, with
cluster, endpoints, link quality and data as received; nothing else happens. The device is the first
one in zigpy's table with the source address. -/
theorem c32_known_partial (es : List Event) (hreg : StartupWaiters es) (a : App) (m : AppMessage)
    (hlen : m.data.length < 256) (trailing : List UInt8) (d : Device)
    (hd : FirstWithNwk a.devices m.src.toNat d) :
    (receive (Api.init.run es) a (m.frame trailing)).2 =
      ⟨a, handOver d m.lqi.toNat m.cluster.toNat m.srcEp.toNat m.dstEp.toNat m.data, none⟩ := by
  obtain ⟨o, h1, h2⟩ := incoming_handled m hlen trailing
  obtain ⟨q, hq⟩ := receive_ok es hreg a _ o h1
  rw [hq, h2, find_first hd]

/-- **C32**: an incoming application message from an unknown device is dropped without effect. -/
theorem c32_unknown (es : List Event) (hreg : StartupWaiters es) (a : App) (m : AppMessage)
    (hlen : m.data.length < 256) (trailing : List UInt8)
    (hd : ∀ d ∈ a.devices, d.nwk ≠ m.src.toNat) :
    (receive (Api.init.run es) a (m.frame trailing)).2 = ⟨a, [], none⟩ := by
  obtain ⟨o, h1, h2⟩ := incoming_handled m hlen trailing
  obtain ⟨q, hq⟩ := receive_ok es hreg a _ o h1
  rw [hq, h2, find_none hd]

/-- Two devices; the second one is new under the address the first one had before. -/
def exApp : App :=
  { devices := [⟨[1, 1, 1, 1, 1, 1, 1, 1], 0x1111⟩, ⟨[2, 2, 2, 2, 2, 2, 2, 2], 0x1234⟩,
      ⟨[3, 3, 3, 3, 3, 3, 3, 3], 0x1234⟩], product := some 0 }

/-- An on/off report. -/
def exMessage : AppMessage :=
  { group := 0, cluster := 6, src := 0x1234, srcEp := 1, dstEp := 1, broadcast := 0, lqi := 87,
    secure := 0, time := 123456, tsn := 9, data := [0x18, 9, 0x0A, 0, 0, 0x10, 1] }

example : FirstWithNwk exApp.devices exMessage.src.toNat ⟨[2, 2, 2, 2, 2, 2, 2, 2], 0x1234⟩ :=
  ⟨[⟨[1, 1, 1, 1, 1, 1, 1, 1], 0x1111⟩], [⟨[3, 3, 3, 3, 3, 3, 3, 3], 0x1234⟩], rfl, rfl, by decide⟩

example : exMessage.frame [] = Frame.of .AREQ .AF 0x81
    [0, 0, 6, 0, 0x34, 0x12, 1, 1, 0, 87, 0, 0x40, 0xE2, 1, 0, 9, 7, 0x18, 9, 0x0A, 0, 0, 0x10, 1] := by
  decide +kernel

example : (receive Api.init exApp (exMessage.frame [])).2.effects =
    [.radioDetails ⟨[2, 2, 2, 2, 2, 2, 2, 2], 0x1234⟩ (.int 87) 0,
     .message ⟨[2, 2, 2, 2, 2, 2, 2, 2], 0x1234⟩ 260 (.int 6) (.int 1) (.int 1)
       (.bytes [0x18, 9, 0x0A, 0, 0, 0x10, 1])] := by decide +kernel

/-- **C32**: a message in the extended form (8-byte source address) is always dropped, whatever
address it carries and whatever devices are known. -/
theorem c32_ext_dropped (es : List Event) (hreg : StartupWaiters es) (a : App) (m : AppMessage)
    (mode : UInt8) (addr : List UInt8) (pan : UInt16) (hm : mode.toNat ∈ [0, 1, 2, 3, 15])
    (ha : addr.length = 8) (hlen : m.data.length < 65536) :
    (receive (Api.init.run es) a (m.frameExt mode addr pan)).2 = ⟨a, [], none⟩ := by
  obtain ⟨o, h1, h2⟩ := incomingExt_handled m mode addr pan hm ha hlen
  obtain ⟨q, hq⟩ := receive_ok es hreg a _ o h1
  rw [hq, h2]

/-- **C32 (refuted).** A message in the extended form from a known device - known under the IEEE
address given in the message - is not forwarded. -/
theorem c32_refuted : ¬ ∀ (a : App) (m : AppMessage) (addr : List UInt8) (d : Device),
    addr.length = 8 → m.data.length < 256 → d ∈ a.devices → d.ieee = addr →
    ∃ lqi rssi profile cluster srcEp dstEp data,
      (receive Api.init a (m.frameExt 3 addr 0)).2.effects =
        [.radioDetails d lqi rssi, .message d profile cluster srcEp dstEp data] := by
  intro h
  obtain ⟨_, _, _, _, _, _, _, h⟩ := h exApp exMessage [1, 1, 1, 1, 1, 1, 1, 1]
    ⟨[1, 1, 1, 1, 1, 1, 1, 1], 0x1111⟩ rfl (by decide) (by decide) rfl
  rw [show Api.init = Api.init.run [] from rfl, c32_ext_dropped [] (by intro _ _ _ h; simp at h) _ _ _ _ _ (by decide) rfl
    (by decide)] at h
  cases h

example : (receive (Api.init.run []) exApp (exMessage.frame [])).2 =
    ⟨exApp, handOver ⟨[2, 2, 2, 2, 2, 2, 2, 2], 0x1234⟩ 87 6 1 1 exMessage.data, none⟩ :=
  c32_known_partial [] (fun _ _ _ h => by cases h) exApp exMessage (by decide) [] _
    ⟨[⟨[1, 1, 1, 1, 1, 1, 1, 1], 0x1111⟩], [⟨[3, 3, 3, 3, 3, 3, 3, 3], 0x1234⟩], rfl, rfl, by decide⟩

/-! ## C33 -/

/-- **C33.** A device announcement makes the announced network address known for the announced
device, whether it was known (under whatever address) or not, and touches no other device; it is
forwarded once, as Device_annce (cluster 0x13) from that device, with transaction number 0 followed
by the announced address, IEEE address and capabilities. -/
theorem c33_announcement (es : List Event) (hreg : StartupWaiters es) (a : App)
    (hdist : DistinctIeee a.devices) (src nwk : UInt16) (ieee : List UInt8) (caps : UInt8)
    (hi : ieee.length = 8) (trailing : List UInt8) :
    ∃ a', (receive (Api.init.run es) a (announcement src nwk ieee caps trailing)).2 =
        ⟨a', .join nwk.toNat ieee 0 :: handOver ⟨ieee, nwk.toNat⟩ 0 0x13 0 0
          (0 :: (le16 nwk.toNat ++ ieee ++ [caps])), none⟩ ∧
      DistinctIeee a'.devices ∧ a'.product = a.product ∧
      ∀ d, d ∈ a'.devices ↔ d = ⟨ieee, nwk.toNat⟩ ∨ (d ∈ a.devices ∧ d.ieee ≠ ieee) := by
  obtain ⟨o, h1, h2⟩ := annce_handled src nwk ieee caps hi trailing
  obtain ⟨q, hq⟩ := receive_ok es hreg a _ o h1
  obtain ⟨j1, j2, _, j4⟩ := handleJoin_spec a nwk.toNat ieee hdist
  exact ⟨_, by rw [hq, h2 a q hdist], j1, j2, j4⟩

/-- The first device moves to the address 0x5678; a fourth one joins. -/
example : (receive Api.init exApp (announcement 0x5678 0x5678 [1, 1, 1, 1, 1, 1, 1, 1] 0x8E [])).2.app.devices
      = [⟨[1, 1, 1, 1, 1, 1, 1, 1], 0x5678⟩, ⟨[2, 2, 2, 2, 2, 2, 2, 2], 0x1234⟩,
        ⟨[3, 3, 3, 3, 3, 3, 3, 3], 0x1234⟩] ∧
    (receive Api.init exApp (announcement 0x5678 0x5678 [4, 4, 4, 4, 4, 4, 4, 4] 0x8E [])).2.app.devices.length = 4 := by
  decide +kernel

example : DistinctIeee exApp.devices := by decide

/-! ## C34 -/

theorem reply_params {f : Frame} {r : Nat × String × Nat} (hr : r ∈ zdoReplies)
    (ht : f.commandType = .AREQ) (hs : f.subsystem = .ZDO) {c : Cmd} (hid : c.id = r.1)
    (hc : InTable f.subsystem c) {ps : Params} (hp : ParamsOf c f.commandType ps) :
    ps = replyParams r.1 := by
  obtain ⟨cs, hcs, hcm⟩ := hc
  rw [hs] at hcs
  have : cs = defZDO := by simpa [definition] using hcs.symm
  subst this
  unfold ParamsOf at hp
  rw [if_neg (by rw [ht]; decide)] at hp
  rw [← hp]
  exact (replyParams_dec r hr).2 c hcm hid

theorem reply_parts {f : Frame} {o : Obj} {r : Nat × String × Nat} (hr : r ∈ zdoReplies)
    (ht : f.commandType = .AREQ) (hs : f.subsystem = .ZDO) (hid : f.commandId = r.1)
    (ho : Obj.fromUnpiFrame f = .ok o) {src : UInt16} {body : List UInt8}
    (hsrc : f.data = le16 src.toNat ++ body) :
    o.commandType = .AREQ ∧ o.subsystem = .ZDO ∧ o.command = r.2.1 ∧
    o.payload.lookup "srcaddr" = some (.int src.toNat) ∧ o.payload.lookup "ieeeaddr" = none ∧
    (∀ p ∈ o.parameters, Writable p.2) ∧
    (r.2.1 ≠ "mgmtLqiRsp" → ∀ p ∈ o.parameters, p.2 ≠ .LIST_NEIGHBOR_LQI) := by
  obtain ⟨c, hc, hcid, hp, hrd, hobj⟩ := fromUnpiFrame_ok ho
  rw [hs] at hc
  obtain ⟨cs, hcs, hcm⟩ := id hc
  have : cs = defZDO := by simpa [definition] using hcs.symm
  subst this
  obtain ⟨h1, h2, h3, h4, h5⟩ := reply_params_dec r hr c hcm (hcid.trans hid)
  have hpar : o.parameters = c.request := by
    unfold ParamsOf at hp
    rw [if_neg (by rw [ht]; decide)] at hp
    exact hp.symm
  have hn := (table_params hc).1
  have hcmd : o.command = c.name := by rw [hobj]
  refine ⟨by rw [hobj]; exact ht, by rw [hobj]; exact hs, hcmd.trans h1, ?_, ?_, ?_, ?_⟩
  · rw [hpar] at hrd
    rcases hreq : c.request with _ | ⟨p, ps⟩
    · rw [hreq] at h4; simp at h4
    · rw [hreq] at h4
      simp at h4
      subst h4
      rw [hreq] at hrd hn
      rw [hsrc, ← le16_leBytes] at hrd
      exact read_first16 hn src.toNat_lt hrd
  · rw [hpar] at hrd
    exact lookup_absent hn hrd h5
  · rw [hpar]; exact h2
  · rw [hpar]; intro h; exact h3 (by rw [h1]; exact h)

/-- **C34.** A reply of a handled kind can be read exactly if a body of its kind follows the source
address. -/
theorem c34_decodes (f : Frame) (r : Nat × String × Nat) (hr : r ∈ zdoReplies)
    (ht : f.commandType = .AREQ) (hs : f.subsystem = .ZDO) (hid : f.commandId = r.1) (src : UInt16)
    (body : List UInt8) (hsrc : f.data = le16 src.toNat ++ body) :
    (∃ o, Obj.fromUnpiFrame f = .ok o) ↔ ∃ b rest, body = b ++ rest ∧ ReplyBody r.1 b := by
  constructor
  · rintro ⟨o, ho⟩
    obtain ⟨c, ps, x, rest, vs, hc, hcid, hp, hx, hF, -⟩ := decode_iff.mp ho
    rw [reply_params hr ht hs (hcid.trans hid) hc hp] at hF
    obtain ⟨a, a', b, rfl, hb⟩ := reply_fields_body hr hF
    rw [hsrc] at hx
    simp only [le16, List.cons_append, List.nil_append, List.cons.injEq] at hx
    exact ⟨b, rest, hx.2.2, hb⟩
  · rintro ⟨b, rest, rfl, hb⟩
    obtain ⟨⟨c, hc, hcid, hcr⟩, -⟩ := replyParams_dec r hr
    obtain ⟨vs, hF⟩ := reply_body_fields hr (UInt8.ofNat (src.toNat % 256))
      (UInt8.ofNat (src.toNat / 256 % 256)) hb
    refine ⟨_, decode_iff.mpr ⟨c, replyParams r.1, _, rest, vs, ?_, hcid.trans hid.symm, ?_, ?_, hF, rfl⟩⟩
    · rw [hs]; exact ⟨defZDO, rfl, hc⟩
    · unfold ParamsOf
      rw [if_neg (by rw [ht]; decide), hcr]
    · rw [hsrc]; rfl

/-- **C34 (partial).** An awaited ZDO reply of a handled kind that carries no neighbour list is
forwarded exactly once, with the response cluster of its kind, endpoints 0, and as data the
transaction number and the body of the reply, without trailing bytes that do not belong to it. From an
unknown device it is dropped. (The LED command for a permit
join reply comes on top; it needs the product number known, which start-up reads first.)
Missing: neighbour lists, whose reserved bits are cleared, see `c34_neighbors` and `c34_refuted`. -/
theorem c34_reply_partial (a : App) (hprod : a.product ≠ none) (f : Frame) (o : Obj)
    (r : Nat × String × Nat) (hr : r ∈ zdoReplies) (hlqi : r.2.1 ≠ "mgmtLqiRsp")
    (ht : f.commandType = .AREQ) (hs : f.subsystem = .ZDO) (hid : f.commandId = r.1)
    (ho : Obj.fromUnpiFrame f = .ok o) (src : UInt16) (body : List UInt8)
    (hsrc : f.data = le16 src.toNat ++ body) (n : Nat) (hn : n < 256) :
    ∃ b rest, body = b ++ rest ∧ ReplyBody r.1 b ∧
      (∀ d, FirstWithNwk a.devices src.toNat d → a.handleZnp { o with sequence := some (n : Int) } =
        ⟨a, ledFor a r.2.1 ++ handOver d 0 r.2.2 0 0 (UInt8.ofNat n :: b), none⟩) ∧
      ((∀ d ∈ a.devices, d.nwk ≠ src.toNat) →
        a.handleZnp { o with sequence := some (n : Int) } = ⟨a, ledFor a r.2.1, none⟩) := by
  obtain ⟨p1, p2, p3, p4, p5, p6, p7⟩ := reply_parts hr ht hs hid ho hsrc
  obtain ⟨data, rest, vs, h1, h2, h3⟩ := reencode_exact ho (fun p hp => ⟨p6 p hp, p7 hlqi p hp⟩)
  obtain ⟨c, ps, x, y, vs', hc, hcid, hp, _, _, hobj⟩ := decode_iff.mp ho
  have hpar : o.parameters = replyParams r.1 := by
    rw [hobj]; exact reply_params hr ht hs (hcid.trans hid) hc hp
  rw [hpar] at h2
  obtain ⟨x, y, b, rfl, hb⟩ := reply_fields_body hr h2
  refine ⟨b, rest, ?_, hb, ?_⟩
  · rw [hsrc] at h1
    simp only [le16, List.cons_append, List.nil_append, List.cons.injEq] at h1
    exact h1.2.2
  have hre : ({ o with sequence := some (n : Int) } : Obj).toUnpiFrame =
      .ok (Frame.of o.commandType o.subsystem o.commandId (x :: y :: b)) := reencode h3
  have key := handleZnp_zdo (o := { o with sequence := some (n : Int) }) hr p1 p2 p3 hre hn rfl a hprod
  rw [key]
  dsimp only
  rw [p3, p4, p5]
  unfold App.forward App.sender App.deviceByNwk
  constructor
  · intro d hd; rw [find_first hd]; rfl
  · intro hd; rw [find_none hd]; simp

/-- **C34** for neighbour lists: the same, except that the reserved bits of each neighbour entry
arrive cleared. -/
theorem c34_neighbors (a : App) (hprod : a.product ≠ none) (f : Frame) (o : Obj)
    (ht : f.commandType = .AREQ) (hs : f.subsystem = .ZDO) (hid : f.commandId = 0xB1)
    (ho : Obj.fromUnpiFrame f = .ok o) (src : UInt16) (body : List UInt8)
    (hsrc : f.data = le16 src.toNat ++ body) (n : Nat) (hn : n < 256) :
    ∃ (head : List UInt8) (entries : List (List UInt8)) (rest : List UInt8), head.length = 4 ∧
      (∀ e ∈ entries, e.length = 22) ∧ body = head ++ entries.flatten ++ rest ∧
      ReplyBody 0xB1 (head ++ entries.flatten) ∧
      (∀ d, FirstWithNwk a.devices src.toNat d → a.handleZnp { o with sequence := some (n : Int) } =
        ⟨a, handOver d 0 0x8031 0 0
          (UInt8.ofNat n :: (head ++ (entries.map maskEntry).flatten)), none⟩) ∧
      ((∀ d ∈ a.devices, d.nwk ≠ src.toNat) →
        a.handleZnp { o with sequence := some (n : Int) } = ⟨a, [], none⟩) := by
  have hr : (0xB1, "mgmtLqiRsp", 0x8031) ∈ zdoReplies := by decide
  obtain ⟨p1, p2, p3, p4, p5, _, _⟩ := reply_parts hr ht hs hid ho hsrc
  obtain ⟨head, count, entries, rest, h1, hcount, h2, h3, h4⟩ :=
    c11_lqi_masked f o hs hid (by rw [ht]; decide) ho
  match head, h1 with
  | x :: y :: head, h1 =>
    refine ⟨head ++ [count], entries, rest, by simpa using h1, h2, ?_, ?_, ?_⟩
    · rw [hsrc] at h3
      simp only [le16, List.cons_append, List.nil_append, List.cons.injEq] at h3
      rw [h3.2.2]; simp
    · refine Or.inr (Or.inr (Or.inr (Or.inr ⟨rfl, head, count, entries.flatten, by simpa using h1,
        by simp, ?_⟩)))
      rw [chunks_length entries h2, hcount]
    have hre : ({ o with sequence := some (n : Int) } : Obj).toUnpiFrame =
        .ok (Frame.of f.commandType .ZDO 0xB1 (x :: y :: head ++ count :: (entries.map maskEntry).flatten)) := h4
    have key := handleZnp_zdo (o := { o with sequence := some (n : Int) }) hr p1 p2 p3 hre hn rfl a hprod
    rw [key]
    dsimp only at p3 ⊢
    have hl : ledFor a o.command = [] := by
      unfold ledFor; rw [p3, if_neg (by simp)]
    rw [hl, p4, p5]
    unfold App.forward App.sender App.deviceByNwk
    have hd2 : (Frame.of f.commandType .ZDO 0xB1
        (x :: y :: head ++ count :: (entries.map maskEntry).flatten)).data.drop 2 =
        head ++ [count] ++ (entries.map maskEntry).flatten := by simp [Frame.of]
    rw [hd2]
    constructor
    · intro d hd; rw [find_first hd]; rfl
    · intro hd; rw [find_none hd]; simp

/-- Reply of the device 0x1234 to an active endpoint request, two endpoints, one trailing byte. -/
def exActiveEp : Frame := Frame.of .AREQ .ZDO 0x85 [0x34, 0x12, 0, 0x34, 0x12, 2, 1, 0xF2, 9]

example : (match Obj.fromUnpiFrame exActiveEp with
    | .ok o => (exApp.handleZnp { o with sequence := some 0x45 }).effects
    | .error _ => []) =
    handOver ⟨[2, 2, 2, 2, 2, 2, 2, 2], 0x1234⟩ 0 0x8005 0 0 [0x45, 0, 0x34, 0x12, 2, 1, 0xF2] := by
  decide +kernel

/-- **C34 (refuted).** A neighbour list with reserved bits set is forwarded with other bytes. -/
theorem c34_refuted : ¬ ∀ (a : App) (f : Frame) (o : Obj) (r : Nat × String × Nat) (n : Nat),
    r ∈ zdoReplies → f.commandType = .AREQ → f.subsystem = .ZDO → f.commandId = r.1 →
    Obj.fromUnpiFrame f = .ok o → ReplyBody r.1 (f.data.drop 2) → a.product ≠ none → n < 256 →
    ∀ dev profile cluster srcEp dstEp data,
      .message dev profile cluster srcEp dstEp (.bytes data) ∈
        (a.handleZnp { o with sequence := some (n : Int) }).effects →
      data = UInt8.ofNat n :: f.data.drop 2 := by
  intro h
  let f : Frame := Frame.of .AREQ .ZDO 0xB1 ([0x34, 0x12, 0, 1, 0, 1] ++ List.replicate 22 0xFF)
  rcases ho : Obj.fromUnpiFrame f with e | o
  · exfalso
    have : (Obj.fromUnpiFrame f).toOption.isSome = true := by decide +kernel
    rw [ho] at this; simp [Except.toOption] at this
  have hnt : ReplyBody 0xB1 (f.data.drop 2) := by
    refine Or.inr (Or.inr (Or.inr (Or.inr ⟨rfl, [0, 1, 0], 1, List.replicate 22 0xFF, rfl, ?_, rfl⟩)))
    decide +kernel
  have key := h exApp f o (0xB1, "mgmtLqiRsp", 0x8031) 7 (by decide) rfl rfl rfl ho hnt (by decide) (by decide)
    ⟨[2, 2, 2, 2, 2, 2, 2, 2], 0x1234⟩ 260 (.int 0x8031) (.int 0) (.int 0)
    (7 :: ([0, 1, 0, 1] ++ List.replicate 18 0xFF ++ [0x7F, 3, 0xFF, 0xFF])) (by
      have : (match Obj.fromUnpiFrame f with
        | .ok o => decide (Effect.message ⟨[2, 2, 2, 2, 2, 2, 2, 2], 0x1234⟩ 260 (.int 0x8031)
            (.int 0) (.int 0) (.bytes (7 :: ([0, 1, 0, 1] ++ List.replicate 18 0xFF ++ [0x7F, 3, 0xFF, 0xFF])))
            ∈ (exApp.handleZnp { o with sequence := some 7 }).effects)
        | .error _ => false) = true := by decide +kernel
      rw [ho] at this
      exact of_decide_eq_true this)
  revert key
  decide +kernel

/-- The active endpoint reply has a body of its kind. -/
example : ∃ b rest, [0, 0x34, 0x12, 2, 1, 0xF2, 9] = b ++ rest ∧ ReplyBody 0x85 b :=
  (c34_decodes exActiveEp (0x85, "activeEpRsp", 0x8005) (by decide +kernel) rfl rfl rfl 0x1234
    [0, 0x34, 0x12, 2, 1, 0xF2, 9] (by decide +kernel)).mp ⟨_, rfl⟩

/-! ## C35 -/

/-- **C35.** A message that does not concern zigpy leaves the application's state alone and hands
nothing to zigpy. -/
theorem c35_unconcerned (a : App) (o : Obj) (h : ¬ Concerns o) :
    (a.handleZnp o).app = a ∧ ∀ e ∈ (a.handleZnp o).effects, Effect.forZigpy e = false := by
  unfold App.handleZnp
  split
  · simp
  rename_i ht
  have ht : o.commandType = .AREQ := by simpa using ht
  split
  · simp
  dsimp only
  split
  · rename_i hz
    exact absurd ⟨ht, .inr (.inl hz)⟩ h
  · rename_i hz
    exact ⟨dispatch_app _ _ _ _ _, dispatch_unconcerned a o _ _ _ ht hz h⟩

/-- **C35.** Synchronous responses (and whatever else is no indication) have no effect at all. -/
theorem c35_not_indication (a : App) (o : Obj) (h : o.commandType ≠ .AREQ) :
    a.handleZnp o = ⟨a, [], none⟩ := by
  unfold App.handleZnp
  rw [if_pos h]

/-- **C35.** The ignored indications have no effect. -/
theorem c35_ignored (a : App) (o : Obj) (h : o.command ∈ ignoredIndications) :
    (a.handleZnp o).app = a ∧ (a.handleZnp o).effects = [] := by
  have hne : o.command ≠ "endDeviceAnnceInd" := by
    intro he; rw [he] at h; revert h; decide +kernel
  unfold App.handleZnp
  split
  · simp
  split
  · simp
  dsimp only
  rw [if_neg (fun h => hne h.2)]
  unfold App.dispatch
  rw [if_pos (ignored_eq ▸ h)]
  exact ⟨rfl, rfl⟩

/-- **C35.** A ZDO reply that nobody waits for (no transaction number) changes no state and is not
forwarded; only the LED may be switched on. -/
theorem c35_unawaited (a : App) (o : Obj) (h : o.command ∈ zdoReplies.map (·.2.1))
    (hq : o.sequence = none) :
    (a.handleZnp o).app = a ∧ ∀ e ∈ (a.handleZnp o).effects, Effect.forZigpy e = false := by
  apply c35_unconcerned
  rintro ⟨_, ⟨_, h1 | h1⟩ | ⟨_, h1⟩ | ⟨_, h1, _⟩⟩
  · rw [h1] at h; revert h; decide +kernel
  · rw [h1] at h; revert h; decide +kernel
  · rw [h1] at h; revert h; decide +kernel
  · exact h1 hq

example : ¬ Concerns { exVersion with commandType := .SRSP } := by
  rintro ⟨h, _⟩; revert h; decide

/-- A data confirm; a bind reply nobody waits for; a permit join reply nobody waits for. -/
example : (receive Api.init exApp (Frame.of .AREQ .AF 0x80 [0, 1, 5])).2 = ⟨exApp, [], none⟩ ∧
    (receive Api.init exApp (Frame.of .AREQ .ZDO 0xA1 [0x34, 0x12, 0])).2 = ⟨exApp, [], none⟩ ∧
    (receive Api.init exApp (Frame.of .AREQ .ZDO 0xB6 [0x34, 0x12, 0])).2 =
      ⟨exApp, [.led 1], none⟩ := by
  decide +kernel

example : exApp.handleZnp { exVersion with commandType := .SRSP } = ⟨exApp, [], none⟩ :=
  c35_not_indication exApp _ (by decide)

example : (exApp.handleZnp { exVersion with commandType := .AREQ, command := "resetInd" }).effects = [] :=
  (c35_ignored exApp _ (by decide +kernel)).2

/-! ## C25 -/

theorem waiters_comparable (es : List Event) (hreg : StartupWaiters es) {f : Frame} {o : Obj}
    (hd : Obj.fromUnpiFrame f = .ok o) : ∀ x ∈ (Api.init.run es).waiters, Comparable x.matcher o := by
  have hs : RegsSat (fun m _ => ∀ f r, Obj.fromUnpiFrame f = .ok r → Comparable m r)
      (Api.init.run es).log := by
    refine regsSat_run (fun o m to h f r _ => own_comparable h r)
      (fun o q m q' h f r hr => response_comparable h hr) es Api.init (fun x t h => by
        simp [Api.init] at h) ?_
    intro e he m to q heq f r hr
    subst heq
    exact startup_comparable (hreg m to q he) hr
  intro x hx
  obtain ⟨time, h, _⟩ := (inv_run es).wait.regW x hx
  exact hs x time h f o hd

/-- The oldest waiter that a reply answers gives it its transaction number. -/
theorem receive_tagged (es : List Event) (hreg : StartupWaiters es) (a : App) (f : Frame) (o : Obj)
    (ho : Obj.fromUnpiFrame f = .ok o) (pre post : List Waiter) (w : Waiter)
    (hW : (Api.init.run es).waiters = pre ++ w :: post) (hpre : ∀ x ∈ pre, ¬ Answers x.matcher o)
    (hw : Answers w.matcher o) (n : Nat) (hseq : w.sequence = some (n : Int)) (hn : 1 ≤ n ∧ n ≤ 255) :
    (receive (Api.init.run es) a f).2 = a.handleZnp { o with sequence := some (n : Int) } ∧
    (receive (Api.init.run es) a f).1.waiters = pre ++ post := by
  have hcmp := waiters_comparable es hreg ho
  obtain ⟨g1, g2, _, _⟩ := c24_oldest es f o pre post w n ho hW
    (fun x hx => ⟨hcmp x (by rw [hW]; simp [hx]), hpre x hx⟩) hw hseq (by omega)
  obtain ⟨q, hq⟩ := c27_matching_never_raises es hreg f o ho
  have hstep : Api.init.run (es ++ [.frame f]) = ((Api.init.run es).dataReceived f).1 := by
    rw [run_snoc]; rfl
  rw [hstep] at g1 g2
  have hlast : ((Api.init.run es).dataReceived f).1.log.getLast? =
      some (.handed { o with sequence := q }) := by
    unfold Api.dataReceived at hq ⊢
    rw [ho] at hq ⊢
    dsimp only at hq ⊢
    split at hq
    · simp at hq
    · rename_i heq
      simp at hq
      simp [hq]
  rw [hlast] at g2
  have hqn : q = some (n : Int) := by
    have := Option.some.inj g2
    simp only [Entry.handed.injEq] at this
    exact congrArg Obj.sequence this
  subst hqn
  have hrec : (receive (Api.init.run es) a f).2 = a.handleZnp { o with sequence := some (n : Int) } ∧
      (receive (Api.init.run es) a f).1 = ((Api.init.run es).dataReceived f).1 := by
    unfold receive
    rcases hr' : (Api.init.run es).dataReceived f with ⟨s, e | o'⟩
    · rw [hr'] at hq; simp at hq
    · rw [hr'] at hq; simp at hq; rw [hq]; exact ⟨rfl, rfl⟩
  exact ⟨hrec.1, by rw [hrec.2]; exact g1⟩

/-- **C25 (partial).** If the oldest waiter that a ZDO reply answers belongs to a request with
transaction number `n` (1..255), the reply is handed to zigpy exactly once, as a message that starts
with the byte `n`, and the waiter is gone. Missing: transaction number 0 (`c25_refuted`) and the
replies that the application does not know (`c25_refuted_unhandled`). -/
theorem c25_partial (es : List Event) (hreg : StartupWaiters es) (a : App) (hprod : a.product ≠ none)
    (f : Frame) (o : Obj) (r : Nat × String × Nat) (hr : r ∈ zdoReplies)
    (ht : f.commandType = .AREQ) (hs : f.subsystem = .ZDO) (hid : f.commandId = r.1)
    (ho : Obj.fromUnpiFrame f = .ok o) (src : UInt16) (body : List UInt8)
    (hsrc : f.data = le16 src.toNat ++ body) (d : Device) (hd : FirstWithNwk a.devices src.toNat d)
    (pre post : List Waiter) (w : Waiter) (hW : (Api.init.run es).waiters = pre ++ w :: post)
    (hpre : ∀ x ∈ pre, ¬ Answers x.matcher o) (hw : Answers w.matcher o) (n : Nat)
    (hseq : w.sequence = some (n : Int)) (hn : 1 ≤ n ∧ n ≤ 255) :
    (∃ bytes, (receive (Api.init.run es) a f).2 =
      ⟨a, ledFor a r.2.1 ++ handOver d 0 r.2.2 0 0 (UInt8.ofNat n :: bytes), none⟩) ∧
    (receive (Api.init.run es) a f).1.waiters = pre ++ post := by
  obtain ⟨hrec, g1⟩ := receive_tagged es hreg a f o ho pre post w hW hpre hw n hseq hn
  rw [hrec]
  refine ⟨?_, g1⟩
  by_cases hlqi : r.2.1 = "mgmtLqiRsp"
  · have hr1 : r = (0xB1, "mgmtLqiRsp", 0x8031) := by
      revert hlqi hr
      have : ∀ r ∈ zdoReplies, r.2.1 = "mgmtLqiRsp" → r = (0xB1, "mgmtLqiRsp", 0x8031) := by
        decide +kernel
      exact fun h1 h2 => this r h1 h2
    subst hr1
    obtain ⟨head, entries, rest, _, _, _, _, h, _⟩ :=
      c34_neighbors a hprod f o ht hs hid ho src body hsrc n (by omega)
    have hl : ledFor a "mgmtLqiRsp" = [] := by unfold ledFor; rw [if_neg (by simp)]
    dsimp only
    rw [hl]
    exact ⟨_, h d hd⟩
  · obtain ⟨data, rest, _, _, h, _⟩ :=
      c34_reply_partial a hprod f o r hr hlqi ht hs hid ho src body hsrc n (by omega)
    exact ⟨_, h d hd⟩

example : (receive (Api.init.run [.registerResponse exNodeDesc (some 5),
      .registerResponse exNodeDesc (some 6)]) exApp exNodeDescRsp).2 =
    ⟨exApp, handOver ⟨[2, 2, 2, 2, 2, 2, 2, 2], 0x1234⟩ 0 0x8002 0 0
      [5, 0, 0x34, 0x12, 1, 0x40, 0x8E, 0, 0, 0x52, 0, 0, 0, 0x52, 0, 0, 0], none⟩ := by
  decide +kernel

/-- **C25 (refuted for transaction number 0).** The reply to a request with transaction number 0 is
not handed to zigpy, although the device is known and the request waits for it. -/
theorem c25_refuted :
    (Api.init.run [.registerResponse exNodeDesc (some 0)]).waiters.map (fun w => (w.matcher, w.sequence)) =
      [(exNodeDescMatcher, some 0)] ∧
    (∃ o, Obj.fromUnpiFrame exNodeDescRsp = .ok o ∧ Answers exNodeDescMatcher o) ∧
    (receive (Api.init.run [.registerResponse exNodeDesc (some 0)]) exApp exNodeDescRsp).2 =
      ⟨exApp, [], none⟩ := by
  refine ⟨by decide +kernel, ?_, by decide +kernel⟩
  rcases ho : Obj.fromUnpiFrame exNodeDescRsp with e | o
  · exfalso
    have : (Obj.fromUnpiFrame exNodeDescRsp).toOption.isSome = true := by decide +kernel
    rw [ho] at this; simp [Except.toOption] at this
  · refine ⟨o, rfl, ?_⟩
    have : (match Obj.fromUnpiFrame exNodeDescRsp with
      | .ok o => decide (Answers exNodeDescMatcher o) | .error _ => false) = true := by decide +kernel
    rw [ho] at this
    exact of_decide_eq_true this

/-- ZDO `unbindReq` to the device 0x1234. -/
def exUnbind : Except PyErr Obj := Obj.fromCluster 0x1234 0 0x22 0 0 7
  [7, 1, 1, 1, 1, 1, 1, 1, 1, 1, 6, 0, 3, 2, 2, 2, 2, 2, 2, 2, 2, 1]

/-- **C25 (refuted for replies the application does not know).** The request to unbind waits for its
reply, but the reply is not handed to zigpy. -/
theorem c25_refuted_unhandled : ∃ o, exUnbind = .ok o ∧
    (Api.init.run [.registerResponse o (some 7)]).waiters.map (fun w => (w.matcher, w.sequence)) =
      [(⟨.AREQ, .ZDO, "unbindRsp", [("srcaddr", .int 0x1234)]⟩, some 7)] ∧
    (receive (Api.init.run [.registerResponse o (some 7)]) exApp
      (Frame.of .AREQ .ZDO 0xA2 [0x34, 0x12, 0])).2 = ⟨exApp, [], none⟩ ∧
    (receive (Api.init.run [.registerResponse o (some 7)]) exApp
      (Frame.of .AREQ .ZDO 0xA2 [0x34, 0x12, 0])).1.waiters = [] := by
  have key : (match exUnbind with
    | .ok o => decide ((Api.init.run [.registerResponse o (some 7)]).waiters.map
          (fun w => (w.matcher, w.sequence)) =
        [(⟨.AREQ, .ZDO, "unbindRsp", [("srcaddr", .int 0x1234)]⟩, some 7)] ∧
      (receive (Api.init.run [.registerResponse o (some 7)]) exApp
        (Frame.of .AREQ .ZDO 0xA2 [0x34, 0x12, 0])).2 = ⟨exApp, [], none⟩ ∧
      (receive (Api.init.run [.registerResponse o (some 7)]) exApp
        (Frame.of .AREQ .ZDO 0xA2 [0x34, 0x12, 0])).1.waiters = [])
    | .error _ => false) = true := by decide +kernel
  rcases ho : exUnbind with e | o
  · rw [ho] at key; simp at key
  · rw [ho] at key
    exact ⟨o, rfl, of_decide_eq_true key⟩

end Zcc
