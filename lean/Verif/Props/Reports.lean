import Verif.Props.Client
import Verif.Proofs.Arrived
import Verif.Proofs.Reports
import Verif.Proofs.Radio

/-! # What the radio reports is read from the right bytes (C80) -/

namespace Zcc
open Spec

/-- **C80.** A message with one of the layouts of `reports` is decoded to exactly the fields that the
layout describes; if bytes are missing, `OverflowError` is raised. -/
theorem c80_reports {t : CommandType} {s : Subsystem} {n : Nat} {name : String}
    {fields : List (String × Fld)} (hr : (t, s, n, name, fields) ∈ reports) {f : Frame}
    (ht : f.commandType = t) (hs : f.subsystem = s) (hn : f.commandId = n) :
    (∀ p, readLayout 0 fields f.data = some p →
      ∃ o, Obj.fromUnpiFrame f = .ok o ∧ o.commandType = t ∧ o.subsystem = s ∧ o.command = name ∧
        o.payload = p) ∧
    (readLayout 0 fields f.data = none → Obj.fromUnpiFrame f = .error .overflowError) := by
  have h := report_decoded hr ht hs hn
  constructor
  · intro p hp
    rw [hp] at h
    exact ⟨_, h, rfl, rfl, rfl, rfl⟩
  · intro hp
    rw [hp] at h
    exact h

/-- An announcement, and a response that ends too early. -/
example : (∃ o, Obj.fromUnpiFrame (Frame.of .AREQ .ZDO 0xC1
        [0x34, 0x12, 0x34, 0x12, 1, 2, 3, 4, 5, 6, 7, 8, 0x8E]) = .ok o ∧
      o.payload = [("srcaddr", .int 0x1234), ("nwkaddr", .int 0x1234),
        ("ieeeaddr", .eui [1, 2, 3, 4, 5, 6, 7, 8]), ("capabilities", .int 0x8E)]) ∧
    Obj.fromUnpiFrame (Frame.of .SRSP .SYS 0x02 [2, 0, 2, 6, 3]) = .error .overflowError := by
  constructor
  · obtain ⟨o, h1, -, -, -, h2⟩ := (c80_reports (t := .AREQ) (s := .ZDO) (n := 0xC1)
      (name := "endDeviceAnnceInd") (fields := [("srcaddr", .u16), ("nwkaddr", .u16),
        ("ieeeaddr", .eui), ("capabilities", .u8)]) (by decide +kernel) (f := Frame.of .AREQ .ZDO 0xC1
        [0x34, 0x12, 0x34, 0x12, 1, 2, 3, 4, 5, 6, 7, 8, 0x8E]) rfl rfl rfl).1 _ rfl
    exact ⟨o, h1, h2⟩
  · exact (c80_reports (t := .SRSP) (s := .SYS) (n := 0x02) (name := "version")
      (fields := [("transportrev", .u8), ("product", .u8), ("majorrel", .u8), ("minorrel", .u8),
        ("maintrel", .u8), ("revision", .u32)]) (by decide +kernel) rfl rfl rfl).2 rfl

/-- C80: when the start-up of the application has returned, the radio has been asked for its version and
has answered with at least nine bytes of which the second says which stack it runs; that is what the
application remembers of it, and it decides how many requests may be outstanding. Then it has been asked about itself and has answered; the coordinator
is registered with the eight bytes after the status as its address, byte by byte, and the next two, low
byte first, as its network address. -/
theorem c80_startup {o : Options} {autoForm : Bool} (evs : List ClientEvent)
    (hu : Unshared evs (Client.run (startup o autoForm) evs).hist)
    (hr : (Client.run (startup o autoForm) evs).prog = .ret ()) :
    ∃ t1 fv nv t2 fd nd tr p x ieee a b y,
      [Entry.sent t1 [0xFE, 0, 0x21, 2, 0x23], .received fv nv,
        .sent t2 [0xFE, 0, 0x27, 0, 0x27], .received fd nd].Sublist
          (Client.run (startup o autoForm) evs).api.log ∧
      (fv.commandType = .SRSP ∧ fv.subsystem = .SYS ∧ fv.commandId = 0x02) ∧
      (fd.commandType = .SRSP ∧ fd.subsystem = .UTIL ∧ fd.commandId = 0x00) ∧
      fv.data = tr :: p :: x ∧ 7 ≤ x.length ∧ (p = 0 ∨ p = 1 ∨ p = 2) ∧
      fd.data = 0 :: (ieee ++ a :: b :: y) ∧ ieee.length = 8 ∧
      (Client.run (startup o autoForm) evs).hist[3]? =
        some ⟨.semaphore (if p = 1 then 16 else 2), .ok ()⟩ ∧
      (Client.run (startup o autoForm) evs).hist.getLast? =
        some ⟨.coordinator (.eui ieee) (.int (a.toNat + 256 * b.toNat : Nat)), .ok ()⟩ ∧
      nv.payload.lookup "product" = some (.int p.toNat) ∧
      (Client.run (startup o autoForm) evs).hist[2]? =
        some ⟨.request .SYS "version" [] none, .ok (some nv)⟩ := by
  have hret := (c60_history _ evs).2.1 () hr
  obtain ⟨past, rest, hlog, htr, -⟩ := c60_traced _ evs hu
  obtain ⟨_, i⟩ := client_inv (startup o autoForm) evs
  obtain ⟨x, v, p, form, inf, ieee, nwk, he, hvp, hp, hii, his, -⟩ := startup_shape hret
  generalize Client.run (startup o autoForm) evs = c at *
  have recv : ∀ f o, .received f o ∈ past → Obj.fromUnpiFrame f = .ok o := fun f o h =>
    i.api.resp.recv f o (by rw [hlog]; exact List.mem_append_left _ h)
  obtain ⟨past1, seg1, rest1, t2, fd, hL1, htr1, hs1, hd1, hd2, hd3, hd4, hd5⟩ := exchange_at recv htr
    (h1 := [_, _, _, _] ++ form) (h2 := [_]) (by rw [he]) (frame_deviceInfo _) rfl
  have recv1 : ∀ f o, .received f o ∈ past1 → Obj.fromUnpiFrame f = .ok o := fun f o h =>
    recv f o (by rw [hL1, List.append_assoc]; exact List.mem_append_left _ h)
  obtain ⟨past2, seg2, rest2, t1, fv, hL2, -, hs2, hv1, hv2, hv3, hv4, -⟩ := exchange_at recv1 htr1
    (h1 := [_, _]) (h2 := _ :: form) rfl (fVersion _) rfl
  obtain ⟨k1, k2, k3, k4⟩ := report_received (t := .SRSP) (s := .UTIL) (n := 0x00)
    (name := "getDeviceInfo") (fields := [("status", .u8), ("ieeeaddr", .eui), ("shortaddr", .u16),
      ("devicetype", .u8), ("devicestate", .u8), ("numassocdevices", .u8), ("assocdeviceslist", .words)])
    (by decide +kernel) hd1 hd2 hd3 hd4
  obtain ⟨m1, m2, m3, m4⟩ := report_received (t := .SRSP) (s := .SYS) (n := 0x02) (name := "version")
    (fields := [("transportrev", .u8), ("product", .u8), ("majorrel", .u8), ("minorrel", .u8),
      ("maintrel", .u8), ("revision", .u32)]) (by decide +kernel) hv1 hv2 hv3 hv4
  obtain ⟨tr, b, x, hdat, hlen, rfl⟩ := version_bytes m4 hvp
  obtain ⟨st, e, a1, a2, ty, state, y, hdat', hlen', hst, -, rfl, rfl⟩ := info_bytes k4 hii his
  have hst0 : st = 0 := by
    obtain ⟨z, hz, hm⟩ := hd5 _ hst
    cases hz
    have : st.toNat = 0 := by simpa using hm
    exact UInt8.toNat_inj.mp this
  subst hst0
  have w1 : wire deviceInfo = [0xFE, 0, 0x27, 0, 0x27] := by decide +kernel
  have w2 : wire (Frame.of .SREQ .SYS 0x02 []) = [0xFE, 0, 0x21, 2, 0x23] := by decide +kernel
  rw [w1] at hs1
  rw [w2] at hs2
  refine ⟨t1, fv, v, t2, fd, inf, tr, b, x, e, a1, a2, ty :: state :: y, ?_, ⟨m1, m2, m3⟩, ⟨k1, k2, k3⟩,
    hdat, hlen, ?_, hdat', hlen', ?_, ?_, hvp, by rw [he]; rfl⟩
  · rw [hlog, hL1, hL2]
    have : [Entry.sent t1 [0xFE, 0, 0x21, 2, 0x23], .received fv v,
        .sent t2 [0xFE, 0, 0x27, 0, 0x27], .received fd inf].Sublist (seg2 ++ seg1) :=
      List.Sublist.append (l₁ := [_, _]) hs2 hs1
    refine this.trans ?_
    simp only [List.append_assoc]
    refine List.Sublist.trans ?_ (List.sublist_append_right past2 _)
    refine List.Sublist.append (.refl _) ?_
    exact (List.sublist_append_left _ _).trans (List.sublist_append_right _ _)
  · rcases hp with h | h | h
    · exact .inl (UInt8.toNat_inj.mp (by simp; omega))
    · exact .inr (.inl (UInt8.toNat_inj.mp (by simp; omega)))
    · exact .inr (.inr (UInt8.toNat_inj.mp (by simp; omega)))
  · rw [he]
    have : (if (b.toNat : Int) = 1 then 16 else 2) = if b = 1 then 16 else 2 := by
      by_cases h : b = 1
      · subst h; rfl
      · rw [if_neg h, if_neg]
        intro h'
        exact h (UInt8.toNat_inj.mp (by simp; omega))
    rw [this]
    rfl
  · rw [he, List.getLast?_append]
    rfl

/-- A session of the start-up of the application with an empty stick. -/
def exampleStartup : List ClientEvent :=
  Radio.session 0 100 (fun _ => none) (startup exampleOptions true)

theorem startup_done :
    Radio.done () (Client.run (startup exampleOptions true) exampleStartup).prog = true ∧
    Radio.alone exampleStartup = true := by decide +kernel

example : ∃ ieee nwk, (⟨.coordinator ieee nwk, .ok ()⟩ : Act) ∈
    (Client.run (startup exampleOptions true) exampleStartup).hist := by
  obtain ⟨t1, fv, nv, t2, fd, nd, tr, p, x, ieee, a, b, y, -, -, -, -, -, -, -, -, -, h, -⟩ :=
    c80_startup exampleStartup (Radio.alone_unshared (Radio.alone_alone startup_done.2))
      (Radio.done_eq startup_done.1)
  exact ⟨_, _, List.mem_of_getLast? h⟩

/-- C80: when `start_znp` has returned, the radio was asked about itself and has answered; the 13th byte
of the answer is 9 (it is the coordinator of a running network), or later a ZDO_STATE_CHANGE_IND has
been received whose first byte is 9. -/
theorem c80_running {version : Int} {o : Options} {g : Nat} (hg : g < 65536) {b : Bool}
    (evs : List ClientEvent) (hu : Unshared evs (Client.run (startZnp version o g b) evs).hist)
    {r : String} (hr : (Client.run (startZnp version o g b) evs).prog = .ret r) :
    ∃ t f n, [Entry.sent t [0xFE, 0, 0x27, 0, 0x27], .received f n].Sublist
        (Client.run (startZnp version o g b) evs).api.log ∧
      (f.commandType = .SRSP ∧ f.subsystem = .UTIL ∧ f.commandId = 0x00) ∧
      (f.data[12]? = some 9 ∨ ∃ f' n', [Entry.received f n, .received f' n'].Sublist
          (Client.run (startZnp version o g b) evs).api.log ∧
        (f'.commandType = .AREQ ∧ f'.subsystem = .ZDO ∧ f'.commandId = 0xC0) ∧
        f'.data[0]? = some 9) := by
  obtain ⟨t, f, n, s, h1, h2, h3, h4, h5, h6, h7⟩ := c57_wire hg evs hu hr
  obtain ⟨k1, k2, k3, k4⟩ := report_received (t := .SRSP) (s := .UTIL) (n := 0x00)
    (name := "getDeviceInfo") (fields := [("status", .u8), ("ieeeaddr", .eui), ("shortaddr", .u16),
      ("devicetype", .u8), ("devicestate", .u8), ("numassocdevices", .u8), ("assocdeviceslist", .words)])
    (by decide +kernel) h1 h2 h3 h4
  refine ⟨t, f, n, h6, ⟨k1, k2, k3⟩, ?_⟩
  rcases h7 with rfl | ⟨f', ind, h8, ⟨h9, h10, h11, h12⟩, h13⟩
  · obtain ⟨v1, v2, hv1, hv2⟩ := info_present k4
    obtain ⟨st, e, a1, a2, ty, state, y, hdat, hlen, -, hs, -, -⟩ := info_bytes k4 hv1 hv2
    left
    rw [hs] at h5
    have : state.toNat = 9 := by
      have := Val.int.inj (Option.some.inj h5)
      omega
    have : state = 9 := UInt8.toNat_inj.mp (by simp; omega)
    rw [hdat, this]
    show (e ++ a1 :: a2 :: ty :: 9 :: y)[11]? = some 9
    rw [List.getElem?_append_right (by omega), hlen]
    rfl
  · right
    obtain ⟨m1, m2, m3, m4⟩ := report_received (t := .AREQ) (s := .ZDO) (n := 0xC0)
      (name := "stateChangeInd") (fields := [("state", .u8)]) (by decide +kernel) h8 h9 h10 h11
    refine ⟨f', ind, h13, ⟨m1, m2, m3⟩, ?_⟩
    cases hd : f'.data with
    | nil => rw [hd] at m4; cases m4
    | cons a x =>
      rw [hd] at m4
      cases hp : ind.payload with
      | nil => rw [hp] at m4; cases m4
      | cons q qs =>
        rw [hp] at m4
        cases m4
        rw [hp] at h12
        have h12 : some (Val.int a.toNat) = some (.int 9) := h12
        have : a.toNat = 9 := by
          have := Val.int.inj (Option.some.inj h12)
          omega
        have : a = 9 := UInt8.toNat_inj.mp (by simp; omega)
        rw [this]
        rfl

example : ∃ t f n, [Entry.sent t [0xFE, 0, 0x27, 0, 0x27], .received f n].Sublist
    (Client.run exampleStart exampleSession).api.log ∧ f.commandType = .SRSP := by
  have h := example_start (fun p => ∀ evs, Unshared evs (Client.run p evs).hist →
      (Client.run p evs).prog = .ret "reset" →
      ∃ t f n, [Entry.sent t [0xFE, 0, 0x27, 0, 0x27], .received f n].Sublist (Client.run p evs).api.log ∧
        f.commandType = .SRSP)
    (fun evs hu hr => by
      obtain ⟨t, f, n, h, h', -⟩ := c80_running (by decide) evs hu hr
      exact ⟨t, f, n, h, h'.1⟩)
  exact h exampleSession (Radio.alone_unshared (Radio.alone_alone session_reset.2.1))
    (Radio.done_eq session_reset.1)

/-- C80: `start_znp` says `resumed` only if the radio has been asked for the settings and its answers
hold, byte by byte, the configured values: after the status the length, then the value. Of PAN id and
extended PAN id this holds unless the stack is Z-Stack 1.2 or the radio has reported the PAN id
0xFFFF. -/
theorem c80_resumed {version : Int} {o : Options} {g : Nat} {b : Bool} (evs : List ClientEvent)
    (hu : Unshared evs (Client.run (startZnp version o g b) evs).hist)
    (hr : (Client.run (startZnp version o g b) evs).prog = .ret "resumed") :
    (∀ s ∈ settings version o, s.1 ≠ 0x83 → s.1 ≠ 0x2D →
      Told (Client.run (startZnp version o g b) evs).api.log version s.1 s.2) ∧
    ((∀ s ∈ settings version o, Told (Client.run (startZnp version o g b) evs).api.log version s.1 s.2) ∨
      ¬ (version = 1 ∨ version = 2) ∨
      Told (Client.run (startZnp version o g b) evs).api.log version 0x83 [0xFF, 0xFF]) := by
  have hret := (c60_history _ evs).2.1 _ hr
  obtain ⟨past, rest, hlog, htr, -⟩ := c60_traced _ evs hu
  obtain ⟨_, i⟩ := client_inv (startZnp version o g b) evs
  obtain ⟨h1, h2, hh, h3, -⟩ := start_returns hret
  obtain ⟨k1, k2, k3, c, n, rfl, -, hk2, hk3⟩ := configure_returns h3
  rcases hk3 with ⟨rfl, rfl, -⟩ | ⟨-, -, hres⟩
  · generalize Client.run (startZnp version o g b) evs = c at *
    have recv : ∀ f o, .received f o ∈ past → Obj.fromUnpiFrame f = .ok o := fun f o h =>
      i.api.resp.recv f o (by rw [hlog]; exact List.mem_append_left _ h)
    have told : ∀ {id value}, ReadAs k2 version id value → Told c.api.log version id value := by
      intro id value h
      obtain ⟨f, st, x, r, ⟨t, n, hx, hy⟩, hz⟩ := readAs_told recv htr
        (by rw [hh]; exact ((h.right k1).left []).left h2)
      exact ⟨f, st, x, r, ⟨t, n, by rw [hlog]; exact hx.trans (List.sublist_append_left _ _), hy⟩, hz⟩
    obtain ⟨ha, hb⟩ := needs_readAs hk2
    have base : ∀ s ∈ settings version o, s.1 ≠ 0x83 → s.1 ≠ 0x2D → Told c.api.log version s.1 s.2 :=
      fun s hs h1 h2 => told (ha s hs h1 h2)
    refine ⟨base, ?_⟩
    rcases hb with ⟨hp, hx⟩ | hb | hb
    · refine .inl fun s hs => ?_
      by_cases h83 : s.1 = 0x83
      · by_cases h2D : s.1 = 0x2D
        · omega
        · simp only [settings, List.mem_cons, List.not_mem_nil, or_false] at hs
          rcases hs with rfl | rfl | rfl | rfl | rfl | rfl
          · dsimp only at h83; unfold flagId at h83; split at h83 <;> omega
          · cases h83
          · cases h83
          · cases h83
          · exact told hp
          · cases h83
      · by_cases h2D : s.1 = 0x2D
        · simp only [settings, List.mem_cons, List.not_mem_nil, or_false] at hs
          rcases hs with rfl | rfl | rfl | rfl | rfl | rfl
          · dsimp only at h2D; unfold flagId at h2D; split at h2D <;> omega
          · cases h2D
          · cases h2D
          · cases h2D
          · cases h2D
          · exact told hx
        · exact base s hs h83 h2D
    · exact .inr (.inl hb)
    · exact .inr (.inr (told hb))
  · exfalso
    split at hres <;> exact absurd hres (by decide)

/-- A session of `start_znp` with a configured stick, on Z-Stack 1.2 (the key is read by SAPI) and on
Z-Stack 3.x.0. -/
def resumedSession (version : Int) : List ClientEvent :=
  Radio.session 9 40 (configured version exampleOptions) (startZnp version exampleOptions ((0x0B84 : Nat) : Int) false)

theorem resumed_done : ∀ version ∈ [0, 1],
    Radio.done "resumed" (Client.run (startZnp version exampleOptions ((0x0B84 : Nat) : Int) false)
      (resumedSession version)).prog = true ∧ Radio.alone (resumedSession version) = true := by
  decide +kernel

example : ∀ version ∈ [0, 1],
    Told (Client.run (startZnp version exampleOptions ((0x0B84 : Nat) : Int) false)
      (resumedSession version)).api.log version 0x62 exampleOptions.networkKey := fun version hv =>
  (c80_resumed (g := 0x0B84) _ (Radio.alone_unshared (Radio.alone_alone (resumed_done version hv).2))
    (Radio.done_eq (resumed_done version hv).1)).1 (0x62, _)
    (.tail _ (.tail _ (.tail _ (.head _)))) (by decide) (by decide)

/-- C80: the messages in the log of a coroutine's API are those frames that arrived and can be decoded,
all of them, in their order. -/
theorem c80_arrived {α : Type} (p : Prog α) (evs : List ClientEvent) :
    (Client.run p evs).api.log.filterMap (fun | .received f _ => some f | _ => none) =
      (evs.filterMap (fun | .api (.frame f) => some f | _ => none)).filter
        (fun f => (Obj.fromUnpiFrame f).toOption.isSome) := by
  have h := client_arrived p evs
  have e1 : (fun | .received f _ => some f | _ => none : Entry → Option Frame) = Entry.frame? := by
    funext x; cases x <;> rfl
  rw [e1, h, List.filter_filterMap]
  congr 1
  funext ev
  cases ev with
  | api e =>
    cases e with
    | frame f =>
      show (match Obj.fromUnpiFrame f with | .ok _ => some f | .error _ => none) = _
      rcases hd : Obj.fromUnpiFrame f with err | o <;> simp [Option.filter, hd, Except.toOption]
    | _ => rfl
  | _ => rfl

/-- Two frames arrive, one of a command that does not exist. -/
example : ((Client.run waitStarted [.go, .api (.frame (Frame.of .AREQ .ZDO 0x7F [])),
      .api (.frame (Frame.of .AREQ .ZDO 0xC0 [9]))]).api.log.filterMap
        (fun | .received f _ => some f | _ => none)) = [Frame.of .AREQ .ZDO 0xC0 [9]] := by
  rw [c80_arrived]
  decide +kernel

/-- C80: a radio that answers the version request as older descriptions of MT have it, in five bytes
without the revision, cannot be started: such answers are not decoded, and `startup` does not
return. -/
theorem c80_no_revision {o : Options} {autoForm : Bool} (evs : List ClientEvent)
    (hu : Unshared evs (Client.run (startup o autoForm) evs).hist)
    (hf : ∀ f, .api (.frame f) ∈ evs → f.commandType = .SRSP → f.subsystem = .SYS → f.commandId = 0x02 →
      f.data.length < 9) :
    (Client.run (startup o autoForm) evs).prog ≠ .ret () := by
  intro hr
  obtain ⟨t1, fv, nv, t2, fd, nd, tr, p, x, ieee, a, b, y, hs, ⟨h1, h2, h3⟩, -, hd, hl, -⟩ :=
    c80_startup evs hu hr
  have hm : fv ∈ (Client.run (startup o autoForm) evs).api.log.filterMap
      (fun | .received f _ => some f | _ => none) :=
    List.mem_filterMap.mpr ⟨.received fv nv, hs.subset (by simp), rfl⟩
  rw [c80_arrived] at hm
  obtain ⟨ev, hev, he⟩ := List.mem_filterMap.mp (List.mem_filter.mp hm).1
  have : ev = .api (.frame fv) := by
    match ev, he with
    | .api (.frame f), h => cases h; rfl
  subst this
  have := hf fv hev h1 h2 h3
  rw [hd] at this
  simp only [List.length_cons] at this
  omega

/-- The radio answers ping and version request; the latter is not understood, and times out. -/
def oldRadio : List ClientEvent :=
  [.api (.setUart true), .connected (.ok ()), .go, .api (.frame (Frame.of .SRSP .SYS 1 [0x79, 0x01])),
   .api (.wake 0), .go, .go, .api (.frame (Frame.of .SRSP .SYS 2 [2, 0, 2, 6, 3])), .api (.wake 1),
   .api (.tick 6000), .api (.timeout 1), .go]

example : (Client.run (startup exampleOptions true) oldRadio).prog ≠ .ret () :=
  c80_no_revision oldRadio (Radio.alone_unshared (Radio.alone_alone (by decide)))
    (by
      intro f hm h1 h2 h3
      simp only [oldRadio, List.mem_cons, List.not_mem_nil, or_false, ClientEvent.api.injEq,
        Event.frame.injEq, reduceCtorEq, false_or] at hm
      rcases hm with rfl | rfl <;> decide)

end Zcc
