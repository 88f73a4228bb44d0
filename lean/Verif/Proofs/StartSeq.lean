import Verif.Proofs.StartZnp

/-!
# The initialisation sequence and the rest of start-up
-/

namespace Zcc

open Spec

theorem fStartup (e : Option (List Int)) :
    (Op.request .ZDO "startupFromApp" [("startdelay", .int 100)] e).frame = some startupFromApp := by
  have h : (Op.request .ZDO "startupFromApp" [("startdelay", .int 100)] none).frame =
    some startupFromApp := by decide +kernel
  exact h

theorem fActiveEp :
    (Op.spawn .ZDO "activeEpReq" [("dstaddr", .int 0), ("nwkaddrofinterest", .int 0)]).frame =
      some activeEpReq := by
  decide +kernel

theorem fFind' {b g : Int} {x : UInt8} {y : List UInt8} (hb : writeInt b 1 = .ok [x])
    (hg : writeInt g 2 = .ok y) (e : Option (List Int)) :
    (Op.request .ZDO "extFindGroup" [("endpoint", .int b), ("groupid", .int g)] e).frame =
      some (Frame.of .SREQ .ZDO 0x4A (x :: y)) := by
  apply request_frame (t := .SREQ) (id := 0x4A) (ps := [("endpoint", .UINT8), ("groupid", .UINT16)]) rfl
  have h1 : ([("endpoint", Val.int b), ("groupid", .int g)] : Payload).lookup "endpoint" =
    some (.int b) := rfl
  have h2 : ([("endpoint", Val.int b), ("groupid", .int g)] : Payload).lookup "groupid" =
    some (.int g) := rfl
  simp only [writeParameters, dictGet, h1, h2, hb, hg, writeParameter, writeScalar,
    ok_bind, pure_ok, List.append_nil, List.cons_append, List.nil_append]

theorem fFind {g : Nat} (hg : g < 65536) (e : Option (List Int)) :
    (Op.request .ZDO "extFindGroup" [("endpoint", .int 242), ("groupid", .int g)] e).frame =
      some (findGroup 242 g) :=
  fFind' (by decide) (writeInt_len16 hg) e

theorem fAdd' {b g : Int} {x : UInt8} {y : List UInt8} (hb : writeInt b 1 = .ok [x])
    (hg : writeInt g 2 = .ok y) (e : Option (List Int)) :
    (Op.request .ZDO "extAddGroup" [("endpoint", .int b), ("groupid", .int g),
      ("namelen", .int 0), ("groupname", .bytes [])] e).frame =
      some (Frame.of .SREQ .ZDO 0x4B (x :: (y ++ [0]))) := by
  apply request_frame (t := .SREQ) (id := 0x4B)
    (ps := [("endpoint", .UINT8), ("groupid", .UINT16), ("namelen", .UINT8), ("groupname", .BUFFER)]) rfl
  have h1 : ([("endpoint", Val.int b), ("groupid", .int g), ("namelen", .int 0),
    ("groupname", .bytes [])] : Payload).lookup "endpoint" = some (.int b) := rfl
  have h2 : ([("endpoint", Val.int b), ("groupid", .int g), ("namelen", .int 0),
    ("groupname", .bytes [])] : Payload).lookup "groupid" = some (.int g) := rfl
  have h4 : ([("endpoint", Val.int b), ("groupid", .int g), ("namelen", .int 0),
    ("groupname", .bytes [])] : Payload).lookup "namelen" = some (.int 0) := rfl
  have h5 : ([("endpoint", Val.int b), ("groupid", .int g), ("namelen", .int 0),
    ("groupname", .bytes [])] : Payload).lookup "groupname" = some (.bytes []) := rfl
  have h6 : writeInt 0 1 = .ok [0] := by decide
  simp only [writeParameters, dictGet, h1, h2, hb, hg, h4, h5, h6, writeParameter, writeScalar,
    ok_bind, pure_ok, List.append_nil, List.cons_append, List.nil_append]

theorem fAdd {g : Nat} (hg : g < 65536) (e : Option (List Int)) :
    (Op.request .ZDO "extAddGroup" [("endpoint", .int 242), ("groupid", .int g),
      ("namelen", .int 0), ("groupname", .bytes [])] e).frame = some (addGroup 242 g) :=
  fAdd' (by decide) (writeInt_len16 hg) e

theorem fRegister : Endpoints.map (fun e => (Op.request .AF "register" e.vars none).frame) =
    coordinatorEndpoints.map (fun e => some (registerFrame e)) := by
  decide +kernel

/-! ## Straight-line code -/

/-- If the coroutine returns, it has sent exactly `fs` and every operation succeeded. -/
def Sends {α : Type} (p : Prog α) (fs : List Frame) : Prop :=
  ∀ h a, Returns p h a → frames h = fs ∧ ∀ x ∈ h, Succeeded x

theorem frames_append (h1 h2 : List Act) : frames (h1 ++ h2) = frames h1 ++ frames h2 :=
  List.filterMap_append

theorem mem_frames {f : Frame} {h : List Act} : f ∈ frames h ↔ ∃ a ∈ h, a.op.frame = some f := by
  simp [frames]

section
variable {α β : Type}

theorem sends_pure (a : α) : Sends (pure a : Prog α) [] := by
  intro h b hr
  obtain ⟨rfl, -⟩ := returns_ret.mp hr
  exact ⟨rfl, fun x hx => absurd hx List.not_mem_nil⟩

theorem sends_raise (e : PyErr) (fs : List Frame) : Sends (.raise e : Prog α) fs :=
  fun _ _ hr => absurd hr returns_raise

theorem sends_bind {p : Prog α} {f : α → Prog β} {f1 f2 : List Frame} (hp : Sends p f1)
    (hf : ∀ a, Sends (f a) f2) : Sends (p >>= f) (f1 ++ f2) := by
  intro h b hr
  obtain ⟨h1, h2, a, rfl, h3, h4⟩ := returns_bind.mp hr
  obtain ⟨h5, h6⟩ := hp h1 a h3
  obtain ⟨h7, h8⟩ := hf a h2 b h4
  refine ⟨by rw [frames_append, h5, h7], fun x hx => ?_⟩
  rcases List.mem_append.mp hx with hx | hx
  · exact h6 x hx
  · exact h8 x hx

theorem sends_op {o : Op} {f : Frame} (ho : o.frame = some f) (hs : spawns o = false) : Sends (Prog.op o) [f] := by
  intro h a hr
  cases returns_op.mp hr
  refine ⟨by simp [frames, ho], fun x hx => ?_⟩
  rw [List.mem_singleton.mp hx]
  exact ⟨⟨a, rfl⟩, hs⟩

theorem sends_quiet {o : Op} (ho : o.frame = none) (hs : spawns o = false) : Sends (Prog.op o) [] := by
  intro h a hr
  cases returns_op.mp hr
  refine ⟨by simp [frames, ho], fun x hx => ?_⟩
  rw [List.mem_singleton.mp hx]
  exact ⟨⟨a, rfl⟩, hs⟩

theorem sends_req {sub : Subsystem} {command : String} {p : Payload} {e : Option (List Int)}
    {f : Frame} {k : Option Obj → Prog β} {fs : List Frame}
    (ho : (Op.request sub command p e).frame = some f) (hk : ∀ r, Sends (k r) fs) :
    Sends (Prog.request sub command p e >>= k) (f :: fs) :=
  sends_bind (f1 := [f]) (sends_op (o := .request sub command p e) ho rfl) hk

theorem returns_tryRaise {p : Prog α} {x : PyErr} {h : List Act} {a : α}
    (hr : Returns (p.tryExcept (exceptException (.raise x))) h a) : Returns p h a := by
  rcases returns_try hr with h1 | ⟨h1, h2, e, p', rfl, h3, h4, h5⟩
  · exact h1
  · unfold exceptException at h4
    split at h4
    · cases h4
    · cases h4
      exact absurd h5 returns_raise

theorem sends_tryRaise {p : Prog α} {x : PyErr} {fs : List Frame} (hp : Sends p fs) :
    Sends (p.tryExcept (exceptException (.raise x))) fs :=
  fun h a hr => hp h a (returns_tryRaise hr)

end

/-! ## `initialise` -/

/-- `initialise` up to the commands that mark the stick as configured. -/
def initialiseBody (version : Int) (options : Options) : Prog Unit := do
  let _ ← Prog.request .SYS "resetReq" [("type", .int resetSoft)]
  let _ ← Prog.request .SYS "osalNvWrite" (Items.startupOption 0x02)
  let _ ← Prog.request .SYS "resetReq" [("type", .int resetSoft)]
  let _ ← Prog.request .SYS "osalNvWrite" (Items.logicalType logicalCoordinator)
  let _ ← Prog.request .SYS "osalNvWrite" (Items.networkKeyDistribute options.networkKeyDistribute)
  let _ ← Prog.request .SYS "osalNvWrite" Items.zdoDirectCb
  let _ ← Prog.request .SYS "osalNvWrite" (Items.channelList options.channelList)
  let _ ← Prog.request .SYS "osalNvWrite" (Items.panID options.panID)
  let _ ← Prog.request .SYS "osalNvWrite" (Items.extendedPanID options.extendedPanID)
  initialiseStack version options

/-- The commands that mark the stick as configured. -/
def initialiseMark (version : Int) : Prog Unit := do
  let _ ← Prog.request .SYS "osalNvItemInit" (Items.znpHasConfiguredInit version) (some [0, 9])
  let _ ← Prog.request .SYS "osalNvWrite" (Items.znpHasConfigured version)
  return ()

theorem initialise_split (version : Int) (o : Options) :
    initialise version o = initialiseBody version o >>= fun _ => initialiseMark version := by
  unfold initialise initialiseBody initialiseMark
  simp only [prog_assoc]

theorem version3 (version : Int) :
    (version = zStack30x ∨ version = zStack3x0) ↔ (version = 1 ∨ version = 2) :=
  or_comm

theorem sends_stack (version : Int) {o : Options} (ho : WellFormed o) :
    Sends (initialiseStack version o) (if version = 1 ∨ version = 2 then
      [nvWrite 0x62 o.networkKey, setChannel 1 o.channelList.toNat, setChannel 0 0,
       commission 4, commission 2]
      else [configWrite 0x62 o.networkKey, nvWrite 0x101 linkKeyEntry]) := by
  unfold initialiseStack
  by_cases hv : version = 1 ∨ version = 2
  · rw [if_pos hv, if_pos ((version3 version).mpr hv)]
    unfold initialise3
    refine sends_req (wKey ho.key _) fun _ => sends_req (wPrimary _ _) fun _ =>
      sends_req (wSecondary _) fun _ => sends_bind (f1 := []) (sends_quiet rfl rfl) fun _ =>
      sends_req (wCommission4 _) fun _ => sends_bind (f1 := []) (sends_tryRaise (sends_quiet rfl rfl)) fun _ =>
      sends_req (wCommission2 _) fun _ => sends_pure _
  · rw [if_neg hv, if_neg (fun h => hv ((version3 version).mp h))]
    unfold initialise12
    exact sends_req (wKey12 ho.key _) fun _ => sends_req (wLink _) fun _ => sends_pure _

theorem sends_body (version : Int) {o : Options} (ho : WellFormed o) :
    Sends (initialiseBody version o) (initBody version o) := by
  unfold initialiseBody initBody
  exact sends_req (frame_reset _) fun _ => sends_req (wStartup _) fun _ =>
    sends_req (frame_reset _) fun _ => sends_req (wLogical _) fun _ => sends_req (wDist _ _) fun _ =>
    sends_req (wDirect _) fun _ => sends_req (wChan _ _) fun _ => sends_req (wPan _ _) fun _ =>
    sends_req (wExt ho.ext _) fun _ => sends_stack version ho

theorem sends_mark (version : Int) :
    Sends (initialiseMark version) [nvInit (flagId version) [0], nvWrite (flagId version) [0x55]] :=
  sends_req (frame_nvInit _ _) fun _ => sends_req (wFlag _ _) fun _ => sends_pure _

theorem sends_initialise (version : Int) {o : Options} (ho : WellFormed o) :
    Sends (initialise version o) (initFrames version o) := by
  rw [initialise_split]
  exact sends_bind (sends_body version ho) fun _ => sends_mark version

/-! ## What each part can send -/

theorem only_mono {α : Type} {P Q : Op → Prop} {p : Prog α} (h : ∀ o, P o → Q o) (hp : Only P p) :
    Only Q p := fun h' hr a ha => h _ (hp h' hr a ha)

theorem sent_mono {fs gs : List Frame} (h : ∀ f ∈ fs, f ∈ gs) (o : Op) (ho : Sent fs o) : Sent gs o := by
  cases o with
  | request => obtain ⟨f, h1, h2⟩ := ho; exact ⟨f, h f h1, h2⟩
  | spawn => obtain ⟨f, h1, h2⟩ := ho; exact ⟨f, h f h1, h2⟩
  | _ => trivial

theorem sent_frame {fs : List Frame} {o : Op} (ho : Sent fs o) {f : Frame} (hf : o.frame = some f) :
    f ∈ fs := by
  cases o with
  | request => obtain ⟨g, h1, h2⟩ := ho; rw [h2] at hf; cases hf; exact h1
  | spawn => obtain ⟨g, h1, h2⟩ := ho; rw [h2] at hf; cases hf; exact h1
  | _ => cases hf

theorem only_frames {α : Type} {fs : List Frame} {p : Prog α} (hp : Only (Sent fs) p) {h : List Act}
    (hr : Runs p h) : ∀ f ∈ frames h, f ∈ fs := by
  intro f hf
  obtain ⟨a, ha, hf⟩ := mem_frames.mp hf
  exact sent_frame (hp h hr a ha) hf

theorem only_req {β : Type} {P : Op → Prop} {sub : Subsystem} {command : String} {p : Payload}
    {e : Option (List Int)} {k : Option Obj → Prog β} (ho : P (.request sub command p e))
    (hk : ∀ r, Only P (k r)) : Only P (Prog.request sub command p e >>= k) :=
  only_bind (only_op (o := .request sub command p e) ho) hk

theorem only_tryRaise {α : Type} {P : Op → Prop} {p : Prog α} {x : PyErr} (hp : Only P p) :
    Only P (p.tryExcept (exceptException (.raise x))) := by
  refine only_try hp fun e p' h => ?_
  unfold exceptException at h
  split at h
  · cases h
  · cases h
    exact only_raise _

theorem only_needs (version : Int) (o : Options) :
    Only (Sent (readFrames version)) (needsToBeInitialised version o) := by
  unfold needsToBeInitialised
  refine only_try ?_ ?_
  · refine only_bind (only_validate ⟨_, ?_, rFlag version _⟩) fun _ =>
      only_bind (only_validate ⟨_, ?_, rChan _ _⟩) fun _ =>
      only_bind (only_validate ⟨_, ?_, rDist _ _⟩) fun _ => only_bind ?_ fun _ =>
      only_bind ?_ fun _ => only_pure _
    · exact .head _
    · exact .tail _ (.head _)
    · exact .tail _ (.tail _ (.head _))
    · unfold validateKey
      have hkey : keyRead version ∈ readFrames version := .tail _ (.tail _ (.tail _ (.head _)))
      unfold keyRead at hkey
      by_cases hv : version = 1
      · rw [if_pos hv] at hkey; rw [if_pos (show version = zStack3x0 from hv)]
        exact only_validate ⟨_, hkey, rKey _ _⟩
      · rw [if_neg hv] at hkey; rw [if_neg (show ¬ version = zStack3x0 from hv)]
        exact only_validate ⟨_, hkey, rKey12 _ _⟩
    · unfold validatePan
      have hpan : nvRead 0x83 ∈ readFrames version :=
        .tail _ (.tail _ (.tail _ (.tail _ (.head _))))
      refine only_try (only_bind (only_validate ⟨_, hpan, rPan _ _⟩) fun _ =>
        only_validate ⟨_, ?_, rExt _ _⟩) ?_
      · exact .tail _ (.tail _ (.tail _ (.tail _ (.tail _ (.head _)))))
      · intro e p' h
        split at h
        · cases h
          refine only_ite (only_req ⟨_, hpan, rPan _ _⟩ fun _ => only_bind (only_field _ _) fun _ =>
            only_ite (only_pure _) (only_raise _)) (only_pure _)
        · cases h
  · intro e p' h
    split at h
    · cases h; exact only_pure _
    · cases h

theorem only_readHasConfigured (version : Int) :
    Only (Sent (readFrames version)) (readHasConfigured version) := by
  unfold readHasConfigured
  refine only_try (only_bind (only_validate ⟨_, .head _, rFlag version _⟩) fun _ => only_pure _) ?_
  intro e p' h
  split at h
  · cases h; exact only_pure _
  · cases h; exact only_pure _
  · cases h

theorem only_body (version : Int) {o : Options} (ho : WellFormed o) :
    Only (Sent (initBody version o)) (initialiseBody version o) := by
  have hs : ∀ f, f ∈ (if version = 1 ∨ version = 2 then
      [nvWrite 0x62 o.networkKey, setChannel 1 o.channelList.toNat, setChannel 0 0,
       commission 4, commission 2]
      else [configWrite 0x62 o.networkKey, nvWrite 0x101 linkKeyEntry]) → f ∈ initBody version o :=
    fun f hf => List.mem_append_right _ hf
  have hl : ∀ f, f ∈ [softReset, nvWrite 0x03 [2], softReset, nvWrite 0x87 [0],
      nvWrite 0x63 [if o.networkKeyDistribute then 1 else 0], nvWrite 0x8F [1],
      nvWrite 0x84 (le32 o.channelList.toNat), nvWrite 0x83 (le16 o.panID.toNat),
      nvWrite 0x2D o.extendedPanID] → f ∈ initBody version o :=
    fun f hf => List.mem_append_left _ hf
  unfold initialiseBody
  refine only_req ⟨_, hl _ ?_, frame_reset _⟩ fun _ => only_req ⟨_, hl _ ?_, wStartup _⟩ fun _ =>
    only_req ⟨_, hl _ ?_, frame_reset _⟩ fun _ => only_req ⟨_, hl _ ?_, wLogical _⟩ fun _ =>
    only_req ⟨_, hl _ ?_, wDist _ _⟩ fun _ =>
    only_req ⟨_, hl _ ?_, wDirect _⟩ fun _ => only_req ⟨_, hl _ ?_, wChan _ _⟩ fun _ =>
    only_req ⟨_, hl _ ?_, wPan _ _⟩ fun _ =>
    only_req ⟨_, hl _ ?_, wExt ho.ext _⟩ fun _ => ?_
  case refine_10 =>
    unfold initialiseStack
    by_cases hv : version = 1 ∨ version = 2
    · rw [if_pos ((version3 version).mpr hv)]
      rw [if_pos hv] at hs
      unfold initialise3
      refine only_req ⟨_, hs _ ?_, wKey ho.key _⟩ fun _ => only_req ⟨_, hs _ ?_, wPrimary _ _⟩ fun _ =>
        only_req ⟨_, hs _ ?_, wSecondary _⟩ fun _ => only_bind (only_op (o := waitForStarted) trivial) fun _ =>
        only_req ⟨_, hs _ ?_, wCommission4 _⟩ fun _ => only_bind (only_tryRaise (only_op (o := .wait _) trivial)) fun _ =>
        only_req ⟨_, hs _ ?_, wCommission2 _⟩ fun _ => only_pure _
      all_goals simp
    · rw [if_neg (fun h => hv ((version3 version).mp h))]
      rw [if_neg hv] at hs
      unfold initialise12
      refine only_req ⟨_, hs _ ?_, wKey12 ho.key _⟩ fun _ => only_req ⟨_, hs _ ?_, wLink _⟩ fun _ => only_pure _
      all_goals simp
  all_goals simp

theorem only_mark (version : Int) :
    Only (Sent [nvInit (flagId version) [0], nvWrite (flagId version) [0x55]]) (initialiseMark version) :=
  only_req ⟨_, .head _, frame_nvInit _ _⟩ fun _ =>
    only_req ⟨_, .tail _ (.head _), wFlag _ _⟩ fun _ => only_pure _

theorem only_initialise (version : Int) {o : Options} (ho : WellFormed o) :
    Only (Sent (initFrames version o)) (initialise version o) := by
  rw [initialise_split]
  exact only_bind (only_mono (sent_mono fun f hf => List.mem_append_left _ hf) (only_body version ho))
    fun _ => only_mono (sent_mono fun f hf => List.mem_append_right _ hf) (only_mark version)

theorem only_boot : Only (Sent [deviceInfo, startupFromApp]) boot := by
  unfold boot
  refine only_req ⟨_, .head _, frame_deviceInfo _⟩ fun _ => only_bind (only_field _ _) fun _ =>
    only_ite ?_ (only_pure _)
  exact only_bind (only_op (o := waitForStarted) trivial) fun _ =>
    only_req ⟨_, .tail _ (.head _), fStartup _⟩ fun _ =>
    only_bind (only_op (o := .wait _) trivial) fun _ => only_pure _

theorem fRegister_mem {e : Endpoint} (he : e ∈ Endpoints) (x : Option (List Int)) :
    ∃ f ∈ coordinatorEndpoints.map registerFrame, (Op.request .AF "register" e.vars x).frame = some f := by
  have h1 : (Op.request .AF "register" e.vars none).frame ∈
      Endpoints.map (fun e => (Op.request .AF "register" e.vars none).frame) := List.mem_map_of_mem he
  rw [fRegister] at h1
  obtain ⟨c, hc, h⟩ := List.mem_map.mp h1
  exact ⟨_, List.mem_map_of_mem hc, h.symm⟩

theorem only_loop (r : Obj) (es : List Endpoint) (hes : ∀ e ∈ es, e ∈ Endpoints) :
    Only (Sent (coordinatorEndpoints.map registerFrame)) (registerLoop r es) := by
  induction es with
  | nil => exact only_ret _
  | cons e es ih =>
    have ih := ih fun x hx => hes x (.tail _ hx)
    exact only_bind (only_lift _) fun _ => only_bind (only_lift _) fun _ =>
      only_ite ih (only_req (fRegister_mem (hes e (.head _)) _) fun _ => ih)

theorem only_register :
    Only (Sent (activeEpReq :: coordinatorEndpoints.map registerFrame)) registerEndpoints :=
  only_bind (only_op (o := waitForActiveEp) trivial) fun _ =>
    only_bind (only_op (o := .spawn ..) ⟨_, .head _, fActiveEp⟩) fun _ =>
    only_bind (only_op (o := .wait _) trivial) fun _ =>
    only_mono (sent_mono fun _ hf => .tail _ hf) (only_loop _ _ fun _ he => he)

theorem only_group {g : Nat} (hg : g < 65536) :
    Only (Sent [findGroup 242 g, addGroup 242 g]) (addToGroup 242 g) := by
  unfold addToGroup
  refine only_req ⟨_, .head _, fFind hg _⟩ fun _ => only_bind (only_field _ _) fun _ =>
    only_ite (only_req ⟨_, .tail _ (.head _), fAdd hg _⟩ fun _ => only_pure _) (only_pure _)

theorem only_configure (version : Int) {o : Options} (ho : WellFormed o) (b : Bool) :
    Only (Sent (readFrames version ++ initFrames version o)) (configure version o b) := by
  unfold configure
  have hr : ∀ f ∈ readFrames version, f ∈ readFrames version ++ initFrames version o :=
    fun f hf => List.mem_append_left _ hf
  refine only_bind (only_mono (sent_mono hr) (only_readHasConfigured version)) fun _ =>
    only_ite (only_raise _) (only_bind (only_mono (sent_mono hr) (only_needs version o)) fun _ =>
    only_ite (only_bind (only_mono (sent_mono fun f hf => List.mem_append_right _ hf)
      (only_initialise version ho)) fun _ => only_ite (only_pure _) (only_pure _)) (only_pure _))

theorem only_start (version : Int) {o : Options} (ho : WellFormed o) {g : Nat} (hg : g < 65536)
    (b : Bool) : Only (Sent (startFrames version o g)) (startZnp version o g b) := by
  unfold startZnp startFrames
  refine only_bind (only_mono (sent_mono fun f hf => ?_) (only_configure version ho b)) fun _ =>
    only_bind (only_mono (sent_mono fun f hf => ?_) only_boot) fun _ =>
    only_bind (only_mono (sent_mono fun f hf => ?_) only_register) fun _ =>
    only_bind (only_mono (sent_mono fun f hf => ?_) (only_group hg)) fun _ =>
    only_ite (only_req ⟨_, ?_, wChan _ _⟩ fun _ => only_pure _) (only_pure _)
  · exact List.mem_append_left _ (List.mem_append_left _ (List.mem_append_left _ hf))
  · refine List.mem_append_left _ (List.mem_append_left _ (List.mem_append_right _ ?_))
    rcases List.mem_cons.mp hf with rfl | hf
    · exact .head _
    · exact .tail _ (List.mem_singleton.mp hf ▸ .head _)
  · rcases List.mem_cons.mp hf with rfl | hf
    · exact List.mem_append_left _ (List.mem_append_left _ (List.mem_append_right _ (.tail _ (.tail _ (.head _)))))
    · exact List.mem_append_left _ (List.mem_append_right _ hf)
  · exact List.mem_append_right _ hf
  · refine List.mem_append_left _ (List.mem_append_left _ (List.mem_append_left _
      (List.mem_append_right _ (List.mem_append_left _ (List.mem_append_left _ ?_)))))
    simp

end Zcc
