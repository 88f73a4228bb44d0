import Verif.Proofs.StartSeq
import Verif.Proofs.Reports
import Verif.Proofs.EndCause
import Verif.Props.Runtime
import Verif.Spec.Blame

/-!
# The requests of start-up: how long they are, what they expect
-/

namespace Zcc

open Spec

/-- The response to the command begins with a status. -/
def statusFirst (sub : Subsystem) (id : Nat) (command : String) : Bool :=
  reports.any fun r => r.1 == .SRSP && r.2.1 == sub && r.2.2.1 == id && r.2.2.2.1 == command &&
    r.2.2.2.2.head? == some ("status", .u8)

/-- The response to the command has no status. -/
def statusLess (sub : Subsystem) (id : Nat) (command : String) : Bool :=
  reports.any fun r => r.1 == .SRSP && r.2.1 == sub && r.2.2.1 == id && r.2.2.2.1 == command &&
    r.2.2.2.2.all fun p => p.1 != "status"

/-- A reset, a request without a status in its response, or a request that expects what start-up
accepts. -/
def Asked (command : String) (expected : Option (List Int)) (ask : Frame) : Prop :=
  Fits ask ∧ (ask = softReset ∧ command = "resetReq" ∨ ask.commandType = .SREQ ∧
    (statusLess ask.subsystem ask.commandId command = true ∨
      (ask.subsystem, ask.commandId) ≠ (.SYS, 0x01) ∧ (ask.subsystem, ask.commandId) ≠ (.SYS, 0x02) ∧
      statusFirst ask.subsystem ask.commandId command = true ∧
      expected.getD [0] = (acceptedStatus ask).map fun z => (z.toNat : Int)))

/-- What start-up does: requests like this, waiters like these. -/
def Asks : Op → Prop
  | .request sub command payload expected => ∃ ask,
      (Op.request sub command payload expected).frame = some ask ∧ Asked command expected ask
  | .waitFor m _ => StartupMatcher m
  | _ => True

theorem asked_of {sub : Subsystem} {id : Nat} {data : List UInt8} {command : String}
    {expected : Option (List Int)} (hd : data.length < 256)
    (hi : (decide ((sub, id) = (.SYS, 1)) || decide ((sub, id) = (.SYS, 2)) || decide (256 ≤ id)) = false)
    (hs : statusFirst sub id command = true)
    (he : expected.getD [0] =
      (acceptedStatus (Frame.of .SREQ sub id data)).map fun z => (z.toNat : Int)) :
    Asked command expected (Frame.of .SREQ sub id data) := by
  simp only [Bool.or_eq_false_iff, decide_eq_false_iff_not] at hi
  refine ⟨⟨hd, Nat.lt_of_not_le hi.2⟩, .inr ⟨rfl, .inr ⟨hi.1.1, hi.1.2, hs, he⟩⟩⟩

theorem asked_read {id : Nat} {expected : Option (List Int)}
    (he : expected.getD [0] = (acceptedStatus (nvRead id)).map fun z => (z.toNat : Int)) :
    Asked "osalNvRead" expected (nvRead id) :=
  asked_of (by simp [le16]) (by decide) (by decide +kernel) he

theorem asked_flag (version : Int) : Asked "osalNvRead" (some [0, 2]) (nvRead (flagId version)) := by
  unfold flagId
  split
  · exact asked_read (by decide +kernel)
  · exact asked_read (by decide +kernel)

theorem asked_write {id : Nat} {v : List UInt8} (hv : v.length ≤ 32) :
    Asked "osalNvWrite" none (nvWrite id v) := by
  refine asked_of ?_ (by decide) (by decide +kernel) rfl
  simp [le16]
  omega

theorem asks_reset (e : Option (List Int)) : Asks (.request .SYS "resetReq" [("type", .int resetSoft)] e) :=
  ⟨_, frame_reset _, by decide, .inl ⟨rfl, rfl⟩⟩

theorem asks_info : Asks (.request .UTIL "getDeviceInfo" [] none) :=
  ⟨_, frame_deviceInfo _, asked_of (by decide) (by decide) (by decide +kernel) rfl⟩

theorem asks_started : Asks waitForStarted := .inr ⟨_, rfl⟩

theorem asks_needs (version : Int) (o : Options) : Only Asks (needsToBeInitialised version o) := by
  unfold needsToBeInitialised
  refine only_try ?_ ?_
  · refine only_bind (only_validate ⟨_, rFlag version _, asked_flag _⟩) fun _ =>
      only_bind (only_validate ⟨_, rChan _ _, asked_read (by decide +kernel)⟩) fun _ =>
      only_bind (only_validate ⟨_, rDist _ _, asked_read (by decide +kernel)⟩) fun _ => only_bind ?_ fun _ =>
      only_bind ?_ fun _ => only_pure _
    · unfold validateKey
      split
      · exact only_validate ⟨_, rKey _ _, asked_read (by decide +kernel)⟩
      · exact only_validate ⟨_, rKey12 _ _, asked_of (by decide) (by decide) (by decide +kernel) rfl⟩
    · unfold validatePan
      refine only_try (only_bind (only_validate ⟨_, rPan _ _, asked_read (by decide +kernel)⟩) fun _ =>
        only_validate ⟨_, rExt _ _, asked_read (by decide +kernel)⟩) ?_
      intro e p' h
      split at h
      · cases h
        refine only_ite (only_req ⟨_, rPan _ _, asked_read (by decide +kernel)⟩ fun _ =>
          only_bind (only_field _ _) fun _ => only_ite (only_pure _) (only_raise _)) (only_pure _)
      · cases h
  · intro e p' h
    split at h
    · cases h; exact only_pure _
    · cases h

theorem asks_readHasConfigured (version : Int) : Only Asks (readHasConfigured version) := by
  unfold readHasConfigured
  refine only_try (only_bind (only_validate ⟨_, rFlag version _, asked_flag _⟩) fun _ => only_pure _) ?_
  intro e p' h
  split at h
  · cases h; exact only_pure _
  · cases h; exact only_pure _
  · cases h

theorem asks_stack (version : Int) {o : Options} (ho : WellFormed o) :
    Only Asks (initialiseStack version o) := by
  unfold initialiseStack
  have hk : o.networkKey.length ≤ 32 := by rw [ho.key]; decide
  refine only_ite ?_ ?_
  · unfold initialise3
    refine only_req ⟨_, wKey ho.key _, asked_write hk⟩ fun _ =>
      only_req ⟨_, wPrimary _ _, asked_of ?_ (by decide) (by decide +kernel) rfl⟩ fun _ =>
      only_req ⟨_, wSecondary _, asked_of (by decide) (by decide) (by decide +kernel) rfl⟩ fun _ =>
      only_bind (only_op (o := waitForStarted) asks_started) fun _ =>
      only_req ⟨_, wCommission4 _, asked_of (by decide) (by decide) (by decide +kernel) rfl⟩ fun _ =>
      only_bind (only_tryRaise (only_op (o := .wait _) trivial)) fun _ =>
      only_req ⟨_, wCommission2 _, asked_of (by decide) (by decide) (by decide +kernel) rfl⟩ fun _ => only_pure _
    simp [le32]
  · unfold initialise12
    refine only_req ⟨_, wKey12 ho.key _, asked_of ?_ (by decide) (by decide +kernel) rfl⟩ fun _ =>
      only_req ⟨_, wLink _, asked_write (by decide +kernel)⟩ fun _ => only_pure _
    simp [ho.key]

theorem asks_initialise (version : Int) {o : Options} (ho : WellFormed o) :
    Only Asks (initialise version o) := by
  unfold initialise
  refine only_req (asks_reset _) fun _ => only_req ⟨_, wStartup _, asked_write (by decide)⟩ fun _ =>
    only_req (asks_reset _) fun _ => only_req ⟨_, wLogical _, asked_write (by decide)⟩ fun _ =>
    only_req ⟨_, wDist _ _, asked_write (by simp)⟩ fun _ =>
    only_req ⟨_, wDirect _, asked_write (by decide)⟩ fun _ =>
    only_req ⟨_, wChan _ _, asked_write (by simp [le32])⟩ fun _ =>
    only_req ⟨_, wPan _ _, asked_write (by simp [le16])⟩ fun _ =>
    only_req ⟨_, wExt ho.ext _, asked_write (by rw [ho.ext]; decide)⟩ fun _ =>
    only_bind (asks_stack version ho) fun _ =>
    only_req ⟨_, frame_nvInit _ _, asked_of ?_ (by decide) (by decide +kernel) rfl⟩ fun _ =>
    only_req ⟨_, wFlag _ _, asked_write (by decide)⟩ fun _ => only_pure _
  simp [le16]

theorem asks_boot : Only Asks boot := by
  unfold boot
  refine only_req asks_info fun _ => only_bind (only_field _ _) fun _ => only_ite ?_ (only_pure _)
  exact only_bind (only_op (o := waitForStarted) asks_started) fun _ =>
    only_req ⟨_, fStartup _, asked_of (by decide) (by decide) (by decide +kernel) rfl⟩ fun _ =>
    only_bind (only_op (o := .wait _) trivial) fun _ => only_pure _

theorem register_short : ∀ e ∈ coordinatorEndpoints, (registerFrame e).data.length < 256 := by
  decide +kernel

theorem asks_endpoint {e : Endpoint} (he : e ∈ Endpoints) : Asks (.request .AF "register" e.vars none) := by
  obtain ⟨f, hf, h⟩ := fRegister_mem he none
  obtain ⟨c, hc, rfl⟩ := List.mem_map.mp hf
  exact ⟨_, h, asked_of (register_short c hc) (by decide) (by decide +kernel) rfl⟩

theorem asks_loop (r : Obj) (es : List Endpoint) (hes : ∀ e ∈ es, e ∈ Endpoints) :
    Only Asks (registerLoop r es) := by
  induction es with
  | nil => exact only_ret _
  | cons e es ih =>
    have ih := ih fun x hx => hes x (.tail _ hx)
    exact only_bind (only_lift _) fun _ => only_bind (only_lift _) fun _ =>
      only_ite ih (only_req (asks_endpoint (hes e (.head _))) fun _ => ih)

theorem asks_register : Only Asks registerEndpoints :=
  only_bind (only_op (o := waitForActiveEp) (.inl rfl)) fun _ =>
    only_bind (only_op (o := .spawn ..) trivial) fun _ =>
    only_bind (only_op (o := .wait _) trivial) fun _ => asks_loop _ _ fun _ he => he

theorem asks_group {g : Nat} (hg : g < 65536) : Only Asks (addToGroup 242 g) := by
  unfold addToGroup
  refine only_req ⟨_, fFind hg _, asked_of ?_ (by decide) (by decide +kernel) rfl⟩ fun _ =>
    only_bind (only_field _ _) fun _ =>
    only_ite (only_req ⟨_, fAdd hg _, asked_of ?_ (by decide) (by decide +kernel) rfl⟩ fun _ => only_pure _)
      (only_pure _)
  · simp [le16]
  · simp [le16]

theorem asks_start (version : Int) {o : Options} (ho : WellFormed o) {g : Nat} (hg : g < 65536)
    (b : Bool) : Only Asks (startZnp version o g b) := by
  unfold startZnp
  refine only_bind ?_ fun _ => only_bind asks_boot fun _ =>
    only_bind asks_register fun _ => only_bind (asks_group hg) fun _ =>
    only_ite (only_req ⟨_, wChan _ _, asked_write (by simp [le32])⟩ fun _ => only_pure _) (only_pure _)
  unfold configure
  exact only_bind (asks_readHasConfigured version) fun _ =>
    only_ite (only_raise _) (only_bind (asks_needs version o) fun _ =>
      only_ite (only_bind (asks_initialise version ho) fun _ => only_ite (only_pure _) (only_pure _))
        (only_pure _))

theorem asks_form {o : Options} (ho : WellFormed o) (version : Int) : Only Asks (formNetwork version o) := by
  unfold formNetwork
  exact only_bind (asks_start _ ho (g := 0x0B84) (by decide) _) fun _ =>
    only_ite (only_op (o := .spawn ..) trivial) (only_pure _)

theorem asks_startup {o : Options} (ho : WellFormed o) (autoForm : Bool) :
    Only Asks (startup o autoForm) := by
  unfold startup
  refine only_bind (only_op (o := .connect) trivial) fun _ => only_bind (only_try ?_ ?_) fun _ =>
    only_req ?_ fun _ => only_bind (only_field _ _) fun _ =>
    only_bind (only_op (o := .semaphore _) trivial) fun _ => only_bind (only_lift _) fun version =>
    only_bind ?_ fun _ => only_req asks_info fun _ => only_bind (only_field _ _) fun _ =>
    only_bind (only_field _ _) fun _ => only_op (o := .coordinator ..) trivial
  · exact only_op (o := .request ..) ⟨ping, by decide +kernel, by decide, .inr ⟨rfl, .inl (by decide +kernel)⟩⟩
  · intro e p' h
    split at h
    · cases h; exact only_raise _
    · cases h
  · exact ⟨versionReq, by decide +kernel, by decide, .inr ⟨rfl, .inl (by decide +kernel)⟩⟩
  · unfold autoFormNetwork
    exact only_ite (asks_form ho _) (only_pure _)

end Zcc
