import Verif.Proofs.StartSeq
import Verif.Spec.Blame

/-!
# Why start-up may raise: histories
-/

namespace Zcc

open Spec

/-- The fields of responses that start-up looks into. -/
def readsOf : List (Subsystem × String × String) :=
  [(.SYS, "version", "product"), (.SYS, "osalNvRead", "value"), (.SAPI, "readConfiguration", "value"),
   (.UTIL, "getDeviceInfo", "devicestate"), (.UTIL, "getDeviceInfo", "ieeeaddr"),
   (.UTIL, "getDeviceInfo", "shortaddr"), (.ZDO, "extFindGroup", "status")]

/-- There is no response, or it lacks the field. -/
def Lacks (r : Option Obj) (key : String) : Prop := ∀ o, r = some o → o.payload.lookup key = none

/-- Operations that do not fail on the API. -/
def Op.safe : Op → Bool
  | .spawn .. | .waitFor .. | .semaphore _ | .coordinator .. => true
  | _ => false

/-- What start-up waits for, and what it has done since it began to listen. -/
def Listens (m : Matcher) (timeout : Nat) (between : List Act) : Prop :=
  m = startedMatcher ∧ timeout = 60000 ∧ frames between = [startupFromApp] ∨
  m = endpointsMatcher ∧ timeout = 10000 ∧ frames between = [activeEpReq]

/-- What the last operations of a start-up are that raised `e`. -/
inductive Why : List Act → PyErr → Prop where
  | request {h sub command payload expected e} :
      Why (h ++ [⟨.request sub command payload expected, .error e⟩]) e
  | connect {h e} : Why (h ++ [⟨.connect, .error e⟩]) e
  | safe {h} {op : Op} {e} (hs : op.safe = true) : Why (h ++ [⟨op, .error e⟩]) e
  | ping {h payload z} :
      Why (h ++ [⟨.request .SYS "ping" payload none, .error (.commandError z)⟩]) .exception
  | lacks {h sub command payload expected r key e} (hk : (sub, command, key) ∈ readsOf)
      (hl : Lacks r key) : Why (h ++ [⟨.request sub command payload expected, .ok r⟩]) e
  | wait {h before between : List Act} {m : Matcher} {timeout w : Nat} {e}
      (hm : Listens m timeout between) (hh : h = before ++ ⟨.waitFor m timeout, .ok w⟩ :: between)
      (hb : ∀ v r, (⟨.wait v, r⟩ : Act) ∉ between) : Why (h ++ [⟨.wait w, .error e⟩]) e
  | started {h before between : List Act} {w : Nat} {e}
      (hh : h = before ++ ⟨.waitFor startedMatcher 60000, .ok w⟩ :: between)
      (hb : ∀ v r, (⟨.wait v, r⟩ : Act) ∉ between) (hf : frames between = [commission 4])
      (he : e ≠ .cancelledError) : Why (h ++ [⟨.wait w, .error e⟩]) .exception
  | stopped {h before between : List Act} {w : Nat}
      (hh : h = before ++ ⟨.waitFor startedMatcher 60000, .ok w⟩ :: between)
      (hb : ∀ v r, (⟨.wait v, r⟩ : Act) ∉ between) :
      Why (h ++ [⟨.wait w, .error .cancelledError⟩]) .cancelledError
  | list {h before between : List Act} {w : Nat} {n : Obj} {e}
      (hh : h = before ++ ⟨.waitFor endpointsMatcher 10000, .ok w⟩ :: between ++ [⟨.wait w, .ok n⟩])
      (hl : ∀ l, n.payload.lookup "activeeplist" ≠ some (.ints l)) : Why h e
  | product {h v p n e} (hv : v.payload.lookup "product" = some p) (hp : znpVersion p = .error e) :
      Why (h ++ [⟨.request .SYS "version" [] none, .ok (some v)⟩, ⟨.semaphore n, .ok ()⟩]) e

/-- After `h0`, `p` raises only for a reason or an exception in `E`. -/
def BlamesIn {α : Type} (h0 : List Act) (p : Prog α) (E : PyErr → Prop) : Prop :=
  ∀ h e, Raises p h e → Why (h0 ++ h) e ∨ E e

theorem blames_ret {α : Type} {h0 : List Act} {E : PyErr → Prop} (a : α) : BlamesIn h0 (.ret a) E :=
  fun _ _ hr => absurd hr raises_ret

theorem blames_pure {α : Type} {h0 : List Act} {E : PyErr → Prop} (a : α) :
    BlamesIn h0 (pure a : Prog α) E := blames_ret a

theorem blames_raise {α : Type} {h0 : List Act} {E : PyErr → Prop} {e : PyErr} (h : E e) :
    BlamesIn h0 (.raise e : Prog α) E := by
  intro h1 e' hr
  obtain ⟨-, rfl⟩ := raises_raise.mp hr
  exact .inr h

theorem blames_bind {α β : Type} {h0 : List Act} {E : PyErr → Prop} {p : Prog α} {f : α → Prog β}
    (hp : BlamesIn h0 p E) (hf : ∀ h1 a, Returns p h1 a → BlamesIn (h0 ++ h1) (f a) E) :
    BlamesIn h0 (p >>= f) E := by
  intro h e hr
  rcases raises_bind hr with hr | ⟨h1, h2, a, rfl, h3, h4⟩
  · exact hp h e hr
  · rw [← List.append_assoc]
    exact hf h1 a h3 h2 e h4

theorem blames_mono {α : Type} {h0 : List Act} {E E' : PyErr → Prop} {p : Prog α}
    (hp : BlamesIn h0 p E) (hE : ∀ e, E e → E' e) : BlamesIn h0 p E' :=
  fun h e hr => (hp h e hr).imp id (hE e)

theorem blames_try {α : Type} {h0 : List Act} {E E' : PyErr → Prop} {p : Prog α}
    {hd : PyErr → Option (Prog α)} (hp : BlamesIn h0 p E') (hE : ∀ e, E' e → hd e = none → E e)
    (hf : ∀ h1 e q, Raises p h1 e → hd e = some q → BlamesIn (h0 ++ h1) q E) :
    BlamesIn h0 (p.tryExcept hd) E := by
  intro h e hr
  rcases raises_try hr with ⟨hr, hn⟩ | ⟨h1, h2, e', q, rfl, h3, h4, h5⟩
  · exact (hp h e hr).imp id (fun h => hE e h hn)
  · rw [← List.append_assoc]
    exact hf h1 e' q h3 h4 h2 e h5

theorem blames_ite {α : Type} {h0 : List Act} {E : PyErr → Prop} {c : Prop} [Decidable c]
    {p q : Prog α} (hp : c → BlamesIn h0 p E) (hq : ¬ c → BlamesIn h0 q E) :
    BlamesIn h0 (if c then p else q) E := by
  split
  · exact hp ‹_›
  · exact hq ‹_›

theorem blames_request {h0 : List Act} {E : PyErr → Prop} (sub : Subsystem) (command : String)
    (payload : Payload) (expected : Option (List Int)) :
    BlamesIn h0 (Prog.request sub command payload expected) E := by
  intro h e hr
  rw [raises_request.mp hr]
  exact .inl .request

theorem blames_safe {h0 : List Act} {E : PyErr → Prop} {op : Op} (hs : op.safe = true) :
    BlamesIn h0 (Prog.op op) E := by
  intro h e hr
  rw [raises_op.mp hr]
  exact .inl (.safe hs)

/-- The field of a response. -/
theorem blames_field {h0 : List Act} {E : PyErr → Prop} {sub : Subsystem} {command : String}
    {payload : Payload} {expected : Option (List Int)} {key : String} {r : Option Obj}
    (hk : (sub, command, key) ∈ readsOf) :
    BlamesIn (h0 ++ [⟨.request sub command payload expected, .ok r⟩]) (Prog.field r key) E := by
  intro h e hr
  refine .inl ?_
  have hl : h = [] ∧ Lacks r key := by
    unfold Prog.field at hr
    split at hr
    · exact ⟨(raises_raise.mp hr).1, fun o h => by cases h⟩
    · obtain ⟨h1, h2⟩ := raises_lift.mp hr
      refine ⟨h1, fun o ho => ?_⟩
      cases ho
      unfold dictGet at h2
      split at h2
      · cases h2
      · assumption
  rw [hl.1, List.append_nil]
  exact .lacks hk hl.2

/-- A request and a field of its response. -/
theorem blames_read {β : Type} {h0 : List Act} {E : PyErr → Prop} {sub : Subsystem} {command : String}
    {payload : Payload} {expected : Option (List Int)} {key : String} {f : Val → Prog β}
    (hk : (sub, command, key) ∈ readsOf)
    (hf : ∀ o v, o.payload.lookup key = some v →
      BlamesIn (h0 ++ [⟨.request sub command payload expected, .ok (some o)⟩]) (f v) E) :
    BlamesIn h0 (Prog.request sub command payload expected >>= fun r => Prog.field r key >>= f) E := by
  refine blames_bind (blames_request _ _ _ _) fun h1 r hr => ?_
  rw [returns_request.mp hr]
  refine blames_bind (blames_field hk) fun h2 v hr2 => ?_
  obtain ⟨rfl, o, rfl, ho⟩ := returns_field.mp hr2
  rw [List.append_nil]
  exact hf o v ho

/-- Only an `AssertionError` in addition. -/
def isAssert (e : PyErr) : Prop := e = .assertionError

theorem blames_validate {h0 : List Act} {item : Payload} {sub : Subsystem} {command : String}
    {expected : Option (List Int)} (hk : (sub, command, "value") ∈ readsOf)
    (hv : (item.lookup "value").isSome = true) :
    BlamesIn h0 (validateItem item sub command expected) isAssert := by
  unfold validateItem
  refine blames_read hk fun o v _ => ?_
  obtain ⟨x, hx⟩ := Option.isSome_iff_exists.mp hv
  have : dictGet item "value" = .ok x := by
    unfold dictGet
    rw [hx]
  rw [this]
  refine blames_bind (blames_ret _) fun h1 a _ => ?_
  exact blames_ite (fun _ => blames_raise rfl) (fun _ => blames_pure _)

theorem blames_key {h0 : List Act} (version : Int) (o : Options) :
    BlamesIn h0 (validateKey version o) isAssert := by
  unfold validateKey
  exact blames_ite (fun _ => blames_validate (by decide +kernel) rfl)
    (fun _ => blames_validate (by decide +kernel) rfl)

theorem blames_pan {h0 : List Act} (version : Int) (o : Options) :
    BlamesIn h0 (validatePan version o) isAssert := by
  unfold validatePan
  refine blames_try (E' := isAssert)
    (blames_bind (blames_validate (by decide +kernel) rfl) fun _ _ _ =>
      blames_validate (by decide +kernel) rfl) (fun e h _ => h) fun h1 e q _ hq => ?_
  split at hq
  · rename_i he
    cases hq
    refine blames_ite (fun _ => ?_) (fun _ => blames_pure _)
    refine blames_read (by decide +kernel) fun n v _ => ?_
    exact blames_ite (fun _ => blames_pure _) (fun _ => blames_raise he)
  · cases hq

theorem blames_needs {h0 : List Act} {E : PyErr → Prop} (version : Int) (o : Options) :
    BlamesIn h0 (needsToBeInitialised version o) E := by
  unfold needsToBeInitialised
  refine blames_try (E' := isAssert) ?_ (fun e h hn => ?_) fun h1 e q _ hq => ?_
  · exact blames_bind (blames_validate (by decide +kernel) rfl) fun _ _ _ =>
      blames_bind (blames_validate (by decide +kernel) rfl) fun _ _ _ =>
      blames_bind (blames_validate (by decide +kernel) rfl) fun _ _ _ =>
      blames_bind (blames_key _ _) fun _ _ _ =>
      blames_bind (blames_pan _ _) fun _ _ _ => blames_pure _
  · rw [h, if_pos rfl] at hn
    cases hn
  · split at hq
    · cases hq
      exact blames_pure _
    · cases hq

theorem blames_flag {h0 : List Act} {E : PyErr → Prop} (version : Int) :
    BlamesIn h0 (readHasConfigured version) E := by
  unfold readHasConfigured
  refine blames_try (E' := isAssert) ?_ (fun e h hn => ?_) fun h1 e q _ hq => ?_
  · exact blames_bind (blames_validate (by decide +kernel) rfl) fun _ _ _ => blames_pure _
  · rw [h] at hn
    cases hn
  · split at hq
    · cases hq
      exact blames_pure _
    · cases hq
      exact blames_pure _
    · cases hq

/-- Wait for a waiter of start-up. -/
theorem blames_wait {h0 before between : List Act} {E : PyErr → Prop} {m : Matcher} {timeout w : Nat}
    (hm : Listens m timeout between) (hh : h0 = before ++ ⟨.waitFor m timeout, .ok w⟩ :: between)
    (hb : ∀ v r, (⟨.wait v, r⟩ : Act) ∉ between) : BlamesIn h0 (Prog.op (.wait w)) E := by
  intro h e hr
  rw [raises_op.mp hr]
  exact .inl (.wait hm hh hb)

theorem no_wait {op : Op} {r : Except PyErr op.Ans} (ho : ∀ v, op ≠ .wait v) (v : Nat)
    (r' : Except PyErr (Op.wait v).Ans) : (⟨.wait v, r'⟩ : Act) ∉ [(⟨op, r⟩ : Act)] := by
  intro h
  exact ho v (congrArg Act.op (List.mem_singleton.mp h)).symm

theorem blames_boot {h0 : List Act} {E : PyErr → Prop} : BlamesIn h0 boot E := by
  unfold boot
  refine blames_read (by decide +kernel) fun o v _ => ?_
  refine blames_ite (fun _ => ?_) (fun _ => blames_pure _)
  refine blames_bind (blames_safe rfl) fun h1 started hr => ?_
  rw [returns_op.mp hr]
  refine blames_bind (blames_request _ _ _ _) fun h2 r hr2 => ?_
  rw [returns_request.mp hr2]
  refine blames_bind (blames_wait (m := startedMatcher) (timeout := 60000)
    (before := h0 ++ [⟨.request .UTIL "getDeviceInfo" [] none, .ok (some o)⟩])
    (between := [⟨.request .ZDO "startupFromApp" [("startdelay", .int 100)] (some [0, 1]), .ok r⟩])
    (.inl ⟨rfl, rfl, by simp [frames, fStartup]⟩) ?_ (no_wait ?_)) fun _ _ _ => blames_pure _
  · rw [List.append_assoc (h0 ++ _)]
    rfl
  · intro v h; cases h

theorem blames_registerLoop {h0 before between : List Act} {E : PyErr → Prop} {w : Nat} {n : Obj}
    (hh : h0 = before ++ ⟨.waitFor endpointsMatcher 10000, .ok w⟩ :: between ++ [⟨.wait w, .ok n⟩])
    (es : List Endpoint) : BlamesIn h0 (registerLoop n es) E := by
  by_cases hl : ∃ l, n.payload.lookup "activeeplist" = some (.ints l)
  · obtain ⟨l, hl⟩ := hl
    clear hh
    induction es generalizing h0 with
    | nil => exact blames_ret _
    | cons x es ih =>
      unfold registerLoop
      have : dictGet n.payload "activeeplist" = .ok (.ints l) := by
        unfold dictGet
        rw [hl]
      rw [this]
      refine blames_bind (blames_ret _) fun h1 a hr => ?_
      obtain ⟨-, rfl⟩ := returns_ret.mp hr
      refine blames_bind (blames_ret _) fun h2 b _ => ?_
      refine blames_ite (fun _ => ih) (fun _ => ?_)
      exact blames_bind (blames_request _ _ _ _) fun _ _ _ => ih
  · cases es with
    | nil => exact blames_ret _
    | cons x es =>
      intro h e hr
      refine .inl ?_
      have : h = [] := by
        unfold registerLoop at hr
        rcases raises_bind hr with hr | ⟨h1, h2, a, rfl, hr1, hr2⟩
        · exact (raises_lift.mp hr).1
        · obtain ⟨rfl, ha⟩ := returns_lift.mp hr1
          have ha : n.payload.lookup "activeeplist" = some a := by
            unfold dictGet at ha
            split at ha
            · cases ha; assumption
            · cases ha
          rcases raises_bind hr2 with hr3 | ⟨h3, h4, b, rfl, hr3, -⟩
          · exact (raises_lift.mp hr3).1
          · have hb := (returns_lift.mp hr3).2
            unfold inList at hb
            split at hb
            · exact absurd ⟨_, ha⟩ hl
            · cases hb
      rw [this, List.append_nil]
      exact .list hh fun l h => hl ⟨l, h⟩

theorem blames_endpoints {h0 : List Act} {E : PyErr → Prop} : BlamesIn h0 registerEndpoints E := by
  unfold registerEndpoints
  refine blames_bind (blames_safe rfl) fun h1 w hr => ?_
  rw [returns_op.mp hr]
  refine blames_bind (blames_safe rfl) fun h2 u hr2 => ?_
  rw [returns_op.mp hr2]
  refine blames_bind (blames_wait (before := h0) (m := endpointsMatcher) (timeout := 10000)
    (between := [⟨.spawn .ZDO "activeEpReq" [("dstaddr", .int 0), ("nwkaddrofinterest", .int 0)], .ok u⟩])
    (.inr ⟨rfl, rfl, by simp [frames, fActiveEp]⟩) ?_ (no_wait ?_)) fun h3 n hr3 => ?_
  · rw [List.append_assoc h0]
    rfl
  · intro v h; cases h
  · rw [returns_op.mp hr3]
    refine blames_registerLoop (before := h0) (w := w) (between := [⟨.spawn .ZDO "activeEpReq"
      [("dstaddr", .int 0), ("nwkaddrofinterest", .int 0)], .ok u⟩]) ?_ _
    rw [List.append_assoc h0]
    rfl

theorem blames_init3 {h0 : List Act} {E : PyErr → Prop} (o : Options) :
    BlamesIn h0 (initialise3 o) E := by
  unfold initialise3
  refine blames_bind (blames_request _ _ _ _) fun _ _ _ => ?_
  refine blames_bind (blames_request _ _ _ _) fun _ _ _ => ?_
  refine blames_bind (blames_request _ _ _ _) fun _ _ _ => ?_
  refine blames_bind (blames_safe rfl) fun h1 w hr => ?_
  rw [returns_op.mp hr]
  refine blames_bind (blames_request _ _ _ _) fun h2 _ hr2 => ?_
  rw [returns_request.mp hr2]
  refine blames_bind ?_ fun _ _ _ => blames_bind (blames_request _ _ _ _) fun _ _ _ => blames_pure _
  intro h e hr
  refine .inl ?_
  rcases raises_try hr with ⟨hr, hn⟩ | ⟨h3, h4, e', q, rfl, hr3, hq, hr4⟩
  · have he : e = .cancelledError := by
      unfold exceptException at hn
      split at hn
      · rename_i h; exact h
      · cases hn
    subst he
    rw [raises_op.mp hr]
    exact .stopped (by rw [List.append_assoc _ [_] [_]]; rfl) (no_wait (fun v h => by cases h))
  · unfold exceptException at hq
    split at hq
    · cases hq
    · rename_i hne
      cases hq
      obtain ⟨rfl, rfl⟩ := raises_raise.mp hr4
      rw [raises_op.mp hr3, List.append_nil]
      exact .started (by rw [List.append_assoc _ [_] [_]]; rfl) (no_wait (fun v h => by cases h))
        (by simp [frames, wCommission4]) hne

theorem blames_init {h0 : List Act} {E : PyErr → Prop} (version : Int) (o : Options) :
    BlamesIn h0 (initialise version o) E := by
  unfold initialise
  iterate 9 refine blames_bind (blames_request _ _ _ _) fun _ _ _ => ?_
  refine blames_bind ?_ fun _ _ _ => blames_bind (blames_request _ _ _ _) fun _ _ _ =>
    blames_bind (blames_request _ _ _ _) fun _ _ _ => blames_pure _
  unfold initialiseStack
  refine blames_ite (fun _ => blames_init3 _) (fun _ => ?_)
  exact blames_bind (blames_request _ _ _ _) fun _ _ _ =>
    blames_bind (blames_request _ _ _ _) fun _ _ _ => blames_pure _

theorem blames_group {h0 : List Act} {E : PyErr → Prop} (endpoint group : Int) :
    BlamesIn h0 (addToGroup endpoint group) E := by
  unfold addToGroup
  refine blames_read (by decide +kernel) fun o v _ => ?_
  refine blames_ite (fun _ => ?_) (fun _ => blames_pure _)
  exact blames_bind (blames_request _ _ _ _) fun _ _ _ => blames_pure _

theorem blames_start {h0 : List Act} {E : PyErr → Prop} (version : Int) (o : Options) (g : Int) :
    BlamesIn h0 (startZnp version o g false) E := by
  unfold startZnp
  refine blames_bind ?_ fun _ r _ => blames_bind blames_boot fun _ _ _ =>
    blames_bind blames_endpoints fun _ _ _ => blames_bind (blames_group _ _) fun _ _ _ => ?_
  · unfold configure
    refine blames_bind (blames_flag _) fun _ b _ => ?_
    refine blames_ite (fun h => by cases h.1) (fun _ => ?_)
    refine blames_bind (blames_needs _ _) fun _ b' _ => ?_
    refine blames_ite (fun _ => ?_) (fun _ => blames_pure _)
    refine blames_bind (blames_init _ _) fun _ _ _ => ?_
    exact blames_ite (fun _ => blames_pure _) (fun _ => blames_pure _)
  · refine blames_ite (fun _ => ?_) (fun _ => blames_pure _)
    exact blames_bind (blames_request _ _ _ _) fun _ _ _ => blames_pure _

theorem blames_form {h0 : List Act} {E : PyErr → Prop} (version : Int) (o : Options) :
    BlamesIn h0 (formNetwork version o) E := by
  unfold formNetwork
  refine blames_bind (blames_start _ _ _) fun _ _ _ => ?_
  exact blames_ite (fun _ => blames_safe rfl) (fun _ => blames_pure _)

theorem blames_startup (o : Options) (autoForm : Bool) :
    BlamesIn [] (startup o autoForm) (fun _ => False) := by
  unfold startup
  refine blames_bind ?_ fun h1 _ _ => ?_
  · intro h e hr
    rw [raises_op.mp hr]
    exact .inl (.connect)
  refine blames_bind ?_ fun h2 _ _ => ?_
  · intro h e hr
    refine .inl ?_
    rcases raises_try hr with ⟨hr, -⟩ | ⟨h3, h4, e', q, rfl, hr3, hq, hr4⟩
    · rw [raises_request.mp hr]
      exact .request
    · split at hq
      · cases hq
        obtain ⟨rfl, rfl⟩ := raises_raise.mp hr4
        rw [raises_request.mp hr3, List.append_nil]
        exact .ping
      · cases hq
  refine blames_read (by decide +kernel) fun v p hp => ?_
  refine blames_bind (blames_safe rfl) fun h3 _ hr3 => ?_
  rw [returns_op.mp hr3]
  refine blames_bind ?_ fun h4 version _ => ?_
  · intro h e hr
    obtain ⟨rfl, he⟩ := raises_lift.mp hr
    rw [List.append_nil, List.append_assoc]
    exact .inl (.product hp he)
  refine blames_bind ?_ fun _ _ _ => ?_
  · unfold autoFormNetwork
    exact blames_ite (fun _ => blames_form _ _) (fun _ => blames_pure _)
  refine blames_bind (blames_request _ _ _ _) fun h5 r hr5 => ?_
  rw [returns_request.mp hr5]
  refine blames_bind (blames_field (by decide +kernel)) fun h6 ieee hr6 => ?_
  obtain ⟨rfl, -⟩ := returns_field.mp hr6
  rw [List.append_nil]
  refine blames_bind (blames_field (by decide +kernel)) fun h7 nwk _ => ?_
  exact blames_safe rfl

end Zcc
