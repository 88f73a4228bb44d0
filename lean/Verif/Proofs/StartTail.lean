import Verif.Proofs.StartRun

/-!
# Endpoint registration and the green power group
-/

namespace Zcc

open Spec

theorem returns_req_bind {β : Type} {sub : Subsystem} {command : String} {p : Payload}
    {e : Option (List Int)} {k : Option Obj → Prog β} {h : List Act} {b : β}
    (hr : Returns (Prog.request sub command p e >>= k) h b) :
    ∃ r h', h = ⟨.request sub command p e, .ok r⟩ :: h' ∧ Returns (k r) h' b := by
  obtain ⟨h1, h2, r, rfl, h3, h4⟩ := returns_bind.mp hr
  cases returns_request.mp h3
  exact ⟨r, h2, rfl, h4⟩

theorem dictGet_ok {p : Payload} {k : String} {v : Val} (h : dictGet p k = .ok v) :
    p.lookup k = some v := by
  unfold dictGet at h
  cases hl : p.lookup k <;> rw [hl] at h <;> cases h
  rfl

theorem inList_ok {x : Int} {v : Val} {b : Bool} (h : inList x v = .ok b) :
    ∃ l, v = .ints l ∧ b = decide (x ∈ l) := by
  unfold inList at h
  split at h
  · cases h; exact ⟨_, rfl, rfl⟩
  · cases h

/-- The rows of the two tables describe the same frames. -/
def SameRows (es : List Endpoint) (cs : List (Nat × Nat × Nat × List Nat × List Nat)) : Prop :=
  es.map (fun e => (e.endpoint, (Op.request .AF "register" e.vars none).frame)) =
  cs.map (fun c => ((c.1 : Int), some (registerFrame c)))

theorem sameRows : SameRows Endpoints coordinatorEndpoints := by
  unfold SameRows
  decide +kernel

theorem sameRows_cons {e : Endpoint} {es : List Endpoint}
    {cs : List (Nat × Nat × Nat × List Nat × List Nat)} (h : SameRows (e :: es) cs) :
    ∃ c cs', cs = c :: cs' ∧ e.endpoint = (c.1 : Int) ∧
      (Op.request .AF "register" e.vars none).frame = some (registerFrame c) ∧ SameRows es cs' := by
  cases cs with
  | nil => cases h
  | cons c cs =>
    unfold SameRows at h
    rw [List.map_cons, List.map_cons] at h
    obtain ⟨h1, h2⟩ := List.cons.inj h
    obtain ⟨h3, h4⟩ := Prod.mk.inj h1
    exact ⟨c, cs, rfl, h3, h4, h2⟩

theorem loop_returns {r : Obj} {es : List Endpoint}
    {cs : List (Nat × Nat × Nat × List Nat × List Nat)} (hrows : SameRows es cs) {h : List Act} {u : Unit}
    (hr : Returns (registerLoop r es) h u) :
    (es ≠ [] → ∃ l, r.payload.lookup "activeeplist" = some (.ints l)) ∧
    ∀ l, r.payload.lookup "activeeplist" = some (.ints l) →
      frames h = (missing l cs).map registerFrame ∧ ∀ x ∈ h, Succeeded x := by
  induction es generalizing cs h with
  | nil =>
    have hcs : cs = [] := by
      unfold SameRows at hrows
      cases cs
      · rfl
      · cases hrows
    subst hcs
    obtain ⟨rfl, -⟩ := returns_ret.mp hr
    exact ⟨fun h => absurd rfl h, fun l _ => ⟨rfl, fun x hx => absurd hx List.not_mem_nil⟩⟩
  | cons e es ih =>
    obtain ⟨c, cs, rfl, hep, hfr, hrows⟩ := sameRows_cons hrows
    unfold registerLoop at hr
    obtain ⟨h1, h2, v, rfl, h3, h4⟩ := returns_bind.mp hr
    obtain ⟨rfl, hv⟩ := returns_lift.mp h3
    obtain ⟨h5, h6, act, rfl, h7, h8⟩ := returns_bind.mp h4
    obtain ⟨rfl, hact⟩ := returns_lift.mp h7
    obtain ⟨l, rfl, rfl⟩ := inList_ok hact
    have hl := dictGet_ok hv
    refine ⟨fun _ => ⟨l, hl⟩, fun l' hl' => ?_⟩
    rw [hl] at hl'
    cases hl'
    rw [List.nil_append, List.nil_append]
    by_cases hmem : e.endpoint ∈ l
    · rw [if_pos (decide_eq_true hmem)] at h8
      obtain ⟨k1, k2⟩ := (ih hrows h8).2 l hl
      refine ⟨?_, k2⟩
      rw [k1]
      unfold missing
      rw [List.filter_cons_of_neg]
      rw [← hep]
      simp [hmem]
    · rw [if_neg (fun h => hmem (of_decide_eq_true h))] at h8
      obtain ⟨x, h9, rfl, h10⟩ := returns_req_bind h8
      obtain ⟨k1, k2⟩ := (ih hrows h10).2 l hl
      constructor
      · unfold missing at k1 ⊢
        rw [List.filter_cons_of_pos (by rw [← hep]; simp [hmem]), List.map_cons, ← k1]
        simp [frames, hfr]
      · intro y hy
        rcases List.mem_cons.mp hy with rfl | hy
        · exact ⟨⟨x, rfl⟩, rfl⟩
        · exact k2 y hy

theorem loop_runs {r : Obj} {es : List Endpoint}
    {cs : List (Nat × Nat × Nat × List Nat × List Nat)} (hrows : SameRows es cs) {h : List Act}
    (hr : Runs (registerLoop r es) h) :
    ∀ l, r.payload.lookup "activeeplist" = some (.ints l) →
      frames h <+: (missing l cs).map registerFrame := by
  intro l hl
  induction es generalizing cs h with
  | nil =>
    rw [runs_ret.mp hr]
    exact List.nil_prefix
  | cons e es ih =>
    obtain ⟨c, cs, rfl, hep, hfr, hrows⟩ := sameRows_cons hrows
    unfold registerLoop at hr
    have hd : dictGet r.payload "activeeplist" = .ok (.ints l) := by
      unfold dictGet
      rw [hl]
    rw [hd] at hr
    change Runs (if decide (e.endpoint ∈ l) = true then registerLoop r es else
      Prog.request .AF "register" e.vars >>= fun _ => registerLoop r es) h at hr
    by_cases hmem : e.endpoint ∈ l
    · rw [if_pos (decide_eq_true hmem)] at hr
      have := ih hrows hr
      unfold missing at this ⊢
      rw [List.filter_cons_of_neg (by rw [← hep]; simp [hmem])]
      exact this
    · rw [if_neg (fun h => hmem (of_decide_eq_true h))] at hr
      unfold missing
      rw [List.filter_cons_of_pos (by rw [← hep]; simp [hmem]), List.map_cons]
      rcases runs_bind hr with h1 | ⟨h1, h2, x, rfl, h3, h4⟩
      · rcases runs_request h1 with rfl | ⟨x, rfl⟩
        · exact List.nil_prefix
        · have : frames [(⟨.request .AF "register" e.vars none, x⟩ : Act)] = [registerFrame c] := by
            simp [frames, hfr]
          rw [this]
          exact ⟨_, rfl⟩
      · cases returns_request.mp h3
        have : frames ([(⟨.request .AF "register" e.vars none, .ok x⟩ : Act)] ++ h2) =
            registerFrame c :: frames h2 := by
          simp [frames, hfr]
        rw [this]
        exact List.prefix_cons_inj _ |>.mpr (ih hrows h4)

theorem loop_no_wait {r : Obj} {es : List Endpoint} {h : List Act}
    (hr : Runs (registerLoop r es) h) {a : Act} (ha : a ∈ h) : ∀ w, a.op ≠ .wait w := by
  have : Only (fun o => ∀ w, o ≠ .wait w) (registerLoop r es) := by
    clear hr ha
    induction es with
    | nil => exact only_ret _
    | cons e es ih =>
      unfold registerLoop
      refine only_bind (only_lift _) fun v => only_bind (only_lift _) fun b => only_ite ih ?_
      exact only_bind (only_op fun w hw => by cases hw) fun _ => ih
  exact this h hr a ha

theorem register_returns {h : List Act} {u : Unit} (hr : Returns registerEndpoints h u) :
    ∃ w o l h', h = ⟨waitForActiveEp, .ok w⟩ ::
      ⟨.spawn .ZDO "activeEpReq" [("dstaddr", .int 0), ("nwkaddrofinterest", .int 0)], .ok ()⟩ ::
      ⟨.wait w, .ok o⟩ :: h' ∧ o.payload.lookup "activeeplist" = some (.ints l) ∧
      frames h' = (missing l coordinatorEndpoints).map registerFrame ∧ ∀ x ∈ h', Succeeded x := by
  obtain ⟨h1, h2, w, rfl, h3, h4⟩ := returns_bind.mp hr
  cases returns_op.mp h3
  obtain ⟨h5, h6, _, rfl, h7, h8⟩ := returns_bind.mp h4
  cases returns_op.mp h7
  obtain ⟨h9, h10, o, rfl, h11, h12⟩ := returns_bind.mp h8
  cases returns_op.mp h11
  obtain ⟨k1, k2⟩ := loop_returns sameRows h12
  obtain ⟨l, hl⟩ := k1 (by decide)
  obtain ⟨k3, k4⟩ := k2 l hl
  exact ⟨w, o, l, h10, rfl, hl, k3, k4⟩

theorem group_returns {g : Nat} (hg : g < 65536) {h : List Act} {u : Unit}
    (hr : Returns (addToGroup 242 g) h u) :
    ∃ a o s h', h = a :: h' ∧ a.op.frame = some (findGroup 242 g) ∧ response a = some o ∧
      o.payload.lookup "status" = some s ∧
      frames h' = (if s = .int 1 then [addGroup 242 g] else []) ∧ ∀ x ∈ h, Succeeded x := by
  unfold addToGroup at hr
  obtain ⟨r, h1, rfl, h2⟩ := returns_req_bind hr
  obtain ⟨h3, h4, s, rfl, h5, h6⟩ := returns_bind.mp h2
  obtain ⟨rfl, o, rfl, hs⟩ := returns_field.mp h5
  rw [List.nil_append]
  have hsuc : ∀ {x : Act} {h : List Act}, (∀ y ∈ h, Succeeded y) → Succeeded x →
      ∀ y ∈ x :: h, Succeeded y := by
    intro x h hh hx y hy
    rcases List.mem_cons.mp hy with rfl | hy
    · exact hx
    · exact hh y hy
  refine ⟨_, o, s, h4, rfl, fFind hg _, rfl, hs, ?_⟩
  split at h6
  · next h1 =>
    rw [if_pos h1]
    obtain ⟨r, h7, rfl, h8⟩ := returns_req_bind h6
    obtain ⟨rfl, -⟩ := returns_ret.mp h8
    refine ⟨by simp [frames, fAdd hg], hsuc (hsuc (fun y hy => absurd hy List.not_mem_nil) ⟨⟨r, rfl⟩, rfl⟩) ⟨⟨_, rfl⟩, rfl⟩⟩
  · next h1 =>
    rw [if_neg h1]
    obtain ⟨rfl, -⟩ := returns_ret.mp h6
    exact ⟨rfl, hsuc (fun y hy => absurd hy List.not_mem_nil) ⟨⟨_, rfl⟩, rfl⟩⟩

theorem boot_returns {h : List Act} {u : Unit} (hr : Returns boot h u) :
    ∃ a o s h', h = a :: h' ∧ a.op.frame = some deviceInfo ∧
      a = ⟨.request .UTIL "getDeviceInfo" [] none, .ok (some o)⟩ ∧
      o.payload.lookup "devicestate" = some s ∧ (∀ x ∈ h, Succeeded x) ∧
      ((s = .int 9 ∧ h' = []) ∨
       (s ≠ .int 9 ∧ ∃ w x n, h' = [⟨waitForStarted, .ok w⟩,
          ⟨.request .ZDO "startupFromApp" [("startdelay", .int 100)] (some [0, 1]), .ok x⟩,
          ⟨.wait w, .ok n⟩])) := by
  unfold boot at hr
  obtain ⟨r, h1, rfl, h2⟩ := returns_req_bind hr
  obtain ⟨h3, h4, s, rfl, h5, h6⟩ := returns_bind.mp h2
  obtain ⟨rfl, o, rfl, hs⟩ := returns_field.mp h5
  rw [List.nil_append]
  refine ⟨_, o, s, h4, rfl, frame_deviceInfo _, rfl, hs, ?_⟩
  split at h6
  · next hne =>
    obtain ⟨h7, h8, w, rfl, h9, h10⟩ := returns_bind.mp h6
    cases returns_op.mp h9
    obtain ⟨x, h11, rfl, h12⟩ := returns_req_bind h10
    obtain ⟨h13, h14, n, rfl, h15, h16⟩ := returns_bind.mp h12
    cases returns_op.mp h15
    obtain ⟨rfl, -⟩ := returns_ret.mp h16
    refine ⟨?_, .inr ⟨hne, w, x, n, rfl⟩⟩
    intro y hy
    simp only [List.cons_append, List.nil_append, List.mem_cons, List.not_mem_nil, or_false] at hy
    rcases hy with rfl | rfl | rfl | rfl
    · exact ⟨⟨_, rfl⟩, rfl⟩
    · exact ⟨⟨_, rfl⟩, rfl⟩
    · exact ⟨⟨_, rfl⟩, rfl⟩
    · exact ⟨⟨_, rfl⟩, rfl⟩
  · next heq =>
    obtain ⟨rfl, -⟩ := returns_ret.mp h6
    refine ⟨?_, .inl ⟨Decidable.not_not.mp heq, rfl⟩⟩
    intro y hy
    rw [List.mem_singleton.mp hy]
    exact ⟨⟨_, rfl⟩, rfl⟩

theorem stack3_returns {o : Options} {h : List Act} {u : Unit} (hr : Returns (initialise3 o) h u) :
    ∃ h1 w x4 n x2, h = h1 ++ [⟨waitForStarted, .ok w⟩,
      ⟨.request .APP_CNF "bdbStartCommissioning" [("mode", .int 4)] none, .ok x4⟩,
      ⟨.wait w, .ok n⟩,
      ⟨.request .APP_CNF "bdbStartCommissioning" [("mode", .int 2)] none, .ok x2⟩] := by
  unfold initialise3 at hr
  obtain ⟨x1, h1, rfl, hr1⟩ := returns_req_bind hr
  obtain ⟨x2, h2, rfl, hr2⟩ := returns_req_bind hr1
  obtain ⟨x3, h3, rfl, hr3⟩ := returns_req_bind hr2
  obtain ⟨h4, h5, w, rfl, h6, hr4⟩ := returns_bind.mp hr3
  cases returns_op.mp h6
  obtain ⟨x4, h7, rfl, hr5⟩ := returns_req_bind hr4
  obtain ⟨h8, h9, n, rfl, h10, hr6⟩ := returns_bind.mp hr5
  cases returns_op.mp (returns_tryRaise h10)
  obtain ⟨x5, h11, rfl, hr7⟩ := returns_req_bind hr6
  obtain ⟨rfl, -⟩ := returns_ret.mp hr7
  exact ⟨[_, _, _], w, x4, n, x5, rfl⟩

theorem fPing (e : Option (List Int)) :
    (Op.request .SYS "ping" [("capabilities", .int 1)] e).frame = some (Frame.of .SREQ .SYS 0x01 []) := by
  have h : (Op.request .SYS "ping" [("capabilities", .int 1)] none).frame =
    some (Frame.of .SREQ .SYS 0x01 []) := by decide +kernel
  exact h

theorem fVersion (e : Option (List Int)) :
    (Op.request .SYS "version" [] e).frame = some (Frame.of .SREQ .SYS 0x02 []) := by
  have h : (Op.request .SYS "version" [] none).frame =
    some (Frame.of .SREQ .SYS 0x02 []) := by decide +kernel
  exact h

theorem znpVersion_ok {v : Val} {p : Int} (h : znpVersion v = .ok p) :
    v = .int p ∧ (p = 0 ∨ p = 1 ∨ p = 2) := by
  unfold znpVersion at h
  split at h
  · split at h
    · next hp => cases h; exact ⟨rfl, hp⟩
    · cases h
  · cases h

theorem returns_ping {α : Type} {p : Prog α} {x : PyErr} {h : List Act} {a : α}
    (hr : Returns (p.tryExcept (fun e => match e with
      | .commandError _ => some (.raise x)
      | _ => none)) h a) : Returns p h a := by
  rcases returns_try hr with h1 | ⟨h1, h2, e, p', rfl, h3, h4, h5⟩
  · exact h1
  · split at h4
    · cases h4
      exact absurd h5 returns_raise
    · cases h4

/-- The first part of a coroutine does not send `f`: it was sent by the rest. -/
theorem sent_later {α β : Type} {p : Prog α} {k : α → Prog β} {h : List Act} {f : Frame}
    (hp : Only (fun o => o.frame ≠ some f) p) (hr : Runs (p >>= k) h) (hf : f ∈ frames h) :
    ∃ h1 h2 a, h = h1 ++ h2 ∧ Returns p h1 a ∧ Runs (k a) h2 ∧ f ∉ frames h1 ∧ f ∈ frames h2 := by
  rcases runs_bind hr with h1 | ⟨h1, h2, a, rfl, h3, h4⟩
  · obtain ⟨a, ha, he⟩ := mem_frames.mp hf
    exact absurd he (hp h h1 a ha)
  · have hn : f ∉ frames h1 := fun hm => by
      obtain ⟨b, hb, he⟩ := mem_frames.mp hm
      exact hp h1 h3.runs b hb he
    rw [frames_append] at hf
    exact ⟨h1, h2, a, rfl, h3, h4, hn, (List.mem_append.mp hf).resolve_left hn⟩

/-! ## What is waited for -/

theorem registers_started (w : Nat) : Registers StartedInd ⟨waitForStarted, .ok w⟩ w := by
  refine ⟨_, _, rfl, fun n => ⟨fun ⟨h1, h2, h3, h4⟩ => ?_, fun ⟨h1, h2, h3, h4⟩ => ?_⟩⟩
  · exact ⟨h1.symm, h2.symm, h3.symm, h4 _ (.head _)⟩
  · refine ⟨h1.symm, h2.symm, h3.symm, fun p hp => ?_⟩
    rcases List.mem_singleton.mp hp with rfl
    exact h4

theorem registers_activeEp (w : Nat) : Registers ActiveEpRsp ⟨waitForActiveEp, .ok w⟩ w :=
  ⟨_, _, rfl, fun _ => ⟨fun ⟨h1, h2, h3, _⟩ => ⟨h1.symm, h2.symm, h3.symm⟩,
    fun ⟨h1, h2, h3⟩ => ⟨h1.symm, h2.symm, h3.symm, fun _ hp => absurd hp List.not_mem_nil⟩⟩⟩

end Zcc
