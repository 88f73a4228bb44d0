import Verif.Spec.Start
import Verif.Proofs.StartFrames

/-!
# Reasoning about start-up coroutines
-/

namespace Zcc

open Spec

section
variable {α β : Type}

theorem bind_eq (p : Prog α) (f : α → Prog β) : (p >>= f) = p.bind f := rfl
theorem pure_eq (a : α) : (pure a : Prog α) = .ret a := rfl
@[simp] theorem ret_bind (a : α) (f : α → Prog β) : (Prog.ret a).bind f = f a := rfl
@[simp] theorem raise_bind (e : PyErr) (f : α → Prog β) : (Prog.raise e : Prog α).bind f = .raise e := rfl
@[simp] theorem call_bind (o : Op) (k : Except PyErr o.Ans → Prog α) (f : α → Prog β) :
    (Prog.call o k).bind f = .call o (fun r => (k r).bind f) := rfl

theorem prog_assoc {γ : Type} (p : Prog α) (f : α → Prog β) (g : β → Prog γ) :
    (p >>= f) >>= g = p >>= fun a => f a >>= g := by
  show (p.bind f).bind g = p.bind (fun a => (f a).bind g)
  induction p with
  | ret a => rfl
  | raise e => rfl
  | call o k ih => simp only [call_bind]; congr 1; funext r; exact ih r

@[simp] theorem feed_nil (p : Prog α) : p.feed [] = some p := by cases p <;> rfl
@[simp] theorem feed_ret_cons (a : α) (x : Act) (h : List Act) : (Prog.ret a).feed (x :: h) = none := rfl
@[simp] theorem feed_raise_cons (e : PyErr) (x : Act) (h : List Act) :
    (Prog.raise e : Prog α).feed (x :: h) = none := rfl
@[simp] theorem feed_call (o : Op) (k : Except PyErr o.Ans → Prog α) (r : Except PyErr o.Ans)
    (h : List Act) : (Prog.call o k).feed (⟨o, r⟩ :: h) = (k r).feed h := by
  simp [Prog.feed]

theorem feed_call_cons {o : Op} {k : Except PyErr o.Ans → Prog α} {x : Act} {h : List Act}
    {q : Prog α} (hf : (Prog.call o k).feed (x :: h) = some q) :
    ∃ r, x = ⟨o, r⟩ ∧ (k r).feed h = some q := by
  obtain ⟨xo, xr⟩ := x
  by_cases he : xo = o
  · subst he
    exact ⟨xr, rfl, by simpa using hf⟩
  · simp [Prog.feed, he] at hf

theorem feed_append (p : Prog α) (h1 h2 : List Act) :
    p.feed (h1 ++ h2) = (p.feed h1).bind (fun q => q.feed h2) := by
  induction h1 generalizing p with
  | nil => simp
  | cons x h1 ih =>
    cases p with
    | ret a => rfl
    | raise e => rfl
    | call o k =>
      obtain ⟨xo, xr⟩ := x
      by_cases he : xo = o
      · subst he; simp [ih]
      · simp [Prog.feed, he]

theorem feed_bind {p : Prog α} {f : α → Prog β} {h : List Act} {q : Prog β}
    (hf : (p.bind f).feed h = some q) :
    (∃ p', p.feed h = some p' ∧ (∀ a, p' ≠ .ret a) ∧ q = p'.bind f) ∨
    (∃ h1 h2 a, h = h1 ++ h2 ∧ p.feed h1 = some (.ret a) ∧ (f a).feed h2 = some q) := by
  induction h generalizing p with
  | nil =>
    cases p with
    | ret a => exact .inr ⟨[], [], a, rfl, rfl, by simpa using hf⟩
    | raise e => exact .inl ⟨_, rfl, fun a => nofun, by simpa using hf.symm⟩
    | call o k => exact .inl ⟨_, rfl, fun a => nofun, by simpa using hf.symm⟩
  | cons x h ih =>
    cases p with
    | ret a => exact .inr ⟨[], x :: h, a, rfl, rfl, by simpa using hf⟩
    | raise e => simp at hf
    | call o k =>
      obtain ⟨r, rfl, hr⟩ := feed_call_cons hf
      rcases ih hr with ⟨p', h1, h2, h3⟩ | ⟨h1, h2, a, rfl, ha, hq⟩
      · exact .inl ⟨p', by simpa using h1, h2, h3⟩
      · exact .inr ⟨⟨o, r⟩ :: h1, h2, a, rfl, by simpa using ha, hq⟩

theorem feed_bind_of {p : Prog α} {f : α → Prog β} {h1 h2 : List Act} {a : α} {q : Prog β}
    (h : p.feed h1 = some (.ret a)) (hq : (f a).feed h2 = some q) :
    (p.bind f).feed (h1 ++ h2) = some q := by
  induction h1 generalizing p with
  | nil => simp only [feed_nil, Option.some.injEq] at h; subst h; simpa using hq
  | cons x h1 ih =>
    cases p with
    | ret a => simp at h
    | raise e => simp at h
    | call o k =>
      obtain ⟨r, rfl, hr⟩ := feed_call_cons h
      simpa using ih hr

theorem feed_try {p : Prog α} {hd : PyErr → Option (Prog α)} {h : List Act} {q : Prog α}
    (hf : (p.tryExcept hd).feed h = some q) :
    (∃ p', p.feed h = some p' ∧ (∀ e, p' = .raise e → hd e = none) ∧ q = p'.tryExcept hd) ∨
    (∃ h1 h2 e p', h = h1 ++ h2 ∧ p.feed h1 = some (.raise e) ∧ hd e = some p' ∧
      p'.feed h2 = some q) := by
  induction h generalizing p with
  | nil =>
    cases p with
    | ret a => exact .inl ⟨_, rfl, fun e => nofun, by simpa using hf.symm⟩
    | raise e =>
      cases he : hd e with
      | none => exact .inl ⟨_, rfl, fun e' h => by cases h; exact he, by simpa using hf.symm⟩
      | some p' =>
        refine .inr ⟨[], [], e, p', rfl, rfl, he, ?_⟩
        simpa [Prog.tryExcept, he] using hf
    | call o k => exact .inl ⟨_, rfl, fun e => nofun, by simpa using hf.symm⟩
  | cons x h ih =>
    cases p with
    | ret a => simp [Prog.tryExcept] at hf
    | raise e =>
      cases he : hd e with
      | none => simp [Prog.tryExcept, he] at hf
      | some p' =>
        refine .inr ⟨[], x :: h, e, p', rfl, rfl, he, ?_⟩
        simpa [Prog.tryExcept, he] using hf
    | call o k =>
      obtain ⟨r, rfl, hr⟩ := feed_call_cons hf
      rcases ih hr with ⟨p', h1, h2, h3⟩ | ⟨h1, h2, e, p', rfl, he, hp, hq⟩
      · exact .inl ⟨p', by simpa using h1, h2, h3⟩
      · exact .inr ⟨⟨o, r⟩ :: h1, h2, e, p', rfl, by simpa using he, hp, hq⟩

/-! ## Returned, raised, running -/

theorem returns_ret {a b : α} {h : List Act} : Returns (.ret a) h b ↔ h = [] ∧ a = b := by
  cases h <;> simp [Returns]

theorem returns_raise {e : PyErr} {b : α} {h : List Act} : ¬ Returns (.raise e : Prog α) h b := by
  cases h <;> simp [Returns]

theorem raises_ret {a : α} {e : PyErr} {h : List Act} : ¬ Raises (.ret a) h e := by
  cases h <;> simp [Raises]

theorem raises_raise {e e' : PyErr} {h : List Act} :
    Raises (.raise e : Prog α) h e' ↔ h = [] ∧ e = e' := by
  cases h <;> simp [Raises]

theorem runs_ret {a : α} {h : List Act} : Runs (.ret a) h ↔ h = [] := by
  cases h <;> simp [Runs]

theorem runs_raise {e : PyErr} {h : List Act} : Runs (.raise e : Prog α) h ↔ h = [] := by
  cases h <;> simp [Runs]

theorem returns_bind {p : Prog α} {f : α → Prog β} {h : List Act} {b : β} :
    Returns (p >>= f) h b ↔ ∃ h1 h2 a, h = h1 ++ h2 ∧ Returns p h1 a ∧ Returns (f a) h2 b := by
  constructor
  · intro hr
    rcases feed_bind hr with ⟨p', h1, h2, h3⟩ | ⟨h1, h2, a, rfl, h3, h4⟩
    · cases p' with
      | ret a => exact absurd rfl (h2 a)
      | raise e => cases h3
      | call o k => cases h3
    · exact ⟨h1, h2, a, rfl, h3, h4⟩
  · rintro ⟨h1, h2, a, rfl, h3, h4⟩
    exact feed_bind_of h3 h4

theorem raises_bind {p : Prog α} {f : α → Prog β} {h : List Act} {e : PyErr}
    (hr : Raises (p >>= f) h e) :
    Raises p h e ∨ ∃ h1 h2 a, h = h1 ++ h2 ∧ Returns p h1 a ∧ Raises (f a) h2 e := by
  rcases feed_bind hr with ⟨p', h1, h2, h3⟩ | ⟨h1, h2, a, rfl, h3, h4⟩
  · cases p' with
    | ret a => exact absurd rfl (h2 a)
    | raise e' => cases h3; exact .inl h1
    | call o k => cases h3
  · exact .inr ⟨h1, h2, a, rfl, h3, h4⟩

theorem runs_bind {p : Prog α} {f : α → Prog β} {h : List Act} (hr : Runs (p >>= f) h) :
    Runs p h ∨ ∃ h1 h2 a, h = h1 ++ h2 ∧ Returns p h1 a ∧ Runs (f a) h2 := by
  obtain ⟨q, hq⟩ := hr
  rcases feed_bind hq with ⟨p', h1, h2, h3⟩ | ⟨h1, h2, a, rfl, h3, h4⟩
  · exact .inl ⟨p', h1⟩
  · exact .inr ⟨h1, h2, a, rfl, h3, q, h4⟩

theorem returns_try {p : Prog α} {hd : PyErr → Option (Prog α)} {h : List Act} {a : α}
    (hr : Returns (p.tryExcept hd) h a) :
    Returns p h a ∨ ∃ h1 h2 e p', h = h1 ++ h2 ∧ Raises p h1 e ∧ hd e = some p' ∧ Returns p' h2 a := by
  rcases feed_try hr with ⟨p', h1, h2, h3⟩ | ⟨h1, h2, e, p', rfl, h3, h4, h5⟩
  · cases p' with
    | ret a' => cases h3; exact .inl h1
    | raise e => rw [Prog.tryExcept, h2 e rfl] at h3; cases h3
    | call o k => cases h3
  · exact .inr ⟨h1, h2, e, p', rfl, h3, h4, h5⟩

theorem raises_try {p : Prog α} {hd : PyErr → Option (Prog α)} {h : List Act} {e : PyErr}
    (hr : Raises (p.tryExcept hd) h e) :
    (Raises p h e ∧ hd e = none) ∨
    ∃ h1 h2 e' p', h = h1 ++ h2 ∧ Raises p h1 e' ∧ hd e' = some p' ∧ Raises p' h2 e := by
  rcases feed_try hr with ⟨p', h1, h2, h3⟩ | ⟨h1, h2, e, p', rfl, h3, h4, h5⟩
  · cases p' with
    | ret a' => cases h3
    | raise e' =>
      have hn := h2 e' rfl
      rw [Prog.tryExcept, hn] at h3
      cases h3
      exact .inl ⟨h1, hn⟩
    | call o k => cases h3
  · exact .inr ⟨h1, h2, e, p', rfl, h3, h4, h5⟩

theorem runs_try {p : Prog α} {hd : PyErr → Option (Prog α)} {h : List Act}
    (hr : Runs (p.tryExcept hd) h) :
    Runs p h ∨ ∃ h1 h2 e p', h = h1 ++ h2 ∧ Raises p h1 e ∧ hd e = some p' ∧ Runs p' h2 := by
  obtain ⟨q, hq⟩ := hr
  rcases feed_try hq with ⟨p', h1, h2, h3⟩ | ⟨h1, h2, e, p', rfl, h3, h4, h5⟩
  · exact .inl ⟨p', h1⟩
  · exact .inr ⟨h1, h2, e, p', rfl, h3, h4, q, h5⟩

theorem Spec.Returns.runs {p : Prog α} {h : List Act} {a : α} (hr : Returns p h a) : Runs p h := ⟨_, hr⟩
theorem Spec.Raises.runs {p : Prog α} {h : List Act} {e : PyErr} (hr : Raises p h e) : Runs p h := ⟨_, hr⟩

end

theorem returns_op {o : Op} {h : List Act} {a : o.Ans} :
    Returns (Prog.op o) h a ↔ h = [⟨o, .ok a⟩] := by
  constructor
  · intro hr
    match h, hr with
    | [], hr => simp [Returns, Prog.op] at hr
    | x :: h, hr =>
      obtain ⟨r, rfl, hk⟩ := feed_call_cons hr
      cases r with
      | error e => exact absurd hk (returns_raise (h := h))
      | ok b =>
        obtain ⟨rfl, rfl⟩ := returns_ret.mp hk
        rfl
  · rintro rfl
    simp [Returns, Prog.op]

theorem raises_op {o : Op} {h : List Act} {e : PyErr} :
    Raises (Prog.op o) h e ↔ h = [⟨o, .error e⟩] := by
  constructor
  · intro hr
    match h, hr with
    | [], hr => simp [Raises, Prog.op] at hr
    | x :: h, hr =>
      obtain ⟨r, rfl, hk⟩ := feed_call_cons hr
      cases r with
      | error e =>
        obtain ⟨rfl, rfl⟩ := raises_raise.mp hk
        rfl
      | ok b => exact absurd hk raises_ret
  · rintro rfl
    simp [Raises, Prog.op]

theorem runs_op {o : Op} {h : List Act} (hr : Runs (Prog.op o) h) : h = [] ∨ ∃ r, h = [⟨o, r⟩] := by
  match h, hr with
  | [], _ => exact .inl rfl
  | x :: h, ⟨q, hr⟩ =>
    obtain ⟨r, rfl, hk⟩ := feed_call_cons hr
    cases r with
    | error e => exact .inr ⟨.error e, by rw [runs_raise.mp ⟨_, hk⟩]⟩
    | ok b => exact .inr ⟨.ok b, by rw [runs_ret.mp ⟨_, hk⟩]⟩

theorem returns_request {sub : Subsystem} {command : String} {p : Payload} {e : Option (List Int)}
    {h : List Act} {r : Option Obj} :
    Returns (Prog.request sub command p e) h r ↔ h = [⟨.request sub command p e, .ok r⟩] :=
  returns_op (o := .request sub command p e)

theorem raises_request {sub : Subsystem} {command : String} {p : Payload} {e : Option (List Int)}
    {h : List Act} {x : PyErr} :
    Raises (Prog.request sub command p e) h x ↔ h = [⟨.request sub command p e, .error x⟩] :=
  raises_op (o := .request sub command p e)

theorem runs_request {sub : Subsystem} {command : String} {p : Payload} {e : Option (List Int)}
    {h : List Act} (hr : Runs (Prog.request sub command p e) h) :
    h = [] ∨ ∃ r, h = [⟨.request sub command p e, r⟩] :=
  runs_op (o := .request sub command p e) hr

/-! ## Which operations a coroutine can do -/

/-- All operations of the coroutine satisfy `P`. -/
def Only {α : Type} (P : Op → Prop) (p : Prog α) : Prop := ∀ h, Runs p h → ∀ a ∈ h, P a.op

section
variable {α β : Type} {P : Op → Prop}

theorem only_ret (a : α) : Only P (.ret a) := fun h hr => by rw [runs_ret.mp hr]; exact fun a ha => absurd ha List.not_mem_nil
theorem only_pure (a : α) : Only P (pure a : Prog α) := only_ret a
theorem only_raise (e : PyErr) : Only P (.raise e : Prog α) :=
  fun h hr => by rw [runs_raise.mp hr]; exact fun a ha => absurd ha List.not_mem_nil

theorem only_op {o : Op} (ho : P o) : Only P (Prog.op o) := by
  intro h hr
  rcases runs_op hr with rfl | ⟨r, rfl⟩
  · exact fun a ha => absurd ha List.not_mem_nil
  · intro a ha
    rw [List.mem_singleton.mp ha]
    exact ho

theorem only_bind {p : Prog α} {f : α → Prog β} (hp : Only P p) (hf : ∀ a, Only P (f a)) :
    Only P (p >>= f) := by
  intro h hr
  rcases runs_bind hr with h1 | ⟨h1, h2, a, rfl, h3, h4⟩
  · exact hp h h1
  · intro x hx
    rcases List.mem_append.mp hx with hx | hx
    · exact hp h1 h3.runs x hx
    · exact hf a h2 h4 x hx

theorem only_try {p : Prog α} {hd : PyErr → Option (Prog α)} (hp : Only P p)
    (hf : ∀ e p', hd e = some p' → Only P p') : Only P (p.tryExcept hd) := by
  intro h hr
  rcases runs_try hr with h1 | ⟨h1, h2, e, p', rfl, h3, h4, h5⟩
  · exact hp h h1
  · intro x hx
    rcases List.mem_append.mp hx with hx | hx
    · exact hp h1 h3.runs x hx
    · exact hf e p' h4 h2 h5 x hx

theorem only_lift (r : Except PyErr α) : Only P (Prog.lift r) := by
  cases r
  · exact only_raise _
  · exact only_ret _

theorem only_field (r : Option Obj) (k : String) : Only P (Prog.field r k) := by
  cases r
  · exact only_raise _
  · exact only_lift _

theorem only_ite {c : Prop} [Decidable c] {p q : Prog α} (hp : Only P p) (hq : Only P q) :
    Only P (if c then p else q) := by
  split
  · exact hp
  · exact hq

end

theorem only_validate {P : Op → Prop} {item : Payload} {sub : Subsystem} {command : String}
    {e : Option (List Int)} (h : P (.request sub command item e)) :
    Only P (validateItem item sub command e) :=
  only_bind (only_op h) fun _ => only_bind (only_field _ _) fun _ => only_bind (only_lift _) fun _ =>
    only_ite (only_raise _) (only_pure _)

/-! ## `validate_item` -/

theorem returns_lift {α : Type} {r : Except PyErr α} {h : List Act} {a : α} :
    Returns (Prog.lift r) h a ↔ h = [] ∧ r = .ok a := by
  cases r with
  | ok b => rw [Prog.lift, returns_ret]; simp
  | error e => simp [Prog.lift, returns_raise]

theorem raises_lift {α : Type} {r : Except PyErr α} {h : List Act} {e : PyErr} :
    Raises (Prog.lift r) h e ↔ h = [] ∧ r = .error e := by
  cases r with
  | ok b => simp [Prog.lift, raises_ret]
  | error e => rw [Prog.lift, raises_raise]; simp

theorem returns_field {r : Option Obj} {k : String} {h : List Act} {v : Val} :
    Returns (Prog.field r k) h v ↔ h = [] ∧ ∃ o, r = some o ∧ o.payload.lookup k = some v := by
  cases r with
  | none => simp [Prog.field, returns_raise]
  | some o =>
    rw [Prog.field, returns_lift]
    unfold dictGet
    cases hl : o.payload.lookup k <;> simp [hl]

theorem raises_field {r : Option Obj} {k : String} {h : List Act} {e : PyErr}
    (hr : Raises (Prog.field r k) h e) : h = [] ∧ e ≠ .assertionError := by
  cases r with
  | none =>
    obtain ⟨h1, h2⟩ := raises_raise.mp hr
    exact ⟨h1, by rw [← h2]; exact nofun⟩
  | some o =>
    obtain ⟨h1, h2⟩ := raises_lift.mp hr
    refine ⟨h1, ?_⟩
    unfold dictGet at h2
    cases hl : o.payload.lookup k <;> rw [hl] at h2 <;> cases h2
    exact nofun

theorem validate_returns {item : Payload} {sub : Subsystem} {command : String}
    {e : Option (List Int)} {h : List Act} {u : Unit}
    (hr : Returns (validateItem item sub command e) h u) :
    ∃ o v, h = [⟨.request sub command item e, .ok (some o)⟩] ∧
      o.payload.lookup "value" = some v ∧ item.lookup "value" = some v := by
  obtain ⟨h1, h2, r, rfl, h3, h4⟩ := returns_bind.mp hr
  replace h3 := returns_request.mp h3
  obtain ⟨h5, h6, got, rfl, h7, h8⟩ := returns_bind.mp h4
  obtain ⟨rfl, o, rfl, hv⟩ := returns_field.mp h7
  obtain ⟨h9, h10, want, rfl, h11, h12⟩ := returns_bind.mp h8
  obtain ⟨rfl, hw⟩ := returns_lift.mp h11
  have hw' : item.lookup "value" = some want := by
    unfold dictGet at hw
    cases hl : item.lookup "value" <;> rw [hl] at hw <;> cases hw
    rfl
  split at h12
  · exact absurd h12 returns_raise
  · next hne =>
    obtain ⟨rfl, -⟩ := returns_ret.mp h12
    refine ⟨o, got, by rw [h3]; rfl, hv, ?_⟩
    rw [hw', Decidable.not_not.mp hne]

theorem validate_raises {item : Payload} {sub : Subsystem} {command : String}
    {e : Option (List Int)} {h : List Act} {x : PyErr}
    (hr : Raises (validateItem item sub command e) h x) :
    ∃ r, h = [⟨.request sub command item e, r⟩] ∧
      (x = .assertionError → (∃ v, item.lookup "value" = some v) → r = .error .assertionError ∨
        ∃ o v w, r = .ok (some o) ∧ o.payload.lookup "value" = some v ∧
          item.lookup "value" = some w ∧ v ≠ w) := by
  rcases raises_bind hr with h1 | ⟨h1, h2, r, rfl, h3, h4⟩
  · replace h1 := raises_request.mp h1
    exact ⟨.error x, h1, fun hx _ => .inl (by rw [hx])⟩
  · replace h3 := returns_request.mp h3
    subst h3
    rcases raises_bind h4 with h5 | ⟨h5, h6, got, rfl, h7, h8⟩
    · obtain ⟨rfl, hne⟩ := raises_field h5
      exact ⟨.ok r, rfl, fun hx => absurd hx hne⟩
    · obtain ⟨rfl, o, rfl, hv⟩ := returns_field.mp h7
      rcases raises_bind h8 with h9 | ⟨h9, h10, want, rfl, h11, h12⟩
      · obtain ⟨rfl, hw⟩ := raises_lift.mp h9
        refine ⟨.ok (some o), rfl, fun hx ⟨v, hv⟩ => ?_⟩
        rw [dictGet, hv] at hw
        cases hw
      · obtain ⟨rfl, hw⟩ := returns_lift.mp h11
        have hw' : item.lookup "value" = some want := by
          unfold dictGet at hw
          cases hl : item.lookup "value" <;> rw [hl] at hw <;> cases hw
          rfl
        split at h12
        · next hne =>
          obtain ⟨rfl, -⟩ := raises_raise.mp h12
          exact ⟨.ok (some o), rfl, fun _ _ => .inr ⟨o, got, want, rfl, hv, hw', hne⟩⟩
        · exact absurd h12 raises_ret

/-- `p` is a check of the stick's memory: it returns only if `c` holds, raises `AssertionError` only if
not, and leaves the memory alone. -/
def Checks (p : Prog Unit) (c : Nv → Prop) : Prop :=
  ∀ (R : Nv → Nv → Prop) (m m' : Nv) (h : List Act), (∀ a ∈ h, Genuine a) → Stores R m h m' →
    (∀ u, Returns p h u → m' = m ∧ c m) ∧ (Raises p h .assertionError → m' = m ∧ ¬ c m)

theorem checks_validate {item : Payload} {sub : Subsystem} {command : String}
    {e : Option (List Int)} {id : Nat} {want : List UInt8}
    (hread : ∀ (R : Nv → Nv → Prop) (m m' : Nv) r, NvStep R m ⟨.request sub command item e, r⟩ m' →
      m' = m ∧ ∀ o, response ⟨.request sub command item e, r⟩ = some o →
        o.payload.lookup "value" = some (.bytes ((m id).getD [])))
    (hw : item.lookup "value" = some (.bytes want)) (hne : want ≠ []) :
    Checks (validateItem item sub command e) (fun m => m id = some want) := by
  intro R m m' h hg hs
  constructor
  · intro u hr
    obtain ⟨o, v, rfl, hv, hi⟩ := validate_returns hr
    obtain ⟨h1, h2⟩ := hread _ _ _ _ (stores_one.mp hs)
    refine ⟨h1, ?_⟩
    have := h2 o rfl
    rw [hv, ← hi, hw] at this
    cases hm : m id with
    | none => rw [hm] at this; simp only [Option.some.injEq, Val.bytes.injEq] at this; exact absurd this hne
    | some b =>
      rw [hm] at this
      simp only [Option.some.injEq, Val.bytes.injEq, Option.getD_some] at this
      rw [this]; exact hm
  · intro hr
    obtain ⟨r, rfl, hx⟩ := validate_raises hr
    obtain ⟨h1, h2⟩ := hread _ _ _ _ (stores_one.mp hs)
    refine ⟨h1, ?_⟩
    rcases hx rfl ⟨_, hw⟩ with rfl | ⟨o, v, w, rfl, hv, hi, hvw⟩
    · exact absurd rfl (hg _ (.head _)).1
    · have := h2 o rfl
      rw [hv] at this
      rw [hw] at hi
      cases hi
      cases this
      intro hm
      rw [hm] at hvw
      exact hvw rfl

theorem checks_seq {p q : Prog Unit} {c d : Nv → Prop} (hp : Checks p c) (hq : Checks q d) :
    Checks (p >>= fun _ => q) (fun m => c m ∧ d m) := by
  intro R m m' h hg hs
  constructor
  · intro u hr
    obtain ⟨h1, h2, a, rfl, h3, h4⟩ := returns_bind.mp hr
    obtain ⟨m1, h5, h6⟩ := stores_append.mp hs
    obtain ⟨rfl, hc⟩ := (hp R _ _ _ (fun a ha => hg a (List.mem_append_left _ ha)) h5).1 _ h3
    obtain ⟨rfl, hd⟩ := (hq R _ _ _ (fun a ha => hg a (List.mem_append_right _ ha)) h6).1 _ h4
    exact ⟨rfl, hc, hd⟩
  · intro hr
    rcases raises_bind hr with h3 | ⟨h1, h2, a, rfl, h3, h4⟩
    · obtain ⟨rfl, hc⟩ := (hp R _ _ _ hg hs).2 h3
      exact ⟨rfl, fun h => hc h.1⟩
    · obtain ⟨m1, h5, h6⟩ := stores_append.mp hs
      obtain ⟨rfl, hc⟩ := (hp R _ _ _ (fun a ha => hg a (List.mem_append_left _ ha)) h5).1 _ h3
      obtain ⟨rfl, hd⟩ := (hq R _ _ _ (fun a ha => hg a (List.mem_append_right _ ha)) h6).2 h4
      exact ⟨rfl, fun h => hd h.2⟩

theorem flag_lt' (version : Int) : flagId version < 65536 := by
  have := (flag_lt version).2
  omega

theorem checks_flag (version : Int) :
    Checks (validateItem (Items.znpHasConfigured version) .SYS "osalNvRead" (some [0, 2]))
      (fun m => m (flagId version) = some [0x55]) :=
  checks_validate (fun _ _ _ _ h => step_read (rFlag version _) (flag_lt' version) h) rfl (by decide)

theorem checks_chan (c : UInt32) :
    Checks (validateItem (Items.channelList c)) (fun m => m 0x84 = some (le32 c.toNat)) :=
  checks_validate (fun _ _ _ _ h => step_read (rChan c _) (by decide) h)
    (by rw [← le32_leBytes]; rfl) (by simp [le32])

theorem checks_dist (b : Bool) :
    Checks (validateItem (Items.networkKeyDistribute b)) (fun m => m 0x63 = some [if b then 1 else 0]) :=
  checks_validate (fun _ _ _ _ h => step_read (rDist b _) (by decide) h)
    (by rw [← dist_value]; rfl) (by simp)

theorem checks_key (version : Int) {o : Options} (ho : WellFormed o) :
    Checks (validateKey version o) (fun m => m 0x62 = some o.networkKey) := by
  have hne : o.networkKey ≠ [] := by
    intro h
    have := ho.key
    rw [h] at this
    cases this
  unfold validateKey
  split
  · exact checks_validate (fun _ _ _ _ h => step_read (rKey _ _) (by decide) h) rfl hne
  · exact checks_validate (fun _ _ _ _ h => step_configRead (rKey12 _ _) (by decide) h) rfl hne

theorem checks_pan (pan : UInt16) :
    Checks (validateItem (Items.panID pan)) (fun m => m 0x83 = some (le16 pan.toNat)) :=
  checks_validate (fun _ _ _ _ h => step_read (rPan pan _) (by decide) h)
    (by rw [← pan_value]; rfl) (by simp [le16])

theorem checks_ext {x : List UInt8} (hx : x.length = 8) :
    Checks (validateItem (Items.extendedPanID x)) (fun m => m 0x2D = some x) :=
  checks_validate (fun _ _ _ _ h => step_read (rExt x _) (by decide) h) rfl (by
    intro h
    rw [h] at hx
    cases hx)

/-- What `validatePan` accepts. -/
def PanOk (version : Int) (o : Options) (m : Nv) : Prop :=
  (m 0x83 = some (le16 o.panID.toNat) ∧ m 0x2D = some o.extendedPanID) ∨
  ¬ (version = 1 ∨ version = 2) ∨ m 0x83 = some [0xFF, 0xFF]

theorem checks_panOk (version : Int) {o : Options} (ho : WellFormed o) :
    Checks (validatePan version o) (PanOk version o) := by
  have hb := checks_seq (checks_pan o.panID) (checks_ext ho.ext)
  intro R m m' h hg hs
  constructor
  · intro u hr
    rcases returns_try hr with h1 | ⟨h1, h2, e, p', rfl, h3, h4, h5⟩
    · obtain ⟨rfl, hc⟩ := (hb R m m' h hg hs).1 _ h1
      exact ⟨rfl, .inl hc⟩
    · obtain ⟨m1, h6, h7⟩ := stores_append.mp hs
      split at h4
      · next he =>
        subst he
        cases h4
        obtain ⟨rfl, hc⟩ := (hb R m m1 h1 (fun a ha => hg a (List.mem_append_left _ ha)) h6).2 h3
        split at h5
        · next hver =>
          obtain ⟨h8, h9, r, rfl, h10, h11⟩ := returns_bind.mp h5
          cases returns_request.mp h10
          obtain ⟨h12, h13, v, rfl, h14, h15⟩ := returns_bind.mp h11
          obtain ⟨rfl, ob, rfl, hv⟩ := returns_field.mp h14
          split at h15
          · next hvv =>
            obtain ⟨rfl, -⟩ := returns_ret.mp h15
            obtain ⟨h16, h17⟩ := step_read (rPan _ _) (by decide) (stores_one.mp h7)
            have h18 := h17 ob rfl
            rw [hv, hvv] at h18
            refine ⟨h16, .inr (.inr ?_)⟩
            cases hm : m1 0x83 with
            | none => rw [hm] at h18; cases h18
            | some b =>
              rw [hm] at h18
              simp only [Option.some.injEq, Val.bytes.injEq, Option.getD_some] at h18
              rw [h18]
          · exact absurd h15 returns_raise
        · next hver =>
          obtain ⟨rfl, -⟩ := returns_ret.mp h5
          cases h7
          exact ⟨rfl, .inr (.inl fun h => hver h.symm)⟩
      · cases h4
  · intro hr
    rcases raises_try hr with ⟨h1, h2⟩ | ⟨h1, h2, e, p', rfl, h3, h4, h5⟩
    · cases h2
    · obtain ⟨m1, h6, h7⟩ := stores_append.mp hs
      split at h4
      · next he =>
        subst he
        cases h4
        obtain ⟨rfl, hc⟩ := (hb R m m1 h1 (fun a ha => hg a (List.mem_append_left _ ha)) h6).2 h3
        split at h5
        · next hver =>
          rcases raises_bind h5 with h8 | ⟨h8, h9, r, rfl, h10, h11⟩
          · cases raises_request.mp h8
            exact absurd rfl (hg _ (List.mem_append_right _ (.head _))).1
          · cases returns_request.mp h10
            obtain ⟨h16, h17⟩ := stores_append.mp h7
            obtain ⟨rfl, h19⟩ := step_read (rPan _ _) (by decide) (stores_one.mp h17.1)
            rcases raises_bind h11 with h12 | ⟨h12, h13, v, rfl, h14, h15⟩
            · exact absurd rfl (raises_field h12).2
            · obtain ⟨rfl, ob, rfl, hv⟩ := returns_field.mp h14
              split at h15
              · exact absurd h15 raises_ret
              · next hvv =>
                obtain ⟨rfl, -⟩ := raises_raise.mp h15
                cases h17.2
                refine ⟨rfl, ?_⟩
                have h18 := h19 ob rfl
                rw [hv] at h18
                cases h18
                rintro (hh | hh | hh)
                · exact hc hh
                · exact hh hver.symm
                · rw [hh] at hvv; exact hvv rfl
        · exact absurd h5 raises_ret
      · cases h4

/-- The stick's memory passes all checks. -/
def Kept (version : Int) (o : Options) (m : Nv) : Prop :=
  m (flagId version) = some [0x55] ∧ m 0x84 = some (le32 o.channelList.toNat) ∧
  m 0x63 = some [if o.networkKeyDistribute then 1 else 0] ∧ m 0x62 = some o.networkKey ∧
  PanOk version o m

theorem needs_returns {R : Nv → Nv → Prop} {version : Int} {o : Options} (ho : WellFormed o)
    {m m' : Nv} {h : List Act} {b : Bool} (hg : ∀ a ∈ h, Genuine a) (hs : Stores R m h m')
    (hr : Returns (needsToBeInitialised version o) h b) :
    m' = m ∧ (b = true ↔ ¬ Kept version o m) := by
  have hc := checks_seq (checks_flag version) (checks_seq (checks_chan o.channelList)
    (checks_seq (checks_dist o.networkKeyDistribute) (checks_seq (checks_key version ho)
      (checks_panOk version ho))))
  have hassoc : (do
      validateItem (Items.znpHasConfigured version) (expected := some [0, 2])
      validateItem (Items.channelList o.channelList)
      validateItem (Items.networkKeyDistribute o.networkKeyDistribute)
      validateKey version o
      validatePan version o
      return false : Prog Bool) = ((do
      validateItem (Items.znpHasConfigured version) (expected := some [0, 2])
      validateItem (Items.channelList o.channelList)
      validateItem (Items.networkKeyDistribute o.networkKeyDistribute)
      validateKey version o
      validatePan version o : Prog Unit) >>= fun _ => return false) := by
    simp only [prog_assoc]
  unfold needsToBeInitialised at hr
  rw [hassoc] at hr
  rcases returns_try hr with h1 | ⟨h1, h2, e, p', rfl, h3, h4, h5⟩
  · obtain ⟨h2, h3, u, rfl, h4, h5⟩ := returns_bind.mp h1
    obtain ⟨rfl, rfl⟩ := returns_ret.mp h5
    rw [List.append_nil] at hs hg
    obtain ⟨rfl, hk⟩ := (hc R _ _ _ hg hs).1 _ h4
    exact ⟨rfl, by simpa [Kept] using hk⟩
  · split at h4
    · next he =>
      subst he
      cases h4
      obtain ⟨rfl, rfl⟩ := returns_ret.mp h5
      rw [List.append_nil] at hs hg
      rcases raises_bind h3 with h6 | ⟨h6, h7, u, rfl, h8, h9⟩
      · obtain ⟨rfl, hk⟩ := (hc R _ _ _ hg hs).2 h6
        exact ⟨rfl, by simp only [true_iff]; exact hk⟩
      · exact absurd h9 raises_ret
    · cases h4

end Zcc
