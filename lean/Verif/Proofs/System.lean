import Verif.Spec.System
import Verif.Proofs.Boot
import Verif.Proofs.DriverLed

/-! # Start-up in the whole driver -/

namespace Zcc

open Spec

/-! ## A coroutine waits only for waiters it asked for -/

/-- `wait` was preceded by `waitFor`: a waiter that was not asked for has no time limit (`Takes` with an
enormous one). -/
structure OwnWaits (c : Client Unit) : Prop where
  waits : ∀ w r, (⟨.wait w, r⟩ : Act) ∈ c.hist → ∃ m to, (⟨.waitFor m to, .ok w⟩ : Act) ∈ c.hist
  rest : ((∃ k, c.prog = .call .connect k ∧ ∀ L r, Takes L (k r) 502000) ∧ c.hist = []) ∨
    ∃ L B, Takes L c.prog B ∧ B ≤ 502000 ∧
      ∀ w, L w ≤ 502000 → ∃ m to, (⟨.waitFor m to, .ok w⟩ : Act) ∈ c.hist

theorem ownWaits_step {c : Client Unit} (h : OwnWaits c) (ev : ClientEvent) : OwnWaits (c.step ev) := by
  have same : ∀ c' : Client Unit, c'.prog = c.prog → c'.hist = c.hist → OwnWaits c' := by
    intro c' h1 h2
    exact ⟨by rw [h2]; exact h.waits, by rw [h1, h2]; exact h.rest⟩
  generalize hc : c.step ev = c'
  have hs : Stepped c ev c' := hc ▸ client_stepped c ev
  cases hs with
  | same h1 h2 h3 h4 => exact same c' h2 h3
  | event e he h1 h2 h3 h4 => exact same c' h2 h3
  | submit hp hn ho h1 h2 h3 h4 => exact same c' h2 h3
  | wait hp h1 h2 h3 h4 => exact same c' h2 h3
  | ended hp he h2 h3 h4 =>
    rename_i op k r
    rcases h.rest with ⟨⟨k', hk, ht⟩, hh⟩ | ⟨L, B, ht, hB, hL⟩
    · rw [hp] at hk
      cases hk
      refine ⟨?_, .inr ⟨fun _ => 502001, 502000, ?_, Nat.le_refl _, fun w (hw : 502001 ≤ 502000) => absurd hw (by omega)⟩⟩
      · intro w r' hm
        rw [h3, hh] at hm
        simp at hm
      · rw [h2]; exact ht _ r
    · rw [hp] at ht
      have keep : ∀ w, L w ≤ 502000 → ∃ m to, (⟨.waitFor m to, .ok w⟩ : Act) ∈ c'.hist := by
        intro w hw
        obtain ⟨m, to, hm⟩ := hL w hw
        exact ⟨m, to, by rw [h3]; exact List.mem_append_left _ hm⟩
      have waits : (∀ w, op = .wait w → L w ≤ 502000) →
          ∀ w r, (⟨.wait w, r⟩ : Act) ∈ c'.hist → ∃ m to, (⟨.waitFor m to, .ok w⟩ : Act) ∈ c'.hist := by
        intro hw w r' hm
        rw [h3] at hm
        rcases List.mem_append.mp hm with hm | hm
        · obtain ⟨m, to, hm⟩ := h.waits w r' hm
          exact ⟨m, to, by rw [h3]; exact List.mem_append_left _ hm⟩
        · have hm := List.mem_singleton.mp hm
          exact keep w (hw w (congrArg Act.op hm).symm)
      generalize c'.api = a at he
      cases ht with
      | request hb hk => exact ⟨waits (by intro w h; cases h), .inr ⟨L, _, h2 ▸ hk r, by omega, keep⟩⟩
      | spawn hb hk =>
        cases he
        exact ⟨waits (by intro w h; cases h), .inr ⟨L, _, h2 ▸ hk, by omega, keep⟩⟩
      | @waitFor _ m timeout _ _ hk =>
        cases he
        refine ⟨waits (by intro w h; cases h), .inr ⟨_, _, h2 ▸ hk _, hB, fun w hw => ?_⟩⟩
        by_cases hww : w = c.api.waiterId
        · subst hww
          exact ⟨m, timeout, by rw [h3]; exact List.mem_append_right _ (List.mem_singleton.mpr rfl)⟩
        · rw [upd_other _ _ hww] at hw
          exact keep w hw
      | wait hb hk =>
        refine ⟨waits (by intro w h; cases h; omega), .inr ⟨L, _, h2 ▸ hk r, by omega, keep⟩⟩
      | semaphore hk =>
        cases he
        exact ⟨waits (by intro w h; cases h), .inr ⟨L, _, h2 ▸ hk, hB, keep⟩⟩
      | coordinator hk =>
        cases he
        exact ⟨waits (by intro w h; cases h), .inr ⟨L, _, h2 ▸ hk, hB, keep⟩⟩

theorem ownWaits_run (o : Options) (autoForm : Bool) (evs : List ClientEvent) :
    OwnWaits (Client.run (startup o autoForm) evs) := by
  have : ∀ (evs : List ClientEvent) (c : Client Unit), OwnWaits c → OwnWaits (evs.foldl Client.step c) := by
    intro evs
    induction evs with
    | nil => intro c h; exact h
    | cons e evs ih => intro c h; exact ih _ (ownWaits_step h e)
  obtain ⟨k, hs, ht⟩ := takes_startup o autoForm
  refine this evs { prog := startup o autoForm } ⟨fun w r h => (nomatch h), .inl ⟨⟨k, hs, ht⟩, rfl⟩⟩

/-! ## The coroutine and the application -/

/-- The waiter exists, and the coroutine did not ask for it. -/
def Foreign (c : Client Unit) (w : Nat) : Prop :=
  w < c.api.waiterId ∧ ∀ m to, (⟨.waitFor m to, .ok w⟩ : Act) ∉ c.hist

/-- The coroutine on the `i`th API object of the application, as an execution of its own. -/
structure Joint (F : Prop) (p : Prog Unit) (i : Nat) (s : AppSys) (c : Client Unit)
    (evs : List ClientEvent) : Prop where
  run : c = Client.run p evs
  api : c.api = s.api i
  inv : AInv s
  used : F → ∀ o w e, .api (.submit o (some w) e) ∈ evs → Foreign c w
  held : ∀ (n : Nat) k o w, s.tasks[n]? = some k → k.pc = .waiting o (some (i, w)) → Foreign c w

theorem Foreign.later {c c' : Client Unit} {w : Nat} (h : Foreign c w) (hw : c.api.waiterId ≤ c'.api.waiterId)
    (hh : c'.hist = c.hist) : Foreign c' w :=
  ⟨Nat.lt_of_lt_of_le h.1 hw, by rw [hh]; exact h.2⟩

theorem ownSteps_append (a b : List ClientEvent) : ownSteps (a ++ b) = ownSteps a ++ ownSteps b :=
  List.filter_append ..

theorem joint_app {F : Prop} {p : Prog Unit} {i : Nat} {s : AppSys} {c : Client Unit} {evs : List ClientEvent}
    (j : Joint F p i s c evs) (ev : AppEvent)
    (h1 : F → ∀ o w e, ev ≠ .api i (.submit o (some w) e))
    (h2 : F → ∀ n, ev = .enter n → s.cur = i → ∀ k o l w, s.tasks[n]? = some k →
      k.pc = .waiting o (some (l, w)) → l = i) :
    ∃ more, ownSteps more = [] ∧ Joint F p i (s.step ev) { c with api := (s.step ev).api i } (evs ++ more) := by
  have inv' := j.inv.step ev
  have hw : c.api.waiterId ≤ ((s.step ev).api i).waiterId := by
    rw [j.api]
    rcases app_api_step s ev i with h | ⟨x, -, h⟩
    · rw [h]; exact Nat.le_refl _
    · rw [h]; exact (grows_step _ x).wid
  have held : ∀ (n : Nat) k o w, (s.step ev).tasks[n]? = some k → k.pc = .waiting o (some (i, w)) →
      Foreign { c with api := (s.step ev).api i } w := by
    intro n k o w hk hpc
    have lt : w < ((s.step ev).api i).waiterId := by
      have := (inv'.tasks k (List.mem_of_getElem? hk)).pc
      rw [hpc] at this
      exact (inv'.api i).wait.extLt w (this.2.2 i w rfl)
    refine ⟨lt, ?_⟩
    have old : ∀ k0, s.tasks[n]? = some k0 → ∀ m to, (⟨.waitFor m to, .ok w⟩ : Act) ∉ c.hist := by
      intro k0 hk0
      obtain ⟨k', hk', -, -, hw'⟩ := (app_tasks_step j.inv ev).1 n k0 hk0
      rw [hk] at hk'
      cases hk'
      exact (j.held n k0 o w hk0 (hw' o _ hpc)).2
    rcases hn : s.tasks[n]? with _ | k0
    · rcases (app_tasks_step j.inv ev).2 with hl | ⟨cc, k', -, ht, -, hq⟩
      · have := List.getElem?_eq_none_iff.mp hn
        rw [List.getElem?_eq_none_iff.mpr (by omega)] at hk
        cases hk
      · rw [ht] at hk
        have hle := List.getElem?_eq_none_iff.mp hn
        rw [List.getElem?_append_right hle] at hk
        have hk' : k = k' := (List.mem_singleton.mp (List.mem_of_getElem? hk))
        subst hk'
        obtain ⟨hi, hwid⟩ := hq o i w hpc
        intro m to hm
        have hlim := limit_inv p evs
        rw [← j.run] at hlim
        have := (hlim.reg m to w hm).2.1
        rw [j.api, hi] at this
        omega
    · exact old k0 hn
  rcases app_api_step s ev i with h | ⟨x, hx, h⟩
  · refine ⟨[], rfl, ?_, rfl, inv', ?_, held⟩
    · rw [List.append_nil, h, ← j.api]; exact j.run
    · intro hF o w e hm
      rw [List.append_nil] at hm
      exact (j.used hF o w e hm).later hw rfl
  · refine ⟨[.api x], rfl, ?_, rfl, inv', ?_, held⟩
    · rw [client_snoc, ← j.run, h, ← j.api]; rfl
    · intro hF o w e hm
      rcases List.mem_append.mp hm with hm | hm
      · exact (j.used hF o w e hm).later hw rfl
      · have hm := List.mem_singleton.mp hm
        injection hm with hm
        cases hx with
        | api => subst hm; exact absurd rfl (h1 hF _ _ _)
        | enter n k o' y hk hpc hs hcur =>
          rcases y with _ | ⟨l, v⟩
          · cases hm
          · cases hm
            have := h2 hF n rfl hcur k o l v hk hpc
            subst this
            exact (j.held n k o v hk hpc).later hw rfl
        | _ => cases hm

theorem joint_apps {F : Prop} {p : Prog Unit} {i : Nat} (moves : List AppEvent) :
    ∀ {s : AppSys} {c : Client Unit} {evs : List ClientEvent}, Joint F p i s c evs →
    (F → ∀ o w e, .api i (.submit o (some w) e) ∉ moves) →
    (F → ∀ a n b, moves = a ++ .enter n :: b → (s.run a).cur = i → ∀ k o l w, (s.run a).tasks[n]? = some k →
      k.pc = .waiting o (some (l, w)) → l = i) →
    ∃ more, ownSteps more = [] ∧ Joint F p i (s.run moves) { c with api := (s.run moves).api i } (evs ++ more) := by
  induction moves with
  | nil =>
    intro s c evs j _ _
    refine ⟨[], rfl, ?_⟩
    rw [List.append_nil]
    have : ({ c with api := (s.run []).api i } : Client Unit) = c := by
      show ({ c with api := s.api i } : Client Unit) = c
      rw [← j.api]
    rw [this]; exact j
  | cons ev moves ih =>
    intro s c evs j h1 h2
    obtain ⟨m1, o1, j1⟩ := joint_app j ev (fun hF o w e he => h1 hF o w e (he ▸ .head _))
      (fun hF n he => h2 hF [] n moves (by rw [he]; rfl))
    obtain ⟨m2, o2, j2⟩ := ih j1 (fun hF o w e hm => h1 hF o w e (.tail _ hm))
      (fun hF a n b he => h2 hF (ev :: a) n b (by rw [he]; rfl))
    refine ⟨m1 ++ m2, ?_, ?_⟩
    · rw [ownSteps_append, o1, o2]; rfl
    · rw [← List.append_assoc]; exact j2

/-- What a step of the coroutine does in the API. -/
theorem step_use (c : Client Unit) (ev : ClientEvent) (hev : ∀ e, ev ≠ .api e) :
    ∃ x, (c.step ev).api = c.api.step x ∧ ∀ i, OfStartup i (.sys (.api i x)) := by
  have same : ∀ c' : Client Unit, c'.api = c.api → ∃ x, c'.api = c.api.step x ∧ ∀ i, OfStartup i (.sys (.api i x)) :=
    fun c' h => ⟨.tick 0, h, fun i => ⟨rfl, rfl⟩⟩
  generalize hc : c.step ev = c'
  have hs : Stepped c ev c' := hc ▸ client_stepped c ev
  cases hs with
  | same h1 h2 h3 h4 => exact same c' h1
  | event e he h1 h2 h3 h4 =>
    rcases he with he | ⟨o, rfl⟩ | ⟨t, -, rfl, -⟩
    · exact absurd he (hev e)
    · exact ⟨_, h1, fun i => ⟨rfl, rfl⟩⟩
    · exact ⟨_, h1, fun i => ⟨rfl, trivial⟩⟩
  | submit hp hn ho h1 h2 h3 h4 => exact ⟨_, h1, fun i => ⟨rfl, rfl⟩⟩
  | wait hp h1 h2 h3 h4 => exact same c' h1
  | ended hp he h2 h3 h4 =>
    rename_i op k r
    generalize ha : c'.api = a at he
    generalize (⟨op, r⟩ : Act) = act at he
    cases he with
    | waitFor => exact ⟨_, rfl, fun i => ⟨rfl, rfl⟩⟩
    | late => exact ⟨_, rfl, fun i => ⟨rfl, trivial⟩⟩
    | interrupted => exact ⟨_, rfl, fun i => ⟨rfl, trivial⟩⟩
    | _ => exact ⟨.tick 0, rfl, fun i => ⟨rfl, rfl⟩⟩

/-- A waiter that is not the coroutine's is not taken by it. -/
theorem foreign_step {c : Client Unit} {w : Nat} (h : Foreign c w) (ev : ClientEvent) : Foreign (c.step ev) w := by
  generalize hc : c.step ev = c'
  have hs : Stepped c ev c' := hc ▸ client_stepped c ev
  have ge : ∀ x, c'.api = c.api.step x → c.api.waiterId ≤ c'.api.waiterId := by
    intro x hx; rw [hx]; exact (grows_step _ x).wid
  cases hs with
  | same h1 h2 h3 h4 => exact h.later (by rw [h1]; exact Nat.le_refl _) h3
  | event e he h1 h2 h3 h4 => exact h.later (ge _ h1) h3
  | submit hp hn ho h1 h2 h3 h4 => exact h.later (ge _ h1) h3
  | wait hp h1 h2 h3 h4 => exact h.later (by rw [h1]; exact Nat.le_refl _) h3
  | ended hp he h2 h3 h4 =>
    rename_i op k r
    have hle : c.api.waiterId ≤ c'.api.waiterId := by
      generalize ha : c'.api = a at he
      generalize (⟨op, r⟩ : Act) = act at he
      cases he with
      | waitFor => exact (grows_step _ _).wid
      | late => exact (grows_step _ _).wid
      | interrupted => exact (grows_step _ _).wid
      | _ => exact Nat.le_refl _
    refine ⟨Nat.lt_of_lt_of_le h.1 hle, fun m to hm => ?_⟩
    rw [h3] at hm
    rcases List.mem_append.mp hm with hm | hm
    · exact h.2 m to hm
    · have hm := List.mem_singleton.mp hm
      generalize c'.api = a at he
      rw [← hm] at he
      cases he
      exact Nat.lt_irrefl _ h.1

theorem joint_client {F : Prop} {p : Prog Unit} {i : Nat} {s : AppSys} {c : Client Unit} {evs : List ClientEvent}
    (j : Joint F p i s c evs) (ev : ClientEvent) (hev : ∀ e, ev ≠ .api e) :
    ∃ x, OfStartup i (.sys (.api i x)) ∧ (c.step ev).api = (s.api i).step x ∧
      AppSys.settle { s with api := upd s.api i (c.step ev).api } = s.step (.api i x) ∧
      Joint F p i (s.step (.api i x)) (c.step ev) (evs ++ [ev]) := by
  obtain ⟨x, hx, ho⟩ := step_use c ev hev
  rw [j.api] at hx
  have e1 : AppSys.settle { s with api := upd s.api i (c.step ev).api } = s.step (.api i x) := by
    rw [hx]; rfl
  refine ⟨x, ho i, hx, e1, by rw [client_snoc, ← j.run], ?_, j.inv.step _, ?_, ?_⟩
  · rw [hx]; exact (upd_same _ _ _).symm
  · intro hF o w e hm
    rcases List.mem_append.mp hm with hm | hm
    · exact foreign_step (j.used hF o w e hm) ev
    · exact absurd (List.mem_singleton.mp hm).symm (hev _)
  · intro n k o w hk hpc
    refine foreign_step ?_ ev
    rcases hn : s.tasks[n]? with _ | k0
    · rcases (app_tasks_step j.inv (.api i x)).2 with hl | ⟨cc, k', h, -⟩
      · have := List.getElem?_eq_none_iff.mp hn
        rw [List.getElem?_eq_none_iff.mpr (by omega)] at hk
        cases hk
      · cases h
    · obtain ⟨k', hk', -, -, hw'⟩ := (app_tasks_step j.inv (.api i x)).1 n k0 hn
      rw [hk] at hk'
      cases hk'
      exact j.held n k0 o w hn (hw' o _ hpc)

/-! ## The driver -/

/-- What an event of the driver does: frames, an LED request, or itself. -/
theorem mem_moves {d : Driver} {e : DriverEvent} {m : AppEvent} (h : m ∈ d.moves e) :
    (∃ l f, m = .api l (.frame f)) ∨ (∃ l o, m = .api l (.submit o none none)) ∨
      (e = .sys m ∧ d.moves e = [m]) := by
  cases e with
  | bytes l chunk =>
    have h : m ∈ (if l ≤ d.sys.cur then _ else []) := h
    by_cases hl : l ≤ d.sys.cur
    · rw [if_pos hl] at h
      obtain ⟨f, -, hf⟩ := List.mem_map.mp h
      exact .inl ⟨l, f, hf.symm⟩
    · rw [if_neg hl] at h; cases h
  | led =>
    dsimp only [Driver.moves] at h
    split at h
    · cases h
    · split at h
      · exact .inr (.inl ⟨_, _, List.mem_singleton.mp h⟩)
      · cases h
  | devices ds => cases h
  | sys ev =>
    have : d.moves (.sys ev) = [ev] ∨ d.moves (.sys ev) = [] := by
      cases ev with
      | api l x => cases x <;> first | exact .inl rfl | exact .inr rfl
      | _ => exact .inl rfl
    rcases this with h' | h'
    · rw [h'] at h
      have := List.mem_singleton.mp h
      subst this
      exact .inr (.inr ⟨rfl, h'⟩)
    · rw [h'] at h; cases h

theorem joint_driver {F : Prop} {p : Prog Unit} {i : Nat} {d : Driver} {c : Client Unit} {evs : List ClientEvent}
    (j : Joint F p i d.sys c evs) (e : DriverEvent)
    (h1 : F → ∀ o w x, e ≠ .sys (.api i (.submit o (some w) x)))
    (h2 : F → ∀ n, e = .sys (.enter n) → d.sys.cur = i → ∀ k o l w, d.sys.tasks[n]? = some k →
      k.pc = .waiting o (some (l, w)) → l = i) :
    ∃ more, ownSteps more = [] ∧
      Joint F p i (d.step e).sys { c with api := (d.step e).sys.api i } (evs ++ more) := by
  rw [driver_step_sys]
  refine joint_apps _ j ?_ ?_
  · intro hF o w x hm
    rcases mem_moves hm with ⟨l, f, h⟩ | ⟨l, o', h⟩ | ⟨h, -⟩
    · cases h
    · cases h
    · exact h1 hF o w x h
  · intro hF a n b he
    rcases mem_moves (d := d) (e := e) (m := .enter n) (by rw [he]; simp) with ⟨l, f, h⟩ | ⟨l, o', h⟩ | ⟨h, h'⟩
    · cases h
    · cases h
    · rw [h'] at he
      cases a with
      | nil => exact h2 hF n h
      | cons x a =>
        have := congrArg List.length he
        simp at this

/-- Several events of `startup`. -/
theorem joint_group {F : Prop} {p : Prog Unit} {i : Nat} (group : List DriverEvent)
    (hg : ∀ x ∈ group, OfStartup i x) :
    ∀ {d : Driver} {c : Client Unit} {evs : List ClientEvent}, Joint F p i d.sys c evs →
    ∃ more, ownSteps more = [] ∧
      Joint F p i (d.run group).sys { c with api := (d.run group).sys.api i } (evs ++ more) := by
  induction group with
  | nil =>
    intro d c evs j
    refine ⟨[], rfl, ?_⟩
    rw [List.append_nil]
    have : ({ c with api := (d.run []).sys.api i } : Client Unit) = c := by
      show ({ c with api := d.sys.api i } : Client Unit) = c
      rw [← j.api]
    rw [this]; exact j
  | cons e group ih =>
    intro d c evs j
    obtain ⟨m1, o1, j1⟩ := joint_driver j e
      (fun _ o w x he => by have := hg e (.head _); subst he; cases this.2)
      (fun _ n he => by have := hg e (.head _); subst he; exact this.elim)
    obtain ⟨m2, o2, j2⟩ := ih (fun x hx => hg x (.tail _ hx)) j1
    refine ⟨m1 ++ m2, ?_, ?_⟩
    · rw [ownSteps_append, o1, o2]; rfl
    · rw [← List.append_assoc]; exact j2

theorem solo {i : Nat} {d d' : Driver} (e : DriverEvent) (h : OfStartup i e) (hd : d' = d.step e) :
    ∃ group, (∀ x ∈ group, OfStartup i x) ∧ d' = d.run group :=
  ⟨[e], fun x hx => by rw [List.mem_singleton.mp hx]; exact h, hd⟩

theorem learn_group (i : Nat) (h : List Act) (d : Driver) (a : Act) :
    ∃ group, (∀ x ∈ group, OfStartup i x) ∧ Driver.learn h d a = d.run group := by
  unfold Driver.learn
  split
  · split
    · exact solo (.sys (.newSemaphore _)) trivial rfl
    · exact ⟨[], fun x hx => (nomatch hx), rfl⟩
  · exact solo (.devices _) trivial rfl
  · exact ⟨[], fun x hx => (nomatch hx), rfl⟩

theorem learn_groups (i : Nat) (h : List Act) (as : List Act) : ∀ d : Driver,
    ∃ group, (∀ x ∈ group, OfStartup i x) ∧ as.foldl (Driver.learn h) d = d.run group := by
  induction as with
  | nil => intro d; exact ⟨[], fun x hx => (nomatch hx), rfl⟩
  | cons a as ih =>
    intro d
    obtain ⟨g1, h1, e1⟩ := learn_group i h d a
    obtain ⟨g2, h2, e2⟩ := ih (Driver.learn h d a)
    refine ⟨g1 ++ g2, fun x hx => (List.mem_append.mp hx).elim (h1 x) (h2 x), ?_⟩
    rw [driver_run_append, ← e1]; exact e2

theorem attach_group (s : System) (i : Nat) (e : ClientEvent) :
    ∃ group, (∀ x ∈ group, OfStartup i x) ∧ s.attach e = s.driver.run group := by
  unfold System.attach
  split
  · split
    · exact solo (.sys .newApi) trivial rfl
    · exact ⟨[], fun x hx => (nomatch hx), rfl⟩
  · exact ⟨[], fun x hx => (nomatch hx), rfl⟩

theorem system_port (s : System) (e : SystemEvent) : (s.step e).port = s.port := by
  unfold System.step
  split <;> rfl

/-- A step of `startup` in the driver. -/
theorem startup_step {F : Prop} {p : Prog Unit} {s : System} {evs : List ClientEvent}
    (j : Joint F p s.port s.driver.sys s.coroutine evs) (e : ClientEvent) (he : ∀ x, e ≠ .api x) :
    ∃ group more, (∀ x ∈ group, OfStartup s.port x) ∧ (s.step (.startup e)).driver = s.driver.run group ∧
      ownSteps more = [e] ∧
      Joint F p s.port (s.step (.startup e)).driver.sys (s.step (.startup e)).coroutine (evs ++ more) := by
  obtain ⟨g1, hg1, e1⟩ := attach_group s s.port e
  obtain ⟨m1, o1, j1⟩ := joint_group g1 hg1 j
  rw [← e1] at j1
  have j1 : Joint F p s.port (s.attach e).sys ({ s with driver := s.attach e } : System).coroutine (evs ++ m1) := j1
  obtain ⟨x, hx, ha, hs, j2⟩ := joint_client j1 e he
  generalize hc : ({ s with driver := s.attach e } : System).coroutine.step e = c at ha hs j2
  obtain ⟨g3, hg3, e3⟩ := learn_groups s.port c.hist (c.hist.drop s.hist.length) ((s.attach e).put s.port c.api)
  have hput : (s.attach e).put s.port c.api = (s.attach e).step (.sys (.api s.port x)) := by
    have : (s.attach e).step (.sys (.api s.port x)) =
        { s.attach e with sys := (s.attach e).sys.step (.api s.port x) } := by
      cases x <;> first | rfl | exact hx.2.elim
    rw [this, ← hs]; rfl
  have hstep : s.step (.startup e) = { s with
      driver := (c.hist.drop s.hist.length).foldl (Driver.learn c.hist) ((s.attach e).put s.port c.api)
      prog := c.prog, hist := c.hist, pend := c.pend, limit := c.limit, spawned := c.spawned } := by
    subst hc
    cases e with
    | api x => exact absurd rfl (he x)
    | _ => rfl
  have j2' : Joint F p s.port ((s.attach e).put s.port c.api).sys c (evs ++ m1 ++ [e]) := by
    rw [show ((s.attach e).put s.port c.api).sys = _ from hs]; exact j2
  obtain ⟨m3, o3, j3⟩ := joint_group g3 hg3 j2'
  rw [← e3] at j3
  refine ⟨g1 ++ (.sys (.api s.port x) :: g3), m1 ++ [e] ++ m3, ?_, ?_, ?_, ?_⟩
  · intro y hy
    rcases List.mem_append.mp hy with hy | hy
    · exact hg1 y hy
    · rcases List.mem_cons.mp hy with rfl | hy
      · exact hx
      · exact hg3 y hy
  · rw [hstep, driver_run_append, ← e1]
    show _ = ((s.attach e).step _).run g3
    rw [← hput]; exact e3
  · rw [ownSteps_append, ownSteps_append, o1, o3]
    cases e with
    | api x => exact absurd rfl (he x)
    | _ => rfl
  · rw [hstep]
    rw [← List.append_assoc, ← List.append_assoc]
    exact j3

theorem startupSteps_cons (e : SystemEvent) (es : List SystemEvent) :
    startupSteps (e :: es) = startupSteps [e] ++ startupSteps es := by
  unfold startupSteps
  rw [← ownSteps_append, ← List.filterMap_append]; rfl

theorem noStale_tail {s : System} {e : SystemEvent} {es : List SystemEvent} (h : NoStale s (e :: es)) :
    NoStale (s.step e) es := by
  refine ⟨fun o w x hm => ?_, fun before n after he => ?_⟩
  · rw [system_port] at hm; exact h.outside o w x (.tail _ hm)
  · rw [system_port]; exact h.turns (e :: before) n after (by rw [he]; rfl)

/-- An execution of the driver with `startup`, as one of each. -/
theorem system_run {F : Prop} {p : Prog Unit} (es : List SystemEvent) : ∀ {s : System} {evs : List ClientEvent},
    Joint F p s.port s.driver.sys s.coroutine evs → (F → NoStale s es) →
    ∃ ds more, Merged s.port es ds ∧ (s.run es).driver = s.driver.run ds ∧ ownSteps more = startupSteps es ∧
      (s.run es).port = s.port ∧
      Joint F p s.port (s.run es).driver.sys (s.run es).coroutine (evs ++ more) := by
  induction es with
  | nil => intro s evs j _; exact ⟨[], [], .nil, rfl, rfl, rfl, by rw [List.append_nil]; exact j⟩
  | cons e es ih =>
    intro s evs j hF
    have key : ∃ (m : List DriverEvent → List DriverEvent) (g : List DriverEvent) (more : List ClientEvent),
        (∀ {ds}, Merged s.port es ds → Merged s.port (e :: es) (g ++ ds)) ∧
        (s.step e).driver = s.driver.run g ∧ ownSteps more = startupSteps [e] ∧
        Joint F p s.port (s.step e).driver.sys (s.step e).coroutine (evs ++ more) := by
      refine ⟨id, ?_⟩
      cases e with
      | startup e =>
        by_cases ha : ∃ x, e = .api x
        · obtain ⟨x, rfl⟩ := ha
          exact ⟨[], [], fun h => .startup _ [] (fun x hx => (nomatch hx)) h, rfl, rfl,
            by rw [List.append_nil]; exact j⟩
        · have ha : ∀ x, e ≠ .api x := fun x hx => ha ⟨x, hx⟩
          obtain ⟨g, more, h1, h2, h3, h4⟩ := startup_step j e ha
          refine ⟨g, more, fun h => .startup e g h1 h, h2, ?_, h4⟩
          rw [h3]
          cases e with
          | api x => exact absurd rfl (ha x)
          | _ => rfl
      | driver e =>
        by_cases hE : Elsewhere e
        · have hstep : s.step (.driver e) = { s with driver := s.driver.step e } := by
            cases e with
            | sys ev =>
              cases ev with
              | newApi => exact hE.elim
              | newSemaphore _ => exact hE.elim
              | _ => rfl
            | _ => rfl
          obtain ⟨more, h1, h2⟩ := joint_driver j e
            (fun hf o w x he => (hF hf).outside o w x (he ▸ .head _))
            (fun hf n he hcur k o l w => (hF hf).turns [] n es (by rw [he]; rfl) k o l w hcur)
          refine ⟨[e], more, fun h => .driver e hE h, by rw [hstep]; rfl, h1, ?_⟩
          rw [hstep]; exact h2
        · have hstep : s.step (.driver e) = s := by
            cases e with
            | sys ev =>
              cases ev with
              | newApi => rfl
              | newSemaphore _ => rfl
              | _ => exact absurd trivial hE
            | _ => exact absurd trivial hE
          refine ⟨[], [], fun h => .none e hE h, by rw [hstep]; rfl, rfl, ?_⟩
          rw [hstep, List.append_nil]; exact j
    obtain ⟨-, g, more, k1, k2, k3, k4⟩ := key
    have hport := system_port s e
    rw [← hport] at k4
    obtain ⟨ds, more', r1, r2, r3, r4, r5⟩ := ih k4 fun hf => noStale_tail (hF hf)
    rw [hport] at r1 r4 r5
    refine ⟨g ++ ds, more ++ more', k1 r1, ?_, ?_, r4, ?_⟩
    · rw [driver_run_append, ← k2]; exact r2
    · rw [ownSteps_append, startupSteps_cons, k3, r3]
    · rw [← List.append_assoc]; exact r5

/-- Before `startup` is called. -/
theorem joint_init {F : Prop} (p : Prog Unit) (es : List DriverEvent) (i : Nat)
    (hi : (Driver.init.run es).sys.cur < i)
    (h : F → ∀ o w e, .sys (.api i (.submit o (some w) e)) ∉ es) :
    ∃ evs, ownSteps evs = [] ∧ Joint F p i (Driver.init.run es).sys
      { prog := p, api := (Driver.init.run es).sys.api i } evs := by
  have cur : ∀ (es : List DriverEvent) (d : Driver), d.sys.cur ≤ (d.run es).sys.cur := by
    intro es d
    rw [driver_run_sys]; exact cur_mono_run _ _
  suffices ∀ (es : List DriverEvent) {d : Driver} {c : Client Unit} {evs : List ClientEvent},
      Joint F p i d.sys c evs → (d.run es).sys.cur < i →
      (F → ∀ o w e, .sys (.api i (.submit o (some w) e)) ∉ es) →
      ∃ more, ownSteps more = [] ∧ Joint F p i (d.run es).sys { c with api := (d.run es).sys.api i } (evs ++ more) by
    obtain ⟨more, h1, h2⟩ := this es (d := Driver.init) (c := { prog := p }) (evs := [])
      ⟨rfl, rfl, ainv_init, fun _ _ _ _ hm => (nomatch hm), fun n k o w hk => by cases hk⟩ hi h
    exact ⟨more, h1, h2⟩
  intro es
  induction es with
  | nil =>
    intro d c evs j _ _
    refine ⟨[], rfl, ?_⟩
    rw [List.append_nil]
    have : ({ c with api := (d.run []).sys.api i } : Client Unit) = c := by
      show ({ c with api := d.sys.api i } : Client Unit) = c
      rw [← j.api]
    rw [this]; exact j
  | cons e es ih =>
    intro d c evs j hlt hn
    have hd : d.sys.cur < i := Nat.lt_of_le_of_lt (cur (e :: es) d) hlt
    obtain ⟨m1, o1, j1⟩ := joint_driver j e (fun hf o w x he => hn hf o w x (he ▸ .head _))
      (fun _ n _ hc => absurd hc (Nat.ne_of_lt hd))
    obtain ⟨m2, o2, j2⟩ := ih j1 hlt fun hf o w x hm => hn hf o w x (.tail _ hm)
    refine ⟨m1 ++ m2, ?_, ?_⟩
    · rw [ownSteps_append, o1, o2]; rfl
    · rw [← List.append_assoc]; exact j2

/-- Waiters of calls are not those that `startup` waits for. -/
theorem Joint.unshared {F : Prop} {o : Options} {autoForm : Bool} {i : Nat} {s : AppSys} {c : Client Unit}
    {evs : List ClientEvent} (j : Joint F (startup o autoForm) i s c evs) (hF : F) : Unshared evs c.hist := by
  intro ob w e hm r hr
  have h := ownWaits_run o autoForm evs
  rw [← j.run] at h
  obtain ⟨m, to, hw⟩ := h.waits w r hr
  exact (j.used hF ob w e hm).2 m to hw

/-! ## What `startup` leaves behind -/

theorem app_cur_fixed (s : AppSys) (e : AppEvent) (h : e ≠ .newApi) : (s.step e).cur = s.cur := by
  cases e with
  | newApi => exact absurd rfl h
  | call c =>
    rw [AppSys.step]; unfold AppSys.begin
    repeat' split
    all_goals rfl
  | enter n =>
    rw [AppSys.step]; unfold AppSys.enter
    repeat' split
    all_goals rfl
  | cancel n =>
    rw [AppSys.step]
    repeat' split
    all_goals rfl
  | wakeUp n =>
    rw [AppSys.step]
    repeat' split
    all_goals rfl
  | api j e => rfl
  | newSemaphore p => rfl

theorem chunk_keeps (i : Nat) (c : List UInt8) : ∀ (b : List UInt8) (s : AppSys) (a : App) (e : List Effect),
    Keeps a (Gateway.dataReceived (Driver.handler i) ⟨b, s, a, e⟩ c).1.api.2.1 := by
  induction c with
  | nil => intro b s a e; exact .refl a
  | cons x c ih =>
    intro b s a e
    unfold Gateway.dataReceived
    dsimp only
    rcases Parser.write b x with ⟨b', er | _ | f⟩
    · exact .refl a
    · exact ih b' s a e
    · dsimp only
      have hh : Driver.handler i (s, a, e) f = ((s.apiStep i (.frame f), (receive (s.api i) a f).2.app,
        e ++ (receive (s.api i) a f).2.effects), (receive (s.api i) a f).2.raised) := rfl
      have h1 := receive_keeps (s.api i) a f
      rw [hh]
      rcases (receive (s.api i) a f).2.raised with _ | er
      · exact h1.trans (ih b' _ _ _)
      · exact h1

/-- Connections, semaphores and the kind of the radio. -/
structure SamePlaces (d d' : Driver) : Prop where
  cur : d'.sys.cur = d.sys.cur
  nsem : d'.sys.nsem = d.sys.nsem
  limit : d'.sys.limit = d.sys.limit
  product : d'.app.product = d.app.product

theorem samePlaces_sys {s s' : AppSys} (es : List AppEvent) (h : s' = s.run es)
    (he : ∀ e ∈ es, e ≠ .newApi ∧ ∀ p, e ≠ .newSemaphore p) :
    s'.cur = s.cur ∧ s'.nsem = s.nsem ∧ s'.limit = s.limit := by
  subst h
  induction es generalizing s with
  | nil => exact ⟨rfl, rfl, rfl⟩
  | cons e es ih =>
    obtain ⟨h1, h2, h3⟩ := ih (s := s.step e) fun x hx => he x (.tail _ hx)
    obtain ⟨k1, k2⟩ := he e (.head _)
    obtain ⟨l1, l2⟩ := limits_step s e k2
    exact ⟨h1.trans (app_cur_fixed s e k1), h2.trans l1, h3.trans l2⟩

theorem samePlaces_step (d : Driver) (e : DriverEvent) (he : Elsewhere e) : SamePlaces d (d.step e) := by
  have h := samePlaces_sys (d.moves e) (driver_step_sys d e) (fun m hm => by
    rcases mem_moves hm with ⟨l, f, rfl⟩ | ⟨l, o, rfl⟩ | ⟨rfl, -⟩
    · exact ⟨nofun, nofun⟩
    · exact ⟨nofun, nofun⟩
    · exact ⟨fun h => by subst h; exact he, fun p h => by subst h; exact he⟩)
  refine ⟨h.1, h.2.1, h.2.2, ?_⟩
  rw [step_product]
  cases e with
  | sys ev =>
    cases ev with
    | newSemaphore p => exact he.elim
    | _ => rfl
  | _ => rfl

theorem keeps_step (d : Driver) (e : DriverEvent) (he : Elsewhere e) (hd : ∀ ds, e ≠ .devices ds) :
    Keeps d.app (d.step e).app := by
  cases e with
  | bytes i c =>
    show Keeps d.app (if i ≤ d.sys.cur then _ else _ : Driver).app
    split
    · exact chunk_keeps i c (d.buffer i) d.sys d.app []
    · exact .refl _
  | led =>
    unfold Driver.step
    dsimp only
    split
    · exact .refl _
    · split <;> exact .refl _
  | devices ds => exact absurd rfl (hd ds)
  | sys ev =>
    cases ev with
    | newSemaphore p => exact he.elim
    | api i e => cases e <;> exact .refl _
    | _ => exact .refl _

theorem semaphoresFor_cons (p : Option Int) (x : Act) (h : List Act) :
    semaphoresFor p (x :: h) = semaphoresFor p [x] ++ semaphoresFor (productAfter p x) h := by
  conv => lhs; unfold semaphoresFor
  split
  · rename_i heq; cases heq
  · rename_i heq; cases heq
    show _ = (p.toList ++ []) ++ semaphoresFor p h
    rw [List.append_nil]
  · rename_i v _ heq; cases heq
    show _ = (match v.payload.lookup "product" with | some (.int p') => [] | _ => []) ++
      semaphoresFor (match v.payload.lookup "product" with | some (.int p) => some p | _ => p) h
    generalize v.payload.lookup "product" = y
    rcases y with _ | y
    · rfl
    · cases y <;> rfl
  · rename_i h1 h2 heq; cases heq
    have e1 : semaphoresFor p [x] = [] := by
      unfold semaphoresFor
      split
      · rfl
      · rename_i heq; cases heq; exact absurd rfl (h1 _ _)
      · rename_i heq; cases heq; exact absurd rfl (h2 _)
      · rename_i heq; cases heq; rfl
    have e2 : productAfter p x = p := by
      unfold productAfter
      split
      · exact absurd rfl (h2 _)
      · rfl
    rw [e1, e2]; rfl

theorem semaphoresFor_snoc (a : Act) (h : List Act) : ∀ p : Option Int,
    semaphoresFor p (h ++ [a]) = semaphoresFor p h ++ semaphoresFor (h.foldl productAfter p) [a] := by
  induction h with
  | nil => intro p; rfl
  | cons x h ih =>
    intro p
    rw [List.cons_append, List.foldl_cons, semaphoresFor_cons p x (h ++ [a]), ih, semaphoresFor_cons p x h,
      List.append_assoc]

theorem learn_fold_product (h : List Act) : ∀ a : App, (h.foldl App.learn a).product = h.foldl productAfter a.product := by
  induction h with
  | nil => intro a; rfl
  | cons x h ih => intro a; rw [List.foldl_cons, List.foldl_cons, ih, learn_productAfter]

theorem client_hist_one {α : Type} (c : Client α) (ev : ClientEvent) : (c.step ev).hist = c.hist ∨
    ∃ op k r, c.prog = .call op k ∧ Ends c ev ⟨op, r⟩ (c.step ev).api ∧ (c.step ev).hist = c.hist ++ [⟨op, r⟩] := by
  cases client_stepped c ev with
  | same h1 h2 h3 h4 => exact .inl h3
  | event e he h1 h2 h3 h4 => exact .inl h3
  | submit hp hn ho h1 h2 h3 h4 => exact .inl h3
  | wait hp h1 h2 h3 h4 => exact .inl h3
  | ended hp he h2 h3 h4 => exact .inr ⟨_, _, _, hp, he, h3⟩

/-- What has become of the driver `d` after the operations `h`. -/
structure Made (d : Driver) (h : List Act) (d' : Driver) : Prop where
  cur : d'.sys.cur = d.sys.cur + connections h
  nsem : d'.sys.nsem = d.sys.nsem + (semaphoresFor none h).length
  limit : ∀ i p, (semaphoresFor none h)[i]? = some p → d'.sys.limit (d.sys.nsem + i) = if p = 1 then 16 else 2
  product : d'.app.product = (semaphoresFor none h).getLast?.or d.app.product

theorem Made.same {d d1 d2 : Driver} {h : List Act} (m : Made d h d1) (hs : SamePlaces d1 d2) : Made d h d2 :=
  ⟨hs.cur.trans m.cur, hs.nsem.trans m.nsem, fun i p hp => by rw [hs.limit]; exact m.limit i p hp,
    hs.product.trans m.product⟩

theorem connections_snoc (h : List Act) (a : Act) : connections (h ++ [a]) = connections h + connections [a] := by
  unfold connections; rw [List.countP_append]

theorem made_step {d : Driver} {s : System} (m : Made d s.hist s.driver) (e : SystemEvent) :
    Made d (s.step e).hist (s.step e).driver := by
  cases e with
  | driver e =>
    by_cases hE : Elsewhere e
    · have hstep : s.step (.driver e) = { s with driver := s.driver.step e } := by
        cases e with
        | sys ev =>
          cases ev with
          | newApi => exact hE.elim
          | newSemaphore _ => exact hE.elim
          | _ => rfl
        | _ => rfl
      rw [hstep]
      exact m.same (samePlaces_step s.driver e hE)
    · have hstep : s.step (.driver e) = s := by
        cases e with
        | sys ev =>
          cases ev with
          | newApi => rfl
          | newSemaphore _ => rfl
          | _ => exact absurd trivial hE
        | _ => exact absurd trivial hE
      rw [hstep]; exact m
  | startup e =>
    by_cases ha : ∃ x, e = .api x
    · obtain ⟨x, rfl⟩ := ha; exact m
    have he : ∀ x, e ≠ .api x := fun x hx => ha ⟨x, hx⟩
    generalize hc : ({ s with driver := s.attach e } : System).coroutine.step e = c
    have hstep : s.step (.startup e) = { s with
        driver := (c.hist.drop s.hist.length).foldl (Driver.learn c.hist) ((s.attach e).put s.port c.api)
        prog := c.prog, hist := c.hist, pend := c.pend, limit := c.limit, spawned := c.spawned } := by
      subst hc
      cases e with
      | api x => exact absurd rfl (he x)
      | _ => rfl
    rw [hstep]
    show Made d c.hist ((c.hist.drop s.hist.length).foldl (Driver.learn c.hist) ((s.attach e).put s.port c.api))
    have put : SamePlaces (s.attach e) ((s.attach e).put s.port c.api) := ⟨rfl, rfl, rfl, rfl⟩
    have off : (∀ u k, e = .connected (.ok u) → s.prog ≠ .call .connect k) → s.attach e = s.driver := by
      intro h
      unfold System.attach
      split
      · split
        · rename_i hp; exact absurd hp (h _ _ rfl)
        · rfl
      · rfl
    rcases client_hist_one ({ s with driver := s.attach e } : System).coroutine e with hh | ⟨op, k, r, hp, hE, hh⟩
    · rw [hc] at hh
      replace hh : c.hist = s.hist := hh
      rw [hh, List.drop_length, List.foldl_nil]
      refine Made.same ?_ put
      rw [off]
      · exact m
      · rintro u k rfl hp
        have : c.hist = s.hist ++ [⟨.connect, .ok u⟩] := by
          rw [← hc]
          unfold Client.step System.coroutine
          dsimp only
          rw [hp]; rfl
        rw [hh] at this
        have := congrArg List.length this
        simp at this
    · rw [hc] at hh hE
      replace hp : s.prog = .call op k := hp
      replace hh : c.hist = s.hist ++ [⟨op, r⟩] := hh
      have hd : c.hist.drop s.hist.length = [⟨op, r⟩] := by rw [hh, List.drop_left]
      rw [hd, List.foldl_cons, List.foldl_nil]
      have quiet : connections [⟨op, r⟩] = 0 → (∀ p, semaphoresFor p [⟨op, r⟩] = []) → s.attach e = s.driver →
          SamePlaces ((s.attach e).put s.port c.api)
            (Driver.learn c.hist ((s.attach e).put s.port c.api) ⟨op, r⟩) →
          Made d c.hist (Driver.learn c.hist ((s.attach e).put s.port c.api) ⟨op, r⟩) := by
        intro h1 h2 h3 h4
        refine Made.same (Made.same ?_ put) h4
        rw [h3]
        refine ⟨?_, ?_, ?_, ?_⟩
        · rw [hh, connections_snoc, h1]; exact m.cur
        · rw [hh, semaphoresFor_snoc, h2, List.append_nil]; exact m.nsem
        · rw [hh, semaphoresFor_snoc, h2, List.append_nil]; exact m.limit
        · rw [hh, semaphoresFor_snoc, h2, List.append_nil]; exact m.product
      have unconnected : op ≠ .connect → s.attach e = s.driver := by
        intro hop
        refine off fun u k' _ hp' => ?_
        rw [hp] at hp'
        cases hp'
        exact hop rfl
      cases op with
      | connect =>
        obtain rfl : e = .connected r := by
          generalize c.api = a at hE
          cases hE
          rfl
        rcases r with x | u
        · exact quiet rfl (fun _ => rfl) (off fun u k h => by cases h) ⟨rfl, rfl, rfl, rfl⟩
        · have hat : s.attach (.connected (.ok u)) = s.driver.step (.sys .newApi) := by
            unfold System.attach
            dsimp only
            rw [hp]
          show Made d c.hist ((s.attach _).put s.port c.api)
          refine Made.same (Eq.mp (congrArg (Made d c.hist) hat.symm) ?_) put
          have hs2 : ∀ p, semaphoresFor p [(⟨.connect, .ok u⟩ : Act)] = [] := fun _ => rfl
          refine ⟨?_, ?_, ?_, ?_⟩
          · rw [hh, connections_snoc]
            show s.driver.sys.cur + 1 = _
            rw [m.cur]; rfl
          · rw [hh, semaphoresFor_snoc, hs2, List.append_nil]; exact m.nsem
          · rw [hh, semaphoresFor_snoc, hs2, List.append_nil]; exact m.limit
          · rw [hh, semaphoresFor_snoc, hs2, List.append_nil]; exact m.product
      | semaphore n =>
        obtain rfl : r = .ok () := by
          generalize c.api = a at hE
          cases hE
          rfl
        have hk : (c.hist.foldl App.learn {}).product = s.hist.foldl productAfter none := by
          rw [learn_fold_product, hh, List.foldl_append]; rfl
        have hl : ∀ d0, Driver.learn c.hist d0 ⟨.semaphore n, .ok ()⟩ =
            match (c.hist.foldl App.learn {}).product with
            | some p => d0.step (.sys (.newSemaphore p))
            | none => d0 := fun _ => rfl
        rw [hl, hk, unconnected nofun]
        have m' : Made d s.hist (s.driver.put s.port c.api) := m.same ⟨rfl, rfl, rfl, rfl⟩
        generalize s.driver.put s.port c.api = d1 at m'
        have hsnoc : semaphoresFor none c.hist =
            semaphoresFor none s.hist ++ (s.hist.foldl productAfter none).toList := by
          rw [hh, semaphoresFor_snoc]
          congr 1
          show _ ++ [] = _
          rw [List.append_nil]
        have hcon : connections c.hist = connections s.hist := by rw [hh, connections_snoc]; rfl
        generalize s.hist.foldl productAfter none = q at hsnoc ⊢
        rcases q with _ | p
        · have hsnoc : semaphoresFor none c.hist = semaphoresFor none s.hist := by
            rw [hsnoc]; exact List.append_nil _
          exact ⟨by rw [hcon]; exact m'.cur, by rw [hsnoc]; exact m'.nsem, by rw [hsnoc]; exact m'.limit,
            by rw [hsnoc]; exact m'.product⟩
        · have hsnoc : semaphoresFor none c.hist = semaphoresFor none s.hist ++ [p] := hsnoc
          refine ⟨by rw [hcon]; exact m'.cur, ?_, ?_, ?_⟩
          · rw [hsnoc, List.length_append]
            show d1.sys.nsem + 1 = _
            rw [m'.nsem]; rfl
          · intro i q hi
            show upd d1.sys.limit d1.sys.nsem (concurrent p) (d.sys.nsem + i) = _
            rw [hsnoc] at hi
            by_cases hlt : i < (semaphoresFor none s.hist).length
            · rw [List.getElem?_append_left hlt] at hi
              rw [upd_other _ _ (by rw [m'.nsem]; omega)]
              exact m'.limit i q hi
            · rw [List.getElem?_append_right (by omega)] at hi
              have hi0 : i - (semaphoresFor none s.hist).length = 0 := by
                rcases hz : i - (semaphoresFor none s.hist).length with _ | z
                · rfl
                · rw [hz] at hi; cases hi
              rw [hi0] at hi
              cases hi
              rw [show d.sys.nsem + i = d1.sys.nsem by rw [m'.nsem]; omega, upd_same]
              rfl
          · rw [hsnoc, List.getLast?_append]; rfl
      | coordinator ieee nwk =>
        refine quiet (by cases r <;> rfl) (fun _ => by cases r <;> rfl) (unconnected nofun) ?_
        unfold Driver.learn
        split
        · rename_i h; cases h
        · exact ⟨rfl, rfl, rfl, rfl⟩
        · exact ⟨rfl, rfl, rfl, rfl⟩
      | request sub command payload expected =>
        refine quiet (by cases r <;> rfl) (fun p => ?_) (unconnected nofun) ⟨rfl, rfl, rfl, rfl⟩
        unfold semaphoresFor
        split
        · rfl
        · rename_i heq; cases heq
        · rename_i heq
          have hnil := (List.cons.inj heq).2
          rw [← hnil]
          split <;> rfl
        · rename_i heq; cases heq; rfl
      | _ => exact quiet (by cases r <;> rfl) (fun _ => by cases r <;> rfl) (unconnected nofun) ⟨rfl, rfl, rfl, rfl⟩

theorem made_run {d : Driver} (es : List SystemEvent) : ∀ {s : System}, Made d s.hist s.driver →
    Made d (s.run es).hist (s.run es).driver := by
  induction es with
  | nil => intro s h; exact h
  | cons e es ih => intro s h; exact ih (made_step h e)

/-- A step of `startup`, and the operation that ends with it. -/
theorem startup_learns (s : System) (e : ClientEvent) : ∃ d : Driver, d.app = s.driver.app ∧
    ((s.step (.startup e)).hist = s.hist ∧ (s.step (.startup e)).driver = d ∨
      ∃ a, (s.step (.startup e)).hist = s.hist ++ [a] ∧
        (s.step (.startup e)).driver = Driver.learn (s.hist ++ [a]) d a) := by
  by_cases ha : ∃ x, e = .api x
  · obtain ⟨x, rfl⟩ := ha; exact ⟨s.driver, rfl, .inl ⟨rfl, rfl⟩⟩
  have he : ∀ x, e ≠ .api x := fun x hx => ha ⟨x, hx⟩
  generalize hc : ({ s with driver := s.attach e } : System).coroutine.step e = c
  have hstep : s.step (.startup e) = { s with
      driver := (c.hist.drop s.hist.length).foldl (Driver.learn c.hist) ((s.attach e).put s.port c.api)
      prog := c.prog, hist := c.hist, pend := c.pend, limit := c.limit, spawned := c.spawned } := by
    subst hc
    cases e with
    | api x => exact absurd rfl (he x)
    | _ => rfl
  rw [hstep]
  refine ⟨(s.attach e).put s.port c.api, ?_, ?_⟩
  · show (s.attach e).app = s.driver.app
    unfold System.attach
    split
    · split <;> rfl
    · rfl
  · rcases client_hist_one ({ s with driver := s.attach e } : System).coroutine e with hh | ⟨op, k, r, -, -, hh⟩
    · rw [hc] at hh
      replace hh : c.hist = s.hist := hh
      left
      refine ⟨hh, ?_⟩
      show (c.hist.drop s.hist.length).foldl _ _ = _
      rw [hh, List.drop_length]; rfl
    · rw [hc] at hh
      replace hh : c.hist = s.hist ++ [⟨op, r⟩] := hh
      right
      refine ⟨⟨op, r⟩, hh, ?_⟩
      show (c.hist.drop s.hist.length).foldl _ _ = _
      rw [hh, List.drop_left]; rfl

theorem learn_keeps (h : List Act) (d : Driver) (a : Act) :
    ∀ i ∈ d.app.devices.map (·.ieee), i ∈ (Driver.learn h d a).app.devices.map (·.ieee) := by
  intro i hi
  unfold Driver.learn
  split
  · split <;> exact hi
  · exact (handleJoin_keeps d.app _ _).1.devices i hi
  · exact hi

theorem enrolled_step {s : System} (e : SystemEvent) (hn : ∀ ds, e ≠ .driver (.devices ds))
    (h : ∀ ieee nwk, (⟨.coordinator (.eui ieee) (.int nwk), .ok ()⟩ : Act) ∈ s.hist →
      ieee ∈ s.driver.app.devices.map (·.ieee)) :
    ∀ ieee nwk, (⟨.coordinator (.eui ieee) (.int nwk), .ok ()⟩ : Act) ∈ (s.step e).hist →
      ieee ∈ (s.step e).driver.app.devices.map (·.ieee) := by
  intro ieee nwk
  cases e with
  | driver e =>
    by_cases hE : Elsewhere e
    · have hstep : s.step (.driver e) = { s with driver := s.driver.step e } := by
        cases e with
        | sys ev =>
          cases ev with
          | newApi => exact hE.elim
          | newSemaphore _ => exact hE.elim
          | _ => rfl
        | _ => rfl
      rw [hstep]
      intro hm
      exact (keeps_step s.driver e hE fun ds hd => hn ds (by rw [hd])).devices _ (h ieee nwk hm)
    · have hstep : s.step (.driver e) = s := by
        cases e with
        | sys ev =>
          cases ev with
          | newApi => rfl
          | newSemaphore _ => rfl
          | _ => exact absurd trivial hE
        | _ => exact absurd trivial hE
      rw [hstep]; exact h ieee nwk
  | startup e =>
    obtain ⟨d, hd, ⟨hh, hs⟩ | ⟨a, hh, hs⟩⟩ := startup_learns s e
    · rw [hh, hs, hd]; exact h ieee nwk
    · rw [hh, hs]
      intro hm
      rcases List.mem_append.mp hm with hm | hm
      · exact learn_keeps _ d a _ (by rw [hd]; exact h ieee nwk hm)
      · rw [← List.mem_singleton.mp hm]
        exact (handleJoin_keeps d.app _ _).2

theorem enrolled_run (es : List SystemEvent) : ∀ {s : System}, (∀ ds, .driver (.devices ds) ∉ es) →
    (∀ ieee nwk, (⟨.coordinator (.eui ieee) (.int nwk), .ok ()⟩ : Act) ∈ s.hist →
      ieee ∈ s.driver.app.devices.map (·.ieee)) →
    ∀ ieee nwk, (⟨.coordinator (.eui ieee) (.int nwk), .ok ()⟩ : Act) ∈ (s.run es).hist →
      ieee ∈ (s.run es).driver.app.devices.map (·.ieee) := by
  induction es with
  | nil => intro s _ h; exact h
  | cons e es ih =>
    intro s hn h
    exact ih (fun ds hm => hn ds (.tail _ hm)) (enrolled_step e (fun ds hd => hn ds (hd ▸ .head _)) h)

theorem kept_step (s : System) (e : SystemEvent) (hn : ∀ ds, e ≠ .driver (.devices ds)) :
    ∀ i ∈ s.driver.app.devices.map (·.ieee), i ∈ (s.step e).driver.app.devices.map (·.ieee) := by
  cases e with
  | driver e =>
    by_cases hE : Elsewhere e
    · have hstep : (s.step (.driver e)).driver = s.driver.step e := by
        cases e with
        | sys ev =>
          cases ev with
          | newApi => exact hE.elim
          | newSemaphore _ => exact hE.elim
          | _ => rfl
        | _ => rfl
      rw [hstep]
      exact (keeps_step s.driver e hE fun ds hd => hn ds (by rw [hd])).devices
    · have hstep : s.step (.driver e) = s := by
        cases e with
        | sys ev =>
          cases ev with
          | newApi => rfl
          | newSemaphore _ => rfl
          | _ => exact absurd trivial hE
        | _ => exact absurd trivial hE
      rw [hstep]; exact fun _ h => h
  | startup e =>
    obtain ⟨d, hd, ⟨-, hs⟩ | ⟨a, -, hs⟩⟩ := startup_learns s e
    · rw [hs, hd]; exact fun _ h => h
    · rw [hs, ← hd]; exact learn_keeps _ d a

theorem kept_run (es : List SystemEvent) : ∀ s : System, (∀ ds, .driver (.devices ds) ∉ es) →
    ∀ i ∈ s.driver.app.devices.map (·.ieee), i ∈ (s.run es).driver.app.devices.map (·.ieee) := by
  induction es with
  | nil => intro s _ i h; exact h
  | cons e es ih =>
    intro s hn i hi
    exact ih (s.step e) (fun ds hm => hn ds (.tail _ hm)) i
      (kept_step s e (fun ds hd => hn ds (hd ▸ .head _)) i hi)

theorem handleJoin_address (a : App) (nwk : Int) (ieee : List UInt8) :
    ∃ x ∈ (a.handleJoin nwk ieee).devices, x.ieee = ieee ∧ x.nwk = nwk := by
  unfold App.handleJoin
  split
  · rename_i h
    obtain ⟨x, hx, hi⟩ := List.any_eq_true.mp h
    refine ⟨{ x with nwk }, List.mem_map.mpr ⟨x, hx, if_pos (of_decide_eq_true hi)⟩, of_decide_eq_true hi, rfl⟩
  · exact ⟨⟨ieee, nwk⟩, List.mem_append_right _ (.head _), rfl, rfl⟩

theorem sessions_snoc (ss : List Session) (x : Session) : Driver.sessions (ss ++ [x]) =
    ((System.init (Driver.sessions ss) x.options x.autoForm).run x.events).driver := by
  unfold Driver.sessions
  rw [List.foldl_append]; rfl

/-- A semaphore that was made stays and keeps its number of places. -/
theorem limits_kept : ∀ (es : List AppEvent) (s : AppSys) (g : Nat), g < s.nsem →
    g < (s.run es).nsem ∧ (s.run es).limit g = s.limit g := by
  intro es
  induction es with
  | nil => intro s g hg; exact ⟨hg, rfl⟩
  | cons ev es ih =>
    intro s g hg
    have one : g < (s.step ev).nsem ∧ (s.step ev).limit g = s.limit g := by
      by_cases hev : ∃ q, ev = .newSemaphore q
      · obtain ⟨q, rfl⟩ := hev
        exact ⟨Nat.lt_succ_of_lt hg, upd_other _ _ (Nat.ne_of_lt hg)⟩
      · obtain ⟨h1, h2⟩ := limits_step s ev fun q hq => hev ⟨q, hq⟩
        rw [h1, h2]; exact ⟨hg, rfl⟩
    obtain ⟨h1, h2⟩ := ih (s.step ev) g one.1
    exact ⟨h1, h2.trans one.2⟩

theorem Spec.SameCall.refl (k : AppTask) : SameCall k k := ⟨rfl, rfl, fun _ _ => rfl⟩

theorem Spec.SameCall.trans {k1 k2 k3 : AppTask} (h : SameCall k1 k2) (h' : SameCall k2 k3) : SameCall k1 k3 :=
  ⟨h'.call.trans h.call, h'.sem.trans h.sem, fun r hr => by
    have := h.ended r hr
    subst this
    exact h'.ended r hr⟩

theorem sameCall_settle (api : Nat → Api) (k : AppTask) : SameCall k (k.settle api) := by
  have h : ∀ pc, (∀ r, k.pc ≠ .done r) → SameCall k { k with pc := pc } :=
    fun pc h => ⟨rfl, rfl, fun r hr => absurd hr (h r)⟩
  unfold AppTask.settle
  split
  · rename_i i t hp
    have hn : ∀ r, k.pc ≠ .done r := fun r hr => by rw [hp] at hr; cases hr
    split
    · split
      · split
        · exact h _ hn
        · exact h _ hn
      · exact h _ hn
      · exact .refl k
    · exact .refl k
  · exact .refl k

/-- No call is lost. -/
theorem sameCall_step {s : AppSys} {n : Nat} {k : AppTask} (hk : s.tasks[n]? = some k) (e : AppEvent) :
    ∃ k', (s.step e).tasks[n]? = some k' ∧ SameCall k k' := by
  have settled : ∀ s' : AppSys, (∃ k1, s'.tasks[n]? = some k1 ∧ SameCall k k1) →
      ∃ k', s'.settle.tasks[n]? = some k' ∧ SameCall k k' := by
    rintro s' ⟨k1, h1, h2⟩
    refine ⟨k1.settle s'.api, ?_, h2.trans (sameCall_settle _ _)⟩
    show (s'.tasks.map _)[n]? = _
    rw [List.getElem?_map, h1]; rfl
  have put : ∀ m k0 (k1 : AppTask), s.tasks[m]? = some k0 → SameCall k0 k1 →
      ∃ k', (s.tasks.set m k1)[n]? = some k' ∧ SameCall k k' := by
    intro m k0 k1 h0 h1
    by_cases hm : m = n
    · subst hm
      rw [hk] at h0
      cases h0
      refine ⟨k1, ?_, h1⟩
      rw [List.getElem?_set_self (List.getElem?_eq_some_iff.mp hk).1]
    · exact ⟨k, by rw [List.getElem?_set_ne hm, hk], .refl k⟩
  have moved : ∀ {k0 k1 : AppTask}, (∀ r, k0.pc ≠ .done r) → k1.call = k0.call → k1.sem = k0.sem → SameCall k0 k1 :=
    fun hn h1 h2 => ⟨h1, h2, fun r hr => absurd hr (hn r)⟩
  have same : ∃ k', s.tasks[n]? = some k' ∧ SameCall k k' := ⟨k, hk, .refl k⟩
  have more : ∀ k1, ∃ k', (s.tasks ++ [k1])[n]? = some k' ∧ SameCall k k' := fun k1 =>
    ⟨k, by rw [List.getElem?_append_left (List.getElem?_eq_some_iff.mp hk).1, hk], .refl k⟩
  cases e with
  | api i e => exact settled { s with api := _ } same
  | call c =>
    show ∃ k', (s.begin c).tasks[n]? = some k' ∧ _
    unfold AppSys.begin
    split
    · exact more _
    · split
      · exact more _
      · split
        · exact more _
        · exact more _
  | enter m =>
    show ∃ k', (s.enter m).tasks[n]? = some k' ∧ _
    unfold AppSys.enter
    split
    · rename_i k0 h0
      split
      · rename_i o w hp
        split
        · exact same
        · exact settled _ (put m k0 _ h0 (moved (fun r hr => by rw [hp] at hr; cases hr) rfl rfl))
      · exact same
    · exact same
  | wakeUp m =>
    rw [AppSys.step]
    split
    · rename_i k0 h0
      split
      · rename_i hp
        split
        · exact put m k0 _ h0 (moved (fun r hr => by rw [hp] at hr; cases hr) rfl rfl)
        · exact same
      · exact same
    · exact same
  | cancel m =>
    rw [AppSys.step]
    split
    · rename_i k0 h0
      split
      · rename_i hp
        exact put m k0 _ h0 (moved (fun r hr => by rw [hp] at hr; cases hr) rfl rfl)
      · exact settled { s with api := _ } same
      · rename_i hp
        exact put m k0 _ h0 (moved (fun r hr => by rw [hp] at hr; cases hr) rfl rfl)
      · exact same
    · exact same
  | newApi => exact same
  | newSemaphore p => exact same

theorem sameCall_run {n : Nat} : ∀ (es : List AppEvent) (s : AppSys) (k : AppTask), s.tasks[n]? = some k →
    ∃ k', (s.run es).tasks[n]? = some k' ∧ SameCall k k'
  | [], _, k, h => ⟨k, h, .refl k⟩
  | e :: es, s, k, h => by
    obtain ⟨k1, h1, h2⟩ := sameCall_step h e
    obtain ⟨k2, h3, h4⟩ := sameCall_run es (s.step e) k1 h1
    exact ⟨k2, h3, h2.trans h4⟩

end Zcc
