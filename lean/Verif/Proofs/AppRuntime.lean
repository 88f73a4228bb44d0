import Verif.Proofs.Requests
import Verif.Proofs.Waiter2

/-!
# Invariants of the application's outgoing calls (helper lemmas)
-/

namespace Zcc

open Spec

set_option linter.unusedSimpArgs false

/-! ## Waiters that callers know are never forgotten -/

theorem ext_setPc (s : Api) (t : Nat) (pc : Pc) : (s.setPc t pc).ext = s.ext := by
  unfold Api.setPc; split <;> rfl

theorem ext_finish (s : Api) (t : Nat) (r : Except PyErr (Option Obj)) :
    (s.finish t r).ext = s.ext := ext_setPc _ _ _

theorem ext_uartSend {s s' : Api} {t : Nat} {f : Frame} (h : s.uartSend t f = .ok s') :
    s'.ext = s.ext := by
  unfold Api.uartSend at h
  split at h
  · split at h
    · simp at h
    · cases h; rfl
  · simp at h

theorem ext_start (s : Api) (t : Nat) (o : Obj) : (s.start t o).ext = s.ext := by
  unfold Api.start
  split
  · exact ext_finish _ _ _
  · split
    · dsimp only
      split
      · exact ext_finish _ _ _
      · rename_i h
        rw [ext_setPc, ext_uartSend h]; rfl
    · split
      · split
        · exact ext_finish _ _ _
        · rename_i h; rw [ext_finish, ext_uartSend h]
      · exact ext_finish _ _ _

theorem ext_grant (s : Api) : s.grant.ext = s.ext := by
  unfold Api.grant
  split
  · split
    · rw [ext_start, ext_setPc]
    · rfl
  · rfl

theorem ext_conclude (s : Api) (t : Nat) (k : Task) (o : Obj) : (s.conclude t k o).ext = s.ext := by
  unfold Api.conclude
  split
  · split
    · exact ext_finish _ _ _
    · split
      · exact ext_finish _ _ _
      · split
        · rw [ext_finish, (setResult_fields _ _ _).2.2.2.2.2.1]; rfl
        · exact ext_finish _ _ _
  · exact ext_finish _ _ _

theorem ext_step (s : Api) (e : Event) : ∀ w ∈ s.ext, w ∈ (s.step e).ext := by
  intro w hw
  have of_eq : (s.step e).ext = s.ext → w ∈ (s.step e).ext := fun h => h ▸ hw
  cases e with
  | submit o x y =>
    apply of_eq
    rw [Api.step]
    split
    · rw [ext_grant]; rfl
    · rfl
  | grant => exact of_eq (ext_grant s)
  | frame f => exact of_eq (dataReceived_fields s f).2.2.2.1
  | wake t =>
    apply of_eq
    rw [Api.step]
    split
    · split
      · split
        · exact ext_conclude _ _ _ _
        · rfl
      · rfl
    · rfl
  | timeout t =>
    apply of_eq
    rw [Api.step]
    split
    · split
      · split
        · exact ext_finish _ _ _
        · rfl
      · rfl
    · rfl
  | cancel t =>
    apply of_eq
    rw [Api.step]
    split
    · split
      · exact ext_setPc _ _ _
      · exact ext_finish _ _ _
      · rfl
    · rfl
  | timer v =>
    apply of_eq
    rw [Api.step]
    split
    · unfold Api.timerCallback
      split
      · rfl
      · rfl
    · rfl
  | tick ms => exact hw
  | setUart b => exact hw
  | register m to q => exact List.mem_cons_of_mem _ hw
  | registerResponse o q =>
    rw [Api.step]
    unfold Api.createResponseWaiter
    split
    · exact hw
    · exact hw
    · exact List.mem_cons_of_mem _ hw
  | abandon v =>
    apply of_eq
    rw [Api.step]
    split <;> rfl

/-! ## The invariants -/

/-- One set of APIs is later than another. -/
def Later (a b : Nat → Api) : Prop :=
  ∀ i, (a i).log <+: (b i).log ∧ ∀ w ∈ (a i).ext, w ∈ (b i).ext

theorem Later.refl (a : Nat → Api) : Later a a := fun _ => ⟨List.prefix_refl _, fun _ h => h⟩

theorem Later.step (a : Nat → Api) (i : Nat) (e : Event) : Later a (upd a i ((a i).step e)) := by
  intro j
  by_cases h : j = i
  · subst h
    rw [upd_same]
    exact ⟨(grows_step _ _).log, ext_step _ _⟩
  · rw [upd_other _ _ h]
    exact Later.refl a j

theorem Later.mem {a b : Nat → Api} (h : Later a b) {i : Nat} {x : Entry} (hx : x ∈ (a i).log) :
    x ∈ (b i).log := (h i).1.subset hx

/-- How an ended call of the application ended. -/
inductive CallEnded (api : Nat → Api) (k : AppTask) : Result → Prop
  | accepted (i t : Nat) (x : Option Obj) (hr : k.ran = some (i, t))
      (hf : .finished t (.ok x) ∈ (api i).log) : CallEnded api k k.call.success
  | failed (i t : Nat) (e : PyErr) (hr : k.ran = some (i, t))
      (hf : .finished t (.error e) ∈ (api i).log) : CallEnded api k (k.call.failure e)
  | cancelled (h : k.ran = none ∨ k.call.settles = true ∧
      ∃ i t x, k.ran = some (i, t) ∧ .finished t (.ok x) ∈ (api i).log) :
      CallEnded api k (.raised .cancelledError)
  | rejected (e : PyErr) (hr : k.ran = none)
      (h : k.call.obj = .error e ∨
        (∃ o q, k.call.obj = .ok o ∧ k.call.wantsReply = some q ∧ responseWaiter o (some q) = .error e) ∨
        e = .attributeError) : CallEnded api k (.raised (leaveCoroutine e))

/-- What is known of a call at its program point. -/
def PcInv (api : Nat → Api) (k : AppTask) : AppPc → Prop
  | .waiting o w => k.ran = none ∧ k.call.obj = .ok o ∧ ∀ i x, w = some (i, x) → x ∈ (api i).ext
  | .inApi i t => k.ran = some (i, t)
  | .sleeping i _ => k.call.settles = true ∧
      ∃ t x, k.ran = some (i, t) ∧ .finished t (.ok x) ∈ (api i).log
  | .done r => CallEnded api k r

structure TaskInv (api : Nat → Api) (k : AppTask) : Prop where
  ran : ∀ i t, k.ran = some (i, t) →
    ∃ o w, k.call.obj = .ok o ∧ .submitted t o w none ∈ (api i).log
  pc : PcInv api k k.pc

theorem TaskInv.later {a b : Nat → Api} (h : Later a b) {k : AppTask} (i : TaskInv a k) :
    TaskInv b k where
  ran j t hr := by
    obtain ⟨o, w, h1, h2⟩ := i.ran j t hr
    exact ⟨o, w, h1, h.mem h2⟩
  pc := by
    have := i.pc
    revert this
    generalize k.pc = pc
    intro hp
    match pc, hp with
    | .waiting o w, ⟨h1, h2, h3⟩ => exact ⟨h1, h2, fun j x hw => (h j).2 _ (h3 j x hw)⟩
    | .inApi j t, hp => exact hp
    | .sleeping j d, ⟨h0, t, x, h1, h2⟩ => exact ⟨h0, t, x, h1, h.mem h2⟩
    | .done r, hp =>
      cases hp with
      | accepted j t x hr hf => exact .accepted j t x hr (h.mem hf)
      | failed j t e hr hf => exact .failed j t e hr (h.mem hf)
      | cancelled hc =>
        refine .cancelled ?_
        rcases hc with hc | ⟨h0, j, t, x, h1, h2⟩
        · exact .inl hc
        · exact .inr ⟨h0, j, t, x, h1, h.mem h2⟩
      | rejected e hr h => exact .rejected e hr h

/-- The call is past the semaphore. -/
def AppTask.past (k : AppTask) : Bool :=
  match k.pc with
  | .inApi .. | .sleeping .. => true
  | _ => false

theorem inside_iff {g : Nat} {k : AppTask} : k.inside g = true ↔ k.sem = g ∧ k.past = true := by
  unfold AppTask.inside AppTask.past
  rewrite [Bool.and_eq_true, beq_iff_eq]
  cases k.pc <;> exact Iff.rfl

structure AInv (s : AppSys) : Prop where
  proj : ∀ i, ∃ es, s.api i = Api.init.run es
  tasks : ∀ k ∈ s.tasks, TaskInv s.api k
  sem : ∀ g, s.sem g + s.tasks.countP (AppTask.inside g) = s.limit g
  semLt : ∀ k ∈ s.tasks, (∀ r, k.pc ≠ .done r) → k.sem < s.nsem
  fresh : ∀ g, s.nsem ≤ g → s.limit g = 0
  nodup : (s.tasks.filterMap (·.ran)).Nodup

theorem AInv.api {s : AppSys} (i : AInv s) (j : Nat) : Inv (s.api j) := by
  obtain ⟨es, h⟩ := i.proj j
  rw [h]; exact inv_run es

theorem proj_step {a : Nat → Api} (h : ∀ i, ∃ es, a i = Api.init.run es) (i : Nat) (e : Event) :
    ∀ j, ∃ es, upd a i ((a i).step e) j = Api.init.run es := by
  intro j
  by_cases hj : j = i
  · subst hj
    rw [upd_same]
    obtain ⟨es, he⟩ := h j
    exact ⟨es ++ [e], by rw [run_snoc, ← he]⟩
  · rw [upd_other _ _ hj]; exact h j

theorem settle_fields (a : Nat → Api) (k : AppTask) :
    (k.settle a).call = k.call ∧ (k.settle a).sem = k.sem ∧ (k.settle a).ran = k.ran := by
  unfold AppTask.settle
  repeat' split
  all_goals simp

/-- What settling does. -/
theorem settle_cases (a : Nat → Api) (k : AppTask) :
    k.settle a = k ∨ ∃ i t A, k.pc = .inApi i t ∧ (a i).tasks t = some A ∧
      ((∃ x, A.pc = .done (.ok x) ∧ ((k.call.settles = true ∧
          k.settle a = { k with pc := .sleeping i ((a i).now + 200) }) ∨
        (k.call.settles = false ∧ k.settle a = { k with pc := .done k.call.success }))) ∨
       ∃ e, A.pc = .done (.error e) ∧ k.settle a = { k with pc := .done (k.call.failure e) }) := by
  unfold AppTask.settle
  split
  · rename_i i t hpc
    split
    · rename_i A hA
      split
      · rename_i x hx
        right
        refine ⟨i, t, A, hpc, hA, .inl ⟨x, hx, ?_⟩⟩
        split
        · rename_i hs; exact .inl ⟨hs, rfl⟩
        · rename_i hs; exact .inr ⟨by simpa using hs, rfl⟩
      · rename_i e he
        right
        exact ⟨i, t, A, hpc, hA, .inr ⟨e, he, rfl⟩⟩
      · exact .inl rfl
    · exact .inl rfl
  · exact .inl rfl

theorem TaskInv.settle {a : Nat → Api} (ha : ∀ i, Inv (a i)) {k : AppTask} (h : TaskInv a k) :
    TaskInv a (k.settle a) := by
  rcases settle_cases a k with he | ⟨i, t, A, hpc, hA, hc⟩
  · rw [he]; exact h
  · have hr : k.ran = some (i, t) := by have := h.pc; rw [hpc] at this; exact this
    rcases hc with ⟨x, hx, ⟨hs, he⟩ | ⟨hs, he⟩⟩ | ⟨e, hx, he⟩
    · rw [he]
      exact ⟨h.ran, hs, t, x, hr, ((ha i).log.fin t _).mpr ⟨A, hA, hx⟩⟩
    · rw [he]
      exact ⟨h.ran, .accepted i t x hr (((ha i).log.fin t _).mpr ⟨A, hA, hx⟩)⟩
    · rw [he]
      exact ⟨h.ran, .failed i t e hr (((ha i).log.fin t _).mpr ⟨A, hA, hx⟩)⟩

theorem settle_past (a : Nat → Api) (k : AppTask) : (k.settle a).past = true → k.past = true := by
  rcases settle_cases a k with he | ⟨i, t, A, hpc, _⟩
  · rw [he]; exact id
  · intro _; unfold AppTask.past; rw [hpc]

theorem settle_inside (a : Nat → Api) (k : AppTask) (g : Nat) :
    (k.settle a).inside g = true → k.inside g = true := by
  rw [inside_iff, inside_iff, (settle_fields a k).2.1]
  rintro ⟨h1, h2⟩
  exact ⟨h1, settle_past a k h2⟩

theorem count_settle (a : Nat → Api) (g : Nat) (l : List AppTask) :
    l.countP (fun k => k.inside g && !(k.settle a).inside g) +
      (l.map (AppTask.settle a)).countP (AppTask.inside g) = l.countP (AppTask.inside g) := by
  induction l with
  | nil => rfl
  | cons k l ih =>
    rw [List.map_cons, List.countP_cons, List.countP_cons, List.countP_cons]
    have := settle_inside a k g
    rcases h1 : (k.settle a).inside g with _ | _
    · rcases h2 : k.inside g with _ | _
      · simp only [Bool.false_and, Bool.false_eq_true, if_false]; omega
      · simp only [Bool.true_and, Bool.not_false, Bool.false_eq_true, if_false, if_true]; omega
    · rw [this h1]
      simp only [Bool.true_and, Bool.not_true, Bool.false_eq_true, if_false, if_true]; omega

theorem AInv.settle {s : AppSys} (i : AInv s) : AInv s.settle where
  proj := i.proj
  tasks k hk := by
    obtain ⟨k', h1, rfl⟩ := List.mem_map.mp hk
    exact (i.tasks k' h1).settle i.api
  sem g := by
    show s.sem g + _ + (s.tasks.map (AppTask.settle s.api)).countP (AppTask.inside g) = _
    have := count_settle s.api g s.tasks
    have := i.sem g
    show _ = s.limit g
    omega
  semLt k hk hp := by
    obtain ⟨k', h1, rfl⟩ := List.mem_map.mp hk
    rw [(settle_fields _ _).2.1]
    refine i.semLt k' h1 (fun r hr => hp r ?_)
    rcases settle_cases s.api k' with he | ⟨_, _, _, hpc, _⟩
    · rw [he, hr]
    · rw [hr] at hpc; cases hpc
  fresh := i.fresh
  nodup := by
    show ((s.tasks.map (AppTask.settle s.api)).filterMap (·.ran)).Nodup
    rw [List.filterMap_map]
    have : ((fun k : AppTask => k.ran) ∘ AppTask.settle s.api) = (fun k => k.ran) := by
      funext k; exact (settle_fields s.api k).2.2
    rw [this]
    exact i.nodup

theorem AInv.withApi {s : AppSys} (i : AInv s) (j : Nat) (e : Event) :
    AInv { s with api := upd s.api j ((s.api j).step e) } where
  proj := proj_step i.proj j e
  tasks k hk := (i.tasks k hk).later (Later.step _ _ _)
  sem := i.sem
  semLt := i.semLt
  fresh := i.fresh
  nodup := i.nodup

theorem AInv.apiStep {s : AppSys} (i : AInv s) (j : Nat) (e : Event) : AInv (s.apiStep j e) :=
  (i.withApi j e).settle

theorem AInv.add {s : AppSys} (i : AInv s) {k : AppTask} (hk : TaskInv s.api k)
    (hr : k.ran = none) (hp : k.past = false) (hs : (∀ r, k.pc ≠ .done r) → k.sem < s.nsem) :
    AInv { s with tasks := s.tasks ++ [k] } where
  proj := i.proj
  tasks k' hk' := by
    rcases List.mem_append.mp hk' with h | h
    · exact i.tasks k' h
    · rw [List.mem_singleton.mp h]; exact hk
  sem g := by
    show s.sem g + (s.tasks ++ [k]).countP (AppTask.inside g) = s.limit g
    have : k.inside g = false := by
      rcases h : k.inside g with _ | _
      · rfl
      · rw [(inside_iff.mp h).2] at hp; cases hp
    rw [List.countP_append, List.countP_cons, this]
    simpa using i.sem g
  semLt k' hk' hd := by
    rcases List.mem_append.mp hk' with h | h
    · exact i.semLt k' h hd
    · rw [List.mem_singleton.mp h] at hd ⊢; exact hs hd
  fresh := i.fresh
  nodup := by
    show ((s.tasks ++ [k]).filterMap (·.ran)).Nodup
    rw [List.filterMap_append]
    simpa [hr] using i.nodup

theorem gate_inv {s : AppSys} {a : Nat → Api} {c : Call} {o : Obj} {w : Option (Nat × Nat)}
    (ho : c.obj = .ok o) (hw : ∀ i x, w = some (i, x) → x ∈ (a i).ext) :
    TaskInv a (s.gate c o w) ∧ (s.gate c o w).ran = none ∧ (s.gate c o w).past = false ∧
      ((∀ r, (s.gate c o w).pc ≠ .done r) → (s.gate c o w).sem < s.nsem) := by
  unfold AppSys.gate
  split
  · refine ⟨⟨by simp, ?_⟩, rfl, rfl, fun h => absurd rfl (h _)⟩
    exact .rejected .attributeError rfl (.inr (.inr rfl))
  · refine ⟨⟨by simp, rfl, ho, hw⟩, rfl, rfl, fun _ => ?_⟩
    show s.nsem - 1 < s.nsem
    omega

theorem AInv.begin {s : AppSys} (i : AInv s) (c : Call) : AInv (s.begin c) := by
  unfold AppSys.begin
  split
  · rename_i e he
    exact i.add ⟨by simp, .rejected e rfl (.inl he)⟩ rfl rfl (fun h => absurd rfl (h _))
  · rename_i o ho
    split
    · obtain ⟨h1, h2, h3, h4⟩ := gate_inv (s := s) (a := s.api) (w := none) ho (by simp)
      exact i.add h1 h2 h3 h4
    · rename_i q hq
      split
      · rename_i a e he
        refine i.add ⟨by simp, .rejected e rfl (.inr (.inl ⟨o, q, ho, hq, ?_⟩))⟩ rfl rfl
          (fun h => absurd rfl (h _))
        unfold Api.createResponseWaiter at he
        split at he
        · rename_i h; cases he; exact h
        · cases he
        · cases he
      · rename_i a w hw
        have hstep : a = (s.api s.cur).step (.registerResponse o (some q)) := by
          rw [Api.step, hw]
        have j := i.withApi s.cur (.registerResponse o (some q))
        rw [← hstep] at j
        have hext : ∀ i x, w.map (fun w => (s.cur, w)) = some (i, x) →
            x ∈ ((upd s.api s.cur a) i).ext := by
          intro i x hx
          rcases w with _ | w
          · cases hx
          · simp only [Option.map_some, Option.some.injEq, Prod.mk.injEq] at hx
            obtain ⟨rfl, rfl⟩ := hx
            rw [upd_same]
            unfold Api.createResponseWaiter at hw
            split at hw
            · cases hw
            · cases hw
            · cases hw; exact List.mem_cons_self
        obtain ⟨h1, h2, h3, h4⟩ := gate_inv (s := s) (a := upd s.api s.cur a) ho hext
        exact j.add h1 h2 h3 h4

theorem countP_set (p : AppTask → Bool) : ∀ (l : List AppTask) (n : Nat) (k k' : AppTask),
    l[n]? = some k → (l.set n k').countP p + (if p k then 1 else 0) =
      l.countP p + (if p k' then 1 else 0)
  | [], n, k, k', h => by simp at h
  | x :: l, 0, k, k', h => by
    simp at h; subst h
    rw [List.set_cons_zero, List.countP_cons, List.countP_cons]; omega
  | x :: l, n + 1, k, k', h => by
    rw [List.set_cons_succ, List.countP_cons, List.countP_cons]
    have := countP_set p l n k k' (by simpa using h)
    omega

/-- Replacing a call that is not past the gate by one that has ended, etc.: the general step. -/
theorem AInv.set {s : AppSys} (i : AInv s) {n : Nat} {k k' : AppTask} (hk : s.tasks[n]? = some k)
    (sem' : Nat → Nat) (h' : TaskInv s.api k')
    (hsem : ∀ g, sem' g + (if k'.inside g then 1 else 0) = s.sem g + (if k.inside g then 1 else 0))
    (hlt : (∀ r, k'.pc ≠ .done r) → k'.sem < s.nsem)
    (hnd : ((s.tasks.set n k').filterMap (·.ran)).Nodup) :
    AInv { s with sem := sem', tasks := s.tasks.set n k' } where
  proj := i.proj
  tasks x hx := by
    rcases List.mem_or_eq_of_mem_set hx with h | h
    · exact i.tasks x h
    · rw [h]; exact h'
  sem g := by
    show sem' g + (s.tasks.set n k').countP (AppTask.inside g) = s.limit g
    have h1 := countP_set (AppTask.inside g) s.tasks n k k' hk
    have h2 := i.sem g
    have h3 := hsem g
    omega
  semLt x hx hd := by
    rcases List.mem_or_eq_of_mem_set hx with h | h
    · exact i.semLt x h hd
    · rw [h] at hd ⊢; exact hlt hd
  fresh := i.fresh
  nodup := hnd

theorem filterMap_set_same {β : Type} (f : AppTask → Option β) : ∀ (l : List AppTask) (n : Nat) (k k' : AppTask),
    l[n]? = some k → f k' = f k → (l.set n k').filterMap f = l.filterMap f
  | [], n, k, k', h, _ => by simp at h
  | x :: l, 0, k, k', h, hf => by
    simp at h; subst h
    rw [List.set_cons_zero, List.filterMap_cons, List.filterMap_cons, hf]
  | x :: l, n + 1, k, k', h, hf => by
    rw [List.set_cons_succ, List.filterMap_cons, List.filterMap_cons,
      filterMap_set_same f l n k k' (by simpa using h) hf]

theorem filterMap_set_new {β : Type} (f : AppTask → Option β) : ∀ (l : List AppTask) (n : Nat) (k k' : AppTask)
    (b : β), l[n]? = some k → f k = none → f k' = some b → (l.filterMap f).Nodup →
    b ∉ l.filterMap f → ((l.set n k').filterMap f).Nodup ∧
      ∀ x ∈ (l.set n k').filterMap f, x = b ∨ x ∈ l.filterMap f
  | [], n, k, k', b, h, _, _, _, _ => by simp at h
  | x :: l, 0, k, k', b, h, hf, hf', hnd, hb => by
    simp at h; subst h
    rw [List.filterMap_cons, hf] at hnd hb
    rw [List.set_cons_zero, List.filterMap_cons, hf', List.filterMap_cons, hf]
    exact ⟨List.nodup_cons.mpr ⟨hb, hnd⟩, fun y hy => by simpa using hy⟩
  | x :: l, n + 1, k, k', b, h, hf, hf', hnd, hb => by
    rw [List.set_cons_succ, List.filterMap_cons, List.filterMap_cons]
    rw [List.filterMap_cons] at hnd hb
    rcases hx : f x with _ | y
    · rw [hx] at hnd hb
      exact filterMap_set_new f l n k k' b (by simpa using h) hf hf' hnd hb
    · rw [hx] at hnd hb
      rw [List.nodup_cons] at hnd
      have hb' : b ≠ y ∧ b ∉ l.filterMap f := by simpa using hb
      obtain ⟨h1, h2⟩ := filterMap_set_new f l n k k' b (by simpa using h) hf hf' hnd.2 hb'.2
      refine ⟨List.nodup_cons.mpr ⟨fun hm => ?_, h1⟩, fun z hz => ?_⟩
      · rcases h2 y hm with e | e
        · exact hb'.1 e.symm
        · exact hnd.1 e
      · rcases List.mem_cons.mp hz with e | e
        · exact .inr (e ▸ List.mem_cons_self)
        · rcases h2 z e with e | e
          · exact .inl e
          · exact .inr (List.mem_cons_of_mem _ e)

/-- A waiting call that enters is submitted under a new number. -/
theorem submit_log (a : Api) (o : Obj) (w : Option Nat) :
    .submitted a.nextTid o w none ∈ (a.step (.submit o w none)).log := by
  rw [Api.step]
  have : .submitted a.nextTid o w none ∈ (a.enqueue o w none).log :=
    List.mem_append_right _ List.mem_cons_self
  split
  · exact (grows_grant _).log.subset this
  · exact this

theorem AInv.enter {s : AppSys} (i : AInv s) (n : Nat) : AInv (s.enter n) := by
  unfold AppSys.enter
  split
  · rename_i k hk
    split
    · rename_i o waiter hpc
      split
      · exact i
      · rename_i hsem
        dsimp only
        generalize waiter.map Prod.snd = w
        have hmem : k ∈ s.tasks := List.mem_of_getElem? hk
        have ht := i.tasks k hmem
        have hpi := ht.pc
        rw [hpc] at hpi
        obtain ⟨hran, hobj, _⟩ := hpi
        have j := i.withApi s.cur (.submit o w none)
        apply AInv.settle
        have hfresh : (s.cur, (s.api s.cur).nextTid) ∉ s.tasks.filterMap (·.ran) := by
          intro hm
          obtain ⟨k2, hk2, hr2⟩ := List.mem_filterMap.mp hm
          obtain ⟨o2, w2, _, hs2⟩ := (i.tasks k2 hk2).ran _ _ hr2
          obtain ⟨k3, hk3, _⟩ := ((i.api s.cur).log.subIff _ _ _ _).mp hs2
          have := ((i.api s.cur).lock.tid _).mp ⟨k3, hk3⟩
          omega
        refine AInv.set j (k := k) hk _ ⟨?_, rfl⟩ ?_ ?_ ?_
        · intro i' t' hr
          cases hr
          refine ⟨o, w, hobj, ?_⟩
          show _ ∈ (upd s.api s.cur ((s.api s.cur).step (.submit o w none)) s.cur).log
          rw [upd_same]
          exact submit_log _ _ _
        · intro g
          have h1 : k.inside g = false := by
            rcases h : k.inside g with _ | _
            · rfl
            · have := (inside_iff.mp h).2
              unfold AppTask.past at this
              rw [hpc] at this; cases this
          rw [h1]
          have h2 : ∀ k2 : AppTask, k2.sem = k.sem →
              k2.pc = .inApi s.cur (s.api s.cur).nextTid → k2.inside g = (k.sem == g) := by
            intro k2 e1 e2
            unfold AppTask.inside; rw [e1, e2]; simp
          let run := (s.cur, (s.api s.cur).nextTid)
          rw [h2 { k with pc := .inApi s.cur (s.api s.cur).nextTid, ran := some run } rfl rfl]
          show upd s.sem k.sem (s.sem k.sem - 1) g + _ = s.sem g + _
          by_cases hg : g = k.sem
          · subst hg; rw [upd_same]; simp only [beq_self_eq_true, if_true, Bool.false_eq_true, if_false]; omega
          · rw [upd_other _ _ hg]
            have : (k.sem == g) = false := by simpa using fun h => hg h.symm
            rw [this]
        · intro _
          exact i.semLt k hmem (fun r hr => by rw [hpc] at hr; cases hr)
        · exact (filterMap_set_new (·.ran) s.tasks n k _ _ hk hran rfl i.nodup hfresh).1
    · exact i
  · exact i

theorem AInv.leave {s : AppSys} (i : AInv s) {n : Nat} {k : AppTask} (hk : s.tasks[n]? = some k)
    {j d : Nat} (hpc : k.pc = .sleeping j d) {r : Result} (hr : CallEnded s.api { k with pc := .done r } r) :
    AInv (s.leave n k r) := by
  have ht := i.tasks k (List.mem_of_getElem? hk)
  refine i.set hk _ ⟨ht.ran, hr⟩ ?_ (fun h => absurd rfl (h r)) ?_
  · intro g
    have h1 : k.inside g = (k.sem == g) := by unfold AppTask.inside; rw [hpc]; simp
    have h2 : ({ k with pc := .done r } : AppTask).inside g = false := by
      unfold AppTask.inside; simp
    rw [h1, h2]
    by_cases hg : g = k.sem
    · subst hg; rw [upd_same]; simp
    · rw [upd_other _ _ hg]
      have : (k.sem == g) = false := by simpa using fun h => hg h.symm
      rw [this]
  · rw [filterMap_set_same (·.ran) s.tasks n k { k with pc := .done r } hk rfl]; exact i.nodup

theorem AInv.step {s : AppSys} (i : AInv s) (e : AppEvent) : AInv (s.step e) := by
  cases e with
  | api j e => exact i.apiStep j e
  | call c => exact i.begin c
  | enter n => exact i.enter n
  | wakeUp n =>
    rw [AppSys.step]
    split
    · rename_i k hk
      split
      · rename_i j d hpc
        split
        · have ht := i.tasks k (List.mem_of_getElem? hk)
          have hp := ht.pc
          rw [hpc] at hp
          obtain ⟨_, t, x, h1, h2⟩ := hp
          exact i.leave hk hpc (.accepted j t x h1 h2)
        · exact i
      · exact i
    · exact i
  | cancel n =>
    rw [AppSys.step]
    split
    · rename_i k hk
      have hmem := List.mem_of_getElem? hk
      have ht := i.tasks k hmem
      have hp := ht.pc
      split
      · rename_i o w hpc
        rw [hpc] at hp
        refine i.set hk s.sem ⟨ht.ran, .cancelled (.inl hp.1)⟩ ?_ (fun h => absurd rfl (h _)) ?_
        · intro g
          have h1 : k.inside g = false := by unfold AppTask.inside; rw [hpc]; simp
          have h2 : ({ k with pc := .done (.raised .cancelledError) } : AppTask).inside g = false := by
            unfold AppTask.inside; simp
          rw [h1, h2]
        · rw [filterMap_set_same (·.ran) s.tasks n k
            { k with pc := .done (.raised .cancelledError) } hk rfl]
          exact i.nodup
      · exact i.apiStep _ _
      · rename_i j d hpc
        rw [hpc] at hp
        obtain ⟨h0, t, x, h1, h2⟩ := hp
        exact i.leave hk hpc (.cancelled (.inr ⟨h0, j, t, x, h1, h2⟩))
      · exact i
    · exact i
  | newApi =>
    have j := i.withApi (s.cur + 1) (.setUart true)
    exact ⟨j.proj, j.tasks, j.sem, j.semLt, j.fresh, j.nodup⟩
  | newSemaphore product =>
    refine ⟨i.proj, i.tasks, ?_, ?_, ?_, i.nodup⟩
    · intro g
      show upd s.sem s.nsem (concurrent product) g + s.tasks.countP _ =
        upd s.limit s.nsem (concurrent product) g
      by_cases hg : g = s.nsem
      · subst hg
        rw [upd_same, upd_same]
        have h1 := i.sem s.nsem
        have h2 := i.fresh s.nsem (Nat.le_refl _)
        omega
      · rw [upd_other _ _ hg, upd_other _ _ hg]; exact i.sem g
    · intro k hk hd
      have := i.semLt k hk hd
      show k.sem < s.nsem + 1
      omega
    · intro g hg
      have hg : s.nsem + 1 ≤ g := hg
      show upd s.limit s.nsem (concurrent product) g = 0
      rw [upd_other _ _ (by omega)]
      exact i.fresh g (by omega)

theorem ainv_init : AInv AppSys.init where
  proj _ := ⟨[], rfl⟩
  tasks k hk := by cases hk
  sem _ := rfl
  semLt k hk := by cases hk
  fresh _ _ := rfl
  nodup := List.nodup_nil

theorem ainv_from {s : AppSys} (i : AInv s) : ∀ es, AInv (s.run es)
  | [] => i
  | e :: es => ainv_from (i.step e) es

theorem ainv_run (es : List AppEvent) : AInv (AppSys.init.run es) := ainv_from ainv_init es

theorem app_run_append (s : AppSys) (a b : List AppEvent) : s.run (a ++ b) = (s.run a).run b := by
  simp [AppSys.run, List.foldl_append]

/-! ## Consequences for a single call -/

theorem ended_inv {s : AppSys} (i : AInv s) {n : Nat} {k : AppTask} {r : Result}
    (hk : s.tasks[n]? = some k) (hr : k.pc = .done r) : CallEnded s.api k r := by
  have := (i.tasks k (List.mem_of_getElem? hk)).pc
  rw [hr] at this
  exact this

theorem wrote_obj {s : AppSys} (i : AInv s) {n : Nat} {c : Call} {b : List UInt8}
    (hc : IsCall s n c) (hw : Wrote s n b) : ∃ o, c.obj = .ok o ∧ WrittenAs o b := by
  obtain ⟨k, hk, rfl⟩ := hc
  obtain ⟨k', j, t, hk', hr, hs⟩ := hw
  rw [hk] at hk'; cases hk'
  obtain ⟨o, w, ho, hsub⟩ := (i.tasks k (List.mem_of_getElem? hk)).ran j t hr
  refine ⟨o, ho, ?_⟩
  obtain ⟨a, ha, _, he⟩ := (i.api j).log.sentStarted t b hs
  obtain ⟨a', ha', hao, _⟩ := ((i.api j).log.subIff _ _ _ _).mp hsub
  rw [ha] at ha'; cases ha'
  rw [hao] at he
  exact encode_ok he

/-- A raw request that returned normally was written. -/
theorem finished_ok_sent {a : Api} (i : Inv a) {t : Nat} {x : Option Obj}
    (h : .finished t (.ok x) ∈ a.log) : ∃ b, .sent t b ∈ a.log := by
  obtain ⟨k, hk, hpc⟩ := (i.log.fin t _).mp h
  have out := i.resp.done t k _ hk hpc
  match x, out with
  | some rsp, ⟨m, to, b, f, _, _, h3, _⟩ => exact ⟨b, h3.subset (by simp)⟩
  | none, ⟨_, _, b, h3⟩ => exact ⟨b, h3.subset (by simp)⟩

theorem encode_not_commandError {o : Obj} {z : Int} : encode o ≠ .error (.commandError z) := by
  intro h
  have := loc_encode o _ h
  cases this

/-- A raw request that raised `CommandError` was written and answered. -/
theorem finished_commandError {a : Api} (i : Inv a) {t : Nat} {o : Obj} {w : Option Nat}
    {e : Option (List Int)} {z : Int} (hs : .submitted t o w e ∈ a.log)
    (h : .finished t (.error (.commandError z)) ∈ a.log) :
    ∃ b f rsp, [Entry.sent t b, .received f rsp].Sublist a.log ∧ Obj.fromUnpiFrame f = .ok rsp ∧
      ResponseTo o rsp ∧ rsp.payload.lookup "status" = some (.int z) ∧ z ∉ e.getD [0] := by
  obtain ⟨k, hk, hko, hkw, hke⟩ := (i.log.subIff t o w e).mp hs
  obtain ⟨k', hk', hpc⟩ := (i.log.fin t _).mp h
  rw [hk] at hk'; cases hk'
  have out := i.resp.done t k _ hk hpc
  match out with
  | .inl ⟨_, h⟩ =>
    rcases h with h | h | h | h
    · cases h
    · cases h
    · exact absurd h encode_not_commandError
    · cases h.1
  | .inr (.inl ⟨_, _, h⟩) => rcases h with h | h <;> cases h
  | .inr (.inr ⟨hS, m, to, b, f, rsp, z', h1, h2, h3, h4, h5⟩) =>
    rw [hko] at h1 hS
    have hdec := i.resp.recv f rsp (h4.subset (by simp))
    have hresp : ResponseTo o rsp := by
      rcases ownWaiter_answers h1 h2 with ⟨_, h⟩ | ⟨h, _⟩
      · exact h
      · rw [hS] at h; simp at h
    rw [hke] at h3
    have hbad := badStatus_some h3 (fun v hv => by
      obtain ⟨z, hz, _⟩ := status_int hdec hresp.1 hv
      exact ⟨z, hz⟩)
    rcases h5 with h5 | ⟨h5, _⟩
    · cases h5
      refine ⟨b, f, rsp, List.Sublist.trans ?_ h4, hdec, hresp, hbad.1, hbad.2⟩
      exact .cons_cons _ (.cons_cons _ (List.nil_sublist _))
    · cases h5

/-- A raw synchronous request that returned normally was answered. -/
theorem finished_ok_answer {a : Api} (i : Inv a) {t : Nat} {o : Obj} {w : Option Nat}
    {e : Option (List Int)} {x : Option Obj} (hs : .submitted t o w e ∈ a.log)
    (hS : o.commandType = .SREQ) (h : .finished t (.ok x) ∈ a.log) :
    ∃ b f rsp, [Entry.sent t b, .received f rsp].Sublist a.log ∧ Obj.fromUnpiFrame f = .ok rsp ∧
      ResponseTo o rsp ∧ StatusOk e rsp := by
  obtain ⟨k, hk, hko, hkw, hke⟩ := (i.log.subIff t o w e).mp hs
  obtain ⟨k', hk', hpc⟩ := (i.log.fin t _).mp h
  rw [hk] at hk'; cases hk'
  have out := i.resp.done t k _ hk hpc
  match x, out with
  | some rsp, ⟨m, to, b, f, h1, h2, h3, h4⟩ =>
    rw [hko] at h1 h4
    refine ⟨b, f, rsp, List.Sublist.trans ?_ h3, i.resp.recv f rsp (h3.subset (by simp)), ?_, ?_⟩
    · exact .cons_cons _ (.cons_cons _ (List.nil_sublist _))
    · rcases ownWaiter_answers h1 h2 with ⟨_, h⟩ | ⟨h, _⟩
      · exact h
      · rw [hS] at h; simp at h
    · have := h4 hS
      rw [hke] at this
      exact badStatus_none.mp this
  | none, ⟨h, _⟩ => rw [hko, hS] at h; simp at h

/-- Responses to the commands that have a status in the table do have one. -/
theorem response_status {s : Subsystem} {c : Cmd} {r : Params} (hc : InTable s c)
    (hr : c.response = some r) (hst : "status" ∈ r.map (·.1)) {f : Frame} {rsp : Obj}
    (hf : Obj.fromUnpiFrame f = .ok rsp) (ht : rsp.commandType = .SRSP) (hs : rsp.subsystem = s)
    (hn : rsp.command = c.name) : ∃ v, rsp.payload.lookup "status" = some v := by
  obtain ⟨c', hc', hid, hp, hread, ho⟩ := fromUnpiFrame_ok hf
  have h1 : f.commandType = .SRSP := by rw [ho] at ht; exact ht
  have h2 : f.subsystem = s := by rw [ho] at hs; exact hs
  have h3 : c'.name = c.name := by rw [ho] at hn; exact hn
  rw [h2] at hc'
  have : c' = c := by
    obtain ⟨cs, e1, e2⟩ := nextCmd_name hc
    obtain ⟨cs', e3, e4⟩ := nextCmd_name hc'
    rw [e1] at e3; cases e3
    rw [h3, e2] at e4; cases e4; rfl
  subst this
  unfold ParamsOf at hp
  rw [if_pos h1, hr] at hp
  cases hp
  exact Option.isSome_iff_exists.mp (payload_has hf hst)

/-- A call that did not raise has written its request. -/
theorem returned_wrote {s : AppSys} (i : AInv s) {n : Nat} {r : Result} (h : EndedWith s n r)
    (hr : ∀ e, r ≠ .raised e) : ∃ b, Wrote s n b := by
  obtain ⟨k, hk, hpc⟩ := h
  cases ended_inv i hk hpc with
  | accepted j t x h1 h2 =>
    obtain ⟨b, hb⟩ := finished_ok_sent (i.api j) h2
    exact ⟨b, k, j, t, hk, h1, hb⟩
  | failed j t e h1 h2 =>
    obtain ⟨o, w, ho, hs⟩ := (i.tasks k (List.mem_of_getElem? hk)).ran j t h1
    have : ∃ z, e = .commandError z := by
      revert hr
      generalize k.call = c
      intro hr
      unfold Call.failure at hr
      split at hr
      · exact ⟨_, rfl⟩
      · exact ⟨_, rfl⟩
      · exact ⟨_, rfl⟩
      · exact absurd rfl (hr _)
    obtain ⟨z, rfl⟩ := this
    obtain ⟨b, f, rsp, h3, _⟩ := finished_commandError (i.api j) hs h2
    exact ⟨b, k, j, t, hk, h1, h3.subset (by simp)⟩
  | cancelled _ => exact absurd rfl (hr _)
  | rejected e _ _ => exact absurd rfl (hr _)

/-- Calls of the usual profiles become synchronous requests whose response has a status. -/
theorem ordinary_obj {c : Call} (hc : Ordinary c) {o : Obj} (ho : c.obj = .ok o) :
    o.commandType = .SREQ ∧ ∃ cmd r, InTable o.subsystem cmd ∧ cmd.name = o.command ∧
      cmd.response = some r ∧ "status" ∈ r.map (·.1) := by
  have uni : InTable .AF dataRequestCmd := ⟨_, rfl, by decide +kernel⟩
  have ext : InTable .AF dataRequestExtCmd := ⟨_, rfl, by decide +kernel⟩
  have zdo : ∀ nwk profile cluster srcEp dstEp sequence data radius addrMode, profile ≠ 260 →
      0 ≤ cluster ∧ cluster < 0x40 →
      Obj.fromCluster nwk profile cluster srcEp dstEp sequence data radius addrMode = .ok o →
      o.commandType = .SREQ ∧ ∃ cmd r, InTable o.subsystem cmd ∧ cmd.name = o.command ∧
        cmd.response = some r ∧ "status" ∈ r.map (·.1) := by
    intro nwk profile cluster srcEp dstEp sequence data radius addrMode hp hcl h
    obtain ⟨cmd, payload, hin, hid, _, _, rfl⟩ := fromCluster_zdo_ok hp h
    obtain ⟨cs, h1, h2⟩ := hin
    cases h1
    have : ∀ c ∈ defZDO, c.id < 0x40 → (c.type = .SREQ ∧
        (c.response.any (fun r => decide ("status" ∈ r.map (·.1)))) = true) := by decide +kernel
    obtain ⟨h3, h4⟩ := this cmd h2 (by omega)
    refine ⟨h3, cmd, ?_⟩
    rcases hr : cmd.response with _ | r
    · rw [hr] at h4; cases h4
    · rw [hr] at h4
      exact ⟨r, ⟨_, rfl, h2⟩, rfl, rfl, by simpa using h4⟩
  cases c with
  | request nwk profile cluster srcEp dstEp sequence data er =>
    by_cases hp : profile = 260
    · subst hp
      rw [Call.obj, fromCluster_unicast] at ho
      cases ho
      exact ⟨rfl, _, _, uni, rfl, rfl, by decide⟩
    · exact zdo _ _ _ _ _ _ _ _ _ hp (hc.resolve_left hp) ho
  | mrequest group profile cluster srcEp sequence data hops =>
    by_cases hp : profile = 260
    · subst hp
      rw [Call.obj, fromCluster_ext] at ho
      cases ho
      exact ⟨rfl, _, _, ext, rfl, rfl, by decide⟩
    · exact zdo _ _ _ _ _ _ _ _ _ hp (hc.resolve_left hp) ho
  | broadcast profile cluster srcEp dstEp radius sequence data address =>
    by_cases hp : profile = 260
    · subst hp
      rw [Call.obj, fromCluster_ext] at ho
      cases ho
      exact ⟨rfl, _, _, ext, rfl, rfl, by decide⟩
    · exact zdo _ _ _ _ _ _ _ _ _ hp (hc.resolve_left hp) ho
  | permit time =>
    by_cases ht : 0 ≤ time ∧ time ≤ 254
    · rw [Call.obj, if_pos ht] at ho
      obtain ⟨cs, h1, h2⟩ : ∃ cs, definitionGet .ZDO = .ok cs ∧ cs = defZDO := ⟨_, rfl, rfl⟩
      have : ∃ cmd ∈ defZDO, cmd.name = "mgmtPermitJoinReq" ∧ cmd.type = .SREQ ∧
          cmd.response = some [("status", .UINT8)] := by decide +kernel
      obtain ⟨cmd, h3, h4, h5, h6⟩ := this
      have hin : InTable .ZDO cmd := ⟨_, rfl, h3⟩
      rw [← h4, fromCommand_eq hin] at ho
      cases ho
      exact ⟨h5, cmd, _, hin, rfl, h6, by decide⟩
    · rw [Call.obj, if_neg ht] at ho; cases ho

theorem answered_of {s : AppSys} (i : AInv s) {n : Nat} {k : AppTask} (hk : s.tasks[n]? = some k)
    (hc : Ordinary k.call) {j t : Nat} (hr : k.ran = some (j, t)) {x : Option Obj}
    (hf : .finished t (.ok x) ∈ (s.api j).log) :
    ∃ o, k.call.obj = .ok o ∧ Answered s n o 0 := by
  obtain ⟨o, w, ho, hs⟩ := (i.tasks k (List.mem_of_getElem? hk)).ran j t hr
  obtain ⟨hS, cmd, r, hin, hname, hresp, hst⟩ := ordinary_obj hc ho
  obtain ⟨b, f, rsp, h1, h2, h3, h4⟩ := finished_ok_answer (i.api j) hs hS hf
  obtain ⟨v, hv⟩ := response_status hin hresp hst h2 h3.1 h3.2.1 (h3.2.2.trans hname.symm)
  obtain ⟨z, rfl, hz⟩ := h4 v hv
  have hz : z = 0 := by simpa using hz
  subst hz
  exact ⟨o, ho, k, j, t, b, f, rsp, hk, hr, h2, h3, hv, h1⟩

theorem refused_of {s : AppSys} (i : AInv s) {n : Nat} {k : AppTask} (hk : s.tasks[n]? = some k)
    {j t : Nat} (hr : k.ran = some (j, t)) {z : Int}
    (hf : .finished t (.error (.commandError z)) ∈ (s.api j).log) :
    ∃ o, k.call.obj = .ok o ∧ Answered s n o z ∧ z ≠ 0 := by
  obtain ⟨o, w, ho, hs⟩ := (i.tasks k (List.mem_of_getElem? hk)).ran j t hr
  obtain ⟨b, f, rsp, h1, h2, h3, h4, h5⟩ := finished_commandError (i.api j) hs hf
  exact ⟨o, ho, ⟨k, j, t, b, f, rsp, hk, hr, h2, h3, h4, h1⟩, by simpa using h5⟩

/-! ## The gate -/

theorem past_eq {s : AppSys} (i : AInv s) {k : AppTask} (hk : k ∈ s.tasks) :
    PastGate k = k.past := by
  have := (i.tasks k hk).pc
  unfold PastGate AppTask.past
  revert this
  generalize k.pc = pc
  intro h
  match pc, h with
  | .waiting o w, h => rw [h.1]; rfl
  | .inApi j t, h => have h : k.ran = some (j, t) := h; rw [h]; rfl
  | .sleeping j d, ⟨_, t, x, h, _⟩ => rw [h]; rfl
  | .done r, _ => simp

theorem nsem_settle (s : AppSys) : s.settle.nsem = s.nsem ∧ s.settle.limit = s.limit := ⟨rfl, rfl⟩

theorem limits_step (s : AppSys) (e : AppEvent) :
    (∀ p, e ≠ .newSemaphore p) → (s.step e).nsem = s.nsem ∧ (s.step e).limit = s.limit := by
  intro h
  cases e with
  | newSemaphore p => exact absurd rfl (h p)
  | call c =>
    rw [AppSys.step]; unfold AppSys.begin
    repeat' split
    all_goals exact ⟨rfl, rfl⟩
  | enter n =>
    rw [AppSys.step]; unfold AppSys.enter
    repeat' split
    all_goals exact ⟨rfl, rfl⟩
  | cancel n =>
    rw [AppSys.step]
    repeat' split
    all_goals exact ⟨rfl, rfl⟩
  | wakeUp n =>
    rw [AppSys.step]
    repeat' split
    all_goals exact ⟨rfl, rfl⟩
  | api j e => exact ⟨rfl, rfl⟩
  | newApi => exact ⟨rfl, rfl⟩

theorem app_run_snoc (s : AppSys) (es : List AppEvent) (e : AppEvent) :
    s.run (es ++ [e]) = (s.run es).step e := by
  simp [AppSys.run, List.foldl_append]

theorem limits_run (es : List AppEvent) :
    (AppSys.init.run es).nsem = (starts es).length ∧
      ∀ g p, (starts es)[g]? = some p →
        (AppSys.init.run es).limit g = if p = 1 then 16 else 2 := by
  have key : ∀ rs : List AppEvent, (AppSys.init.run rs.reverse).nsem = (starts rs.reverse).length ∧
      ∀ g p, (starts rs.reverse)[g]? = some p →
        (AppSys.init.run rs.reverse).limit g = if p = 1 then 16 else 2 := by
    intro rs
    induction rs with
    | nil => exact ⟨rfl, fun g p h => by cases h⟩
    | cons e rs ih =>
      rw [List.reverse_cons, app_run_snoc]
      have hs : starts (rs.reverse ++ [e]) = starts rs.reverse ++ starts [e] := by
        unfold starts; rw [List.filterMap_append]
      by_cases he : ∃ p, e = .newSemaphore p
      · obtain ⟨p, rfl⟩ := he
        rw [hs]
        refine ⟨?_, ?_⟩
        · show (AppSys.init.run rs.reverse).nsem + 1 = _
          rw [ih.1, List.length_append]; rfl
        · intro g q hg
          show upd _ (AppSys.init.run rs.reverse).nsem (concurrent p) g = _
          by_cases h : g = (AppSys.init.run rs.reverse).nsem
          · subst h
            rw [upd_same]
            rw [ih.1, List.getElem?_append_right (Nat.le_refl _), Nat.sub_self] at hg
            cases hg
            rfl
          · rw [upd_other _ _ h]
            apply ih.2 g q
            have hlt : g < (starts rs.reverse).length := by
              have : g < (starts rs.reverse ++ starts [AppEvent.newSemaphore p]).length := by
                rw [List.getElem?_eq_some_iff] at hg; exact hg.1
              rw [List.length_append, ← ih.1] at this
              have e1 : (starts [AppEvent.newSemaphore p]).length = 1 := rfl
              omega
            rw [List.getElem?_append_left hlt] at hg
            exact hg
      · have he : ∀ p, e ≠ .newSemaphore p := fun p h => he ⟨p, h⟩
        have h1 := limits_step (AppSys.init.run rs.reverse) e he
        have h2 : starts [e] = [] := by
          cases e with
          | newSemaphore p => exact absurd rfl (he p)
          | _ => rfl
        rw [hs, h2, List.append_nil, h1.1, h1.2]
        exact ih
  have := key es.reverse
  rwa [List.reverse_reverse] at this

/-! ## A free radio gets the request at once -/

theorem submit_writes {a : Api} {o : Obj} {w : Option Nat} {b : List UInt8}
    (hS : o.commandType = .SREQ) (hb : WrittenAs o b) (hu : a.uart = true)
    (hh : a.holder = none) (hq : a.queue = []) :
    .sent a.nextTid b ∈ (a.step (.submit o w none)).log := by
  obtain ⟨f, hf1, hf2⟩ := hb
  rw [Api.step, if_pos ⟨hh, hq⟩]
  unfold Api.grant Api.enqueue
  simp only [hh, hq, List.nil_append, upd_same]
  unfold Api.start
  rw [hf1]
  dsimp only
  unfold ownWaiter
  rw [if_pos hS]
  dsimp only
  unfold Api.uartSend
  simp only [Api.setPc, upd_same, Api.waitFor, hu, if_true, hf2]
  simp

theorem settle_get (s : AppSys) (n : Nat) (k : AppTask) (h : s.tasks[n]? = some k) :
    s.settle.tasks[n]? = some (k.settle s.api) := by
  show (s.tasks.map _)[n]? = _
  rw [List.getElem?_map, h]; rfl

/-- A waiting call for which there is a place gets it. -/
theorem enter_ran {s : AppSys} {n : Nat} {k : AppTask} (hk : s.tasks[n]? = some k)
    {o : Obj} {w : Option (Nat × Nat)} (hpc : k.pc = .waiting o w) (hs : s.sem k.sem ≠ 0) :
    ∃ k', (s.enter n).tasks[n]? = some k' ∧ k'.call = k.call ∧
      k'.ran = some (s.cur, (s.api s.cur).nextTid) ∧
      (s.enter n).api = upd s.api s.cur ((s.api s.cur).step
        (.submit o (w.map Prod.snd) none)) := by
  have hlt : n < s.tasks.length := by
    rw [List.getElem?_eq_some_iff] at hk; exact hk.1
  unfold AppSys.enter
  rw [hk]
  dsimp only
  rw [hpc]
  dsimp only
  rw [if_neg hs]
  refine ⟨_, settle_get _ n _ (by rw [List.getElem?_set_self hlt]), ?_, ?_, rfl⟩
  · exact (settle_fields _ _).1
  · exact (settle_fields _ _).2.2

/-- A new call waits at the gate. -/
theorem begin_waits {s : AppSys} {c : Call} {o : Obj} (ho : c.obj = .ok o) (hn : s.nsem ≠ 0)
    (hw : ∀ q, c.wantsReply = some q → ∀ e, responseWaiter o (some q) ≠ .error e) :
    ∃ w a, (s.begin c).tasks = s.tasks ++ [{ call := c, sem := s.nsem - 1, pc := .waiting o w }] ∧
      (s.begin c).sem = s.sem ∧ (s.begin c).cur = s.cur ∧ (s.begin c).api = upd s.api s.cur a ∧
      a.uart = (s.api s.cur).uart ∧ a.holder = (s.api s.cur).holder ∧
      a.queue = (s.api s.cur).queue ∧ a.nextTid = (s.api s.cur).nextTid := by
  have hg : ∀ w, s.gate c o w = { call := c, sem := s.nsem - 1, pc := .waiting o w } := by
    intro w; unfold AppSys.gate; rw [if_neg hn]
  unfold AppSys.begin
  rw [ho]
  dsimp only
  rcases hr : c.wantsReply with _ | q
  · dsimp only
    refine ⟨none, s.api s.cur, by rw [hg], rfl, rfl, ?_, rfl, rfl, rfl, rfl⟩
    funext j
    by_cases h : j = s.cur
    · subst h; rw [upd_same]
    · rw [upd_other _ _ h]
  · dsimp only
    have hne := hw q hr
    unfold Api.createResponseWaiter
    rcases hrw : responseWaiter o (some q) with e | mq
    · exact absurd hrw (hne e)
    · rcases mq with _ | ⟨m, q'⟩
      · dsimp only
        refine ⟨none, s.api s.cur, by rw [hg]; rfl, rfl, rfl, rfl, rfl, rfl, rfl, rfl⟩
      · dsimp only
        refine ⟨_, _, by rw [hg], rfl, rfl, rfl, ?_, ?_, ?_, ?_⟩ <;> rfl

/-- If the radio is free, a call that gets its place at once is written at once. -/
theorem call_writes {s : AppSys} {c : Call} {o : Obj} {b : List UInt8} (ho : c.obj = .ok o)
    (hS : o.commandType = .SREQ) (hb : WrittenAs o b) (hn : s.nsem ≠ 0)
    (hplace : s.sem (s.nsem - 1) ≠ 0)
    (hw : ∀ q, c.wantsReply = some q → ∀ e, responseWaiter o (some q) ≠ .error e)
    (hu : (s.api s.cur).uart = true) (hh : (s.api s.cur).holder = none)
    (hq : (s.api s.cur).queue = []) :
    Wrote ((s.step (.call c)).step (.enter s.tasks.length)) s.tasks.length b := by
  obtain ⟨w, a, h1, h2, h3, h4, h5, h6, h7, h8⟩ := begin_waits (s := s) ho hn hw
  show Wrote ((s.begin c).enter s.tasks.length) s.tasks.length b
  have hget : (s.begin c).tasks[s.tasks.length]? =
      some { call := c, sem := s.nsem - 1, pc := .waiting o w } := by
    rw [h1, List.getElem?_append_right (Nat.le_refl _), Nat.sub_self]; rfl
  obtain ⟨k', hk', _, hr, hapi⟩ := enter_ran hget rfl (by rw [h2]; exact hplace)
  refine ⟨k', _, _, hk', hr, ?_⟩
  rw [hapi, upd_same]
  have hcur : (s.begin c).api (s.begin c).cur = a := by rw [h4, h3, upd_same]
  rw [hcur]
  exact submit_writes hS hb (by rw [h5]; exact hu) (by rw [h6]; exact hh) (by rw [h7]; exact hq)
   

end Zcc
