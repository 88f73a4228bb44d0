import Verif.Proofs.Client
import Verif.Proofs.Timely

/-!
# A coroutine on the API: time limits of its waits, number of its requests
-/

namespace Zcc

open Spec

/-! ## Time limits -/

/-- What the coroutine knows of its waiters. -/
structure LimitInv {α : Type} (c : Client α) : Prop where
  prog : ∀ w d, c.pend = .wait w d → ∃ k, c.prog = .call (.wait w) k
  reg : ∀ m to (w : Nat), (⟨.waitFor m to, .ok w⟩ : Act) ∈ c.hist → c.limit w = to ∧ w < c.api.waiterId ∧
    ∃ time, .registered { id := w, matcher := m, timeout := to, sequence := none } time ∈ c.api.log ∧
      time ≤ c.api.now ∧ ∀ d, c.pend = .wait w d → time + to ≤ d

theorem LimitInv.moved {α : Type} {c c' : Client α} (i : LimitInv c) (g : Grows c.api c'.api)
    (h2 : c'.prog = c.prog) (h3 : c'.hist = c.hist) (h4 : c'.pend = c.pend)
    (h5 : c'.limit = c.limit) : LimitInv c' := by
  refine ⟨by rw [h2, h4]; exact i.prog, fun m to w hm => ?_⟩
  rw [h3] at hm
  obtain ⟨h6, h7, time, h8, h9, h10⟩ := i.reg m to w hm
  exact ⟨by rw [h5]; exact h6, Nat.lt_of_lt_of_le h7 g.wid, time, g.log.subset h8,
    Nat.le_trans h9 g.now, by rw [h4]; exact h10⟩

/-- The operation ended, and it was no `waitFor`. -/
theorem LimitInv.answered {α : Type} {c c' : Client α} (i : LimitInv c) {op : Op}
    {r : Except PyErr op.Ans} (hop : ∀ m to, op ≠ .waitFor m to) (g : Grows c.api c'.api)
    (h3 : c'.hist = c.hist ++ [⟨op, r⟩]) (h4 : c'.pend = .idle) (h5 : c'.limit = c.limit) :
    LimitInv c' := by
  refine ⟨fun w d h => (by rw [h4] at h; cases h), fun m to w hm => ?_⟩
  rw [h3] at hm
  rcases List.mem_append.mp hm with hm | hm
  · obtain ⟨h6, h7, time, h8, h9, h10⟩ := i.reg m to w hm
    exact ⟨by rw [h5]; exact h6, Nat.lt_of_lt_of_le h7 g.wid, time, g.log.subset h8,
      Nat.le_trans h9 g.now, fun d h => by rw [h4] at h; cases h⟩
  · simp only [List.mem_singleton] at hm
    exact absurd (congrArg Act.op hm).symm (hop m to)

/-- What an interrupted or timed-out wait needed. -/
theorem LimitInv.advance {α : Type} {c : Client α} (i : LimitInv c) {op : Op}
    {k : Except PyErr op.Ans → Prog α} (hp : c.prog = .call op k) : LimitInv (c.advance op k) := by
  cases op with
  | request sub command payload expected =>
    unfold Client.advance
    dsimp only
    split
    · split
      · exact i.answered (r := leaveRequest _) (by intros; simp) (Grows.refl _) rfl rfl rfl
      · exact i
    · split
      · exact i.answered (op := .request sub command payload expected) (by intros; simp) (Grows.refl _) rfl rfl rfl
      · rename_i o ho
        have g := grows_step c.api (.submit o none expected)
        refine ⟨fun w d h => (by cases h), fun m to w hm => ?_⟩
        obtain ⟨h6, h7, time, h8, h9, h10⟩ := i.reg m to w hm
        exact ⟨h6, Nat.lt_of_lt_of_le h7 g.wid, time, g.log.subset h8, Nat.le_trans h9 g.now,
          fun d h => by cases h⟩
  | spawn sub command payload =>
    exact i.answered (op := .spawn sub command payload) (r := .ok ()) (by intros; simp) (Grows.refl _) rfl rfl rfl
  | waitFor m timeout =>
    have g := grows_step c.api (.register m timeout none)
    refine ⟨fun w d h => (by cases h), fun m' to w hm => ?_⟩
    have hm : (⟨.waitFor m' to, .ok w⟩ : Act) ∈
        c.hist ++ [⟨.waitFor m timeout, .ok c.api.waiterId⟩] := hm
    rcases List.mem_append.mp hm with hm | hm
    · obtain ⟨h6, h7, time, h8, h9, h10⟩ := i.reg m' to w hm
      refine ⟨?_, Nat.lt_of_lt_of_le h7 g.wid, time, g.log.subset h8, Nat.le_trans h9 g.now,
        fun d h => by cases h⟩
      show upd c.limit c.api.waiterId timeout w = to
      unfold upd
      rw [if_neg (by omega)]; exact h6
    · simp only [List.mem_singleton] at hm
      cases hm
      refine ⟨?_, ?_, c.api.now, ?_, Nat.le_refl _, fun d h => by cases h⟩
      · show upd c.limit c.api.waiterId timeout c.api.waiterId = timeout
        unfold upd; rw [if_pos rfl]
      · show c.api.waiterId < c.api.waiterId + 1
        omega
      · exact List.mem_append_right _ (.head _)
  | wait w =>
    unfold Client.advance
    dsimp only
    split
    · split
      · exact i.answered (op := .wait w) (by intros; simp) (Grows.refl _) rfl rfl rfl
      · exact i.answered (op := .wait w) (r := .error .cancelledError) (by intros; simp) (Grows.refl _) rfl rfl rfl
      · split
        · exact i.answered (op := .wait w) (r := .error .timeoutError) (by intros; simp)
            (grows_step c.api (.abandon w)) rfl rfl rfl
        · exact i
    · refine ⟨fun w' d h => ?_, fun m to w' hm => ?_⟩
      · cases h
        exact ⟨k, hp⟩
      · obtain ⟨h6, h7, time, h8, h9, _⟩ := i.reg m to w' hm
        refine ⟨h6, h7, time, h8, h9, fun d h => ?_⟩
        cases h
        rw [h6]
        omega
  | connect => exact i
  | semaphore n =>
    exact i.answered (op := .semaphore n) (r := .ok ()) (by intros; simp) (Grows.refl _) rfl rfl rfl
  | coordinator ieee nwk =>
    exact i.answered (op := .coordinator ieee nwk) (r := .ok ()) (by intros; simp) (Grows.refl _) rfl rfl rfl

theorem LimitInv.step {α : Type} {c : Client α} (i : LimitInv c) (ev : ClientEvent) :
    LimitInv (c.step ev) := by
  cases ev with
  | api e => exact i.moved (grows_step c.api e) rfl rfl rfl rfl
  | go =>
    unfold Client.step
    dsimp only
    split
    · exact i.advance ‹_›
    · exact i
  | connected r =>
    unfold Client.step
    dsimp only
    split
    · rename_i op k hp
      cases op with
      | connect => exact i.answered (op := .connect) (r := r) (by intros; simp) (Grows.refl _) rfl rfl rfl
      | _ => exact i
    · exact i
  | spawned =>
    unfold Client.step Client.runSpawned
    dsimp only
    split
    · exact i
    · split
      · exact i.moved (Grows.refl _) rfl rfl rfl rfl
      · rename_i o _
        exact i.moved (grows_step c.api (.submit o none none)) rfl rfl rfl rfl
  | cancel =>
    unfold Client.step
    dsimp only
    split
    · rename_i op k hp
      cases op with
      | request sub command payload expected =>
        unfold Client.interrupt
        dsimp only
        split
        · rename_i t _
          exact i.moved (grows_step c.api (.cancel t)) rfl rfl rfl rfl
        · exact i
      | wait w =>
        unfold Client.interrupt
        dsimp only
        split
        · exact i.answered (op := .wait w) (r := .error .cancelledError) (by intros; simp)
            (grows_step c.api (.abandon w)) rfl rfl rfl
        · exact i
      | _ => exact i
    · exact i

theorem limit_inv {α : Type} (p : Prog α) (evs : List ClientEvent) : LimitInv (Client.run p evs) := by
  have : ∀ (evs : List ClientEvent) (c : Client α), LimitInv c → LimitInv (evs.foldl Client.step c) := by
    intro evs
    induction evs with
    | nil => intro c i; exact i
    | cons ev evs ih => intro c i; exact ih _ (i.step ev)
  exact this evs _ ⟨fun w d h => (by cases h), fun m to w h => by cases h⟩

/-- The history does not get shorter. -/
theorem append_self {α : Type} {l : List α} {a : α} : l ≠ l ++ [a] := by
  intro h
  have := congrArg List.length h
  simp at this

/-- When a wait ends with a timeout, its time limit is over and its waiter has no result. -/
theorem timeout_late {α : Type} {c : Client α} (i : LimitInv c) (ev : ClientEvent) (w : Nat)
    (h : (c.step ev).hist = c.hist ++ [⟨.wait w, .error .timeoutError⟩]) :
    c.api.fut w = .pending ∧ ∃ d, c.pend = .wait w d ∧ d ≤ c.api.now := by
  have last : ∀ {op : Op} {r : Except PyErr op.Ans},
      c.hist ++ [⟨op, r⟩] = c.hist ++ [⟨.wait w, .error .timeoutError⟩] →
      (⟨op, r⟩ : Act) = ⟨.wait w, .error .timeoutError⟩ := by
    intro op r h
    have := List.append_cancel_left h
    simpa using this
  cases ev with
  | api e => exact absurd h append_self
  | go =>
    unfold Client.step at h
    dsimp only at h
    split at h
    · rename_i op k hp
      cases op with
      | request sub command payload expected =>
        unfold Client.advance at h
        dsimp only at h
        split at h
        · split at h
          · have := congrArg Act.op (last h); cases this
          · exact absurd h append_self
        · split at h
          · have := congrArg Act.op (last h); cases this
          · exact absurd h append_self
      | wait w' =>
        unfold Client.advance at h
        dsimp only at h
        split at h
        · rename_i w2 d hd
          obtain ⟨k', hk'⟩ := i.prog w2 d hd
          rw [hp] at hk'
          have hw2 : w' = w2 := by cases hk'; rfl
          subst hw2
          split at h
          · have := last h
            cases this
          · have := last h
            cases this
          · rename_i hf
            split at h
            · rename_i hle
              have := congrArg Act.op (last h)
              cases this
              exact ⟨hf, d, hd, hle⟩
            · exact absurd h append_self
        · exact absurd h append_self
      | spawn sub command payload => have := congrArg Act.op (last h); cases this
      | waitFor m timeout => have := congrArg Act.op (last h); cases this
      | connect => exact absurd h append_self
      | semaphore n => have := congrArg Act.op (last h); cases this
      | coordinator ieee nwk => have := congrArg Act.op (last h); cases this
    · exact absurd h append_self
  | connected r =>
    unfold Client.step at h
    dsimp only at h
    split at h
    · rename_i op k hp
      cases op with
      | connect => have := congrArg Act.op (last h); cases this
      | _ => exact absurd h append_self
    · exact absurd h append_self
  | spawned =>
    unfold Client.step Client.runSpawned at h
    dsimp only at h
    split at h
    · exact absurd h append_self
    · split at h <;> exact absurd h append_self
  | cancel =>
    unfold Client.step at h
    dsimp only at h
    split at h
    · rename_i op k hp
      cases op with
      | request sub command payload expected =>
        unfold Client.interrupt at h
        dsimp only at h
        split at h <;> exact absurd h append_self
      | wait w' =>
        unfold Client.interrupt at h
        dsimp only at h
        split at h
        · have := last h
          cases this
        · exact absurd h append_self
      | _ => exact absurd h append_self
    · exact absurd h append_self

/-! ## Number of requests -/

/-- The object of a call, if the entry is one. -/
def Entry.subObj : Entry → Option Obj
  | .submitted _ o _ _ => some o
  | _ => none

theorem submissions_eq (L : List Entry) : submissions L = L.filterMap Entry.subObj := by
  unfold submissions
  congr

theorem subObj_length (L : List Entry) :
    (L.filterMap Entry.subObj).length = (L.filterMap Entry.subId).length := by
  induction L with
  | nil => rfl
  | cons e L ih =>
    cases e
    case submitted t o w x =>
      rw [List.filterMap_cons_some (f := Entry.subObj) (b := o) rfl,
        List.filterMap_cons_some (f := Entry.subId) (b := t) rfl,
        List.length_cons, List.length_cons, ih]
    all_goals
      rw [List.filterMap_cons_none (f := Entry.subObj) rfl,
        List.filterMap_cons_none (f := Entry.subId) rfl, ih]

theorem submissions_step {s : Api} (i : Inv s) (ev : Event) :
    ∃ ext, (s.step ev).log = s.log ++ ext ∧ (ext.filterMap Entry.subObj).length ≤ 1 ∧
      ∀ o ∈ ext.filterMap Entry.subObj, ∃ w e, ev = .submit o w e := by
  obtain ⟨ext, hext⟩ := (grows_step s ev).log
  have i' := i.step ev
  have hsubs : (s.step ev).log.filterMap Entry.subId = List.range (s.step ev).nextTid := i'.log.subs
  have hnd : ((s.log ++ ext).filterMap Entry.subId).Nodup := by
    rw [hext, hsubs]; exact List.nodup_range
  rw [List.filterMap_append] at hnd
  have hnew : ∀ t o w e, Entry.submitted t o w e ∈ ext → ev = .submit o w e ∧ t = s.nextTid := by
    intro t o w e hm
    have : .submitted t o w e ∈ (s.step ev).log := by rw [← hext]; exact List.mem_append_right _ hm
    rcases sub_new this with h | h
    · exfalso
      have h1 : t ∈ s.log.filterMap Entry.subId := List.mem_filterMap.mpr ⟨_, h, rfl⟩
      have h2 : t ∈ ext.filterMap Entry.subId := List.mem_filterMap.mpr ⟨_, hm, rfl⟩
      exact (List.nodup_append.mp hnd).2.2 t h1 t h2 rfl
    · exact h
  refine ⟨ext, hext.symm, ?_, ?_⟩
  · rw [subObj_length]
    have hall : ∀ t ∈ ext.filterMap Entry.subId, t = s.nextTid := by
      intro t ht
      obtain ⟨x, hx, hxt⟩ := List.mem_filterMap.mp ht
      cases x <;> simp [Entry.subId] at hxt
      subst hxt
      exact (hnew _ _ _ _ hx).2
    have hn2 := (List.nodup_append.mp hnd).2.1
    match hL : ext.filterMap Entry.subId with
    | [] => simp
    | [x] => simp
    | x :: y :: rest =>
      exfalso
      rw [hL] at hn2 hall
      have h1 := hall x (by simp)
      have h2 := hall y (by simp)
      simp [h1, h2] at hn2
  · intro o ho
    obtain ⟨x, hx, hxo⟩ := List.mem_filterMap.mp ho
    cases x <;> simp [Entry.subObj] at hxo
    subst hxo
    exact ⟨_, _, (hnew _ _ _ _ hx).1⟩

theorem submissions_same {s : Api} (i : Inv s) {ev : Event} (h : ∀ o w e, ev ≠ .submit o w e) :
    (s.step ev).log.filterMap Entry.subObj = s.log.filterMap Entry.subObj := by
  obtain ⟨ext, h1, _, h3⟩ := submissions_step i ev
  rw [h1, List.filterMap_append]
  have : ext.filterMap Entry.subObj = [] := by
    match hL : ext.filterMap Entry.subObj with
    | [] => rfl
    | x :: rest =>
      obtain ⟨w, e, he⟩ := h3 x (by rw [hL]; simp)
      exact absurd he (h _ _ _)
  rw [this, List.append_nil]

theorem submissions_submit {s : Api} (i : Inv s) (o : Obj) (e : Option (List Int)) :
    (s.step (.submit o none e)).log.filterMap Entry.subObj = s.log.filterMap Entry.subObj ++ [o] := by
  obtain ⟨ext, h1, h2, h3⟩ := submissions_step i (.submit o none e)
  rw [h1, List.filterMap_append]
  congr 1
  have hm := submit_logged s o e
  rw [h1] at hm
  have hx : Entry.submitted s.nextTid o none e ∈ ext := by
    rcases List.mem_append.mp hm with h | h
    · exfalso
      have : s.nextTid ∈ s.log.filterMap Entry.subId := List.mem_filterMap.mpr ⟨_, h, rfl⟩
      rw [i.log.subs] at this
      simp at this
    · exact h
  have hmem : o ∈ ext.filterMap Entry.subObj := List.mem_filterMap.mpr ⟨_, hx, rfl⟩
  match hL : ext.filterMap Entry.subObj with
  | [] => rw [hL] at hmem; simp at hmem
  | [x] => rw [hL] at hmem; simp at hmem; rw [hmem]
  | x :: y :: rest => rw [hL] at h2; simp at h2

/-- Every command of the coroutine is submitted once, unless its task has not begun to run. -/
structure CountInv {α : Type} (c : Client α) : Prop where
  api : Inv c.api
  call : ∀ t, c.pend = .call t → ∃ sub command payload e k o,
    c.prog = .call (.request sub command payload e) k ∧ Obj.fromCommand sub command payload = .ok o
  count : (submissions c.api.log ++ unsent c).Perm (commands c.hist ++ current c)

theorem submissions_other {s : Api} (i : Inv s) {ev : Event} (h : ∀ o w e, ev ≠ .submit o w e) :
    submissions (s.step ev).log = submissions s.log := by
  rw [submissions_eq, submissions_eq, submissions_same i h]

theorem submissions_add {s : Api} (i : Inv s) (o : Obj) (e : Option (List Int)) :
    submissions (s.step (.submit o none e)).log = submissions s.log ++ [o] := by
  rw [submissions_eq, submissions_eq, submissions_submit i]

theorem commands_snoc (h : List Act) (a : Act) :
    commands (h ++ [a]) = commands h ++ (commanded a.op).toList := by
  unfold commands
  rw [List.filterMap_append]
  congr 1

theorem CountInv.moved {α : Type} {c c' : Client α} (i : CountInv c) {ev : Event}
    (h : ∀ o w e, ev ≠ .submit o w e) (h1 : c'.api = c.api.step ev) (h2 : c'.prog = c.prog)
    (h3 : c'.hist = c.hist) (h4 : c'.pend = c.pend) (h5 : c'.spawned = c.spawned) :
    CountInv c' := by
  refine ⟨by rw [h1]; exact i.api.step ev, by rw [h4, h2]; exact i.call, ?_⟩
  have : unsent c' = unsent c := by unfold unsent; rw [h5]
  have hc : current c' = current c := by unfold current; rw [h4, h2]
  rw [this, hc, h1, h3, submissions_other i.api h]
  exact i.count

/-- The operation ended and was no request that the coroutine was suspended in. -/
theorem CountInv.ended {α : Type} {c c' : Client α} (i : CountInv c) {op : Op}
    {r : Except PyErr op.Ans} (hn : commanded op = none) (hc : current c = [])
    (ha : Inv c'.api) (h1 : submissions c'.api.log = submissions c.api.log)
    (h3 : c'.hist = c.hist ++ [⟨op, r⟩]) (h4 : c'.pend = .idle) (h5 : c'.spawned = c.spawned) :
    CountInv c' := by
  refine ⟨ha, fun t h => (by rw [h4] at h; cases h), ?_⟩
  have : unsent c' = unsent c := by unfold unsent; rw [h5]
  have hc' : current c' = [] := by unfold current; rw [h4]
  rw [this, hc', h1, h3, commands_snoc, hn]
  have := i.count
  rw [hc] at this
  simpa using this

theorem current_other {α : Type} {c : Client α} {op : Op} {k : Except PyErr op.Ans → Prog α}
    (hp : c.prog = .call op k) (hn : commanded op = none) : current c = [] := by
  unfold current
  rw [hp]
  cases c.pend <;> simp [hn]

theorem CountInv.advance {α : Type} {c : Client α} (i : CountInv c) {op : Op}
    {k : Except PyErr op.Ans → Prog α} (hp : c.prog = .call op k) : CountInv (c.advance op k) := by
  cases op with
  | request sub command payload expected =>
    unfold Client.advance
    dsimp only
    split
    · rename_i t ht
      split
      · rename_i r hr
        refine ⟨i.api, fun t h => (by cases h), ?_⟩
        have h := i.count
        have hcur : current c = (commanded (.request sub command payload expected)).toList := by
          unfold current; rw [ht, hp]
        rw [hcur] at h
        show (submissions c.api.log ++ unsent c).Perm (commands (c.hist ++ [_]) ++ [])
        rw [commands_snoc, List.append_nil]
        exact h
      · exact i
    · rename_i hnc
      have hcur : current c = [] := by
        unfold current
        split
        · rename_i t op' k' h1 h2
          exact absurd h1 (hnc t)
        · rfl
      have h := i.count
      rw [hcur, List.append_nil] at h
      split
      · rename_i e he
        refine ⟨i.api, fun t h => (by cases h), ?_⟩
        show (submissions c.api.log ++ unsent c).Perm (commands (c.hist ++ [_]) ++ [])
        rw [commands_snoc, List.append_nil]
        have : commanded (.request sub command payload expected) = none := by
          show (Obj.fromCommand sub command payload).toOption = none
          rw [he]; rfl
        simp only [this]
        simpa using h
      · rename_i o ho
        refine ⟨i.api.step (.submit o none expected), fun t h => ⟨sub, command, payload, expected, k, o, hp, ho⟩, ?_⟩
        show (submissions (c.api.step (.submit o none expected)).log ++ unsent c).Perm
          (commands c.hist ++ current { c with
            api := c.api.step (.submit o none expected), pend := .call c.api.nextTid })
        have hcm : current { c with
            api := c.api.step (.submit o none expected), pend := .call c.api.nextTid } = [o] := by
          unfold current
          simp only [hp]
          show ((Obj.fromCommand sub command payload).toOption).toList = [o]
          rw [ho]; rfl
        rw [hcm, submissions_add i.api, List.append_assoc]
        refine (List.Perm.append_left _ List.perm_append_comm).trans ?_
        rw [← List.append_assoc]
        exact h.append_right _
  | spawn sub command payload =>
    refine ⟨i.api, fun t h => (by cases h), ?_⟩
    have hcur : current c = [] := by
      unfold current
      split
      · rename_i t op' k' h1 h2
        obtain ⟨_, _, _, _, _, _, h3, _⟩ := i.call t h1
        rw [hp] at h3; cases h3
      · rfl
    have h := i.count
    rw [hcur, List.append_nil] at h
    show (submissions c.api.log ++ (c.spawned ++ [(sub, command, payload)]).filterMap
      (fun x => (Obj.fromCommand x.1 x.2.1 x.2.2).toOption)).Perm
      (commands (c.hist ++ [_]) ++ [])
    rw [commands_snoc, List.append_nil, List.filterMap_append, ← List.append_assoc]
    refine List.Perm.append h ?_
    show List.Perm _ ((Obj.fromCommand sub command payload).toOption).toList
    simp only [List.filterMap_cons, List.filterMap_nil]
    cases (Obj.fromCommand sub command payload).toOption <;> exact .refl _
  | waitFor m timeout =>
    exact i.ended (op := .waitFor m timeout) (r := .ok c.api.waiterId) rfl (current_other hp rfl)
      (i.api.step (.register m timeout none)) (submissions_other i.api (by intros; simp)) rfl rfl rfl
  | wait w =>
    have hcur := current_other hp rfl
    unfold Client.advance
    dsimp only
    split
    · split
      · exact i.ended (op := .wait w) rfl hcur i.api rfl rfl rfl rfl
      · exact i.ended (op := .wait w) (r := .error .cancelledError) rfl hcur i.api rfl rfl rfl rfl
      · split
        · exact i.ended (op := .wait w) (r := .error .timeoutError) rfl hcur
            (i.api.step (.abandon w)) (submissions_other i.api (by intros; simp)) rfl rfl rfl
        · exact i
    · refine ⟨i.api, fun t h => (by cases h), ?_⟩
      have h := i.count
      rw [hcur] at h
      exact h
  | connect => exact i
  | semaphore n =>
    exact i.ended (op := .semaphore n) (r := .ok ()) rfl (current_other hp rfl) i.api rfl rfl rfl rfl
  | coordinator ieee nwk =>
    exact i.ended (op := .coordinator ieee nwk) (r := .ok ()) rfl (current_other hp rfl) i.api rfl rfl rfl rfl

theorem CountInv.step {α : Type} {c : Client α} (i : CountInv c) {ev : ClientEvent}
    (ha : ∀ o w e, ev ≠ .api (.submit o w e)) : CountInv (c.step ev) := by
  cases ev with
  | api e => exact i.moved (ev := e) (fun o w x h => ha o w x (by rw [h])) rfl rfl rfl rfl rfl
  | go =>
    unfold Client.step
    dsimp only
    split
    · exact i.advance ‹_›
    · exact i
  | connected r =>
    unfold Client.step
    dsimp only
    split
    · rename_i op k hp
      cases op with
      | connect =>
        exact i.ended (op := .connect) (r := r) rfl (current_other hp rfl) i.api rfl rfl rfl rfl
      | _ => exact i
    · exact i
  | spawned =>
    unfold Client.step Client.runSpawned
    dsimp only
    split
    · exact i
    · rename_i x rest hx
      have h := i.count
      split
      · rename_i e he
        refine ⟨i.api, i.call, ?_⟩
        have : unsent c = unsent { c with spawned := rest } := by
          unfold unsent
          rw [hx, List.filterMap_cons_none (by rw [he]; rfl)]
        rw [this] at h
        exact h
      · rename_i o ho
        refine ⟨i.api.step (.submit o none none), i.call, ?_⟩
        have : unsent c = o :: unsent { c with spawned := rest } := by
          unfold unsent
          rw [hx, List.filterMap_cons_some (b := o) (by rw [ho]; rfl)]
        rw [this] at h
        show (submissions (c.api.step (.submit o none none)).log ++ unsent { c with spawned := rest }).Perm
          (commands c.hist ++ current c)
        rw [submissions_add i.api, List.append_assoc]
        exact h
  | cancel =>
    unfold Client.step
    dsimp only
    split
    · rename_i op k hp
      cases op with
      | request sub command payload expected =>
        unfold Client.interrupt
        dsimp only
        split
        · rename_i t _
          exact i.moved (ev := .cancel t) (by intros; simp) rfl rfl rfl rfl rfl
        · exact i
      | wait w =>
        unfold Client.interrupt
        dsimp only
        split
        · exact i.ended (op := .wait w) (r := .error .cancelledError) rfl (current_other hp rfl)
            (i.api.step (.abandon w)) (submissions_other i.api (by intros; simp)) rfl rfl rfl
        · exact i
      | _ => exact i
    · exact i

theorem count_inv {α : Type} (p : Prog α) (evs : List ClientEvent) (ha : Alone evs) :
    CountInv (Client.run p evs) := by
  have : ∀ (evs : List ClientEvent) (c : Client α), Alone evs → CountInv c →
      CountInv (evs.foldl Client.step c) := by
    intro evs
    induction evs with
    | nil => intro c _ i; exact i
    | cons ev evs ih =>
      intro c ha i
      exact ih _ (fun o w e h => ha o w e (.tail _ h))
        (i.step (fun o w e h => ha o w e (h ▸ .head _)))
  exact this evs _ ha ⟨inv_init, fun t h => (by cases h), .refl _⟩

end Zcc
