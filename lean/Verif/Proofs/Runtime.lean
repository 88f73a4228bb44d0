import Verif.Model.Runtime
import Verif.Proofs.Codec

/-!
# Invariants of the API transition system (helper lemmas)
-/

namespace Zcc

/-- Call number of a `submitted` entry. -/
def Entry.subId : Entry → Option Nat | .submitted t _ _ _ => some t | _ => none
/-- Call number of a `sent` entry. -/
def Entry.sentId : Entry → Option Nat | .sent t _ => some t | _ => none
/-- Call number of a `finished` entry. -/
def Entry.finId : Entry → Option Nat | .finished t _ => some t | _ => none
/-- Waiter id of a `registered` entry. -/
def Entry.regId : Entry → Option Nat | .registered w _ => some w.id | _ => none
/-- Waiter id of a `resolved` entry. -/
def Entry.resId : Entry → Option Nat | .resolved w _ => some w | _ => none

/-- The bytes a request is written as. -/
def encode (o : Obj) : Except PyErr (List UInt8) := o.toUnpiFrame >>= Gateway.send

/-- Holding the lock. -/
def Pc.active : Pc → Prop
  | .running => True
  | .waiting _ _ => True
  | _ => False

theorem upd_same {β : Type} (f : Nat → β) (i : Nat) (v : β) : upd f i v i = v := by simp [upd]
theorem upd_other {β : Type} (f : Nat → β) {i j : Nat} (v : β) (h : j ≠ i) : upd f i v j = f j := by
  simp [upd, h]

/-! ## Sublists -/

theorem sub_grow {α : Type} {a l : List α} (x : List α) (h : a.Sublist l) : a.Sublist (l ++ x) :=
  h.trans (List.sublist_append_left l x)

theorem sub_snoc {α : Type} {a l : List α} (x : α) (h : a.Sublist l) : (a ++ [x]).Sublist (l ++ [x]) :=
  h.append (List.Sublist.refl [x])

theorem sub_pair {α : Type} {a : α} {l : List α} (x : α) (h : a ∈ l) : [a, x].Sublist (l ++ [x]) :=
  sub_snoc x (List.singleton_sublist.mpr h)

theorem sub_two_snoc {α : Type} {a b x : α} {l : List α} (h : [a, b].Sublist (l ++ [x])) :
    [a, b].Sublist l ∨ (b = x ∧ a ∈ l) := by
  rw [List.sublist_append_iff] at h
  obtain ⟨l1, l2, he, h1, h2⟩ := h
  rcases l2 with _ | ⟨y, l2⟩
  · left; simp at he; rw [he]; exact h1
  · right
    have hl := h2.length_le
    simp at hl
    subst hl
    rcases l1 with _ | ⟨z, _ | ⟨z', l1⟩⟩
    · simp at he
    · simp at he
      obtain ⟨rfl, rfl⟩ := he
      refine ⟨?_, List.singleton_sublist.mp h1⟩
      exact List.mem_singleton.mp (List.singleton_sublist.mp h2)
    · simp at he

theorem fm_none {α β : Type} {f : α → Option β} {L : List α} {x : α} (h : f x = none) :
    (L ++ [x]).filterMap f = L.filterMap f := by
  rw [List.filterMap_append, List.filterMap_cons_none h, List.filterMap_nil, List.append_nil]

theorem fm_some {α β : Type} {f : α → Option β} {L : List α} {x : α} {a : β} (h : f x = some a) :
    (L ++ [x]).filterMap f = L.filterMap f ++ [a] := by
  rw [List.filterMap_append, List.filterMap_cons_some h, List.filterMap_nil]

/-! ## The invariants -/

/-- Tasks, lock and queue fit together. -/
structure LockInv (T : Nat → Option Task) (n : Nat) (h : Option Nat) (Q : List Nat) : Prop where
  tid : ∀ t, (∃ k, T t = some k) ↔ t < n
  qIff : ∀ t, t ∈ Q ↔ ∃ k, T t = some k ∧ k.pc = .queued
  qSorted : Q.Pairwise (· < ·)
  hIff : ∀ t, h = some t ↔ ∃ k, T t = some k ∧ k.pc.active
  hQueue : ∀ t, h = some t → ∀ q ∈ Q, t < q

/-- What the log says about submissions, sends and completions. -/
structure LogInv (T : Nat → Option Task) (n : Nat) (h : Option Nat) (Q : List Nat)
    (L : List Entry) : Prop where
  subs : L.filterMap Entry.subId = List.range n
  subIff : ∀ t o w e, .submitted t o w e ∈ L ↔
    ∃ k, T t = some k ∧ k.obj = o ∧ k.waiterId = w ∧ k.expected = e
  fin : ∀ t r, .finished t r ∈ L ↔ ∃ k, T t = some k ∧ k.pc = .done r
  finNodup : (L.filterMap Entry.finId).Nodup
  sentStarted : ∀ t b, .sent t b ∈ L →
    ∃ k, T t = some k ∧ k.pc ≠ .queued ∧ encode k.obj = .ok b
  sentSorted : (L.filterMap Entry.sentId).Pairwise (· < ·)
  sentQueue : ∀ t b, .sent t b ∈ L → ∀ q ∈ Q, t < q
  sentDone : ∀ t b, .sent t b ∈ L → h = some t ∨ ∃ r, [Entry.sent t b, .finished t r].Sublist L
  serial : ∀ t1 b1 t2 b2, [Entry.sent t1 b1, .sent t2 b2].Sublist L →
    ∃ r, [Entry.sent t1 b1, .finished t1 r, .sent t2 b2].Sublist L
  before : ∀ t2 b, .sent t2 b ∈ L → ∀ t1, t1 < t2 →
    ∃ r, [Entry.finished t1 r, .sent t2 b].Sublist L

/-- Waiter table, futures, timers. -/
structure WaitInv (W : List Waiter) (n : Nat) (F : Nat → Fut) (Tm : List (Nat × Nat))
    (X : List Nat) (L : List Entry) : Prop where
  ids : (W.map (·.id)).Pairwise (· < ·)
  lt : ∀ x ∈ W, x.id < n
  fresh : ∀ w, n ≤ w → F w = .pending
  resOut : ∀ w o, F w = .result o → ∀ x ∈ W, x.id ≠ w
  regs : L.filterMap Entry.regId = List.range n
  regW : ∀ x ∈ W, ∃ time, .registered x time ∈ L ∧ (x.id, time + x.timeout + 100) ∈ Tm
  resIff : ∀ w o, .resolved w o ∈ L ↔ F w = .result o
  resNodup : (L.filterMap Entry.resId).Nodup
  extLt : ∀ w ∈ X, w < n

/-- How a finished call may have finished. -/
def Outcome (k : Task) (t : Nat) (L : List Entry) : Except PyErr (Option Obj) → Prop
  | .ok (some o) => ∃ m to b f, ownWaiter k.obj = some (m, to) ∧ m.match o = .ok true ∧
      [Entry.sent t b, .received f o, .finished t (.ok (some o))].Sublist L ∧
      (k.obj.commandType = .SREQ → badStatus k.expected o = none)
  | .ok none => k.obj.commandType = .AREQ ∧ k.obj.isResetCommand = false ∧
      ∃ b, [Entry.sent t b, .finished t (.ok none)].Sublist L
  | .error e =>
      ((∀ b, Entry.sent t b ∉ L) ∧
        (e = .cancelledError ∨ e = .attributeError ∨ encode k.obj = .error e ∨
          (e = .exception ∧ k.obj.commandType ≠ .SREQ ∧ k.obj.commandType ≠ .AREQ)))
      ∨ ((∃ b, Entry.sent t b ∈ L) ∧ (ownWaiter k.obj).isSome ∧
          (e = .cancelledError ∨ e = .timeoutError))
      ∨ (k.obj.commandType = .SREQ ∧ ∃ m to b f o z, ownWaiter k.obj = some (m, to) ∧
          m.match o = .ok true ∧ badStatus k.expected o = some z ∧
          [Entry.sent t b, .received f o, .finished t (.error e)].Sublist L ∧
          (e = .commandError z ∨ (e = .keyError "waiter" ∧ k.waiterId.isSome)))

/-- Calls and their own waiters. -/
structure RespInv (T : Nat → Option Task) (W : List Waiter) (n : Nat) (F : Nat → Fut)
    (X : List Nat) (L : List Entry) : Prop where
  live : ∀ t k w d, T t = some k → k.pc = .waiting w d →
    w < n ∧ w ∉ X ∧ F w ≠ .cancelled ∧ (∃ b, .sent t b ∈ L) ∧
    ∃ m to, ownWaiter k.obj = some (m, to) ∧ (∀ x ∈ W, x.id = w → x.matcher = m) ∧
      ∀ o, F w = .result o → m.match o = .ok true ∧
        ∃ b f, [Entry.sent t b, .received f o].Sublist L
  done : ∀ t k r, T t = some k → k.pc = .done r → Outcome k t L r
  recv : ∀ f o, .received f o ∈ L → Obj.fromUnpiFrame f = .ok o

/-- The whole invariant. -/
structure Inv (s : Api) : Prop where
  lock : LockInv s.tasks s.nextTid s.holder s.queue
  log : LogInv s.tasks s.nextTid s.holder s.queue s.log
  wait : WaitInv s.waiters s.waiterId s.fut s.timers s.ext s.log
  resp : RespInv s.tasks s.waiters s.waiterId s.fut s.ext s.log

/-! ## Growing the log -/

theorem LogInv.grow {T n h Q L} (i : LogInv T n h Q L) {x : Entry}
    (h1 : x.subId = none) (h2 : x.finId = none) (h3 : x.sentId = none) :
    LogInv T n h Q (L ++ [x]) where
  subs := by simp [List.filterMap_append, h1, i.subs]
  subIff t o w e := by
    rw [← i.subIff t o w e]
    constructor
    · intro hm
      rcases List.mem_append.mp hm with hm | hm
      · exact hm
      · rw [List.mem_singleton] at hm; subst hm; simp [Entry.subId] at h1
    · exact fun hm => List.mem_append_left _ hm
  before t2 b hm t1 ht := by
    rcases List.mem_append.mp hm with hm | hm
    · obtain ⟨r, h⟩ := i.before t2 b hm t1 ht
      exact ⟨r, sub_grow _ h⟩
    · rw [List.mem_singleton] at hm; subst hm; simp [Entry.sentId] at h3
  fin t r := by
    rw [← i.fin t r]
    constructor
    · intro hm
      rcases List.mem_append.mp hm with hm | hm
      · exact hm
      · rw [List.mem_singleton] at hm; subst hm; simp [Entry.finId] at h2
    · exact fun hm => List.mem_append_left _ hm
  finNodup := by simpa [List.filterMap_append, h2] using i.finNodup
  sentStarted t b hm := by
    rcases List.mem_append.mp hm with hm | hm
    · exact i.sentStarted t b hm
    · rw [List.mem_singleton] at hm; subst hm; simp [Entry.sentId] at h3
  sentSorted := by simpa [List.filterMap_append, h3] using i.sentSorted
  sentQueue t b hm := by
    rcases List.mem_append.mp hm with hm | hm
    · exact i.sentQueue t b hm
    · rw [List.mem_singleton] at hm; subst hm; simp [Entry.sentId] at h3
  sentDone t b hm := by
    rcases List.mem_append.mp hm with hm | hm
    · rcases i.sentDone t b hm with h | ⟨r, h⟩
      · exact .inl h
      · exact .inr ⟨r, sub_grow _ h⟩
    · rw [List.mem_singleton] at hm; subst hm; simp [Entry.sentId] at h3
  serial t1 b1 t2 b2 hs := by
    rcases sub_two_snoc hs with hs | ⟨rfl, _⟩
    · obtain ⟨r, h⟩ := i.serial _ _ _ _ hs
      exact ⟨r, sub_grow _ h⟩
    · simp [Entry.sentId] at h3

theorem WaitInv.grow {W n F Tm X L} (i : WaitInv W n F Tm X L) {x : Entry}
    (h1 : x.regId = none) (h2 : x.resId = none) : WaitInv W n F Tm X (L ++ [x]) where
  ids := i.ids
  lt := i.lt
  fresh := i.fresh
  resOut := i.resOut
  regs := by simp [List.filterMap_append, h1, i.regs]
  regW y hy := by
    obtain ⟨time, h, h'⟩ := i.regW y hy
    exact ⟨time, List.mem_append_left _ h, h'⟩
  resIff w o := by
    rw [← i.resIff w o]
    constructor
    · intro hm
      rcases List.mem_append.mp hm with hm | hm
      · exact hm
      · rw [List.mem_singleton] at hm; subst hm; simp [Entry.resId] at h2
    · exact fun hm => List.mem_append_left _ hm
  resNodup := by simpa [List.filterMap_append, h2] using i.resNodup
  extLt := i.extLt

theorem Outcome.grow {k t L r} (x : Entry) (hx : ∀ b, x ≠ .sent t b) (h : Outcome k t L r) :
    Outcome k t (L ++ [x]) r := by
  match r, h with
  | .ok (some o), ⟨m, to, b, f, h1, h2, h3, h4⟩ => exact ⟨m, to, b, f, h1, h2, sub_grow _ h3, h4⟩
  | .ok none, ⟨h1, h2, b, h3⟩ => exact ⟨h1, h2, b, sub_grow _ h3⟩
  | .error e, .inl ⟨h1, h2⟩ =>
    refine .inl ⟨fun b hb => ?_, h2⟩
    rcases List.mem_append.mp hb with hb | hb
    · exact h1 b hb
    · exact hx b (List.mem_singleton.mp hb).symm
  | .error e, .inr (.inl ⟨⟨b, h1⟩, h2⟩) => exact .inr (.inl ⟨⟨b, List.mem_append_left _ h1⟩, h2⟩)
  | .error e, .inr (.inr ⟨h0, m, to, b, f, o, z, h1, h2, h3, h4, h5⟩) =>
    exact .inr (.inr ⟨h0, m, to, b, f, o, z, h1, h2, h3, sub_grow _ h4, h5⟩)

theorem RespInv.grow {T W n F X L} (i : RespInv T W n F X L) {x : Entry}
    (h1 : ∀ t k r, T t = some k → k.pc = .done r → ∀ b, x ≠ .sent t b)
    (h2 : ∀ f o, x = .received f o → Obj.fromUnpiFrame f = .ok o) :
    RespInv T W n F X (L ++ [x]) where
  live t k w d hk hpc := by
    obtain ⟨h1, h2, h3, ⟨b, h4⟩, m, to, h5, h6, h7⟩ := i.live t k w d hk hpc
    refine ⟨h1, h2, h3, ⟨b, List.mem_append_left _ h4⟩, m, to, h5, h6, fun o ho => ?_⟩
    obtain ⟨h8, b, f, h9⟩ := h7 o ho
    exact ⟨h8, b, f, sub_grow _ h9⟩
  done t k r hk hpc := (i.done t k r hk hpc).grow x (h1 t k r hk hpc)
  recv f o hm := by
    rcases List.mem_append.mp hm with hm | hm
    · exact i.recv f o hm
    · exact h2 f o (List.mem_singleton.mp hm).symm

/-! ## Primitive steps -/

theorem inv_init : Inv Api.init where
  lock := ⟨by simp [Api.init], by simp [Api.init], by simp [Api.init], by simp [Api.init], by simp [Api.init]⟩
  log := ⟨by simp [Api.init], by simp [Api.init], by simp [Api.init], by simp [Api.init], by simp [Api.init], by simp [Api.init],
    by simp [Api.init], by simp [Api.init], by simp [Api.init], by simp [Api.init]⟩
  wait := ⟨by simp [Api.init], by simp [Api.init], by simp [Api.init], by simp [Api.init],
    by simp [Api.init], by simp [Api.init], by simp [Api.init], by simp [Api.init],
    by simp [Api.init]⟩
  resp := ⟨by simp [Api.init], by simp [Api.init], by simp [Api.init]⟩

/-- A new waiter. -/
theorem WaitInv.register {W n F Tm X L} (i : WaitInv W n F Tm X L) (x : Waiter) (hx : x.id = n)
    (now : Nat) :
    WaitInv (W ++ [x]) (n + 1) F (Tm ++ [(x.id, now + x.timeout + 100)]) X
      (L ++ [.registered x now]) where
  ids := by
    rw [List.map_append, List.pairwise_append]
    refine ⟨i.ids, by simp, ?_⟩
    intro a ha b hb
    simp at hb ha
    obtain ⟨y, hy, rfl⟩ := ha
    rw [hb, hx]; exact i.lt y hy
  lt y hy := by
    rcases List.mem_append.mp hy with hy | hy
    · exact Nat.lt_succ_of_lt (i.lt y hy)
    · rw [List.mem_singleton] at hy; rw [hy, hx]; exact Nat.lt_succ_self n
  fresh w hw := i.fresh w (by omega)
  resOut w o hw y hy := by
    rcases List.mem_append.mp hy with hy | hy
    · exact i.resOut w o hw y hy
    · rw [List.mem_singleton] at hy; rw [hy, hx]
      intro h
      rw [i.fresh w (by omega)] at hw
      simp at hw
  regs := by simp [List.filterMap_append, i.regs, Entry.regId, hx, List.range_succ]
  regW y hy := by
    rcases List.mem_append.mp hy with hy | hy
    · obtain ⟨time, h, h'⟩ := i.regW y hy
      exact ⟨time, List.mem_append_left _ h, List.mem_append_left _ h'⟩
    · rw [List.mem_singleton] at hy; subst hy
      exact ⟨now, by simp, by simp⟩
  resIff w o := by
    rw [← i.resIff w o]; simp
  resNodup := by rw [fm_none rfl]; exact i.resNodup
  extLt w hw := Nat.lt_succ_of_lt (i.extLt w hw)

theorem RespInv.register {T W n F X L} (i : RespInv T W n F X L) (x : Waiter) (hx : x.id = n)
    (now : Nat) : RespInv T (W ++ [x]) (n + 1) F X (L ++ [.registered x now]) := by
  have g := i.grow (x := .registered x now) (by simp) (by simp)
  refine ⟨?_, g.done, g.recv⟩
  intro t k w d hk hpc
  obtain ⟨h1, h2, h3, h4, m, to, h5, h6, h7⟩ := g.live t k w d hk hpc
  refine ⟨by omega, h2, h3, h4, m, to, h5, ?_, h7⟩
  intro y hy hid
  rcases List.mem_append.mp hy with hy | hy
  · exact h6 y hy hid
  · rw [List.mem_singleton] at hy; subst hy; omega

theorem Inv.waitFor {s : Api} (i : Inv s) (m : Matcher) (to : Nat) (q : Option Int) :
    Inv (s.waitFor m to q).2 where
  lock := i.lock
  log := i.log.grow rfl rfl rfl
  wait := i.wait.register ⟨s.waiterId, m, to, q⟩ rfl s.now
  resp := i.resp.register ⟨s.waiterId, m, to, q⟩ rfl s.now

theorem Inv.waitForExt {s : Api} (i : Inv s) (m : Matcher) (to : Nat) (q : Option Int) :
    Inv { (s.waitFor m to q).2 with ext := (s.waitFor m to q).1 :: s.ext } where
  lock := i.lock
  log := i.log.grow rfl rfl rfl
  wait := by
    have g := i.wait.register ⟨s.waiterId, m, to, q⟩ rfl s.now
    exact ⟨g.ids, g.lt, g.fresh, g.resOut, g.regs, g.regW, g.resIff, g.resNodup, by
      intro w hw
      rcases List.mem_cons.mp hw with rfl | hw
      · exact Nat.lt_succ_self s.waiterId
      · exact g.extLt w hw⟩
  resp := by
    have g := i.resp.register ⟨s.waiterId, m, to, q⟩ rfl s.now
    refine ⟨?_, g.done, g.recv⟩
    intro t k w d hk hpc
    obtain ⟨h1, h2, h3, h4, h5⟩ := g.live t k w d hk hpc
    refine ⟨h1, ?_, h3, h4, h5⟩
    intro hm
    rcases List.mem_cons.mp hm with rfl | hm
    · have := (i.resp.live t k _ d hk hpc).1
      exact absurd this (Nat.lt_irrefl _)
    · exact h2 hm

/-- Removing a waiter from the table. -/
theorem Inv.pop {s : Api} (i : Inv s) (w : Nat) : Inv (s.pop w) where
  lock := i.lock
  log := i.log
  wait := by
    have sub : ∀ x ∈ (s.pop w).waiters, x ∈ s.waiters := fun x hx => (List.mem_filter.mp hx).1
    exact ⟨i.wait.ids.sublist (List.filter_sublist.map _), fun x hx => i.wait.lt x (sub x hx),
      i.wait.fresh, fun v o hv x hx => i.wait.resOut v o hv x (sub x hx), i.wait.regs,
      fun x hx => i.wait.regW x (sub x hx), i.wait.resIff, i.wait.resNodup, i.wait.extLt⟩
  resp := by
    refine ⟨?_, i.resp.done, i.resp.recv⟩
    intro t k v d hk hpc
    obtain ⟨h1, h2, h3, h4, m, to, h5, h6, h7⟩ := i.resp.live t k v d hk hpc
    exact ⟨h1, h2, h3, h4, m, to, h5, fun x hx => h6 x (List.mem_filter.mp hx).1, h7⟩

theorem Inv.note {s : Api} (i : Inv s) {x : Entry} (h1 : x.subId = none) (h2 : x.finId = none)
    (h3 : x.sentId = none) (h4 : x.regId = none) (h5 : x.resId = none)
    (h6 : ∀ f o, x = .received f o → Obj.fromUnpiFrame f = .ok o) :
    Inv { s with log := s.log ++ [x] } :=
  ⟨i.lock, i.log.grow h1 h2 h3, i.wait.grow h4 h5,
   i.resp.grow (by intro t k r _ _ b h; subst h; simp [Entry.sentId] at h3) h6⟩

theorem Inv.drop {s : Api} (i : Inv s) (w : Nat) : Inv (s.drop w) :=
  (i.pop w).note rfl rfl rfl rfl rfl (by simp)

theorem pop_not_mem (s : Api) (w : Nat) : ∀ x ∈ (s.pop w).waiters, x.id ≠ w := by
  intro x hx
  have := (List.mem_filter.mp hx).2
  simpa using this

/-- Resolving a waiter that is not in the table any more. `hresp`: if the waiter belongs to a
call, the message fits the call and came after the request was sent. -/
theorem Inv.setResult {s : Api} (i : Inv s) (w : Nat) (o : Obj)
    (hout : ∀ x ∈ s.waiters, x.id ≠ w) (hlt : w < s.waiterId)
    (hresp : ∀ t k d, s.tasks t = some k → k.pc = .waiting w d →
      ∃ m to, ownWaiter k.obj = some (m, to) ∧ m.match o = .ok true ∧
        ∃ b f, [Entry.sent t b, .received f o].Sublist s.log) :
    Inv (s.setResult w o) := by
  unfold Api.setResult
  split
  · rename_i hp
    refine ⟨i.lock, i.log.grow rfl rfl rfl, ?_, ?_⟩
    · refine ⟨i.wait.ids, i.wait.lt, ?_, ?_, ?_, ?_, ?_, ?_, i.wait.extLt⟩
      · intro v hv
        show upd s.fut w (.result o) v = _
        have hv : s.waiterId ≤ v := hv
        rw [upd_other _ _ (by omega)]
        exact i.wait.fresh v hv
      · intro v p hv x hx
        have hv : upd s.fut w (.result o) v = _ := hv
        by_cases h : v = w
        · subst h; exact hout x hx
        · rw [upd_other _ _ h] at hv
          exact i.wait.resOut v p hv x hx
      · simp [List.filterMap_append, Entry.regId, i.wait.regs]
      · intro x hx
        obtain ⟨time, h, h'⟩ := i.wait.regW x hx
        exact ⟨time, List.mem_append_left _ h, h'⟩
      · intro v p
        show _ ↔ upd s.fut w (.result o) v = _
        by_cases h : v = w
        · subst h
          rw [upd_same]
          have : Entry.resolved v p ∉ s.log := by
            rw [i.wait.resIff, hp]; simp
          simp [this]
          exact eq_comm
        · rw [upd_other _ _ h, ← i.wait.resIff]
          simp [h]
      · rw [fm_some (f := Entry.resId) (a := w) rfl, List.nodup_append]
        refine ⟨i.wait.resNodup, by simp, ?_⟩
        intro a ha b hb hab
        simp at hb
        subst hab hb
        simp only [List.mem_filterMap] at ha
        obtain ⟨x, hx, hxa⟩ := ha
        cases x <;> simp [Entry.resId] at hxa
        subst hxa
        rw [i.wait.resIff, hp] at hx
        simp at hx
    · have g := i.resp.grow (x := .resolved w o) (by simp) (by simp)
      refine ⟨?_, g.done, g.recv⟩
      intro t k v d hk hpc
      obtain ⟨h1, h2, h3, h4, m, to, h5, h6, h7⟩ := g.live t k v d hk hpc
      refine ⟨h1, h2, ?_, h4, m, to, h5, h6, ?_⟩
      · show upd s.fut w (.result o) v ≠ _
        by_cases h : v = w
        · subst h; rw [upd_same]; simp
        · rw [upd_other _ _ h]; exact h3
      · intro p hp'
        have hp' : upd s.fut w (.result o) v = _ := hp'
        by_cases h : v = w
        · subst h
          rw [upd_same] at hp'
          cases hp'
          obtain ⟨m', to', e1, e2, b, f, e3⟩ := hresp t k d hk hpc
          rw [h5] at e1
          cases e1
          exact ⟨e2, b, f, sub_grow _ e3⟩
        · rw [upd_other _ _ h] at hp'
          exact h7 p hp'
  · exact i

/-! ### Receiving -/

theorem pop_fields (s : Api) (w : Nat) :
    (s.pop w).tasks = s.tasks ∧ (s.pop w).log = s.log ∧ (s.pop w).waiterId = s.waiterId := by
  simp [Api.pop]

theorem setResult_fields (s : Api) (w : Nat) (o : Obj) :
    (s.setResult w o).tasks = s.tasks ∧ (s.setResult w o).waiterId = s.waiterId ∧
    (s.setResult w o).waiters = s.waiters ∧ (s.setResult w o).holder = s.holder ∧
    (s.setResult w o).queue = s.queue ∧ (s.setResult w o).ext = s.ext ∧
    ((s.setResult w o).log = s.log ∨ (s.setResult w o).log = s.log ++ [.resolved w o]) := by
  unfold Api.setResult
  split <;> simp

theorem inv_matchLoop (o : Obj) (f : Frame) : ∀ (ws : List Waiter) (s : Api), Inv s →
    (ws.map (·.id)).Pairwise (· < ·) → (∀ x ∈ ws, x ∈ s.waiters) →
    (∀ t b, .sent t b ∈ s.log → [Entry.sent t b, .received f o].Sublist s.log) →
    Inv (Api.matchLoop o ws s).1
  | [], s, i, _, _, _ => i
  | w :: ws, s, i, hp, hm, hs => by
    rw [List.map_cons, List.pairwise_cons] at hp
    rw [Api.matchLoop]
    split
    · exact i
    · exact inv_matchLoop o f ws s i hp.2 (fun x hx => hm x (List.mem_cons_of_mem _ hx)) hs
    · rename_i hmatch
      have hw := hm w List.mem_cons_self
      have i' : Inv ((s.pop w.id).setResult w.id o) := by
        apply (i.pop w.id).setResult w.id o (pop_not_mem s w.id) (i.wait.lt w hw)
        intro t k d hk hpc
        obtain ⟨_, _, _, ⟨b, h4⟩, m, to, h5, h6, _⟩ := i.resp.live t k w.id d hk hpc
        refine ⟨m, to, h5, ?_, b, f, hs t b h4⟩
        rw [← h6 w hw rfl]; exact hmatch
      have fs := setResult_fields (s.pop w.id) w.id o
      by_cases hseq : truthySeq w.sequence = true
      · rw [if_pos hseq]; exact i'
      · rw [if_neg hseq]
        apply inv_matchLoop o f ws _ i' hp.2
        · intro x hx
          rw [fs.2.2.1]
          refine List.mem_filter.mpr ⟨hm x (List.mem_cons_of_mem _ hx), ?_⟩
          have := hp.1 x.id (List.mem_map_of_mem hx)
          simp; omega
        · intro t b hb
          rcases fs.2.2.2.2.2.2 with hl | hl
          · rw [hl] at hb ⊢; exact hs t b hb
          · rw [hl] at hb ⊢
            simp at hb
            exact sub_grow _ (hs t b hb)

theorem Inv.dataReceived {s : Api} (i : Inv s) (f : Frame) : Inv (s.dataReceived f).1 := by
  unfold Api.dataReceived
  split
  · exact i
  · rename_i o ho
    have i' : Inv { s with log := s.log ++ [.received f o] } :=
      ⟨i.lock, i.log.grow rfl rfl rfl, i.wait.grow rfl rfl,
       i.resp.grow (by simp) (by intro f' o' h; cases h; exact ho)⟩
    have := inv_matchLoop o f s.waiters _ i' i.wait.ids (fun x hx => hx) (by
      intro t b hb
      have : Entry.sent t b ∈ s.log := by simpa using hb
      exact sub_pair _ this)
    dsimp only
    split
    · rename_i h; rw [h] at this; exact this
    · rename_i h; rw [h] at this; exact this.note rfl rfl rfl rfl rfl (by simp)

/-! ### Calls -/

theorem setPc_eq {s : Api} {t : Nat} {k : Task} (h : s.tasks t = some k) (pc : Pc) :
    s.setPc t pc = { s with tasks := upd s.tasks t (some { k with pc }) } := by
  unfold Api.setPc; rw [h]

/-- A new call. -/
theorem Inv.enqueue {s : Api} (i : Inv s) (o : Obj) (w : Option Nat) (e : Option (List Int))
    : Inv (s.enqueue o w e) := by
  have hnew : ∀ t k, s.tasks t = some k → t ≠ s.nextTid := by
    intro t k hk h
    have := (i.lock.tid t).mp ⟨k, hk⟩
    omega
  have old : ∀ t, t ≠ s.nextTid →
      (s.enqueue o w e).tasks t = s.tasks t := fun t ht => upd_other _ _ ht
  have new : (s.enqueue o w e).tasks s.nextTid = some ⟨o, w, e, .queued⟩ := upd_same _ _ _
  have back : ∀ t k, (s.enqueue o w e).tasks t = some k →
      s.tasks t = some k ∨ (t = s.nextTid ∧ k = ⟨o, w, e, .queued⟩) := by
    intro t k hk
    by_cases ht : t = s.nextTid
    · subst ht; rw [new] at hk; cases hk; exact .inr ⟨rfl, rfl⟩
    · rw [old t ht] at hk; exact .inl hk
  have fwd : ∀ t k, s.tasks t = some k → (s.enqueue o w e).tasks t = some k := by
    intro t k hk; rw [old t (hnew t k hk)]; exact hk
  have ex : ∀ (P : Task → Prop) t, (¬ P ⟨o, w, e, .queued⟩) →
      ((∃ k, (s.enqueue o w e).tasks t = some k ∧ P k) ↔ ∃ k, s.tasks t = some k ∧ P k) := by
    intro P t hP
    constructor
    · rintro ⟨k, hk, hp⟩
      rcases back t k hk with h | ⟨_, rfl⟩
      · exact ⟨k, h, hp⟩
      · exact absurd hp hP
    · rintro ⟨k, hk, hp⟩; exact ⟨k, fwd t k hk, hp⟩
  have g := i.log
  refine ⟨⟨?_, ?_, ?_, ?_, ?_⟩, ⟨?_, ?_, ?_, ?_, ?_, ?_, ?_, ?_, ?_, ?_⟩, i.wait.grow rfl rfl,
    ⟨?_, ?_, ?_⟩⟩
  · intro t
    show _ ↔ t < s.nextTid + 1
    by_cases ht : t = s.nextTid
    · subst ht; simp [new]
    · rw [old t ht, i.lock.tid]; omega
  · intro t
    show t ∈ s.queue ++ [s.nextTid] ↔ _
    rw [List.mem_append, List.mem_singleton]
    by_cases ht : t = s.nextTid
    · subst ht; simp [new]
    · rw [old t ht, i.lock.qIff]; simp [ht]
  · show (s.queue ++ [s.nextTid]).Pairwise _
    rw [List.pairwise_append]
    refine ⟨i.lock.qSorted, by simp, ?_⟩
    intro a ha b hb
    simp at hb
    obtain ⟨k, hk, _⟩ := (i.lock.qIff a).mp ha
    rw [hb]; exact (i.lock.tid a).mp ⟨k, hk⟩
  · intro t
    rw [ex (fun k => k.pc.active) t (by simp [Pc.active])]
    exact i.lock.hIff t
  · intro t ht q hq
    have hq : q ∈ s.queue ++ [s.nextTid] := hq
    rcases List.mem_append.mp hq with hq | hq
    · exact i.lock.hQueue t ht q hq
    · rw [List.mem_singleton] at hq
      obtain ⟨k, hk, _⟩ := (i.lock.hIff t).mp ht
      rw [hq]; exact (i.lock.tid t).mp ⟨k, hk⟩
  · show (s.log ++ [_]).filterMap _ = _
    rw [List.filterMap_append, g.subs]
    simp [Entry.subId, Api.enqueue, List.range_succ]
  · intro t o' w' e'
    show _ ∈ s.log ++ [_] ↔ _
    rw [List.mem_append, g.subIff, List.mem_singleton]
    by_cases ht : t = s.nextTid
    · subst ht
      rw [new]
      constructor
      · rintro (⟨k, hk, _⟩ | h)
        · exact absurd rfl (hnew _ k hk)
        · cases h; exact ⟨_, rfl, rfl, rfl, rfl⟩
      · rintro ⟨k, hk, h1, h2, h3⟩
        cases hk; subst h1 h2 h3; exact .inr rfl
    · rw [old t ht]; simp [ht]
  · intro t r
    rw [ex (fun k => k.pc = .done r) t (by simp)]
    rw [← g.fin]
    simp [Api.enqueue]
  · show ((s.log ++ [_]).filterMap _).Nodup
    rw [fm_none rfl]; exact g.finNodup
  · intro t b hb
    have hb : Entry.sent t b ∈ s.log := by simpa [Api.enqueue] using hb
    obtain ⟨k, hk, h1⟩ := g.sentStarted t b hb
    exact ⟨k, fwd t k hk, h1⟩
  · show ((s.log ++ [_]).filterMap _).Pairwise _
    rw [fm_none rfl]; exact g.sentSorted
  · intro t b hb q hq
    have hb : Entry.sent t b ∈ s.log := by simpa [Api.enqueue] using hb
    have hq : q ∈ s.queue ++ [s.nextTid] := hq
    rcases List.mem_append.mp hq with hq | hq
    · exact g.sentQueue t b hb q hq
    · rw [List.mem_singleton] at hq
      obtain ⟨k, hk, _⟩ := g.sentStarted t b hb
      rw [hq]; exact (i.lock.tid t).mp ⟨k, hk⟩
  · intro t b hb
    have hb : Entry.sent t b ∈ s.log := by simpa [Api.enqueue] using hb
    rcases g.sentDone t b hb with h | ⟨r, h⟩
    · exact .inl h
    · exact .inr ⟨r, sub_grow _ h⟩
  · intro t1 b1 t2 b2 hs
    rcases sub_two_snoc hs with hs | ⟨h, _⟩
    · obtain ⟨r, h⟩ := g.serial _ _ _ _ hs
      exact ⟨r, sub_grow _ h⟩
    · simp at h
  · intro t b hb t1 ht
    have hb : Entry.sent t b ∈ s.log := by simpa [Api.enqueue] using hb
    obtain ⟨r, h⟩ := g.before t b hb t1 ht
    exact ⟨r, sub_grow _ h⟩
  · intro t k v d hk hpc
    rcases back t k hk with h | ⟨_, rfl⟩
    · exact (i.resp.grow (x := .submitted s.nextTid o w e) (by simp) (by simp)).live t k v d h hpc
    · simp at hpc
  · intro t k r hk hpc
    rcases back t k hk with h | ⟨_, rfl⟩
    · exact (i.resp.grow (x := .submitted s.nextTid o w e) (by simp) (by simp)).done t k r h hpc
    · simp at hpc
  · exact (i.resp.grow (x := .submitted s.nextTid o w e) (by simp) (by simp)).recv

/-- Existence statements about tasks after a change of program point. -/
theorem tasks_upd {T : Nat → Option Task} {t : Nat} {k : Task} (_hk : T t = some k) (pc : Pc)
    {u : Nat} {k' : Task} (h : upd T t (some { k with pc }) u = some k') :
    (u ≠ t ∧ T u = some k') ∨ (u = t ∧ k' = { k with pc }) := by
  by_cases hu : u = t
  · subst hu; rw [upd_same] at h; cases h; exact .inr ⟨rfl, rfl⟩
  · rw [upd_other _ _ hu] at h; exact .inl ⟨hu, h⟩

/-- The first call in the queue takes the free lock. -/
theorem Inv.acquire {s : Api} (i : Inv s) {t : Nat} {q : List Nat} {k : Task}
    (hh : s.holder = none) (hq : s.queue = t :: q) (hk : s.tasks t = some k) :
    Inv (({ s with holder := some t, queue := q } : Api).setPc t .running) ∧
    (∀ t' b, .sent t' b ∈ s.log → t' < t) := by
  have hpc : k.pc = .queued := by
    obtain ⟨k', hk', hp⟩ := (i.lock.qIff t).mp (by rw [hq]; exact List.mem_cons_self)
    rw [hk] at hk'; cases hk'; exact hp
  have hlt : ∀ t' b, .sent t' b ∈ s.log → t' < t := by
    intro t' b hb
    exact i.log.sentQueue t' b hb t (by rw [hq]; exact List.mem_cons_self)
  refine ⟨?_, hlt⟩
  have hnq : t ∉ q := by
    have := i.lock.qSorted
    rw [hq, List.pairwise_cons] at this
    intro h
    exact absurd (this.1 t h) (Nat.lt_irrefl t)
  have hna : ∀ u k', s.tasks u = some k' → ¬ k'.pc.active := by
    intro u k' hu ha
    have := (i.lock.hIff u).mpr ⟨k', hu, ha⟩
    rw [hh] at this; simp at this
  rw [setPc_eq (s := { s with holder := some t, queue := q }) hk]
  have old : ∀ u, u ≠ t → upd s.tasks t (some { k with pc := .running }) u = s.tasks u :=
    fun u hu => upd_other _ _ hu
  have new : upd s.tasks t (some { k with pc := .running }) t = some { k with pc := .running } :=
    upd_same _ _ _
  have g := i.log
  refine ⟨⟨?_, ?_, ?_, ?_, ?_⟩, ⟨g.subs, ?_, ?_, g.finNodup, ?_, g.sentSorted, ?_, ?_, g.serial,
    g.before⟩, i.wait,
    ⟨?_, ?_, i.resp.recv⟩⟩
  · intro u
    rw [← i.lock.tid]
    by_cases hu : u = t
    · subst hu; dsimp only; rw [new]; simp [hk]
    · dsimp only; rw [old u hu]
  · intro u
    dsimp only
    by_cases hu : u = t
    · subst hu; rw [new]; simp [hnq]
    · rw [old u hu, ← i.lock.qIff, hq]; simp [hu]
  · have := i.lock.qSorted
    rw [hq, List.pairwise_cons] at this
    exact this.2
  · intro u
    dsimp only
    by_cases hu : u = t
    · subst hu; rw [new]; simp [Pc.active]
    · rw [old u hu]
      constructor
      · intro h; exact absurd (Option.some.inj h).symm hu
      · rintro ⟨k', h1, h2⟩; exact absurd h2 (hna u k' h1)
  · intro u hu v hv
    have := i.lock.qSorted
    rw [hq, List.pairwise_cons] at this
    cases hu
    exact this.1 v hv
  · intro u o w e
    dsimp only
    rw [g.subIff]
    by_cases hu : u = t
    · subst hu; rw [new, hk]; simp
    · rw [old u hu]
  · intro u r
    dsimp only
    rw [g.fin]
    by_cases hu : u = t
    · subst hu; rw [new]
      constructor
      · rintro ⟨k', h1, h2⟩; rw [hk] at h1; cases h1; rw [hpc] at h2; simp at h2
      · rintro ⟨k', h1, h2⟩; cases h1; simp at h2
    · rw [old u hu]
  · intro u b hb
    have : u ≠ t := Nat.ne_of_lt (hlt u b hb)
    dsimp only
    rw [old u this]
    exact g.sentStarted u b hb
  · intro u b hb v hv
    exact g.sentQueue u b hb v (by rw [hq]; exact List.mem_cons_of_mem _ hv)
  · intro u b hb
    rcases g.sentDone u b hb with h | h
    · rw [hh] at h; simp at h
    · exact .inr h
  · intro u k' v d hu hp
    rcases tasks_upd hk .running hu with ⟨_, h⟩ | ⟨_, rfl⟩
    · exact i.resp.live u k' v d h hp
    · simp at hp
  · intro u k' r hu hp
    rcases tasks_upd hk .running hu with ⟨_, h⟩ | ⟨_, rfl⟩
    · exact i.resp.done u k' r h hp
    · simp at hp

/-- The running call writes its request. -/
theorem Inv.sent {s : Api} (i : Inv s) {t : Nat} {k : Task} (hk : s.tasks t = some k)
    (hpc : k.pc = .running) (hlt : ∀ t' b, .sent t' b ∈ s.log → t' < t) {b : List UInt8}
    (hb : encode k.obj = .ok b) : Inv { s with log := s.log ++ [.sent t b] } := by
  have hh : s.holder = some t := (i.lock.hIff t).mpr ⟨k, hk, by rw [hpc]; trivial⟩
  have g := i.log
  refine ⟨i.lock, ⟨?_, ?_, ?_, ?_, ?_, ?_, ?_, ?_, ?_, ?_⟩, i.wait.grow rfl rfl,
    i.resp.grow ?_ (by simp)⟩
  · simp [List.filterMap_append, Entry.subId, g.subs]
  · intro u o w e; rw [← g.subIff]; simp
  · intro u r; rw [← g.fin]; simp
  · rw [fm_none rfl]; exact g.finNodup
  · intro u c hc
    rcases List.mem_append.mp hc with hc | hc
    · exact g.sentStarted u c hc
    · rw [List.mem_singleton] at hc; cases hc
      exact ⟨k, hk, by rw [hpc]; simp, hb⟩
  · rw [fm_some (f := Entry.sentId) (a := t) rfl, List.pairwise_append]
    refine ⟨g.sentSorted, by simp, ?_⟩
    intro a ha c hc
    simp only [List.mem_filterMap] at ha
    obtain ⟨x, hx, hxa⟩ := ha
    simp at hc
    subst hc
    cases x <;> simp [Entry.sentId] at hxa
    subst hxa
    exact hlt _ _ hx
  · intro u c hc q hq
    rcases List.mem_append.mp hc with hc | hc
    · exact g.sentQueue u c hc q hq
    · rw [List.mem_singleton] at hc; cases hc
      exact i.lock.hQueue t hh q hq
  · intro u c hc
    rcases List.mem_append.mp hc with hc | hc
    · rcases g.sentDone u c hc with h | ⟨r, h⟩
      · exact .inl h
      · exact .inr ⟨r, sub_grow _ h⟩
    · rw [List.mem_singleton] at hc; cases hc
      exact .inl hh
  · intro t1 b1 t2 b2 hs
    rcases sub_two_snoc hs with hs | ⟨h, hm⟩
    · obtain ⟨r, h⟩ := g.serial _ _ _ _ hs
      exact ⟨r, sub_grow _ h⟩
    · cases h
      rcases g.sentDone t1 b1 hm with h | ⟨r, h⟩
      · rw [hh] at h; cases h
        exact absurd (hlt _ _ hm) (Nat.lt_irrefl _)
      · exact ⟨r, sub_snoc _ h⟩
  · intro t2 c hc t1 ht
    rcases List.mem_append.mp hc with hc | hc
    · obtain ⟨r, h⟩ := g.before t2 c hc t1 ht
      exact ⟨r, sub_grow _ h⟩
    · rw [List.mem_singleton] at hc; cases hc
      have hn := (i.lock.tid t).mp ⟨k, hk⟩
      obtain ⟨k1, hk1⟩ := (i.lock.tid t1).mpr (by omega)
      have hnq : k1.pc ≠ .queued := by
        intro h
        have := i.lock.hQueue t hh t1 ((i.lock.qIff t1).mpr ⟨k1, hk1, h⟩)
        omega
      have hna : ¬ k1.pc.active := by
        intro h
        have := (i.lock.hIff t1).mpr ⟨k1, hk1, h⟩
        rw [hh] at this; cases this; omega
      rcases hp1 : k1.pc with _ | _ | ⟨w, d⟩ | r
      · exact absurd hp1 hnq
      · rw [hp1] at hna; exact absurd trivial hna
      · rw [hp1] at hna; exact absurd trivial hna
      · exact ⟨r, sub_pair _ ((g.fin t1 r).mpr ⟨k1, hk1, hp1⟩)⟩
  · intro u k' r hu hp c h
    cases h
    rw [hk] at hu; cases hu; rw [hpc] at hp; simp at hp

/-- The running call starts waiting for its answer. -/
theorem Inv.setWaiting {s : Api} (i : Inv s) {t : Nat} {k : Task} (hk : s.tasks t = some k)
    (hpc : k.pc = .running) {w d : Nat} (hw : w < s.waiterId) (hx : w ∉ s.ext)
    (hf : s.fut w = .pending) (hs : ∃ b, .sent t b ∈ s.log) {m : Matcher} {to : Nat}
    (ho : ownWaiter k.obj = some (m, to)) (hm : ∀ x ∈ s.waiters, x.id = w → x.matcher = m) :
    Inv (s.setPc t (.waiting w d)) := by
  rw [setPc_eq hk]
  have old : ∀ u, u ≠ t → upd s.tasks t (some { k with pc := .waiting w d }) u = s.tasks u :=
    fun u hu => upd_other _ _ hu
  have new : upd s.tasks t (some { k with pc := .waiting w d }) t
    = some { k with pc := .waiting w d } := upd_same _ _ _
  have g := i.log
  refine ⟨⟨?_, ?_, i.lock.qSorted, ?_, i.lock.hQueue⟩,
    ⟨g.subs, ?_, ?_, g.finNodup, ?_, g.sentSorted, g.sentQueue, g.sentDone, g.serial, g.before⟩,
    i.wait,
    ⟨?_, ?_, i.resp.recv⟩⟩
  · intro u
    rw [← i.lock.tid]
    by_cases hu : u = t
    · subst hu; dsimp only; rw [new]; simp [hk]
    · dsimp only; rw [old u hu]
  · intro u
    rw [i.lock.qIff]
    by_cases hu : u = t
    · subst hu; dsimp only; rw [new]; simp [hk, hpc]
    · dsimp only; rw [old u hu]
  · intro u
    rw [i.lock.hIff]
    by_cases hu : u = t
    · subst hu; dsimp only; rw [new]; simp [hk, hpc, Pc.active]
    · dsimp only; rw [old u hu]
  · intro u o w e
    rw [g.subIff]
    by_cases hu : u = t
    · subst hu; dsimp only; rw [new]; simp [hk]
    · dsimp only; rw [old u hu]
  · intro u r
    rw [g.fin]
    by_cases hu : u = t
    · subst hu; dsimp only; rw [new]; simp [hk, hpc]
    · dsimp only; rw [old u hu]
  · intro u b hb
    obtain ⟨k', h1, h2, h3⟩ := g.sentStarted u b hb
    by_cases hu : u = t
    · subst hu
      rw [hk] at h1; cases h1
      exact ⟨_, new, by simp, h3⟩
    · exact ⟨k', by dsimp only; rw [old u hu]; exact h1, h2, h3⟩
  · intro u k' v e hu hp
    rcases tasks_upd hk _ hu with ⟨_, h⟩ | ⟨rfl, rfl⟩
    · exact i.resp.live u k' v e h hp
    · cases hp
      refine ⟨hw, hx, by dsimp only; rw [hf]; simp, hs, m, to, ho, hm, ?_⟩
      intro o h
      dsimp only at h
      rw [hf] at h; simp at h
  · intro u k' r hu hp
    rcases tasks_upd hk _ hu with ⟨_, h⟩ | ⟨_, rfl⟩
    · exact i.resp.done u k' r h hp
    · simp at hp

theorem LogInv.leave {T n h Q L} (g : LogInv T n h Q L) {t : Nat} {k : Task} (hk : T t = some k)
    (r : Except PyErr (Option Obj)) (hnd : ∀ r', k.pc ≠ .done r') {h' : Option Nat} {Q' : List Nat}
    (hQ : ∀ q ∈ Q', q ∈ Q) (hh : ∀ u, h = some u → u ≠ t → h' = some u) :
    LogInv (upd T t (some { k with pc := .done r })) n h' Q' (L ++ [.finished t r]) := by
  have hnf : ∀ r', Entry.finished t r' ∉ L := by
    intro r' hm
    obtain ⟨k', h1, h2⟩ := (g.fin t r').mp hm
    rw [hk] at h1; cases h1; exact hnd r' h2
  refine ⟨?_, ?_, ?_, ?_, ?_, ?_, ?_, ?_, ?_, ?_⟩
  · rw [fm_none rfl]; exact g.subs
  · intro u o w e
    rw [List.mem_append, g.subIff]
    by_cases hu : u = t
    · subst hu; rw [upd_same]; simp [hk]
    · rw [upd_other _ _ hu]; simp
  · intro u r'
    by_cases hu : u = t
    · subst hu
      rw [upd_same]
      constructor
      · intro hm
        rcases List.mem_append.mp hm with hm | hm
        · exact absurd hm (hnf r')
        · rw [List.mem_singleton] at hm; cases hm; exact ⟨_, rfl, rfl⟩
      · rintro ⟨k', h1, h2⟩; cases h1; simp at h2; subst h2; simp
    · rw [upd_other _ _ hu, ← g.fin]
      simp [hu]
  · rw [fm_some (f := Entry.finId) (a := t) rfl, List.nodup_append]
    refine ⟨g.finNodup, by simp, ?_⟩
    intro a ha b hb hab
    simp at hb
    subst hab hb
    simp only [List.mem_filterMap] at ha
    obtain ⟨x, hx, hxa⟩ := ha
    cases x <;> simp [Entry.finId] at hxa
    subst hxa
    exact hnf _ hx
  · intro u b hb
    have hb : Entry.sent u b ∈ L := by simpa using hb
    obtain ⟨k', h1, h2, h3⟩ := g.sentStarted u b hb
    by_cases hu : u = t
    · subst hu
      rw [hk] at h1; cases h1
      exact ⟨_, upd_same _ _ _, by simp, h3⟩
    · exact ⟨k', by rw [upd_other _ _ hu]; exact h1, h2, h3⟩
  · rw [fm_none rfl]; exact g.sentSorted
  · intro u b hb q hq
    have hb : Entry.sent u b ∈ L := by simpa using hb
    exact g.sentQueue u b hb q (hQ q hq)
  · intro u b hb0
    have hb : Entry.sent u b ∈ L := by simpa using hb0
    by_cases hu : u = t
    · subst hu; exact .inr ⟨r, sub_pair _ hb⟩
    · rcases g.sentDone u b hb with h | ⟨r, h⟩
      · exact .inl (hh u h hu)
      · exact .inr ⟨r, sub_grow _ h⟩
  · intro t1 b1 t2 b2 hs
    rcases sub_two_snoc hs with hs | ⟨h, _⟩
    · obtain ⟨r, h⟩ := g.serial _ _ _ _ hs
      exact ⟨r, sub_grow _ h⟩
    · simp at h
  · intro t2 b hb t1 ht
    have hb : Entry.sent t2 b ∈ L := by simpa using hb
    obtain ⟨r, h⟩ := g.before t2 b hb t1 ht
    exact ⟨r, sub_grow _ h⟩

theorem RespInv.leave {T W n F X L} (i : RespInv T W n F X L) {t : Nat} {k : Task}
    (hk : T t = some k) (r : Except PyErr (Option Obj))
    (ho : Outcome { k with pc := .done r } t (L ++ [.finished t r]) r) :
    RespInv (upd T t (some { k with pc := .done r })) W n F X (L ++ [.finished t r]) := by
  have g := i.grow (x := .finished t r) (by simp) (by simp)
  refine ⟨?_, ?_, g.recv⟩
  · intro u k' v d hu hp
    rcases tasks_upd hk _ hu with ⟨_, h⟩ | ⟨_, rfl⟩
    · exact g.live u k' v d h hp
    · simp at hp
  · intro u k' r' hu hp
    rcases tasks_upd hk _ hu with ⟨_, h⟩ | ⟨rfl, rfl⟩
    · exact g.done u k' r' h hp
    · cases hp; exact ho

theorem finish_eq {s : Api} {t : Nat} {k : Task} (hk : s.tasks t = some k)
    (r : Except PyErr (Option Obj)) :
    s.finish t r = { s with tasks := upd s.tasks t (some { k with pc := .done r }), holder := none,
                            log := s.log ++ [.finished t r] } := by
  unfold Api.finish; rw [setPc_eq hk]

/-- The call that holds the lock finishes. -/
theorem Inv.finish {s : Api} (i : Inv s) {t : Nat} {k : Task} (hk : s.tasks t = some k)
    (ha : k.pc.active) (r : Except PyErr (Option Obj))
    (ho : Outcome { k with pc := .done r } t (s.log ++ [.finished t r]) r) :
    Inv (s.finish t r) := by
  have hh : s.holder = some t := (i.lock.hIff t).mpr ⟨k, hk, ha⟩
  rw [finish_eq hk]
  refine ⟨⟨?_, ?_, i.lock.qSorted, ?_, by simp⟩, ?_, i.wait.grow rfl rfl, i.resp.leave hk r ho⟩
  · intro u
    rw [← i.lock.tid]
    by_cases hu : u = t
    · subst hu; dsimp only; rw [upd_same]; simp [hk]
    · dsimp only; rw [upd_other _ _ hu]
  · intro u
    rw [i.lock.qIff]
    by_cases hu : u = t
    · subst hu; dsimp only; rw [upd_same]
      constructor
      · rintro ⟨k', h1, h2⟩; rw [hk] at h1; cases h1; rw [h2] at ha; exact ha.elim
      · rintro ⟨k', h1, h2⟩; cases h1; simp at h2
    · dsimp only; rw [upd_other _ _ hu]
  · intro u
    constructor
    · intro h; simp at h
    · rintro ⟨k', h1, h2⟩
      rcases tasks_upd hk _ h1 with ⟨hu, h⟩ | ⟨rfl, rfl⟩
      · have := (i.lock.hIff u).mpr ⟨k', h, h2⟩
        rw [hh] at this; cases this; exact absurd rfl hu
      · exact h2.elim
  · refine i.log.leave hk r ?_ (fun q hq => hq) ?_
    · intro r' h; rw [h] at ha; exact ha
    · intro u hu hne; rw [hh] at hu; cases hu; exact absurd rfl hne

/-- Nobody holds the lock: futures may be cancelled freely. -/
theorem Inv.cancelFut {s : Api} (i : Inv s) (w : Nat) (hlt : w < s.waiterId)
    (hf : s.fut w = .pending)
    (hno : ∀ t k d, s.tasks t = some k → k.pc ≠ .waiting w d) :
    Inv { s with fut := upd s.fut w .cancelled } := by
  refine ⟨i.lock, i.log, ?_, ?_⟩
  · refine ⟨i.wait.ids, i.wait.lt, ?_, ?_, i.wait.regs, i.wait.regW, ?_, i.wait.resNodup,
      i.wait.extLt⟩
    · intro v hv
      have hv : s.waiterId ≤ v := hv
      show upd s.fut w .cancelled v = _
      rw [upd_other _ _ (by omega)]
      exact i.wait.fresh v hv
    · intro v o hv
      have hv : upd s.fut w .cancelled v = _ := hv
      by_cases h : v = w
      · subst h; rw [upd_same] at hv; simp at hv
      · rw [upd_other _ _ h] at hv; exact i.wait.resOut v o hv
    · intro v o
      rw [i.wait.resIff]
      show _ ↔ upd s.fut w .cancelled v = _
      by_cases h : v = w
      · subst h; rw [upd_same, hf]; simp
      · rw [upd_other _ _ h]
  · refine ⟨?_, i.resp.done, i.resp.recv⟩
    intro t k v d hk hpc
    have h : v ≠ w := fun h => hno t k d hk (by rw [hpc, h])
    obtain ⟨h1, h2, h3, h4, m, to, h5, h6, h7⟩ := i.resp.live t k v d hk hpc
    refine ⟨h1, h2, ?_, h4, m, to, h5, h6, ?_⟩
    · show upd s.fut w .cancelled v ≠ _
      rw [upd_other _ _ h]; exact h3
    · intro o ho
      have ho : upd s.fut w .cancelled v = _ := ho
      rw [upd_other _ _ h] at ho
      exact h7 o ho

/-- A call waiting for the lock is cancelled. -/
theorem Inv.cancelQueued {s : Api} (i : Inv s) {t : Nat} {k : Task} (hk : s.tasks t = some k)
    (hpc : k.pc = .queued) :
    Inv { s.setPc t (.done (.error .cancelledError)) with
          queue := s.queue.filter (fun x => x != t),
          log := s.log ++ [.finished t (.error .cancelledError)] } := by
  rw [setPc_eq hk]
  refine ⟨⟨?_, ?_, i.lock.qSorted.sublist List.filter_sublist, ?_, ?_⟩, ?_, i.wait.grow rfl rfl, ?_⟩
  · intro u
    rw [← i.lock.tid]
    by_cases hu : u = t
    · subst hu; dsimp only; rw [upd_same]; simp [hk]
    · dsimp only; rw [upd_other _ _ hu]
  · intro u
    rw [List.mem_filter, i.lock.qIff]
    by_cases hu : u = t
    · subst hu; dsimp only; rw [upd_same]; simp
    · dsimp only; rw [upd_other _ _ hu]; simp [hu]
  · intro u
    rw [i.lock.hIff]
    by_cases hu : u = t
    · subst hu; dsimp only; rw [upd_same]; simp [hk, hpc, Pc.active]
    · dsimp only; rw [upd_other _ _ hu]
  · intro u hu q hq
    exact i.lock.hQueue u hu q (List.mem_filter.mp hq).1
  · refine i.log.leave hk _ (by rw [hpc]; simp) (fun q hq => (List.mem_filter.mp hq).1) ?_
    intro u hu _; exact hu
  · refine i.resp.leave hk _ (.inl ⟨?_, .inl rfl⟩)
    intro b hb
    have hb : Entry.sent t b ∈ s.log := by simpa using hb
    obtain ⟨k', h1, h2, _⟩ := i.log.sentStarted t b hb
    rw [hk] at h1; cases h1; exact h2 hpc

/-! ### The code of a call -/

theorem waitFor_fields (s : Api) (m : Matcher) (to : Nat) (q : Option Int) :
    (s.waitFor m to q).2.tasks = s.tasks ∧ (s.waitFor m to q).1 = s.waiterId ∧
    (s.waitFor m to q).2.waiterId = s.waiterId + 1 ∧ (s.waitFor m to q).2.ext = s.ext ∧
    (s.waitFor m to q).2.fut = s.fut ∧
    (s.waitFor m to q).2.waiters = s.waiters ++ [⟨s.waiterId, m, to, q⟩] ∧
    (s.waitFor m to q).2.log = s.log ++ [.registered ⟨s.waiterId, m, to, q⟩ s.now] ∧
    (s.waitFor m to q).2.holder = s.holder ∧ (s.waitFor m to q).2.queue = s.queue ∧
    (s.waitFor m to q).2.now = s.now ∧ (s.waitFor m to q).2.uart = s.uart := by
  simp [Api.waitFor]

theorem uartSend_cases (s : Api) (t : Nat) {o : Obj} {f : Frame} (ho : o.toUnpiFrame = .ok f) :
    (∃ e, s.uartSend t f = .error e ∧ (e = .attributeError ∨ encode o = .error e)) ∨
    (∃ b, s.uartSend t f = .ok { s with log := s.log ++ [.sent t b] } ∧ encode o = .ok b) := by
  unfold Api.uartSend
  split
  · split
    · rename_i e he
      exact .inl ⟨e, rfl, .inr (by unfold encode; rw [ho, ok_bind]; exact he)⟩
    · rename_i b hb
      exact .inr ⟨b, rfl, by unfold encode; rw [ho, ok_bind]; exact hb⟩
  · exact .inl ⟨_, rfl, .inl rfl⟩

theorem ownWaiter_cases (o : Obj) :
    (∃ m to, ownWaiter o = some (m, to) ∧ (o.commandType = .SREQ ∨
      (o.commandType = .AREQ ∧ o.isResetCommand = true))) ∨
    (ownWaiter o = none ∧ o.commandType ≠ .SREQ ∧
      (o.commandType = .AREQ → o.isResetCommand = false)) := by
  unfold ownWaiter
  split
  · rename_i h; exact .inl ⟨_, _, rfl, .inl h⟩
  · rename_i h
    split
    · rename_i h'; exact .inl ⟨_, _, rfl, .inr h'⟩
    · rename_i h'
      refine .inr ⟨rfl, h, fun ha => ?_⟩
      simpa [ha] using h'

theorem Inv.start {s : Api} (i : Inv s) {t : Nat} {k : Task} (hk : s.tasks t = some k)
    (hpc : k.pc = .running) (hlt : ∀ t' b, .sent t' b ∈ s.log → t' < t) :
    Inv (s.start t k.obj) := by
  have ha : k.pc.active := by rw [hpc]; trivial
  have unsent : ∀ (L : List Entry), (∀ t' b, .sent t' b ∈ L → t' < t) →
      ∀ r b, Entry.sent t b ∉ L ++ [.finished t r] := by
    intro L hL r b hb
    have hb : Entry.sent t b ∈ L := by simpa using hb
    exact absurd (hL t b hb) (Nat.lt_irrefl t)
  unfold Api.start
  split
  · rename_i e he
    refine i.finish hk ha _ (.inl ⟨unsent _ hlt _, .inr (.inr (.inl ?_))⟩)
    show encode k.obj = _
    unfold encode; rw [he]; rfl
  · rename_i f hf
    rcases ownWaiter_cases k.obj with ⟨m, to, hw, _⟩ | ⟨hw, h1, h2⟩
    · rw [hw]
      dsimp only
      have fs := waitFor_fields s m to none
      have j := i.waitFor m to none
      have hk' : (s.waitFor m to none).2.tasks t = some k := by rw [fs.1]; exact hk
      have hlt' : ∀ t' b, .sent t' b ∈ (s.waitFor m to none).2.log → t' < t := by
        intro t' b hb
        rw [fs.2.2.2.2.2.2.1] at hb
        exact hlt t' b (by simpa using hb)
      rcases uartSend_cases (s.waitFor m to none).2 t hf with ⟨e, he, h⟩ | ⟨b, hb, h⟩
      · rw [he]
        dsimp only
        refine j.finish hk' ha _ (.inl ⟨unsent _ hlt' _, ?_⟩)
        rcases h with h | h
        · exact .inr (.inl h)
        · exact .inr (.inr (.inl h))
      · rw [hb]
        dsimp only
        have j2 := j.sent hk' hpc hlt' h
        refine j2.setWaiting (m := m) (to := to) hk' hpc ?_ ?_ ?_ ⟨b, by simp⟩ hw ?_
        · show _ < _; rw [fs.2.1, fs.2.2.1]; omega
        · intro hx
          have := i.wait.extLt _ hx
          rw [fs.2.1] at this; omega
        · show (s.waitFor m to none).2.fut _ = _
          rw [fs.2.2.2.2.1, fs.2.1]; exact i.wait.fresh _ (Nat.le_refl _)
        · intro x hx hid
          have hx : x ∈ (s.waitFor m to none).2.waiters := hx
          rw [fs.2.2.2.2.2.1] at hx
          rw [fs.2.1] at hid
          rcases List.mem_append.mp hx with hx | hx
          · have := i.wait.lt x hx; omega
          · rw [List.mem_singleton] at hx; rw [hx]
    · rw [hw]
      dsimp only
      split
      · rename_i hA
        rcases uartSend_cases s t hf with ⟨e, he, h⟩ | ⟨b, hb, h⟩
        · rw [he]
          dsimp only
          refine i.finish hk ha _ (.inl ⟨unsent _ hlt _, ?_⟩)
          rcases h with h | h
          · exact .inr (.inl h)
          · exact .inr (.inr (.inl h))
        · rw [hb]
          dsimp only
          have j2 := i.sent hk hpc hlt h
          refine j2.finish hk ha _ ⟨hA, h2 hA, b, ?_⟩
          exact sub_pair _ (by simp)
      · rename_i hA
        exact i.finish hk ha _ (.inl ⟨unsent _ hlt _, .inr (.inr (.inr ⟨rfl, h1, hA⟩))⟩)

theorem Inv.grant {s : Api} (i : Inv s) : Inv s.grant := by
  unfold Api.grant
  split
  · rename_i t q hh hq
    split
    · rename_i k hk
      obtain ⟨j, hlt⟩ := i.acquire hh hq hk
      have hk' : (({ s with holder := some t, queue := q } : Api).setPc t .running).tasks t
          = some { k with pc := .running } := by
        rw [setPc_eq (s := { s with holder := some t, queue := q }) hk]; exact upd_same _ _ _
      refine j.start (k := { k with pc := .running }) hk' rfl ?_
      intro t' b hb
      rw [setPc_eq (s := { s with holder := some t, queue := q }) hk] at hb
      exact hlt t' b hb
    · exact i
  · exact i

theorem Inv.conclude {s : Api} (i : Inv s) {t : Nat} {k : Task} (hk : s.tasks t = some k)
    {w d : Nat} (hpc : k.pc = .waiting w d) {o : Obj} (hf : s.fut w = .result o) :
    Inv (s.conclude t k o) := by
  have ha : k.pc.active := by rw [hpc]; trivial
  obtain ⟨_, hx, _, _, m, to, h5, _, h7⟩ := i.resp.live t k w d hk hpc
  obtain ⟨h8, b, f, h9⟩ := h7 o hf
  have ok : ∀ (r : Except PyErr (Option Obj)),
      [Entry.sent t b, .received f o, .finished t r].Sublist (s.log ++ [.finished t r]) :=
    fun r => sub_snoc _ h9
  unfold Api.conclude
  split
  · rename_i hS
    split
    · rename_i hb
      exact i.finish hk ha _ ⟨m, to, b, f, h5, h8, ok _, fun _ => hb⟩
    · rename_i z hb
      split
      · exact i.finish hk ha _ (.inr (.inr ⟨hS, m, to, b, f, o, z, h5, h8, hb, ok _, .inl rfl⟩))
      · rename_i v hv
        split
        · rename_i hin
          rw [List.any_eq_true] at hin
          obtain ⟨x, hxm, hxid⟩ := hin
          have hxid : x.id = v := by simpa using hxid
          have hvlt : v < s.waiterId := by rw [← hxid]; exact i.wait.lt x hxm
          have j : Inv ((s.drop v).setResult v o) := by
            refine (i.drop v).setResult v o (pop_not_mem s v) hvlt ?_
            intro t' k' d' hk' hpc'
            -- only this call waits, and its own waiter has left the table
            have h1 := (i.lock.hIff t).mpr ⟨k, hk, ha⟩
            have h2 := (i.lock.hIff t').mpr ⟨k', hk', by rw [hpc']; trivial⟩
            rw [h1] at h2; cases h2
            have hk' : s.tasks t = some k' := hk'; rw [hk] at hk'; cases hk'
            rw [hpc] at hpc'; cases hpc'
            exact absurd hxid (i.wait.resOut w o hf x hxm)
          have fs := setResult_fields (s.drop v) v o
          have hk' : ((s.drop v).setResult v o).tasks t = some k := by rw [fs.1]; exact hk
          refine j.finish hk' ha _ (.inr (.inr ⟨hS, m, to, b, f, o, z, h5, h8, hb, ?_, .inl rfl⟩))
          have h9' : [Entry.sent t b, .received f o].Sublist ((s.drop v).setResult v o).log := by
            rcases fs.2.2.2.2.2.2 with h | h
            · rw [h]; exact sub_grow _ h9
            · rw [h]; exact sub_grow _ (sub_grow _ h9)
          exact sub_snoc _ h9'
        · refine i.finish hk ha _ (.inr (.inr ⟨hS, m, to, b, f, o, z, h5, h8, hb, ok _, .inr ⟨rfl, ?_⟩⟩))
          simp [hv]
  · rename_i hS
    exact i.finish hk ha _ ⟨m, to, b, f, h5, h8, ok _, fun h => absurd h hS⟩

theorem Inv.step {s : Api} (i : Inv s) (e : Event) : Inv (s.step e) := by
  cases e with
  | submit o w x =>
    rw [Api.step]
    split
    · exact (i.enqueue o w x).grant
    · exact i.enqueue o w x
  | grant => exact i.grant
  | frame f => exact i.dataReceived f
  | wake t =>
    rw [Api.step]
    split
    · rename_i k hk
      split
      · rename_i w d hpc
        split
        · rename_i o ho; exact i.conclude hk hpc ho
        · exact i
      · exact i
    · exact i
  | timeout t =>
    rw [Api.step]
    split
    · rename_i k hk
      split
      · rename_i w d hpc
        split
        · rename_i h
          have ha : k.pc.active := by rw [hpc]; trivial
          obtain ⟨hlt, _, _, ⟨b, hb⟩, m, to, h5, _⟩ := i.resp.live t k w d hk hpc
          have j := i.finish hk ha (.error .timeoutError)
            (.inr (.inl ⟨⟨b, List.mem_append_left _ hb⟩, by simp [h5], .inr rfl⟩))
          rw [finish_eq hk] at j ⊢
          refine j.cancelFut w hlt h.1 ?_
          intro t' k' d' hk' hpc'
          have := (j.lock.hIff t').mpr ⟨k', hk', by rw [hpc']; trivial⟩
          simp at this
        · exact i
      · exact i
    · exact i
  | cancel t =>
    rw [Api.step]
    split
    · rename_i k hk
      split
      · rename_i hpc; exact i.cancelQueued hk hpc
      · rename_i w d hpc
        have ha : k.pc.active := by rw [hpc]; trivial
        obtain ⟨hlt, _, _, ⟨b, hb⟩, m, to, h5, _⟩ := i.resp.live t k w d hk hpc
        have j := i.finish hk ha (.error .cancelledError)
          (.inr (.inl ⟨⟨b, List.mem_append_left _ hb⟩, by simp [h5], .inl rfl⟩))
        rw [finish_eq hk] at j ⊢
        by_cases h : s.fut w = .pending
        · rw [if_pos h]
          refine j.cancelFut w hlt h ?_
          intro t' k' d' hk' hpc'
          have := (j.lock.hIff t').mpr ⟨k', hk', by rw [hpc']; trivial⟩
          simp at this
        · rw [if_neg h]; exact j
      · exact i
    · exact i
  | timer w =>
    rw [Api.step]
    split
    · rename_i x hx
      have hx1 : x.1 = w := by
        have := List.find?_some hx
        simp at this; exact this.1
      unfold Api.timerCallback
      -- erase the timer: harmless once the waiter is out of the table
      have key : ∀ W : List Waiter, (∀ y ∈ W, y ∈ s.waiters) → (∀ y ∈ W, y.id ≠ w) →
          ∀ y ∈ W, ∃ time, .registered y time ∈ s.log ∧
            (y.id, time + y.timeout + 100) ∈ s.timers.erase x := by
        intro W h1 h2 y hy
        obtain ⟨time, h, h'⟩ := i.wait.regW y (h1 y hy)
        refine ⟨time, h, ?_⟩
        rw [List.mem_erase_of_ne]
        · exact h'
        · intro he; exact h2 y hy (by rw [← hx1, ← he])
      split
      · rename_i o ho
        have g := i.wait
        exact ⟨i.lock, i.log, ⟨g.ids, g.lt, g.fresh, g.resOut, g.regs,
          key s.waiters (fun y hy => hy) (g.resOut w o ho), g.resIff, g.resNodup, g.extLt⟩, i.resp⟩
      · have j := i.pop w
        have g := j.wait
        have j' : Inv { s.pop w with timers := s.timers.erase x } :=
          ⟨j.lock, j.log, ⟨g.ids, g.lt, g.fresh, g.resOut, g.regs,
            key (s.pop w).waiters (fun y hy => (List.mem_filter.mp hy).1) (pop_not_mem s w),
            g.resIff, g.resNodup, g.extLt⟩, j.resp⟩
        exact j'.note rfl rfl rfl rfl rfl (by simp)
    · exact i
  | tick ms => exact ⟨i.lock, i.log, i.wait, i.resp⟩
  | setUart b => exact ⟨i.lock, i.log, i.wait, i.resp⟩
  | register m to q => exact i.waitForExt m to q
  | registerResponse o q =>
    rw [Api.step]
    unfold Api.createResponseWaiter
    split
    · exact i
    · exact i
    · rename_i m q' h
      exact i.waitForExt m timeoutDefault q'
  | abandon w =>
    rw [Api.step]
    split
    · rename_i h
      refine i.cancelFut w (i.wait.extLt w h.1) h.2 ?_
      intro t k d hk hpc
      exact (i.resp.live t k w d hk hpc).2.1 h.1
    · exact i

/-- Every execution keeps the invariant. -/
theorem inv_run (es : List Event) : Inv (Api.init.run es) := by
  have : ∀ (es : List Event) (s : Api), Inv s → Inv (s.run es) := by
    intro es
    induction es with
    | nil => intro s i; exact i
    | cons e es ih => intro s i; exact ih _ (i.step e)
  exact this es _ inv_init

end Zcc
