import Verif.Proofs.Waiter2

/-!
# Timers and deadlines

How long waiters stay in the table, and until when a call waits. Used by C22, C23 and C54.
-/

namespace Zcc
open Spec

/-- The log only grows, and not by registrations. -/
structure Quiet (L L' : List Entry) : Prop where
  sub : ∀ e ∈ L, e ∈ L'
  reg : ∀ x t, Entry.registered x t ∈ L' → .registered x t ∈ L

theorem Quiet.refl (L : List Entry) : Quiet L L := ⟨fun _ h => h, fun _ _ h => h⟩

theorem Quiet.trans {A B C : List Entry} (h : Quiet A B) (h' : Quiet B C) : Quiet A C :=
  ⟨fun e he => h'.sub e (h.sub e he), fun x t he => h.reg x t (h'.reg x t he)⟩

theorem Quiet.note (L : List Entry) {e : Entry} (he : e.regId = none) : Quiet L (L ++ [e]) where
  sub _ h := List.mem_append_left _ h
  reg x t h := by
    rcases List.mem_append.mp h with h | h
    · exact h
    · rw [List.mem_singleton] at h; subst h; simp [Entry.regId] at he

/-- Timers belong to registered waiters; a waiter that nobody resolved or gave up is in the table
until its timer is due. -/
structure TimeInv (W : List Waiter) (F : Nat → Fut) (Tm : List (Nat × Nat)) (now : Nat)
    (L : List Entry) : Prop where
  due : ∀ p ∈ Tm, ∃ x time, .registered x time ∈ L ∧ x.id = p.1 ∧ p.2 = time + x.timeout + 100
  kept : ∀ x time, .registered x time ∈ L → F x.id = .pending →
    x ∈ W ∨ time + x.timeout + 100 ≤ now

theorem TimeInv.weaken {W F Tm now L W' F' Tm' now' L'} (i : TimeInv W F Tm now L)
    (hF : ∀ w, F' w = .pending → F w = .pending)
    (hW : ∀ x ∈ W, F' x.id = .pending → x ∈ W' ∨
      ∀ time, .registered x time ∈ L → time + x.timeout + 100 ≤ now)
    (hn : now ≤ now') (hT : ∀ p ∈ Tm', p ∈ Tm) (hL : Quiet L L') : TimeInv W' F' Tm' now' L' where
  due p hp := by
    obtain ⟨x, time, h1, h2⟩ := i.due p (hT p hp)
    exact ⟨x, time, hL.sub _ h1, h2⟩
  kept x time hx hf := by
    rcases i.kept x time (hL.reg _ _ hx) (hF _ hf) with h | h
    · rcases hW x h hf with h | h
      · exact .inl h
      · have := h time (hL.reg _ _ hx)
        exact .inr (by omega)
    · exact .inr (by omega)

/-- The same for a whole state. -/
abbrev Timed (s : Api) : Prop := TimeInv s.waiters s.fut s.timers s.now s.log

theorem Timed.setResult {s : Api} (i : Timed s) (w : Nat) (o : Obj) : Timed (s.setResult w o) := by
  unfold Api.setResult
  split
  · refine i.weaken (fun v hv => ?_) (fun x hx _ => .inl hx) (Nat.le_refl _) (fun _ h => h)
      (Quiet.note _ rfl)
    dsimp only at hv
    by_cases h : v = w
    · subst h; rw [upd_same] at hv; simp at hv
    · rwa [upd_other _ _ h] at hv
  · exact i

/-- Taking a waiter out of the table and resolving it. -/
theorem Timed.popResult {s : Api} (i : Timed s) (w : Nat) (o : Obj) :
    Timed ((s.pop w).setResult w o) := by
  unfold Api.setResult
  split
  · rename_i hp
    refine i.weaken (fun v hv => ?_) (fun x hx hv => ?_) (Nat.le_refl _) (fun _ h => h)
      (Quiet.note _ rfl)
    · dsimp only at hv
      by_cases h : v = w
      · subst h; rw [upd_same] at hv; simp at hv
      · rwa [upd_other _ _ h] at hv
    · dsimp only at hv
      by_cases h : x.id = w
      · rw [h, upd_same] at hv; simp at hv
      · exact .inl (List.mem_filter.mpr ⟨hx, by simpa using h⟩)
  · rename_i hp
    refine i.weaken (fun v hv => hv) (fun x hx hv => ?_) (Nat.le_refl _) (fun _ h => h)
      (Quiet.refl _)
    by_cases h : x.id = w
    · rw [h] at hv; exact absurd hv hp
    · exact .inl (List.mem_filter.mpr ⟨hx, by simpa using h⟩)

theorem Timed.matchLoop (o : Obj) : ∀ (ws : List Waiter) (s : Api), Timed s →
    Timed (Api.matchLoop o ws s).1
  | [], s, i => i
  | w :: ws, s, i => by
    rw [Api.matchLoop]
    split
    · exact i
    · exact Timed.matchLoop o ws s i
    · dsimp only
      split
      · exact i.popResult _ _
      · exact Timed.matchLoop o ws _ (i.popResult _ _)

theorem Timed.note {s : Api} (i : Timed s) {e : Entry} (he : e.regId = none) :
    TimeInv s.waiters s.fut s.timers s.now (s.log ++ [e]) :=
  i.weaken (fun _ h => h) (fun _ h _ => .inl h) (Nat.le_refl _) (fun _ h => h) (Quiet.note _ he)

theorem setPc_parts (s : Api) (t : Nat) (pc : Pc) :
    (s.setPc t pc).waiters = s.waiters ∧ (s.setPc t pc).fut = s.fut ∧
    (s.setPc t pc).timers = s.timers ∧ (s.setPc t pc).now = s.now ∧ (s.setPc t pc).log = s.log ∧
    (s.setPc t pc).ext = s.ext := by
  unfold Api.setPc; split <;> simp

theorem Timed.setPc {s : Api} (i : Timed s) (t : Nat) (pc : Pc) : Timed (s.setPc t pc) := by
  have h := setPc_parts s t pc
  unfold Timed
  rw [h.1, h.2.1, h.2.2.1, h.2.2.2.1, h.2.2.2.2.1]; exact i

theorem Timed.finish {s : Api} (i : Timed s) (t : Nat) (r : Except PyErr (Option Obj)) :
    Timed (s.finish t r) := by
  have h := setPc_parts s t (.done r)
  unfold Timed Api.finish
  dsimp only
  rw [h.1, h.2.1, h.2.2.1, h.2.2.2.1]
  exact i.note rfl

theorem Timed.cancelFut {s : Api} (i : Timed s) (w : Nat) :
    TimeInv s.waiters (upd s.fut w .cancelled) s.timers s.now s.log := by
  refine i.weaken (fun v hv => ?_) (fun _ h _ => .inl h) (Nat.le_refl _) (fun _ h => h) (Quiet.refl _)
  by_cases h : v = w
  · subst h; rw [upd_same] at hv; simp at hv
  · rwa [upd_other _ _ h] at hv

theorem Timed.waitFor {s : Api} (i : Timed s) (m : Matcher) (to : Nat) (q : Option Int) :
    Timed (s.waitFor m to q).2 where
  due p hp := by
    rcases List.mem_append.mp (show p ∈ s.timers ++ [(s.waiterId, s.now + to + 100)] from hp) with h | h
    · obtain ⟨x, time, h1, h2⟩ := i.due p h
      exact ⟨x, time, List.mem_append_left _ h1, h2⟩
    · rw [List.mem_singleton] at h; subst h
      exact ⟨⟨s.waiterId, m, to, q⟩, s.now, List.mem_append_right _ (List.mem_singleton.mpr rfl),
        rfl, rfl⟩
  kept x time hx hf := by
    rcases List.mem_append.mp (show Entry.registered x time ∈
      s.log ++ [.registered ⟨s.waiterId, m, to, q⟩ s.now] from hx) with h | h
    · rcases i.kept x time h hf with h | h
      · exact .inl (List.mem_append_left _ h)
      · exact .inr h
    · rw [List.mem_singleton] at h; cases h
      exact .inl (List.mem_append_right _ (List.mem_singleton.mpr rfl))

theorem Timed.uartSend {s s' : Api} {t : Nat} {f : Frame} (i : Timed s)
    (h : s.uartSend t f = .ok s') : Timed s' := by
  unfold Api.uartSend at h
  split at h
  · split at h
    · simp at h
    · cases h; exact i.note rfl
  · simp at h

theorem Timed.start {s : Api} (i : Timed s) (t : Nat) (o : Obj) : Timed (s.start t o) := by
  unfold Api.start
  split
  · exact i.finish _ _
  · split
    · rename_i m to _
      dsimp only
      have j := Timed.waitFor i m to none
      split
      · exact j.finish _ _
      · rename_i h'; exact (j.uartSend h').setPc _ _
    · split
      · split
        · exact i.finish _ _
        · rename_i h'; exact (Timed.uartSend i h').finish _ _
      · exact i.finish _ _

theorem Timed.grant {s : Api} (i : Timed s) : Timed s.grant := by
  unfold Api.grant
  split
  · split
    · rename_i t q _ _ _ k _
      exact (Timed.setPc (s := { s with holder := some t, queue := q }) i t .running).start _ _
    · exact i
  · exact i

/-- A registration is unique. -/
theorem registered_unique {s : Api} (i : Inv s) {x y : Waiter} {a b : Nat}
    (hx : .registered x a ∈ s.log) (hy : .registered y b ∈ s.log) (h : x.id = y.id) :
    x = y ∧ a = b := by
  by_cases he : Entry.registered x a = .registered y b
  · cases he; exact ⟨rfl, rfl⟩
  · exfalso
    have hp : (s.log.filterMap Entry.regId).Pairwise (· < ·) := by
      rw [i.wait.regs]; exact range_pairwise _
    rcases sub_total hx hy he with hs | hs
    · have := pairwise_of_sub (f := Entry.regId) hp hs rfl rfl; omega
    · have := pairwise_of_sub (f := Entry.regId) hp hs rfl rfl; omega

theorem Timed.step {s : Api} (iv : Inv s) (i : Timed s) (e : Event) : Timed (s.step e) := by
  cases e with
  | submit o w x =>
    rw [Api.step]
    have je : Timed (s.enqueue o w x) := i.note rfl
    split
    · exact je.grant
    · exact je
  | grant => exact i.grant
  | frame f =>
    rw [Api.step]
    unfold Api.dataReceived
    split
    · exact i
    · rename_i o _
      have h1 : Timed { s with log := s.log ++ [.received f o] } := i.note rfl
      have h2 := Timed.matchLoop o s.waiters _ h1
      dsimp only
      split
      · rename_i h'; rw [h'] at h2; exact h2
      · rename_i h'; rw [h'] at h2; exact h2.note rfl
  | wake t =>
    rw [Api.step]
    split
    · split
      · split
        · unfold Api.conclude
          split
          · split
            · exact i.finish _ _
            · split
              · exact i.finish _ _
              · split
                · rename_i w _ _
                  have h1 : Timed { s with log := s.log ++ [.dropped w] } := i.note rfl
                  exact (h1.popResult w _).finish _ _
                · exact i.finish _ _
          · exact i.finish _ _
        · exact i
      · exact i
    · exact i
  | timeout t =>
    rw [Api.step]
    split
    · split
      · split
        · rename_i w _ _ _
          have h := Timed.cancelFut (i.finish t (.error .timeoutError)) w
          have : (s.finish t (.error .timeoutError)).fut = s.fut := (setPc_parts s t _).2.1
          rw [this] at h
          exact h
        · exact i
      · exact i
    · exact i
  | cancel t =>
    rw [Api.step]
    split
    · split
      · have h := setPc_parts s t (.done (.error .cancelledError))
        show TimeInv _ _ _ _ _
        rw [h.1, h.2.1, h.2.2.1, h.2.2.2.1]
        exact i.note rfl
      · rename_i w _ _
        have h := i.finish t (.error .cancelledError)
        have hf : (s.finish t (.error .cancelledError)).fut = s.fut := (setPc_parts s t _).2.1
        show TimeInv _ (if _ then _ else _) _ _ _
        split
        · have h' := Timed.cancelFut h w
          rw [hf] at h'
          exact h'
        · unfold Timed at h; rw [hf] at h; exact h
      · exact i
    · exact i
  | timer w =>
    rw [Api.step]
    split
    · rename_i p hp
      have hpm := List.mem_of_find?_eq_some hp
      have hpd := List.find?_some hp
      simp only [Bool.and_eq_true, beq_iff_eq, decide_eq_true_eq] at hpd
      have j : Timed { s with timers := s.timers.erase p } :=
        i.weaken (fun _ h => h) (fun _ h _ => .inl h) (Nat.le_refl _)
          (fun _ h => List.mem_of_mem_erase h) (Quiet.refl _)
      unfold Api.timerCallback
      split
      · exact j
      · refine j.weaken (fun _ h => h) (fun x hx _ => ?_) (Nat.le_refl _) (fun _ h => h)
          (Quiet.note _ rfl)
        by_cases h : x.id = w
        · refine .inr fun time ht => ?_
          obtain ⟨y, time', h1, h2, h3⟩ := i.due p hpm
          obtain ⟨rfl, rfl⟩ := registered_unique iv ht h1 (by rw [h2, h, hpd.1])
          have h4 := hpd.2
          dsimp only
          omega
        · exact .inl (List.mem_filter.mpr ⟨hx, by simpa using h⟩)
    · exact i
  | tick ms =>
    exact i.weaken (fun _ h => h) (fun _ h _ => .inl h) (Nat.le_add_right _ _) (fun _ h => h)
      (Quiet.refl _)
  | setUart b => exact i
  | register m to q => exact i.waitFor m to q
  | registerResponse o q =>
    rw [Api.step]
    unfold Api.createResponseWaiter
    split
    · exact i
    · exact i
    · exact i.waitFor _ _ _
  | abandon w =>
    rw [Api.step]
    split
    · exact i.cancelFut w
    · exact i

theorem timed_init : Timed Api.init := by
  constructor
  · intro p hp; simp [Api.init] at hp
  · intro x t h; simp [Api.init] at h

theorem timed_run (es : List Event) : ∀ s : Api, Inv s → Timed s → Timed (s.run es) := by
  induction es with
  | nil => intro s _ h; exact h
  | cons e es ih => intro s i h; exact ih _ (i.step e) (h.step i e)

/-! ## Futures are settled once -/

/-- A future that is not pending stays as it is. -/
def FutStay (F F' : Nat → Fut) : Prop := ∀ w, F w ≠ .pending → F' w = F w

theorem FutStay.refl (F : Nat → Fut) : FutStay F F := fun _ _ => rfl

theorem FutStay.trans {A B C : Nat → Fut} (h : FutStay A B) (h' : FutStay B C) : FutStay A C :=
  fun w hw => by
    have h1 := h w hw
    rw [← h1]; exact h' w (by rw [h1]; exact hw)

theorem FutStay.upd {F : Nat → Fut} {w : Nat} (h : F w = .pending) (x : Fut) :
    FutStay F (Zcc.upd F w x) := fun v hv => by
  by_cases hw : v = w
  · subst hw; exact absurd h hv
  · exact upd_other _ _ hw

theorem futStay_setResult (s : Api) (w : Nat) (o : Obj) : FutStay s.fut (s.setResult w o).fut := by
  unfold Api.setResult
  split
  · rename_i h; exact FutStay.upd h _
  · exact FutStay.refl _

theorem futStay_matchLoop (o : Obj) : ∀ (ws : List Waiter) (s : Api),
    FutStay s.fut (Api.matchLoop o ws s).1.fut
  | [], s => FutStay.refl _
  | w :: ws, s => by
    rw [Api.matchLoop]
    split
    · exact FutStay.refl _
    · exact futStay_matchLoop o ws s
    · have h : FutStay s.fut ((s.pop w.id).setResult w.id o).fut := futStay_setResult (s.pop w.id) _ _
      dsimp only
      split
      · exact h
      · exact h.trans (futStay_matchLoop o ws _)

theorem start_fut (s : Api) (t : Nat) (o : Obj) : (s.start t o).fut = s.fut := by
  have fin : ∀ (s : Api) r, (s.finish t r).fut = s.fut := fun s r => (setPc_parts s t _).2.1
  have send : ∀ {s s' : Api} {f}, s.uartSend t f = .ok s' → s'.fut = s.fut := by
    intro s s' f h
    unfold Api.uartSend at h
    split at h
    · split at h
      · simp at h
      · cases h; rfl
    · simp at h
  unfold Api.start
  split
  · exact fin _ _
  · split
    · dsimp only
      split
      · exact fin _ _
      · rename_i h'
        rw [(setPc_parts _ t _).2.1, send h']; rfl
    · split
      · split
        · exact fin _ _
        · rename_i h'; rw [fin, send h']
      · exact fin _ _

theorem grant_fut (s : Api) : s.grant.fut = s.fut := by
  unfold Api.grant
  split
  · split
    · rw [start_fut, (setPc_parts _ _ _).2.1]
    · rfl
  · rfl

theorem futStay_step (s : Api) (e : Event) : FutStay s.fut (s.step e).fut := by
  have fin : ∀ (s : Api) t r, (s.finish t r).fut = s.fut := fun s t r => (setPc_parts s t _).2.1
  cases e with
  | submit o w x =>
    rw [Api.step]
    split
    · rw [grant_fut]; exact FutStay.refl _
    · exact FutStay.refl _
  | grant => rw [Api.step, grant_fut]; exact FutStay.refl _
  | frame f =>
    rw [Api.step]
    unfold Api.dataReceived
    split
    · exact FutStay.refl _
    · rename_i o _
      have h := futStay_matchLoop o s.waiters { s with log := s.log ++ [.received f o] }
      dsimp only
      split
      · rename_i h'; rw [h'] at h; exact h
      · rename_i h'; rw [h'] at h; exact h
  | wake t =>
    rw [Api.step]
    split
    · split
      · split
        · unfold Api.conclude
          split
          · split
            · rw [fin]; exact FutStay.refl _
            · split
              · rw [fin]; exact FutStay.refl _
              · split
                · rw [fin]; exact futStay_setResult (s.drop _) _ _
                · rw [fin]; exact FutStay.refl _
          · rw [fin]; exact FutStay.refl _
        · exact FutStay.refl _
      · exact FutStay.refl _
    · exact FutStay.refl _
  | timeout t =>
    rw [Api.step]
    split
    · split
      · split
        · rename_i h; exact FutStay.upd h.1 _
        · exact FutStay.refl _
      · exact FutStay.refl _
    · exact FutStay.refl _
  | cancel t =>
    rw [Api.step]
    split
    · split
      · intro w _; exact congrFun (setPc_parts s t _).2.1 w
      · show FutStay _ (if _ then _ else _)
        split
        · rename_i h; exact FutStay.upd h _
        · exact FutStay.refl _
      · exact FutStay.refl _
    · exact FutStay.refl _
  | timer w =>
    rw [Api.step]
    split
    · unfold Api.timerCallback; split <;> exact FutStay.refl _
    · exact FutStay.refl _
  | tick ms => exact FutStay.refl _
  | setUart b => exact FutStay.refl _
  | register m to q => exact FutStay.refl _
  | registerResponse o q =>
    rw [Api.step]
    unfold Api.createResponseWaiter
    split <;> exact FutStay.refl _
  | abandon w =>
    rw [Api.step]
    split
    · rename_i h; exact FutStay.upd h.2 _
    · exact FutStay.refl _

theorem futStay_run (es : List Event) : ∀ s : Api, FutStay s.fut (s.run es).fut := by
  induction es with
  | nil => intro s; exact FutStay.refl _
  | cons e es ih => intro s; exact (futStay_step s e).trans (ih _)

/-! ## Deadlines of calls -/

/-- A waiting call waits for its own waiter, until that waiter's time limit. -/
def CallTimes (T : Nat → Option Task) (L : List Entry) : Prop :=
  ∀ t k w d, T t = some k → k.pc = .waiting w d → ∃ x time, .registered x time ∈ L ∧ x.id = w ∧
    ownWaiter k.obj = some (x.matcher, x.timeout) ∧ d = time + x.timeout ∧
    ∃ b, [Entry.registered x time, .sent t b] <:+: L

theorem CallTimes.mono {T L L'} (h : CallTimes T L) (hL : L <+: L') : CallTimes T L' :=
  fun t k w d h1 h2 => by
    obtain ⟨x, time, h3, h4, h5, h6, b, h7⟩ := h t k w d h1 h2
    exact ⟨x, time, hL.mem h3, h4, h5, h6, b, h7.trans hL.isInfix⟩

theorem CallTimes.upd {T L} (h : CallTimes T L) (t : Nat) {k : Task}
    (hk : ∀ w d, k.pc ≠ .waiting w d) : CallTimes (Zcc.upd T t (some k)) L := by
  intro u k' w d h1 h2
  by_cases hu : u = t
  · subst hu; rw [upd_same] at h1; cases h1; exact absurd h2 (hk w d)
  · rw [upd_other _ _ hu] at h1; exact h u k' w d h1 h2

theorem CallTimes.setPc {s : Api} {L} (h : CallTimes s.tasks L) (t : Nat) {pc : Pc}
    (hk : ∀ w d, pc ≠ .waiting w d) : CallTimes (s.setPc t pc).tasks L := by
  unfold Api.setPc
  split
  · exact h.upd t hk
  · exact h

theorem CallTimes.finish {s : Api} (h : CallTimes s.tasks s.log) (t : Nat)
    (r : Except PyErr (Option Obj)) : CallTimes (s.finish t r).tasks (s.finish t r).log :=
  (h.mono (List.prefix_append _ _)).setPc (s := s) t (by simp)

theorem CallTimes.start {s : Api} (h : CallTimes s.tasks s.log) {t : Nat} {k : Task}
    (hk : s.tasks t = some k) : CallTimes (s.start t k.obj).tasks (s.start t k.obj).log := by
  unfold Api.start
  split
  · exact h.finish _ _
  · split
    · rename_i m to hw
      dsimp only
      have j : CallTimes (s.waitFor m to none).2.tasks (s.waitFor m to none).2.log :=
        h.mono (List.prefix_append _ _)
      split
      · exact j.finish _ _
      · rename_i s' h'
        have fs := uartSend_fields h'
        have hl := (grows_uartSend h').log
        have hT : s'.tasks = s.tasks := fs.1
        intro u k' w d h1 h2
        have hlog : (s'.setPc t (.waiting (s.waitFor m to none).1 (s'.now + to))).log = s'.log :=
          (setPc_parts s' t _).2.2.2.2.1
        rw [hlog]
        by_cases hu : u = t
        · subst hu
          rw [setPc_eq (by rw [hT]; exact hk)] at h1
          have h1 : Zcc.upd s'.tasks u _ u = some k' := h1
          rw [upd_same] at h1; cases h1
          simp only [Pc.waiting.injEq] at h2
          refine ⟨⟨s.waiterId, m, to, none⟩, s.now, hl.mem
            (List.mem_append_right _ (List.mem_singleton.mpr rfl)), h2.1, hw, ?_⟩
          have hs' : s'.now = s.now ∧ ∃ b, s'.log =
              s.log ++ [.registered ⟨s.waiterId, m, to, none⟩ s.now] ++ [.sent u b] := by
            have := h'
            unfold Api.uartSend at this
            split at this
            · split at this
              · simp at this
              · cases this; exact ⟨rfl, _, rfl⟩
            · simp at this
          obtain ⟨hnow, b, hb⟩ := hs'
          refine ⟨by rw [← h2.2, hnow], b, s.log, [], ?_⟩
          rw [hb]; simp
        · rw [setPc_other _ _ _ hu, hT] at h1
          obtain ⟨x, time, h3, h4, h5, h6, b, h7⟩ := h u k' w d h1 h2
          have hl' : s.log <+: s'.log := (List.prefix_append _ _).trans hl
          exact ⟨x, time, hl'.mem h3, h4, h5, h6, b, h7.trans hl'.isInfix⟩
    · split
      · split
        · exact h.finish _ _
        · rename_i s' h'
          have : CallTimes s'.tasks s'.log := by
            rw [(uartSend_fields h').1]; exact h.mono (grows_uartSend h').log
          exact this.finish _ _
      · exact h.finish _ _

theorem CallTimes.grant {s : Api} (h : CallTimes s.tasks s.log) :
    CallTimes s.grant.tasks s.grant.log := by
  unfold Api.grant
  split
  · split
    · rename_i t q _ _ _ k hk
      have h1 : CallTimes (({ s with holder := some t, queue := q } : Api).setPc t .running).tasks
          (({ s with holder := some t, queue := q } : Api).setPc t .running).log := by
        rw [(setPc_parts _ _ _).2.2.2.2.1]
        exact CallTimes.setPc (s := { s with holder := some t, queue := q }) h t (by simp)
      have h2 : (({ s with holder := some t, queue := q } : Api).setPc t .running).tasks t =
          some { k with pc := .running } := by
        rw [setPc_eq (s := { s with holder := some t, queue := q }) hk]; exact upd_same _ _ _
      exact CallTimes.start (k := { k with pc := .running }) h1 h2
    · exact h
  · exact h

theorem CallTimes.step {s : Api} (h : CallTimes s.tasks s.log) (e : Event) :
    CallTimes (s.step e).tasks (s.step e).log := by
  cases e with
  | submit o w x =>
    rw [Api.step]
    have je : CallTimes (s.enqueue o w x).tasks (s.enqueue o w x).log :=
      (h.mono (List.prefix_append _ _)).upd _ (by simp)
    split
    · exact je.grant
    · exact je
  | grant => exact h.grant
  | frame f =>
    have g := (grows_step s (.frame f)).log
    rw [Api.step] at g ⊢
    rw [(dataReceived_fields s f).1]
    exact h.mono g
  | wake t =>
    rw [Api.step]
    split
    · split
      · split
        · unfold Api.conclude
          split
          · split
            · exact h.finish _ _
            · split
              · exact h.finish _ _
              · split
                · rename_i w _ _
                  refine CallTimes.finish ?_ _ _
                  rw [(setResult_fields _ _ _).1]
                  exact h.mono ((grows_drop s w).trans (grows_setResult (s.drop w) w _)).log
                · exact h.finish _ _
          · exact h.finish _ _
        · exact h
      · exact h
    · exact h
  | timeout t =>
    rw [Api.step]
    split
    · split
      · split
        · exact h.finish _ _
        · exact h
      · exact h
    · exact h
  | cancel t =>
    rw [Api.step]
    split
    · split
      · exact h.finish t _
      · exact h.finish t _
      · exact h
    · exact h
  | timer w =>
    rw [Api.step]
    split
    · unfold Api.timerCallback
      split
      · exact h
      · exact h.mono (List.prefix_append _ _)
    · exact h
  | tick ms => exact h
  | setUart b => exact h
  | register m to q => exact h.mono (List.prefix_append _ _)
  | registerResponse o q =>
    rw [Api.step]
    unfold Api.createResponseWaiter
    split
    · exact h
    · exact h
    · exact h.mono (List.prefix_append _ _)
  | abandon w =>
    rw [Api.step]
    split <;> exact h

theorem callTimes_run (es : List Event) : ∀ s : Api, CallTimes s.tasks s.log →
    CallTimes (s.run es).tasks (s.run es).log := by
  induction es with
  | nil => intro s h; exact h
  | cons e es ih => intro s h; exact ih _ (h.step e)

theorem callTimes_init : CallTimes Api.init.tasks Api.init.log := by
  intro t k w d h; simp [Api.init] at h

/-- A call that just timed out was waiting, without a result, and its time limit is over. -/
theorem timedOut_step {s : Api} {t : Nat} {k' : Task} {e : Event}
    (h : (s.step e).tasks t = some k') (hp : k'.pc = .done (.error .timeoutError)) :
    s.tasks t = some k' ∨ ∃ k w d, s.tasks t = some k ∧ k.pc = .waiting w d ∧
      s.fut w = .pending ∧ d ≤ s.now ∧ e = .timeout t := by
  -- a change of program point to something else
  have move : ∀ (s' : Api) u pc, s'.tasks = s.tasks → pc ≠ .done (.error .timeoutError) →
      (s'.setPc u pc).tasks t = some k' → s.tasks t = some k' := by
    intro s' u pc hs hpc h
    by_cases hu : t = u
    · subst hu
      rcases hk : s'.tasks t with _ | k
      · unfold Api.setPc at h; rw [hk] at h; dsimp only at h; rw [hk] at h; simp at h
      · rw [setPc_eq hk] at h
        have h : upd s'.tasks t _ t = some k' := h
        rw [upd_same] at h; cases h; exact absurd hp hpc
    · rw [setPc_other _ _ _ hu, hs] at h; exact h
  cases e with
  | submit o w x =>
    refine .inl ?_
    rw [Api.step] at h
    have hen : (s.enqueue o w x).tasks t = some k' → s.tasks t = some k' := by
      intro h
      by_cases ht : t = s.nextTid
      · subst ht
        have h' : upd s.tasks s.nextTid _ s.nextTid = some k' := h
        rw [upd_same] at h'; cases h'; simp at hp
      · have h' : upd s.tasks s.nextTid _ t = some k' := h
        rw [upd_other _ _ ht] at h'; exact h'
    split at h
    · exact hen (grant_done h hp rfl)
    · exact hen h
  | grant => exact .inl (grant_done h hp rfl)
  | frame f => rw [Api.step, (dataReceived_fields s f).1] at h; exact .inl h
  | wake u =>
    refine .inl ?_
    rw [Api.step] at h
    split at h
    · split at h
      · split at h
        · unfold Api.conclude at h
          split at h
          · split at h
            · exact move s u _ rfl (by simp) h
            · split at h
              · exact move s u _ rfl (by simp) h
              · split at h
                · exact move _ u _ (setResult_fields (s.drop _) _ _).1 (by simp) h
                · exact move s u _ rfl (by simp) h
          · exact move s u _ rfl (by simp) h
        · exact h
      · exact h
    · exact h
  | timeout u =>
    rw [Api.step] at h
    split at h
    · rename_i k hk
      split at h
      · rename_i w d hpc
        split at h
        · rename_i hc
          by_cases hu : t = u
          · subst hu
            exact .inr ⟨k, w, d, hk, hpc, hc.1, hc.2, rfl⟩
          · exact .inl ((setPc_other s u _ hu).symm.trans h)
        · exact .inl h
      · exact .inl h
    · exact .inl h
  | cancel u =>
    refine .inl ?_
    rw [Api.step] at h
    split at h
    · split at h
      · exact move s u _ rfl (by simp) h
      · exact move s u _ rfl (by simp) h
      · exact h
    · exact h
  | timer w =>
    refine .inl ?_
    rw [Api.step] at h
    split at h
    · unfold Api.timerCallback at h
      split at h <;> exact h
    · exact h
  | tick ms => exact .inl h
  | setUart b => exact .inl h
  | register m to q => exact .inl h
  | registerResponse o q =>
    refine .inl ?_
    rw [Api.step] at h
    unfold Api.createResponseWaiter at h
    split at h <;> exact h
  | abandon w =>
    refine .inl ?_
    rw [Api.step] at h
    split at h <;> exact h

/-- A call whose waiter has a result does not time out. -/
theorem no_timeout_run (es : List Event) : ∀ s : Api, Inv s → ∀ t k w d o, s.tasks t = some k →
    k.pc = .waiting w d → s.fut w = .result o →
    ∀ k', (s.run es).tasks t = some k' → k'.pc ≠ .done (.error .timeoutError) := by
  induction es with
  | nil =>
    intro s _ t k w d o hk hpc _ k' hk' hp
    have hk' : s.tasks t = some k' := hk'
    rw [hk] at hk'; cases hk'; rw [hpc] at hp; simp at hp
  | cons e es ih =>
    intro s i t k w d o hk hpc hf
    have hf' := (grows_step s e).fut w o hf
    obtain ⟨pc, hk1⟩ := task_kept i hk e
    by_cases hw : pc = .waiting w d
    · exact ih _ (i.step e) t _ w d o hk1 hw hf'
    · -- it is done now
      have hdone : ∃ r, pc = .done r := by
        by_cases he : e ≠ .wake t ∧ e ≠ .timeout t ∧ e ≠ .cancel t
        · have := started_step i hk (by rw [hpc]; simp) e he
          rw [hk1] at this
          have := congrArg Task.pc (Option.some.inj this)
          exact absurd (this.trans hpc) hw
        · have hfin : ∀ (s' : Api) r, s'.tasks t = some k →
              (s'.finish t r).tasks t = some { k with pc } → ∃ r, pc = .done r := by
            intro s' r hk h
            rw [finish_pc hk] at h
            have := congrArg Task.pc (Option.some.inj h)
            exact ⟨r, this.symm⟩
          have same : s.tasks t = some { k with pc } → ∃ r, pc = .done r := by
            intro h
            rw [hk] at h
            have := congrArg Task.pc (Option.some.inj h)
            exact absurd (this.symm.trans hpc) hw
          by_cases h1 : e = .wake t
          · subst h1
            rw [Api.step, hk] at hk1
            dsimp only at hk1
            rw [hpc] at hk1; dsimp only at hk1; rw [hf] at hk1; dsimp only at hk1
            unfold Api.conclude at hk1
            split at hk1
            · split at hk1
              · exact hfin _ _ hk hk1
              · split at hk1
                · exact hfin _ _ hk hk1
                · split at hk1
                  · exact hfin _ _ (by rw [(setResult_fields _ _ _).1]; exact hk) hk1
                  · exact hfin _ _ hk hk1
            · exact hfin _ _ hk hk1
          · by_cases h2 : e = .timeout t
            · subst h2
              rw [Api.step, hk] at hk1
              dsimp only at hk1
              rw [hpc] at hk1; dsimp only at hk1
              rw [if_neg (by rw [hf]; simp)] at hk1
              exact same hk1
            · have h3 : e = .cancel t := by
                apply Classical.byContradiction
                intro h3; exact he ⟨h1, h2, h3⟩
              subst h3
              rw [Api.step, hk] at hk1
              dsimp only at hk1
              rw [hpc] at hk1; dsimp only at hk1
              exact hfin s _ hk hk1
      obtain ⟨r, rfl⟩ := hdone
      intro k' hk' hp
      -- a finished call keeps its outcome
      have hm : Entry.finished t r ∈ (s.step e).log :=
        ((i.step e).log.fin t r).mpr ⟨_, hk1, rfl⟩
      have hm' : Entry.finished t r ∈ ((s.step e).run es).log := (grows_run _ es).log.mem hm
      have hk'' : ((s.step e).run es).tasks t = some k' := hk'
      obtain ⟨k2, h2, h3⟩ := ((inv_run_from (i.step e) es).log.fin t r).mp hm'
      rw [hk''] at h2; cases h2
      rw [hp] at h3
      have hr : r = .error .timeoutError := by simpa using h3.symm
      subst hr
      rcases timedOut_step hk1 rfl with h | ⟨k3, w3, d3, h4, h5, h6, _⟩
      · rw [hk] at h
        have := congrArg Task.pc (Option.some.inj h)
        rw [hpc] at this; simp at this
      · rw [hk] at h4; cases h4
        rw [hpc] at h5; cases h5
        rw [hf] at h6; simp at h6

/-! ## A matching message reaches its waiter -/

/-- If no tagged waiter in the table asks for the message, every waiter that asks for it gets it. -/
theorem matchLoop_reaches (o : Obj) : ∀ (ws : List Waiter) (s : Api),
    (∀ x ∈ ws, Comparable x.matcher o) → (∀ x ∈ ws, Answers x.matcher o → x.sequence = none) →
    ∀ y ∈ ws, Answers y.matcher o → s.fut y.id = .pending →
      (Api.matchLoop o ws s).1.fut y.id = .result o
  | [], s, _, _, y, hy, _, _ => by simp at hy
  | w :: ws, s, hc, hq, y, hy, ha, hp => by
    obtain ⟨b, hb⟩ := match_ok (hc w List.mem_cons_self)
    rw [Api.matchLoop, hb]
    have hc' : ∀ x ∈ ws, Comparable x.matcher o := fun x hx => hc x (List.mem_cons_of_mem _ hx)
    have hq' : ∀ x ∈ ws, Answers x.matcher o → x.sequence = none :=
      fun x hx => hq x (List.mem_cons_of_mem _ hx)
    cases b with
    | false =>
      dsimp only
      rcases List.mem_cons.mp hy with rfl | hy
      · rw [(match_true _ _).mpr ha] at hb; simp at hb
      · exact matchLoop_reaches o ws s hc' hq' y hy ha hp
    | true =>
      dsimp only
      have hw := hq w List.mem_cons_self ((match_true _ _).mp hb)
      rw [hw]
      rw [if_neg (by simp [truthySeq])]
      by_cases hid : y.id = w.id
      · have h1 : ((s.pop w.id).setResult w.id o).fut w.id = .result o := by
          unfold Api.setResult
          have : (s.pop w.id).fut w.id = .pending := by rw [← hid]; exact hp
          rw [this]; exact upd_same _ _ _
        rw [hid]
        exact (grows_matchLoop o ws _).fut _ _ h1
      · have hy' : y ∈ ws := by
          rcases List.mem_cons.mp hy with rfl | hy
          · exact absurd rfl hid
          · exact hy
        refine matchLoop_reaches o ws _ hc' hq' y hy' ha ?_
        unfold Api.setResult
        split
        · show Zcc.upd s.fut w.id _ y.id = _
          rw [upd_other _ _ hid]; exact hp
        · exact hp

end Zcc
