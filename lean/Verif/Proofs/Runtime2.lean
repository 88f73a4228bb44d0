import Verif.Proofs.Runtime
import Verif.Proofs.Table
import Verif.Spec.Runtime

/-!
# Further helper lemmas on the API transition system
-/

namespace Zcc

open Spec

/-! ## Matching -/

theorem matchPayload_true (p : Payload) : ∀ q : Payload,
    matchPayload p q = .ok true ↔ ∀ x ∈ q, p.lookup x.1 = some x.2
  | [] => by simp [matchPayload]
  | (f, v) :: q => by
    rw [matchPayload]
    unfold dictGet
    rcases h : p.lookup f with _ | x
    · dsimp only; rw [error_bind]; simp [h]
    · dsimp only
      rw [ok_bind]
      by_cases hv : v = x
      · subst hv
        simp only [ne_eq, not_true_eq_false, if_false]
        rw [matchPayload_true p q]; simp [h]
      · simp only [ne_eq, hv, not_false_eq_true, if_true, pure_ok]
        constructor
        · intro h; simp at h
        · intro hh
          have := hh (f, v) List.mem_cons_self
          rw [h] at this
          exact absurd (Option.some.inj this).symm hv

theorem matchPayload_ok (p : Payload) : ∀ q : Payload, (∀ x ∈ q, (p.lookup x.1).isSome) →
    ∃ b, matchPayload p q = .ok b
  | [], _ => ⟨true, rfl⟩
  | (f, v) :: q, hq => by
    rw [matchPayload]
    unfold dictGet
    have := hq (f, v) List.mem_cons_self
    rcases h : p.lookup f with _ | x
    · rw [h] at this; simp at this
    · dsimp only
      rw [ok_bind]
      split
      · exact ⟨false, rfl⟩
      · exact matchPayload_ok p q (fun x hx => hq x (List.mem_cons_of_mem _ hx))

theorem match_true (m : Matcher) (o : Obj) : m.match o = .ok true ↔ Answers m o := by
  unfold Matcher.match Answers
  split
  · rename_i h
    constructor
    · intro h'; simp at h'
    · rintro ⟨h1, h2, h3, _⟩; rcases h with h | h | h <;> contradiction
  · rename_i h
    simp only [not_or, ne_eq, Decidable.not_not] at h
    rw [matchPayload_true]
    simp [h.1, h.2.1, h.2.2]

theorem match_ok {m : Matcher} {o : Obj} (h : Comparable m o) : ∃ b, m.match o = .ok b := by
  unfold Matcher.match
  split
  · exact ⟨false, rfl⟩
  · rename_i h'
    simp only [not_or, ne_eq, Decidable.not_not] at h'
    exact matchPayload_ok _ _ (h h'.1 h'.2.1 h'.2.2)

theorem match_false {m : Matcher} {o : Obj} (h : Comparable m o) (hn : ¬ Answers m o) :
    m.match o = .ok false := by
  obtain ⟨b, hb⟩ := match_ok h
  cases b
  · exact hb
  · exact absurd ((match_true m o).mp hb) hn

/-- The own waiter of a call. -/
theorem ownWaiter_answers {o r : Obj} {m : Matcher} {to : Nat} (h : ownWaiter o = some (m, to))
    (hm : m.match r = .ok true) :
    (o.commandType = .SREQ ∧ ResponseTo o r) ∨
    (o.commandType = .AREQ ∧ IsReset o ∧ r.commandType = .AREQ ∧ r.subsystem = .SYS ∧
      r.command = "resetInd") := by
  rw [match_true] at hm
  unfold ownWaiter at h
  split at h
  · rename_i hS
    cases h
    exact .inl ⟨hS, hm.1.symm, hm.2.1.symm, hm.2.2.1.symm⟩
  · split at h
    · rename_i hA
      cases h
      refine .inr ⟨hA.1, ?_, hm.1.symm, hm.2.1.symm, hm.2.2.1.symm⟩
      have := hA.2
      simp [Obj.isResetCommand] at this
      unfold IsReset
      rcases this with h | h
      · exact .inl ⟨h.2, h.1⟩
      · exact .inr ⟨h.2, h.1⟩
    · simp at h

theorem not_isReset {o : Obj} (h : o.isResetCommand = false) : ¬ IsReset o := by
  intro hr
  unfold IsReset at hr
  rcases hr with ⟨h1, h2⟩ | ⟨h1, h2⟩ <;> simp [Obj.isResetCommand, h1, h2] at h

/-! ## Status -/

theorem table_status_dec : ∀ s ∈ allSubsystems, ∀ cs ∈ definition s, ∀ c ∈ cs,
    ∀ r ∈ c.response, ∀ p ∈ r, p.1 = "status" → p.2 = .UINT8 := by decide +kernel

theorem lookup_sized : ∀ (ps : Params) (vs : List Val) (prev : Option Val),
    SizedAll prev ps vs → ∀ (name : String) (v : Val), ((ps.map (·.1)).zip vs).lookup name = some v →
    ∃ p ∈ ps, ∃ prev', p.1 = name ∧ Sized prev' p.2 v
  | [], vs, prev, h, name, v, hl => by simp at hl
  | p :: ps, [], prev, h, name, v, hl => by simp at hl
  | p :: ps, w :: vs, prev, h, name, v, hl => by
    simp only [List.map_cons, List.zip_cons_cons, List.lookup_cons] at hl
    by_cases hn : name = p.1
    · subst hn
      simp at hl
      subst hl
      exact ⟨p, List.mem_cons_self, prev, rfl, h.1⟩
    · have : (name == p.1) = false := by simpa using hn
      rw [this] at hl
      obtain ⟨q, hq, r⟩ := lookup_sized ps vs _ h.2 name v hl
      exact ⟨q, List.mem_cons_of_mem _ hq, r⟩

theorem announced {f : Frame} {o : Obj} (h : Obj.fromUnpiFrame f = .ok o) :
    ∃ vs, o.payload = (o.parameters.map (·.1)).zip vs ∧ SizedAll none o.parameters vs := by
  obtain ⟨c, hc, hid, hp, hr, ho⟩ := fromUnpiFrame_ok h
  obtain ⟨hn, h8⟩ := paramsOf_nodup hc hp
  rw [readParameters_eq _ hn] at hr
  rcases hv : readVals none o.parameters f.data with e | ⟨vs, rest⟩
  · rw [hv] at hr; simp [Except.map] at hr
  rw [hv] at hr
  simp only [Except.map, Except.ok.injEq] at hr
  exact ⟨vs, hr.symm, readVals_sized _ h8 none _ _ _ (by simp) hv⟩

/-- The status of a received synchronous response is a number. -/
theorem status_int {f : Frame} {o : Obj} (h : Obj.fromUnpiFrame f = .ok o)
    (ht : o.commandType = .SRSP) {v : Val} (hv : o.payload.lookup "status" = some v) :
    ∃ z : Int, v = .int z ∧ 0 ≤ z ∧ z < 256 := by
  obtain ⟨vs, h1, h2⟩ := announced h
  rw [h1] at hv
  obtain ⟨p, hp, prev, hn, hs⟩ := lookup_sized _ _ _ h2 _ _ hv
  obtain ⟨c, ⟨cs, hc1, hc2⟩, hid, hpo, _, ho⟩ := fromUnpiFrame_ok h
  have hft : f.commandType = .SRSP := by rw [ho] at ht; exact ht
  unfold ParamsOf at hpo
  rw [if_pos hft] at hpo
  have := table_status_dec _ (mem_allSubsystems _) cs hc1 c hc2 _ hpo p hp hn
  rw [this] at hs
  obtain ⟨n, rfl, h3, h4⟩ := hs
  exact ⟨n, rfl, h3, by simpa using h4⟩

theorem badStatus_none {e : Option (List Int)} {o : Obj} : badStatus e o = none ↔ StatusOk e o := by
  unfold badStatus StatusOk
  split
  · rename_i h; simp [h]
  · rename_i z h
    split
    · rename_i hz; simp [h, hz]
    · rename_i hz; simp [h, hz]
  · rename_i v hz hv
    constructor
    · intro h; simp at h
    · intro h'
      obtain ⟨z, h1, _⟩ := h' _ hv
      exact absurd h1 (hz z)

theorem badStatus_some {e : Option (List Int)} {o : Obj} {z : Int} (h : badStatus e o = some z)
    (hi : ∀ v, o.payload.lookup "status" = some v → ∃ z : Int, v = .int z) :
    o.payload.lookup "status" = some (.int z) ∧ z ∉ e.getD [0] := by
  unfold badStatus at h
  split at h
  · simp at h
  · rename_i z' hz
    split at h
    · simp at h
    · rename_i hn; cases h; exact ⟨hz, hn⟩
  · rename_i v hne hv
    obtain ⟨z, h1⟩ := hi _ hv
    exact absurd h1 (hne z)

/-! ## Encoding -/

theorem encode_ok {o : Obj} {b : List UInt8} (h : encode o = .ok b) : WrittenAs o b := by
  unfold encode at h
  rcases hf : o.toUnpiFrame with e | f
  · rw [hf, error_bind] at h; simp at h
  · rw [hf, ok_bind] at h; exact ⟨f, hf, h⟩

theorem encode_error {o : Obj} {e : PyErr} (h : encode o = .error e) :
    o.toUnpiFrame = .error e ∨ ∃ f, o.toUnpiFrame = .ok f ∧ Gateway.send f = .error e := by
  unfold encode at h
  rcases hf : o.toUnpiFrame with e' | f
  · rw [hf, error_bind] at h; cases h; exact .inl rfl
  · rw [hf, ok_bind] at h; exact .inr ⟨f, rfl, h⟩

/-! ## Order in the log -/

theorem pairwise_of_sub {α β : Type} {R : β → β → Prop} {f : α → Option β} {L : List α}
    (hp : (L.filterMap f).Pairwise R) {a b : α} {x y : β} (hs : [a, b].Sublist L)
    (ha : f a = some x) (hb : f b = some y) : R x y := by
  have := hs.filterMap f
  rw [List.filterMap_cons_some ha, List.filterMap_cons_some hb, List.filterMap_nil] at this
  have := hp.sublist this
  simp at this
  exact this

theorem range_pairwise (n : Nat) : (List.range n).Pairwise (· < ·) := List.pairwise_lt_range

/-- Of two different entries of a list, one comes first. -/
theorem sub_total {α : Type} {a b : α} {L : List α} (ha : a ∈ L) (hb : b ∈ L) (hne : a ≠ b) :
    [a, b].Sublist L ∨ [b, a].Sublist L := by
  induction L with
  | nil => simp at ha
  | cons x L ih =>
    rcases List.mem_cons.mp ha with rfl | ha
    · rcases List.mem_cons.mp hb with rfl | hb
      · exact absurd rfl hne
      · left; exact (List.singleton_sublist.mpr hb).cons_cons a
    · rcases List.mem_cons.mp hb with rfl | hb
      · right; exact (List.singleton_sublist.mpr ‹a ∈ L›).cons_cons b
      · rcases ih ha hb with h | h
        · exact .inl (h.cons x)
        · exact .inr (h.cons x)

/-! ## What only grows -/

/-- Facts about the state that are never undone. -/
structure Grows (s s' : Api) : Prop where
  log : s.log <+: s'.log
  wid : s.waiterId ≤ s'.waiterId
  tab : ∀ x ∈ s'.waiters, x ∈ s.waiters ∨ s.waiterId ≤ x.id
  fut : ∀ w o, s.fut w = .result o → s'.fut w = .result o
  now : s.now ≤ s'.now

theorem Grows.refl (s : Api) : Grows s s :=
  ⟨List.prefix_refl _, Nat.le_refl _, fun _ h => .inl h, fun _ _ h => h, Nat.le_refl _⟩

theorem Grows.trans {a b c : Api} (h : Grows a b) (h' : Grows b c) : Grows a c where
  log := h.log.trans h'.log
  wid := Nat.le_trans h.wid h'.wid
  tab x hx := by
    rcases h'.tab x hx with h1 | h1
    · exact h.tab x h1
    · exact .inr (Nat.le_trans h.wid h1)
  fut w o hw := h'.fut w o (h.fut w o hw)
  now := Nat.le_trans h.now h'.now

theorem grows_setPc (s : Api) (t : Nat) (pc : Pc) : Grows s (s.setPc t pc) := by
  unfold Api.setPc
  split
  · exact ⟨List.prefix_refl _, Nat.le_refl _, fun _ h => .inl h, fun _ _ h => h, Nat.le_refl _⟩
  · exact Grows.refl s

theorem grows_note (s : Api) (x : Entry) : Grows s { s with log := s.log ++ [x] } :=
  ⟨List.prefix_append _ _, Nat.le_refl _, fun _ h => .inl h, fun _ _ h => h, Nat.le_refl _⟩

theorem grows_finish (s : Api) (t : Nat) (r : Except PyErr (Option Obj)) :
    Grows s (s.finish t r) := by
  have := grows_setPc s t (.done r)
  exact ⟨List.prefix_append _ _, this.wid, this.tab, this.fut, this.now⟩

theorem grows_pop (s : Api) (w : Nat) : Grows s (s.pop w) :=
  ⟨List.prefix_refl _, Nat.le_refl _, fun _ h => .inl (List.mem_filter.mp h).1, fun _ _ h => h,
   Nat.le_refl _⟩

theorem grows_drop (s : Api) (w : Nat) : Grows s (s.drop w) :=
  (grows_pop s w).trans (grows_note _ _)

theorem grows_setResult (s : Api) (w : Nat) (o : Obj) : Grows s (s.setResult w o) := by
  unfold Api.setResult
  split
  · rename_i h
    refine ⟨List.prefix_append _ _, Nat.le_refl _, fun _ h => .inl h, ?_, Nat.le_refl _⟩
    intro v p hv
    show upd _ _ _ _ = _
    by_cases hvw : v = w
    · subst hvw; rw [h] at hv; simp at hv
    · rw [upd_other _ _ hvw]; exact hv
  · exact Grows.refl s

theorem grows_waitFor (s : Api) (m : Matcher) (to : Nat) (q : Option Int) :
    Grows s (s.waitFor m to q).2 := by
  refine ⟨List.prefix_append _ _, Nat.le_succ _, ?_, fun _ _ h => h, Nat.le_refl _⟩
  intro x hx
  rcases List.mem_append.mp hx with h | h
  · exact .inl h
  · rw [List.mem_singleton] at h; subst h; exact .inr (Nat.le_refl _)

theorem grows_cancelFut (s : Api) (w : Nat) (h : s.fut w = .pending) :
    Grows s { s with fut := upd s.fut w .cancelled } := by
  refine ⟨List.prefix_refl _, Nat.le_refl _, fun _ h => .inl h, ?_, Nat.le_refl _⟩
  intro v p hv
  show upd _ _ _ _ = _
  by_cases hvw : v = w
  · subst hvw; rw [h] at hv; simp at hv
  · rw [upd_other _ _ hvw]; exact hv

theorem grows_matchLoop (o : Obj) : ∀ (ws : List Waiter) (s : Api),
    Grows s (Api.matchLoop o ws s).1
  | [], s => Grows.refl s
  | w :: ws, s => by
    rw [Api.matchLoop]
    split
    · exact Grows.refl s
    · exact grows_matchLoop o ws s
    · have h := (grows_pop s w.id).trans (grows_setResult (s.pop w.id) w.id o)
      dsimp only
      split
      · exact h
      · exact h.trans (grows_matchLoop o ws _)

theorem grows_dataReceived (s : Api) (f : Frame) : Grows s (s.dataReceived f).1 := by
  unfold Api.dataReceived
  split
  · exact Grows.refl s
  · rename_i o ho
    have h1 := grows_note s (.received f o)
    have h2 := grows_matchLoop o s.waiters { s with log := s.log ++ [.received f o] }
    dsimp only
    split
    · rename_i h; rw [h] at h2; exact h1.trans h2
    · rename_i h; rw [h] at h2; exact (h1.trans h2).trans (grows_note _ _)

theorem grows_uartSend {s s' : Api} {t : Nat} {f : Frame} (h : s.uartSend t f = .ok s') :
    Grows s s' := by
  unfold Api.uartSend at h
  split at h
  · split at h
    · simp at h
    · cases h; exact grows_note _ _
  · simp at h

theorem grows_start (s : Api) (t : Nat) (o : Obj) : Grows s (s.start t o) := by
  unfold Api.start
  split
  · exact grows_finish _ _ _
  · split
    · dsimp only
      split
      · exact (grows_waitFor _ _ _ _).trans (grows_finish _ _ _)
      · rename_i h
        exact ((grows_waitFor _ _ _ _).trans (grows_uartSend h)).trans (grows_setPc _ _ _)
    · split
      · split
        · exact grows_finish _ _ _
        · rename_i h; exact (grows_uartSend h).trans (grows_finish _ _ _)
      · exact grows_finish _ _ _

theorem grows_grant (s : Api) : Grows s s.grant := by
  unfold Api.grant
  split
  · split
    · rename_i t q _ _ _ k _
      have h : Grows s ({ s with holder := some t, queue := q } : Api) :=
        ⟨List.prefix_refl _, Nat.le_refl _, fun _ h => .inl h, fun _ _ h => h, Nat.le_refl _⟩
      exact (h.trans (grows_setPc _ _ _)).trans (grows_start _ _ _)
    · exact Grows.refl s
  · exact Grows.refl s

theorem grows_conclude (s : Api) (t : Nat) (k : Task) (o : Obj) : Grows s (s.conclude t k o) := by
  unfold Api.conclude
  split
  · split
    · exact grows_finish _ _ _
    · split
      · exact grows_finish _ _ _
      · split
        · exact ((grows_drop _ _).trans (grows_setResult _ _ _)).trans (grows_finish _ _ _)
        · exact grows_finish _ _ _
  · exact grows_finish _ _ _

theorem grows_enqueue (s : Api) (o : Obj) (w : Option Nat) (e : Option (List Int)) :
    Grows s (s.enqueue o w e) :=
  ⟨List.prefix_append _ _, Nat.le_refl _, fun _ h => .inl h, fun _ _ h => h, Nat.le_refl _⟩

theorem grows_step (s : Api) (e : Event) : Grows s (s.step e) := by
  cases e with
  | submit o w x =>
    rw [Api.step]
    split
    · exact (grows_enqueue _ _ _ _).trans (grows_grant _)
    · exact grows_enqueue _ _ _ _
  | grant => exact grows_grant s
  | frame f => exact grows_dataReceived s f
  | wake t =>
    rw [Api.step]
    split
    · split
      · split
        · exact grows_conclude _ _ _ _
        · exact Grows.refl s
      · exact Grows.refl s
    · exact Grows.refl s
  | timeout t =>
    rw [Api.step]
    split
    · split
      · split
        · rename_i w d _ h
          have g := grows_finish s t (.error .timeoutError)
          have hf : (s.finish t (.error .timeoutError)).fut = s.fut := by
            unfold Api.finish Api.setPc; split <;> rfl
          have := grows_cancelFut (s.finish t (.error .timeoutError)) w (by rw [hf]; exact h.1)
          rw [hf] at this
          exact g.trans this
        · exact Grows.refl s
      · exact Grows.refl s
    · exact Grows.refl s
  | cancel t =>
    rw [Api.step]
    split
    · split
      · have g := grows_setPc s t (.done (.error .cancelledError))
        exact ⟨List.prefix_append _ _, g.wid, g.tab, g.fut, g.now⟩
      · rename_i w d _
        have g := grows_finish s t (.error .cancelledError)
        have hf : (s.finish t (.error .cancelledError)).fut = s.fut := by
          unfold Api.finish Api.setPc; split <;> rfl
        by_cases h : s.fut w = .pending
        · rw [if_pos h]
          have := grows_cancelFut (s.finish t (.error .cancelledError)) w (by rw [hf]; exact h)
          rw [hf] at this
          exact g.trans this
        · rw [if_neg h]
          exact ⟨g.log, g.wid, g.tab, fun _ _ h => h, g.now⟩
      · exact Grows.refl s
    · exact Grows.refl s
  | timer w =>
    rw [Api.step]
    split
    · rename_i x _
      have h : Grows s { s with timers := s.timers.erase x } :=
        ⟨List.prefix_refl _, Nat.le_refl _, fun _ h => .inl h, fun _ _ h => h, Nat.le_refl _⟩
      unfold Api.timerCallback
      split
      · exact h
      · exact h.trans (grows_drop _ _)
    · exact Grows.refl s
  | tick ms =>
    exact ⟨List.prefix_refl _, Nat.le_refl _, fun _ h => .inl h, fun _ _ h => h, Nat.le_add_right _ _⟩
  | setUart b =>
    exact ⟨List.prefix_refl _, Nat.le_refl _, fun _ h => .inl h, fun _ _ h => h, Nat.le_refl _⟩
  | register m to q =>
    have g := grows_waitFor s m to q
    exact ⟨g.log, g.wid, g.tab, g.fut, g.now⟩
  | registerResponse o q =>
    rw [Api.step]
    unfold Api.createResponseWaiter
    split
    · exact Grows.refl s
    · exact Grows.refl s
    · rename_i m q' h
      have g := grows_waitFor s m timeoutDefault q'
      exact ⟨g.log, g.wid, g.tab, g.fut, g.now⟩
  | abandon w =>
    rw [Api.step]
    split
    · rename_i h; exact grows_cancelFut s w h.2
    · exact Grows.refl s

theorem grows_run (s : Api) (es : List Event) : Grows s (s.run es) := by
  induction es generalizing s with
  | nil => exact Grows.refl s
  | cons e es ih => exact (grows_step s e).trans (ih _)

theorem run_append (s : Api) (a b : List Event) : s.run (a ++ b) = (s.run a).run b := by
  simp [Api.run, List.foldl_append]

theorem run_snoc (s : Api) (es : List Event) (e : Event) :
    s.run (es ++ [e]) = (s.run es).step e := by rw [run_append]; rfl

theorem inv_run_from {s : Api} (i : Inv s) (es : List Event) : Inv (s.run es) := by
  induction es generalizing s with
  | nil => exact i
  | cons e es ih => exact ih (i.step e)

/-! ## No call is left running between events -/

/-- No call is in the middle of an atomic piece of code. -/
def Settled (T : Nat → Option Task) : Prop := ∀ t k, T t = some k → k.pc ≠ .running

theorem settled_upd {T : Nat → Option Task} (h : ∀ u k, u ≠ t → T u = some k → k.pc ≠ .running)
    {k : Task} (hk : k.pc ≠ .running) : Settled (upd T t (some k)) := by
  intro u k' hu
  by_cases hut : u = t
  · subst hut; rw [upd_same] at hu; cases hu; exact hk
  · rw [upd_other _ _ hut] at hu; exact h u k' hut hu

theorem settled_setPc {s : Api} {t : Nat} {k : Task} (hk : s.tasks t = some k) {pc : Pc}
    (hpc : pc ≠ .running) (h : ∀ u k, u ≠ t → s.tasks u = some k → k.pc ≠ .running) :
    Settled (s.setPc t pc).tasks := by
  rw [setPc_eq hk]; exact settled_upd h hpc

theorem finish_tasks (s : Api) (t : Nat) (r : Except PyErr (Option Obj)) :
    (s.finish t r).tasks = (s.setPc t (.done r)).tasks := rfl

theorem uartSend_fields {s s' : Api} {t : Nat} {f : Frame} (h : s.uartSend t f = .ok s') :
    s'.tasks = s.tasks ∧ s'.queue = s.queue ∧ s'.waiters = s.waiters ∧ s'.fut = s.fut ∧
    s'.now = s.now := by
  unfold Api.uartSend at h
  split at h
  · split at h
    · simp at h
    · cases h; simp
  · simp at h

theorem settled_start {s : Api} {t : Nat} {k : Task} (hk : s.tasks t = some k) (o : Obj)
    (h : ∀ u k, u ≠ t → s.tasks u = some k → k.pc ≠ .running) : Settled (s.start t o).tasks := by
  unfold Api.start
  split
  · exact settled_setPc hk (by simp) h
  · split
    · dsimp only
      rename_i m to hw
      have fs := waitFor_fields s m to none
      split
      · exact settled_setPc (s := (s.waitFor m to none).2) (by rw [fs.1]; exact hk) (by simp)
          (by rw [fs.1]; exact h)
      · rename_i s' h'
        have fu := uartSend_fields h'
        exact settled_setPc (by rw [fu.1, fs.1]; exact hk) (by simp) (by rw [fu.1, fs.1]; exact h)
    · split
      · split
        · exact settled_setPc hk (by simp) h
        · rename_i s' h'
          have fu := uartSend_fields h'
          exact settled_setPc (s := s') (by rw [fu.1]; exact hk) (by simp) (by rw [fu.1]; exact h)
      · exact settled_setPc hk (by simp) h

theorem setPc_other (s : Api) (t : Nat) (pc : Pc) {u : Nat} (h : u ≠ t) :
    (s.setPc t pc).tasks u = s.tasks u := by
  unfold Api.setPc
  split
  · exact upd_other _ _ h
  · rfl

theorem settled_grant {s : Api} (h : Settled s.tasks) : Settled s.grant.tasks := by
  unfold Api.grant
  split
  · split
    · rename_i t q _ _ _ k hk
      refine settled_start (k := { k with pc := .running }) ?_ _ ?_
      · rw [setPc_eq (s := { s with holder := some t, queue := q }) hk]; exact upd_same _ _ _
      · intro u k' hu hk'
        rw [setPc_other _ _ _ hu] at hk'
        exact h u k' hk'
    · exact h
  · exact h

theorem settled_finish {s : Api} (h : Settled s.tasks) (t : Nat) (r : Except PyErr (Option Obj)) :
    Settled (s.finish t r).tasks := by
  rw [finish_tasks]
  rcases hk : s.tasks t with _ | k
  · unfold Api.setPc; rw [hk]; exact h
  · exact settled_setPc hk (by simp) (fun u k _ => h u k)

theorem matchLoop_fields (o : Obj) : ∀ (ws : List Waiter) (s : Api),
    (Api.matchLoop o ws s).1.tasks = s.tasks ∧ (Api.matchLoop o ws s).1.holder = s.holder ∧
    (Api.matchLoop o ws s).1.queue = s.queue ∧ (Api.matchLoop o ws s).1.ext = s.ext ∧
    (Api.matchLoop o ws s).1.timers = s.timers ∧ (Api.matchLoop o ws s).1.now = s.now ∧
    (Api.matchLoop o ws s).1.waiterId = s.waiterId ∧
    (Api.matchLoop o ws s).1.nextTid = s.nextTid ∧ (Api.matchLoop o ws s).1.uart = s.uart
  | [], s => by simp [Api.matchLoop]
  | w :: ws, s => by
    rw [Api.matchLoop]
    split
    · simp
    · exact matchLoop_fields o ws s
    · dsimp only
      have : ∀ s' : Api, s' = (s.pop w.id).setResult w.id o →
          s'.tasks = s.tasks ∧ s'.holder = s.holder ∧ s'.queue = s.queue ∧ s'.ext = s.ext ∧
          s'.timers = s.timers ∧ s'.now = s.now ∧ s'.waiterId = s.waiterId ∧
          s'.nextTid = s.nextTid ∧ s'.uart = s.uart := by
        intro s' h; subst h; unfold Api.setResult; split <;> simp [Api.pop]
      have h := this _ rfl
      split
      · exact h
      · have h2 := matchLoop_fields o ws ((s.pop w.id).setResult w.id o)
        exact ⟨h2.1.trans h.1, h2.2.1.trans h.2.1, h2.2.2.1.trans h.2.2.1,
          h2.2.2.2.1.trans h.2.2.2.1, h2.2.2.2.2.1.trans h.2.2.2.2.1,
          h2.2.2.2.2.2.1.trans h.2.2.2.2.2.1, h2.2.2.2.2.2.2.1.trans h.2.2.2.2.2.2.1,
          h2.2.2.2.2.2.2.2.1.trans h.2.2.2.2.2.2.2.1, h2.2.2.2.2.2.2.2.2.trans h.2.2.2.2.2.2.2.2⟩

theorem dataReceived_fields (s : Api) (f : Frame) :
    (s.dataReceived f).1.tasks = s.tasks ∧ (s.dataReceived f).1.holder = s.holder ∧
    (s.dataReceived f).1.queue = s.queue ∧ (s.dataReceived f).1.ext = s.ext ∧
    (s.dataReceived f).1.timers = s.timers ∧ (s.dataReceived f).1.now = s.now ∧
    (s.dataReceived f).1.waiterId = s.waiterId ∧ (s.dataReceived f).1.nextTid = s.nextTid ∧
    (s.dataReceived f).1.uart = s.uart := by
  unfold Api.dataReceived
  split
  · simp
  · rename_i o _
    have h := matchLoop_fields o s.waiters { s with log := s.log ++ [.received f o] }
    dsimp only
    split
    · rename_i h'; rw [h'] at h; exact h
    · rename_i h'; rw [h'] at h; exact h

theorem settled_step {s : Api} (h : Settled s.tasks) (e : Event) : Settled (s.step e).tasks := by
  cases e with
  | submit o w x =>
    rw [Api.step]
    have he : Settled (s.enqueue o w x).tasks := settled_upd (fun u k _ => h u k) (by simp)
    split
    · exact settled_grant he
    · exact he
  | grant => exact settled_grant h
  | frame f => rw [Api.step, (dataReceived_fields s f).1]; exact h
  | wake t =>
    rw [Api.step]
    split
    · split
      · split
        · unfold Api.conclude
          split
          · split
            · exact settled_finish h _ _
            · split
              · exact settled_finish h _ _
              · split
                · refine settled_finish ?_ _ _
                  rw [(setResult_fields _ _ _).1]; exact h
                · exact settled_finish h _ _
          · exact settled_finish h _ _
        · exact h
      · exact h
    · exact h
  | timeout t =>
    rw [Api.step]
    split
    · split
      · split
        · exact settled_finish h _ _
        · exact h
      · exact h
    · exact h
  | cancel t =>
    rw [Api.step]
    split
    · rename_i k hk
      split
      · exact settled_setPc hk (by simp) (fun u k _ => h u k)
      · exact settled_finish h _ _
      · exact h
    · exact h
  | timer w =>
    rw [Api.step]
    split
    · unfold Api.timerCallback
      split <;> exact h
    · exact h
  | tick ms => exact h
  | setUart b => exact h
  | register m to q => exact h
  | registerResponse o q =>
    rw [Api.step]
    unfold Api.createResponseWaiter
    split <;> exact h
  | abandon w =>
    rw [Api.step]
    split <;> exact h

theorem settled_run {s : Api} (h : Settled s.tasks) (es : List Event) : Settled (s.run es).tasks := by
  induction es generalizing s with
  | nil => exact h
  | cons e es ih => exact ih (settled_step h e)

theorem settled_init : Settled Api.init.tasks := by intro t k h; simp [Api.init] at h

end Zcc
