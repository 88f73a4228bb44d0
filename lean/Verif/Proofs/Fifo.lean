import Verif.Proofs.Runtime2

/-!
# Replies are attributed first come, first served (helper lemmas for C24)
-/

namespace Zcc

open Spec

/-- The queue left after a history. -/
def fifoQueue : List (Nat × Option Int) → List FifoOp → List (Nat × Option Int)
  | q, [] => q
  | q, .ask id tag :: ops => fifoQueue (q ++ [(id, tag)]) ops
  | q, .reply :: ops => fifoQueue q.tail ops
  | q, .leave id :: ops => fifoQueue (q.filter (fun x => x.1 != id)) ops

theorem fifoTags_append : ∀ (a b : List FifoOp) (q : List (Nat × Option Int)),
    fifoTags q (a ++ b) = fifoTags q a ++ fifoTags (fifoQueue q a) b
  | [], b, q => by simp [fifoTags, fifoQueue]
  | .ask id tag :: a, b, q => by
    simp only [List.cons_append]
    rw [fifoTags, fifoTags, fifoQueue]
    exact fifoTags_append a b _
  | .reply :: a, b, [] => by
    simp only [List.cons_append]
    rw [fifoTags, fifoTags, fifoQueue, fifoTags_append a b]
    rfl
  | .reply :: a, b, (i, tag) :: q => by
    simp only [List.cons_append]
    rw [fifoTags, fifoTags, fifoQueue, fifoTags_append a b]
    rfl
  | .leave id :: a, b, q => by
    simp only [List.cons_append]
    rw [fifoTags, fifoTags, fifoQueue]
    exact fifoTags_append a b _

theorem fifoQueue_append : ∀ (a b : List FifoOp) (q : List (Nat × Option Int)),
    fifoQueue q (a ++ b) = fifoQueue (fifoQueue q a) b
  | [], b, q => by simp [fifoQueue]
  | .ask id tag :: a, b, q => by
    simp only [List.cons_append]; rw [fifoQueue, fifoQueue]; exact fifoQueue_append a b _
  | .reply :: a, b, q => by
    simp only [List.cons_append]; rw [fifoQueue, fifoQueue]; exact fifoQueue_append a b _
  | .leave id :: a, b, q => by
    simp only [List.cons_append]; rw [fifoQueue, fifoQueue]; exact fifoQueue_append a b _

theorem fifoOps_append (m : Matcher) : ∀ (a b : List Entry),
    fifoOps m (a ++ b) = fifoOps m a ++ fifoOps m b
  | [], b => rfl
  | x :: a, b => by
    have ih := fifoOps_append m a b
    cases x <;> simp only [List.cons_append, fifoOps, ih] <;> (try split) <;>
      simp only [List.cons_append]

theorem handedTags_append (m : Matcher) : ∀ (a b : List Entry),
    handedTags m (a ++ b) = handedTags m a ++ handedTags m b
  | [], b => rfl
  | x :: a, b => by
    have ih := handedTags_append m a b
    cases x <;> simp only [List.cons_append, handedTags, ih] <;> (try split) <;>
      simp only [List.cons_append]

/-- The waiters with matcher `m`. -/
def tbl (m : Matcher) (W : List Waiter) : List (Nat × Option Int) :=
  (W.filter (fun x => decide (x.matcher = m))).map (fun x => (x.id, x.sequence))

/-- Table and log agree with the queue. -/
structure FifoInv (m : Matcher) (W : List Waiter) (L : List Entry) : Prop where
  queue : fifoQueue [] (fifoOps m L) = tbl m W
  tags : handedTags m L = fifoTags [] (fifoOps m L)

theorem FifoInv.snoc {m W W' L} (i : FifoInv m W L) (x : Entry)
    (h1 : fifoQueue (tbl m W) (fifoOps m [x]) = tbl m W')
    (h2 : handedTags m [x] = fifoTags (tbl m W) (fifoOps m [x])) : FifoInv m W' (L ++ [x]) where
  queue := by rw [fifoOps_append, fifoQueue_append, i.queue, h1]
  tags := by rw [fifoOps_append, handedTags_append, fifoTags_append, i.queue, ← h2, i.tags]

theorem FifoInv.note {m W L} (i : FifoInv m W L) {x : Entry} (h1 : fifoOps m [x] = [])
    (h2 : handedTags m [x] = []) : FifoInv m W (L ++ [x]) :=
  i.snoc x (by rw [h1]; rfl) (by rw [h1, h2]; rfl)

theorem FifoInv.register {m W L} (i : FifoInv m W L) (w : Waiter) (time : Nat) :
    FifoInv m (W ++ [w]) (L ++ [.registered w time]) := by
  by_cases h : w.matcher = m
  · have h1 : fifoOps m [Entry.registered w time] = [.ask w.id w.sequence] := by
      simp [fifoOps, h]
    refine i.snoc _ ?_ ?_
    · rw [h1]; simp [fifoQueue, tbl, List.filter_append, h]
    · rw [h1]; simp [fifoTags, handedTags]
  · have h1 : fifoOps m [Entry.registered w time] = [] := by simp [fifoOps, h]
    refine i.snoc _ ?_ ?_
    · rw [h1]; simp [fifoQueue, tbl, List.filter_append, h]
    · rw [h1]; simp [fifoTags, handedTags]

theorem tbl_pop (m : Matcher) (W : List Waiter) (w : Nat) :
    tbl m (W.filter (fun x => x.id != w)) = (tbl m W).filter (fun x => x.1 != w) := by
  unfold tbl
  rw [List.filter_map, List.filter_filter, List.filter_filter]
  congr 1
  apply List.filter_congr
  intro x _
  simp [Function.comp, Bool.and_comm]

theorem FifoInv.drop {m W L} (i : FifoInv m W L) (w : Nat) :
    FifoInv m (W.filter (fun x => x.id != w)) (L ++ [.dropped w]) :=
  i.snoc _ (by simp [fifoOps, fifoQueue, tbl_pop]) (by simp [fifoOps, fifoTags, handedTags])

theorem FifoInv.setResult {m} {s : Api} (i : FifoInv m s.waiters s.log) (w : Nat) (o : Obj) :
    FifoInv m (s.setResult w o).waiters (s.setResult w o).log := by
  have fs := setResult_fields s w o
  rw [fs.2.2.1]
  rcases fs.2.2.2.2.2.2 with h | h
  · rw [h]; exact i
  · rw [h]; exact i.note rfl rfl

theorem setPc_wl (s : Api) (t : Nat) (pc : Pc) :
    (s.setPc t pc).waiters = s.waiters ∧ (s.setPc t pc).log = s.log := by
  unfold Api.setPc; split <;> simp

theorem FifoInv.finish {m} {s : Api} (i : FifoInv m s.waiters s.log) (t : Nat)
    (r : Except PyErr (Option Obj)) : FifoInv m (s.finish t r).waiters (s.finish t r).log := by
  have h := setPc_wl s t (.done r)
  show FifoInv m (s.setPc t (.done r)).waiters (s.log ++ [.finished t r])
  rw [h.1]
  exact i.note rfl rfl

theorem FifoInv.uartSend {m} {s s' : Api} {t : Nat} {f : Frame} (h : s.uartSend t f = .ok s')
    (i : FifoInv m s.waiters s.log) : FifoInv m s'.waiters s'.log := by
  unfold Api.uartSend at h
  split at h
  · split at h
    · simp at h
    · cases h; exact i.note rfl rfl
  · simp at h

theorem FifoInv.start {m} {s : Api} (i : FifoInv m s.waiters s.log) (t : Nat) (o : Obj) :
    FifoInv m (s.start t o).waiters (s.start t o).log := by
  unfold Api.start
  split
  · exact i.finish _ _
  · split
    · rename_i m' to _
      dsimp only
      have j : FifoInv m (s.waitFor m' to none).2.waiters (s.waitFor m' to none).2.log :=
        i.register _ _
      split
      · exact j.finish _ _
      · rename_i s' h
        have k := j.uartSend h
        have := setPc_wl s' t (.waiting (s.waitFor m' to none).1 (s'.now + to))
        rw [this.1, this.2]; exact k
    · split
      · split
        · exact i.finish _ _
        · rename_i h; exact FifoInv.finish (FifoInv.uartSend h i) _ _
      · exact i.finish _ _

theorem FifoInv.grant {m} {s : Api} (i : FifoInv m s.waiters s.log) :
    FifoInv m s.grant.waiters s.grant.log := by
  unfold Api.grant
  split
  · split
    · rename_i t q _ _ _ k _
      have := setPc_wl { s with holder := some t, queue := q } t .running
      refine FifoInv.start ?_ _ _
      rw [this.1, this.2]; exact i
    · exact i
  · exact i

/-! ## Receiving -/

/-- The loop when the first matching waiter has a (non-zero) transaction number. -/
theorem matchLoop_first (o : Obj) (w : Waiter) (post : List Waiter) :
    ∀ (pre : List Waiter) (s : Api), (∀ x ∈ pre, x.matcher.match o = .ok false) →
    w.matcher.match o = .ok true → truthySeq w.sequence = true →
    Api.matchLoop o (pre ++ w :: post) s = ((s.pop w.id).setResult w.id o, .ok w.sequence)
  | [], s, _, hm, hs => by
    rw [List.nil_append, Api.matchLoop, hm]; dsimp only; rw [if_pos hs]
  | x :: pre, s, hp, hm, hs => by
    rw [List.cons_append, Api.matchLoop, hp x List.mem_cons_self]
    exact matchLoop_first o w post pre s (fun y hy => hp y (List.mem_cons_of_mem _ hy)) hm hs

theorem matchLoop_none (o : Obj) : ∀ (ws : List Waiter) (s : Api),
    (∀ x ∈ ws, x.matcher.match o = .ok false) → Api.matchLoop o ws s = (s, .ok none)
  | [], s, _ => rfl
  | x :: ws, s, h => by
    rw [Api.matchLoop, h x List.mem_cons_self]
    exact matchLoop_none o ws s (fun y hy => h y (List.mem_cons_of_mem _ hy))

/-- The first waiter with matcher `m`, if any. -/
theorem split_first (m : Matcher) (W : List Waiter) :
    (∀ x ∈ W, x.matcher ≠ m) ∨
    ∃ pre w post, W = pre ++ w :: post ∧ (∀ x ∈ pre, x.matcher ≠ m) ∧ w.matcher = m := by
  induction W with
  | nil => left; simp
  | cons x W ih =>
    by_cases h : x.matcher = m
    · exact .inr ⟨[], x, W, rfl, by simp, h⟩
    · rcases ih with ih | ⟨pre, w, post, rfl, h1, h2⟩
      · left; intro y hy; rcases List.mem_cons.mp hy with rfl | hy
        · exact h
        · exact ih y hy
      · refine .inr ⟨x :: pre, w, post, rfl, ?_, h2⟩
        intro y hy; rcases List.mem_cons.mp hy with rfl | hy
        · exact h
        · exact h1 y hy

theorem tbl_none {m : Matcher} {W : List Waiter} (h : ∀ x ∈ W, x.matcher ≠ m) : tbl m W = [] := by
  unfold tbl
  rw [List.filter_eq_nil_iff.mpr (by intro x hx; simpa using h x hx)]
  rfl

theorem tbl_split {m : Matcher} {pre post : List Waiter} {w : Waiter}
    (h1 : ∀ x ∈ pre, x.matcher ≠ m) (h2 : w.matcher = m) :
    tbl m (pre ++ w :: post) = (w.id, w.sequence) :: tbl m post := by
  unfold tbl
  rw [List.filter_append, List.filter_eq_nil_iff.mpr (by intro x hx; simpa using h1 x hx)]
  simp [h2]

/-- Removing one waiter from a table with increasing ids. -/
theorem pop_split {pre post : List Waiter} {w : Waiter}
    (h : ((pre ++ w :: post).map (·.id)).Pairwise (· < ·)) :
    (pre ++ w :: post).filter (fun x => x.id != w.id) = pre ++ post := by
  rw [List.map_append, List.pairwise_append, List.map_cons, List.pairwise_cons] at h
  rw [List.filter_append, List.filter_cons]
  simp only [bne_self_eq_false, Bool.false_eq_true, if_false]
  congr 1
  · rw [List.filter_eq_self]
    intro x hx
    have := h.2.2 x.id (List.mem_map_of_mem hx) w.id List.mem_cons_self
    simp; omega
  · rw [List.filter_eq_self]
    intro x hx
    have := h.2.1.1 x.id (List.mem_map_of_mem hx)
    simp; omega

/-- The assumptions of C24, on a log. -/
structure FifoGood (m : Matcher) (L : List Entry) : Prop where
  tagged : ∀ x time, .registered x time ∈ L → x.matcher = m → ∃ n, x.sequence = some n ∧ n ≠ 0
  comparable : ∀ x time f o, .registered x time ∈ L → .received f o ∈ L → Comparable x.matcher o
  exclusive : ∀ x time f o, .registered x time ∈ L → .received f o ∈ L → Answers m o →
    x.matcher ≠ m → ¬ Answers x.matcher o

theorem FifoGood.mono {m L L'} (h : L <+: L') (g : FifoGood m L') : FifoGood m L :=
  ⟨fun x t hx => g.tagged x t (h.mem hx), fun x t f o h1 h2 => g.comparable x t f o (h.mem h1) (h.mem h2),
   fun x t f o h1 h2 => g.exclusive x t f o (h.mem h1) (h.mem h2)⟩

/-- Messages that do not answer `m` leave the waiters with matcher `m` alone. -/
theorem matchLoop_other {m : Matcher} {o : Obj} (hn : ¬ Answers m o) :
    ∀ (ws : List Waiter) (s : Api), (ws.map (·.id)).Pairwise (· < ·) → (∀ x ∈ ws, x ∈ s.waiters) →
    ((s.waiters.map (·.id)).Pairwise (· < ·)) → (∀ x ∈ ws, Comparable x.matcher o) →
    FifoInv m s.waiters s.log →
    FifoInv m (Api.matchLoop o ws s).1.waiters (Api.matchLoop o ws s).1.log ∧
    ∃ q, (Api.matchLoop o ws s).2 = .ok q
  | [], s, _, _, _, _, i => ⟨i, none, rfl⟩
  | w :: ws, s, hp, hm, hW, hc, i => by
    rw [List.map_cons, List.pairwise_cons] at hp
    rw [Api.matchLoop]
    split
    · rename_i e he
      obtain ⟨b, hb⟩ := match_ok (hc w List.mem_cons_self)
      rw [hb] at he; simp at he
    · exact matchLoop_other hn ws s hp.2 (fun x hx => hm x (List.mem_cons_of_mem _ hx)) hW
        (fun x hx => hc x (List.mem_cons_of_mem _ hx)) i
    · rename_i ht
      have hwm : w.matcher ≠ m := by
        intro h; rw [h] at ht; exact hn ((match_true m o).mp ht)
      have i1 : FifoInv m (s.pop w.id).waiters (s.pop w.id).log := by
        have hw := hm w List.mem_cons_self
        obtain ⟨pre, post, hs⟩ := List.append_of_mem hw
        have e : (s.pop w.id).waiters = pre ++ post := by
          show s.waiters.filter _ = _
          rw [hs] at hW ⊢
          exact pop_split hW
        have : tbl m (pre ++ post) = tbl m s.waiters := by
          rw [hs]; unfold tbl; simp [List.filter_append, hwm]
        exact ⟨by rw [e, this]; exact i.queue, i.tags⟩
      have i2 := i1.setResult w.id o
      dsimp only
      split
      · exact ⟨i2, _, rfl⟩
      · have fs := setResult_fields (s.pop w.id) w.id o
        apply matchLoop_other hn ws _ hp.2 _ _ (fun x hx => hc x (List.mem_cons_of_mem _ hx)) i2
        · intro x hx
          rw [fs.2.2.1]
          refine List.mem_filter.mpr ⟨hm x (List.mem_cons_of_mem _ hx), ?_⟩
          have := hp.1 x.id (List.mem_map_of_mem hx)
          simp; omega
        · rw [fs.2.2.1]
          exact hW.sublist (List.filter_sublist.map _)

theorem answers_seq (m : Matcher) (o : Obj) (q : Option Int) :
    Answers m { o with sequence := q } ↔ Answers m o := Iff.rfl

theorem FifoInv.dataReceived {m} {s : Api} (i : Inv s) (j : FifoInv m s.waiters s.log) (f : Frame)
    (g : FifoGood m (s.dataReceived f).1.log) :
    FifoInv m (s.dataReceived f).1.waiters (s.dataReceived f).1.log := by
  unfold Api.dataReceived at g ⊢
  split
  · exact j
  · rename_i o ho
    rw [ho] at g
    dsimp only at g ⊢
    have j1 : FifoInv m s.waiters (s.log ++ [.received f o]) := j.note rfl rfl
    have hgood : FifoGood m (s.log ++ [.received f o]) := by
      refine FifoGood.mono ?_ g
      have h2 := (grows_matchLoop o s.waiters { s with log := s.log ++ [.received f o] }).log
      split
      · rename_i h; rw [h] at h2; exact h2
      · rename_i h; rw [h] at h2; exact h2.trans (List.prefix_append _ _)
    have reg : ∀ x ∈ s.waiters, ∃ time, .registered x time ∈ s.log ++ [.received f o] := by
      intro x hx
      obtain ⟨time, h, _⟩ := i.wait.regW x hx
      exact ⟨time, List.mem_append_left _ h⟩
    have hr : Entry.received f o ∈ s.log ++ [.received f o] := by simp
    have comp : ∀ x ∈ s.waiters, Comparable x.matcher o := by
      intro x hx
      obtain ⟨time, h⟩ := reg x hx
      exact hgood.comparable x time f o h hr
    by_cases ha : Answers m o
    · have other : ∀ x ∈ s.waiters, x.matcher ≠ m → x.matcher.match o = .ok false := by
        intro x hx hxm
        obtain ⟨time, h⟩ := reg x hx
        exact match_false (comp x hx) (hgood.exclusive x time f o h hr ha hxm)
      rcases split_first m s.waiters with hno | ⟨pre, w, post, hs, h1, h2⟩
      · rw [matchLoop_none o s.waiters _ (fun x hx => other x hx (hno x hx))]
        dsimp only
        refine j1.snoc _ ?_ ?_
        · simp [fifoOps, answers_seq, ha, fifoQueue, tbl_none hno]
        · simp [fifoOps, handedTags, answers_seq, ha, fifoTags, tbl_none hno]
      · have hw : w ∈ s.waiters := by rw [hs]; simp
        obtain ⟨time, hreg⟩ := reg w hw
        obtain ⟨n, hn, hn0⟩ := hgood.tagged w time hreg h2
        have hloop : ∀ (W : List Waiter) (s' : Api), W = pre ++ w :: post →
            Api.matchLoop o W s' = ((s'.pop w.id).setResult w.id o, .ok w.sequence) := by
          intro W s' hW
          rw [hW]
          exact matchLoop_first o w post pre _
            (fun x hx => other x (by rw [hs]; exact List.mem_append_left _ hx) (h1 x hx))
            ((match_true _ _).mpr (by rw [h2]; exact ha)) (by rw [hn]; simpa [truthySeq] using hn0)
        rw [hloop s.waiters _ hs]
        dsimp only
        have fs := setResult_fields (({ s with log := s.log ++ [.received f o] } : Api).pop w.id) w.id o
        rw [fs.2.2.1]
        have e : (({ s with log := s.log ++ [.received f o] } : Api).pop w.id).waiters = pre ++ post := by
          have hids := i.wait.ids
          show s.waiters.filter _ = _
          rw [hs] at hids ⊢
          exact pop_split hids
        rw [e]
        have j2 : FifoInv m s.waiters
            ((({ s with log := s.log ++ [.received f o] } : Api).pop w.id).setResult w.id o).log := by
          rcases fs.2.2.2.2.2.2 with h | h
          · rw [h]; exact j1
          · rw [h]; exact j1.note rfl rfl
        refine j2.snoc _ ?_ ?_
        · have : tbl m (pre ++ post) = tbl m post := by
            unfold tbl
            rw [List.filter_append, List.filter_eq_nil_iff.mpr (by intro x hx; simpa using h1 x hx)]
            rfl
          simp [fifoOps, answers_seq, ha, fifoQueue, hs, tbl_split h1 h2, this]
        · simp [fifoOps, handedTags, answers_seq, ha, fifoTags, hs, tbl_split h1 h2]
    · obtain ⟨j2, q, hq⟩ := matchLoop_other (m := m) ha s.waiters
        { s with log := s.log ++ [.received f o] } i.wait.ids (fun x hx => hx) i.wait.ids comp j1
      split
      · rename_i h; rw [h] at hq; simp at hq
      · rename_i h
        rw [h] at j2
        exact j2.note (by simp [fifoOps, answers_seq, ha]) (by simp [handedTags, answers_seq, ha])

theorem FifoInv.step {m} {s : Api} (i : Inv s) (j : FifoInv m s.waiters s.log) (e : Event)
    (g : FifoGood m (s.step e).log) : FifoInv m (s.step e).waiters (s.step e).log := by
  cases e with
  | submit o w x =>
    rw [Api.step]
    have je : FifoInv m (s.enqueue o w x).waiters (s.enqueue o w x).log := j.note rfl rfl
    split
    · exact je.grant
    · exact je
  | grant => exact j.grant
  | frame f => exact FifoInv.dataReceived i j f g
  | wake t =>
    rw [Api.step]
    split
    · split
      · split
        · unfold Api.conclude
          split
          · split
            · exact j.finish _ _
            · split
              · exact j.finish _ _
              · split
                · rename_i w _ _
                  have : FifoInv m (s.drop w).waiters (s.drop w).log := j.drop w
                  exact (this.setResult w _).finish _ _
                · exact j.finish _ _
          · exact j.finish _ _
        · exact j
      · exact j
    · exact j
  | timeout t =>
    rw [Api.step]
    split
    · split
      · split
        · exact j.finish _ _
        · exact j
      · exact j
    · exact j
  | cancel t =>
    rw [Api.step]
    split
    · split
      · have := setPc_wl s t (.done (.error .cancelledError))
        show FifoInv m (s.setPc t (.done (.error .cancelledError))).waiters (s.log ++ [_])
        rw [this.1]
        exact j.note rfl rfl
      · exact j.finish _ _
      · exact j
    · exact j
  | timer w =>
    rw [Api.step]
    split
    · unfold Api.timerCallback
      split
      · exact j
      · exact j.drop w
    · exact j
  | tick ms => exact j
  | setUart b => exact j
  | register m' to q => exact j.register _ _
  | registerResponse o q =>
    rw [Api.step]
    unfold Api.createResponseWaiter
    split
    · exact j
    · exact j
    · exact j.register _ _
  | abandon w =>
    rw [Api.step]
    split <;> exact j

theorem fifo_run {m} : ∀ (es : List Event) (s : Api), Inv s → FifoInv m s.waiters s.log →
    FifoGood m (s.run es).log → FifoInv m (s.run es).waiters (s.run es).log
  | [], _, _, j, _ => j
  | e :: es, s, i, j, g =>
    fifo_run es (s.step e) (i.step e)
      (j.step i e (FifoGood.mono (grows_run (s.step e) es).log g)) g

end Zcc
