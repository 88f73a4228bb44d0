import Verif.Proofs.Timely

/-!
# Requests and responses of one command

`K` tells which calls are requests with the command. Each gets the first response after it was
written. `N` tells which of the calls that gave up count, `rad` is an assumption about the radio.
-/

namespace Zcc
open Spec

/-- The call of a `sent` entry, if it is one of those. -/
def askedEntry (K : Nat → Bool) : Entry → Option Nat
  | .sent t _ => if K t then some t else none
  | _ => none

/-- The message of a `received` entry, if it is a response to the command. -/
def answerEntry (sub : Subsystem) (cmd : String) : Entry → Option Obj
  | .received _ o => if IsAnswer sub cmd o then some o else none
  | _ => none

/-- The call `k` ended with this response: returned it, or raised because of its status. -/
def EndsWith (k : Task) (r : Except PyErr (Option Obj)) (o : Obj) : Prop :=
  r = .ok (some o) ∨ ∃ z, r = .error (.commandError z) ∧ badStatus k.expected o = some z

/-- The ways to end with a response. -/
def settled : Except PyErr (Option Obj) → Bool
  | .ok (some _) => true
  | .error (.commandError _) => true
  | _ => false

/-- The calls that wrote a request with the command. -/
def asks (K : Nat → Bool) (L : List Entry) : List Nat := L.filterMap (askedEntry K)

/-- The responses to the command. -/
def resps (sub : Subsystem) (cmd : String) (L : List Entry) : List Obj :=
  L.filterMap (answerEntry sub cmd)

/-- There were not more requests than responses and requests given up. -/
def Lags (K N : Nat → Bool) (sub : Subsystem) (cmd : String) (L : List Entry) : Prop :=
  (asks K L).length ≤ (resps sub cmd L).length +
    (asks K L).countP (fun t => N t && gaveUp L t)

/-- Call `t` got the first response after it was written. -/
def Got (K N : Nat → Bool) (sub : Subsystem) (cmd : String) (rad : Prop) (L : List Entry) (t : Nat)
    (o : Obj) : Prop :=
  ∃ L1 b L2, L = L1 ++ .sent t b :: L2 ∧ Lags K N sub cmd L1 ∧ (resps sub cmd L2).head? = some o ∧
    (rad → (resps sub cmd L1).length ≤ (asks K L1).length)

/-- Requests and responses are paired. -/
structure Paired (K N : Nat → Bool) (sub : Subsystem) (cmd : String) (rad : Prop) (s : Api) : Prop where
  pend : ∀ t k w d, s.tasks t = some k → k.pc = .waiting w d → K t = true → s.fut w = .pending →
    N t = true ∧ ∃ L1 b L2, s.log = L1 ++ .sent t b :: L2 ∧ Lags K N sub cmd L1 ∧ asks K L2 = [] ∧
      (resps sub cmd L2 = [] ∨ ∀ x ∈ s.waiters, x.id ≠ w)
  got : ∀ t k w d o, s.tasks t = some k → k.pc = .waiting w d → K t = true →
    s.fut w = .result o → Lags K N sub cmd s.log ∧ Got K N sub cmd rad s.log t o
  idle : (∀ t k w d, s.tasks t = some k → k.pc = .waiting w d → K t = false) →
    Lags K N sub cmd s.log
  done : ∀ t k r, s.tasks t = some k → k.pc = .done r → settled r = true →
    t ∈ asks K s.log → N t = true → ∃ o, Got K N sub cmd rad s.log t o ∧ EndsWith k r o

variable {K N : Nat → Bool} {sub : Subsystem} {cmd : String} {rad : Prop}

theorem paired_init : Paired K N sub cmd rad Api.init where
  pend t k w d h := by simp [Api.init] at h
  got t k w d o h := by simp [Api.init] at h
  idle _ := by simp [Api.init, Lags, asks]
  done t k r h := by simp [Api.init] at h

theorem asks_append (L X : List Entry) : asks K (L ++ X) = asks K L ++ asks K X :=
  List.filterMap_append

theorem resps_append (L X : List Entry) : resps sub cmd (L ++ X) = resps sub cmd L ++ resps sub cmd X :=
  List.filterMap_append

theorem gaveUp_append {L : List Entry} (X : List Entry) {t : Nat} (h : gaveUp L t = true) :
    gaveUp (L ++ X) t = true := by
  unfold gaveUp at h ⊢
  rw [List.any_append, h]; rfl

theorem countP_gaveUp (A : List Nat) (L X : List Entry) :
    A.countP (fun t => N t && gaveUp L t) ≤ A.countP (fun t => N t && gaveUp (L ++ X) t) := by
  apply List.countP_mono_left
  intro t _ h
  rw [Bool.and_eq_true] at h ⊢
  exact ⟨h.1, gaveUp_append X h.2⟩

/-- Nothing more was asked. -/
theorem Lags.append {L : List Entry} (h : Lags K N sub cmd L) {X : List Entry} (hX : asks K X = []) :
    Lags K N sub cmd (L ++ X) := by
  unfold Lags at h ⊢
  rw [asks_append, hX, List.append_nil, resps_append, List.length_append]
  have := countP_gaveUp (N := N) (asks K L) L X
  omega

/-- The request that was asked last has a response. -/
theorem Lags.answered {L1 L2 : List Entry} {t : Nat} {b : List UInt8} (h : Lags K N sub cmd L1)
    (h2 : asks K L2 = []) (hr : resps sub cmd L2 ≠ []) : Lags K N sub cmd (L1 ++ .sent t b :: L2) := by
  unfold Lags at h ⊢
  have e1 : asks K (L1 ++ .sent t b :: L2) = asks K L1 ++ asks K [.sent t b] := by
    rw [asks_append]
    congr 1
    show asks K ([.sent t b] ++ L2) = _
    rw [asks_append, h2, List.append_nil]
  have e2 : resps sub cmd (L1 ++ .sent t b :: L2) = resps sub cmd L1 ++ resps sub cmd L2 := by
    rw [resps_append]; rfl
  have e3 : (asks K [.sent t b]).length ≤ 1 := List.length_filterMap_le _ _
  have e4 := List.length_pos_iff.mpr hr
  have := countP_gaveUp (N := N) (asks K L1) L1 (.sent t b :: L2)
  rw [e1, e2, List.length_append, List.length_append, List.countP_append]
  omega

/-- The request that was asked last was given up. -/
theorem Lags.lost {L1 L2 : List Entry} {t : Nat} {b : List UInt8} (h : Lags K N sub cmd L1)
    (h2 : asks K L2 = []) (hN : N t = true) (hK : K t = true) (hg : gaveUp (L1 ++ .sent t b :: L2) t = true) :
    Lags K N sub cmd (L1 ++ .sent t b :: L2) := by
  unfold Lags at h ⊢
  have e0 : asks K [.sent t b] = [t] := by simp [asks, askedEntry, hK]
  have e1 : asks K (L1 ++ .sent t b :: L2) = asks K L1 ++ [t] := by
    rw [asks_append]
    congr 1
    show asks K ([.sent t b] ++ L2) = _
    rw [asks_append, h2, List.append_nil, e0]
  have e2 : (resps sub cmd L1).length ≤ (resps sub cmd (L1 ++ .sent t b :: L2)).length := by
    rw [resps_append, List.length_append]; omega
  have e3 : [t].countP (fun u => N u && gaveUp (L1 ++ .sent t b :: L2) u) = 1 := by
    simp [hN, hg]
  have := countP_gaveUp (N := N) (asks K L1) L1 (.sent t b :: L2)
  rw [e1, List.length_append, List.countP_append, e3]
  simp only [List.length_singleton]
  omega

theorem Got.append {L : List Entry} {t : Nat} {o : Obj} (h : Got K N sub cmd rad L t o) (X : List Entry) :
    Got K N sub cmd rad (L ++ X) t o := by
  obtain ⟨L1, b, L2, rfl, h1, h2, h3⟩ := h
  refine ⟨L1, b, L2 ++ X, by simp, h1, ?_, h3⟩
  rw [resps_append, List.head?_append, h2]; rfl

theorem asks_same {L X : List Entry} (h : asks K (L ++ X) = asks K L) : asks K X = [] := by
  rw [asks_append] at h
  exact List.append_right_eq_self.mp h

theorem resps_same {L X : List Entry} (h : resps sub cmd (L ++ X) = resps sub cmd L) :
    resps sub cmd X = [] := by
  rw [resps_append] at h
  exact List.append_right_eq_self.mp h

/-- A step after which the calls wait as before. -/
theorem Paired.keep {s s' : Api} (p : Paired K N sub cmd rad s) (hl : s.log <+: s'.log)
    (ha : asks K s'.log = asks K s.log)
    (hr : resps sub cmd s'.log = resps sub cmd s.log)
    (hw : ∀ t w d, (∃ k, s'.tasks t = some k ∧ k.pc = .waiting w d) ↔
      ∃ k, s.tasks t = some k ∧ k.pc = .waiting w d)
    (hd : ∀ t k r, s'.tasks t = some k → k.pc = .done r → settled r = true → s.tasks t = some k)
    (hf : ∀ t k w d, s.tasks t = some k → k.pc = .waiting w d → s'.fut w = s.fut w)
    (hx : ∀ t k w d, s.tasks t = some k → k.pc = .waiting w d → (∀ x ∈ s.waiters, x.id ≠ w) →
      ∀ x ∈ s'.waiters, x.id ≠ w) : Paired K N sub cmd rad s' := by
  obtain ⟨X, hX⟩ := hl
  rw [← hX] at ha hr
  have ha' := asks_same ha
  have hr' := resps_same hr
  refine ⟨?_, ?_, ?_, ?_⟩
  · intro t k w d h1 h2 h3 h4
    obtain ⟨k0, h1', h2'⟩ := (hw t w d).mp ⟨k, h1, h2⟩
    rw [hf t k0 w d h1' h2'] at h4
    obtain ⟨hN, L1, b, L2, a0, a1, a2, a3⟩ := p.pend t k0 w d h1' h2' h3 h4
    refine ⟨hN, L1, b, L2 ++ X, by rw [← hX, a0]; simp, a1, by rw [asks_append, a2, ha']; rfl,
      a3.imp (fun h => by rw [resps_append, h, hr']; rfl) fun h => hx t k0 w d h1' h2' h⟩
  · intro t k w d o h1 h2 h3 h4
    obtain ⟨k0, h1', h2'⟩ := (hw t w d).mp ⟨k, h1, h2⟩
    rw [hf t k0 w d h1' h2'] at h4
    obtain ⟨g1, g2⟩ := p.got t k0 w d o h1' h2' h3 h4
    rw [← hX]
    exact ⟨g1.append ha', g2.append X⟩
  · intro h
    rw [← hX]
    refine Lags.append (p.idle fun t k w d h1 h2 => ?_) ha'
    obtain ⟨k', h1', h2'⟩ := (hw t w d).mpr ⟨k, h1, h2⟩
    exact h t k' w d h1' h2'
  · intro t k r h1 h2 h3 h4 h5
    rw [← hX, ha] at h4
    obtain ⟨o, g1, g2⟩ := p.done t k r (hd t k r h1 h2 h3) h2 h3 h4 h5
    rw [← hX]
    exact ⟨o, g1.append X, g2⟩

/-- Only the call that holds the lock waits. -/
theorem waiting_holder {s : Api} (i : Inv s) {t : Nat} {k : Task} {w d : Nat}
    (h1 : s.tasks t = some k) (h2 : k.pc = .waiting w d) : s.holder = some t :=
  (i.lock.hIff t).mpr ⟨k, h1, by rw [h2]; trivial⟩

/-- The call that holds the lock ends. -/
theorem Paired.finish {s : Api} (p : Paired K N sub cmd rad s) (i : Inv s) {t : Nat} {k : Task}
    (hk : s.tasks t = some k) (hh : k.pc.active) (r : Except PyErr (Option Obj))
    (hl : Lags K N sub cmd (s.log ++ [.finished t r]))
    (ho : settled r = true → t ∈ asks K s.log → N t = true →
      ∃ o, Got K N sub cmd rad s.log t o ∧ EndsWith k r o) : Paired K N sub cmd rad (s.finish t r) := by
  have hn : ∀ u k' w d, (s.finish t r).tasks u = some k' → k'.pc ≠ .waiting w d := by
    intro u k' w d h1 h2
    rw [finish_eq hk] at h1
    rcases tasks_upd hk _ h1 with ⟨hu, h⟩ | ⟨_, h⟩
    · have e1 := waiting_holder i h h2
      have e2 := (i.lock.hIff t).mpr ⟨k, hk, hh⟩
      rw [e1] at e2; exact hu (by simpa using e2)
    · rw [h] at h2; simp at h2
  have e1 : asks K (s.log ++ [.finished t r]) = asks K s.log := fm_none rfl
  have el : (s.finish t r).log = s.log ++ [.finished t r] := rfl
  refine ⟨fun u k' w d h1 h2 => absurd h2 (hn u k' w d h1),
    fun u k' w d o h1 h2 => absurd h2 (hn u k' w d h1), fun _ => hl, ?_⟩
  intro u k' r' h1 h2 h3 h4 h5
  rw [el] at h4 ⊢
  rw [e1] at h4
  rw [finish_eq hk] at h1
  rcases tasks_upd hk _ h1 with ⟨_, h⟩ | ⟨hu, h⟩
  · obtain ⟨o, g1, g2⟩ := p.done u k' r' h h2 h3 h4 h5
    exact ⟨o, g1.append _, g2⟩
  · subst hu
    rw [h] at h2 ⊢
    have h2 : r = r' := by simpa using h2
    subst h2
    obtain ⟨o, g1, g2⟩ := ho h3 h4 h5
    exact ⟨o, g1.append _, g2⟩

/-- A call takes the lock and starts. -/
theorem Paired.start {s : Api} (p : Paired K N sub cmd rad s) (i : Inv s) {t : Nat} {k : Task}
    (hk : s.tasks t = some k) (hpc : k.pc = .running) (hlt : ∀ t' b, .sent t' b ∈ s.log → t' < t)
    (hK : K t = true → IsRequest sub cmd k.obj)
    (hN : N t = false → ∃ b, .sent t b ∈ s.log) : Paired K N sub cmd rad (s.start t k.obj) := by
  have ha : k.pc.active := by rw [hpc]; trivial
  have hl : Lags K N sub cmd s.log := by
    refine p.idle fun u k' w d h1 h2 => ?_
    have e1 := waiting_holder i h1 h2
    have e2 := (i.lock.hIff t).mpr ⟨k, hk, ha⟩
    rw [e1] at e2
    cases e2
    rw [hk] at h1; cases h1; rw [hpc] at h2; simp at h2
  have hNt : N t = true := by
    rcases h : N t with _ | _
    · obtain ⟨b, hb⟩ := hN h
      have := hlt t b hb
      omega
    · rfl
  have hfresh : t ∉ asks K s.log := by
    intro h
    obtain ⟨x, hx, h⟩ := List.mem_filterMap.mp h
    cases x with
    | sent u b =>
      have := hlt u b hx
      rw [askedEntry] at h
      split at h
      · cases h; omega
      · cases h
    | _ => cases h
  unfold Api.start
  split
  · exact p.finish i hk ha _ (hl.append rfl) (fun _ h => absurd h hfresh)
  · rename_i f hf
    rcases ownWaiter_cases k.obj with ⟨m, to, hw, _⟩ | ⟨hw, h1, h2⟩
    · rw [hw]
      dsimp only
      have fs := waitFor_fields s m to none
      have j := i.waitFor m to none
      have hk' : (s.waitFor m to none).2.tasks t = some k := by rw [fs.1]; exact hk
      have e1 : asks K (s.waitFor m to none).2.log = asks K s.log := by
        rw [fs.2.2.2.2.2.2.1]; exact fm_none rfl
      have e2 : resps sub cmd (s.waitFor m to none).2.log = resps sub cmd s.log := by
        rw [fs.2.2.2.2.2.2.1]; exact fm_none rfl
      have hl' : Lags K N sub cmd (s.waitFor m to none).2.log := by
        rw [fs.2.2.2.2.2.2.1]; exact hl.append rfl
      have p' : Paired K N sub cmd rad (s.waitFor m to none).2 := by
        refine p.keep (by rw [fs.2.2.2.2.2.2.1]; exact List.prefix_append _ _) e1 e2
          (fun u w d => by rw [fs.1]) (fun u k' o h _ _ => by rw [fs.1] at h; exact h)
          (fun u k' w d _ _ => by rw [fs.2.2.2.2.1]) (fun u k' w d h1 h2 h3 x hx => ?_)
        rw [fs.2.2.2.2.2.1] at hx
        rcases List.mem_append.mp hx with hx | hx
        · exact h3 x hx
        · rw [List.mem_singleton] at hx
          have := (i.resp.live u k' w d h1 h2).1
          rw [hx]; show s.waiterId ≠ w; omega
      rcases uartSend_cases (s.waitFor m to none).2 t hf with ⟨e, he, h⟩ | ⟨b, hb, h⟩
      · rw [he]
        dsimp only
        exact p'.finish j hk' ha _ (hl'.append rfl) (fun _ h => absurd (e1 ▸ h) hfresh)
      · rw [hb]
        dsimp only
        rw [setPc_eq (s := { (s.waitFor m to none).2 with
          log := (s.waitFor m to none).2.log ++ [.sent t b] }) hk']
        -- only `t` waits now
        have only : ∀ u k' w d, upd (s.waitFor m to none).2.tasks t (some { k with
            pc := .waiting (s.waitFor m to none).1 ((s.waitFor m to none).2.now + to) }) u = some k' →
            k'.pc = .waiting w d → u = t ∧ w = (s.waitFor m to none).1 := by
          intro u k' w d h1 h2
          rcases tasks_upd hk' _ h1 with ⟨hu, h⟩ | ⟨hu, h⟩
          · have e1 := waiting_holder j h h2
            have e2 := (j.lock.hIff t).mpr ⟨k, hk', ha⟩
            rw [e1] at e2; exact absurd (by simpa using e2) hu
          · rw [h] at h2; simp only [Pc.waiting.injEq] at h2; exact ⟨hu, h2.1.symm⟩
        have hfut : (s.waitFor m to none).2.fut (s.waitFor m to none).1 = .pending := by
          rw [fs.2.2.2.2.1, fs.2.1]; exact i.wait.fresh _ (Nat.le_refl _)
        refine ⟨?_, ?_, ?_, ?_⟩
        · intro u k' w d h1 h2 h3 h4
          obtain ⟨rfl, rfl⟩ := only u k' w d h1 h2
          exact ⟨hNt, (s.waitFor m to none).2.log, b, [], rfl, hl', rfl, .inl rfl⟩
        · intro u k' w d o h1 h2 h3 h4
          obtain ⟨rfl, rfl⟩ := only u k' w d h1 h2
          have h4 : (s.waitFor m to none).2.fut (s.waitFor m to none).1 = .result o := h4
          rw [hfut] at h4; simp at h4
        · intro h
          have := h t _ _ _ (upd_same _ _ _) rfl
          exact hl'.append (by simp [asks, askedEntry, this])
        · intro u k' r h1 h2 h3 h4 h5
          dsimp only at h4 ⊢
          rw [asks_append, e1] at h4
          rcases tasks_upd hk' _ h1 with ⟨hu, h⟩ | ⟨_, h⟩
          · have h4' : u ∈ asks K s.log := by
              rcases List.mem_append.mp h4 with h4 | h4
              · exact h4
              · obtain ⟨x, hx, h4⟩ := List.mem_filterMap.mp h4
                rw [List.mem_singleton.mp hx, askedEntry] at h4
                split at h4
                · cases h4; exact absurd rfl hu
                · cases h4
            obtain ⟨o, n1, n2⟩ := p.done u k' r (by rw [fs.1] at h; exact h) h2 h3 h4' h5
            refine ⟨o, ?_, n2⟩
            rw [fs.2.2.2.2.2.2.1]
            exact (n1.append _).append _
          · rw [h] at h2; simp at h2
    · have hKt : K t = false := by
        rcases hKt : K t with _ | _
        · rfl
        · exact absurd (hK hKt).1 h1
      rw [hw]
      dsimp only
      split
      · rename_i hA
        rcases uartSend_cases s t hf with ⟨e, he, h⟩ | ⟨b, hb, h⟩
        · rw [he]
          exact p.finish i hk ha _ (hl.append rfl) (fun _ h => absurd h hfresh)
        · rw [hb]
          dsimp only
          have e0 : asks K [.sent t b, .finished t (.ok none)] = [] := by simp [asks, askedEntry, hKt]
          have ef : (Api.finish { s with log := s.log ++ [.sent t b] } t (.ok none)).log =
              s.log ++ [.sent t b, .finished t (.ok none)] := by
            show s.log ++ [Entry.sent t b] ++ [_] = _
            rw [List.append_assoc]; rfl
          -- nothing depends on the invariant of the state in between but the lock
          have hn : ∀ u k' w d, (Api.finish { s with log := s.log ++ [.sent t b] } t
              (.ok none)).tasks u = some k' → k'.pc ≠ .waiting w d := by
            intro u k' w d h1 h2
            rw [finish_eq (s := { s with log := s.log ++ [.sent t b] }) hk] at h1
            rcases tasks_upd hk _ h1 with ⟨hu, h⟩ | ⟨_, h⟩
            · have e1 := waiting_holder i h h2
              have e2 := (i.lock.hIff t).mpr ⟨k, hk, ha⟩
              rw [e1] at e2; exact hu (by simpa using e2)
            · rw [h] at h2; simp at h2
          refine ⟨fun u k' w d h1 h2 => absurd h2 (hn u k' w d h1),
            fun u k' w d o h1 h2 => absurd h2 (hn u k' w d h1),
            fun _ => by rw [ef]; exact hl.append e0, ?_⟩
          intro u k' r h1 h2 h3 h4 h5
          rw [ef] at h4 ⊢
          rw [asks_append, e0, List.append_nil] at h4
          rw [finish_eq (s := { s with log := s.log ++ [.sent t b] }) hk] at h1
          rcases tasks_upd hk _ h1 with ⟨_, h⟩ | ⟨hu, h⟩
          · obtain ⟨o, g1, g2⟩ := p.done u k' r h h2 h3 h4 h5
            exact ⟨o, g1.append _, g2⟩
          · rw [hu] at h4; exact absurd h4 hfresh
      · exact p.finish i hk ha _ (hl.append rfl) (fun _ h => absurd h hfresh)

theorem Paired.grant {s : Api} (p : Paired K N sub cmd rad s) (i : Inv s)
    (hK : ∀ t k, s.tasks t = some k → K t = true → IsRequest sub cmd k.obj)
    (hN : ∀ t, N t = false → ∃ b, .sent t b ∈ s.log) :
    Paired K N sub cmd rad s.grant := by
  unfold Api.grant
  split
  · rename_i t q hh hq
    split
    · rename_i k hk
      obtain ⟨j, hlt⟩ := i.acquire hh hq hk
      rw [setPc_eq (s := { s with holder := some t, queue := q }) hk] at j ⊢
      have hk' : upd s.tasks t (some { k with pc := .running }) t = some { k with pc := .running } :=
        upd_same _ _ _
      have hpc : k.pc = .queued := by
        obtain ⟨k', hk', hp⟩ := (i.lock.qIff t).mp (by rw [hq]; exact List.mem_cons_self)
        rw [hk] at hk'; cases hk'; exact hp
      have p' : Paired K N sub cmd rad { s with
          holder := some t, queue := q, tasks := upd s.tasks t (some { k with pc := .running }) } := by
        refine p.keep (List.prefix_refl _) rfl rfl ?_ ?_ ?_ ?_
        · intro u w d
          constructor
          · rintro ⟨k', h1, h2⟩
            rcases tasks_upd hk _ h1 with ⟨_, h⟩ | ⟨_, h⟩
            · exact ⟨k', h, h2⟩
            · rw [h] at h2; simp at h2
          · rintro ⟨k', h1, h2⟩
            have := waiting_holder i h1 h2
            rw [hh] at this; simp at this
        · intro u k' o h1 h2 _
          rcases tasks_upd hk _ h1 with ⟨_, h⟩ | ⟨_, h⟩
          · exact h
          · rw [h] at h2; simp at h2
        · intro u k' w d _ _; rfl
        · intro u k' w d _ _ h; exact h
      exact Paired.start (k := { k with pc := .running }) p' j hk' rfl hlt (hK t k hk) (hN t)
    · exact p
  · exact p

theorem Paired.enqueue {s : Api} (p : Paired K N sub cmd rad s) (i : Inv s) (o : Obj) (w : Option Nat)
    (e : Option (List Int)) : Paired K N sub cmd rad (s.enqueue o w e) := by
  have hnew : ∀ t k, s.tasks t = some k → t ≠ s.nextTid := by
    intro t k hk h
    have := (i.lock.tid t).mp ⟨k, hk⟩
    omega
  refine p.keep (List.prefix_append _ _) (fm_none (x := Entry.submitted _ o w e) rfl)
    (fm_none (x := Entry.submitted _ o w e) rfl) ?_ ?_ (fun _ _ _ _ _ _ => rfl) (fun _ _ _ _ _ _ h => h)
  · intro u v d
    constructor
    · rintro ⟨k', h1, h2⟩
      by_cases hu : u = s.nextTid
      · rw [Api.enqueue, hu] at h1
        dsimp only at h1
        rw [upd_same] at h1; cases h1; simp at h2
      · exact ⟨k', by rw [Api.enqueue] at h1; dsimp only at h1; rwa [upd_other _ _ hu] at h1, h2⟩
    · rintro ⟨k', h1, h2⟩
      refine ⟨k', ?_, h2⟩
      show upd s.tasks s.nextTid _ u = _
      rw [upd_other _ _ (hnew u k' h1)]; exact h1
  · intro u k' o' h1 h2 _
    by_cases hu : u = s.nextTid
    · rw [Api.enqueue, hu] at h1
      dsimp only at h1
      rw [upd_same] at h1; cases h1; simp at h2
    · rw [Api.enqueue] at h1; dsimp only at h1; rwa [upd_other _ _ hu] at h1

theorem matchLoop_filterMap {β : Type} (g : Entry → Option β) (hg : ∀ w o, g (.resolved w o) = none)
    (o : Obj) : ∀ (ws : List Waiter) (s : Api),
    (Api.matchLoop o ws s).1.log.filterMap g = s.log.filterMap g
  | [], s => rfl
  | w :: ws, s => by
    have hs : ((s.pop w.id).setResult w.id o).log.filterMap g = s.log.filterMap g := by
      rcases (setResult_fields (s.pop w.id) w.id o).2.2.2.2.2.2 with h | h
      · rw [h]; rfl
      · rw [h]; exact fm_none (hg _ _)
    rw [Api.matchLoop]
    split
    · rfl
    · exact matchLoop_filterMap g hg o ws s
    · dsimp only
      split
      · exact hs
      · exact (matchLoop_filterMap g hg o ws _).trans hs

theorem dataReceived_filterMap {β : Type} (g : Entry → Option β)
    (hg : ∀ w o, g (.resolved w o) = none) (hh : ∀ o, g (.handed o) = none)
    (s : Api) {f : Frame} {o : Obj} (hd : Obj.fromUnpiFrame f = .ok o) :
    (s.dataReceived f).1.log.filterMap g = (s.log ++ [Entry.received f o]).filterMap g := by
  unfold Api.dataReceived
  rw [hd]
  have h := matchLoop_filterMap g hg o s.waiters { s with log := s.log ++ [.received f o] }
  dsimp only
  split
  · rename_i heq; rw [heq] at h; exact h
  · rename_i heq; rw [heq] at h; exact (fm_none (hh _)).trans h

/-- A frame arrives. `radio`: a response to the command arrives only if one is outstanding (`rad`). `plain`:
waiters that a response answers have no transaction number, and no waiter asks for a field that the
response lacks. -/
theorem Paired.frame {s : Api} (p : Paired K N sub cmd rad s) (i : Inv s)
    (hK : ∀ t k, s.tasks t = some k → K t = true → IsRequest sub cmd k.obj) (f : Frame)
    (radio : rad → ∀ o, Obj.fromUnpiFrame f = .ok o → IsAnswer sub cmd o →
      (resps sub cmd s.log).length < (asks K s.log).length)
    (plain : ∀ o, Obj.fromUnpiFrame f = .ok o → o.commandType = .SRSP → ∀ x ∈ s.waiters,
      Comparable x.matcher o ∧ (Answers x.matcher o → x.sequence = none)) :
    Paired K N sub cmd rad (s.dataReceived f).1 := by
  rcases hd : Obj.fromUnpiFrame f with e | o
  · unfold Api.dataReceived; rw [hd]; exact p
  have ft := dataReceived_fields s f
  have e1 : asks K (s.dataReceived f).1.log = asks K s.log :=
    (dataReceived_filterMap _ (fun _ _ => rfl) (fun _ => rfl) s hd).trans (fm_none rfl)
  have e2 := dataReceived_filterMap (answerEntry sub cmd) (fun _ _ => rfl) (fun _ => rfl) s hd
  have gr := grows_step s (.frame f)
  obtain ⟨X, hX⟩ := gr.log
  have hX : s.log ++ X = (s.dataReceived f).1.log := hX
  have hXa : asks K X = [] := asks_same (L := s.log) (by rw [hX, e1])
  -- the matcher of a waiting request
  have own : ∀ t k w d, s.tasks t = some k → k.pc = .waiting w d → K t = true → ∀ x ∈ s.waiters,
      x.id = w → x.matcher = ⟨.SRSP, sub, cmd, []⟩ := by
    intro t k w d h1 h2 h3 x hx hid
    obtain ⟨_, _, _, _, m, to, h5, h6, _⟩ := i.resp.live t k w d h1 h2
    rw [h6 x hx hid]
    obtain ⟨k1, k2, k3⟩ := hK t k h1 h3
    unfold ownWaiter at h5
    rw [if_pos k1] at h5
    simp only [Option.some.injEq, Prod.mk.injEq] at h5
    rw [← h5.1, k2, k3]
  have eff : ∀ w, (s.dataReceived f).1.fut w ≠ s.fut w →
      ∃ y ∈ s.waiters, y.id = w ∧ Answers y.matcher o ∧ s.fut w = .pending ∧
        (s.dataReceived f).1.fut w = .result o := by
    have hk := (matchLoop_effect o s.waiters { s with log := s.log ++ [.received f o] }).2
    unfold Api.dataReceived
    rw [hd]
    dsimp only
    split
    · rename_i heq; rw [heq] at hk; exact hk
    · rename_i heq; rw [heq] at hk; exact hk
  have gone : ∀ t k w d, s.tasks t = some k → k.pc = .waiting w d → (∀ x ∈ s.waiters, x.id ≠ w) →
      ∀ x ∈ (s.dataReceived f).1.waiters, x.id ≠ w := by
    intro t k w d h1 h2 h3 x hx
    rcases gr.tab x hx with h | h
    · exact h3 x h
    · have := (i.resp.live t k w d h1 h2).1; omega
  by_cases ha : IsAnswer sub cmd o
  · -- a response to the command
    have e2' : resps sub cmd X = [o] := by
      have e2 : resps sub cmd (s.dataReceived f).1.log = _ := e2
      rw [← hX, resps_append, fm_some (a := o) (by simp [answerEntry, ha])] at e2
      exact List.append_cancel_left e2
    refine ⟨?_, ?_, ?_, ?_⟩
    · intro t k w d h1 h2 h3 h4
      rw [ft.1] at h1
      have h4' : s.fut w = .pending := by
        apply Decidable.byContradiction
        intro hn
        exact hn ((futStay_step s (.frame f) w hn).symm.trans h4)
      obtain ⟨hN, L1, b, L2, a0, a1, a2, a3⟩ := p.pend t k w d h1 h2 h3 h4'
      refine ⟨hN, L1, b, L2 ++ X, by rw [← hX, a0]; simp, a1, by rw [asks_append, a2, hXa]; rfl, .inr ?_⟩
      apply gone t k w d h1 h2
      intro x hx hid
      have hm := own t k w d h1 h2 h3 x hx hid
      have := matchLoop_reaches o s.waiters { s with log := s.log ++ [.received f o] }
        (fun y hy => (plain o hd ha.1 y hy).1) (fun y hy => (plain o hd ha.1 y hy).2) x hx
        (by rw [hm]; exact ⟨ha.1.symm, ha.2.1.symm, ha.2.2.symm, by simp⟩)
        (by rw [hid]; exact h4')
      rw [hid] at this
      have h4 : (s.dataReceived f).1.fut w = .pending := h4
      unfold Api.dataReceived at h4
      rw [hd] at h4
      dsimp only at h4
      split at h4
      · rename_i heq; rw [heq] at this; rw [this] at h4; simp at h4
      · rename_i heq; rw [heq] at this; dsimp only at h4 this; rw [this] at h4; simp at h4
    · intro t k w d o' h1 h2 h3 h4
      rw [ft.1] at h1
      rcases hfw : s.fut w with _ | o'' | _
      · obtain ⟨y, hy, hid, _, _, hres⟩ := eff w (by rw [h4, hfw]; simp)
        rw [hres] at h4
        cases h4
        obtain ⟨hN, L1, b, L2, a0, a1, a2, a3⟩ := p.pend t k w d h1 h2 h3 hfw
        have hL2 : resps sub cmd L2 = [] := a3.elim id fun h => absurd hid (h y hy)
        have hL : (s.dataReceived f).1.log = L1 ++ .sent t b :: (L2 ++ X) := by rw [← hX, a0]; simp
        rw [hL]
        refine ⟨Lags.answered a1 (by rw [asks_append, a2, hXa]; rfl)
          (by rw [resps_append, e2']; simp), L1, b, L2 ++ X, rfl, a1, by rw [resps_append, hL2, e2']; rfl,
          fun hrad => ?_⟩
        have hlt := radio hrad o hd ha
        rw [a0, asks_append, resps_append] at hlt
        have h5 : resps sub cmd (Entry.sent t b :: L2) = [] := hL2
        have h6 : asks K (Entry.sent t b :: L2) = [t] := by
          show asks K ([.sent t b] ++ L2) = _
          rw [asks_append, a2]
          simp [asks, askedEntry, h3]
        rw [h5, h6, List.length_append, List.length_append] at hlt
        simp only [List.length_singleton, List.length_nil] at hlt
        omega
      · have h5 : o'' = o' := by
          have := gr.fut w o'' hfw
          have h4 : (s.step (.frame f)).fut w = .result o' := h4
          rw [this] at h4
          exact Fut.result.inj h4
        subst h5
        obtain ⟨g1, g2⟩ := p.got t k w d o'' h1 h2 h3 hfw
        rw [← hX]
        exact ⟨g1.append hXa, g2.append X⟩
      · exact absurd hfw (i.resp.live t k w d h1 h2).2.2.1
    · intro h
      have := p.idle fun t k w d h1 h2 => h t k w d (by rw [ft.1]; exact h1) h2
      rw [← hX]
      exact this.append hXa
    · intro t k r h1 h2 h3 h4 h5
      rw [ft.1] at h1
      rw [e1] at h4
      obtain ⟨o', g1, g2⟩ := p.done t k r h1 h2 h3 h4 h5
      rw [← hX]
      exact ⟨o', g1.append X, g2⟩
  · -- another message
    have e2' : resps sub cmd X = [] := by
      have e2 : resps sub cmd (s.dataReceived f).1.log = _ := e2
      rw [fm_none (by simp [answerEntry, ha])] at e2
      exact resps_same (L := s.log) (by rw [hX]; exact e2)
    have same : ∀ t k w d, s.tasks t = some k → k.pc = .waiting w d → K t = true →
        (s.dataReceived f).1.fut w = s.fut w := by
      intro t k w d h1 h2 h3
      apply Decidable.byContradiction
      intro hn
      obtain ⟨y, hy, hid, hans, _⟩ := eff w hn
      rw [own t k w d h1 h2 h3 y hy hid] at hans
      exact ha ⟨hans.1.symm, hans.2.1.symm, hans.2.2.1.symm⟩
    refine ⟨?_, ?_, ?_, ?_⟩
    · intro t k w d h1 h2 h3 h4
      rw [ft.1] at h1
      rw [same t k w d h1 h2 h3] at h4
      obtain ⟨hN, L1, b, L2, a0, a1, a2, a3⟩ := p.pend t k w d h1 h2 h3 h4
      exact ⟨hN, L1, b, L2 ++ X, by rw [← hX, a0]; simp, a1, by rw [asks_append, a2, hXa]; rfl,
        a3.imp (fun h => by rw [resps_append, h, e2']; rfl) (gone t k w d h1 h2)⟩
    · intro t k w d o' h1 h2 h3 h4
      rw [ft.1] at h1
      rw [same t k w d h1 h2 h3] at h4
      obtain ⟨g1, g2⟩ := p.got t k w d o' h1 h2 h3 h4
      rw [← hX]
      exact ⟨g1.append hXa, g2.append X⟩
    · intro h
      rw [← hX]
      exact Lags.append (p.idle fun t k w d h1 h2 => h t k w d (by rw [ft.1]; exact h1) h2) hXa
    · intro t k r h1 h2 h3 h4 h5
      rw [ft.1] at h1
      rw [e1] at h4
      obtain ⟨o', g1, g2⟩ := p.done t k r h1 h2 h3 h4 h5
      rw [← hX]
      exact ⟨o', g1.append X, g2⟩

/-- One event. -/
theorem Paired.step {s : Api} (p : Paired K N sub cmd rad s) (i : Inv s) (e : Event)
    (hK0 : ∀ t k, s.tasks t = some k → K t = true → IsRequest sub cmd k.obj)
    (hKe : ∀ o w x, e = .submit o w x → K s.nextTid = true →
      IsRequest sub cmd o)
    (hN : ∀ t, N t = false → ∃ b, .sent t b ∈ s.log)
    (radio : rad → ∀ f o, e = .frame f → Obj.fromUnpiFrame f = .ok o → IsAnswer sub cmd o →
      (resps sub cmd s.log).length < (asks K s.log).length)
    (plain : ∀ f o, e = .frame f → Obj.fromUnpiFrame f = .ok o → o.commandType = .SRSP →
      ∀ x ∈ s.waiters, Comparable x.matcher o ∧ (Answers x.matcher o → x.sequence = none)) :
    Paired K N sub cmd rad (s.step e) := by
  -- nobody of ours is waiting if somebody else is
  have other : ∀ t k w d, s.tasks t = some k → k.pc = .waiting w d → K t = false →
      Lags K N sub cmd s.log := by
    intro t k w d h1 h2 h3
    refine p.idle fun u k' w' d' h1' h2' => ?_
    have e1 := waiting_holder i h1 h2
    have e2 := waiting_holder i h1' h2'
    rw [e1] at e2; cases e2; exact h3
  cases e with
  | submit o w x =>
    have je := p.enqueue i o w x
    rw [Api.step]
    have ie : Inv (s.enqueue o w x) := i.enqueue o w x
    have hKq : ∀ t k, (s.enqueue o w x).tasks t = some k → K t = true → IsRequest sub cmd k.obj := by
      intro t k h1 h2
      by_cases ht : t = s.nextTid
      · subst ht
        rw [Api.enqueue] at h1; dsimp only at h1
        rw [upd_same] at h1; cases h1
        exact hKe o w x rfl h2
      · rw [Api.enqueue] at h1; dsimp only at h1
        rw [upd_other _ _ ht] at h1; exact hK0 t k h1 h2
    split
    · exact je.grant ie hKq (fun t h => by
        obtain ⟨b, hb⟩ := hN t h
        exact ⟨b, List.mem_append_left _ hb⟩)
    · exact je
  | grant => exact p.grant i hK0 hN
  | frame f => exact p.frame i hK0 f (fun h o => radio h f o rfl) (fun o => plain f o rfl)
  | wake t =>
    rw [Api.step]
    split
    · rename_i k hk
      split
      · rename_i w d hpc
        split
        · rename_i o hf
          have ha : k.pc.active := by rw [hpc]; trivial
          have hl : Lags K N sub cmd s.log := by
            rcases hKt : K t with _ | _
            · exact other t k w d hk hpc hKt
            · exact (p.got t k w d o hk hpc hKt hf).1
          have ho : t ∈ asks K s.log → Got K N sub cmd rad s.log t o := by
            intro ht
            obtain ⟨x, _, hx⟩ := List.mem_filterMap.mp ht
            have hKt : K t = true := by
              cases x with
              | sent u b =>
                rw [askedEntry] at hx
                split at hx
                · cases hx; assumption
                · cases hx
              | _ => cases hx
            exact (p.got t k w d o hk hpc hKt hf).2
          have hok : settled (.ok (some o)) = true → t ∈ asks K s.log → N t = true →
              ∃ o', Got K N sub cmd rad s.log t o' ∧ EndsWith k (.ok (some o)) o' :=
            fun _ ht _ => ⟨o, ho ht, .inl rfl⟩
          unfold Api.conclude
          split
          · split
            · exact p.finish i hk ha _ (hl.append rfl) hok
            · rename_i z hz
              have hbad : t ∈ asks K s.log → N t = true →
                  ∃ o', Got K N sub cmd rad s.log t o' ∧ EndsWith k (.error (.commandError z)) o' :=
                fun ht _ => ⟨o, ho ht, .inr ⟨z, rfl, hz⟩⟩
              split
              · exact p.finish i hk ha _ (hl.append rfl) (fun _ => hbad)
              · rename_i v hv
                split
                · -- the other waiter gets the refusal
                  rename_i hin
                  obtain ⟨y, hy, hyv⟩ := List.any_eq_true.mp hin
                  have hyv : y.id = v := by simpa using hyv
                  have hne : ∀ t' k' w' d', s.tasks t' = some k' → k'.pc = .waiting w' d' → w' ≠ v := by
                    intro t' k' w' d' h1 h2 he
                    have e1 := waiting_holder i h1 h2
                    rw [waiting_holder i hk hpc] at e1; cases e1
                    rw [hk] at h1; cases h1
                    rw [hpc] at h2; cases h2
                    exact i.wait.resOut w o hf y hy (hyv.trans he.symm)
                  have q : Paired K N sub cmd rad ((s.drop v).setResult v o) ∧
                      ((s.drop v).setResult v o).tasks = s.tasks ∧
                      (∃ X, ((s.drop v).setResult v o).log = s.log ++ X ∧ asks K X = []) ∧
                      Inv ((s.drop v).setResult v o) := by
                    have iv : Inv ((s.drop v).setResult v o) := by
                      refine (i.drop v).setResult v o (pop_not_mem s v)
                        (hyv ▸ i.wait.lt y hy) ?_
                      intro t' k' d' h1 h2
                      exact absurd rfl (hne t' k' v d' h1 h2)
                    have g : ∀ {β : Type} (g : Entry → Option β), g (.dropped v) = none →
                        g (.resolved v o) = none →
                        ((s.drop v).setResult v o).log.filterMap g = s.log.filterMap g := by
                      intro β g g1 g2
                      rcases (setResult_fields (s.drop v) v o).2.2.2.2.2.2 with h | h
                      · rw [h]; exact fm_none g1
                      · rw [h, fm_none g2]; exact fm_none g1
                    have ht : ((s.drop v).setResult v o).tasks = s.tasks :=
                      (setResult_fields (s.drop v) v o).1
                    have hp : s.log <+: ((s.drop v).setResult v o).log := by
                      rcases (setResult_fields (s.drop v) v o).2.2.2.2.2.2 with h | h
                      · rw [h]; exact List.prefix_append _ _
                      · rw [h]; exact (List.prefix_append _ _).trans (List.prefix_append _ _)
                    refine ⟨p.keep hp (g _ rfl rfl) (g _ rfl rfl) (fun _ _ _ => by rw [ht])
                      (fun _ _ _ h _ _ => by rw [ht] at h; exact h) ?_ ?_, ht, ?_, iv⟩
                    · intro t' k' w' d' h1 h2
                      unfold Api.setResult
                      split
                      · exact upd_other _ _ (hne t' k' w' d' h1 h2)
                      · rfl
                    · intro t' k' w' d' h1 h2 h3 x hx
                      rw [(setResult_fields (s.drop v) v o).2.2.1] at hx
                      exact h3 x (List.mem_filter.mp hx).1
                    · obtain ⟨X, hX⟩ := hp
                      exact ⟨X, hX.symm, asks_same (L := s.log) (by rw [hX]; exact g _ rfl rfl)⟩
                  obtain ⟨q1, q2, ⟨X, q3, q4⟩, q5⟩ := q
                  refine q1.finish q5 (by rw [q2]; exact hk) ha _ ?_ ?_
                  · rw [q3]
                    exact (hl.append q4).append rfl
                  · rw [q3, asks_append, q4, List.append_nil]
                    intro _ h1 h2
                    obtain ⟨o', g1, g2⟩ := hbad h1 h2
                    exact ⟨o', g1.append X, g2⟩
                · exact p.finish i hk ha _ (hl.append rfl) (fun h => by cases h)
          · exact p.finish i hk ha _ (hl.append rfl) hok
        · exact p
      · exact p
    · exact p
  | timeout t =>
    rw [Api.step]
    split
    · rename_i k hk
      split
      · rename_i w d hpc
        split
        · rename_i hc
          have ha : k.pc.active := by rw [hpc]; trivial
          have hl : Lags K N sub cmd (s.log ++ [.finished t (.error .timeoutError)]) := by
            rcases hKt : K t with _ | _
            · exact (other t k w d hk hpc hKt).append rfl
            · obtain ⟨hNt, L1, b, L2, a0, a1, a2, -⟩ := p.pend t k w d hk hpc hKt hc.1
              rw [a0, List.append_assoc, List.cons_append]
              exact a1.lost (by rw [asks_append, a2]; rfl) hNt hKt (by simp [gaveUp])
          have q := p.finish i hk ha (.error .timeoutError) hl (fun h => by cases h)
          have hn : ∀ t' k' w' d', (s.finish t (.error .timeoutError)).tasks t' = some k' →
              k'.pc ≠ .waiting w' d' := by
            intro u k' w' d' h1 h2
            rw [finish_eq hk] at h1
            rcases tasks_upd hk _ h1 with ⟨hu, h⟩ | ⟨_, h⟩
            · have e1 := waiting_holder i h h2
              have e2 := waiting_holder i hk hpc
              rw [e1] at e2; exact hu (by simpa using e2)
            · rw [h] at h2; simp at h2
          exact ⟨fun t' k' w' d' h1 h2 => absurd h2 (hn t' k' w' d' h1),
            fun t' k' w' d' o h1 h2 => absurd h2 (hn t' k' w' d' h1), q.idle, q.done⟩
        · exact p
      · exact p
    · exact p
  | cancel t =>
    rw [Api.step]
    split
    · rename_i k hk
      split
      · rename_i hpc
        rw [setPc_eq hk]
        refine p.keep (List.prefix_append _ _) (fm_none rfl) (fm_none rfl) ?_ ?_ (fun _ _ _ _ _ _ => rfl)
          (fun _ _ _ _ _ _ h => h)
        · intro u w d
          constructor
          · rintro ⟨k', h1, h2⟩
            rcases tasks_upd hk _ h1 with ⟨_, h⟩ | ⟨_, h⟩
            · exact ⟨k', h, h2⟩
            · rw [h] at h2; simp at h2
          · rintro ⟨k', h1, h2⟩
            refine ⟨k', ?_, h2⟩
            have hu : u ≠ t := by
              rintro rfl
              rw [hk] at h1; cases h1; rw [hpc] at h2; simp at h2
            show upd s.tasks t _ u = _
            rw [upd_other _ _ hu]; exact h1
        · intro u k' r h1 h2 h3
          rcases tasks_upd hk _ h1 with ⟨_, h⟩ | ⟨_, h⟩
          · exact h
          · rw [h] at h2
            have h2 : Except.error PyErr.cancelledError = r := by simpa using h2
            rw [← h2] at h3; cases h3
      · rename_i w d hpc
        have ha : k.pc.active := by rw [hpc]; trivial
        have hl : Lags K N sub cmd (s.log ++ [.finished t (.error .cancelledError)]) := by
          rcases hKt : K t with _ | _
          · exact (other t k w d hk hpc hKt).append rfl
          · rcases hfw : s.fut w with _ | o | _
            · obtain ⟨hNt, L1, b, L2, a0, a1, a2, -⟩ := p.pend t k w d hk hpc hKt hfw
              rw [a0, List.append_assoc, List.cons_append]
              exact a1.lost (by rw [asks_append, a2]; rfl) hNt hKt (by simp [gaveUp])
            · exact (p.got t k w d o hk hpc hKt hfw).1.append rfl
            · exact absurd hfw (i.resp.live t k w d hk hpc).2.2.1
        have q := p.finish i hk ha (.error .cancelledError) hl (fun h => by cases h)
        have hn : ∀ t' k' w' d', (s.finish t (.error .cancelledError)).tasks t' = some k' →
            k'.pc ≠ .waiting w' d' := by
          intro u k' w' d' h1 h2
          rw [finish_eq hk] at h1
          rcases tasks_upd hk _ h1 with ⟨hu, h⟩ | ⟨_, h⟩
          · have e1 := waiting_holder i h h2
            have e2 := waiting_holder i hk hpc
            rw [e1] at e2; exact hu (by simpa using e2)
          · rw [h] at h2; simp at h2
        exact ⟨fun t' k' w' d' h1 h2 => absurd h2 (hn t' k' w' d' h1),
          fun t' k' w' d' o h1 h2 => absurd h2 (hn t' k' w' d' h1), q.idle, q.done⟩
      · exact p
    · exact p
  | timer w =>
    have gr := grows_step s (.timer w)
    have gone : ∀ t k w' d, s.tasks t = some k → k.pc = .waiting w' d →
        (∀ x ∈ s.waiters, x.id ≠ w') → ∀ x ∈ (s.step (.timer w)).waiters, x.id ≠ w' := by
      intro t k w' d h1 h2 h3 x hx
      rcases gr.tab x hx with h | h
      · exact h3 x h
      · have := (i.resp.live t k w' d h1 h2).1; omega
    rw [Api.step] at gone ⊢
    split
    · rename_i x hx
      rw [hx] at gone
      dsimp only at gone
      unfold Api.timerCallback at gone ⊢
      dsimp only at gone ⊢
      split
      · rename_i o hf
        rw [hf] at gone
        exact p.keep (List.prefix_refl _) rfl rfl (fun _ _ _ => Iff.rfl) (fun _ _ _ h _ _ => h) (fun _ _ _ _ _ _ => rfl) gone
      · rename_i hf
        have gone' : ∀ t k w' d, s.tasks t = some k → k.pc = .waiting w' d →
            (∀ x ∈ s.waiters, x.id ≠ w') → ∀ x ∈ (s.drop w).waiters, x.id ≠ w' :=
          fun _ _ _ _ _ _ h3 y hy => h3 y (List.mem_filter.mp hy).1
        exact p.keep (List.prefix_append _ _) (fm_none (x := Entry.dropped w) rfl) (fm_none (x := Entry.dropped w) rfl)
          (fun _ _ _ => Iff.rfl) (fun _ _ _ h _ _ => h) (fun _ _ _ _ _ _ => rfl) gone'
    · exact p
  | tick ms =>
    exact p.keep (List.prefix_refl _) rfl rfl (fun _ _ _ => Iff.rfl) (fun _ _ _ h _ _ => h) (fun _ _ _ _ _ _ => rfl)
      (fun _ _ _ _ _ _ h => h)
  | setUart b =>
    exact p.keep (List.prefix_refl _) rfl rfl (fun _ _ _ => Iff.rfl) (fun _ _ _ h _ _ => h) (fun _ _ _ _ _ _ => rfl)
      (fun _ _ _ _ _ _ h => h)
  | register m to q =>
    refine p.keep (List.prefix_append _ _) (fm_none (x := Entry.registered _ _) rfl) (fm_none (x := Entry.registered _ _) rfl)
      (fun _ _ _ => Iff.rfl) (fun _ _ _ h _ _ => h) (fun _ _ _ _ _ _ => rfl) ?_
    intro t k w' d h1 h2 h3 x hx
    rcases (grows_step s (.register m to q)).tab x hx with h | h
    · exact h3 x h
    · have := (i.resp.live t k w' d h1 h2).1; omega
  | registerResponse o q =>
    have gone : ∀ t k w' d, s.tasks t = some k → k.pc = .waiting w' d →
        (∀ x ∈ s.waiters, x.id ≠ w') → ∀ x ∈ (s.step (.registerResponse o q)).waiters,
        x.id ≠ w' := by
      intro t k w' d h1 h2 h3 x hx
      rcases (grows_step s (.registerResponse o q)).tab x hx with h | h
      · exact h3 x h
      · have := (i.resp.live t k w' d h1 h2).1; omega
    rw [Api.step] at gone ⊢
    unfold Api.createResponseWaiter at gone ⊢
    split
    · exact p
    · exact p
    · rename_i m q' hr
      rw [hr] at gone
      exact p.keep (List.prefix_append _ _) (fm_none (x := Entry.registered _ _) rfl) (fm_none (x := Entry.registered _ _) rfl)
        (fun _ _ _ => Iff.rfl) (fun _ _ _ h _ _ => h) (fun _ _ _ _ _ _ => rfl) gone
  | abandon w =>
    rw [Api.step]
    split
    · rename_i hc
      refine p.keep (List.prefix_refl _) rfl rfl (fun _ _ _ => Iff.rfl) (fun _ _ _ h _ _ => h) ?_ (fun _ _ _ _ _ _ h => h)
      intro t k w' d h1 h2
      refine upd_other _ _ ?_
      rintro rfl
      exact (i.resp.live t k w' d h1 h2).2.1 hc.1
    · exact p

end Zcc
