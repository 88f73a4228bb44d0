import Verif.Proofs.Runtime2

/-!
# Where the results of waiters come from
-/

namespace Zcc

/-- The waiter `w` got `o` because a message that matches arrived after the waiter was registered. -/
def Matched (w : Nat) (o : Obj) (L : List Entry) : Prop :=
  ∃ x time f, x.id = w ∧ x.matcher.match o = .ok true ∧
    [Entry.registered x time, .received f o, .resolved w o].Sublist L

/-- Somebody called `request_raw` with this waiter id. -/
def Lent (w : Nat) (L : List Entry) : Prop :=
  ∃ t o e, Entry.submitted t o (some w) e ∈ L

/-- Every result comes from a matching message, or from a refused request that was given the
waiter's id. -/
def Res (L : List Entry) : Prop := ∀ w o, .resolved w o ∈ L → Matched w o L ∨ Lent w L

theorem Res.mono {L L' : List Entry} (h : Res L) (hp : L <+: L')
    (hn : ∀ w o, .resolved w o ∈ L' → .resolved w o ∈ L) : Res L' := by
  intro w o hw
  rcases h w o (hn w o hw) with ⟨x, time, f, h1, h2, h3⟩ | ⟨t, o', e, h1⟩
  · exact .inl ⟨x, time, f, h1, h2, h3.trans hp.sublist⟩
  · exact .inr ⟨t, o', e, hp.subset h1⟩

/-- Entries of other kinds than results and submissions. -/
def Entry.plain : Entry → Bool
  | .submitted .. | .resolved .. => false
  | _ => true

/-- Nothing but such entries was added. -/
def Calm (s s' : Api) : Prop := ∀ x ∈ s'.log, x.plain = false → x ∈ s.log

theorem Calm.refl (s : Api) : Calm s s := fun _ h _ => h

theorem Calm.trans {a b c : Api} (h : Calm a b) (h' : Calm b c) : Calm a c :=
  fun x hx hp => h x (h' x hx hp) hp

theorem Calm.res {s s' : Api} (h : Calm s s') (w : Nat) (o : Obj) (hm : .resolved w o ∈ s'.log) :
    .resolved w o ∈ s.log := h _ hm rfl

theorem quiet_note {s s' : Api} {x : Entry} (h : s'.log = s.log ++ [x]) (hx : x.plain = true) :
    Calm s s' := by
  intro y hm hp
  rw [h] at hm
  rcases List.mem_append.mp hm with hm | hm
  · exact hm
  · rw [List.mem_singleton] at hm
    rw [hm, hx] at hp
    cases hp

theorem setPc_log (s : Api) (t : Nat) (pc : Pc) : (s.setPc t pc).log = s.log := by
  unfold Api.setPc; split <;> rfl

theorem quiet_setPc (s : Api) (t : Nat) (pc : Pc) : Calm s (s.setPc t pc) :=
  fun x h _ => by rw [setPc_log] at h; exact h

theorem quiet_finish (s : Api) (t : Nat) (r : Except PyErr (Option Obj)) : Calm s (s.finish t r) :=
  quiet_note (x := .finished t r) rfl rfl

theorem quiet_waitFor (s : Api) (m : Matcher) (to : Nat) (q : Option Int) :
    Calm s (s.waitFor m to q).2 := quiet_note (x := .registered _ _) rfl rfl

theorem quiet_uartSend {s s' : Api} {t : Nat} {f : Frame} (h : s.uartSend t f = .ok s') :
    Calm s s' := by
  unfold Api.uartSend at h
  split at h
  · split at h
    · simp at h
    · cases h; exact quiet_note (x := .sent t _) rfl rfl
  · simp at h

theorem quiet_start (s : Api) (t : Nat) (o : Obj) : Calm s (s.start t o) := by
  unfold Api.start
  split
  · exact quiet_finish _ _ _
  · split
    · dsimp only
      split
      · exact (quiet_waitFor _ _ _ _).trans (quiet_finish _ _ _)
      · rename_i h
        exact ((quiet_waitFor _ _ _ _).trans (quiet_uartSend h)).trans (quiet_setPc _ _ _)
    · split
      · split
        · exact quiet_finish _ _ _
        · rename_i h; exact (quiet_uartSend h).trans (quiet_finish _ _ _)
      · exact quiet_finish _ _ _

theorem quiet_grant (s : Api) : Calm s s.grant := by
  unfold Api.grant
  split
  · split
    · exact Calm.trans (fun x h _ => by rw [setPc_log] at h; exact h) (quiet_start _ _ _)
    · exact Calm.refl s
  · exact Calm.refl s

/-- A result from the loop over the waiters. -/
theorem res_matchLoop (o : Obj) (f : Frame) : ∀ (ws : List Waiter) (s : Api), Res s.log →
    .received f o ∈ s.log →
    (∀ x ∈ ws, ∃ time, [Entry.registered x time, .received f o].Sublist s.log) →
    Res (Api.matchLoop o ws s).1.log
  | [], s, h, _, _ => h
  | x :: ws, s, h, hr, hw => by
    rw [Api.matchLoop]
    split
    · exact h
    · exact res_matchLoop o f ws s h hr (fun y hy => hw y (.tail _ hy))
    · rename_i hm
      have hs : Res ((s.pop x.id).setResult x.id o).log := by
        unfold Api.setResult
        split
        · intro w o' hmem
          rcases List.mem_append.mp hmem with hmem | hmem
          · rcases h w o' hmem with ⟨y, time, f, h1, h2, h3⟩ | ⟨t, o', e, h1⟩
            · exact .inl ⟨y, time, f, h1, h2, sub_grow _ h3⟩
            · exact .inr ⟨t, o', e, List.mem_append_left _ h1⟩
          · rw [List.mem_singleton] at hmem
            cases hmem
            obtain ⟨time, hsub⟩ := hw x (.head _)
            exact .inl ⟨x, time, f, rfl, hm, sub_snoc _ hsub⟩
        · exact h
      have g := (grows_pop s x.id).trans (grows_setResult (s.pop x.id) x.id o)
      dsimp only
      split
      · exact hs
      · refine res_matchLoop o f ws _ hs (g.log.subset hr) (fun y hy => ?_)
        obtain ⟨time, hsub⟩ := hw y (.tail _ hy)
        exact ⟨time, hsub.trans g.log.sublist⟩

theorem res_dataReceived {s : Api} (i : Inv s) (h : Res s.log) (f : Frame) :
    Res (s.dataReceived f).1.log := by
  unfold Api.dataReceived
  split
  · exact h
  · rename_i o ho
    have h1 : Res (s.log ++ [.received f o]) := h.mono (List.prefix_append _ _) (by
      intro w o' hm
      rcases List.mem_append.mp hm with hm | hm
      · exact hm
      · rw [List.mem_singleton] at hm; cases hm)
    have h2 := res_matchLoop o f s.waiters { s with log := s.log ++ [.received f o] } h1
      (List.mem_append_right _ (.head _)) (fun x hx => by
        obtain ⟨time, hreg, -⟩ := i.wait.regW x hx
        exact ⟨time, sub_pair _ hreg⟩)
    dsimp only
    split
    · rename_i hh; rw [hh] at h2; exact h2
    · rename_i hh
      rw [hh] at h2
      exact h2.mono (List.prefix_append _ _) (by
        intro w o' hm
        rcases List.mem_append.mp hm with hm | hm
        · exact hm
        · rw [List.mem_singleton] at hm; cases hm)

theorem res_conclude {s : Api} (i : Inv s) (h : Res s.log) {t : Nat} {k : Task}
    (hk : s.tasks t = some k) (o : Obj) : Res (s.conclude t k o).log := by
  have fin : ∀ {s : Api} (r), Res s.log → Res (s.finish t r).log := fun r h =>
    h.mono (grows_finish _ _ _).log (quiet_finish _ _ _).res
  unfold Api.conclude
  split
  · split
    · exact fin _ h
    · split
      · exact fin _ h
      · rename_i w hw
        split
        · refine fin _ ?_
          have hl : Lent w s.log :=
            ⟨t, k.obj, k.expected, (i.log.subIff _ _ _ _).mpr ⟨k, hk, rfl, hw, rfl⟩⟩
          have g := (grows_drop s w).trans (grows_setResult (s.drop w) w o)
          intro w' o' hm
          by_cases he : w' = w
          · subst he
            obtain ⟨t, o, e, hl⟩ := hl
            exact .inr ⟨t, o, e, g.log.subset hl⟩
          · have : .resolved w' o' ∈ s.log := by
              unfold Api.setResult at hm
              split at hm
              · simp only [Api.drop, List.mem_append, List.mem_singleton] at hm
                rcases hm with (hm | hm) | hm
                · exact hm
                · cases hm
                · cases hm; exact absurd rfl he
              · simp only [Api.drop, List.mem_append, List.mem_singleton] at hm
                rcases hm with hm | hm
                · exact hm
                · cases hm
            rcases h w' o' this with ⟨x, time, f, h1, h2, h3⟩ | ⟨t, o', e, h1⟩
            · exact .inl ⟨x, time, f, h1, h2, h3.trans g.log.sublist⟩
            · exact .inr ⟨t, o', e, g.log.subset h1⟩
        · exact fin _ h
  · exact fin _ h

theorem res_step {s : Api} (i : Inv s) (h : Res s.log) (e : Event) : Res (s.step e).log := by
  have quiet : Calm s (s.step e) → Res (s.step e).log := fun q => h.mono (grows_step s e).log q.res
  cases e with
  | submit o w x =>
    rw [Api.step]
    have he : ∀ w' o', .resolved w' o' ∈ (s.enqueue o w x).log → .resolved w' o' ∈ s.log := by
      intro w' o' h
      rcases List.mem_append.mp h with h | h
      · exact h
      · rw [List.mem_singleton] at h; cases h
    split
    · exact h.mono (by
        have := grows_step s (.submit o w x)
        rw [Api.step, if_pos ‹_›] at this
        exact this.log) fun w' o' h => he w' o' ((quiet_grant _).res w' o' h)
    · exact h.mono (List.prefix_append _ _) he
  | grant => exact quiet (quiet_grant s)
  | frame f => exact res_dataReceived i h f
  | wake t =>
    rw [Api.step]
    split
    · rename_i k hk
      split
      · split
        · exact res_conclude i h hk _
        · exact h
      · exact h
    · exact h
  | timeout t =>
    apply quiet
    rw [Api.step]
    split
    · split
      · split
        · exact quiet_finish s t _
        · exact Calm.refl s
      · exact Calm.refl s
    · exact Calm.refl s
  | cancel t =>
    apply quiet
    rw [Api.step]
    split
    · split
      · exact quiet_note (x := .finished t _) rfl rfl
      · exact quiet_finish s t _
      · exact Calm.refl s
    · exact Calm.refl s
  | timer w =>
    apply quiet
    rw [Api.step]
    split
    · unfold Api.timerCallback
      split
      · exact Calm.refl s
      · exact quiet_note (x := .dropped w) rfl rfl
    · exact Calm.refl s
  | tick ms => exact h
  | setUart b => exact h
  | register m to q => exact quiet (quiet_waitFor s m to q)
  | registerResponse o q =>
    apply quiet
    rw [Api.step]
    unfold Api.createResponseWaiter
    split
    · exact Calm.refl s
    · exact Calm.refl s
    · exact quiet_waitFor s _ _ _
  | abandon w =>
    rw [Api.step]
    split
    · exact h
    · exact h

/-! ## Where submissions come from -/

/-- No call was submitted. -/
def NoSub (s s' : Api) : Prop :=
  ∀ t o w e, .submitted t o w e ∈ s'.log → .submitted t o w e ∈ s.log

theorem Calm.sub {s s' : Api} (h : Calm s s') : NoSub s s' := fun _ _ _ _ hm => h _ hm rfl

theorem NoSub.trans {a b c : Api} (h : NoSub a b) (h' : NoSub b c) : NoSub a c :=
  fun t o w e hm => h t o w e (h' t o w e hm)

theorem noSub_note {s s' : Api} {x : Entry} (h : s'.log = s.log ++ [x]) (hx : x.subId = none) :
    NoSub s s' := by
  intro t o w e hm
  rw [h] at hm
  rcases List.mem_append.mp hm with hm | hm
  · exact hm
  · rw [List.mem_singleton] at hm
    subst hm
    cases hx

theorem noSub_setResult (s : Api) (w : Nat) (o : Obj) : NoSub s (s.setResult w o) := by
  unfold Api.setResult
  split
  · exact noSub_note (x := .resolved w o) rfl rfl
  · exact (Calm.refl s).sub

theorem noSub_matchLoop (o : Obj) : ∀ (ws : List Waiter) (s : Api),
    NoSub s (Api.matchLoop o ws s).1
  | [], s => (Calm.refl s).sub
  | w :: ws, s => by
    rw [Api.matchLoop]
    split
    · exact (Calm.refl s).sub
    · exact noSub_matchLoop o ws s
    · have h : NoSub s ((s.pop w.id).setResult w.id o) := noSub_setResult (s.pop w.id) w.id o
      dsimp only
      split
      · exact h
      · exact h.trans (noSub_matchLoop o ws _)

theorem noSub_dataReceived (s : Api) (f : Frame) : NoSub s (s.dataReceived f).1 := by
  unfold Api.dataReceived
  split
  · exact (Calm.refl s).sub
  · rename_i o ho
    have h1 : NoSub s { s with log := s.log ++ [.received f o] } :=
      noSub_note (x := .received f o) rfl rfl
    have h2 := noSub_matchLoop o s.waiters { s with log := s.log ++ [.received f o] }
    dsimp only
    split
    · rename_i h; rw [h] at h2; exact h1.trans h2
    · rename_i h
      rw [h] at h2
      exact (h1.trans h2).trans (noSub_note (x := .handed _) rfl rfl)

theorem noSub_conclude (s : Api) (t : Nat) (k : Task) (o : Obj) : NoSub s (s.conclude t k o) := by
  unfold Api.conclude
  split
  · split
    · exact (quiet_finish _ _ _).sub
    · split
      · exact (quiet_finish _ _ _).sub
      · split
        · exact NoSub.trans (NoSub.trans (noSub_note (x := .dropped _) rfl rfl)
            (noSub_setResult (s.drop _) _ _)) (quiet_finish _ _ _).sub
        · exact (quiet_finish _ _ _).sub
  · exact (quiet_finish _ _ _).sub

/-- Only the event `submit` submits. -/
theorem sub_new {s : Api} {ev : Event} {t : Nat} {o : Obj} {w : Option Nat} {e : Option (List Int)}
    (h : .submitted t o w e ∈ (s.step ev).log) :
    .submitted t o w e ∈ s.log ∨ (ev = .submit o w e ∧ t = s.nextTid) := by
  have noSub : NoSub s (s.step ev) → .submitted t o w e ∈ s.log ∨ (ev = .submit o w e ∧ t = s.nextTid) :=
    fun hn => .inl (hn _ _ _ _ h)
  have same : NoSub s s := (Calm.refl s).sub
  cases ev with
  | submit o' w' x =>
    have key : .submitted t o w e ∈ (s.enqueue o' w' x).log →
        .submitted t o w e ∈ s.log ∨ (Event.submit o' w' x = .submit o w e ∧ t = s.nextTid) := by
      intro h
      rcases List.mem_append.mp h with h | h
      · exact .inl h
      · rw [List.mem_singleton] at h
        cases h
        exact .inr ⟨rfl, rfl⟩
    rw [Api.step] at h
    split at h
    · exact key ((quiet_grant _).sub _ _ _ _ h)
    · exact key h
  | grant => exact noSub (quiet_grant s).sub
  | frame f => exact noSub (noSub_dataReceived s f)
  | wake t' =>
    apply noSub
    rw [Api.step]
    split
    · split
      · split
        · exact noSub_conclude _ _ _ _
        · exact same
      · exact same
    · exact same
  | timeout t' =>
    apply noSub
    rw [Api.step]
    split
    · split
      · split
        · exact (quiet_finish s t' _).sub
        · exact same
      · exact same
    · exact same
  | cancel t' =>
    apply noSub
    rw [Api.step]
    split
    · split
      · exact noSub_note (x := .finished t' _) rfl rfl
      · exact (quiet_finish s t' _).sub
      · exact same
    · exact same
  | timer w =>
    apply noSub
    rw [Api.step]
    split
    · unfold Api.timerCallback
      split
      · exact same
      · exact noSub_note (x := .dropped w) rfl rfl
    · exact same
  | tick ms => exact noSub same
  | setUart b => exact noSub same
  | register m to q => exact noSub (quiet_waitFor s m to q).sub
  | registerResponse o q =>
    apply noSub
    rw [Api.step]
    unfold Api.createResponseWaiter
    split
    · exact same
    · exact same
    · exact (quiet_waitFor s _ _ _).sub
  | abandon w =>
    apply noSub
    rw [Api.step]
    split
    · exact same
    · exact same

theorem res_init : Res Api.init.log := by intro w o h; cases h

/-! ## Encoding never raises `AssertionError` -/

/-- The code does not raise `AssertionError`. -/
def NoAssert {α : Type} (x : Except PyErr α) : Prop := x ≠ .error .assertionError

theorem noAssert_ok {α : Type} (a : α) : NoAssert (.ok a : Except PyErr α) := fun h => by cases h

theorem noAssert_pure {α : Type} (a : α) : NoAssert (pure a : Except PyErr α) := fun h => by cases h

theorem noAssert_bind {α β : Type} {x : Except PyErr α} {f : α → Except PyErr β} (hx : NoAssert x)
    (hf : ∀ a, NoAssert (f a)) : NoAssert (x >>= f) := by
  cases x with
  | ok a => exact hf a
  | error e => intro h; apply hx; cases h; rfl

theorem noAssert_writeInt (v : Int) (n : Nat) : NoAssert (writeInt v n) := by
  unfold writeInt
  split <;> (intro h; cases h)

theorem noAssert_writeInts (n : Nat) : ∀ l : List Int, NoAssert (writeInts n l)
  | [] => noAssert_ok _
  | v :: vs => noAssert_bind (noAssert_writeInt v n) (fun _ =>
      noAssert_bind (noAssert_writeInts n vs) (fun _ => noAssert_pure _))

theorem noAssert_writeIter (n : Nat) (v : Val) : NoAssert (writeIter n v) := by
  unfold writeIter
  split
  · intro h; cases h
  · exact noAssert_writeInts _ _
  · exact noAssert_writeInts _ _
  · exact noAssert_writeInts _ _
  · exact noAssert_ok _
  · intro h; cases h

theorem noAssert_writeScalar (n : Nat) (v : Val) : NoAssert (writeScalar n v) := by
  unfold writeScalar
  split
  · exact noAssert_writeInt _ _
  · intro h; cases h

theorem noAssert_writeNeighbor (n : Neighbor) : NoAssert (writeNeighbor n) := by
  unfold writeNeighbor
  refine noAssert_bind (noAssert_writeInts _ _) fun _ => ?_
  refine noAssert_bind (noAssert_writeInts _ _) fun _ => ?_
  refine noAssert_bind (noAssert_writeInt _ _) fun _ => ?_
  refine noAssert_bind (noAssert_writeInt _ _) fun _ => ?_
  refine noAssert_bind (noAssert_writeInt _ _) fun _ => ?_
  refine noAssert_bind (noAssert_writeInt _ _) fun _ => ?_
  exact noAssert_bind (noAssert_writeInt _ _) fun _ => noAssert_pure _

theorem noAssert_writeNeighbors : ∀ l : List Neighbor, NoAssert (writeNeighbors l)
  | [] => noAssert_ok _
  | v :: vs => noAssert_bind (noAssert_writeNeighbor v) (fun _ =>
      noAssert_bind (noAssert_writeNeighbors vs) (fun _ => noAssert_pure _))

theorem noAssert_writeParameter (t : ParameterType) (v : Val) : NoAssert (writeParameter t v) := by
  unfold writeParameter
  split
  · exact noAssert_writeScalar _ _
  · exact noAssert_writeScalar _ _
  · exact noAssert_writeScalar _ _
  · split
    · exact noAssert_writeInt _ _
    · exact noAssert_writeIter _ _
  · split
    · exact noAssert_ok _
    · intro h; cases h
  · exact noAssert_writeIter _ _
  · exact noAssert_writeIter _ _
  · split
    · exact noAssert_writeNeighbors _
    · exact noAssert_ok _
    · exact noAssert_ok _
    · exact noAssert_ok _
    · intro h; cases h
  · intro h; cases h

theorem noAssert_dictGet (p : Payload) (k : String) : NoAssert (dictGet p k) := by
  unfold dictGet
  split <;> (intro h; cases h)

theorem noAssert_writeParameters (p : Payload) : ∀ ps : Params, NoAssert (writeParameters p ps)
  | [] => noAssert_ok _
  | _ :: xs => noAssert_bind (noAssert_dictGet _ _) (fun _ =>
      noAssert_bind (noAssert_writeParameter _ _) (fun _ =>
        noAssert_bind (noAssert_writeParameters p xs) (fun _ => noAssert_pure _)))

theorem noAssert_encode (o : Obj) : NoAssert (encode o) := by
  refine noAssert_bind (noAssert_bind (noAssert_writeParameters _ _) fun _ => noAssert_pure _)
    fun f => noAssert_bind ?_ fun _ => noAssert_pure _
  unfold pyBytes
  split <;> (intro h; cases h)

theorem noAssert_fromCommand (sub : Subsystem) (command : String) (p : Payload) :
    NoAssert (Obj.fromCommand sub command p) := by
  refine noAssert_bind ?_ fun _ => noAssert_bind ?_ fun c => noAssert_bind ?_ fun _ => noAssert_pure _
  · unfold definitionGet
    split <;> (intro h; cases h)
  · unfold nextCmd
    split <;> (intro h; cases h)
  · unfold Cmd.parametersFor Cmd.responseGet
    split
    · split <;> (intro h; cases h)
    · exact noAssert_ok _

end Zcc
