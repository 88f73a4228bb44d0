import Verif.Proofs.AppRuntime
import Verif.Proofs.Timely
import Verif.Proofs.Resolved

/-!
# From a ZDO request of the application to the reply

What happens to the response waiter of one call while anything else goes on. Used by C64.
-/

namespace Zcc
open Spec

/-! ## The future of a waiter that others may wait for -/

theorem setResult_fut_other (s : Api) {w v : Nat} (o : Obj) (h : v ≠ w) :
    (s.setResult w o).fut v = s.fut v := by
  unfold Api.setResult
  split
  · exact upd_other _ _ h
  · rfl

theorem matchLoop_pending (o : Obj) (v : Nat) : ∀ (ws : List Waiter) (s : Api),
    (∀ x ∈ ws, x.id = v → ¬ Answers x.matcher o) → (Api.matchLoop o ws s).1.fut v = s.fut v
  | [], _, _ => rfl
  | w :: ws, s, h => by
    have h' : ∀ x ∈ ws, x.id = v → ¬ Answers x.matcher o := fun x hx => h x (.tail _ hx)
    rw [Api.matchLoop]
    split
    · rfl
    · exact matchLoop_pending o v ws s h'
    · rename_i hm
      have hne : v ≠ w.id := fun he => h w (.head _) he.symm ((match_true _ _).mp hm)
      have hf : ((s.pop w.id).setResult w.id o).fut v = s.fut v :=
        setResult_fut_other (s.pop w.id) o hne
      dsimp only
      split
      · exact hf
      · exact (matchLoop_pending o v ws _ h').trans hf

/-- A pending future of a waiter that no call created for itself stays pending, unless its owner
gives up, a message it asks for arrives, or a request that was given its id is refused. -/
theorem ext_pending_step {s : Api} (i : Inv s) {w : Nat} (hw : w ∈ s.ext) (ev : Event)
    (hp : s.fut w = .pending) :
    (s.step ev).fut w = .pending ∨ ev = .abandon w ∨
    (∃ f o x, ev = .frame f ∧ Obj.fromUnpiFrame f = .ok o ∧ x ∈ s.waiters ∧ x.id = w ∧
      Answers x.matcher o) ∨
    ∃ t k z, s.tasks t = some k ∧ k.waiterId = some w ∧
      .finished t (.error (.commandError z)) ∈ (s.step ev).log := by
  have fin : ∀ (s : Api) t r, (s.finish t r).fut = s.fut := fun s t r => (setPc_parts s t _).2.1
  have own : ∀ t k v d, s.tasks t = some k → k.pc = .waiting v d → w ≠ v := by
    intro t k v d hk hpc he
    exact (i.resp.live t k v d hk hpc).2.1 (he ▸ hw)
  cases ev with
  | submit o w' x =>
    left
    rw [Api.step]
    split
    · rw [grant_fut]; exact hp
    · exact hp
  | grant => left; rw [Api.step, grant_fut]; exact hp
  | frame f =>
    by_cases hx : ∃ o x, Obj.fromUnpiFrame f = .ok o ∧ x ∈ s.waiters ∧ x.id = w ∧ Answers x.matcher o
    · obtain ⟨o, x, h⟩ := hx
      exact .inr (.inr (.inl ⟨f, o, x, rfl, h⟩))
    left
    rw [Api.step]
    unfold Api.dataReceived
    split
    · exact hp
    · rename_i o ho
      have h := matchLoop_pending o w s.waiters { s with log := s.log ++ [.received f o] }
        (fun x hm he ha => hx ⟨o, x, ho, hm, he, ha⟩)
      dsimp only
      split
      · rename_i h'; rw [h'] at h; exact h.trans hp
      · rename_i h'; rw [h'] at h; exact h.trans hp
  | wake t =>
    rw [Api.step]
    split
    · rename_i k hk
      split
      · split
        · unfold Api.conclude
          split
          · split
            · left; rw [fin]; exact hp
            · rename_i z _
              split
              · left; rw [fin]; exact hp
              · rename_i w' hw'
                split
                · by_cases he : w = w'
                  · subst he
                    right; right; right
                    exact ⟨t, k, z, hk, hw', List.mem_append_right _ (.head _)⟩
                  · left
                    rw [fin]
                    exact (setResult_fut_other (s.drop w') _ he).trans hp
                · left; rw [fin]; exact hp
          · left; rw [fin]; exact hp
        · exact .inl hp
      · exact .inl hp
    · exact .inl hp
  | timeout t =>
    left
    rw [Api.step]
    split
    · rename_i k hk
      split
      · rename_i v d hpc
        split
        · exact (upd_other _ _ (own t k v d hk hpc)).trans hp
        · exact hp
      · exact hp
    · exact hp
  | cancel t =>
    left
    rw [Api.step]
    split
    · rename_i k hk
      split
      · exact (congrFun (setPc_parts s t _).2.1 w).trans hp
      · rename_i v d hpc
        show (if _ then _ else _ : Nat → Fut) w = _
        split
        · exact (upd_other _ _ (own t k v d hk hpc)).trans hp
        · exact hp
      · exact hp
    · exact hp
  | timer v =>
    left
    rw [Api.step]
    split
    · unfold Api.timerCallback; split <;> exact hp
    · exact hp
  | tick ms => exact .inl hp
  | setUart b => exact .inl hp
  | register m to q => exact .inl hp
  | registerResponse o q =>
    left
    rw [Api.step]
    unfold Api.createResponseWaiter
    split <;> exact hp
  | abandon v =>
    by_cases he : v = w
    · subst he; exact .inr (.inl rfl)
    · left
      rw [Api.step]
      split
      · exact (upd_other _ _ (fun h => he h.symm)).trans hp
      · exact hp

/-! ## What an event of the application does to one API -/

/-- Why `e` happens in the `i`th API when the application does `ev`. -/
inductive Cause (s : AppSys) (i : Nat) : AppEvent → Event → Prop
  | api (e : Event) : Cause s i (.api i e) e
  | cancel (n t : Nat) : Cause s i (.cancel n) (.cancel t)
  | call (c : Call) (o : Obj) (q : Int) (hq : c.wantsReply = some q) (h : s.cur = i) :
      Cause s i (.call c) (.registerResponse o (some q))
  | enter (n : Nat) (k : AppTask) (o : Obj) (x : Option (Nat × Nat)) (hk : s.tasks[n]? = some k)
      (hpc : k.pc = .waiting o x) (hs : s.sem k.sem ≠ 0) (h : s.cur = i) :
      Cause s i (.enter n) (.submit o (x.map Prod.snd) none)
  | newApi : Cause s i .newApi (.setUart true)

theorem apiStep_api (s : AppSys) (j i : Nat) (e : Event) :
    (s.apiStep j e).api i = if i = j then (s.api i).step e else s.api i := by
  show upd s.api j _ i = _
  by_cases h : i = j
  · subst h; rw [upd_same, if_pos rfl]
  · rw [upd_other _ _ h, if_neg h]

theorem app_api_step (s : AppSys) (ev : AppEvent) (i : Nat) :
    (s.step ev).api i = s.api i ∨
      ∃ e, Cause s i ev e ∧ (s.step ev).api i = (s.api i).step e := by
  cases ev with
  | api j e =>
    have h := apiStep_api s j i e
    by_cases he : i = j
    · subst he; rw [if_pos rfl] at h; exact .inr ⟨e, .api e, h⟩
    · rw [if_neg he] at h; exact .inl h
  | call c =>
    show (s.begin c).api i = _ ∨ ∃ e, _ ∧ (s.begin c).api i = _
    unfold AppSys.begin
    split
    · exact .inl rfl
    · rename_i o ho
      split
      · exact .inl rfl
      · rename_i q hq
        split
        · exact .inl rfl
        · rename_i a w hr
          by_cases he : i = s.cur
          · subst he
            refine .inr ⟨.registerResponse o (some q), .call c o q hq rfl, ?_⟩
            show upd s.api s.cur a s.cur = ((s.api s.cur).createResponseWaiter o (some q)).1
            rw [upd_same, hr]
          · exact .inl (upd_other _ _ he)
  | enter n =>
    rcases hk : s.tasks[n]? with _ | k
    · left
      show (s.enter n).api i = _
      unfold AppSys.enter; rw [hk]
    · rcases hpc : k.pc with ⟨o, x⟩ | _ | _ | _
      · by_cases hs : s.sem k.sem = 0
        · left
          show (s.enter n).api i = _
          unfold AppSys.enter; rw [hk]; dsimp only; rw [hpc]; dsimp only; rw [if_pos hs]
        · obtain ⟨k', -, -, -, h⟩ := enter_ran hk hpc hs
          have h : (s.step (.enter n)).api = _ := h
          by_cases he : i = s.cur
          · subst he
            exact .inr ⟨_, .enter n k o x hk hpc hs rfl, by rw [h, upd_same]⟩
          · exact .inl (by rw [h, upd_other _ _ he])
      all_goals
        left
        show (s.enter n).api i = _
        unfold AppSys.enter; rw [hk]; dsimp only; rw [hpc]
  | wakeUp n =>
    left
    rw [AppSys.step]
    split
    · split
      · split
        · rfl
        · rfl
      · rfl
    · rfl
  | cancel n =>
    rw [AppSys.step]
    split
    · split
      · exact .inl rfl
      · rename_i j t _
        have h := apiStep_api s j i (.cancel t)
        by_cases he : i = j
        · subst he; rw [if_pos rfl] at h; exact .inr ⟨_, .cancel n t, h⟩
        · rw [if_neg he] at h; exact .inl h
      · exact .inl rfl
      · exact .inl rfl
    · exact .inl rfl
  | newApi =>
    by_cases he : i = s.cur + 1
    · subst he
      exact .inr ⟨.setUart true, .newApi, upd_same _ _ _⟩
    · exact .inl (upd_other _ _ he)
  | newSemaphore p => exact .inl rfl

theorem app_cur_step (s : AppSys) (ev : AppEvent) : s.cur ≤ (s.step ev).cur := by
  cases ev with
  | api j e => exact Nat.le_refl _
  | call c =>
    show s.cur ≤ (s.begin c).cur
    unfold AppSys.begin
    repeat' split
    all_goals exact Nat.le_refl _
  | enter n =>
    show s.cur ≤ (s.enter n).cur
    unfold AppSys.enter
    repeat' split
    all_goals exact Nat.le_refl _
  | wakeUp n =>
    rw [AppSys.step]
    repeat' split
    all_goals exact Nat.le_refl _
  | cancel n =>
    rw [AppSys.step]
    repeat' split
    all_goals exact Nat.le_refl _
  | newApi => exact Nat.le_succ _
  | newSemaphore p => exact Nat.le_refl _

/-! ## What an event does to the calls -/

/-- From the task list `T` to `T'`: calls stay in place, keep what they ran, and wait at the gate only
if they did before. -/
def Moves (T T' : List AppTask) : Prop :=
  ∀ (m : Nat) (k : AppTask), T[m]? = some k → ∃ k' : AppTask, T'[m]? = some k' ∧ k'.call = k.call ∧
    (∀ r, k.ran = some r → k'.ran = some r) ∧
    ∀ o x, k'.pc = .waiting o x → k.pc = .waiting o x

theorem Moves.refl (T : List AppTask) : Moves T T :=
  fun _ k h => ⟨k, h, rfl, fun _ h => h, fun _ _ h => h⟩

theorem Moves.trans {A B C : List AppTask} (h : Moves A B) (h' : Moves B C) : Moves A C := by
  intro m k hk
  obtain ⟨k1, a1, a2, a3, a4⟩ := h m k hk
  obtain ⟨k2, b1, b2, b3, b4⟩ := h' m k1 a1
  exact ⟨k2, b1, b2.trans a2, fun r hr => b3 r (a3 r hr), fun o x hx => a4 o x (b4 o x hx)⟩

theorem moves_settle (s : AppSys) : Moves s.tasks s.settle.tasks := by
  intro m k hk
  refine ⟨_, settle_get s m k hk, (settle_fields _ _).1, fun r hr => ?_, fun o x hx => ?_⟩
  · rw [(settle_fields _ _).2.2]; exact hr
  · rcases settle_cases s.api k with he | ⟨i, t, A, hpc, hA, hc⟩
    · rw [he] at hx; exact hx
    · rcases hc with ⟨y, hy, ⟨hs, he⟩ | ⟨hs, he⟩⟩ | ⟨e, hy, he⟩ <;> (rw [he] at hx; cases hx)

theorem moves_set {T : List AppTask} {n : Nat} {k k' : AppTask} (hk : T[n]? = some k)
    (hc : k'.call = k.call) (hr : ∀ r, k.ran = some r → k'.ran = some r)
    (hw : ∀ o x, k'.pc ≠ .waiting o x) : Moves T (T.set n k') := by
  intro m k2 hk2
  by_cases he : m = n
  · subst he
    rw [hk] at hk2; cases hk2
    have hlt := (List.getElem?_eq_some_iff.mp hk).1
    exact ⟨k', List.getElem?_set_self hlt, hc, hr, fun o x h => absurd h (hw o x)⟩
  · exact ⟨k2, by rw [List.getElem?_set_ne (fun h => he h.symm)]; exact hk2, rfl, fun _ h => h,
      fun _ _ h => h⟩

theorem moves_append (T : List AppTask) (k : AppTask) : Moves T (T ++ [k]) := by
  intro m k2 hk2
  have hlt := (List.getElem?_eq_some_iff.mp hk2).1
  exact ⟨k2, by rw [List.getElem?_append_left hlt]; exact hk2, rfl, fun _ h => h, fun _ _ h => h⟩

theorem gate_waiting {s : AppSys} {c : Call} {o o' : Obj} {x x' : Option (Nat × Nat)}
    (h : (s.gate c o x).pc = .waiting o' x') : x' = x := by
  unfold AppSys.gate at h
  split at h
  · cases h
  · cases h; rfl

/-- The calls after an event: the same number, or one more. -/
theorem app_tasks_step {s : AppSys} (hi : AInv s) (ev : AppEvent) :
    Moves s.tasks (s.step ev).tasks ∧
    ((s.step ev).tasks.length = s.tasks.length ∨
      ∃ c k, ev = .call c ∧ (s.step ev).tasks = s.tasks ++ [k] ∧ k.call = c ∧
        ∀ o j w, k.pc = .waiting o (some (j, w)) → j = s.cur ∧ w = (s.api s.cur).waiterId) := by
  have hsettle : ∀ s : AppSys, s.settle.tasks.length = s.tasks.length := fun s => List.length_map _
  cases ev with
  | api j e =>
    exact ⟨moves_settle { s with api := upd s.api j ((s.api j).step e) },
      .inl (hsettle { s with api := upd s.api j ((s.api j).step e) })⟩
  | call c =>
    show Moves s.tasks (s.begin c).tasks ∧ ((s.begin c).tasks.length = _ ∨ ∃ c' k, _ ∧ (s.begin c).tasks = _ ∧ _)
    unfold AppSys.begin
    split
    · refine ⟨moves_append _ _, .inr ⟨c, _, rfl, rfl, rfl, ?_⟩⟩
      intro o j w h; cases h
    · rename_i o ho
      have hcall : ∀ x, (s.gate c o x).call = c := by
        intro x; unfold AppSys.gate; split <;> rfl
      split
      · refine ⟨moves_append _ _, .inr ⟨c, _, rfl, rfl, hcall _, ?_⟩⟩
        intro o j w h; cases gate_waiting h
      · split
        · refine ⟨moves_append _ _, .inr ⟨c, _, rfl, rfl, rfl, ?_⟩⟩
          intro o j w h; cases h
        · rename_i a w hr
          refine ⟨moves_append _ _, .inr ⟨c, _, rfl, rfl, hcall _, ?_⟩⟩
          intro o' j w' h
          have hx := gate_waiting h
          rcases w with _ | w
          · cases hx
          · cases hx
            refine ⟨rfl, ?_⟩
            unfold Api.createResponseWaiter at hr
            split at hr
            · cases hr
            · cases hr
            · cases hr; rfl
  | enter n =>
    rw [AppSys.step]
    unfold AppSys.enter
    split
    · rename_i k hk
      split
      · rename_i o x hpc
        split
        · exact ⟨Moves.refl _, .inl rfl⟩
        · have hr : k.ran = none := by
            have := (hi.tasks k (List.mem_of_getElem? hk)).pc
            rw [hpc] at this
            exact this.1
          refine ⟨?_, .inl ?_⟩
          · refine Moves.trans ?_ (moves_settle _)
            refine moves_set hk rfl (fun r h => ?_) (fun o x h => by cases h)
            rw [hr] at h; cases h
          · rw [hsettle]; exact List.length_set
      · exact ⟨Moves.refl _, .inl rfl⟩
    · exact ⟨Moves.refl _, .inl rfl⟩
  | wakeUp n =>
    rw [AppSys.step]
    split
    · rename_i k hk
      split
      · split
        · exact ⟨moves_set hk rfl (fun r h => h) (fun o x h => by cases h), .inl List.length_set⟩
        · exact ⟨Moves.refl _, .inl rfl⟩
      · exact ⟨Moves.refl _, .inl rfl⟩
    · exact ⟨Moves.refl _, .inl rfl⟩
  | cancel n =>
    rw [AppSys.step]
    split
    · rename_i k hk
      split
      · exact ⟨moves_set hk rfl (fun r h => h) (fun o x h => by cases h), .inl List.length_set⟩
      · rename_i j t _
        exact ⟨moves_settle { s with api := upd s.api j ((s.api j).step (.cancel t)) },
          .inl (hsettle { s with api := upd s.api j ((s.api j).step (.cancel t)) })⟩
      · exact ⟨moves_set hk rfl (fun r h => h) (fun o x h => by cases h), .inl List.length_set⟩
      · exact ⟨Moves.refl _, .inl rfl⟩
    · exact ⟨Moves.refl _, .inl rfl⟩
  | newApi => exact ⟨Moves.refl _, .inl rfl⟩
  | newSemaphore p => exact ⟨Moves.refl _, .inl rfl⟩

/-! ## The waiter of one call -/

/-- While call `n` of the application (or nobody) uses the response waiter `id` of the `i`th API. -/
structure ReplyInv (i id n : Nat) (s : AppSys) : Prop where
  cur : i ≤ s.cur
  num : n < s.tasks.length
  gate : ∀ (m : Nat) k o j w, s.tasks[m]? = some k → k.pc = .waiting o (some (j, w)) →
    (s.cur = i → j = i) ∧ (j = i → w = id → m = n)
  ext : id ∈ (s.api i).ext
  lent : ∀ t o e, .submitted t o (some id) e ∈ (s.api i).log →
    ∃ k, s.tasks[n]? = some k ∧ k.ran = some (i, t)
  fut : (s.api i).fut id = .pending ∨
    ∃ k t z, s.tasks[n]? = some k ∧ k.ran = some (i, t) ∧
      .finished t (.error (.commandError z)) ∈ (s.api i).log

/-- What may not happen in the `i`th API: that the owner of waiter `id` gives up, that somebody but the
application passes its id to `request_raw`, that a message arrives that it asks for. -/
def Undisturbed (i id : Nat) (m : Matcher) : AppEvent → Prop
  | .api j e => j = i → e ≠ .abandon id ∧ (∀ o x, e ≠ .submit o (some id) x) ∧
      ∀ f o, e = .frame f → Obj.fromUnpiFrame f = .ok o → ¬ Answers m o
  | _ => True

theorem ReplyInv.step {i id n : Nat} {m : Matcher} {s : AppSys} (ha : AInv s) (h : ReplyInv i id n s)
    (hm : ∀ x ∈ (s.api i).waiters, x.id = id → x.matcher = m) {ev : AppEvent}
    (hu : Undisturbed i id m ev) : ReplyInv i id n (s.step ev) := by
  obtain ⟨hmv, hlen⟩ := app_tasks_step ha ev
  have hcur := app_cur_step s ev
  have hidlt : id < (s.api i).waiterId := (ha.api i).wait.extLt id h.ext
  have hlog : (s.api i).log <+: ((s.step ev).api i).log := by
    rcases app_api_step s ev i with he | ⟨e, -, he⟩
    · rw [he]; exact List.prefix_refl _
    · rw [he]; exact (grows_step _ e).log
  have keep : ∀ t, (∃ k, s.tasks[n]? = some k ∧ k.ran = some (i, t)) →
      ∃ k, (s.step ev).tasks[n]? = some k ∧ k.ran = some (i, t) := by
    rintro t ⟨k, h1, h2⟩
    obtain ⟨k', h3, -, h4, -⟩ := hmv n k h1
    exact ⟨k', h3, h4 _ h2⟩
  have sub : ∀ t o e, .submitted t o (some id) e ∈ ((s.step ev).api i).log →
      ∃ k, (s.step ev).tasks[n]? = some k ∧ k.ran = some (i, t) := by
    intro t o e hs
    rcases app_api_step s ev i with he | ⟨e', hc, he⟩
    · rw [he] at hs; exact keep t (h.lent t o e hs)
    · rw [he] at hs
      rcases sub_new hs with hs | ⟨hs, ht⟩
      · exact keep t (h.lent t o e hs)
      · cases hc with
        | api e' => exact absurd hs ((hu rfl).2.1 o e)
        | cancel n' t' => cases hs
        | call c o' q hq hi' => cases hs
        | newApi => cases hs
        | enter n' k o' x hk hpc hsem hi' =>
          subst hi'
          obtain ⟨k', hk', -, hr, -⟩ := enter_ran hk hpc hsem
          have hx : ∃ j, x = some (j, id) := by
            rename_i hse
            injection hse with _ hx _
            rcases x with _ | ⟨j, w⟩
            · cases hx
            · cases hx; exact ⟨j, rfl⟩
          obtain ⟨j, rfl⟩ := hx
          have hg := h.gate n' k o' j id hk hpc
          have := hg.2 (hg.1 rfl) rfl
          subst this
          exact ⟨k', hk', by rw [hr, ht]⟩
  refine ⟨Nat.le_trans h.cur hcur, ?_, ?_, ?_, sub, ?_⟩
  · rcases hlen with hl | ⟨c, k, -, hl, -⟩
    · rw [hl]; exact h.num
    · rw [hl, List.length_append]; exact Nat.lt_add_right _ h.num
  · intro m' k' o j w hk' hpc
    have old : ∀ k, s.tasks[m']? = some k →
        ((s.step ev).cur = i → j = i) ∧ (j = i → w = id → m' = n) := by
      intro k hk
      obtain ⟨k2, h1, -, -, h4⟩ := hmv m' k hk
      rw [hk'] at h1; cases h1
      have hg := h.gate m' k o j w hk (h4 o _ hpc)
      exact ⟨fun hc => hg.1 (Nat.le_antisymm (hc ▸ hcur) h.cur), hg.2⟩
    rcases hlen with hl | ⟨c, k, hev, hl, -, hk⟩
    · have hlt := (List.getElem?_eq_some_iff.mp hk').1
      rw [hl] at hlt
      exact old _ (List.getElem?_eq_getElem hlt)
    · by_cases hlt : m' < s.tasks.length
      · exact old _ (List.getElem?_eq_getElem hlt)
      · rw [hl, List.getElem?_append_right (Nat.le_of_not_lt hlt)] at hk'
        have : k' = k := by
          rcases hd : m' - s.tasks.length with _ | d
          · rw [hd] at hk'; cases hk'; rfl
          · rw [hd] at hk'; cases hk'
        subst this
        obtain ⟨h1, h2⟩ := hk o j w hpc
        subst hev
        refine ⟨fun hc => ?_, fun hj hw => ?_⟩
        · rw [h1]; exact Nat.le_antisymm (hc ▸ hcur) h.cur
        · rw [← h1, hj, hw] at h2
          exact absurd h2 (Nat.ne_of_lt hidlt)
  · rcases app_api_step s ev i with he | ⟨e, -, he⟩
    · rw [he]; exact h.ext
    · rw [he]; exact ext_step _ e _ h.ext
  · rcases h.fut with hp | ⟨k, t, z, h1, h2, h3⟩
    · rcases app_api_step s ev i with he | ⟨e, hc, he⟩
      · rw [he]; exact .inl hp
      · rw [he]
        rcases ext_pending_step (ha.api i) h.ext e hp with hq | hq | ⟨f, o, x, h1, h2, h3, h4, h5⟩ |
          ⟨t, k, z, h1, h2, h3⟩
        · exact .inl hq
        · subst hq
          cases hc with
          | api e => exact absurd rfl (hu rfl).1
        · subst h1
          cases hc with
          | api e =>
            rw [hm x h3 h4] at h5
            exact absurd h5 ((hu rfl).2.2 f o rfl h2)
        · right
          have hsub := ((ha.api i).log.subIff t k.obj (some id) k.expected).mpr ⟨k, h1, rfl, h2, rfl⟩
          obtain ⟨k', g1, g2⟩ := keep t (h.lent _ _ _ hsub)
          exact ⟨k', t, z, g1, g2, h3⟩
    · obtain ⟨k', g1, g2⟩ := keep t ⟨k, h1, h2⟩
      exact .inr ⟨k', t, z, g1, g2, hlog.subset h3⟩

/-- The log, the table and the clock of an API. -/
theorem app_grows_run (i : Nat) : ∀ (es : List AppEvent) (s : AppSys),
    Grows (s.api i) ((s.run es).api i)
  | [], s => Grows.refl _
  | ev :: es, s => by
    refine Grows.trans ?_ (app_grows_run i es (s.step ev))
    rcases app_api_step s ev i with he | ⟨e, -, he⟩
    · rw [he]; exact Grows.refl _
    · rw [he]; exact grows_step _ e

theorem app_moves_run : ∀ (es : List AppEvent) (s : AppSys), AInv s → Moves s.tasks (s.run es).tasks
  | [], _, _ => Moves.refl _
  | ev :: es, s, ha => (app_tasks_step ha ev).1.trans (app_moves_run es (s.step ev) (ha.step ev))

theorem begin_call (s : AppSys) (c : Call) :
    ∃ k, (s.step (.call c)).tasks[s.tasks.length]? = some k ∧ k.call = c := by
  have h : ∃ k, (s.step (.call c)).tasks = s.tasks ++ [k] ∧ k.call = c := by
    show ∃ k, (s.begin c).tasks = _ ∧ _
    have hg : ∀ o x, (s.gate c o x).call = c := by
      intro o x; unfold AppSys.gate; split <;> rfl
    unfold AppSys.begin
    repeat' split
    all_goals first | exact ⟨_, rfl, rfl⟩ | exact ⟨_, rfl, hg _ _⟩
  obtain ⟨k, h, hc⟩ := h
  exact ⟨k, by rw [h, List.getElem?_append_right (Nat.le_refl _), Nat.sub_self]; rfl, hc⟩

theorem reply_run {i id n : Nat} {x : Waiter} {time : Nat} (hid : x.id = id) :
    ∀ (es : List AppEvent) (s : AppSys), AInv s → ReplyInv i id n s →
      .registered x time ∈ (s.api i).log → (∀ ev ∈ es, Undisturbed i id x.matcher ev) →
      ReplyInv i id n (s.run es)
  | [], _, _, h, _, _ => h
  | ev :: es, s, ha, h, hx, hu => by
    refine reply_run hid es (s.step ev) (ha.step ev) (h.step (m := x.matcher) ha ?_ (hu ev (.head _)))
      ((app_grows_run i [ev] s).log.subset hx) (fun e he => hu e (.tail _ he))
    intro y hy he
    obtain ⟨t, ht, -⟩ := (ha.api i).wait.regW y hy
    rw [(registered_unique (ha.api i) ht hx (he.trans hid.symm)).1]

/-- A call with a response waiter begins. -/
theorem reply_begin {s : AppSys} (ha : AInv s) {c : Call} {o : Obj} {q : Int} {m : Matcher}
    {q' : Option Int} (ho : c.obj = .ok o) (hq : c.wantsReply = some q)
    (hr : responseWaiter o (some q) = .ok (some (m, q')))
    (hold : ∀ k ∈ s.tasks, ∀ o j w, k.pc = .waiting o (some (j, w)) → j = s.cur)
    (hnew : ∀ t o e, .submitted t o (some (s.api s.cur).waiterId) e ∉ (s.api s.cur).log) :
    ReplyInv s.cur (s.api s.cur).waiterId s.tasks.length (s.step (.call c)) ∧
    .registered ⟨(s.api s.cur).waiterId, m, 10000, q'⟩ (s.api s.cur).now ∈
      ((s.step (.call c)).api s.cur).log := by
  have hb : s.step (.call c) = { s with
      api := upd s.api s.cur { ((s.api s.cur).waitFor m timeoutDefault q').2 with
        ext := (s.api s.cur).waiterId :: (s.api s.cur).ext }
      tasks := s.tasks ++ [s.gate c o (some (s.cur, (s.api s.cur).waiterId))] } := by
    show s.begin c = _
    unfold AppSys.begin
    rw [ho]
    dsimp only
    rw [hq]
    dsimp only
    unfold Api.createResponseWaiter
    rw [hr]
    rfl
  have hid := (ha.api s.cur).wait.extLt
  have hapi : (s.step (.call c)).api s.cur = { ((s.api s.cur).waitFor m timeoutDefault q').2 with
        ext := (s.api s.cur).waiterId :: (s.api s.cur).ext } := by rw [hb]; exact upd_same _ _ _
  refine ⟨⟨by rw [hb]; exact Nat.le_refl _, ?_, ?_, ?_, ?_, ?_⟩, ?_⟩
  · rw [hb, List.length_append]; exact Nat.lt_succ_self _
  · intro n k o' j w hk hpc
    rw [hb] at hk
    dsimp only at hk
    by_cases hlt : n < s.tasks.length
    · rw [List.getElem?_append_left hlt] at hk
      have hmem := List.mem_of_getElem? hk
      have hj := hold k hmem o' j w hpc
      refine ⟨fun _ => hj, fun _ hw => ?_⟩
      have := (ha.tasks k hmem).pc
      rw [hpc] at this
      have := hid _ (hj ▸ this.2.2 j w rfl)
      omega
    · rw [List.getElem?_append_right (Nat.le_of_not_lt hlt)] at hk
      rcases hd : n - s.tasks.length with _ | d
      · rw [hd] at hk
        cases hk
        cases gate_waiting hpc
        exact ⟨fun _ => rfl, fun _ _ => by omega⟩
      · rw [hd] at hk; cases hk
  · rw [hapi]; exact .head _
  · intro t o' e hs
    rw [hapi] at hs
    exfalso
    refine hnew t o' e ?_
    rcases List.mem_append.mp hs with h | h
    · exact h
    · rw [List.mem_singleton] at h; cases h
  · left
    rw [hapi]
    exact (ha.api s.cur).wait.fresh _ (Nat.le_refl _)
  · rw [hapi]
    exact List.mem_append_right _ (.head _)

/-- One API of the application runs an execution; waiters registered directly are registered there. -/
theorem app_proj_from (i : Nat) : ∀ (es : List AppEvent) (s : AppSys), ∃ E : List Event,
    (s.run es).api i = (s.api i).run E ∧
    ∀ m to q, .register m to q ∈ E → .api i (.register m to q) ∈ es
  | [], s => ⟨[], rfl, by intro m to q h; cases h⟩
  | ev :: es, s => by
    obtain ⟨E, h1, h2⟩ := app_proj_from i es (s.step ev)
    have h1 : (s.run (ev :: es)).api i = ((s.step ev).api i).run E := h1
    rcases app_api_step s ev i with he | ⟨e, hc, he⟩
    · exact ⟨E, by rw [h1, he], fun m to q h => .tail _ (h2 m to q h)⟩
    · refine ⟨e :: E, by rw [h1, he]; rfl, fun m to q h => ?_⟩
      rcases List.mem_cons.mp h with h | h
      · subst h
        cases hc with
        | api e => exact .head _
      · exact .tail _ (h2 m to q h)

end Zcc
