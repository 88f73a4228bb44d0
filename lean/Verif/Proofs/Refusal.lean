import Verif.Proofs.Reply
import Verif.Proofs.Timely

/-!
# When a refused call ends with a `KeyError` (helper lemmas for C72)
-/

namespace Zcc

open Spec

/-! ## One API -/

/-- What an encodable request can raise before it waits. -/
theorem start_keyError {s : Api} {u : Nat} {k k' : Task} {b : List UInt8} (hk : s.tasks u = some k)
    (he : encode k.obj = .ok b) (h : (s.start u k.obj).tasks u = some k') :
    k'.pc ≠ .done (.error (.keyError "waiter")) := by
  intro hp
  have fin : ∀ (s' : Api) r, s'.tasks u = some k → r ≠ .error (.keyError "waiter") →
      (s'.finish u r).tasks u ≠ some k' := by
    intro s' r hk hr h
    rw [finish_pc hk] at h
    cases h
    injection hp with hp
    exact hr hp
  rcases hf : k.obj.toUnpiFrame with e | f
  · unfold encode at he; rw [hf] at he; cases he
  have hsend : Gateway.send f = .ok b := by unfold encode at he; rw [hf] at he; exact he
  have hus : ∀ (s' : Api) e, s'.uartSend u f = .error e → e = .attributeError := by
    intro s' e h
    unfold Api.uartSend at h
    rw [hsend] at h
    split at h
    · cases h
    · cases h; rfl
  unfold Api.start at h
  rw [hf] at h
  dsimp only at h
  split at h
  · rename_i m to hw
    have fs := waitFor_fields s m to none
    split at h
    · rename_i e h'
      exact fin _ _ (by rw [fs.1]; exact hk) (by rw [hus _ _ h']; simp) h
    · rename_i s' h'
      rw [setPc_eq (k := k) (by rw [(uartSend_fields h').1, fs.1]; exact hk)] at h
      have := h.symm.trans (upd_same _ _ _)
      cases this
      cases hp
  · split at h
    · split at h
      · rename_i e h'
        exact fin _ _ hk (by rw [hus _ _ h']; simp) h
      · rename_i s' h'
        exact fin _ _ (by rw [(uartSend_fields h').1]; exact hk) (by simp) h
    · exact fin _ _ hk (by simp) h

theorem grant_keyError {s : Api} {t : Nat} {k' : Task} {b : List UInt8} (h : s.grant.tasks t = some k')
    (hp : k'.pc = .done (.error (.keyError "waiter"))) (he : encode k'.obj = .ok b)
    (hobj : ∀ k, s.tasks t = some k → k'.obj = k.obj) : s.tasks t = some k' := by
  unfold Api.grant at h
  split at h
  · split at h
    · rename_i u q _ _ _ k hk
      by_cases hu : t = u
      · subst hu
        rw [hobj k hk] at he
        exact absurd hp (start_keyError
          (s := ({ s with holder := some t, queue := q } : Api).setPc t .running)
          (k := { k with pc := .running })
          (by rw [setPc_eq (s := { s with holder := some t, queue := q }) hk]; exact upd_same _ _ _) he h)
      · rw [start_other _ _ hu, setPc_other _ _ _ hu] at h; exact h
    · exact h
  · exact h

/-- A call that just ended with that `KeyError` carried an id that is not in the table. -/
theorem keyError_step {s : Api} (i : Inv s) {t : Nat} {k' : Task} {e : Event} {b : List UInt8}
    (h : (s.step e).tasks t = some k') (hp : k'.pc = .done (.error (.keyError "waiter")))
    (he : encode k'.obj = .ok b) :
    s.tasks t = some k' ∨
      t < s.nextTid ∧ ∃ w, k'.waiterId = some w ∧ ∀ x ∈ s.waiters, x.id ≠ w := by
  have move : ∀ (s' : Api) u pc, s'.tasks = s.tasks → pc ≠ .done (.error (.keyError "waiter")) →
      (s'.setPc u pc).tasks t = some k' → s.tasks t = some k' := by
    intro s' u pc hs hpc h
    by_cases hu : t = u
    · subst hu
      rcases hk : s'.tasks t with _ | k
      · unfold Api.setPc at h; rw [hk] at h; dsimp only at h; rw [hk] at h; simp at h
      · rw [setPc_eq hk] at h
        have h : upd s'.tasks t _ t = some k' := h
        rw [upd_same] at h; cases h; exact absurd hp hpc
    · rw [setPc_other _ _ _ hu, hs] at h; exact h
  have hobj : ∀ k, s.tasks t = some k → k'.obj = k.obj := by
    intro k hk
    obtain ⟨pc, hk1⟩ := task_kept i hk e
    rw [h] at hk1; cases hk1; rfl
  cases e with
  | submit o w x =>
    refine .inl ?_
    rw [Api.step] at h
    have hen : (s.enqueue o w x).tasks t = some k' → s.tasks t = some k' := by
      intro h
      by_cases ht : t = s.nextTid
      · subst ht
        have h' : upd s.tasks s.nextTid _ s.nextTid = some k' := h
        rw [upd_same] at h'; cases h'; simp at hp
      · have h' : upd s.tasks s.nextTid _ t = some k' := h
        rw [upd_other _ _ ht] at h'; exact h'
    have hen2 : ∀ k, (s.enqueue o w x).tasks t = some k → k'.obj = k.obj := by
      intro k hk
      obtain ⟨pc, hk1⟩ : ∃ pc, (s.step (.submit o w x)).tasks t = some { k with pc } := by
        by_cases ht : t = s.nextTid
        · subst ht
          have hk : upd s.tasks s.nextTid (some ⟨o, w, x, .queued⟩) s.nextTid = some k := hk
          rw [upd_same] at hk
          cases hk
          have hm : .submitted s.nextTid o w x ∈ (s.step (.submit o w x)).log := by
            have : .submitted s.nextTid o w x ∈ (s.enqueue o w x).log :=
              List.mem_append_right _ (.head _)
            rw [Api.step]
            split
            · exact (grows_grant _).log.subset this
            · exact this
          obtain ⟨k2, g1, g2, g3, g4⟩ := ((i.step _).log.subIff _ _ _ _).mp hm
          exact ⟨k2.pc, by rw [g1, ← g2, ← g3, ← g4]⟩
        · have hk : upd s.tasks s.nextTid (some ⟨o, w, x, .queued⟩) t = some k := hk
          rw [upd_other _ _ ht] at hk
          exact task_kept i hk _
      rw [Api.step] at hk1
      rw [h] at hk1; cases hk1; rfl
    split at h
    · exact hen (grant_keyError h hp he hen2)
    · exact hen h
  | grant => exact .inl (grant_keyError h hp he hobj)
  | frame f => rw [Api.step, (dataReceived_fields s f).1] at h; exact .inl h
  | wake u =>
    rw [Api.step] at h
    split at h
    · rename_i k hk
      split at h
      · split at h
        · unfold Api.conclude at h
          split at h
          · split at h
            · exact .inl (move s u _ rfl (by simp) h)
            · split at h
              · exact .inl (move s u _ rfl (by simp) h)
              · rename_i w hw
                split at h
                · exact .inl (move _ u _ (setResult_fields (s.drop _) _ _).1 (by simp) h)
                · rename_i hn
                  by_cases hu : t = u
                  · subst hu
                    rw [finish_pc hk] at h
                    cases h
                    refine .inr ⟨(i.lock.tid t).mp ⟨k, hk⟩, w, hw, fun x hx hid => hn ?_⟩
                    rw [List.any_eq_true]
                    exact ⟨x, hx, by simp [hid]⟩
                  · exact .inl ((setPc_other s u _ hu).symm.trans h)
          · exact .inl (move s u _ rfl (by simp) h)
        · exact .inl h
      · exact .inl h
    · exact .inl h
  | timeout u =>
    refine .inl ?_
    rw [Api.step] at h
    split at h
    · split at h
      · split at h
        · exact move s u _ rfl (by simp) h
        · exact h
      · exact h
    · exact h
  | cancel u =>
    refine .inl ?_
    rw [Api.step] at h
    split at h
    · split at h
      · exact move s u _ rfl (by simp) h
      · exact move s u _ rfl (by simp) h
      · exact h
    · exact h
  | timer w =>
    refine .inl ?_
    rw [Api.step] at h
    split at h
    · unfold Api.timerCallback at h
      split at h <;> exact h
    · exact h
  | tick ms => exact .inl h
  | setUart b => exact .inl h
  | register m to q => exact .inl h
  | registerResponse o q =>
    refine .inl ?_
    rw [Api.step] at h
    unfold Api.createResponseWaiter at h
    split at h <;> exact h
  | abandon w =>
    refine .inl ?_
    rw [Api.step] at h
    split at h <;> exact h

/-! ## The call of the application -/

/-- Call `n` of the application brought the id of its own waiter, `id` of the `i`th API, to that API. -/
def Ours (i id n : Nat) (s : AppSys) : Prop :=
  ∃ k, s.tasks[n]? = some k ∧ (∀ o x, k.pc = .waiting o x → x = some (i, id)) ∧
    ∀ j t, k.ran = some (j, t) → j = i ∧ ∃ o e, .submitted t o (some id) e ∈ (s.api i).log

/-- Call `n` of the application has no waiter. -/
def Unawaited (n : Nat) (s : AppSys) : Prop :=
  ∃ k, s.tasks[n]? = some k ∧ (∀ o x, k.pc = .waiting o x → x = none) ∧
    ∀ j t, k.ran = some (j, t) → ∃ o e, .submitted t o none e ∈ (s.api j).log

/-- What a call has run changes only when it enters. -/
theorem ran_step {s : AppSys} {ev : AppEvent} {n : Nat} {k k' : AppTask} (hk : s.tasks[n]? = some k)
    (hk' : (s.step ev).tasks[n]? = some k') :
    k'.ran = k.ran ∨ ∃ o x, ev = .enter n ∧ k.pc = .waiting o x ∧ s.sem k.sem ≠ 0 := by
  have hset : ∀ s' : AppSys, s'.tasks[n]? = some k → s'.settle.tasks[n]? = some k' → k'.ran = k.ran := by
    intro s' h h'
    rw [settle_get s' n k h] at h'
    cases h'
    exact (settle_fields _ _).2.2
  have same : s.tasks[n]? = some k' → k'.ran = k.ran := by
    intro h; rw [hk] at h; cases h; rfl
  have put : ∀ m k1 pc, s.tasks[m]? = some k1 → (s.tasks.set m { k1 with pc := pc })[n]? = some k' →
      k'.ran = k.ran := by
    intro m k1 pc h1 h
    by_cases hm : m = n
    · subst hm
      rw [hk] at h1; cases h1
      rw [List.getElem?_set_self (List.getElem?_eq_some_iff.mp hk).1] at h
      cases h; rfl
    · rw [List.getElem?_set_ne hm] at h; exact same h
  have app : ∀ k1 : AppTask, (s.tasks ++ [k1])[n]? = some k' → k'.ran = k.ran := by
    intro k1 h
    rw [List.getElem?_append_left (List.getElem?_eq_some_iff.mp hk).1] at h
    exact same h
  cases ev with
  | api j e => exact .inl (hset { s with api := upd s.api j ((s.api j).step e) } hk hk')
  | call c =>
    refine .inl ?_
    have hk' : (s.begin c).tasks[n]? = some k' := hk'
    unfold AppSys.begin at hk'
    split at hk'
    · exact app _ hk'
    · split at hk'
      · exact app _ hk'
      · split at hk'
        · exact app _ hk'
        · exact app _ hk'
  | enter m =>
    have hk' : (s.enter m).tasks[n]? = some k' := hk'
    by_cases hm : m = n
    · subst hm
      rcases hpc : k.pc with ⟨o, x⟩ | _ | _ | _
      · by_cases hs : s.sem k.sem = 0
        · left
          unfold AppSys.enter at hk'; rw [hk] at hk'; dsimp only at hk'; rw [hpc] at hk'
          dsimp only at hk'; rw [if_pos hs] at hk'
          exact same hk'
        · exact .inr ⟨o, x, rfl, rfl, hs⟩
      all_goals
        left
        unfold AppSys.enter at hk'; rw [hk] at hk'; dsimp only at hk'; rw [hpc] at hk'
        exact same hk'
    · left
      unfold AppSys.enter at hk'
      split at hk'
      · split at hk'
        · split at hk'
          · exact same hk'
          · refine hset _ ?_ hk'
            show (s.tasks.set m _)[n]? = some k
            rw [List.getElem?_set_ne hm]; exact hk
        · exact same hk'
      · exact same hk'
  | wakeUp m =>
    refine .inl ?_
    rw [AppSys.step] at hk'
    split at hk'
    · rename_i k1 h1
      split at hk'
      · split at hk'
        · exact put m k1 _ h1 hk'
        · exact same hk'
      · exact same hk'
    · exact same hk'
  | cancel m =>
    refine .inl ?_
    rw [AppSys.step] at hk'
    split at hk'
    · rename_i k1 h1
      split at hk'
      · exact put m k1 _ h1 hk'
      · rename_i j t _
        exact hset { s with api := upd s.api j ((s.api j).step (.cancel t)) } hk hk'
      · exact put m k1 _ h1 hk'
      · exact same hk'
    · exact same hk'
  | newApi => exact .inl (same hk')
  | newSemaphore p => exact .inl (same hk')

theorem Ours.step {i id n : Nat} {s : AppSys} (ha : AInv s) (h : Ours i id n s) {ev : AppEvent}
    (hcur : s.cur = i) : Ours i id n (s.step ev) := by
  obtain ⟨k, hk, hw, hr⟩ := h
  obtain ⟨k', hk', -, -, hpc⟩ := (app_tasks_step ha ev).1 n k hk
  refine ⟨k', hk', fun o x hx => hw o x (hpc o x hx), fun j t hran => ?_⟩
  have hlog : (s.api i).log <+: ((s.step ev).api i).log := by
    rcases app_api_step s ev i with he | ⟨e, -, he⟩
    · rw [he]; exact List.prefix_refl _
    · rw [he]; exact (grows_step _ e).log
  rcases ran_step hk hk' with he | ⟨o, x, rfl, hp, hs⟩
  · rw [he] at hran
    obtain ⟨h1, o, e, h2⟩ := hr j t hran
    exact ⟨h1, o, e, hlog.subset h2⟩
  · obtain ⟨k2, g1, -, g2, g3⟩ := enter_ran hk hp hs
    have hk' : (s.enter n).tasks[n]? = some k' := hk'
    rw [hk'] at g1; cases g1
    rw [hran] at g2
    cases g2
    have := hw o x hp
    subst this
    refine ⟨hcur, o, none, ?_⟩
    have g3 : (s.step (.enter n)).api = _ := g3
    rw [g3, ← hcur, upd_same]
    exact submit_log _ o (some id)

theorem Unawaited.step {n : Nat} {s : AppSys} (ha : AInv s) (h : Unawaited n s) (ev : AppEvent) :
    Unawaited n (s.step ev) := by
  obtain ⟨k, hk, hw, hr⟩ := h
  obtain ⟨k', hk', -, -, hpc⟩ := (app_tasks_step ha ev).1 n k hk
  refine ⟨k', hk', fun o x hx => hw o x (hpc o x hx), fun j t hran => ?_⟩
  have hlog : (s.api j).log <+: ((s.step ev).api j).log := by
    rcases app_api_step s ev j with he | ⟨e, -, he⟩
    · rw [he]; exact List.prefix_refl _
    · rw [he]; exact (grows_step _ e).log
  rcases ran_step hk hk' with he | ⟨o, x, rfl, hp, hs⟩
  · rw [he] at hran
    obtain ⟨o, e, h2⟩ := hr j t hran
    exact ⟨o, e, hlog.subset h2⟩
  · obtain ⟨k2, g1, -, g2, g3⟩ := enter_ran hk hp hs
    have hk' : (s.enter n).tasks[n]? = some k' := hk'
    rw [hk'] at g1; cases g1
    rw [hran] at g2
    cases g2
    have := hw o x hp
    subst this
    refine ⟨o, none, ?_⟩
    have g3 : (s.step (.enter n)).api = _ := g3
    rw [g3, upd_same]
    exact submit_log _ o none

theorem unawaited_run {n : Nat} : ∀ (es : List AppEvent) (s : AppSys), AInv s → Unawaited n s →
    Unawaited n (s.run es)
  | [], _, _, h => h
  | ev :: es, s, ha, h => unawaited_run es (s.step ev) (ha.step ev) (h.step ha ev)

/-- No call that brought the id `id` to the `i`th API and could be written ended with the `KeyError`. -/
def Clean (i id : Nat) (s : AppSys) : Prop :=
  ∀ t k b, (s.api i).tasks t = some k → k.waiterId = some id → encode k.obj = .ok b →
    k.pc ≠ .done (.error (.keyError "waiter"))

theorem Clean.step {i id n : Nat} {x : Waiter} {time : Nat} {s : AppSys} (ha : AInv s) (hi : ReplyInv i id n s)
    (hproj : ∃ E, s.api i = Api.init.run E) (hid : x.id = id) (hreg : .registered x time ∈ (s.api i).log)
    (ht : (s.api i).now < time + x.timeout + 100) (h : Clean i id s) (ev : AppEvent) :
    Clean i id (s.step ev) := by
  intro t k b hk hw he hp
  rcases app_api_step s ev i with hs | ⟨e, -, hs⟩
  · rw [hs] at hk; exact h t k b hk hw he hp
  · rw [hs] at hk
    rcases keyError_step (ha.api i) hk hp he with hk0 | ⟨hlt, w, hw', hout⟩
    · exact h t k b hk0 hw he hp
    · rw [hw] at hw'; cases hw'
      rcases hi.fut with hf | ⟨ka, t', z, h1, h2, h3⟩
      · obtain ⟨E, hE⟩ := hproj
        rw [hE] at hreg ht hf hout
        rcases (timed_run E Api.init (inv_run []) timed_init).kept x time hreg (by rw [hid]; exact hf)
          with hx | hx
        · exact hout x hx hid
        · omega
      · -- the call was refused already
        have hinv := (ha.api i).step e
        have hsub := (hinv.log.subIff t k.obj (some id) k.expected).mpr ⟨k, hk, rfl, hw, rfl⟩
        rcases sub_new hsub with hsub | ⟨-, ht'⟩
        · obtain ⟨kb, g1, g2⟩ := hi.lent _ _ _ hsub
          rw [h1] at g1; cases g1
          rw [h2] at g2; cases g2
          obtain ⟨k2, g3, g4⟩ := (hinv.log.fin t _).mp ((grows_step _ e).log.subset h3)
          rw [hk] at g3; cases g3
          rw [hp] at g4; cases g4
        · exact absurd ht' (Nat.ne_of_lt hlt)

theorem app_cur_run : ∀ (es : List AppEvent) (s : AppSys), s.cur ≤ (s.run es).cur
  | [], _ => Nat.le_refl _
  | ev :: es, s => Nat.le_trans (app_cur_step s ev) (app_cur_run es (s.step ev))

theorem refusal_run {i id n : Nat} {x : Waiter} {time : Nat} (hid : x.id = id) :
    ∀ (es : List AppEvent) (s : AppSys), AInv s → (∃ E, s.api i = Api.init.run E) → ReplyInv i id n s →
      Ours i id n s → Clean i id s → .registered x time ∈ (s.api i).log →
      (∀ ev ∈ es, Undisturbed i id x.matcher ev) → (s.run es).cur = i →
      ((s.run es).api i).now < time + x.timeout + 100 →
      Ours i id n (s.run es) ∧ Clean i id (s.run es)
  | [], _, _, _, _, ho, hc, _, _, _, _ => ⟨ho, hc⟩
  | ev :: es, s, ha, hproj, hi, ho, hc, hreg, hu, hcur, ht => by
    have hcur' : s.cur = i := by
      have h1 := app_cur_run (ev :: es) s
      exact Nat.le_antisymm (hcur ▸ h1) hi.cur
    have hnow : (s.api i).now < time + x.timeout + 100 :=
      Nat.lt_of_le_of_lt (app_grows_run i (ev :: es) s).now ht
    have hm : ∀ y ∈ (s.api i).waiters, y.id = id → y.matcher = x.matcher := by
      intro y hy he
      obtain ⟨t, h, -⟩ := (ha.api i).wait.regW y hy
      rw [(registered_unique (ha.api i) h hreg (he.trans hid.symm)).1]
    refine refusal_run hid es (s.step ev) (ha.step ev) ?_ (hi.step (m := x.matcher) ha hm (hu ev (.head _)))
      (ho.step ha hcur') (hc.step ha hi hproj hid hreg hnow ev)
      ((app_grows_run i [ev] s).log.subset hreg) (fun e he => hu e (.tail _ he)) hcur ht
    obtain ⟨E, hE⟩ := hproj
    rcases app_api_step s ev i with he | ⟨e, -, he⟩
    · exact ⟨E, by rw [he, hE]⟩
    · exact ⟨E ++ [e], by rw [he, hE, run_snoc]⟩

/-! ## How a call ends that was written -/

/-- How a written call ends: with the answer, too late, cancelled, or with the `KeyError`. -/
theorem written_ends {s : AppSys} (i : AInv s) {n : Nat} {k : AppTask} {r : Result} {b : List UInt8}
    (hk : s.tasks[n]? = some k) (hr : k.pc = .done r) (hc : Ordinary k.call) (hw : Wrote s n b) :
    (∃ o, k.call.obj = .ok o ∧ Answered s n o 0 ∧ r = k.call.success) ∨
    (∃ o z, k.call.obj = .ok o ∧ Answered s n o z ∧ z ≠ 0 ∧ r = k.call.failure (.commandError z)) ∨
    r = .raised .timeoutError ∨ r = .raised .cancelledError ∨
    ∃ j t a, k.ran = some (j, t) ∧ (s.api j).tasks t = some a ∧ a.waiterId.isSome ∧
      encode a.obj = .ok b ∧ a.pc = .done (.error (.keyError "waiter")) := by
  obtain ⟨k', j, t, hk', hran, hsent⟩ := hw
  rw [hk] at hk'; cases hk'
  cases ended_inv i hk hr with
  | accepted j t x h1 h2 =>
    obtain ⟨o, h3, h4⟩ := answered_of i hk hc h1 h2
    exact .inl ⟨o, h3, h4, rfl⟩
  | failed j' t' e h1 h2 =>
    rw [hran] at h1; cases h1
    have fail : ∀ e : PyErr, (∀ z, e ≠ .commandError z) → k.call.failure e = .raised (leaveCoroutine e) := by
      intro e he
      unfold Call.failure
      split
      · exact absurd rfl (he _)
      · exact absurd rfl (he _)
      · exact absurd rfl (he _)
      · rfl
    obtain ⟨a, ha, hpc⟩ := ((i.api j).log.fin t _).mp h2
    match (i.api j).resp.done t a _ ha hpc with
    | .inl ⟨h, _⟩ => exact absurd hsent (h b)
    | .inr (.inl ⟨_, _, h⟩) =>
      rcases h with rfl | rfl
      · exact .inr (.inr (.inr (.inl (fail _ (by simp)))))
      · exact .inr (.inr (.inl (fail _ (by simp))))
    | .inr (.inr ⟨_, m, to, b', f, o, z, _, _, _, _, h⟩) =>
      rcases h with rfl | ⟨rfl, hw⟩
      · obtain ⟨o, h3, h4, h5⟩ := refused_of i hk hran h2
        exact .inr (.inl ⟨o, z, h3, h4, h5, rfl⟩)
      · obtain ⟨a', ha', _, he⟩ := (i.api j).log.sentStarted t b hsent
        rw [ha] at ha'; cases ha'
        exact .inr (.inr (.inr (.inr ⟨j, t, a, hran, ha, hw, he, hpc⟩)))
  | cancelled h => exact .inr (.inr (.inr (.inl rfl)))
  | rejected e h _ => rw [hran] at h; cases h

end Zcc
