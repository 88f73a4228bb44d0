import Verif.Spec.Accepted
import Verif.Proofs.Refusal
import Verif.Proofs.Closed
import Verif.Proofs.StackTime

/-! Lemmas for C92: who is cancelled, and when a request was written. -/

namespace Zcc
open Spec

/-! ## Cancelled requests -/

theorem cancel_ends_step {s : Api} {t : Nat} {k' : Task} {e : Event}
    (h : (s.step e).tasks t = some k') (hp : k'.pc = .done (.error .cancelledError)) :
    s.tasks t = some k' ∨ e = .cancel t := by
  have move : ∀ (s' : Api) u pc, s'.tasks = s.tasks → pc ≠ .done (.error .cancelledError) →
      (s'.setPc u pc).tasks t = some k' → s.tasks t = some k' := by
    intro s' u pc hs hpc h
    by_cases hu : t = u
    · subst hu
      rcases hk : s'.tasks t with _ | k
      · unfold Api.setPc at h; rw [hk] at h; dsimp only at h; rw [hk] at h; simp at h
      · rw [setPc_eq hk] at h
        have h : upd s'.tasks t _ t = some k' := h
        rw [upd_same] at h; cases h; exact absurd hp hpc
    · rw [setPc_other _ _ _ hu, hs] at h; exact h
  cases e with
  | submit o w x =>
    refine .inl ?_
    rw [Api.step] at h
    have hen : (s.enqueue o w x).tasks t = some k' → s.tasks t = some k' := by
      intro h
      by_cases ht : t = s.nextTid
      · subst ht
        have h' : upd s.tasks s.nextTid _ s.nextTid = some k' := h
        rw [upd_same] at h'; cases h'; simp at hp
      · have h' : upd s.tasks s.nextTid _ t = some k' := h
        rw [upd_other _ _ ht] at h'; exact h'
    split at h
    · exact hen (grant_done h hp rfl)
    · exact hen h
  | grant => exact .inl (grant_done h hp rfl)
  | frame f => rw [Api.step, (dataReceived_fields s f).1] at h; exact .inl h
  | wake u =>
    refine .inl ?_
    rw [Api.step] at h
    split at h
    · split at h
      · split at h
        · unfold Api.conclude at h
          split at h
          · split at h
            · exact move s u _ rfl (by simp) h
            · split at h
              · exact move s u _ rfl (by simp) h
              · split at h
                · exact move _ u _ (setResult_fields (s.drop _) _ _).1 (by simp) h
                · exact move s u _ rfl (by simp) h
          · exact move s u _ rfl (by simp) h
        · exact h
      · exact h
    · exact h
  | timeout u =>
    refine .inl ?_
    rw [Api.step] at h
    split at h
    · split at h
      · split at h
        · exact move s u _ rfl (by simp) h
        · exact h
      · exact h
    · exact h
  | cancel u =>
    by_cases hu : t = u
    · subst hu; exact .inr rfl
    · refine .inl ?_
      rw [Api.step] at h
      split at h
      · split at h
        · exact (setPc_other s u _ hu).symm.trans h
        · exact (setPc_other s u _ hu).symm.trans h
        · exact h
      · exact h
  | timer w =>
    refine .inl ?_
    rw [Api.step] at h
    split at h
    · unfold Api.timerCallback at h
      split at h <;> exact h
    · exact h
  | tick ms => exact .inl h
  | setUart b => exact .inl h
  | register m to q => exact .inl h
  | registerResponse o q =>
    refine .inl ?_
    rw [Api.step] at h
    unfold Api.createResponseWaiter at h
    split at h <;> exact h
  | abandon w =>
    refine .inl ?_
    rw [Api.step] at h
    split at h <;> exact h

/-- A call of the application cancels its own request in the API, and no other. -/
theorem app_cancel_step (s : AppSys) (ev : AppEvent) (i t : Nat) (hi : AInv s)
    (A : Task) (hA : ((s.step ev).api i).tasks t = some A) (hp : A.pc = .done (.error .cancelledError)) :
    (s.api i).tasks t = some A ∨ ev = .api i (.cancel t) ∨
      ∃ n k, ev = .cancel n ∧ s.tasks[n]? = some k ∧ k.ran = some (i, t) := by
  cases ev with
  | cancel n =>
    rw [AppSys.step] at hA
    split at hA
    · rename_i k hk
      split at hA
      · exact .inl hA
      · rename_i j u hpc
        rw [apiStep_api] at hA
        split at hA
        · rename_i hij
          subst hij
          rcases cancel_ends_step hA hp with h | h
          · exact .inl h
          · cases h
            refine .inr (.inr ⟨n, k, rfl, hk, ?_⟩)
            have := (hi.tasks k (List.mem_of_getElem? hk)).pc
            rw [hpc] at this
            exact this
        · exact .inl hA
      · exact .inl hA
      · exact .inl hA
    · exact .inl hA
  | api j e =>
    rcases app_api_step s (.api j e) i with h | ⟨e', hc, h⟩
    · rw [h] at hA; exact .inl hA
    · rw [h] at hA
      rcases cancel_ends_step hA hp with h | rfl
      · exact .inl h
      · cases hc; exact .inr (.inl rfl)
  | _ =>
    rcases app_api_step s _ i with h | ⟨e', hc, h⟩
    · rw [h] at hA; exact .inl hA
    · rw [h] at hA
      rcases cancel_ends_step hA hp with h | rfl
      · exact .inl h
      · cases hc

theorem filterMap_unique {α β : Type} {f : α → Option β} {y : β} : ∀ {L : List α}, (L.filterMap f).Nodup →
    ∀ {n m : Nat} {a b : α}, L[n]? = some a → L[m]? = some b → f a = some y → f b = some y → n = m
  | [], _, _, _, _, _, h, _, _, _ => by simp at h
  | x :: L, hd, n, m, a, b, ha, hb, hfa, hfb => by
    have tail : (L.filterMap f).Nodup := by
      rw [List.filterMap_cons] at hd
      split at hd
      · exact hd
      · exact (List.nodup_cons.mp hd).2
    have head : f x = some y → ∀ (k : Nat) (c : α), L[k]? = some c → f c ≠ some y := by
      intro hx k c hc hfc
      rw [List.filterMap_cons_some hx] at hd
      exact (List.nodup_cons.mp hd).1 (List.mem_filterMap.mpr ⟨c, List.mem_of_getElem? hc, hfc⟩)
    match n, m with
    | 0, 0 => rfl
    | 0, m + 1 =>
      rw [List.getElem?_cons_zero] at ha; cases ha
      rw [List.getElem?_cons_succ] at hb
      exact absurd hfb (head hfa m b hb)
    | n + 1, 0 =>
      rw [List.getElem?_cons_zero] at hb; cases hb
      rw [List.getElem?_cons_succ] at ha
      exact absurd hfa (head hfb n a ha)
    | n + 1, m + 1 =>
      rw [List.getElem?_cons_succ] at ha hb
      exact congrArg (· + 1) (filterMap_unique tail ha hb hfa hfb)

theorem ran_unique {s : AppSys} (hi : AInv s) {n m : Nat} {k l : AppTask} {x : Nat × Nat}
    (hn : s.tasks[n]? = some k) (hm : s.tasks[m]? = some l) (hk : k.ran = some x) (hl : l.ran = some x) :
    n = m := filterMap_unique hi.nodup hn hm hk hl

/-- A request of a call that nobody cancels does not end cancelled. -/
theorem api_cancelled {n i t : Nat} : ∀ (es : List AppEvent) (s : AppSys), AInv s → ∀ k,
    (s.run es).tasks[n]? = some k → k.ran = some (i, t) → NotCancelled es n i t → ∀ A,
    ((s.run es).api i).tasks t = some A → A.pc = .done (.error .cancelledError) →
    (s.api i).tasks t = some A
  | [], _, _, _, _, _, _, _, hA, _ => hA
  | ev :: es, s, hi, k, hk, hr, hn, A, hA, hp => by
    have h1 := api_cancelled es (s.step ev) (hi.step ev) k hk hr
      ⟨fun h => hn.1 (.tail _ h), fun h => hn.2 (.tail _ h)⟩ A hA hp
    rcases app_cancel_step s ev i t hi A h1 hp with h | rfl | ⟨m, l, rfl, hl, hlr⟩
    · exact h
    · exact absurd (.head _) hn.2
    · obtain ⟨l', a1, -, a3, -⟩ := app_moves_run (.cancel m :: es) s hi m l hl
      have := ran_unique (ainv_from hi (.cancel m :: es)) a1 hk (a3 _ hlr) hr
      subst this
      exact absurd (.head _) hn.1

theorem success_of (c : Call) : c.success = successOf c := by
  cases c <;> rfl

theorem success_ne (c : Call) (e : PyErr) : c.success ≠ .raised e := by
  cases c <;> simp [Call.success]

/-- How a call comes to be cancelled. -/
theorem app_cancelled_step {s : AppSys} (ev : AppEvent) {n : Nat} {k' : AppTask}
    (hk : (s.step ev).tasks[n]? = some k') (hp : k'.pc = .done (.raised .cancelledError)) {i t : Nat}
    (hr : k'.ran = some (i, t)) (hi : AInv s) :
    s.tasks[n]? = some k' ∨ ev = .cancel n ∨
      ∃ A e, ((s.step ev).api i).tasks t = some A ∧ A.pc = .done (.error e) := by
  have settled : ∀ s' : AppSys, (∀ k, s'.tasks[n]? = some k → ∀ j u, k.pc = .inApi j u → k.ran = some (j, u)) →
      s'.settle.tasks[n]? = some k' →
      s'.tasks[n]? = some k' ∨ ∃ A e, (s'.settle.api i).tasks t = some A ∧ A.pc = .done (.error e) := by
    intro s' hin h
    have h : (s'.tasks.map (AppTask.settle s'.api))[n]? = some k' := h
    rw [List.getElem?_map] at h
    rcases hk0 : s'.tasks[n]? with _ | k
    · rw [hk0] at h; cases h
    · rw [hk0] at h
      have h : some (k.settle s'.api) = some k' := h
      cases h
      rcases settle_cases s'.api k with he | ⟨j, u, A, hpc, hA, hc⟩
      · rw [he]; exact .inl rfl
      · rcases hc with ⟨y, hy, ⟨hs, he⟩ | ⟨hs, he⟩⟩ | ⟨e, hy, he⟩
        · rw [he] at hp; cases hp
        · rw [he] at hp
          have hp : AppPc.done k.call.success = _ := hp
          injection hp with hp
          exact absurd hp (success_ne _ _)
        · rw [he] at hr
          have hr : k.ran = _ := hr
          rw [hin k hk0 j u hpc] at hr; cases hr
          exact .inr ⟨A, e, hA, hy⟩
  have inside : ∀ k, s.tasks[n]? = some k → ∀ j u, k.pc = .inApi j u → k.ran = some (j, u) := by
    intro k hk j u hpc
    have := (hi.tasks k (List.mem_of_getElem? hk)).pc
    rw [hpc] at this; exact this
  cases ev with
  | api j e =>
    rcases settled { s with api := upd s.api j ((s.api j).step e) } inside hk with h | h
    · exact .inl h
    · exact .inr (.inr h)
  | call c =>
    have hk : (s.begin c).tasks[n]? = some k' := hk
    have app : ∀ x : AppTask, x.ran = none → (s.tasks ++ [x])[n]? = some k' → s.tasks[n]? = some k' := by
      intro x hx h
      rw [List.getElem?_append] at h
      split at h
      · exact h
      · rename_i hlt
        rcases hd : n - s.tasks.length with _ | d
        · rw [hd] at h; cases h; rw [hx] at hr; cases hr
        · rw [hd] at h; cases h
    have hg : ∀ o x, (s.gate c o x).ran = none := by
      intro o x; unfold AppSys.gate; split <;> rfl
    unfold AppSys.begin at hk
    split at hk
    · exact .inl (app _ rfl hk)
    · split at hk
      · exact .inl (app _ (hg _ _) hk)
      · split at hk
        · exact .inl (app _ rfl hk)
        · exact .inl (app _ (hg _ _) hk)
  | enter m =>
    rw [AppSys.step] at hk ⊢
    unfold AppSys.enter at hk ⊢
    split at hk
    · rename_i k hkm
      split at hk
      · rename_i o w hpc
        split at hk
        · exact .inl hk
        · rename_i hsem
          rw [if_neg hsem]
          have hlt := (List.getElem?_eq_some_iff.mp hkm).1
          rcases settled { s with
            api := upd s.api s.cur ((s.api s.cur).step (.submit o (w.map Prod.snd) none))
            sem := upd s.sem k.sem (s.sem k.sem - 1)
            tasks := s.tasks.set m
              { k with pc := .inApi s.cur (s.api s.cur).nextTid, ran := some (s.cur, (s.api s.cur).nextTid) } }
            (by
              intro k2 h2 j u hp2
              by_cases hmn : m = n
              · subst hmn
                have h2 : (s.tasks.set m _)[m]? = some k2 := h2
                rw [List.getElem?_set_self hlt] at h2
                cases h2; cases hp2; rfl
              · have h2 : (s.tasks.set m _)[n]? = some k2 := h2
                rw [List.getElem?_set_ne hmn] at h2
                exact inside k2 h2 j u hp2) hk with h | h
          · have h : (s.tasks.set m _)[n]? = some k' := h
            by_cases hmn : m = n
            · subst hmn
              rw [List.getElem?_set_self hlt] at h
              cases h; cases hp
            · rw [List.getElem?_set_ne hmn] at h
              exact .inl h
          · exact .inr (.inr h)
      · exact .inl hk
    · exact .inl hk
  | wakeUp m =>
    rw [AppSys.step] at hk
    split at hk
    · rename_i k hkm
      split at hk
      · split at hk
        · have hlt := (List.getElem?_eq_some_iff.mp hkm).1
          have hk : (s.tasks.set m { k with pc := .done k.call.success })[n]? = some k' := hk
          by_cases hmn : m = n
          · subst hmn
            rw [List.getElem?_set_self hlt] at hk
            cases hk
            injection hp with hp
            exact absurd hp (success_ne _ _)
          · rw [List.getElem?_set_ne hmn] at hk; exact .inl hk
        · exact .inl hk
      · exact .inl hk
    · exact .inl hk
  | cancel m =>
    by_cases hmn : m = n
    · subst hmn; exact .inr (.inl rfl)
    · rcases hkm : s.tasks[m]? with _ | k
      · refine .inl ?_
        rw [AppSys.step, hkm] at hk
        exact hk
      · rcases hpc : k.pc with ⟨o, w⟩ | ⟨j, u⟩ | ⟨j, d⟩ | r
        · refine .inl ?_
          rw [AppSys.step, hkm] at hk
          dsimp only at hk
          rw [hpc] at hk
          have hk : (s.tasks.set m _)[n]? = some k' := hk
          rw [List.getElem?_set_ne hmn] at hk; exact hk
        · have he : s.step (.cancel m) = s.apiStep j (.cancel u) := by
            rw [AppSys.step, hkm]; dsimp only; rw [hpc]
          rw [he] at hk ⊢
          rcases settled { s with api := upd s.api j ((s.api j).step (.cancel u)) } inside hk with h | h
          · exact .inl h
          · exact .inr (.inr h)
        · refine .inl ?_
          rw [AppSys.step, hkm] at hk
          dsimp only at hk
          rw [hpc] at hk
          have hk : (s.tasks.set m _)[n]? = some k' := hk
          rw [List.getElem?_set_ne hmn] at hk; exact hk
        · refine .inl ?_
          rw [AppSys.step, hkm] at hk
          dsimp only at hk
          rw [hpc] at hk
          exact hk
  | newApi => exact .inl hk
  | newSemaphore p => exact .inl hk

theorem app_grows (i : Nat) (es : List AppEvent) (s : AppSys) : Grows (s.api i) ((s.run es).api i) := by
  obtain ⟨E, h, -⟩ := app_proj_from i es s
  rw [h]; exact grows_run _ E

/-- A call whose request succeeded is cancelled only by its caller. -/
theorem app_cancelled {n i t : Nat} {x : Option Obj} : ∀ (es : List AppEvent) (s : AppSys), AInv s → ∀ k,
    (s.run es).tasks[n]? = some k → k.ran = some (i, t) → k.pc = .done (.raised .cancelledError) →
    .finished t (.ok x) ∈ ((s.run es).api i).log → .cancel n ∉ es → s.tasks[n]? = some k
  | [], _, _, _, hk, _, _, _, _ => hk
  | ev :: es, s, hi, k, hk, hr, hp, hf, hn => by
    have h1 := app_cancelled es (s.step ev) (hi.step ev) k hk hr hp hf fun h => hn (.tail _ h)
    rcases app_cancelled_step ev h1 hp hr hi with h | rfl | ⟨A, e, hA, hAp⟩
    · exact h
    · exact absurd (.head _) hn
    · exfalso
      have i1 := (hi.step ev).api i
      have i2 := (ainv_from hi (ev :: es)).api i
      have h2 := (i1.log.fin t _).mpr ⟨A, hA, hAp⟩
      have h3 := (app_grows i es (s.step ev)).log.mem h2
      obtain ⟨B, hB, hBp⟩ := (i2.log.fin t _).mp hf
      obtain ⟨C, hC, hCp⟩ := (i2.log.fin t _).mp h3
      rw [hB] at hC; cases hC
      rw [hBp] at hCp; cases hCp

/-! ## Writing -/

/-- Nothing is written. -/
def Still (s s' : Api) : Prop := ∀ t b, .sent t b ∈ s'.log → .sent t b ∈ s.log

theorem Still.one {s s' : Api} (x : Entry) (hx : ∀ t b, x ≠ .sent t b) (hl : s'.log = s.log ++ [x]) :
    Still s s' := by
  intro t b h
  rw [hl, List.mem_append, List.mem_singleton] at h
  exact h.resolve_right fun e => hx t b e.symm

theorem Still.same {s s' : Api} (hl : s'.log = s.log) : Still s s' := fun t b h => by rw [hl] at h; exact h

theorem Still.trans {a b c : Api} (h : Still a b) (h' : Still b c) : Still a c :=
  fun t x hx => h t x (h' t x hx)

theorem still_finish (s : Api) (t : Nat) (r : Except PyErr (Option Obj)) : Still s (s.finish t r) :=
  .one (.finished t r) (by simp) rfl

theorem still_setResult (s : Api) (w : Nat) (o : Obj) : Still s (s.setResult w o) := by
  unfold Api.setResult
  split
  · exact .one _ (by simp) rfl
  · exact .same rfl

theorem still_frame (s : Api) (f : Frame) : Still s (s.dataReceived f).1 := by
  intro t b h
  let g : Entry → Option (Nat × List UInt8) := fun e => match e with
    | .sent t b => some (t, b)
    | _ => none
  have key : ∀ L : List Entry, .sent t b ∈ L ↔ (t, b) ∈ L.filterMap g := by
    intro L
    rw [List.mem_filterMap]
    constructor
    · intro h; exact ⟨_, h, rfl⟩
    · rintro ⟨x, hx, he⟩
      cases x <;> simp [g] at he
      rw [← he.1, ← he.2]; exact hx
  rcases hd : Obj.fromUnpiFrame f with e | o
  · unfold Api.dataReceived at h
    rw [hd] at h
    exact h
  · rw [key, dataReceived_filterMap g (fun _ _ => rfl) (fun _ => rfl) s hd, fm_none rfl, ← key] at h
    exact h

/-- A request that was just written waits for its response, for six seconds at least. -/
def JustWritten (s' : Api) (t : Nat) : Prop :=
  ∃ A, s'.tasks t = some A ∧ (A.obj.commandType = .SREQ → ∃ w d, A.pc = .waiting w d ∧ s'.now + 6000 ≤ d)

theorem start_sent {s : Api} {t u : Nat} {k : Task} {b : List UInt8} (hk : s.tasks t = some k)
    (h : .sent u b ∈ (s.start t k.obj).log) : .sent u b ∈ s.log ∨ (u = t ∧ JustWritten (s.start t k.obj) t) := by
  unfold Api.start at h ⊢
  split at h
  · exact .inl (still_finish _ _ _ _ _ h)
  · rename_i frame hfr
    split at h
    · rename_i m to hw
      dsimp only at h ⊢
      split at h
      · exact .inl (Still.trans (.one _ (by simp) rfl) (still_finish (s.waitFor m to none).2 t _) _ _ h)
      · rename_i s' h'
        rw [(setPc_parts s' t _).2.2.2.2.1] at h
        have fs := uartSend_fields h'
        have hk' : s'.tasks t = some k := by rw [fs.1]; exact hk
        have hlog : .sent u b ∈ s.log ∨ u = t := by
          unfold Api.uartSend at h'
          split at h'
          · split at h'
            · cases h'
            · cases h'
              have h : Entry.sent u b ∈ (s.log ++ [_]) ++ [Entry.sent t _] := h
              rw [List.mem_append, List.mem_singleton] at h
              rcases h with h | h
              · rw [List.mem_append, List.mem_singleton] at h
                rcases h with h | h
                · exact .inl h
                · cases h
              · cases h; exact .inr rfl
          · cases h'
        rcases hlog with h | h
        · exact .inl h
        · refine .inr ⟨h, { k with pc := .waiting (s.waitFor m to none).1 (s'.now + to) }, ?_, fun hS => ?_⟩
          · rw [setPc_eq hk']; exact upd_same _ _ _
          · refine ⟨_, _, rfl, ?_⟩
            rw [setPc_eq hk']
            show s'.now + 6000 ≤ s'.now + to
            have hS : k.obj.commandType = .SREQ := hS
            unfold ownWaiter at hw
            rw [if_pos hS] at hw
            simp only [Option.some.injEq, Prod.mk.injEq] at hw
            have : 6000 ≤ to := by
              rw [← hw.2]; split
              · decide
              · decide
            omega
    · rename_i hw
      split at h
      · rename_i hA
        split at h
        · exact .inl (still_finish _ _ _ _ _ h)
        · rename_i s' h'
          have h := still_finish s' t _ _ _ h
          have hk' : s'.tasks t = some k := by rw [(uartSend_fields h').1]; exact hk
          have hlog : .sent u b ∈ s.log ∨ u = t := by
            unfold Api.uartSend at h'
            split at h'
            · split at h'
              · cases h'
              · cases h'
                have h : Entry.sent u b ∈ s.log ++ [Entry.sent t _] := h
                rw [List.mem_append, List.mem_singleton] at h
                rcases h with h | h
                · exact .inl h
                · cases h; exact .inr rfl
            · cases h'
          rcases hlog with h | h
          · exact .inl h
          · refine .inr ⟨h, { k with pc := .done (.ok none) }, ?_, fun hS => ?_⟩
            · rw [if_pos hA, finish_eq hk']; exact upd_same _ _ _
            · have hS : k.obj.commandType = .SREQ := hS
              rw [hS] at hA; cases hA
      · exact .inl (still_finish _ _ _ _ _ h)

theorem grant_sent {s : Api} {u : Nat} {b : List UInt8} (h : .sent u b ∈ s.grant.log) :
    .sent u b ∈ s.log ∨ JustWritten s.grant u := by
  unfold Api.grant at h ⊢
  split at h
  · split at h
    · rename_i t q hh hq _ k hk
      have h2 : (({ s with holder := some t, queue := q } : Api).setPc t .running).tasks t =
          some { k with pc := .running } := by
        rw [setPc_eq (s := { s with holder := some t, queue := q }) hk]; exact upd_same _ _ _
      rcases start_sent (k := { k with pc := .running }) h2 h with h | ⟨rfl, h⟩
      · rw [(setPc_parts _ _ _).2.2.2.2.1] at h; exact .inl h
      · exact .inr h
    · exact .inl h
  · exact .inl h

theorem sent_step {s : Api} {e : Event} {u : Nat} {b : List UInt8} (h : .sent u b ∈ (s.step e).log) :
    .sent u b ∈ s.log ∨ JustWritten (s.step e) u := by
  have still : Still s (s.step e) → .sent u b ∈ s.log ∨ JustWritten (s.step e) u := fun hs => .inl (hs _ _ h)
  cases e with
  | submit o w x =>
    rw [Api.step] at h ⊢
    have hs : Still s (s.enqueue o w x) := .one _ (by simp) rfl
    split at h
    · rename_i hc
      rw [if_pos hc]
      rcases grant_sent h with h | h
      · exact .inl (hs _ _ h)
      · exact .inr h
    · exact .inl (hs _ _ h)
  | grant => exact grant_sent h
  | frame f => exact still (still_frame s f)
  | wake t =>
    apply still
    rw [Api.step]
    split
    · split
      · split
        · unfold Api.conclude
          split
          · split
            · exact still_finish _ _ _
            · split
              · exact still_finish _ _ _
              · rename_i v _
                split
                · exact ((Still.one (s := s) (s' := s.drop v) (.dropped v) (by simp) rfl).trans
                    (still_setResult _ _ _)).trans (still_finish _ _ _)
                · exact still_finish _ _ _
          · exact still_finish _ _ _
        · exact .same rfl
      · exact .same rfl
    · exact .same rfl
  | timeout t =>
    apply still
    rw [Api.step]
    split
    · split
      · split
        · exact (still_finish s t (.error .timeoutError)).trans (.same rfl)
        · exact .same rfl
      · exact .same rfl
    · exact .same rfl
  | cancel t =>
    apply still
    rw [Api.step]
    split
    · split
      · exact .one (.finished t (.error .cancelledError)) (by simp) rfl
      · exact (still_finish s t (.error .cancelledError)).trans (.same rfl)
      · exact .same rfl
    · exact .same rfl
  | timer w =>
    apply still
    rw [Api.step]
    split
    · unfold Api.timerCallback
      split
      · exact .same rfl
      · exact .one (.dropped w) (by simp) rfl
    · exact .same rfl
  | tick ms => exact .inl h
  | setUart b => exact .inl h
  | register m to q => exact still (.one _ (by simp) rfl)
  | registerResponse o q =>
    apply still
    rw [Api.step]
    unfold Api.createResponseWaiter
    split
    · exact .same rfl
    · exact .same rfl
    · exact .one _ (by simp) rfl
  | abandon w =>
    apply still
    rw [Api.step]
    split <;> exact .same rfl

/-! ## How a written request ends -/

/-- A request that ended with the `KeyError` of a missing response waiter was refused. -/
theorem keyError_refused {s : AppSys} (i : AInv s) {n : Nat} {k : AppTask} (hk : s.tasks[n]? = some k)
    {j t : Nat} (hr : k.ran = some (j, t)) {a : Task} (ha : (s.api j).tasks t = some a) {e : PyErr}
    {z' : Int} {m : Matcher} {to : Nat} {b : List UInt8} {f : Frame} {rsp : Obj} (hS : a.obj.commandType = .SREQ)
    (h1 : ownWaiter a.obj = some (m, to)) (h2 : m.match rsp = .ok true) (h3 : badStatus a.expected rsp = some z')
    (h4 : [Entry.sent t b, .received f rsp, .finished t (.error e)].Sublist (s.api j).log) :
    ∃ o z, k.call.obj = .ok o ∧ Answered s n o z ∧ z ≠ 0 := by
  obtain ⟨o, w, ho, hs⟩ := (i.tasks k (List.mem_of_getElem? hk)).ran j t hr
  have i := i.api j
  obtain ⟨a', ha', hko, hkw, hke⟩ := (i.log.subIff t o w none).mp hs
  rw [ha] at ha'; cases ha'
  rw [hko] at h1 hS
  have hdec := i.resp.recv f rsp (h4.subset (by simp))
  have hresp : ResponseTo o rsp := by
    rcases ownWaiter_answers h1 h2 with ⟨_, h⟩ | ⟨h, _⟩
    · exact h
    · rw [hS] at h; simp at h
  rw [hke] at h3
  have hbad := badStatus_some h3 (fun v hv => by
    obtain ⟨z, hz, _⟩ := status_int hdec hresp.1 hv
    exact ⟨z, hz⟩)
  refine ⟨o, z', ho, ⟨k, j, t, b, f, rsp, hk, hr, hdec, hresp, hbad.1, List.Sublist.trans ?_ h4⟩, ?_⟩
  · exact .cons_cons _ (.cons_cons _ (List.nil_sublist _))
  · simpa using hbad.2

/-- How a call ends whose request was written. -/
theorem written_call_ends {s : AppSys} (i : AInv s) {n : Nat} {k : AppTask} {r : Result} {b : List UInt8}
    {j t : Nat} (hk : s.tasks[n]? = some k) (hr : k.pc = .done r) (hran : k.ran = some (j, t))
    (hsent : .sent t b ∈ (s.api j).log) :
    r = k.call.success ∨ (∃ o z, k.call.obj = .ok o ∧ Answered s n o z ∧ z ≠ 0) ∨
    (r = .raised .timeoutError ∧ .finished t (.error .timeoutError) ∈ (s.api j).log) ∨
    (r = .raised .cancelledError ∧ .finished t (.error .cancelledError) ∈ (s.api j).log) ∨
    (r = .raised .cancelledError ∧ ∃ x, .finished t (.ok x) ∈ (s.api j).log) := by
  cases ended_inv i hk hr with
  | accepted j t x h1 h2 => exact .inl rfl
  | failed j' t' e h1 h2 =>
    rw [hran] at h1; cases h1
    have fail : ∀ e : PyErr, (∀ z, e ≠ .commandError z) → k.call.failure e = .raised (leaveCoroutine e) := by
      intro e he
      unfold Call.failure
      split
      · exact absurd rfl (he _)
      · exact absurd rfl (he _)
      · exact absurd rfl (he _)
      · rfl
    obtain ⟨a, ha, hpc⟩ := ((i.api j).log.fin t _).mp h2
    match (i.api j).resp.done t a _ ha hpc with
    | .inl ⟨h, _⟩ => exact absurd hsent (h b)
    | .inr (.inl ⟨_, _, h⟩) =>
      rcases h with rfl | rfl
      · exact .inr (.inr (.inr (.inl ⟨fail _ (by simp), h2⟩)))
      · exact .inr (.inr (.inl ⟨fail _ (by simp), h2⟩))
    | .inr (.inr ⟨hS, m, to, b', f, o, z, h3, h4, h5, h6, h⟩) =>
      exact .inr (.inl (keyError_refused i hk hran ha hS h3 h4 h5 h6))
  | cancelled h =>
    rcases h with h | ⟨_, j', t', x, h1, h2⟩
    · rw [hran] at h; cases h
    · rw [hran] at h1; cases h1
      exact .inr (.inr (.inr (.inr ⟨rfl, x, h2⟩)))
  | rejected e h _ => rw [hran] at h; cases h

end Zcc
