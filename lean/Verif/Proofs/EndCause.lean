import Verif.Proofs.Timely

/-!
# Why a call ends with an exception: the event that ends it
-/

namespace Zcc

open Spec

/-- The call can be sent: it is a request, and its bytes are known. -/
def Sendable (o : Obj) : Prop :=
  (o.commandType = .SREQ ∨ o.commandType = .AREQ) ∧ ∃ b, WrittenAs o b

/-- How call `t` ends with `err` by event `e`. -/
inductive EndsBy (s : Api) (e : Event) (t : Nat) : PyErr → Prop where
  | closed (h : s.uart = false) : EndsBy s e t .attributeError
  | cancelled (h : e = .cancel t) : EndsBy s e t .cancelledError
  | late {k w d} (hk : s.tasks t = some k) (hpc : k.pc = .waiting w d) (hf : s.fut w = .pending)
      (hd : d ≤ s.now) : EndsBy s e t .timeoutError
  | refused {z} : EndsBy s e t (.commandError z)
  | lost : EndsBy s e t (.keyError "waiter")

theorem finish_other (s : Api) {t u : Nat} (r : Except PyErr (Option Obj)) (h : u ≠ t) :
    (s.finish t r).tasks u = s.tasks u := by
  rw [finish_tasks]
  exact setPc_other s t _ h

/-- The code before the first `await` fails only if the port is closed. -/
theorem start_fails {s : Api} {t : Nat} {k k' : Task} (hk : s.tasks t = some k) (hs : Sendable k.obj)
    (h : (s.start t k.obj).tasks t = some k') {err : PyErr} (hp : k'.pc = .done (.error err)) :
    s.uart = false ∧ err = .attributeError := by
  obtain ⟨hty, b, f, hf, hb⟩ := hs
  have send : ∀ (s' : Api) x, s'.uart = s.uart → s'.uartSend t f = .error x →
      s.uart = false ∧ x = .attributeError := by
    intro s' x hu hx
    unfold Api.uartSend at hx
    rw [hu, hb] at hx
    split at hx
    · cases hx
    · rename_i hc
      cases hx
      exact ⟨by simpa using hc, rfl⟩
  have fin : ∀ (s' : Api) r, s'.tasks t = some k → (s'.finish t r).tasks t = some k' →
      r = .error err := by
    intro s' r hk' h'
    rw [finish_pc hk'] at h'
    cases h'
    simpa using hp
  unfold Api.start at h
  rw [hf] at h
  dsimp only at h
  split at h
  · split at h
    · rename_i hx
      have := fin _ _ (by exact hk) h
      cases this
      exact send (s.waitFor _ _ none).2 _ rfl hx
    · rename_i m to how s' hx
      have hk' : s'.tasks t = some k := by rw [(uartSend_fields hx).1]; exact hk
      rw [setPc_eq hk'] at h
      have h : upd s'.tasks t _ t = some k' := h
      rw [upd_same] at h
      cases h
      cases hp
  · rename_i how
    split at h
    · split at h
      · rename_i hx
        have := fin _ _ hk h
        cases this
        exact send _ _ rfl hx
      · rename_i hx
        have := fin _ _ (by rw [(uartSend_fields hx).1]; exact hk) h
        cases this
    · rename_i hty'
      exfalso
      rcases hty with hty | hty
      · unfold ownWaiter at how
        rw [if_pos hty] at how
        cases how
      · exact hty' hty

/-- The same for a call that takes the lock. -/
theorem grant_fails {s : Api} {t : Nat} {k' : Task} (hs : Sendable k'.obj)
    (h : s.grant.tasks t = some k') {err : PyErr} (hp : k'.pc = .done (.error err)) :
    s.tasks t = some k' ∨ s.uart = false ∧ err = .attributeError := by
  unfold Api.grant at h
  split at h
  · split at h
    · rename_i u q _ _ _ k hk
      have hk1 : (({ s with holder := some u, queue := q } : Api).setPc u .running).tasks u =
          some { k with pc := .running } := by
        rw [setPc_eq (s := { s with holder := some u, queue := q }) hk]; exact upd_same _ _ _
      have hu : (({ s with holder := some u, queue := q } : Api).setPc u .running).uart = s.uart := by
        rw [setPc_eq (s := { s with holder := some u, queue := q }) hk]
      by_cases ht : t = u
      · subst ht
        right
        have hobj : k'.obj = k.obj := by
          have hgen : ∀ (s' : Api) o, (s'.tasks t = some { k with pc := .running }) →
              (s'.start t o).tasks t = some k' → k'.obj = k.obj := by
            intro s' o hk2 h'
            have fin : ∀ (s'' : Api) r, s''.tasks t = some { k with pc := .running } →
                (s''.finish t r).tasks t = some k' → k'.obj = k.obj := by
              intro s'' r h3 h4
              rw [finish_pc h3] at h4
              cases h4
              rfl
            unfold Api.start at h'
            split at h'
            · exact fin _ _ hk2 h'
            · split at h'
              · dsimp only at h'
                split at h'
                · exact fin (s'.waitFor _ _ none).2 _ hk2 h'
                · rename_i s'' hx
                  have h3 : s''.tasks t = some { k with pc := .running } := by
                    rw [(uartSend_fields hx).1]; exact hk2
                  rw [setPc_eq h3] at h'
                  have h' : upd s''.tasks t _ t = some k' := h'
                  rw [upd_same] at h'
                  cases h'
                  rfl
              · split at h'
                · split at h'
                  · exact fin _ _ hk2 h'
                  · rename_i hx
                    exact fin _ _ (by rw [(uartSend_fields hx).1]; exact hk2) h'
                · exact fin _ _ hk2 h'
          exact hgen _ _ hk1 h
        have := start_fails (k := { k with pc := .running }) hk1 (hobj ▸ hs) h hp
        rw [hu] at this
        exact this
      · rw [start_other _ _ ht, setPc_other _ _ _ ht] at h
        exact .inl h
    · exact .inl h
  · exact .inl h

/-- A call that ends with an exception ends for a reason. -/
theorem fails_step {s : Api} {t : Nat} {k' : Task} {e : Event} (hs : Sendable k'.obj)
    (h : (s.step e).tasks t = some k') {err : PyErr} (hp : k'.pc = .done (.error err)) :
    s.tasks t = some k' ∨ EndsBy s e t err := by
  -- a change of program point
  have move : ∀ (s' : Api) u pc, s'.tasks = s.tasks → (s'.setPc u pc).tasks t = some k' →
      s.tasks t = some k' ∨ t = u ∧ pc = .done (.error err) := by
    intro s' u pc hs h
    by_cases hu : t = u
    · subst hu
      rcases hk : s'.tasks t with _ | k
      · unfold Api.setPc at h; rw [hk] at h; dsimp only at h; rw [hk] at h; cases h
      · rw [setPc_eq hk] at h
        have h : upd s'.tasks t _ t = some k' := h
        rw [upd_same] at h; cases h; exact .inr ⟨rfl, hp⟩
    · rw [setPc_other _ _ _ hu, hs] at h; exact .inl h
  cases e with
  | submit o w x =>
    rw [Api.step] at h
    have hen : (s.enqueue o w x).tasks t = some k' → s.tasks t = some k' := by
      intro h
      by_cases ht : t = s.nextTid
      · subst ht
        have h' : upd s.tasks s.nextTid _ s.nextTid = some k' := h
        rw [upd_same] at h'; cases h'; cases hp
      · have h' : upd s.tasks s.nextTid _ t = some k' := h
        rw [upd_other _ _ ht] at h'; exact h'
    split at h
    · rcases grant_fails hs h hp with h | ⟨h1, rfl⟩
      · exact .inl (hen h)
      · exact .inr (.closed h1)
    · exact .inl (hen h)
  | grant =>
    rcases grant_fails hs h hp with h | ⟨h1, rfl⟩
    · exact .inl h
    · exact .inr (.closed h1)
  | frame f => rw [Api.step, (dataReceived_fields s f).1] at h; exact .inl h
  | wake u =>
    rw [Api.step] at h
    split at h
    · split at h
      · split at h
        · unfold Api.conclude at h
          split at h
          · split at h
            · rcases move s u _ rfl h with h | ⟨-, h⟩
              · exact .inl h
              · cases h
            · split at h
              · rcases move s u _ rfl h with h | ⟨ht, h⟩
                · exact .inl h
                · injection h with h; injection h with h; subst h; exact .inr .refused
              · split at h
                · rcases move _ u _ (setResult_fields (s.drop _) _ _).1 h with h | ⟨ht, h⟩
                  · exact .inl h
                  · injection h with h; injection h with h; subst h; exact .inr .refused
                · rcases move s u _ rfl h with h | ⟨ht, h⟩
                  · exact .inl h
                  · injection h with h; injection h with h; subst h; exact .inr .lost
          · rcases move s u _ rfl h with h | ⟨-, h⟩
            · exact .inl h
            · cases h
        · exact .inl h
      · exact .inl h
    · exact .inl h
  | timeout u =>
    rw [Api.step] at h
    split at h
    · rename_i k hk
      split at h
      · rename_i w d hpc
        split at h
        · rename_i hc
          rcases move s u _ rfl h with h | ⟨ht, h⟩
          · exact .inl h
          · injection h with h; injection h with h; subst h ht; exact .inr (.late hk hpc hc.1 hc.2)
        · exact .inl h
      · exact .inl h
    · exact .inl h
  | cancel u =>
    rw [Api.step] at h
    split at h
    · split at h
      · rcases move s u _ rfl h with h | ⟨ht, h⟩
        · exact .inl h
        · injection h with h; injection h with h; subst h ht; exact .inr (.cancelled rfl)
      · rcases move s u _ rfl h with h | ⟨ht, h⟩
        · exact .inl h
        · injection h with h; injection h with h; subst h ht; exact .inr (.cancelled rfl)
      · exact .inl h
    · exact .inl h
  | timer w =>
    refine .inl ?_
    rw [Api.step] at h
    split at h
    · unfold Api.timerCallback at h
      split at h <;> exact h
    · exact h
  | tick ms => exact .inl h
  | setUart b => exact .inl h
  | register m to q => exact .inl h
  | registerResponse o q =>
    refine .inl ?_
    rw [Api.step] at h
    unfold Api.createResponseWaiter at h
    split at h <;> exact h
  | abandon w =>
    refine .inl ?_
    rw [Api.step] at h
    split at h <;> exact h

/-- No future is cancelled. -/
def KeepsFut (s s' : Api) : Prop := ∀ w, s'.fut w = .cancelled → s.fut w = .cancelled

theorem KeepsFut.trans {a b c : Api} (h : KeepsFut a b) (h' : KeepsFut b c) : KeepsFut a c :=
  fun w hw => h w (h' w hw)

theorem keepsFut_of {s s' : Api} (h : s'.fut = s.fut) : KeepsFut s s' := fun w hw => by rw [← h]; exact hw

theorem keepsFut_setPc (s : Api) (t : Nat) (pc : Pc) : KeepsFut s (s.setPc t pc) :=
  keepsFut_of (setPc_parts s t pc).2.1

theorem keepsFut_finish (s : Api) (t : Nat) (r : Except PyErr (Option Obj)) :
    KeepsFut s (s.finish t r) := keepsFut_of (setPc_parts s t _).2.1

theorem keepsFut_setResult (s : Api) (u : Nat) (o : Obj) : KeepsFut s (s.setResult u o) := by
  intro w h
  unfold Api.setResult at h
  split at h
  · by_cases hu : w = u
    · subst hu
      have h : upd s.fut w (.result o) w = _ := h
      rw [upd_same] at h
      cases h
    · have h : upd s.fut u (.result o) w = _ := h
      rw [upd_other _ _ hu] at h
      exact h
  · exact h

theorem keepsFut_start (s : Api) (t : Nat) (o : Obj) : KeepsFut s (s.start t o) := by
  unfold Api.start
  split
  · exact keepsFut_finish _ _ _
  · split
    · dsimp only
      split
      · exact (keepsFut_of (s := s) (s' := (s.waitFor _ _ none).2) rfl).trans (keepsFut_finish _ _ _)
      · rename_i h
        exact (keepsFut_of (s := s) (uartSend_fields h).2.2.2.1).trans (keepsFut_setPc _ _ _)
    · split
      · split
        · exact keepsFut_finish _ _ _
        · rename_i h
          exact (keepsFut_of (s := s) (uartSend_fields h).2.2.2.1).trans (keepsFut_finish _ _ _)
      · exact keepsFut_finish _ _ _

theorem keepsFut_grant (s : Api) : KeepsFut s s.grant := by
  unfold Api.grant
  split
  · split
    · rename_i t q _ _ _ k _
      exact (keepsFut_setPc { s with holder := some t, queue := q } t .running).trans
        (keepsFut_start _ _ _)
    · exact fun _ h => h
  · exact fun _ h => h

theorem keepsFut_matchLoop (o : Obj) : ∀ (ws : List Waiter) (s : Api),
    KeepsFut s (Api.matchLoop o ws s).1
  | [], s => fun _ h => h
  | w :: ws, s => by
    rw [Api.matchLoop]
    split
    · exact fun _ h => h
    · exact keepsFut_matchLoop o ws s
    · dsimp only
      have h1 : KeepsFut s ((s.pop w.id).setResult w.id o) := keepsFut_setResult (s.pop w.id) w.id o
      split
      · exact h1
      · exact h1.trans (keepsFut_matchLoop o ws _)

theorem keepsFut_frame (s : Api) (f : Frame) : KeepsFut s (s.dataReceived f).1 := by
  unfold Api.dataReceived
  split
  · exact fun _ h => h
  · rename_i o _
    dsimp only
    have h1 := keepsFut_matchLoop o s.waiters { s with log := s.log ++ [.received f o] }
    split
    · rename_i heq
      rw [heq] at h1
      exact h1
    · rename_i heq
      rw [heq] at h1
      exact h1

/-- The future of a waiter that was not made by a call for itself is cancelled only by its owner. -/
theorem cancelled_step {s : Api} (i : Inv s) {e : Event} {w : Nat} (hx : w ∈ s.ext)
    (h : (s.step e).fut w = .cancelled) : s.fut w = .cancelled ∨ e = .abandon w := by
  have own : ∀ {t k v d}, s.tasks t = some k → k.pc = .waiting v d → w ≠ v := by
    intro t k v d hk hpc hv
    subst hv
    exact (i.resp.live t k w d hk hpc).2.1 hx
  cases e with
  | submit o v x =>
    rw [Api.step] at h
    have h1 : KeepsFut s (s.enqueue o v x) := fun _ h => h
    split at h
    · exact .inl (h1.trans (keepsFut_grant _) w h)
    · exact .inl (h1 w h)
  | grant => exact .inl (keepsFut_grant s w h)
  | frame f => exact .inl (keepsFut_frame s f w h)
  | wake u =>
    refine .inl ?_
    rw [Api.step] at h
    split at h
    · split at h
      · split at h
        · unfold Api.conclude at h
          split at h
          · split at h
            · exact keepsFut_finish _ _ _ w h
            · split at h
              · exact keepsFut_finish _ _ _ w h
              · split at h
                · exact ((keepsFut_setResult (s.drop _) _ _).trans (keepsFut_finish _ _ _)) w h
                · exact keepsFut_finish _ _ _ w h
          · exact keepsFut_finish _ _ _ w h
        · exact h
      · exact h
    · exact h
  | timeout u =>
    refine .inl ?_
    rw [Api.step] at h
    split at h
    · rename_i k hk
      split at h
      · rename_i v d hpc
        split at h
        · have h : upd s.fut v .cancelled w = _ := h
          rw [upd_other _ _ (own hk hpc)] at h
          exact h
        · exact h
      · exact h
    · exact h
  | cancel u =>
    refine .inl ?_
    rw [Api.step] at h
    split at h
    · rename_i k hk
      split at h
      · exact keepsFut_setPc s u _ w h
      · rename_i v d hpc
        have h : (if s.fut v = .pending then upd s.fut v .cancelled else s.fut) w = _ := h
        split at h
        · rw [upd_other _ _ (own hk hpc)] at h
          exact h
        · exact h
      · exact h
    · exact h
  | timer v =>
    refine .inl ?_
    rw [Api.step] at h
    split at h
    · unfold Api.timerCallback at h
      split at h <;> exact h
    · exact h
  | tick ms => exact .inl h
  | setUart b => exact .inl h
  | register m to q => exact .inl h
  | registerResponse o q =>
    refine .inl ?_
    rw [Api.step] at h
    unfold Api.createResponseWaiter at h
    split at h <;> exact h
  | abandon v =>
    rw [Api.step] at h
    split at h
    · by_cases hv : w = v
      · exact .inr (hv ▸ rfl)
      · have h : upd s.fut v .cancelled w = _ := h
        rw [upd_other _ _ hv] at h
        exact .inl h
    · exact .inl h

end Zcc
