import Verif.Proofs.Bounded
import Verif.Proofs.ClientLimit

/-!
# How long a coroutine on the API can take
-/

namespace Zcc
open Spec

/-! ## The calls of the API -/

/-- The calls that have not ended take at most `x` ms from now. -/
def Workload (x : Nat) (s : Api) : Prop :=
  ∃ b, (∀ h k w d, s.tasks h = some k → k.pc = .waiting w d → d ≤ b) ∧ s.now ≤ b ∧
    b + (s.queue.map (lim s.tasks)).sum ≤ s.now + x

/-- What an event adds. -/
def Event.adds : Event → Nat
  | .submit o _ _ => limit o
  | _ => 0

variable {x y : Nat}

theorem Workload.mono {s : Api} (j : Workload x s) (h : x ≤ y) : Workload y s := by
  obtain ⟨b, h1, h2, h3⟩ := j
  exact ⟨b, h1, h2, by omega⟩

theorem Workload.keep {s s' : Api} (j : Workload x s)
    (hw : ∀ h k w d, s'.tasks h = some k → k.pc = .waiting w d →
      ∃ k0 w0, s.tasks h = some k0 ∧ k0.pc = .waiting w0 d)
    (hn : s'.now = s.now)
    (ht : (s'.queue.map (lim s'.tasks)).sum ≤ (s.queue.map (lim s.tasks)).sum) : Workload x s' := by
  obtain ⟨b, h1, h2, h3⟩ := j
  refine ⟨b, fun h k w d a1 a2 => ?_, by omega, by omega⟩
  obtain ⟨k0, w0, b1, b2⟩ := hw h k w d a1 a2
  exact h1 h k0 w0 d b1 b2

/-- Some call moves to a point where it does not wait. -/
theorem Workload.move {s s' : Api} (j : Workload x s) {u : Nat} {k : Task} (hk : s.tasks u = some k)
    {pc : Pc} (hpc : ∀ w d, pc ≠ .waiting w d)
    (ht : s'.tasks = upd s.tasks u (some { k with pc })) (hn : s'.now = s.now)
    (hq : s'.queue.Sublist s.queue) : Workload x s' := by
  refine j.keep ?_ hn ?_
  · intro h k' w d h1 h2
    rw [ht] at h1
    rcases tasks_upd hk _ h1 with ⟨_, h⟩ | ⟨_, h⟩
    · exact ⟨k', w, h, h2⟩
    · rw [h] at h2; exact absurd h2 (hpc w d)
  · rw [ht, lim_upd hk]
    exact sum_sublist (hq.map _)

theorem Workload.finish {s : Api} (j : Workload x s) {u : Nat} {k : Task} (hk : s.tasks u = some k)
    (r : Except PyErr (Option Obj)) : Workload x (s.finish u r) := by
  refine j.move hk (pc := .done r) (by simp) ?_ ?_ ?_
  all_goals rw [finish_eq hk]
  exact List.Sublist.refl _

/-- The queue gets shorter, and the first call of it waits at most its time limit. -/
theorem Workload.grant {s : Api} (j : Workload x s) : Workload x s.grant := by
  unfold Api.grant
  split
  · rename_i u q hh hq
    split
    · rename_i k hk
      obtain ⟨b, h1, h2, h3⟩ := j
      have hsum : (s.queue.map (lim s.tasks)).sum = limit k.obj + (q.map (lim s.tasks)).sum := by
        rw [hq, List.map_cons, List.sum_cons]
        congr 1
        unfold lim; rw [hk]
      rw [hsum] at h3
      rw [setPc_eq (s := { s with holder := some u, queue := q }) hk]
      have key : ∀ s' : Api, (∃ pc, s'.tasks = upd s.tasks u (some { k with pc }) ∧
          ∀ w d, pc = .waiting w d → d ≤ s.now + limit k.obj) → s'.now = s.now → s'.queue = q →
          Workload x s' := by
        rintro s' ⟨pc, ht, hd⟩ hnow hq'
        refine ⟨b + limit k.obj, ?_, by omega, ?_⟩
        · intro h k' w d a1 a2
          rw [ht] at a1
          rcases tasks_upd hk _ a1 with ⟨_, h⟩ | ⟨_, h⟩
          · have := h1 _ k' w d h a2; omega
          · rw [h] at a2; have := hd w d a2; omega
        · rw [ht, hq', lim_upd hk]; omega
      have twice : ∀ pc, upd (upd s.tasks u (some { k with pc := .running })) u (some { k with pc }) =
          upd s.tasks u (some { k with pc }) := by
        intro pc
        funext v
        by_cases hv : v = u
        · subst hv; rw [upd_same, upd_same]
        · rw [upd_other _ _ hv, upd_other _ _ hv, upd_other _ _ hv]
      have fin : ∀ (s' : Api) (r : Except PyErr (Option Obj)),
          s'.tasks = upd s.tasks u (some { k with pc := .running }) → s'.now = s.now →
          s'.queue = q → Workload x (s'.finish u r) := by
        intro s' r ht hnow hq'
        have hk' : s'.tasks u = some { k with pc := .running } := by rw [ht]; exact upd_same _ _ _
        rw [finish_eq hk']
        refine key _ ⟨.done r, ?_, by simp⟩ hnow hq'
        dsimp only
        rw [ht]; exact twice _
      unfold Api.start
      split
      · exact fin _ _ rfl rfl rfl
      · rename_i f hf
        rcases ownWaiter_cases k.obj with ⟨m, to, hw, _⟩ | ⟨hw, _, _⟩
        · rw [hw]
          dsimp only
          split
          · exact fin _ _ rfl rfl rfl
          · rename_i s' hs
            obtain ⟨p1, p2, p3⟩ := uartSend_parts hs
            have ht : s'.tasks = upd s.tasks u (some { k with pc := .running }) := p1
            have hk' : s'.tasks u = some { k with pc := .running } := by rw [ht]; exact upd_same _ _ _
            rw [setPc_eq hk']
            refine key _ ⟨.waiting s.waiterId (s'.now + to), ?_, ?_⟩ p3 p2
            · dsimp only
              rw [ht]; exact twice _
            · intro w d h
              cases h
              rw [← ownWaiter_limit hw]
              have : s'.now = s.now := p3
              omega
        · rw [hw]
          dsimp only
          split
          · split
            · exact fin _ _ rfl rfl rfl
            · rename_i s' hs
              obtain ⟨p1, p2, p3⟩ := uartSend_parts hs
              exact fin _ _ p1 p3 p2
          · exact fin _ _ rfl rfl rfl
    · exact j
  · exact j

theorem Workload.enqueue {s : Api} (j : Workload x s) (i : Inv s) (o : Obj)
    (w : Option Nat) (e : Option (List Int)) : Workload (x + limit o) (s.enqueue o w e) := by
  obtain ⟨b, h1, h2, h3⟩ := j
  refine ⟨b, fun h k v d a1 a2 => ?_, h2, ?_⟩
  · by_cases hh : h = s.nextTid
    · rw [Api.enqueue, hh] at a1
      dsimp only at a1
      rw [upd_same] at a1; cases a1; cases a2
    · rw [Api.enqueue] at a1
      dsimp only at a1
      rw [upd_other _ _ hh] at a1
      exact h1 h k v d a1 a2
  · unfold Api.enqueue
    dsimp only
    rw [List.map_append, List.sum_append, List.map_cons, List.map_nil, List.sum_cons, List.sum_nil]
    have e1 : s.queue.map (lim (upd s.tasks s.nextTid
        (some { obj := o, waiterId := w, expected := e, pc := .queued }))) =
        s.queue.map (lim s.tasks) := by
      refine List.map_congr_left fun u hu => ?_
      obtain ⟨k, hk, _⟩ := (i.lock.qIff u).mp hu
      have : u < s.nextTid := (i.lock.tid u).mp ⟨k, hk⟩
      unfold lim
      rw [upd_other _ _ (by omega)]
    have e2 : lim (upd s.tasks s.nextTid
        (some { obj := o, waiterId := w, expected := e, pc := .queued })) s.nextTid = limit o := by
      unfold lim; rw [upd_same]
    rw [e1, e2]
    omega

/-- One event, other than the passing of time. -/
theorem Workload.step {s : Api} (j : Workload x s) (i : Inv s) (e : Event) (he : ∀ ms, e ≠ .tick ms) :
    Workload (x + e.adds) (s.step e) := by
  have same : ∀ {s' : Api}, s'.tasks = s.tasks → s'.now = s.now → s'.queue = s.queue →
      Workload x s' := fun h1 h2 h3 =>
    j.keep (fun h k w d a1 a2 => ⟨k, w, by rw [h1] at a1; exact a1, a2⟩) h2
      (by rw [h1, h3]; exact Nat.le_refl _)
  cases e with
  | submit o w x' =>
    rw [Api.step]
    have je := j.enqueue i o w x'
    split
    · exact je.grant
    · exact je
  | grant => exact j.grant
  | frame f =>
    have h := dataReceived_fields s f
    exact same h.1 h.2.2.2.2.2.1 h.2.2.1
  | wake u =>
    rw [Api.step]
    split
    · rename_i k hk
      split
      · split
        · unfold Api.conclude
          split
          · split
            · exact j.finish hk _
            · split
              · exact j.finish hk _
              · rename_i v _
                split
                · have e1 : ∀ o, ((s.drop v).setResult v o).tasks = s.tasks ∧
                      ((s.drop v).setResult v o).now = s.now ∧
                      ((s.drop v).setResult v o).queue = s.queue := by
                    intro o
                    unfold Api.setResult
                    split <;> exact ⟨rfl, rfl, rfl⟩
                  exact (same (e1 _).1 (e1 _).2.1 (e1 _).2.2).finish (by rw [(e1 _).1]; exact hk) _
                · exact j.finish hk _
          · exact j.finish hk _
        · exact j
      · exact j
    · exact j
  | timeout u =>
    rw [Api.step]
    split
    · rename_i k hk
      split
      · split
        · have q := j.finish hk (.error .timeoutError)
          exact q
        · exact j
      · exact j
    · exact j
  | cancel u =>
    rw [Api.step]
    split
    · rename_i k hk
      split
      · refine j.move hk (pc := .done (.error .cancelledError)) (by simp) ?_ ?_ ?_
        · rw [setPc_eq hk]
        · rw [setPc_eq hk]
        · exact List.filter_sublist
      · exact j.finish hk (.error .cancelledError)
      · exact j
    · exact j
  | timer w =>
    rw [Api.step]
    split
    · unfold Api.timerCallback
      split <;> exact same rfl rfl rfl
    · exact j
  | tick ms => exact absurd rfl (he ms)
  | setUart b => exact same rfl rfl rfl
  | register m to q => exact same rfl rfl rfl
  | registerResponse o q =>
    rw [Api.step]
    unfold Api.createResponseWaiter
    split <;> first | exact j | exact same rfl rfl rfl
  | abandon w =>
    rw [Api.step]
    split
    · exact same rfl rfl rfl
    · exact j

/-- Time passes while a call has not ended. -/
theorem Workload.tick_busy {s : Api} (j : Workload x s) (i : Inv s) (hset : Settled s.tasks) {ms : Nat}
    (q : Resting s ms) {t : Nat} {k : Task} (hk : s.tasks t = some k) (hd : ∀ r, k.pc ≠ .done r) :
    ms ≤ x ∧ Workload (x - ms) (s.step (.tick ms)) := by
  obtain ⟨b, b1, b2, b3⟩ := j
  have hb : s.now + ms ≤ b := by
    rcases hh : s.holder with _ | h
    · have : t ∈ s.queue := by
        refine (i.lock.qIff t).mpr ⟨k, hk, ?_⟩
        rcases hp : k.pc with _ | _ | ⟨w, d⟩ | r
        · rfl
        · exact absurd hp (hset t k hk)
        · have := (i.lock.hIff t).mpr ⟨k, hk, by rw [hp]; trivial⟩
          rw [hh] at this; cases this
        · exact absurd hp (hd r)
      rw [q.1 hh] at this; cases this
    · obtain ⟨k, hk, ha⟩ := (i.lock.hIff h).mp hh
      rcases hp : k.pc with _ | _ | ⟨w, d⟩ | r
      · rw [hp] at ha; exact ha.elim
      · exact absurd hp (hset h k hk)
      · have := b1 h k w d hk hp
        have := (q.2 h k w d hk hp).2
        omega
      · rw [hp] at ha; exact ha.elim
  refine ⟨by omega, b, b1, hb, ?_⟩
  show b + _ ≤ s.now + ms + (x - ms)
  have : b + (s.queue.map (lim s.tasks)).sum ≤ s.now + x := b3
  show b + (s.queue.map (lim s.tasks)).sum ≤ s.now + ms + (x - ms)
  omega

/-- Time passes. -/
theorem Workload.tick {s : Api} (j : Workload x s) (ms : Nat) : Workload x (s.step (.tick ms)) := by
  obtain ⟨b, b1, b2, b3⟩ := j
  refine ⟨b + ms, fun h k w d a1 a2 => ?_, ?_, ?_⟩
  · have := b1 h k w d a1 a2; omega
  · show s.now + ms ≤ b + ms
    omega
  · show b + ms + (s.queue.map (lim s.tasks)).sum ≤ s.now + ms + x
    omega

/-- At any moment the calls take at most the sum of the limits of those that have not ended. -/
theorem workload_start {s : Api} (i : Inv s)
    (hd : ∀ t k w d, s.tasks t = some k → k.pc = .waiting w d → d ≤ s.now + limit k.obj) :
    Workload (limitsAhead s.nextTid s.log) s := by
  have le : ∀ u k, s.tasks u = some k → u ≤ s.nextTid := fun u k h =>
    Nat.le_of_lt ((i.lock.tid u).mp ⟨k, h⟩)
  have queued : ∀ u ∈ s.queue, u ≤ s.nextTid ∧ ∃ k, s.tasks u = some k ∧ ∀ r, k.pc ≠ .done r := by
    intro u hu
    obtain ⟨k, hk, hp⟩ := (i.lock.qIff u).mp hu
    exact ⟨le u k hk, k, hk, fun r => by rw [hp]; simp⟩
  rcases hh : s.holder with _ | h
  · refine ⟨s.now, ?_, Nat.le_refl _, ?_⟩
    · intro h k w d a1 a2
      have := (i.lock.hIff h).mpr ⟨k, a1, by rw [a2]; trivial⟩
      rw [hh] at this; cases this
    · exact Nat.add_le_add_left (limitsAhead_ge i i.lock.qSorted queued) _
  · obtain ⟨k, hk, ha⟩ := (i.lock.hIff h).mp hh
    refine ⟨s.now + limit k.obj, ?_, by omega, ?_⟩
    · intro h' k' w d a1 a2
      have := (i.lock.hIff h').mpr ⟨k', a1, by rw [a2]; trivial⟩
      rw [hh] at this; cases this
      rw [hk] at a1; cases a1
      exact hd h k w d hk a2
    · have hlim : lim s.tasks h = limit k.obj := by unfold lim; rw [hk]
      have := limitsAhead_ge i (t := s.nextTid) (l := h :: s.queue)
        (List.pairwise_cons.mpr ⟨fun u hu => i.lock.hQueue h hh u hu, i.lock.qSorted⟩) (by
          intro u hu
          rcases List.mem_cons.mp hu with rfl | hu
          · refine ⟨le u k hk, k, hk, fun r hp => ?_⟩
            rw [hp] at ha; exact ha.elim
          · exact queued u hu)
      rw [List.map_cons, List.sum_cons, hlim] at this
      omega

/-! ## Programs -/

/-- The time limit of a request. -/
def span (sub : Subsystem) (command : String) (payload : Payload) : Nat :=
  match Obj.fromCommand sub command payload with
  | .ok o => limit o
  | .error _ => 0

/-- The operations of the program take at most `B` ms together, `L` are the time limits of the
waiters. -/
inductive Takes {α : Type} : (Nat → Nat) → Prog α → Nat → Prop where
  | ret {L a B} : Takes L (.ret a) B
  | raise {L e B} : Takes L (.raise e) B
  | request {L sub command payload expected b B} {k : Except PyErr (Option Obj) → Prog α}
      (hb : span sub command payload + b ≤ B) (h : ∀ r, Takes L (k r) b) :
      Takes L (.call (.request sub command payload expected) k) B
  | spawn {L sub command payload b B} {k : Except PyErr Unit → Prog α}
      (hb : span sub command payload + b ≤ B) (h : Takes L (k (.ok ())) b) :
      Takes L (.call (.spawn sub command payload) k) B
  | waitFor {L m timeout B} {k : Except PyErr Nat → Prog α}
      (h : ∀ w, Takes (upd L w timeout) (k (.ok w)) B) : Takes L (.call (.waitFor m timeout) k) B
  | wait {L w b B} {k : Except PyErr Obj → Prog α} (hb : L w + b ≤ B) (h : ∀ r, Takes L (k r) b) :
      Takes L (.call (.wait w) k) B
  | semaphore {L n B} {k : Except PyErr Unit → Prog α} (h : Takes L (k (.ok ())) B) :
      Takes L (.call (.semaphore n) k) B
  | coordinator {L ieee nwk B} {k : Except PyErr Unit → Prog α} (h : Takes L (k (.ok ())) B) :
      Takes L (.call (.coordinator ieee nwk) k) B

namespace Takes

variable {α β : Type} {L : Nat → Nat} {B B' C : Nat}

theorem mono {p : Prog α} (t : Takes L p B) : ∀ {B'}, B ≤ B' → Takes L p B' := by
  induction t with
  | ret => intro _ _; exact .ret
  | raise => intro _ _; exact .raise
  | request hb h _ => intro _ h'; exact .request (Nat.le_trans hb h') h
  | spawn hb h _ => intro _ h'; exact .spawn (Nat.le_trans hb h') h
  | waitFor h ih => intro _ h'; exact .waitFor fun w => ih w h'
  | wait hb h _ => intro _ h'; exact .wait (Nat.le_trans hb h') h
  | semaphore h ih => intro _ h'; exact .semaphore (ih h')
  | coordinator h ih => intro _ h'; exact .coordinator (ih h')

theorem bind {p : Prog α} (t : Takes L p B) {f : α → Prog β} (hf : ∀ L' a, Takes L' (f a) C) :
    Takes L (p.bind f) (B + C) := by
  induction t with
  | ret => exact (hf _ _).mono (Nat.le_add_left _ _)
  | raise => exact .raise
  | request hb _ ih => exact .request (by omega) ih
  | spawn hb _ ih => exact .spawn (by omega) ih
  | waitFor _ ih => exact .waitFor ih
  | wait hb _ ih => exact .wait (by omega) ih
  | semaphore _ ih => exact .semaphore ih
  | coordinator _ ih => exact .coordinator ih

theorem tryExcept {p : Prog α} (t : Takes L p B) {f : PyErr → Option (Prog α)}
    (hf : ∀ L' e q, f e = some q → Takes L' q C) : Takes L (p.tryExcept f) (B + C) := by
  induction t with
  | ret => exact .ret
  | raise =>
    rename_i L' e _
    unfold Prog.tryExcept
    rcases hq : f e with _ | q
    · exact .raise
    · exact (hf _ _ _ hq).mono (Nat.le_add_left _ _)
  | request hb _ ih => exact .request (by omega) ih
  | spawn hb _ ih => exact .spawn (by omega) ih
  | waitFor _ ih => exact .waitFor ih
  | wait hb _ ih => exact .wait (by omega) ih
  | semaphore _ ih => exact .semaphore ih
  | coordinator _ ih => exact .coordinator ih

end Takes

/-! ## A coroutine -/

/-- The remaining operations take at most `y` ms, without the one that has begun. -/
def Rest {α : Type} (c : Client α) (y : Nat) : Prop :=
  match c.pend with
  | .idle => Takes c.limit c.prog y
  | .call _ => ∃ sub command payload expected k,
      c.prog = .call (.request sub command payload expected) k ∧ ∀ r, Takes c.limit (k r) y
  | .wait w _ => ∃ k, c.prog = .call (.wait w) k ∧ ∀ r, Takes c.limit (k r) y

/-- The time limits of the created tasks that have not begun. -/
def spans (l : List (Subsystem × String × Payload)) : Nat :=
  (l.map fun x => span x.1 x.2.1 x.2.2).sum

/-- The coroutine ends at `T` at the latest. -/
def Budget {α : Type} (T : Nat) (c : Client α) : Prop :=
  ∃ x y z, Workload x c.api ∧ Rest c y ∧ (∀ w d, c.pend = .wait w d → d ≤ c.api.now + z) ∧
    c.api.now + x + y + z + spans c.spawned ≤ T

/-- What an event of others adds. -/
def ClientEvent.adds : ClientEvent → Nat
  | .api e => e.adds
  | _ => 0

theorem span_ok {sub : Subsystem} {command : String} {payload : Payload} {o : Obj}
    (h : Obj.fromCommand sub command payload = .ok o) : span sub command payload = limit o := by
  unfold span; rw [h]

theorem now_finish (s : Api) (t : Nat) (r : Except PyErr (Option Obj)) :
    (s.finish t r).now = s.now := by
  unfold Api.finish Api.setPc
  dsimp only
  split <;> rfl

theorem now_setPc (s : Api) (t : Nat) (pc : Pc) : (s.setPc t pc).now = s.now := by
  unfold Api.setPc
  split <;> rfl

theorem now_grant (s : Api) : s.grant.now = s.now := by
  unfold Api.grant
  split
  · split
    · rename_i u q _ _ _ k hk
      have e0 : (({ s with holder := some u, queue := q } : Api).setPc u .running).now = s.now :=
        now_setPc _ _ _
      unfold Api.start
      split
      · rw [now_finish]; exact e0
      · dsimp only
        split
        · split
          · rw [now_finish]; exact e0
          · rename_i s' hs
            rw [now_setPc, (uartSend_parts hs).2.2]; exact e0
        · split
          · split
            · rw [now_finish]; exact e0
            · rename_i s' hs
              rw [now_finish, (uartSend_parts hs).2.2]; exact e0
          · rw [now_finish]; exact e0
    · rfl
  · rfl

theorem now_step (s : Api) (e : Event) (he : ∀ ms, e ≠ .tick ms) : (s.step e).now = s.now := by
  cases e with
  | submit o w x =>
    rw [Api.step]
    split
    · rw [now_grant]; rfl
    · rfl
  | grant => exact now_grant s
  | frame f => exact (dataReceived_fields s f).2.2.2.2.2.1
  | wake u =>
    rw [Api.step]
    split
    · split
      · split
        · unfold Api.conclude
          split
          · split
            · rw [now_finish]
            · split
              · rw [now_finish]
              · split
                · rw [now_finish]
                  unfold Api.setResult
                  split <;> rfl
                · rw [now_finish]
          · rw [now_finish]
        · rfl
      · rfl
    · rfl
  | timeout u =>
    rw [Api.step]
    split
    · split
      · split
        · exact now_finish s u _
        · rfl
      · rfl
    · rfl
  | cancel u =>
    rw [Api.step]
    split
    · split
      · exact now_setPc s u _
      · exact now_finish s u _
      · rfl
    · rfl
  | timer w =>
    rw [Api.step]
    split
    · unfold Api.timerCallback
      split <;> rfl
    · rfl
  | tick ms => exact absurd rfl (he ms)
  | setUart b => rfl
  | register m to q => rfl
  | registerResponse o q =>
    rw [Api.step]
    unfold Api.createResponseWaiter
    split <;> rfl
  | abandon w =>
    rw [Api.step]
    split <;> rfl

theorem ended_step {α : Type} {c : Client α} (h : Ended c) (ev : ClientEvent) : Ended (c.step ev) := by
  rcases h with ⟨a, h⟩ | ⟨e, h⟩
  · refine .inl ⟨a, ?_⟩
    cases ev <;> unfold Client.step <;> try (rw [h]; exact h)
    · exact h
    · show c.runSpawned.prog = _
      unfold Client.runSpawned
      split
      · exact h
      · split <;> exact h
  · refine .inr ⟨e, ?_⟩
    cases ev <;> unfold Client.step <;> try (rw [h]; exact h)
    · exact h
    · show c.runSpawned.prog = _
      unfold Client.runSpawned
      split
      · exact h
      · split <;> exact h

variable {α : Type} {T : Nat}

theorem Budget.go {c : Client α} (j : Budget T c) (i : Inv c.api) {op : Op}
    {k : Except PyErr op.Ans → Prog α} (hp : c.prog = .call op k) : Budget T (c.advance op k) := by
  obtain ⟨x, y, z, h1, h2, h3, h4⟩ := j
  have idle : ∀ {c' : Client α} {y' : Nat}, c'.pend = .idle → Takes c'.limit c'.prog y' → Rest c' y' := by
    intro c' y' h h'
    unfold Rest; rw [h]; exact h'
  unfold Rest at h2
  rcases hpend : c.pend with _ | t | ⟨w, d⟩
  · rw [hpend] at h2
    dsimp only at h2
    rw [hp] at h2
    cases op with
    | request sub command payload expected =>
      cases h2 with
      | request hb h =>
      rename_i b
      unfold Client.advance
      rw [hpend]
      dsimp only
      split
      · exact ⟨x, b, z, h1, idle rfl (h _), fun w d h => (by cases h), by
          show c.api.now + x + b + z + spans c.spawned ≤ T; omega⟩
      · rename_i o ho
        rw [span_ok ho] at hb
        refine ⟨x + limit o, b, z, h1.step i _ (by simp), ?_, fun w d h => (by cases h), ?_⟩
        · exact ⟨_, _, _, _, _, hp, h⟩
        · show (c.api.step _).now + _ + _ + _ + spans c.spawned ≤ T
          rw [now_step _ _ (by simp)]
          omega
    | spawn sub command payload =>
      cases h2 with
      | spawn hb h =>
      rename_i b
      refine ⟨x, b, z, h1, idle rfl h, fun w d h => (by cases h), ?_⟩
      show c.api.now + x + b + z + spans (c.spawned ++ [_]) ≤ T
      unfold spans at h4 ⊢
      rw [List.map_append, List.sum_append]
      simp only [List.map_cons, List.map_nil, List.sum_cons, List.sum_nil]
      omega
    | waitFor m timeout =>
      cases h2 with
      | waitFor h =>
      refine ⟨x, y, z, h1.step i (.register m timeout none) (by simp), idle rfl (h _),
        fun w d h => (by cases h), h4⟩
    | wait w =>
      cases h2 with
      | wait hb h =>
      rename_i b
      unfold Client.advance
      rw [hpend]
      dsimp only
      refine ⟨x, b, z + c.limit w, h1, ⟨_, hp, h⟩, fun w' d' h => ?_, ?_⟩
      · cases h
        show c.api.now + c.limit w ≤ c.api.now + _
        omega
      · show c.api.now + x + b + _ + spans c.spawned ≤ T
        omega
    | connect => cases h2
    | semaphore n =>
      cases h2 with
      | semaphore h => exact ⟨x, y, z, h1, idle rfl h, fun w d h => (by cases h), h4⟩
    | coordinator n =>
      cases h2 with
      | coordinator h => exact ⟨x, y, z, h1, idle rfl h, fun w d h => (by cases h), h4⟩
  · rw [hpend] at h2
    obtain ⟨sub, command, payload, expected, k', hp', h⟩ := h2
    rw [hp'] at hp
    cases hp
    unfold Client.advance
    rw [hpend]
    dsimp only
    split
    · exact ⟨x, y, z, h1, idle rfl (h _), fun w d h => (by cases h), h4⟩
    · exact ⟨x, y, z, h1, by unfold Rest; rw [hpend]; exact ⟨_, _, _, _, _, hp', h⟩, h3, h4⟩
  · rw [hpend] at h2
    obtain ⟨k', hp', h⟩ := h2
    rw [hp'] at hp
    cases hp
    unfold Client.advance
    rw [hpend]
    dsimp only
    split
    · exact ⟨x, y, z, h1, idle rfl (h _), fun w d h => (by cases h), h4⟩
    · exact ⟨x, y, z, h1, idle rfl (h _), fun w d h => (by cases h), h4⟩
    · split
      · refine ⟨x, y, z, h1.step i _ (by simp), idle rfl (h _), fun w d h => (by cases h), ?_⟩
        show (c.api.step _).now + _ + _ + _ + spans c.spawned ≤ T
        rw [now_step _ _ (by simp)]
        exact h4
      · exact ⟨x, y, z, h1, by unfold Rest; rw [hpend]; exact ⟨_, hp', h⟩, h3, h4⟩

theorem Rest.congr {c c' : Client α} {y : Nat} (h : Rest c y) (h1 : c'.pend = c.pend)
    (h2 : c'.prog = c.prog) (h3 : c'.limit = c.limit) : Rest c' y := by
  unfold Rest at h ⊢
  rw [h1, h2, h3]
  exact h

theorem Budget.interrupt {c : Client α} (j : Budget T c) (i : Inv c.api) {op : Op}
    {k : Except PyErr op.Ans → Prog α} (hp : c.prog = .call op k) : Budget T (c.interrupt op k) := by
  cases op with
  | request sub command payload expected =>
    unfold Client.interrupt
    dsimp only
    split
    · obtain ⟨x, y, z, h1, h2, h3, h4⟩ := j
      refine ⟨x, y, z, h1.step i _ (by simp), h2.congr rfl rfl rfl, ?_, ?_⟩
      · show ∀ w d, c.pend = .wait w d → d ≤ (c.api.step _).now + z
        rw [now_step _ _ (by simp)]
        exact h3
      · show (c.api.step _).now + _ + _ + _ + spans c.spawned ≤ T
        rw [now_step _ _ (by simp)]
        exact h4
    · exact j
  | wait w =>
    unfold Client.interrupt
    dsimp only
    split
    · rename_i w' d hpend
      obtain ⟨x, y, z, h1, h2, h3, h4⟩ := j
      unfold Rest at h2
      rw [hpend] at h2
      obtain ⟨k', hp', h⟩ := h2
      rw [hp'] at hp
      cases hp
      refine ⟨x, y, z, h1.step i _ (by simp), h _, fun w d h => (by cases h), ?_⟩
      show (c.api.step _).now + _ + _ + _ + spans c.spawned ≤ T
      rw [now_step _ _ (by simp)]
      exact h4
    · exact j
  | spawn => exact j
  | waitFor => exact j
  | connect => exact j
  | semaphore => exact j
  | coordinator => exact j

theorem Budget.notConnect {c : Client α} (j : Budget T c) {k : Except PyErr Unit → Prog α} :
    c.prog ≠ .call .connect k := by
  intro hp
  obtain ⟨x, y, z, h1, h2, h3, h4⟩ := j
  unfold Rest at h2
  split at h2
  · rw [hp] at h2; cases h2
  · obtain ⟨sub, command, payload, expected, k', hp', h⟩ := h2
    rw [hp'] at hp; cases hp
  · obtain ⟨k', hp', h⟩ := h2
    rw [hp'] at hp; cases hp

/-- One event, while the coroutine has not ended. -/
theorem Budget.step {c : Client α} (j : Budget T c) (i : Inv c.api) (hset : Settled c.api.tasks)
    (hcall : ∀ t, c.pend = .call t → ∃ k, c.api.tasks t = some k) (hne : ¬ Ended c)
    (ev : ClientEvent) (htick : ∀ ms, ev = .api (.tick ms) → ClientResting c ms) :
    Budget (T + ev.adds) (c.step ev) := by
  cases ev with
  | api e =>
    by_cases he : ∃ ms, e = .tick ms
    · obtain ⟨ms, rfl⟩ := he
      obtain ⟨q, hs, hb, hr, hw⟩ := htick ms rfl
      have hnow : (c.api.step (.tick ms)).now = c.api.now + ms := rfl
      obtain ⟨x, y, z, h1, h2, h3, h4⟩ := j
      rcases hpend : c.pend with _ | t | ⟨w, d⟩
      · exfalso
        rcases hp : c.prog with a | e | ⟨op, k⟩
        · exact hne (.inl ⟨a, hp⟩)
        · exact hne (.inr ⟨e, hp⟩)
        · refine hb op k hp ?_ hpend
          rintro rfl
          exact Budget.notConnect ⟨x, y, z, h1, h2, h3, h4⟩ hp
      · obtain ⟨k, hk⟩ := hcall t hpend
        have hd : ∀ r, k.pc ≠ .done r := by
          intro r h
          have := hr t hpend
          unfold Api.result at this
          rw [hk] at this
          dsimp only at this
          rw [h] at this
          cases this
        obtain ⟨h5, h6⟩ := h1.tick_busy i hset q hk hd
        refine ⟨x - ms, y, z, h6, h2.congr rfl rfl rfl, ?_, ?_⟩
        · intro w d h
          have h : c.pend = .wait w d := h
          rw [hpend] at h; cases h
        · show c.api.now + ms + (x - ms) + y + z + spans c.spawned ≤ T
          omega
      · have h5 := h3 w d hpend
        have h6 := (hw w d hpend).2
        refine ⟨x, y, z - ms, h1.tick ms, h2.congr rfl rfl rfl, ?_, ?_⟩
        · intro w' d' h
          have h : c.pend = .wait w' d' := h
          rw [hpend] at h; cases h
          show d ≤ c.api.now + ms + (z - ms)
          omega
        · show c.api.now + ms + x + y + (z - ms) + spans c.spawned ≤ T
          omega
    · have he : ∀ ms, e ≠ .tick ms := fun ms h => he ⟨ms, h⟩
      obtain ⟨x, y, z, h1, h2, h3, h4⟩ := j
      refine ⟨x + e.adds, y, z, h1.step i e he, h2.congr rfl rfl rfl, ?_, ?_⟩
      · show ∀ w d, c.pend = .wait w d → d ≤ (c.api.step e).now + z
        rw [now_step _ _ he]; exact h3
      · show (c.api.step e).now + _ + _ + _ + spans c.spawned ≤ T + e.adds
        rw [now_step _ _ he]; omega
  | go =>
    show Budget T _
    unfold Client.step
    dsimp only
    split
    · exact j.go i ‹_›
    · exact j
  | connected r =>
    show Budget T _
    unfold Client.step
    dsimp only
    split
    · rename_i op k hp
      unfold Client.connected
      split
      · exact absurd hp j.notConnect
      · exact j
    · exact j
  | spawned =>
    show Budget T c.runSpawned
    obtain ⟨x, y, z, h1, h2, h3, h4⟩ := j
    unfold Client.runSpawned
    split
    · exact ⟨x, y, z, h1, h2, h3, h4⟩
    · rename_i a rest hsp
      rw [hsp] at h4
      unfold spans at h4
      rw [List.map_cons, List.sum_cons] at h4
      split
      · refine ⟨x, y, z, h1, h2.congr rfl rfl rfl, h3, ?_⟩
        show c.api.now + x + y + z + (rest.map _).sum ≤ T
        omega
      · rename_i o ho
        rw [span_ok ho] at h4
        refine ⟨x + limit o, y, z, h1.step i _ (by simp), h2.congr rfl rfl rfl, ?_, ?_⟩
        · show ∀ w d, c.pend = .wait w d → d ≤ (c.api.step _).now + z
          rw [now_step _ _ (by simp)]; exact h3
        · show (c.api.step _).now + _ + _ + _ + (rest.map _).sum ≤ T
          rw [now_step _ _ (by simp)]; omega
  | cancel =>
    show Budget T _
    unfold Client.step
    dsimp only
    split
    · exact j.interrupt i ‹_›
    · exact j

/-! ## Executions -/

/-- Whatever a coroutine does to its API is a list of events of the API. -/
theorem client_api (c : Client α) (ev : ClientEvent) :
    (c.step ev).api = c.api ∨ ∃ e, (c.step ev).api = c.api.step e := by
  cases ev with
  | api e => exact .inr ⟨e, rfl⟩
  | go =>
    unfold Client.step
    dsimp only
    split
    · rename_i op k _
      cases op <;> unfold Client.advance
      · dsimp only
        split
        · split <;> exact .inl rfl
        · split
          · exact .inl rfl
          · exact .inr ⟨.submit _ none _, rfl⟩
      · exact .inl rfl
      · exact .inr ⟨.register _ _ none, rfl⟩
      · dsimp only
        split
        · split
          · exact .inl rfl
          · exact .inl rfl
          · split
            · exact .inr ⟨.abandon _, rfl⟩
            · exact .inl rfl
        · exact .inl rfl
      · exact .inl rfl
      · exact .inl rfl
      · exact .inl rfl
    · exact .inl rfl
  | connected r =>
    unfold Client.step
    dsimp only
    split
    · unfold Client.connected
      split <;> exact .inl rfl
    · exact .inl rfl
  | spawned =>
    show c.runSpawned.api = _ ∨ ∃ e, c.runSpawned.api = _
    unfold Client.runSpawned
    split
    · exact .inl rfl
    · split
      · exact .inl rfl
      · exact .inr ⟨.submit _ none none, rfl⟩
  | cancel =>
    unfold Client.step
    dsimp only
    split
    · rename_i op k _
      cases op <;> unfold Client.interrupt <;> dsimp only <;> try exact .inl rfl
      · split
        · exact .inr ⟨.cancel _, rfl⟩
        · exact .inl rfl
      · split
        · exact .inr ⟨.abandon _, rfl⟩
        · exact .inl rfl
    · exact .inl rfl

theorem client_events (p : Prog α) (evs : List ClientEvent) :
    ∃ es, (Client.run p evs).api = Api.init.run es := by
  induction h : evs.length generalizing evs with
  | zero =>
    rw [List.length_eq_zero_iff.mp h]
    exact ⟨[], rfl⟩
  | succ n ih =>
    rcases List.eq_nil_or_concat evs with rfl | ⟨evs', ev, rfl⟩
    · simp at h
    rw [List.concat_eq_append] at h ⊢
    obtain ⟨es, he⟩ := ih evs' (by simpa using h)
    rw [client_snoc]
    rcases client_api (Client.run p evs') ev with h' | ⟨e, h'⟩
    · exact ⟨es, h'.trans he⟩
    · exact ⟨es ++ [e], by rw [h', he, Zcc.run_snoc]⟩

theorem client_task (p : Prog α) (evs : List ClientEvent) (t : Nat)
    (h : (Client.run p evs).pend = .call t) : ∃ k, (Client.run p evs).api.tasks t = some k := by
  obtain ⟨past, i⟩ := client_inv p evs
  obtain ⟨o, e, _, h2, _⟩ := i.call t h
  obtain ⟨k, hk, _⟩ := (i.api.log.subIff t o none e).mp h2
  exact ⟨k, hk⟩

theorem othersLimits_cons (ev : ClientEvent) (evs : List ClientEvent) :
    othersLimits (ev :: evs) = ev.adds + othersLimits evs := by
  unfold othersLimits
  rw [List.map_cons, List.sum_cons]
  refine congrArg (· + _) ?_
  cases ev with
  | api e => cases e <;> rfl
  | _ => rfl

theorem budget_run (p : Prog α) (evs2 : List ClientEvent) : ∀ (evs1 : List ClientEvent) (T : Nat),
    ClientKeepsUp p evs1 evs2 → Budget T (Client.run p evs1) →
    Ended (Client.run p (evs1 ++ evs2)) ∨
      Budget (T + othersLimits evs2) (Client.run p (evs1 ++ evs2)) := by
  induction evs2 with
  | nil => intro evs1 T _ h; rw [List.append_nil]; exact .inr h
  | cons ev evs2 ih =>
    intro evs1 T hk h
    rw [show evs1 ++ ev :: evs2 = (evs1 ++ [ev]) ++ evs2 by simp]
    have hk' : ClientKeepsUp p (evs1 ++ [ev]) evs2 := by
      intro a ms b h
      have := hk (ev :: a) ms b (by rw [h]; rfl)
      rwa [show evs1 ++ ev :: a = (evs1 ++ [ev]) ++ a by simp] at this
    by_cases he : Ended (Client.run p evs1)
    · refine .inl ?_
      unfold Client.run at he ⊢
      rw [List.append_assoc, List.foldl_append]
      clear ih hk hk' h
      generalize [ev] ++ evs2 = l
      generalize evs1.foldl Client.step { prog := p } = c at he
      induction l generalizing c with
      | nil => exact he
      | cons x l ih => exact ih _ (ended_step he x)
    · obtain ⟨es, hes⟩ := client_events p evs1
      have hb := h.step (by rw [hes]; exact Zcc.inv_run es)
        (by rw [hes]; exact settled_run settled_init es) (client_task p evs1) he ev (by
          intro ms hms
          have := hk [] ms evs2 (by rw [hms]; rfl)
          rwa [List.append_nil] at this)
      rw [← client_snoc] at hb
      have := ih _ _ hk' hb
      have e : T + othersLimits (ev :: evs2) = T + ev.adds + othersLimits evs2 := by
        rw [othersLimits_cons]; omega
      rw [e]
      exact this

/-- A coroutine whose operations take at most `B` ms, before it begins. -/
theorem bounded_run (p : Prog α) {B : Nat} (evs1 evs2 : List ClientEvent)
    (hk : ClientKeepsUp p evs1 evs2) (hp : (Client.run p evs1).pend = .idle)
    (hs : (Client.run p evs1).spawned = [])
    (ht : Takes (Client.run p evs1).limit (Client.run p evs1).prog B)
    (hn : (Client.run p evs1).api.now + limitsAhead (Client.run p evs1).api.nextTid
        (Client.run p evs1).api.log + othersLimits evs2 + B <
      (Client.run p (evs1 ++ evs2)).api.now) : Ended (Client.run p (evs1 ++ evs2)) := by
  obtain ⟨es, hes⟩ := client_events p evs1
  have hl := workload_start (s := (Client.run p evs1).api) (by rw [hes]; exact Zcc.inv_run es)
    (by rw [hes]; exact deadline_run es Api.init (by intro t k w d h; simp [Api.init] at h))
  have hb : Budget ((Client.run p evs1).api.now + limitsAhead (Client.run p evs1).api.nextTid
      (Client.run p evs1).api.log + B) (Client.run p evs1) := by
    refine ⟨_, B, 0, hl, ?_, ?_, ?_⟩
    · unfold Rest; rw [hp]; exact ht
    · intro w d h; rw [hp] at h; cases h
    · rw [hs]; show _ + 0 ≤ _; omega
  rcases budget_run p evs2 evs1 _ hk hb with h | ⟨x, y, z, _, _, _, h⟩
  · exact h
  · omega

/-! ## Start-up -/

theorem span_le (sub : Subsystem) (command : String) (payload : Payload) :
    span sub command payload ≤ 30000 := by
  unfold span
  split
  · unfold limit
    split
    · split <;> omega
    · split <;> omega
  · omega

theorem fromCommand_names {sub : Subsystem} {command : String} {payload : Payload} {o : Obj}
    (h : Obj.fromCommand sub command payload = .ok o) : o.command = command := by
  unfold Obj.fromCommand at h
  cases hd : definitionGet sub with
  | error e => rw [hd] at h; cases h
  | ok cmds =>
    rw [hd] at h
    cases hc : nextCmd cmds (fun c => c.name == command) with
    | error e =>
      have h : ((nextCmd cmds fun c => c.name == command) >>= _) = Except.ok o := h
      rw [hc] at h; cases h
    | ok c =>
      have h : ((nextCmd cmds fun c => c.name == command) >>= _) = Except.ok o := h
      rw [hc] at h
      have hn : c.name = command := by
        unfold nextCmd at hc
        split at hc
        · rename_i c' hf
          cases hc
          simpa using List.find?_some hf
        · cases hc
      cases hp : c.parametersFor c.type with
      | error e =>
        have h : (c.parametersFor c.type >>= _) = Except.ok o := h
        rw [hp] at h; cases h
      | ok ps =>
        have h : (c.parametersFor c.type >>= _) = Except.ok o := h
        rw [hp] at h
        cases h
        exact hn

/-- A request that neither resets the radio nor forms a network. -/
theorem span_plain {sub : Subsystem} {command : String} {payload : Payload}
    (h : command ≠ "bdbStartCommissioning" ∧ command ≠ "startupFromApp" ∧ command ≠ "resetReq" ∧
      command ≠ "systemReset") : span sub command payload ≤ 6000 := by
  unfold span
  split
  · rename_i o ho
    have hn := fromCommand_names ho
    unfold limit
    rw [hn]
    split
    · rw [if_neg (by simp [h.1, h.2.1])]; exact Nat.le_refl _
    · rw [if_neg (by simp [h.2.2.1, h.2.2.2])]; omega
  · omega

/-- A request that forms a network. -/
theorem span_form {sub : Subsystem} {command : String} {payload : Payload}
    (h : command ≠ "resetReq" ∧ command ≠ "systemReset") : span sub command payload ≤ 20000 := by
  unfold span
  split
  · rename_i o ho
    have hn := fromCommand_names ho
    unfold limit
    rw [hn]
    split
    · split <;> omega
    · rw [if_neg (by simp [h.1, h.2])]; omega
  · omega

namespace Takes

variable {α β : Type} {L : Nat → Nat} {B C : Nat}

theorem op_request {sub : Subsystem} {command : String} {payload : Payload}
    {expected : Option (List Int)} (h : span sub command payload ≤ B) :
    Takes L (Prog.request sub command payload expected) B := by
  refine .request (b := 0) (by omega) ?_
  rintro (e | a)
  · exact .raise
  · exact .ret

/-- A request, then something else. -/
theorem request_then {sub : Subsystem} {command : String} {payload : Payload}
    {expected : Option (List Int)} {f : Option Obj → Prog β} (h : span sub command payload ≤ B)
    (hf : ∀ a, Takes L (f a) C) :
    Takes L ((Prog.request sub command payload expected).bind f) (B + C) := by
  refine .request (b := C) (by omega) ?_
  rintro (e | a)
  · exact .raise
  · exact hf a

theorem waitFor_then {m : Matcher} {to : Nat} {f : Nat → Prog β}
    (hf : ∀ w, Takes (upd L w to) (f w) C) :
    Takes L ((Prog.op (.waitFor m to)).bind f) C :=
  .waitFor hf

theorem wait_then {w : Nat} {f : Obj → Prog β} (hf : ∀ a, Takes L (f a) C) :
    Takes L ((Prog.op (.wait w)).bind f) (L w + C) := by
  refine .wait (b := C) (Nat.le_refl _) ?_
  rintro (e | a)
  · exact .raise
  · exact hf a

theorem spawn_then {sub : Subsystem} {command : String} {payload : Payload} {f : Unit → Prog β}
    (h : span sub command payload ≤ B) (hf : Takes L (f ()) C) :
    Takes L ((Prog.op (.spawn sub command payload)).bind f) (B + C) :=
  .spawn (b := C) (by omega) hf

theorem ite {c : Prop} [Decidable c] {p q : Prog α} (hp : Takes L p B) (hq : Takes L q B) :
    Takes L (if c then p else q) B := by
  split
  · exact hp
  · exact hq

theorem lift {r : Except PyErr α} : Takes L (Prog.lift r) B := by
  rcases r with e | a
  · exact .raise
  · exact .ret

theorem field {r : Option Obj} {key : String} : Takes L (Prog.field r key) B := by
  unfold Prog.field
  split
  · exact .raise
  · exact lift

theorem lift_then {r : Except PyErr α} {f : α → Prog β} (hf : ∀ a, Takes L (f a) C) :
    Takes L ((Prog.lift r).bind f) C := by
  rcases r with e | a
  · exact .raise
  · exact hf a

theorem field_then {r : Option Obj} {key : String} {f : Val → Prog β} (hf : ∀ a, Takes L (f a) C) :
    Takes L ((Prog.field r key).bind f) C := by
  unfold Prog.field
  split
  · exact .raise
  · exact lift_then hf

end Takes

theorem takes_validate (L : Nat → Nat) (item : Payload) (sub : Subsystem) (command : String)
    (expected : Option (List Int)) (h : span sub command item ≤ 6000) :
    Takes L (validateItem item sub command expected) 6000 := by
  refine Takes.request_then (C := 0) h fun a => Takes.field_then fun b => Takes.lift_then fun c => ?_
  split
  · exact .raise
  · exact .ret

theorem takes_read (L : Nat → Nat) (item : Payload) (expected : Option (List Int)) :
    Takes L (validateItem item (expected := expected)) 6000 :=
  takes_validate L item _ _ expected (span_plain (by decide))

theorem takes_key (L : Nat → Nat) (v : Int) (o : Options) : Takes L (validateKey v o) 6000 := by
  unfold validateKey
  split
  · exact takes_read _ _ _
  · exact takes_validate _ _ _ _ _ (span_plain (by decide))

theorem takes_pan (L : Nat → Nat) (v : Int) (o : Options) : Takes L (validatePan v o) 18000 := by
  refine Takes.tryExcept (B := 12000) (C := 6000) ?_ ?_
  · exact Takes.bind (B := 6000) (C := 6000) (takes_read _ _ _) fun L' _ => takes_read _ _ _
  · intro L' e q hq
    split at hq
    · cases hq
      split
      · refine Takes.request_then (C := 0) (span_plain (by decide)) fun a => Takes.field_then fun b => ?_
        split
        · exact .ret
        · exact .raise
      · exact .ret
    · cases hq

theorem takes_needs (L : Nat → Nat) (v : Int) (o : Options) :
    Takes L (needsToBeInitialised v o) 42000 := by
  refine Takes.tryExcept (B := 42000) (C := 0) ?_ ?_
  · exact Takes.bind (B := 6000) (C := 36000) (takes_read _ _ _) fun _ _ =>
      Takes.bind (B := 6000) (C := 30000) (takes_read _ _ _) fun _ _ =>
      Takes.bind (B := 6000) (C := 24000) (takes_read _ _ _) fun _ _ =>
      Takes.bind (B := 6000) (C := 18000) (takes_key _ _ _) fun _ _ =>
      Takes.bind (B := 18000) (C := 0) (takes_pan _ _ _) fun _ _ => .ret
  · intro L' e q hq
    split at hq
    · cases hq; exact .ret
    · cases hq

theorem upd_same_nat (L : Nat → Nat) (w to : Nat) : upd L w to w = to := by
  unfold upd; rw [if_pos rfl]

theorem takes_boot (L : Nat → Nat) : Takes L boot 86000 := by
  refine Takes.request_then (B := 6000) (C := 80000) (span_plain (by decide)) fun a =>
    Takes.field_then fun b => ?_
  split
  · refine Takes.waitFor_then fun w => Takes.request_then (B := 20000) (C := 60000)
      (span_form (by decide)) fun a => ?_
    have := Takes.wait_then (L := upd L w 60000) (w := w) (C := 0)
      (f := fun _ : Obj => (.ret () : Prog Unit)) fun a => .ret
    rw [upd_same_nat] at this
    exact this
  · exact .ret

theorem takes_register (L : Nat → Nat) (o : Obj) : ∀ es : List Endpoint,
    Takes L (registerLoop o es) (es.length * 6000) := by
  intro es
  induction es with
  | nil => exact .ret
  | cons e es ih =>
    refine Takes.lift_then fun l => Takes.lift_then fun b => ?_
    split
    · exact ih.mono (by simp; omega)
    · refine (Takes.request_then (B := 6000) (span_plain (by decide)) fun _ => ih).mono ?_
      rw [List.length_cons]; omega

theorem takes_endpoints (L : Nat → Nat) : Takes L registerEndpoints 94000 := by
  refine Takes.waitFor_then fun w => Takes.spawn_then (B := 6000) (C := 88000)
    (span_plain (by decide)) ?_
  have := Takes.wait_then (L := upd L w timeoutDefault) (w := w) (C := 78000)
    (f := fun a : Obj => registerLoop a Endpoints) fun a => takes_register _ a Endpoints
  rw [upd_same_nat] at this
  exact this

theorem takes_init3 (L : Nat → Nat) (o : Options) : Takes L (initialise3 o) 118000 := by
  refine Takes.request_then (B := 6000) (C := 112000) (span_plain (by decide)) fun _ =>
    Takes.request_then (B := 6000) (C := 106000) (span_plain (by decide)) fun _ =>
    Takes.request_then (B := 6000) (C := 100000) (span_plain (by decide)) fun _ =>
    Takes.waitFor_then fun w =>
    Takes.request_then (B := 20000) (C := 80000) (span_form (by decide)) fun _ => ?_
  refine Takes.bind (B := 60000) (C := 20000) ?_ fun _ _ =>
    Takes.request_then (B := 20000) (C := 0) (span_form (by decide)) fun _ => .ret
  refine Takes.tryExcept (B := 60000) (C := 0) ?_ ?_
  · refine .wait (b := 0) ?_ ?_
    · rw [upd_same_nat]; exact Nat.le_refl _
    · rintro (e | a)
      · exact .raise
      · exact .ret
  · intro L' e q hq
    unfold exceptException at hq
    split at hq
    · cases hq
    · cases hq; exact .raise

theorem takes_stack (L : Nat → Nat) (v : Int) (o : Options) :
    Takes L (initialiseStack v o) 118000 := by
  unfold initialiseStack
  split
  · exact takes_init3 L o
  · refine (Takes.request_then (B := 6000) (C := 6000) (span_plain (by decide)) fun _ =>
      Takes.request_then (B := 6000) (C := 0) (span_plain (by decide)) fun _ => .ret).mono ?_
    omega

theorem takes_initialise (L : Nat → Nat) (v : Int) (o : Options) :
    Takes L (initialise v o) 232000 := by
  refine Takes.request_then (B := 30000) (C := 202000) (span_le _ _ _) fun _ =>
    Takes.request_then (B := 6000) (C := 196000) (span_plain (by decide)) fun _ =>
    Takes.request_then (B := 30000) (C := 166000) (span_le _ _ _) fun _ =>
    Takes.request_then (B := 6000) (C := 160000) (span_plain (by decide)) fun _ =>
    Takes.request_then (B := 6000) (C := 154000) (span_plain (by decide)) fun _ =>
    Takes.request_then (B := 6000) (C := 148000) (span_plain (by decide)) fun _ =>
    Takes.request_then (B := 6000) (C := 142000) (span_plain (by decide)) fun _ =>
    Takes.request_then (B := 6000) (C := 136000) (span_plain (by decide)) fun _ =>
    Takes.request_then (B := 6000) (C := 130000) (span_plain (by decide)) fun _ =>
    Takes.bind (B := 118000) (C := 12000) (takes_stack _ _ _) fun _ _ =>
    Takes.request_then (B := 6000) (C := 6000) (span_plain (by decide)) fun _ =>
    Takes.request_then (B := 6000) (C := 0) (span_plain (by decide)) fun _ => .ret

theorem takes_group (L : Nat → Nat) (e g : Int) : Takes L (addToGroup e g) 12000 := by
  refine Takes.request_then (B := 6000) (C := 6000) (span_plain (by decide)) fun _ =>
    Takes.field_then fun _ => ?_
  split
  · exact Takes.request_then (B := 6000) (C := 0) (span_plain (by decide)) fun _ => .ret
  · exact .ret

theorem takes_has (L : Nat → Nat) (v : Int) : Takes L (readHasConfigured v) 6000 := by
  refine Takes.tryExcept (B := 6000) (C := 0) ?_ ?_
  · exact Takes.bind (B := 6000) (C := 0) (takes_read _ _ _) fun _ _ => .ret
  · intro L' e q hq
    split at hq <;> cases hq <;> exact .ret

theorem takes_configure (L : Nat → Nat) (v : Int) (o : Options) (b : Bool) :
    Takes L (configure v o b) 280000 := by
  refine Takes.bind (B := 6000) (C := 274000) (takes_has _ _) fun _ _ => ?_
  split
  · exact .raise
  · refine Takes.bind (B := 42000) (C := 232000) (takes_needs _ _ _) fun _ _ => ?_
    split
    · refine Takes.bind (B := 232000) (C := 0) (takes_initialise _ _ _) fun _ _ => ?_
      split
      · exact .ret
      · exact .ret
    · exact .ret

theorem takes_startZnp (L : Nat → Nat) (v : Int) (o : Options) (g : Int) (b : Bool) :
    Takes L (startZnp v o g b) 478000 := by
  refine Takes.bind (B := 280000) (C := 198000) (takes_configure _ _ _ _) fun _ _ =>
    Takes.bind (B := 86000) (C := 112000) (takes_boot _) fun _ _ =>
    Takes.bind (B := 94000) (C := 18000) (takes_endpoints _) fun _ _ =>
    Takes.bind (B := 12000) (C := 6000) (takes_group _ _ _) fun _ _ => ?_
  split
  · exact Takes.request_then (B := 6000) (C := 0) (span_plain (by decide)) fun _ => .ret
  · exact .ret

theorem takes_form (L : Nat → Nat) (v : Int) (o : Options) : Takes L (formNetwork v o) 484000 := by
  refine Takes.bind (B := 478000) (C := 6000) (takes_startZnp _ _ _ _ _) fun _ _ => ?_
  exact Takes.ite (.spawn (b := 0)
    (span_plain (sub := .UTIL) (command := "ledControl")
      (payload := [("ledid", .int 3), ("mode", .int ledOff)]) (by decide)) .ret) .ret

/-- What `startup` does once it is connected. -/
theorem takes_startup (o : Options) (autoForm : Bool) : ∃ k, startup o autoForm = .call .connect k ∧
    ∀ L r, Takes L (k r) 502000 := by
  refine ⟨_, rfl, fun L r => ?_⟩
  rcases r with e | a
  · exact .raise
  show Takes L (Prog.bind (Prog.tryExcept _ _) _) _
  refine Takes.bind (B := 6000) (C := 496000) ?_ fun L _ =>
    Takes.request_then (B := 6000) (C := 490000) (span_plain ?_) fun _ =>
    Takes.field_then fun _ => .semaphore (Takes.lift_then fun _ =>
      Takes.bind (B := 484000) (C := 6000) ?_ fun _ _ => Takes.request_then (B := 6000) (C := 0)
        (span_plain ?_) fun _ => Takes.field_then fun _ => Takes.field_then fun _ =>
          .coordinator .ret)
  · refine Takes.tryExcept (B := 6000) (C := 0) (Takes.op_request (span_plain (by decide))) ?_
    intro L' e q hq
    split at hq <;> cases hq
    exact .raise
  · decide
  · unfold autoFormNetwork
    split
    · exact takes_form _ _ _
    · exact .ret
  · decide

end Zcc
