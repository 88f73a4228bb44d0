import Verif.Proofs.AppBounded
import Verif.Props.Requests
import Verif.Props.Bounded
import Verif.Props.Pause

/-!
# C73: when the calls of the application end

`Spec.workLeft` is the work that is left at a moment: the limits of the requests that have not ended
and what the calls of the application still need. `Spec.AppKeepsUp` says that the event loop does
what can be done before time passes.
-/

namespace Zcc
open Spec

theorem limit_pos (es : List AppEvent) :
    ∀ g < (AppSys.init.run es).nsem, 0 < (AppSys.init.run es).limit g := by
  intro g hg
  have hlim := limits_run es
  rw [hlim.1] at hg
  have h2 := hlim.2 g _ (List.getElem?_eq_getElem hg)
  rw [h2]
  split <;> omega

theorem settled_app (es : List AppEvent) (i : Nat) : Settled ((AppSys.init.run es).api i).tasks := by
  obtain ⟨E, hE⟩ := (ainv_run es).proj i
  rw [hE]; exact settled_run settled_init E

theorem workAdded_cons (e : AppEvent) (es : List AppEvent) :
    workAdded (e :: es) = bringsApp e + workAdded es := by
  unfold workAdded
  rw [List.map_cons, List.sum_cons]
  rfl

theorem cur_step (s : AppSys) (e : AppEvent) (h : e ≠ .newApi) : (s.step e).cur = s.cur := by
  cases e with
  | api i e => rfl
  | call c =>
    show (s.begin c).cur = _
    unfold AppSys.begin
    split
    · rfl
    · split
      · rfl
      · split <;> rfl
  | enter n =>
    show (s.enter n).cur = _
    unfold AppSys.enter
    split
    · split
      · split <;> rfl
      · rfl
    · rfl
  | wakeUp n =>
    rw [AppSys.step]
    split
    · split
      · split <;> rfl
      · rfl
    · rfl
  | cancel n =>
    rw [AppSys.step]
    split
    · split <;> rfl
    · rfl
  | newApi => exact absurd rfl h
  | newSemaphore p => rfl

theorem cur_run : ∀ (es : List AppEvent) (s : AppSys), (∀ e ∈ es, e ≠ .newApi) →
    (s.run es).cur = s.cur
  | [], _, _ => rfl
  | e :: es, s, h => by
    show ((s.step e).run es).cur = _
    rw [cur_run es _ fun x hx => h x (List.mem_cons_of_mem _ hx), cur_step s e (h e List.mem_cons_self)]

theorem busy_run {n : Nat} (es2 : List AppEvent) : ∀ (D : Nat) (es1 : List AppEvent),
    AppKeepsUp es1 es2 → (∀ e ∈ es2, e ≠ .newApi) → Busy D (AppSys.init.run es1) →
    n < (AppSys.init.run es1).tasks.length → (∀ r, ¬ EndedWith (AppSys.init.run (es1 ++ es2)) n r) →
    Busy (D + workAdded es2) (AppSys.init.run (es1 ++ es2)) := by
  induction es2 with
  | nil => intro D es1 _ _ j _ _; rw [List.append_nil]; exact j
  | cons e es2 ih =>
    intro D es1 hk hnew j hn hf
    have hsplit : es1 ++ e :: es2 = (es1 ++ [e]) ++ es2 := by simp
    have hkn := List.getElem?_eq_getElem hn
    have hd : ∀ x, (AppSys.init.run es1).tasks[n].pc ≠ .done x := by
      intro x hx
      refine hf x ⟨_, ?_, hx⟩
      rw [app_run_append]
      exact done_run hx _ _ hkn
    have hstep : AppSys.init.run (es1 ++ [e]) = (AppSys.init.run es1).step e := app_run_snoc _ _ _
    have j' := j.step (ainv_run es1) (rested_run es1) (limit_pos es1) (settled_app es1 _) hkn hd e
      (hnew e List.mem_cons_self) (by
        intro ms he
        have := hk [] _ ms es2 (by rw [he]; rfl)
        rw [List.append_nil] at this
        exact ⟨this.1, fun t k w d a b => (this.2.1 t k w d a b).2, this.2.2⟩)
    rw [workAdded_cons, ← Nat.add_assoc, hsplit]
    refine ih _ (es1 ++ [e]) ?_ (fun x hx => hnew x (List.mem_cons_of_mem _ hx)) ?_ ?_ ?_
    · intro a i ms b h
      have := hk (e :: a) i ms b (by rw [h]; rfl)
      rwa [show es1 ++ e :: a = (es1 ++ [e]) ++ a by simp] at this
    · rw [hstep]; exact j'
    · rw [hstep]
      obtain ⟨k', hk', _⟩ := (app_tasks_step (ainv_run es1) e).1 n _ hkn
      exact (List.getElem?_eq_some_iff.mp hk').1
    · rw [← hsplit]; exact hf

/-- **C73.** If the event loop keeps up and the connection is not replaced, a call of the application ends
before all the work at hand is done: at any moment after the time limits of the open requests, the
requests and pauses of the open calls, and those of the calls that come in meanwhile, it has ended.
Nothing is assumed about what the radio does, about cancellations, or the port. -/
theorem c73_bounded (es1 es2 : List AppEvent) (n : Nat) (c : Call)
    (hc : IsCall (AppSys.init.run es1) n c) (hcur : AllCurrent (AppSys.init.run es1))
    (hk : AppKeepsUp es1 es2) (hnew : ∀ e ∈ es2, e ≠ .newApi)
    (hn : ((AppSys.init.run es1).api (AppSys.init.run es1).cur).now +
        workLeft (AppSys.init.run es1) + workAdded es2 <
      ((AppSys.init.run (es1 ++ es2)).api (AppSys.init.run es1).cur).now) :
    ∃ r, EndedWith (AppSys.init.run (es1 ++ es2)) n r := by
  refine Classical.byContradiction fun h => ?_
  obtain ⟨k, hkn, _⟩ := hc
  have j := busy_run es2 _ es1 hk hnew (busy_start (ainv_run es1) (dozing_run es1) hcur)
    (List.getElem?_eq_some_iff.mp hkn).1 fun r hr => h ⟨r, hr⟩
  obtain ⟨_, b, r, hl, _, hD⟩ := j
  have := hl.now
  rw [app_run_append, cur_run _ _ hnew, ← app_run_append] at this
  omega

/-- What `AppKeepsUp` asks for before time passes, as a program. -/
def appPrompt (s : AppSys) (i ms : Nat) : Bool :=
  promptly (s.api i) ms && s.tasks.all fun k => match k.pc with
    | .waiting .. => s.sem k.sem == 0
    | .sleeping j d => j != i || decide ((s.api i).now + ms ≤ d)
    | _ => true

def appPromptAt (s : AppSys) : AppEvent → Bool
  | .api i (.tick ms) => appPrompt s i ms
  | _ => true

def appKeepsUpCheck (s : AppSys) : List AppEvent → Bool
  | [] => true
  | e :: es => appPromptAt s e && appKeepsUpCheck (s.step e) es

theorem appKeepsUp_of (es2 : List AppEvent) : ∀ es1,
    appKeepsUpCheck (AppSys.init.run es1) es2 = true → AppKeepsUp es1 es2 := by
  induction es2 with
  | nil => intro es1 _ a i ms b h; simp at h
  | cons e es2 ih =>
    intro es1 h a i ms b he
    rw [appKeepsUpCheck, Bool.and_eq_true] at h
    rcases a with _ | ⟨x, a⟩
    · simp only [List.nil_append, List.cons.injEq] at he
      rw [List.append_nil]
      have h1 := h.1
      rw [he.1, appPromptAt, appPrompt, Bool.and_eq_true, List.all_eq_true] at h1
      obtain ⟨h2, h3⟩ := promptly_sound ((ainv_run es1).api i) h1.1
      refine ⟨h2, h3, fun k hk => ?_⟩
      have := h1.2 k hk
      rcases hp : k.pc with ⟨o, w⟩ | ⟨j, t⟩ | ⟨j, d⟩ | r
      · rw [hp] at this; simpa using this
      · trivial
      · rw [hp] at this
        intro hj
        subst hj
        simpa using this
      · trivial
    · simp only [List.cons_append, List.cons.injEq] at he
      have h2 := ih (es1 ++ [e]) (by rw [app_run_snoc]; exact h.2) a i ms b he.2
      rw [← he.1]
      rwa [show (es1 ++ [e]) ++ a = es1 ++ e :: a by simp] at h2

/-- Whether all calls that are at work are in the current API. -/
def allCurrent (s : AppSys) : Bool :=
  s.tasks.all fun k => match k.pc with
    | .inApi i _ | .sleeping i _ => i == s.cur
    | _ => true

theorem allCurrent_of {s : AppSys} (h : allCurrent s = true) : AllCurrent s := by
  intro k hk
  have := List.all_eq_true.mp h k hk
  rcases hp : k.pc with ⟨o, w⟩ | ⟨j, t⟩ | ⟨j, d⟩ | r
  · trivial
  · rw [hp] at this; simpa using this
  · rw [hp] at this; simpa using this
  · trivial

def restarts : List AppEvent → Bool
  | [] => false
  | .newApi :: _ => true
  | _ :: es => restarts es

theorem restarts_of {es : List AppEvent} (h : restarts es = false) : ∀ e ∈ es, e ≠ .newApi := by
  induction es with
  | nil => intro e he; cases he
  | cons x es ih =>
    intro e he hx
    subst hx
    rcases List.mem_cons.mp he with h1 | h1
    · rw [← h1] at h; cases h
    · refine ih ?_ _ h1 rfl
      cases x <;> first | exact h | cases h

/-- The silent radio and three unicasts, two of which are in the API at the beginning. -/
def exGateSilent : List AppEvent :=
  [.api 1 (.tick 6000), .api 1 (.timeout 0), .api 1 .grant, .enter 2, .api 1 (.tick 6000),
   .api 1 (.timeout 1), .api 1 .grant, .api 1 (.tick 6000), .api 1 (.timeout 2), .api 1 (.tick 1)]

example : ∃ r, EndedWith (AppSys.init.run (exGate ++ exGateSilent)) 2 r :=
  c73_bounded exGate exGateSilent 2 exToggle ⟨_, rfl, rfl⟩
    (allCurrent_of (by decide +kernel)) (appKeepsUp_of _ _ (by decide +kernel))
    (restarts_of (by decide +kernel)) (by decide +kernel)

/-- The bound of 18 s is reached: the third call is not over until then. -/
example : workLeft (AppSys.init.run exGate) = 18000 ∧ workAdded exGateSilent = 0 ∧
    ((AppSys.init.run (exGate ++ exGateSilent.take 8)).api 1).now = 18000 ∧
    ((AppSys.init.run (exGate ++ exGateSilent.take 8)).tasks.map fun k =>
      match k.pc with | .done _ => true | _ => false) = [true, true, false] := by
  decide +kernel

/-- A broadcast in its pause, while another one comes in and is answered at the last moment. -/
def exBroadcasts : List AppEvent :=
  [.api 1 (.tick 100), .call (.broadcast 260 6 1 255 0 8 [1, 8, 2] 0xFFFD), .enter 1,
   .api 1 (.tick 100), .wakeUp 0, .api 1 (.tick 5900), .api 1 (.frame (Frame.of .SRSP .AF 2 [0])),
   .api 1 (.wake 1), .api 1 (.tick 200), .wakeUp 1, .api 1 (.tick 300)]

example : ∃ r, EndedWith (AppSys.init.run ((exAll ++ exBroadcasts.take 3) ++ exBroadcasts.drop 3)) 1 r :=
  c73_bounded _ (exBroadcasts.drop 3) 1 _ ⟨_, rfl, rfl⟩
    (allCurrent_of (by decide +kernel)) (appKeepsUp_of _ _ (by decide +kernel))
    (restarts_of (by decide +kernel)) (by decide +kernel)

example : workLeft (AppSys.init.run exAll) = 200 ∧ workAdded exBroadcasts = 6200 ∧
    appKeepsUpCheck (AppSys.init.run exAll) exBroadcasts = true ∧
    ((AppSys.init.run exAll).api 1).now + 200 + 6200 <
      ((AppSys.init.run (exAll ++ exBroadcasts)).api 1).now := by
  decide +kernel

end Zcc
