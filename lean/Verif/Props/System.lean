import Verif.Proofs.System
import Verif.Props.Reports
import Verif.Props.Boot
import Verif.Props.AppRestart

/-!
# C93: start-up in the whole driver

`startup` runs next to zigpy's calls, in a driver that has been used before.
-/

namespace Zcc

open Spec

/-- C93: whatever the driver with `startup` does is an execution of the driver, in which `startup` makes
requests without response waiters, waiters without transaction numbers, the API object, the semaphore and the
coordinator's entry, and nothing else. So what is proved of all executions of the driver holds while
`startup` runs. -/
theorem c93_driver (es0 : List DriverEvent) (o : Options) (autoForm : Bool) (es : List SystemEvent) :
    ∃ ds, Merged ((Driver.init.run es0).sys.cur + 1) es ds ∧
      ((System.init (Driver.init.run es0) o autoForm).run es).driver = Driver.init.run (es0 ++ ds) := by
  obtain ⟨evs, -, j⟩ := joint_init (F := False) (startup o autoForm) es0 _ (Nat.lt_succ_self _) False.elim
  obtain ⟨ds, more, h1, h2, -⟩ :=
    system_run es (s := System.init (Driver.init.run es0) o autoForm) j False.elim
  exact ⟨ds, h1, by rw [driver_run_append, h2]; rfl⟩

/-- C93: and what `startup` does is an execution of its coroutine on the API object, by the same steps. If no
call from before the connection gets its turn after it, its waiters are its own. So what is proved of all
executions of `startup` holds in the driver. -/
theorem c93_startup (es0 : List DriverEvent) (o : Options) (autoForm : Bool) (es : List SystemEvent) :
    let s := (System.init (Driver.init.run es0) o autoForm).run es
    let port := (Driver.init.run es0).sys.cur + 1
    ∃ evs, Client.run (startup o autoForm) evs =
        { api := s.driver.sys.api port, prog := s.prog, hist := s.hist, pend := s.pend, limit := s.limit
          spawned := s.spawned } ∧
      ownSteps evs = startupSteps es ∧
      ((∀ ob w e, .sys (.api port (.submit ob (some w) e)) ∉ es0) →
        NoStale (System.init (Driver.init.run es0) o autoForm) es → Unshared evs s.hist) := by
  dsimp only
  obtain ⟨evs, h0, j⟩ := joint_init
    (F := (∀ ob w e, .sys (.api ((Driver.init.run es0).sys.cur + 1) (.submit ob (some w) e)) ∉ es0) ∧
      NoStale (System.init (Driver.init.run es0) o autoForm) es)
    (startup o autoForm) es0 _ (Nat.lt_succ_self _) (fun h => h.1)
  obtain ⟨ds, more, -, -, h3, h4, j'⟩ :=
    system_run es (s := System.init (Driver.init.run es0) o autoForm) j (fun h => h.2)
  refine ⟨evs ++ more, ?_, ?_, fun ha hb => j'.unshared ⟨ha, hb⟩⟩
  · have := j'.run
    unfold System.coroutine at this
    rw [h4] at this
    exact this.symm
  · rw [ownSteps_append, h0, h3]; rfl

/-- C93, in part: the operations of `startup` follow each other in the log of its API object, with what
answers them, and a wait returns what it asks for. Missing: calls from before the connection that get their
turn after it, see `c93_stale_refuted`. -/
theorem c93_traced_partial (es0 : List DriverEvent) (o : Options) (autoForm : Bool) (es : List SystemEvent)
    (h0 : ∀ ob w e, .sys (.api ((Driver.init.run es0).sys.cur + 1) (.submit ob (some w) e)) ∉ es0)
    (h : NoStale (System.init (Driver.init.run es0) o autoForm) es) :
    let s := (System.init (Driver.init.run es0) o autoForm).run es
    Runs (startup o autoForm) s.hist ∧ (∀ a ∈ s.hist, Genuine a) ∧ Faithful s.hist ∧
      ∃ past rest, (s.driver.sys.api ((Driver.init.run es0).sys.cur + 1)).log = past ++ rest ∧
        Traced past s.hist := by
  dsimp only
  obtain ⟨evs, h1, -, h2⟩ := c93_startup es0 o autoForm es
  have hu := h2 h0 h
  have e : (Client.run (startup o autoForm) evs).hist =
      ((System.init (Driver.init.run es0) o autoForm).run es).hist := by rw [h1]
  rw [← e] at hu
  obtain ⟨past, rest, p1, p2, p3⟩ := c60_traced _ evs hu
  obtain ⟨g1, g2⟩ := c43_genuine _ evs hu
  rw [e] at p2 p3 g1 g2
  rw [h1] at p1
  exact ⟨g1, g2, p3, past, rest, p1, p2⟩

/-- C93: what `startup` leaves behind: each connection is the application's API from then on, each semaphore has
the places for the kind of radio that the version response before it reported, and decides for new calls. Nothing
else makes or replaces any. -/
theorem c93_made (es0 : List DriverEvent) (o : Options) (autoForm : Bool) (es : List SystemEvent) :
    let d := Driver.init.run es0
    let s := (System.init d o autoForm).run es
    s.driver.sys.cur = d.sys.cur + connections s.hist ∧
    s.driver.sys.nsem = d.sys.nsem + (semaphoresFor none s.hist).length ∧
    (∀ i p, (semaphoresFor none s.hist)[i]? = some p →
      s.driver.sys.limit (d.sys.nsem + i) = if p = 1 then 16 else 2) ∧
    s.driver.app.product = (semaphoresFor none s.hist).getLast?.or d.app.product := by
  have h := made_run es (d := Driver.init.run es0) (s := System.init (Driver.init.run es0) o autoForm)
    ⟨rfl, rfl, fun i p hp => (nomatch hp), rfl⟩
  exact ⟨h.cur, h.nsem, h.limit, h.product⟩

/-- C93: and the coordinator: when `startup` has entered it, it is in the table with its address; it stays in the
table unless zigpy changes it, and so do the devices that were there before. -/
theorem c93_coordinator (es0 : List DriverEvent) (o : Options) (autoForm : Bool) (es : List SystemEvent) :
    let s := (System.init (Driver.init.run es0) o autoForm).run es
    (∀ e ieee nwk, (s.step e).hist = s.hist ++ [⟨.coordinator (.eui ieee) (.int nwk), .ok ()⟩] →
      ∃ x ∈ (s.step e).driver.app.devices, x.ieee = ieee ∧ x.nwk = nwk) ∧
    ((∀ ds, .driver (.devices ds) ∉ es) → ∀ ieee nwk, ⟨.coordinator (.eui ieee) (.int nwk), .ok ()⟩ ∈ s.hist →
      ieee ∈ s.driver.app.devices.map (·.ieee)) ∧
    ((∀ ds, .driver (.devices ds) ∉ es) → ∀ x ∈ (Driver.init.run es0).app.devices,
      x.ieee ∈ s.driver.app.devices.map (·.ieee)) := by
  dsimp only
  generalize hs : (System.init (Driver.init.run es0) o autoForm).run es = s
  refine ⟨fun e ieee nwk hh => ?_, fun hn => ?_, fun hn x hx => ?_⟩
  · have ne : ∀ l : List Act, ∀ a, l ≠ l ++ [a] := fun l a h => by simpa using congrArg List.length h
    cases e with
    | driver e =>
      have same : (s.step (.driver e)).hist = s.hist := by
        cases e with
        | sys ev => cases ev <;> rfl
        | _ => rfl
      exact absurd (same.symm.trans hh) (ne _ _)
    | startup e =>
      obtain ⟨d, -, ⟨h1, -⟩ | ⟨a, h1, h2⟩⟩ := startup_learns s e
      · exact absurd (h1.symm.trans hh) (ne _ _)
      · rw [hh] at h1
        obtain rfl := (List.cons.inj (List.append_cancel_left h1)).1
        rw [h2]
        exact handleJoin_address d.app nwk ieee
  · rw [← hs]
    exact enrolled_run es hn fun _ _ hm => by cases hm
  · rw [← hs]
    exact kept_run es _ hn _ (List.mem_map.mpr ⟨x, hx, rfl⟩)

/-! ## Executions -/

/-- Events of a coroutine in the driver: frames come from the port, each in two pieces. -/
def inDriver (port : Nat) (evs : List ClientEvent) : List SystemEvent :=
  evs.flatMap fun
    | .api (.frame f) => [.driver (.bytes port ((wire f).take 2)), .driver (.bytes port ((wire f).drop 2))]
    | .api (.setUart _) => []
    | .api e => [.driver (.sys (.api port e))]
    | e => [.startup e]

/-- A first connection: two of zigpy's calls are in the API, one waits behind them with the waiter 16. -/
def exSecondPort : List DriverEvent :=
  [.sys .newApi, .sys (.newSemaphore 0)] ++ List.replicate 17 (.sys (.call exToggle)) ++
    [.sys (.enter 0), .sys (.enter 1)] ++ (List.range 14).map fun n => .sys (.cancel (n + 2))

/-- A whole start-up on the second connection. -/
theorem inDriver_done :
    Radio.done () ((System.init (Driver.init.run exSecondPort) exampleOptions true).run
      (inDriver 2 exampleStartup)).prog = true ∧
    ((System.init (Driver.init.run exSecondPort) exampleOptions true).run
      (inDriver 2 exampleStartup)).driver.sys.nsem = 2 := by decide +kernel

/-- The second semaphore, made by the start-up, has 16 places. -/
example :
    let d := ((System.init (Driver.init.run exSecondPort) exampleOptions true).run (inDriver 2 exampleStartup)).driver
    d.sys.cur = 2 ∧ d.sys.limit 1 = 16 ∧ d.app.devices.map (fun x => (x.ieee, x.nwk)) = [([1, 2, 3, 4, 5, 6, 7, 8], 0)] ∧
      ∃ ds, Merged 2 (inDriver 2 exampleStartup) ds ∧ d = Driver.init.run (exSecondPort ++ ds) :=
  ⟨by decide +kernel, by decide +kernel, by decide +kernel, c93_driver exSecondPort exampleOptions true (inDriver 2 exampleStartup)⟩

/-- The second semaphore has 16 places because the radio reported product 1. -/
example :
    let s := (System.init (Driver.init.run exSecondPort) exampleOptions true).run (inDriver 2 exampleStartup)
    semaphoresFor none s.hist = [1] ∧ s.driver.sys.limit 1 = 16 ∧ s.driver.app.product = some 1 := by
  have h1 : (Driver.init.run exSecondPort).sys.nsem = 1 ∧
      semaphoresFor none ((System.init (Driver.init.run exSecondPort) exampleOptions true).run
        (inDriver 2 exampleStartup)).hist = [1] := by decide +kernel
  have h := c93_made exSecondPort exampleOptions true (inDriver 2 exampleStartup)
  dsimp only at h ⊢
  generalize (System.init (Driver.init.run exSecondPort) exampleOptions true).run (inDriver 2 exampleStartup) = s
    at h h1 ⊢
  obtain ⟨-, -, h2, h3⟩ := h
  have h2 := h2 0 1 (by rw [h1.2]; rfl)
  rw [h1.1] at h2
  rw [h1.2] at h3
  exact ⟨h1.2, h2, h3⟩

def hasCoordinator (ieee : List UInt8) (h : List Act) : Bool :=
  h.any fun
    | ⟨.coordinator (.eui i) (.int _), .ok _⟩ => decide (i = ieee)
    | _ => false

theorem hasCoordinator_of {ieee : List UInt8} {h : List Act} (hc : hasCoordinator ieee h = true) :
    ∃ nwk, (⟨.coordinator (.eui ieee) (.int nwk), .ok ()⟩ : Act) ∈ h := by
  obtain ⟨a, ha, hv⟩ := List.any_eq_true.mp hc
  split at hv
  · cases of_decide_eq_true hv
    exact ⟨_, ha⟩
  · cases hv

/-- The coordinator is in the table after the whole start-up. -/
example : [1, 2, 3, 4, 5, 6, 7, 8] ∈ ((System.init (Driver.init.run exSecondPort) exampleOptions true).run
    (inDriver 2 exampleStartup)).driver.app.devices.map (·.ieee) := by
  have h1 : hasCoordinator [1, 2, 3, 4, 5, 6, 7, 8] ((System.init (Driver.init.run exSecondPort)
      exampleOptions true).run (inDriver 2 exampleStartup)).hist = true ∧
      ((inDriver 2 exampleStartup).all fun
        | .driver (.devices _) => false
        | _ => true) = true := by decide +kernel
  obtain ⟨nwk, hm⟩ := hasCoordinator_of h1.1
  have h := (c93_coordinator exSecondPort exampleOptions true (inDriver 2 exampleStartup)).2.1 (fun ds hd => by
    have := List.all_eq_true.mp h1.2 _ hd
    cases this) _ _ hm
  exact h

def noLent (port : Nat) (es0 : List DriverEvent) : Bool :=
  es0.all fun
    | .sys (.api i (.submit _ (some _) _)) => i != port
    | _ => true

theorem noLent_of {port : Nat} {es0 : List DriverEvent} (h : noLent port es0 = true) :
    ∀ ob w e, .sys (.api port (.submit ob (some w) e)) ∉ es0 := by
  intro ob w e hm
  have := List.all_eq_true.mp h _ hm
  simp at this

def ofDriver (es : List SystemEvent) : List DriverEvent :=
  es.filterMap fun
    | .driver e => some e
    | .startup _ => none

def noneStale : System → List SystemEvent → Bool
  | _, [] => true
  | s, e :: es =>
    (match e with
      | .driver (.sys (.enter n)) =>
        s.driver.sys.cur != s.port || match s.driver.sys.tasks[n]? with
          | some k => match k.pc with
            | .waiting _ (some (j, _)) => j == s.port
            | _ => true
          | none => true
      | _ => true) && noneStale (s.step e) es

theorem noStale_of {s : System} {es : List SystemEvent} (h1 : noLent s.port (ofDriver es) = true)
    (h2 : noneStale s es = true) : NoStale s es := by
  refine ⟨fun o w e hm => noLent_of h1 o w e (List.mem_filterMap.mpr ⟨_, hm, rfl⟩), ?_⟩
  clear h1
  induction es generalizing s with
  | nil => intro before n after he; cases before <;> cases he
  | cons e es ih =>
    intro before n after he k o j w hc hk hp
    unfold noneStale at h2
    obtain ⟨h3, h4⟩ := Bool.and_eq_true_iff.mp h2
    cases before with
    | nil =>
      cases he
      have hc : s.driver.sys.cur = s.port := hc
      have hk : s.driver.sys.tasks[n]? = some k := hk
      simp only [hk, hp, hc] at h3
      simpa using h3
    | cons x before =>
      cases he
      have := ih h4 before n after rfl k o j w
      rw [system_port] at this
      exact this hc hk hp

/-- While `startup` waits for the network, a call is made and accepted. -/
def exBusy : List SystemEvent :=
  inDriver 2 (exampleStartup.take 71) ++
    [.driver (.sys (.call exToggle)), .driver (.sys (.enter 17)), .driver (.bytes 2 (wire (exDataRsp 0))),
     .driver (.sys (.api 2 (.wake 17)))] ++ inDriver 2 ((exampleStartup.drop 71).take 5)

theorem exBusy_calm :
    noLent 2 exSecondPort = true ∧ noLent 2 (ofDriver exBusy) = true ∧
    noneStale (System.init (Driver.init.run exSecondPort) exampleOptions true) exBusy = true ∧
    (Driver.init.run exSecondPort).sys.cur = 1 := by decide +kernel

/-- `startup` has waited and goes on; the call is over. -/
example :
    let s := (System.init (Driver.init.run exSecondPort) exampleOptions true).run exBusy
    s.hist.length = 21 ∧ Faithful s.hist ∧ ∀ a ∈ s.hist, Genuine a := by
  have h := c93_traced_partial exSecondPort exampleOptions true exBusy
    (by rw [exBusy_calm.2.2.2]; exact noLent_of exBusy_calm.1)
    (noStale_of (by
      show noLent ((Driver.init.run exSecondPort).sys.cur + 1) _ = true
      rw [exBusy_calm.2.2.2]; exact exBusy_calm.2.1) exBusy_calm.2.2.1)
  exact ⟨by decide +kernel, h.2.2.1, h.2.1⟩

example : ∃ evs, ownSteps evs = startupSteps exBusy ∧
    Unshared evs (Client.run (startup exampleOptions true) evs).hist := by
  obtain ⟨evs, h1, h2, h3⟩ := c93_startup exSecondPort exampleOptions true exBusy
  have hu := h3 (by rw [exBusy_calm.2.2.2]; exact noLent_of exBusy_calm.1)
    (noStale_of (by
      show noLent ((Driver.init.run exSecondPort).sys.cur + 1) _ = true
      rw [exBusy_calm.2.2.2]; exact exBusy_calm.2.1) exBusy_calm.2.2.1)
  generalize (System.init (Driver.init.run exSecondPort) exampleOptions true).run exBusy = s at h1 hu
  exact ⟨evs, h2, by rw [h1]; exact hu⟩

/-! ## A call from before -/

/-- `startup` waits for the network, the waiter is number 16 of the new API object. A call in the old API times
out, the call behind it gets its turn: it passes its own waiter 16, of the old API object, to the new one. The
radio refuses this call. -/
def exStolen : List SystemEvent :=
  inDriver 2 (exampleStartup.take 71) ++ inDriver 2 ((exampleStartup.drop 72).take 3) ++
    [.driver (.sys (.api 1 (.tick 6000))), .driver (.sys (.api 1 (.timeout 0))), .driver (.sys (.enter 16)),
     .driver (.bytes 2 (wire (exDataRsp 0xE9))), .driver (.sys (.api 2 (.wake 17))), .startup .go]

/-- A wait has returned another kind of message than it asked for. -/
def stolen : List Act → Bool
  | ⟨.waitFor m _, .ok (w : Nat)⟩ :: rest => rest.any (fun
      | ⟨.wait v, .ok (o : Obj)⟩ => decide (v = w ∧ o.commandType ≠ m.commandType)
      | _ => false) || stolen rest
  | _ :: rest => stolen rest
  | [] => false

theorem stolen_unfaithful {h : List Act} (hs : stolen h = true) : ¬ Faithful h := by
  intro hf
  suffices ∃ before m timeout w between o after,
      h = before ++ ⟨.waitFor m timeout, .ok w⟩ :: between ++ ⟨.wait w, .ok o⟩ :: after ∧
        o.commandType ≠ m.commandType by
    obtain ⟨before, m, timeout, w, between, o, after, he, hn⟩ := this
    exact hn (hf before m timeout w between o after he).1.symm
  clear hf
  induction h with
  | nil => cases hs
  | cons a rest ih =>
    unfold stolen at hs
    have later : stolen rest = true → ∃ before m timeout w between o after,
        a :: rest = before ++ ⟨.waitFor m timeout, .ok w⟩ :: between ++ ⟨.wait w, .ok o⟩ :: after ∧
          o.commandType ≠ m.commandType := fun hs => by
      obtain ⟨before, m, timeout, w, between, o, after, he, hn⟩ := ih hs
      exact ⟨a :: before, m, timeout, w, between, o, after, by rw [he]; rfl, hn⟩
    split at hs
    · rename_i m to w rest' heq
      cases heq
      rcases Bool.or_eq_true_iff.mp hs with hs | hs
      · obtain ⟨x, hx, hv⟩ := List.any_eq_true.mp hs
        split at hv
        · obtain ⟨rfl, hn⟩ := of_decide_eq_true hv
          obtain ⟨between, after, rfl⟩ := List.append_of_mem hx
          exact ⟨[], m, to, _, between, _, after, rfl, hn⟩
        · cases hv
      · exact later hs
    · rename_i heq; cases heq; exact later hs
    · rename_i heq; cases heq

/-- C93 fails with calls from before the connection, even if only zigpy's calls use response waiters: such a
call passes the number of a waiter of the old API object to the new one (application.py:243-249), if it is
refused the new one gives the refusal to its own waiter of this number (api.py:147-148), and `startup` goes on
although the radio did not report that the network runs. -/
theorem c93_stale_refuted : ¬ ∀ (es0 : List DriverEvent) (o : Options) (autoForm : Bool) (es : List SystemEvent),
    (∀ i ob w e, .sys (.api i (.submit ob (some w) e)) ∉ es0) →
    (∀ i ob w e, .driver (.sys (.api i (.submit ob (some w) e))) ∉ es) →
    Faithful ((System.init (Driver.init.run es0) o autoForm).run es).hist := by
  intro h
  have none : ∀ es0 : List DriverEvent, (es0.all fun
      | .sys (.api _ (.submit _ (some _) _)) => false
      | _ => true) = true → ∀ i ob w e, .sys (.api i (.submit ob (some w) e)) ∉ es0 := by
    intro es0 h i ob w e hm
    have := List.all_eq_true.mp h _ hm
    cases this
  refine stolen_unfaithful (h := ((System.init (Driver.init.run exSecondPort) exampleOptions true).run exStolen).hist)
    (by decide +kernel) (h exSecondPort exampleOptions true exStolen (none _ (by decide +kernel)) ?_)
  intro i ob w e hm
  exact none (ofDriver exStolen) (by decide +kernel) i ob w e (List.mem_filterMap.mpr ⟨_, hm, rfl⟩)

/-! ## C94: several start-ups -/

/-- C94: a driver that is started any number of times, with calls, bytes and time-outs at all times, is in a state
of the driver as it is modelled without start-up; so everything that is proved of all executions of the driver
holds, and C93 holds of each start-up. -/
theorem c94_history (ss : List Session) : ∃ ds, Driver.sessions ss = Driver.init.run ds := by
  suffices ∀ (ss : List Session) (d : Driver), (∃ ds, d = Driver.init.run ds) →
      ∃ ds, ss.foldl (fun d x => ((System.init d x.options x.autoForm).run x.events).driver) d =
        Driver.init.run ds from this ss Driver.init ⟨[], rfl⟩
  intro ss
  induction ss with
  | nil => intro d h; exact h
  | cons x ss ih =>
    rintro _ ⟨es0, rfl⟩
    obtain ⟨ds, -, h⟩ := c93_driver es0 x.options x.autoForm x.events
    exact ih _ ⟨_, h⟩

/-- C94: later start-ups lose no call: a call that was begun is still there, it has the semaphore it had, and
if it had ended it has the same result. -/
theorem c94_calls_live_on (ss later : List Session) (n : Nat) (k : AppTask)
    (hk : (Driver.sessions ss).sys.tasks[n]? = some k) :
    ∃ k', (Driver.sessions (ss ++ later)).sys.tasks[n]? = some k' ∧ SameCall k k' := by
  suffices ∀ rs : List Session, ∃ k', (Driver.sessions (ss ++ rs.reverse)).sys.tasks[n]? = some k' ∧ SameCall k k' by
    have := this later.reverse
    rwa [List.reverse_reverse] at this
  intro rs
  induction rs with
  | nil => exact ⟨k, by rw [List.reverse_nil, List.append_nil]; exact hk, .refl k⟩
  | cons y rs ih =>
    obtain ⟨k1, h1, h2⟩ := ih
    rw [List.reverse_cons, ← List.append_assoc, sessions_snoc]
    obtain ⟨es0, e⟩ := c94_history (ss ++ rs.reverse)
    rw [e] at h1 ⊢
    obtain ⟨ds, -, e2⟩ := c93_driver es0 y.options y.autoForm y.events
    rw [e2, driver_run_append, driver_run_sys]
    obtain ⟨k2, h3, h4⟩ := sameCall_run _ _ k1 h1
    exact ⟨k2, h3, h2.trans h4⟩

/-- C94: start-up, zigpy's calls and the LED share the line: on each connection a request is written only after
the one before has finished. -/
theorem c94_one_at_a_time (ss : List Session) (i t1 t2 : Nat) (b1 b2 : List UInt8)
    (h : [Entry.sent t1 b1, .sent t2 b2].Sublist ((Driver.sessions ss).sys.api i).log) :
    ∃ r, [Entry.sent t1 b1, .finished t1 r, .sent t2 b2].Sublist ((Driver.sessions ss).sys.api i).log := by
  obtain ⟨ds, e⟩ := c94_history ss
  rw [e, driver_run_sys] at h ⊢
  obtain ⟨es, he⟩ := (ainv_run (Driver.init.trace ds)).proj i
  have he : (Driver.init.sys.run (Driver.init.trace ds)).api i = Api.init.run es := he
  rw [he] at h ⊢
  exact c18_one_at_a_time es t1 t2 b1 b2 h

/-- C94: of the calls that begin after a start-up made its semaphore and before the next one, never more than 16
(radio of product 1) or 2 are past it at the same time; neither are there more of them later. -/
theorem c94_bounded (ss : List Session) (x : Session) (later : List Session) (i : Nat) (p : Int)
    (h : (semaphoresFor none ((System.init (Driver.sessions ss) x.options x.autoForm).run x.events).hist)[i]? = some p) :
    (Driver.sessions (ss ++ x :: later)).sys.tasks.countP
      (fun k => k.sem == (Driver.sessions ss).sys.nsem + i && PastGate k) ≤ if p = 1 then 16 else 2 := by
  have key : ∀ (later : List Session),
      (Driver.sessions ss).sys.nsem + i < (Driver.sessions (ss ++ x :: later)).sys.nsem ∧
      (Driver.sessions (ss ++ x :: later)).sys.limit ((Driver.sessions ss).sys.nsem + i) = if p = 1 then 16 else 2 := by
    intro later
    suffices ∀ rs : List Session,
        (Driver.sessions ss).sys.nsem + i < (Driver.sessions (ss ++ x :: rs.reverse)).sys.nsem ∧
        (Driver.sessions (ss ++ x :: rs.reverse)).sys.limit ((Driver.sessions ss).sys.nsem + i) =
          if p = 1 then 16 else 2 by
      have := this later.reverse
      rwa [List.reverse_reverse] at this
    intro rs
    induction rs with
    | nil =>
      rw [List.reverse_nil, sessions_snoc]
      obtain ⟨es0, e⟩ := c94_history ss
      rw [e] at h ⊢
      obtain ⟨-, h2, h3, -⟩ := c93_made es0 x.options x.autoForm x.events
      have hlt : i < (semaphoresFor none ((System.init (Driver.init.run es0) x.options x.autoForm).run
          x.events).hist).length := (List.getElem?_eq_some_iff.mp h).1
      exact ⟨by rw [h2]; omega, h3 i p h⟩
    | cons y rs ih =>
      rw [List.reverse_cons, ← List.cons_append, ← List.append_assoc, sessions_snoc]
      obtain ⟨es0, e⟩ := c94_history (ss ++ x :: rs.reverse)
      rw [e] at ih ⊢
      obtain ⟨ds, -, e2⟩ := c93_driver es0 y.options y.autoForm y.events
      rw [e2, driver_run_append, driver_run_sys]
      obtain ⟨h1, h2⟩ := limits_kept ((Driver.init.run es0).trace ds) (Driver.init.run es0).sys _ ih.1
      exact ⟨h1, h2.trans ih.2⟩
  have hl := (key later).2
  obtain ⟨ds, e⟩ := c94_history (ss ++ x :: later)
  rw [e, driver_run_sys] at hl ⊢
  have inv := ainv_run (Driver.init.trace ds)
  generalize (Driver.sessions ss).sys.nsem + i = g at hl ⊢
  have hl : (AppSys.init.run (Driver.init.trace ds)).limit g = _ := hl
  show (AppSys.init.run (Driver.init.trace ds)).tasks.countP _ ≤ _
  rw [← hl, ← inv.sem g]
  have : (AppSys.init.run (Driver.init.trace ds)).tasks.countP (fun k => k.sem == g && PastGate k) =
      (AppSys.init.run (Driver.init.trace ds)).tasks.countP (AppTask.inside g) := by
    apply List.countP_congr
    intro k hk
    rw [inside_iff, past_eq inv hk]
    simp
  omega

/-! ## Executions -/

/-- Seventeen calls that all try to get past the semaphore; the first has the number `n`. -/
def exCalls (n : Nat) : List SystemEvent :=
  List.replicate 17 (.driver (.sys (.call exToggle))) ++
    (List.range 17).map fun k => .driver (.sys (.enter (n + k)))

/-- A first start-up, then 17 calls. -/
def exFirst : Session := ⟨exampleOptions, true, inDriver 1 exampleStartup ++ exCalls 0⟩

/-- The port was lost: a second start-up, then 17 calls. -/
def exSecond : Session := ⟨exampleOptions, true, inDriver 2 exampleStartup ++ exCalls 17⟩

/-- The last request of the second start-up, and the first of the calls after it. -/
def exLastOfStartup : List UInt8 := [254, 0, 39, 0, 39]
def exFirstCall : List UInt8 := [254, 13, 36, 1, 52, 18, 1, 1, 6, 0, 7, 0, 30, 3, 1, 7, 2, 22]

set_option maxRecDepth 20000 in
theorem exSessions :
    (Driver.sessions [exFirst]).sys.nsem = 1 ∧
    semaphoresFor none ((System.init (Driver.sessions [exFirst]) exSecond.options exSecond.autoForm).run
      exSecond.events).hist = [1] ∧
    (let d := Driver.sessions [exFirst, exSecond]
    (d.sys.tasks.countP fun k => k.sem == 0 && PastGate k) = 16 ∧
    (d.sys.tasks.countP fun k => k.sem == 1 && PastGate k) = 16 ∧ d.sys.tasks.length = 34 ∧
    [Entry.sent 36 exLastOfStartup, .sent 37 exFirstCall].Sublist (d.sys.api 2).log) := by decide +kernel

/-- The last request of start-up had finished when the first call was written. -/
example : ∃ r, [Entry.sent 36 exLastOfStartup, .finished 36 r, .sent 37 exFirstCall].Sublist
    ((Driver.sessions [exFirst, exSecond]).sys.api 2).log :=
  c94_one_at_a_time [exFirst, exSecond] 2 36 37 _ _ exSessions.2.2.2.2.2

/-- After two start-ups the driver is in a state of the driver without start-up, and 32 calls are past a
semaphore, 16 for each of the two (see C40). -/
example : (∃ ds, Driver.sessions [exFirst, exSecond] = Driver.init.run ds) ∧
    ((Driver.sessions [exFirst, exSecond]).sys.tasks.countP fun k => k.sem == 0 && PastGate k) = 16 ∧
    ((Driver.sessions [exFirst, exSecond]).sys.tasks.countP fun k => k.sem == 1 && PastGate k) = 16 :=
  ⟨c94_history _, exSessions.2.2.1, exSessions.2.2.2.1⟩

/-- However many start-ups follow, never more than 16 calls are past the second semaphore. -/
example (later : List Session) : ((Driver.sessions ([exFirst] ++ exSecond :: later)).sys.tasks.countP
    fun k => k.sem == 1 && PastGate k) ≤ 16 := by
  have h := c94_bounded [exFirst] exSecond later 0 1
  rw [exSessions.2.1, exSessions.1] at h
  exact h rfl

/-- The 17th call of the first session, which waits for the first semaphore, is there in the second session. -/
example : ∃ k', (Driver.sessions ([exFirst] ++ [exSecond])).sys.tasks[16]? = some k' ∧ k'.sem = 0 := by
  have h : ((Driver.sessions [exFirst]).sys.tasks[16]?.map (·.sem)) = some 0 := by decide +kernel
  obtain ⟨k, hk, hs⟩ := Option.map_eq_some_iff.mp h
  obtain ⟨k', h1, h2⟩ := c94_calls_live_on [exFirst] [exSecond] 16 k hk
  exact ⟨k', h1, h2.sem.trans hs⟩

end Zcc
