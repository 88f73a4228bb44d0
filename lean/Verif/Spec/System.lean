import Verif.Spec.Client
import Verif.Model.System

/-! # Start-up in the whole driver: what the statements of C93 say -/

namespace Zcc.Spec

/-- What `startup` does in the driver: requests without a response waiter, waiters without a transaction
number and timeouts in its own API object; the new API object, the semaphore and the coordinator. -/
def OfStartup (port : Nat) : DriverEvent → Prop
  | .sys (.api i e) => i = port ∧ match e with
    | .submit _ w _ => w = none
    | .register _ _ q => q = none
    | .abandon _ | .cancel _ => True
    | .tick ms => ms = 0
    | _ => False
  | .sys .newApi | .sys (.newSemaphore _) | .devices _ => True
  | _ => False

/-- Connections and semaphores are made by `startup`. -/
def Elsewhere : DriverEvent → Prop
  | .sys .newApi | .sys (.newSemaphore _) => False
  | _ => True

/-- The events of the driver with something of `startup` instead of each of its steps. -/
inductive Merged (port : Nat) : List SystemEvent → List DriverEvent → Prop where
  | nil : Merged port [] []
  | driver (e : DriverEvent) {es ds} (he : Elsewhere e) (h : Merged port es ds) :
      Merged port (.driver e :: es) (e :: ds)
  | none (e : DriverEvent) {es ds} (he : ¬ Elsewhere e) (h : Merged port es ds) :
      Merged port (.driver e :: es) ds
  | startup (e : ClientEvent) (group : List DriverEvent) {es ds} (hg : ∀ x ∈ group, OfStartup port x)
      (h : Merged port es ds) : Merged port (.startup e :: es) (group ++ ds)

/-- The steps of `startup` itself. -/
def ownSteps (evs : List ClientEvent) : List ClientEvent :=
  evs.filter fun
    | .api _ => false
    | _ => true

/-- The steps of `startup` in an execution of the driver. -/
def startupSteps (es : List SystemEvent) : List ClientEvent :=
  ownSteps (es.filterMap fun
    | .startup e => some e
    | .driver _ => none)

/-- Nobody but zigpy's calls passes response waiters to the API object `port`; and a call that gets its turn
once the port is connected has none, or one of this API object: it did not begin before. -/
structure NoStale (s : System) (es : List SystemEvent) : Prop where
  outside : ∀ o w e, .driver (.sys (.api s.port (.submit o (some w) e))) ∉ es
  turns : ∀ before n after, es = before ++ .driver (.sys (.enter n)) :: after →
    ∀ k o j w, (s.run before).driver.sys.cur = s.port →
      (s.run before).driver.sys.tasks[n]? = some k → k.pc = .waiting o (some (j, w)) → j = s.port

/-- The number of connections. -/
def connections (h : List Act) : Nat :=
  h.countP fun
    | ⟨.connect, .ok _⟩ => true
    | _ => false

/-- The kinds of radio for which semaphores were made: what the last version response before says (`p` before
these operations). -/
def semaphoresFor (p : Option Int) : List Act → List Int
  | [] => []
  | ⟨.semaphore _, .ok _⟩ :: h => p.toList ++ semaphoresFor p h
  | ⟨.request .SYS "version" [] none, .ok (some v)⟩ :: h =>
    match v.payload.lookup "product" with
    | some (.int p') => semaphoresFor (some p') h
    | _ => semaphoresFor p h
  | _ :: h => semaphoresFor p h

/-- The same call later: it took the same semaphore, and if it had ended it has the same result. -/
structure SameCall (k k' : AppTask) : Prop where
  call : k'.call = k.call
  sem : k'.sem = k.sem
  ended : ∀ r, k.pc = .done r → k' = k

end Zcc.Spec
