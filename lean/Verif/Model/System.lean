import Verif.Model.Driver
import Verif.Model.Boot

/-!
# Start-up in the whole driver: application.py:88-117, next to zigpy's calls

`Verif/Model/Driver.lean` has the ports, API objects and zigpy's calls, and start-up only as events;
`Verif/Model/Boot.lean` has start-up with its own API object. Here the coroutine `startup` runs in the
driver.
-/

namespace Zcc

/-- A driver in which `startup` runs: what remains to be done, the operations that have ended and so on as
in `Client`; `port` is the number of the API object that `API.new` makes for it.
Simplification: one start-up at a time (as in the loop of `reconnect`, application.py:73-86). -/
structure System where
  driver : Driver := Driver.init
  port : Nat
  prog : Prog Unit
  hist : List Act := []
  pend : Pend := .idle
  limit : Nat → Nat := fun _ => 0
  spawned : List (Subsystem × String × Payload) := []

/-- The events. -/
inductive SystemEvent where
  /-- anything that happens elsewhere in the driver: bytes, zigpy's calls, timers, ... -/
  | driver (e : DriverEvent)
  /-- `startup` goes on (see `ClientEvent`) -/
  | startup (e : ClientEvent)

/-- `startup` with the API object it uses. -/
def System.coroutine (s : System) : Client Unit :=
  { api := s.driver.sys.api s.port, prog := s.prog, hist := s.hist, pend := s.pend, limit := s.limit
    spawned := s.spawned }

/-- The `i`th API object has changed; calls whose API call is over go on. -/
def Driver.put (d : Driver) (i : Nat) (a : Api) : Driver :=
  { d with sys := AppSys.settle { d.sys with api := upd d.sys.api i a } }

/-- What `startup` does to the application when an operation has ended, after the operations `h`: it makes
the semaphore (application.py:101-104) and enters the coordinator in the table of devices
(application.py:117). `self.version` (application.py:99) is set with the semaphore here, as in
`Driver.step`: in the program nothing can happen in between. -/
def Driver.learn (h : List Act) (d : Driver) : Act → Driver
  | ⟨.semaphore _, .ok _⟩ =>
    match (h.foldl App.learn {}).product with
    | some p => d.step (.sys (.newSemaphore p))
    | none => d
  | ⟨.coordinator (.eui ieee) (.int nwk), .ok _⟩ => d.step (.devices (d.app.handleJoin nwk ieee).devices)
  | _ => d

/-- `API.new` returns (application.py:92): the application has a new `_api`. -/
def System.attach (s : System) : ClientEvent → Driver
  | .connected (.ok _) =>
    match s.prog with
    | .call .connect _ => s.driver.step (.sys .newApi)
    | _ => s.driver
  | _ => s.driver

/-- One event. Connections and semaphores are made by `startup` only, its API calls are its own. -/
def System.step (s : System) : SystemEvent → System
  | .driver (.sys .newApi) => s
  | .driver (.sys (.newSemaphore _)) => s
  | .driver e => { s with driver := s.driver.step e }
  | .startup (.api _) => s
  | .startup e =>
    let d := s.attach e
    let c := { s with driver := d }.coroutine.step e
    { s with
      driver := (c.hist.drop s.hist.length).foldl (Driver.learn c.hist) (d.put s.port c.api)
      prog := c.prog, hist := c.hist, pend := c.pend, limit := c.limit, spawned := c.spawned }

/-- An execution. -/
def System.run (s : System) (es : List SystemEvent) : System := es.foldl System.step s

/-- `startup` of the application is called, application.py:88, whatever the driver has done before. -/
def System.init (d : Driver) (options : Options) (autoForm : Bool) : System :=
  { driver := d, port := d.sys.cur + 1, prog := startup options autoForm }

/-- A start-up and everything that happens until the next one begins. -/
structure Session where
  options : Options
  autoForm : Bool
  events : List SystemEvent

/-- The driver after several start-ups, one after the other: the first by zigpy, the others by the loop of
`reconnect`, application.py:73-86, each after the one before has ended.
Simplifications: a session may also be left before its start-up has ended, this only adds executions; start-ups
that overlap, which happen after two losses (`c52_refuted`), are not combined here. -/
def Driver.sessions (ss : List Session) : Driver :=
  ss.foldl (fun d x => ((System.init d x.options x.autoForm).run x.events).driver) Driver.init

end Zcc
