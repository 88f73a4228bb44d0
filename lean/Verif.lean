import Verif.Model.Types
import Verif.Model.Definition
import Verif.Model.Uart
import Verif.Spec.Wire
import Verif.Proofs.Uart
import Verif.Props.Framing
import Verif.Model.Buffalo
import Verif.Model.ZpiObject
import Verif.Spec.Codec
import Verif.Proofs.Codec
import Verif.Proofs.Table
import Verif.Props.Codec
import Verif.Model.Api
import Verif.Model.Runtime
import Verif.Spec.Runtime
import Verif.Proofs.Runtime
import Verif.Proofs.Runtime2
import Verif.Proofs.Fifo
import Verif.Proofs.Waiter
import Verif.Proofs.Waiter2
import Verif.Proofs.Cluster
import Verif.Props.Runtime
import Verif.Proofs.Timely
import Verif.Props.Timely
import Verif.Model.App
import Verif.Spec.App
import Verif.Proofs.App
import Verif.Props.App
import Verif.Proofs.Handling
import Verif.Props.Handling
import Verif.Model.Stack
import Verif.Spec.Stack
import Verif.Proofs.Stack
import Verif.Proofs.StackTime
import Verif.Props.Stack
import Verif.Model.AppRuntime
import Verif.Spec.Requests
import Verif.Proofs.Requests
import Verif.Proofs.AppRuntime
import Verif.Props.Requests
import Verif.Model.StartZnp
import Verif.Model.Client
import Verif.Spec.Start
import Verif.Proofs.StartFrames
import Verif.Proofs.StartZnp
import Verif.Proofs.StartSeq
import Verif.Proofs.StartRun
import Verif.Proofs.StartMem
import Verif.Proofs.StartCrash
import Verif.Proofs.StartTail
import Verif.Proofs.Stick
import Verif.Props.Start
import Verif.Spec.Client
import Verif.Proofs.Resolved
import Verif.Proofs.Client
import Verif.Proofs.ClientLimit
import Verif.Proofs.Radio
import Verif.Props.Client
import Verif.Model.Connection
import Verif.Spec.Connection
import Verif.Proofs.Connection
import Verif.Proofs.ConnectionRun
import Verif.Proofs.ConnectionOrder
import Verif.Proofs.ConnectionLog
import Verif.Proofs.ConnectionPort
import Verif.Proofs.ConnectionWake
import Verif.Props.Connection
import Verif.Props.Reconnect
import Verif.Props.Wakeup
import Verif.Proofs.Reply
import Verif.Proofs.Refusal
import Verif.Props.Reply
import Verif.Props.Refusal
import Verif.Proofs.Pairing
import Verif.Props.Pairing
import Verif.Proofs.Bounded
import Verif.Props.Bounded
import Verif.Proofs.Closed
import Verif.Props.Closed
import Verif.Proofs.Pause
import Verif.Props.Pause
import Verif.Props.Outgoing
import Verif.Proofs.Progress
import Verif.Props.Progress
import Verif.Proofs.AppBounded
import Verif.Props.AppBounded
import Verif.Model.Driver
import Verif.Spec.Driver
import Verif.Proofs.Driver
import Verif.Proofs.DriverLed
import Verif.Props.Driver
import Verif.Model.Config
import Verif.Props.Config
import Verif.Proofs.ClientBounded
import Verif.Props.ClientBounded
import Verif.Spec.Reports
import Verif.Proofs.Reports
import Verif.Proofs.Arrived
import Verif.Props.Reports
import Verif.Spec.Blame
import Verif.Proofs.EndCause
import Verif.Proofs.ClientEnds
import Verif.Proofs.Blame
import Verif.Proofs.StartFail
import Verif.Proofs.StartAsks
import Verif.Proofs.StartBlame
import Verif.Props.Blame
import Verif.Proofs.Recover
import Verif.Props.Recover
import Verif.Proofs.AppRestart
import Verif.Props.AppRestart
import Verif.Props.Form
import Verif.Model.Boot
import Verif.Model.Loop
import Verif.Spec.Boot
import Verif.Spec.Loop
import Verif.Proofs.Boot
import Verif.Proofs.Loop
import Verif.Props.Boot
import Verif.Props.Loop
import Verif.Spec.Works
import Verif.Proofs.Works
import Verif.Props.Works
import Verif.Proofs.LoopRun
import Verif.Props.WorksPort
import Verif.Proofs.Resync
import Verif.Props.Resync
import Verif.Proofs.Layout
import Verif.Props.Layout
import Verif.Spec.Sizes
import Verif.Proofs.Sizes
import Verif.Props.Sizes
import Verif.Spec.Distinct
import Verif.Proofs.Distinct
import Verif.Props.Distinct
import Verif.Spec.Empty
import Verif.Props.Empty
import Verif.Spec.Attribution
import Verif.Proofs.Attribution
import Verif.Props.Attribution
import Verif.Model.Probe
import Verif.Spec.Probe
import Verif.Proofs.Probe
import Verif.Props.Probe
import Verif.Tests.Project
import Verif.Spec.Accepted
import Verif.Proofs.Accepted
import Verif.Props.Accepted
import Verif.Model.System
import Verif.Spec.System
import Verif.Proofs.System
import Verif.Props.System
