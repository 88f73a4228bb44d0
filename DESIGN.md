# Design of the formal model of zigpy-cc

Tool: Lean 4 (4.33.0), Lake project in `lean/`, namespace `Zcc`.

* `Verif/Model/*` - the code as it is in `/repo`, function by function, each definition citing
  file and lines. Exceptions are values (`PyErr`). Bugs are modelled, not repaired.
* `Verif/Spec/*` - small specifications written without the model's helpers.
* `Verif/Proofs/*` - helper lemmas.
* `Verif/Props/*` - the property theorems, named `cNN_...`, each followed by an `example` that
  meets its hypotheses on a non-trivial case.
* `Verif/Tests/Project` - the project's own tests (`/repo/tests`) evaluated in the model, as `example`s: they check that the model
  agrees with the code where its authors have written down what it does; nothing is proved there.
* `tools/gen_definition.py` translates the command table `/repo/zigpy_cc/definition.py` (parsed
  as text) into `Verif/Model/Definition.lean`.

When a property is false of the code, the theorem `cNN_..._refuted` proves the negation with a
concrete witness and `cNN_..._partial` proves the strongest true part.

## Trusted base

* Lean's kernel.
* Axioms: at most `propext`, `Classical.choice`, `Quot.sound` (checked with `#print axioms`
  by `tools/axioms.sh`; no axiom of our own, no `sorry`, no `native_decide`, no `bv_decide`).
* The reading of the Python text as Lean definitions (cited line by line), including the
  translation script for the command table.
* The asyncio facts used by the transition systems: one thread; code between two `await`s is
  atomic; `asyncio.Lock` and `Semaphore` are FIFO; `asyncio.wait_for` cancels the awaited future
  on timeout; `call_later` callbacks run at or after their time. If a task is cancelled when its
  future already has a result, newer Python versions return the result and older ones raise
  `CancelledError`; both are covered (events `wake` and `cancel`).

## Modelled code

| module | code |
|---|---|
| `Model/Types` | `types.py` enums, exceptions, payload values |
| `Model/Definition` | `definition.py` (generated, all 235 commands) |
| `Model/Uart` | `uart.py` Parser, UnpiFrame, Gateway receive and send |
| `Model/Buffalo` | `buffalo.py` (whole file) |
| `Model/ZpiObject` | `zpi_object.py` (whole file except `__repr__`) |
| `Model/Api` | `api.py` waiters, matching, `data_received`, `create_response_waiter`, `wait_for` |
| `Model/Runtime` | `api.py` `request_raw`/`_request_raw` as a transition system over concurrent tasks, time, frames, cancellations |
| `Model/App` | `zigbee/application.py` `handle_znp`, `set_led`, `REQUESTS`, `IGNORED`; `receive` = `API.data_received` with its callback |
| `Model/AppRuntime` | `zigbee/application.py` `request`, `mrequest`, `broadcast`, `permit_ncp`, semaphore |
| `Model/StartZnp` | `zigbee/start_znp.py`, `zigbee/nv_items.py`, `types.NetworkOptions`, `application.py` `startup`, `form_network`, against an arbitrary radio |
| `Model/Client` | a start-up coroutine running on the API of `Model/Runtime`, next to other users: `API.request`, `wait_for`, `Waiter.wait`, `create_task` |
| `Model/Boot` | start-up with the serial port: `Model/Client` behind the parser of the gateway, and `handle_znp` |
| `Model/Loop` | `reconnect` over the serial port: attempts of `Model/Boot`, each with a new port, on one clock |
| `Model/Probe` | `API.probe` over the serial port: `Model/Connection`'s `probeProg` on an API object of its own behind the parser of the gateway |
| `Model/Stack` | one connection as a whole: bytes of the port, gateway, `API.data_received`, `handle_znp`, interleaved with all other events of the API |
| `Model/Connection` | `uart.connect`, `detect_port`, `Gateway.close/connection_lost`, `API.close/probe`, `reconnect` |
| `Model/Config` | `config.py` `SCHEMA_DEVICE`, the check in `API.probe` |
| `Model/Driver` | the whole driver: all ports and their gateways, APIs, `handle_znp` with the device table, the tasks of `set_led`, calls of the application, restarts, as one transition system |
| `Model/System` | `application.py` `startup` as a coroutine in `Model/Driver`, on the API object that it connects, next to everything else |

Not modelled: logging and `__repr__`; zigpy itself (`get_device`, `handle_join`,
`handle_message` are modelled by a device table and an effect log); `zigpy.util.retryable_request`
(decorator of `request`; with its default of one try it only calls the function); pyserial, serial_asyncio (assumed to deliver bytes in order); voluptuous and
zigpy's own schemas; `backup.py` (`Restore` raises `TODO` unconditionally; unreachable because
`form_network` passes an empty path); wall-clock accuracy.

## Properties: what is modelled and how it is proved

| id | approach |
|---|---|
| C01 | Encoder + per-byte parser; induction over frame list and bytes; chunking removed by a lemma on `dataReceived` over appended chunks. Frames with data. |
| C02 | Same function of concatenation when nothing raises (`_partial`); refuted in general with a witness (exception drops the rest of the chunk). |
| C03 | Invariant: consumed input = log of segments; each delivered frame decodes exactly one segment. |
| C04 | XOR algebra: changing one byte changes the XOR. Refuted for a frame without data followed by noise. |
| C05 | Invariant over bytes. |
| C06 | Refuted for empty data; `_partial` for non-empty data, plus "delivered with the next byte". |
| C07 | Exact characterisation of `toBuffer` against a spec formula. |
| C08 | Refuted with a zero-data first frame; `_partial` with data. |
| C09 | Delivered never; refuted for same chunk; `_partial` for later chunks; without data also refuted for later chunks (`c09_empty`, `c09_later_refuted`). |
| C10 | Induction over parameter lists with a well-typedness predicate; the table enters by `decide`. |
| C11 | Refuted (neighbour bits); `_partial` for all types but neighbour lists, and masked version for these. |
| C12 | Little-endian arithmetic by induction on width. |
| C13 | Induction over parameter lists. |
| C14 | Finite table by kernel computation, then general lookup theorem. |
| C15 | Induction over parameter lists. |
| C16 | Bit arithmetic. |
| C17 | Refuted; exact list of undecodable commands (`_partial`). |
| C18-C23, C29-C31 | Invariants of the transition system `Model/Runtime`. |
| C24, C26-C28 | Induction over the waiter list in `Model/Api`; table facts by kernel computation. |
| C25 | C24 composed with C34: the oldest answered waiter's number becomes the first byte. |
| C32-C35 | Case analysis of `handle_znp` against an effect specification; C32, C33 start from the received frame in any reachable API state. |
| C36-C39 | Exact bytes of each call (`Proofs/Requests`), lifted to all executions of the application by the invariant `AInv` (`Proofs/AppRuntime`). |
| C40, C41 | Invariant `AInv`: value of a semaphore + calls past it = its initial value; every call past it is a call in one of the APIs; how each ended call ended. |
| C42-C47, C49, C57, C58 | `start_znp` and `startup` as trees of operations; a history of operation outcomes is arbitrary unless restricted by `Stores` (NV memory, C42, C44, C45) or `Genuine` (status filter of `request`). Examples and refutations run the coroutine against the stick `Proofs/Stick`. |
| C43, C46, C49, C57 on the wire, C60 | `Model/Client` runs such a tree on the API; invariant `ClientInv`: the log of the API is cut into one segment per operation, each showing that operation (`Spec.Traced`). So the outcomes are no longer arbitrary, `Genuine` is proved, and the theorems about histories become theorems about bytes. `Proofs/Radio` is a radio on the wire for the examples. |
| C61, C62 | `Model/Stack`; invariant `Sync` between the parser's buffer and the bytes still to come, `Healthy` for the rest; the API of the connection runs an execution of `Model/Runtime` (`Spec.weave`), so the theorems about the API apply. |
| C48 | Direct. |
| C50-C53, C59 | Connection state machine `Model/Connection` (tasks, ports, time, losses); invariant `Inv` over all executions, `Order` over orderly ones. Executions of the model include impossible choices of the environment (any list of ports at any time, any answer to any operation). Success is covered too: `c50_answered`, `c52_recovers`; `c52_loops` counts loops against reported losses. |
| C63 | `Proofs/ConnectionWake`: for each step of `Model/Connection` what it does to wake-up bytes and to connections that `connect` returned (`WakeStep`); invariant `WakeInv`. |
| C64 | C28 (the waiter), C24/C25/C34 (what a tagged reply becomes) joined by the invariant `ReplyInv` (`Proofs/Reply`): the future of the waiter is pending unless its own request was refused; `c23_stays` then keeps it in the table. |
| C65 | `Proofs/Pairing`: invariant `Paired`, from a moment at which the radio has answered everything: the requests exceed the responses by at most the requests given up since (`Lags`), by one more while a call waits; a waiting call's result, and the result of a call that ended, is the first response after its request was written (`Got`). From this `c65_first`, `c65_lag` (how far a response can be off) and, without given-up requests, `c65_partial`. |
| C66 | `Proofs/Bounded`: `Within`: the call at work ends by `b`, and `b` plus the limits of the queued calls up to `t` is at most the deadline; kept by every event, and by `tick` because the loop keeps up. |
| C67 | `Proofs/Closed`: `Mute`: with `_uart` unset no step writes, and a call that is not written yet can only raise. |
| C68 | `Proofs/Pause`: `Rested` (a sleeping call's wake-up time is the end of its request plus 200 ms or later), `Slept`/`Short` (what a call that ended had to do before). |
| C69 | By `c49_sent`: inspection of the (version-dependent) list of all frames start-up may send. |
| C70 | `LogInv.sentStarted` and `sentSorted` (C19), `c07_wire_format`, unique decodability from the length byte, C10. |
| C71 | `Proofs/Progress`: a measure over all calls (gate 3, request 2, pause 1) that `c30_no_deadlock` and the gate's count (C40) can always decrease. |
| C72 | `Proofs/Refusal`: a call ends with the `KeyError` only if the id it carries is not in the table; `ReplyInv` and the timers keep it there. |
| C73 | `Proofs/AppBounded`: `Busy`: the request at work and the pauses end by `b`; `b` plus the limits of the queued requests plus what the other calls need is at most the deadline. `Proofs/AppRestart`: the same as a potential (`Loaded`), summed over all connections, which have a common clock; it falls by the time that passes because some connection is at work for the call. |
| C74 | `Model/Driver` joins everything. `Proofs/Driver`: the execution of the application inside an execution of the driver (`trace`); `SyncTo`: the parser in the middle of a good stream that is followed by anything; then C61 and C64. |
| C75 | `Proofs/DriverLed`: `LedInv`, the decisions so far are the requests made plus the tasks that have not begun. |
| C76 | The induction of C74 with the calls to zigpy kept (`story_run`); `port_chunk`: the gateway of a port of `Model/Driver` and the gateway of `Model/Stack` do the same. |
| C77 | `SyncIt`: as `SyncTo`, with the items; the number of bytes still to come tells which items are left (`syncIt_unique`), so the point at which `API.new` returns is found again in the stream; then `story_run`. |
| C78 | Case analysis of the schema (`Model/Config`); `opened_run`: where a port is opened in an execution; C53. |
| C79 | `Takes L p B`: the operations of a program take at most `B` ms together (proved by composition for each function of start-up); `Budget T c`: now + the remaining limits of the calls of the API + the rest of the current wait + the limits of the tasks not begun + what `Takes` says of the remaining program ≤ `T`. No event but a call of others raises this sum, and time passes only if the same amount is taken off a limit. |
| C80 | `Spec/Reports`: layouts as lists of fields, compared with the command table by kernel computation (`reports_table`); `report_received`: which frame the response of a submission was read from; `exchange_at`: where request and answer lie in the log (with C65's pairing); `Proofs/Arrived`: the log has exactly the decodable frames. |
| C81 | `Why h e`: what the last operations of a history of start-up are that raised `e`, by composition over its functions (`BlamesIn`); `Proofs/ClientEnds`: by which event in which state an operation of a coroutine ends; `call_cause`, `wait_cause`: why the call or wait of a coroutine failed (time limits of C54, invariants of the API); `Asks`: every request of start-up fits a frame and expects what the specification accepts; missing fields excluded by C80's layouts. |
| C82 | `formNetworkCall`: `form_network` with its arguments; memory after start-up from C44's `start_kept`, with `est_initialise` for PAN id and extended PAN id; refuted for the arguments with the stick of the examples. |
| C83 | `Boot`: `Client` with the gateway's parser before it and `handle_znp` behind it; `dr_any`: the frames that any handler gets are explained by the processed bytes; `open_run`: so the client runs on a weave of frames and events, to which C43, C57, C58, C60, C79–C82 apply; good streams by `SyncIt` (as C77); refuted with an LED indication in the chunk of the version response. `c83_unconnected`: without a connection nothing happens (invariant `Offline`). |
| C84 | `LoopInv`: every attempt is an `Attempt`, a run of `Boot` that begins with the application's state and sees only the events since its port was opened, so C83 (and through it C79–C82) applies; `Spaced`: a lower bound by the clock at which each attempt began; `Pace`: an upper bound for the next one, from `Budget` (C79) for the attempt that is going on. |
| C85 | `no_blame`: none of the reasons of C81 exists for a radio that `Works` (a specification on frames: what ends a request, its time limit, the accepted status values); `client_open`: the port stays open; C79 for the time. Over the port: `perChunk` (C83) computes from the lengths which chunk completes which message, so `Works` is asked of the messages on the wire. Loop: `attempt_run`, an attempt of the loop is one start-up over the port; C84 for the time. |
| C86 | `Astray c B`: the parser holds `B`, which begins no message and has taken `c` bytes of the good stream; `B` is at most 259 bytes (`BufInv`). One byte more (`astray_write`): in step behind it, still astray, or in step before it. Messages without the start byte in them are noise from their second byte on (`dr_noise`), so that the parser is in step at the next message. Refuted for messages with the start byte in them, and if a call raises. |
| C87 | `Spec.Fields`: which bytes are which values, as a relation that mentions neither reader nor writer; `readParameter_iff` type by type, `readVals_iff` by induction over the parameter list (no buffer or list follows an `INT8` in the table). |
| C88 | `Probe.run`: one probe with its port; the API object is its own. `PInv` tells at each place of the coroutine what the API object holds (nothing; the request and its waiter; the ended call); `dr_ends` locates every completed message in the bytes, behind the moment of the request; the positive part follows a good stream with `SyncIt`. The time limit is an event that may come from 2000 ms on; that it comes in time is the hypothesis `ProbePunctual`. |
| C89 | `Spec.announces`: which field announces which, written down from the names and not from the order of the table; C15's sizes and a kernel computation over the table that every field of variable size follows the one that announces it. For a field of entries (`beaconlist`) the number of bytes, not of entries, is compared. |
| C90 | `Spec.emptyMessages` against the table by kernel computation; `Fields` (C87): no values without bytes; C27 for the waiters; C49 for the commands of start-up. Shows what the hypothesis `data ≠ []` of C61, C62, C74, C76, C77, C83, C85, C86, C88 excludes. |
| C91 | Whole executions of the driver (`Driver.run`), with `Spec.lastAddress` read off the effects; an invariant over frames, chunks and events. zigpy's own changes of the table (event `devices`) are excluded. |
| C92 | How a call ends after its request was written: the invariant of C20/C72 gives the cases; a `KeyError` needs a refusal; a time-out is excluded by C54 (the step that writes a request leaves it waiting at least 6 s); cancellations are traced back to their event (`api_cancelled`, `app_cancelled`). |
| C93 | `Joint`: the coroutine and its API object inside the driver are an execution of `Client` (events of the driver become events of others, `joint_driver`), and each step of the coroutine is some events of the driver (`startup_step`). `OwnWaits`: start-up waits only for waiters it made; `Foreign`: the waiters of calls are other ones, unless they are of an older API object. `Made`: connections and semaphores against the operations that ended. |
| C94 | A list of sessions, each a `System` that begins with the driver the one before left. By induction from `c93_driver` the driver is an execution of `Driver` (`c94_history`); C18 is carried over through `AInv.proj`, the bound of C40 through `c93_made` and `limits_kept` (a semaphore keeps its number of places). |
| C95 | Induction over the fields: a field has a fixed size, or the list's size was said by the field before, or only fields of fixed size follow (`delimited`, a kernel computation over the table); then equal bytes split in the same way and equal bytes of a field are equal values. False for two MAC requests, but true for them too if key sources have eight bytes. |
| C55, C56 | Case analysis of `handle_znp`; command table by kernel computation. |
| C54 | `Proofs/Timely`: in every execution prefix a waiter that is registered, not abandoned and not answered is still there before its limit; so a response in time reaches the request. |

## Disagreements between code and properties

Found while modelling; each is a theorem `..._refuted` (or an exact characterisation) once proved.

* C04, C06, C08, C09: a frame without data is only looked at with the next byte, and that byte is kept
  even if it is noise; `MaxDataSize` is not enforced; an exception drops the rest of the chunk (C02). If
  the exception is due to a frame without data, the kept byte also puts the parser out of step with the
  next chunk (`c09_later_refuted`).
* C86: a message with the start byte in it can keep the parser out of step for ever: listening from the
  middle of `FE 03 45 C0 FE 03 45 3E`, the parser reads `FE 03 45 3E FE 03 45 C0` from the end of one and
  the beginning of the next, whose checksum is right as well, and delivers it as a message, however often
  the message is sent (`c86_refuted`). A checksum error drops all bytes of the pretended message instead of
  looking for the next start byte among them. And a call that raises drops the rest of its chunk, but not
  the byte kept after a message without data: plain messages in unfortunate chunks are lost for ever
  (`c86_raised_refuted`).
* C11, C16: neighbour list bits are lossy. C17: five ZDO responses can never be decoded.
* C21, C29: if the response waiter has expired (it is registered before the request queues for the
  lock, with 10 s), a refusal raises `KeyError` from `_waiters.pop` instead of `CommandError`
  (`c29_refuted`).
* C24: transaction number 0 is falsy (`if waiter.sequence:`), so the loop does not stop: one reply
  resolves every waiting request, and is handed on without number (`c24_refuted`). An abandoned
  waiter stays in the table until its timer fires and still takes the next reply.
* C28: `nwkAddrReq`, `ieeeAddrReq`, `serverDiscReq` raise `KeyError('dstaddr')`
  (`c28_undirected_fails`, `c28_refuted`).
* C25: transaction number 0 is lost (`c25_refuted`); replies that `REQUESTS` does not list are
  awaited but never handed on, e.g. `unbindRsp` (`c25_refuted_unhandled`).
* C32: `incomingMsgExt` carries an 8-byte source address which `handle_znp` looks up as a network
  address, so such messages are always dropped (`c32_ext_dropped`, `c32_refuted`).
* C34: `handle_znp` does not forward the received bytes but encodes the decoded message again, so
  reserved bits of neighbour entries are cleared (`c34_refuted`) and trailing bytes dropped.
* C56: eight MAC indications decode but cannot be encoded again, so `handle_znp` raises `TODO` and
  the rest of that serial read is lost (`c56_exact`, `c56_refuted`). Until the first start-up has read the
  version, `permitJoinInd` and `mgmtPermitJoinRsp` raise `KeyError('product')` (`c56_early`).

* C37: `mrequest` ignores `hops` and `non_member_radius`, the radius is always 30
  (`c37_hops_refuted`).
* C38: MT commands without destination address get one all the same, so `nwkAddrReq`, `ieeeAddrReq`,
  `serverDiscReq`, `endDeviceAnnce` and others carry a shifted, cut-off body (`c38_refuted`); the
  first three fail with `KeyError` if a reply is expected (`c38_undirected_raises`). What the
  two address requests ask for instead: `c38_nwk_addr`, `c38_ieee_addr`. Bind requests with a group
  address end in `OverflowError` (the body is shorter than the MT command, `c38_group_raises`,
  `c38_short_raises`), clusters 0x23-0x27 and 0x37 select unrelated MT commands, unknown ones raise
  `RuntimeError` (`StopIteration` in a coroutine). Every profile other than 260 is treated as ZDO.
* C40: every start-up makes a new semaphore (`c40_refuted`).
* C41: asynchronous MT commands are reported as success without any answer (`c41_refuted`).
* C42: on Z-Stack 1.2 a different PAN id or extended PAN id never leads to a re-initialisation: the
  `except AssertionError` of the inner `try` swallows it (`c42_refuted`). On Z-Stack 3, if the stored
  PAN id is 0xFFFF, a different extended PAN id is swallowed, too (`c42_refuted_extended`).
* C45: re-initialisation does not clear the configured flag first. If the stick was configured before
  and the re-initialisation is cut off after the last setting is written but before commissioning, the
  next start-up takes it for configured (`c45_refuted`).
* C46: the waiter for the active endpoints takes the reply of any node (`c46_wire_refuted`).
* C60: if somebody passes the id of a waiter of start-up to `request_raw` and that request is refused,
  the wait of start-up returns the refusal (`c60_lent_refuted`). Ids restart from 0 with each `API`
  object, so an id kept over a reconnect can name somebody else's waiter.
* C61, C62: an indication that makes the receiver raise (C56) takes the rest of its chunk with it, e.g.
  a report of a device (`c61_refuted`) or the response to a waiting request, which then times out
  although the response came in time (`c62_refuted`). The loss ends with the chunk (`c61_raises`).
* C64: a call of the application that waits for its turn during a restart keeps the id of its waiter, but
  ids restart from 0 with the new `API` object. If its request is then refused, it drops the waiter
  of another call, whose reply is lost (`c64_stale_refuted`), even one that did not exist when the old call
  got its turn (`c64_in_flight_refuted`).
* C72: a refused call raises `KeyError` from `_waiters.pop` if its waiter is gone: the id is one of an
  `API` object that was replaced (`c72_refuted_restart`), the call queued for long
  (`c72_refuted_slow`), or a reply came before the refusal (`c72_refuted_replied`).
* C65: MT responses carry no number, and a request that timed out leaves nothing behind that would take
  its late response; the next request with the same command takes it, e.g. the content of another NV
  item (`c65_refuted`). Each given-up request puts the following ones off by at most one until the late
  responses have come (`c65_lag`).
* C48: a configured PAN id 0 and an empty channel list are replaced by the defaults (`c48_refuted`).
* C50: the time limit of a probe may strike after the port is opened but before `connect` returns (it
  sleeps for one second after opening); then `api.close()` finds no port to close, and the port stays
  open (`c50_leaks`, `c50_refuted`).
* C51: a loss before `API.new` has returned makes `API.connection_lost` raise `AttributeError`; it is
  never reported (`c51_unreported`, `c51_refuted`).
* C52: a connection that is lost while a start-up or reconnect loop runs starts another loop; both go
  on, with two ports open (`c52_refuted`).
* C77: messages that are complete before `API.new` returns (`connect` sleeps for one second after opening
  the port) are lost (`c77_connecting`).
* C50, C78: `probe` of a path that does not exist (the stick is not plugged in) does not return `False`
  but raises `vol.Invalid`, because the schema is applied outside of the `try`
  (`c78_missing_raises`). Paths that are no files, e.g. `socket://...`, are refused.
* C81: `needsToBeInitialised` treats a setting with another value as a reason to initialise, but a setting
  that the radio cannot read (status other than 0) raises `CommandError` out of `startup`
  (`c81_unreadable`); the stick then cannot be started until it is erased by other means. Only the mark
  of a configured stick may have status 2.
* C80: the command table wants nine bytes of SYS_VERSION (with the revision). A firmware that answers in
  the five bytes of older descriptions of MT cannot be started: the answer is dropped and the request
  times out (`c80_no_revision`).
* C82: `form_network` ignores its arguments `channel`, `pan_id` and `extended_pan_id` (`c82_refuted`).
* C83: `self.version` is empty until the version response has been handled. ZDO_PERMIT_JOIN_IND and
  ZDO_MGMT_PERMIT_JOIN_RSP read `self.version["product"]`, so one of them before that makes `data_received`
  raise `KeyError`, and the rest of the chunk is lost: with the version response in the same chunk start-up
  ends with `TimeoutError` (`c83_led`, `c83_refuted`).
* C89: ZDO_MSG_CB_INCOMING (definition.py:1771-1784, marked FIXME there) has no size field; `msgdata` gets as
  many bytes as the MAC destination address before it says. For the coordinator (address 0) it is empty, for
  addresses of 256 or more (broadcasts) the frame cannot be decoded (`c89_msgcb`, `c89_msgcb_lost`,
  `c89_refuted`).
* C91: `leaveInd` is among the ignored indications (application.py:43-51), so a device that left stays in
  zigpy's table under its address. When another device is given the address and announces it, `get_device(nwk=…)`
  still finds the old one first: the messages of the new device are attributed to the one that left
  (`c91_refuted`).
* C93: a call that waits for the semaphore during a restart passes the id of its waiter, which is of the old API
  object, to the new one. If start-up's waiter has the same id and the radio refuses the call, start-up gets the
  refusal and goes on as if the network had been reported to run (`c93_stale_refuted`, with a whole execution of
  the driver over two connections).
* C95: the MAC requests `dataReq` and `startReq` have two fields of type BUFFER and no length for the key source (8 bytes
  in the radio's protocol): different requests become the same frame (`c95_refuted`). The driver does not send them.
* C59: `shutdown` does not stop a reconnect loop (`c59_refuted`). Before the first connection it raises
  `AttributeError` (`_api` is `None`).

## Mutation testing

`tools/mutate.py MUTANTS.json` applies each listed edit to a copy of the project in `/tmp/mut`,
rebuilds and lists the theorems that fail; an edit whose model does not compile is rejected. The
results are in `seeded/LOG.jsonl`. An edit that only breaks an invariant used in a proof (and no
property theorem of its own) is not counted as caught by a property until a property theorem names
the effect; C54, `c22_given_up`, `c23_not_overdue` were added for this reason.
