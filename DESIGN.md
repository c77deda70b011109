# Formal model of stampzilla/gozwave — design

The code under `/repo` (Go) was read as text; nothing in it was built, run or changed.
The model and the proofs are in `/verif/lean` (Lean 4.33.0, `lake build`).
Which theorem belongs to which property is in `MANIFEST.json`; the properties in words are in `properties.jsonl`.

## 1. Trusted base

* Lean's kernel (and `lake`/`lean` that feed it).
* Axioms: every theorem depends on a subset of `propext`, `Classical.choice`, `Quot.sound`, Lean's standard
  three. No axiom is declared, there is no `sorry`/`admit`, no `native_decide`, no `bv_decide`. Finite tables are
  decided by the kernel (`decide +kernel`), always over the whole table (all 256 bytes, all device rows), and
  lifted to all inputs by a lemma.
* The translation of Go into the model, done by hand. Every definition cites file and lines and says what it
  simplifies. The conventions below are part of the trusted base.
* The specifications in `Verif/Spec/*`: they say what the property theorems mean and are read together with them.

### Go semantics assumed

* `byte` is `UInt8`, arithmetic on it wraps. `int` values that occur are small; they are `Nat` (or `Int` where
  negative values matter: `Endpoint(id)`, node ids).
* A slice is a pair (visible bytes, spare bytes up to capacity). `s[i]` panics when `i ≥ len`; `s[lo:hi]` is
  checked against the *capacity*, `s[lo:]` against the length; `append` works in place when capacity allows
  (this is what makes `Decode` overwrite the caller's buffer).
* A run-time panic is a value `Except.error p` of `Res α := Except Panic α`; nothing recovers from panics in the
  repository, so a panic in any goroutine ends the process. The fatal error "concurrent map iteration and map
  write" is `Panic.mapRace`, a write to a nil map `Panic.nilMap`. As in Go's runtime the check is made when an entry is
  looked up or the next one is asked for, and not at all for a map without entries.
* Go `error`s are values; only nil/non-nil and the identity of the producing check are modelled, not texts.
* `float64` inputs are `NaN | ±Inf | finite rational`; results of sensor decoding are exact rationals; that
  the rounding of the division by 10^precision changes nothing essential is C94 (both operands are exact in float64).
* Goroutines, channels, mutexes and timers: interleaving state machines, one label per atomic action. Timers are
  nondeterministic: a timer that is armed may fire at any time. This over-approximates real schedules, so "for
  all executions" statements carry over; for counterexamples the exhibited schedule is explained in words.
  Exception: the Connect machine has an explicit clock in milliseconds; a timer fires at or after its deadline.
* Go memory-model data races (unsynchronised fields such as `Connected`, `lastCommand`) are modelled as
  sequentially consistent single accesses.
* Map iteration order is arbitrary: theorems quantify over it.
* Loop variables: `.travis.yml` says `go: tip`, there is no `go.mod`; the code is from 2017, when loop variables
  were per loop. The model takes the semantics as a parameter where it matters (resend after CAN), and the
  theorems treat both.
* Logging has no effect, except that arguments of log calls are evaluated (they can panic).

### What is modelled

| model file | code | remarks |
|---|---|---|
| `Go/Basic`, `Go/Float` | Go slices, panics, conversions | |
| `Model/Reports` | `commands/duration.go`, `commands/reports/*.go` | `String()` methods only where C64 or C19 need names; unexported copies of data left out |
| `Model/Serial` | `serialapi/message.go`, `application_command_handler.go`, `discovery_nodes.go`, `get_node_protocolinfo.go` | all of `Decode`, `NewMessage`, `CompileMessage` |
| `Model/Reader` | byte level of `Connection.Reader`, connection.go 183-291 | uses of the in-flight table are recorded as actions |
| `Model/Commands`, `Model/Node` | `commands/*.go`, `serialapi/raw.go`, `nodes/commands.go`, `nodes/endpoints.go`, fields of `nodes/node.go` | setters folded into constructors |
| `Model/Match` | connection.go 293-366 | |
| `Model/Conn` | connection.go: callers, `Writer`, result goroutines, `timeoutWorker`, resend goroutines, `Reader`, all interleaved | uuids are request numbers (trusted fresh); the RWMutex inside a `sendPackage` is left out (more interleavings than in Go) |
| `Model/NodeM` | `nodes/node.go` `ProcessEvent`, `Identify`, and the `Request*` functions | see below |
| `Model/Controller` | `controller.go`, `nodes/list.go` as used by the controller, delivery of reports | value receivers of `Get`/`All` copy the mutex: modelled |
| `Model/NodeList` | `nodes/list.go` for any caller, also with nil | calls do not overlap here |
| `Model/Database`, `Model/Tables/*` | `database/*.go`, `commands/constants.go`/`serialapi/types.go` names, `generators/` for mandatory classes | tables translated by a script, see below |
| `Model/DevGen` | `generators/database/database.go`: reading of references, choice of the references, cases and constructors | the JSON decoder and text/template are trusted; parameters left out |
| `Model/Save` | `json.MarshalIndent` in `SaveConfigurationToFile` (controller.go 150) reading nodes without their locks: nodes/node.go 196-205 and nodes/request_endpoints.go 52-63 assignment by assignment | single fields indivisible |
| `Model/DeviceClass` | `IsDeviceClass`, nodes/node.go 322-328 | what each of its reads finds is a parameter |
| `Model/Tools` | `generators/database` escaping and cases, `serialrecorder` rows, `cmd/serialrecordingtohex` | |
| `Model/Recorder` | `serialrecorder/serialrecorder.go`, decoding loop of `cmd/serialrecordingtohex` | gob as a stream of definitions and rows; buffers numbered |
| `Model/Example` | `zwave-example/example.go` 66-125: the handlers of the web interface | gin is not modelled; `strconv.Atoi` from its documentation; `main` (a nil controller after a failed `Connect`) is not modelled |
| `Model/Json` | `encoding/json` printer and parser | Go's standard library, from its documentation and RFC 8259 |
| `Model/Persist` | controller.go 134-189, nodes/list.go 70-92, file contents under crashes | |
| `Model/Connect` | gozwave.go 17-54, connection.go 116-144 | `Reader`/`Writer` only return at some time; a nil opener is not modelled |
| `Model/System` | gozwave.go 28 and 45-51: callback, start of `getNodes` and `saveDebouncer` | reports go from the connection to the controller; requests and their answers are not joined (each side allows all) |
| `Model/Print` | the `String` methods: alarm.go 43-50, manufacturer_specific.go 43-45, multi_instance_endpoint.go 47-49, switch_binary.go 35-37 and 67-69, switch_multilevel.go 34-39 and 71-81, sensor_multi_level.go 341-343, wakeup.go 15-17, duration.go 24-32 | the verbs `%x`, `%t`, `%d`, `%s`, `%f` and `time.Duration.String` are written out; `%f` takes the exact value of the float64 |

Merged steps and abstractions worth knowing:

* `RequestEndpoints` reads the classes under `RLock` and sets them under `Lock` when nil; the pair is one step.
  `ProtocolInfo()`, the lookup of mandatory classes and the following `Lock` are one step.
* What the connection answers to an identification request is arbitrary (any report, any error); this
  over-approximates the connection machine, so statements for all answers carry over.
* The controller machine: read locks that `Get`/`All` take on nodes are left out (released before the functions
  return); the comparison with the old file at the start of a save is modelled as reads without a lock that end with a difference at an arbitrary point (its result is never `true`);
  users who add nodes or start identifications on their own are outside.
* Generated tables: `Tables/Devices`, `Tables/Mandatory`, `Tables/Names`, `Tables/Files*` were made from the Go
  files and the device files by a script that encodes each row; `Parameters` of devices are omitted. The text of the specification
  from which the mandatory classes are generated is embedded too, and C77 runs the modelled generator on it; C107
  does the same for the devices.
* JSON: text is a list of characters (no invalid UTF-8); Go's limit of 10000 nested values is not modelled; `\b`
  and `\f` are written as before Go 1.22; an object with two members for one struct field and a `null` command
  class are outside (outcome `dup`, no theorem relies on it); floats are written as exact decimals (argued in the
  header of `Model/Persist`).

Not modelled: the operating system (serial driver, file system beyond truncate/append/crash), log output,
`String()` methods other than the name tables and those of Model/Print, `cmd/*` programs other than the combiner, wall-clock time (only
order, the 40 ms / 10 s comparisons and the Connect machine's clock), IEEE rounding, the download half of the
generators.

Check of the model against the code: `Check/Repo` runs the literal cases of the repository's test files (`serialapi`,
`commands`, `commands/reports`, connection_test.go, gozwave_test.go) on the model, the last one as a run of the whole
process that puts exactly the bytes of the test on the wire. These are tests; no property rests on them.

## 2. Layout

```
Verif/Go/*        Go semantics: panics, slices, byte helpers
Verif/Model/*     the model, function by function, each definition citing /repo
Verif/Spec/*      small independent specifications (what a frame is, what a bit field is, …)
Verif/Check/*     the repository's own unit tests run on the model (tests of the model, not proofs)
Verif/Lemmas/*    helper lemmas and inductive invariants
Verif/Props/*     property theorems C01…, each followed by `example`s that meet its hypotheses
```

`tools/all.sh` regenerates `lean/Verif.lean` and `MANIFEST.json` (status and notes come from
`tools/status.json`). `tools/mutate.py` runs the seeded bugs of `seeded/LOG.jsonl`.

Theorems about properties the code violates: the negation is proved with a concrete witness (name
`Cxx_violated…`), and the strongest true part is proved with suffix `_partial`.

## 3. Per property: what is modelled and how it is proved

### Frames and the reader (Props/Framing, Props/Reader)

| id | model | proof |
|----|-------|-------|
| C01 | `compileMessage` | XOR algebra; payloads over 252 bytes characterised |
| C02 | `decode` on slices | case analysis against the spec `IsFrame` (length, `xorAll = 0xFF`) |
| C03 | `decode` | XOR of a list changes when one element changes |
| C04 | `decode` | case analysis on prefix length |
| C05 | `decode` returns the mutated buffer | **violated**: the checksum byte of the caller's buffer is overwritten; exact one-byte effect proved |
| C06 | `decode` in `Res` | **violated** by short frames; exact set of panicking buffers proved |
| C07 | `iter`/`drain`/`feed` | induction on frames; chunk independence by "drain then append" |
| C08 | `feed` output | counting by induction on drain |
| C09 | `drain` | **violated** when noise contains 0x01; noise without start/control bytes by induction; after a pause of more than 40 ms any noise is forgotten (`C09_recovers_after_gap`) |
| C10 | `drain` | well-founded recursion; bound of the remainder as invariant over histories |
| C11 | `feed` with ageing | step plus stream theorem; the gap is shown to matter |
| C12 | `feed` in `Res` | **violated**; absence of panics for sessions of good bursts |

### Decoders and encoders (Props/Reports, Props/Commands)

| id | model | proof |
|----|-------|-------|
| C13, C14 | `newProtocolInfo`, `newDiscoverdNodes`, and through `decode` | bit positions (`testBit`), decided over one byte and lifted |
| C15 | `newReport` | equivalence with an independent (class, command, length) table |
| C16 | manufacturer report | hex digits: length, alphabet, value, injectivity |
| C17 | sensor report | two's complement over 10^precision |
| C18 | sensor report | **violated**: unsupported sizes give a value 0 report; behaviour for all sizes |
| C19 | name tables | all 256 types |
| C94 | float64 values as rationals, rounding to nearest as a relation (`Spec/Float`) | a float64 value closer than 2^-(20+3p) to the exact quotient exists; (Props/SensorFloat) |
| C20–C22 | switch, alarm, endpoint reports, durations | case analysis, all bytes |
| C23 | encoders of switches | rational floor for truncation; NaN implementation-defined |
| C24 | `MultiChannelEncap` | losslessness, injectivity |
| C86 | application commands | what is decoded and with which data, all frames; **violated**: the handler's node id is always 0 |
| C25 | raw command | **violated**: no length byte; exact encoding |
| C26, C28 | node and endpoint commands | case analysis on class membership |
| C95 | web interface of the example (`Model/Example`, Props/Web) | exact status of every request, one command to the addressed node, keys of `/nodes` lead back to the nodes, no panic for the lists a controller has; **violated**: 200 although a node that is no switch was told nothing. `getNodes` also ranges over the live map without a lock, as saving does (C73) |
| C96 | infinite executions of the connection machine with strong fairness for every goroutine (`Spec/Fair`, `Spec/ConnFair`, Props/ConnFair); reading from the port, new callers and reconnects are not assumed to happen | lock released, writers return, `Write` returns, timeouts close, callers are released, each inevitable unless the process dies; the rule `leads` (Lemmas/Fair) with ranks for lock holders, writers and timeout workers; **violated** (fair executions given) for the late caller of C41 and before the first connection |
| C97 | infinite executions of the controller machine with strong fairness (`Spec/CtlFair`, Props/CtlFair); nothing is assumed of the user, of identifications and of what arrives | discovery ends, reports are applied, changes are saved, each inevitable unless the program dies; rule `leads_rank` with the ranks of C44 and C47; **violated** (fair executions given) for a delivery or a save that copies the list while a node is being added; `C97_violated_postponed` (Props/Postponed): a fair execution with an update every nine seconds for ever in which nothing is ever saved, so "when updates pause" cannot be dropped |
| C98 | infinite executions of the node machine with strong fairness and a node that answers in the end (`Spec/NodeFair`: whatever is asked infinitely often is answered once), Props/NodeFair | from some moment on every request is answered (what was answered is never asked again), then `leads_rank` with the rank of C57; listening nodes and sleeping nodes without the race of C71 are identified; **violated** (fair execution given) by the lost wake-up of C71 |
| C99 | infinite executions of the connection machine with strong fairness (`Spec/ConnFair`), premise that no writer takes a request from some moment on (`NoneTaken`; a key deleted and inserted again may be visited again by the same iteration of the table, so without a pause the iteration has no bound) | the writers come to rest (C96), then `leads_rank` with a rank over buffer, pending actions and the entries not yet visited, which no other goroutine raises; with C85 everything read is matched, reported and acknowledged in order |
| C100 | infinite executions of the process: `Model/System` joins the connection machine and the controller machine, Props/System | each part of an execution is an execution of that machine and inherits fairness; C99 brings the reader to rest, C97 applies what arrived (finitely many reports), C89 says what is then shown. Missing are frames that contradict each other, for which it is false (C46), and reports that come during the discovery (C72, C97) |
| C101 | `reportString` of decoded payloads, read back by the independent reader Spec/Print (`words`, `readHex`, `readMicro`, `readHms`), Props/Print | round trip per kind of report from bytes to what the text says; distinctness of classes and durations follows from reading; sensors by the bound of C94 and uniqueness of the nearest millionth. Violated: unknown binary state prints as off, seven decimals are rounded (with the exact rounding bound kept) |
| C102 | `Model/Process` joins requests and answers to `Model/System`: `want` holds what a goroutine is about to submit, `req` its last request; Props/Process | invariant `WInv` over the joined machine (whoever waits has asked, whoever knows was told), then C89's account of what was delivered to which request brings every answer back to a frame on the wire. Violated: one protocol info reply answers the requests for two nodes (it carries no node id) |
| C103 | infinite executions of `Model/Process`; fairness of every goroutine that can move, `FairAnswers` for lost answers, `FairWakes`; Props/ProcessFair | each request is answered by frame or timer (C96), so the joined execution is fair in the sense of C97/C100 and each node's part is a fair execution of the node machine (C98); the discovery loop starts every identification. Missing, because it is false: the goroutine that reads the channel late and waits on nil for ever (`C103_violated_late`, as C32/C96) |
| C104 | infinite executions of `Model/Controller` under `FairCtl`; alarms counted in the history of applied reports (`alarmsRaised`); Props/AlarmFair | the pulse of an alarm is enabled whenever the node's lock is free, which it is again and again (`leads`); a pulse comes only from a raised alarm, so finitely many are left and while the alarm shows one is left. Missing, because it is false: nodes loaded from a file written during an alarm (`C104_violated_restart`: a reachable save and the fair execution that shows the alarm for ever) |
| C105 | `Model/Controller` with `Life` (restarts with the saved file); Props/Known | invariant `SeekInv` (nobody is after something known, since there is one identification per node), preserved by every step; the restart goes through C48. Not claimed, since it is not so: the classes (reset in every round, C56), the state of being awake (asked again after a restart) |
| C106 | `Model/Controller`, `Model/Commands` (On, Off, Level); Props/Control | invariant over every run: the classes change only by the two steps of the identification (`classes_step`), the first resets them to the mandatory ones, the second adds; an identified node has no identification left (`oneInv`). Violated for the classes of the device database: `C106_violated_switch_lost` (On sends, then the node is identified and On sends nothing for ever) |
| C107 | `Model/DevGen` (the generator), `Tables/Files*` (the 553 files of database/json, made by tools/gen_tables.py), `Tables/Devices*`; Props/DevGen | evaluation of the generator by the kernel over all files, with numbers in place of the keys (`genDevicesN_eq`, the numbering is injective). Not modelled: the JSON decoder on these files (gen_tables.py reads them), text/template, the parameters; `removeNewLines` (generators/database/database.go 346-351) is called by nothing but its test |
| C108 | `Model/DevGen`, `newDevice`; Props/DevGen | induction over files and references: what the switch finds is the first reference with the label (`genDevices_find`); combined with C60 and C107 for the committed files. Violated for the data of later files with the same ids: `C108_violated_file_lost`; `C108_violated_two_colons` |
| C109 | `Model/Save` (the assignments of the locked regions one by one, what a save can see of a node during any number of steps) over the controller machine; Props/Save | induction over the steps, with C105 (what is known is final) and `keeps_step`. Violated as to completeness: `C109_violated_brand_lost`, `C109_violated_endpoints_lost` (both over all executions after the restart). Reads and assignments of single fields are taken as indivisible; command classes and states are not compared |
| C110 | `Model/Process`, `Model/DeviceClass` (`IsDeviceClass` with its three separate reads), `Model/DevGen`; Spec/Shown, Props/Shown | invariants over the process (`EpInv`, `ProdOk`), composed with C102 (what was told was on the wire), C105, C107 and C108 |
| C111 | `Model/Users` (the program of zwave-example: event loop and any number of requests) over `Model/Controller`; Spec/Users, Props/Users | invariants: events in the queue name listed nodes (`evInv`), handled + in hand = taken (`loopInv`), with C43; the controller's part of a fair execution of the program is fair (`uctl_fair`), the steps of the loop follow by `leads`. Missing, because it is false: the discovery (`C111_violated_hangs`, a fair execution; `C111_violated_map_race`). If `Connect` fails, `main` goes on with a nil controller and dies at once; this is not modelled |
| C112 | the same; Props/Users | an invariant per request from the moment at which it is made (`reqInv`), a ranking by the nodes left to encode; case analysis of the steps that end the process (`C112_only_state_races`). Violated: `C112_violated_hangs`, `C112_violated_list_race`, `C112_violated_state_race` (after the discovery and without a configuration file) |
| C113 | infinite executions of `Model/System` under `FairSys`; alarm frames of the wire (`WireAlarm`); Props/AlarmWire | C100 gives the moment after which every report of the node has been applied; a step that applied one more would apply it twice, so the alarms applied are constant (`applied_settles`) and C104 ends them; the last type is a fold over the applied reports (C53), which are those of the wire. Missing, because it is false: nodes loaded from a file written during an alarm (`C113_violated_restart`) |
| C114 | infinite executions of `Model/Conn` under `FairConn`; Props/CommandFair | a waiting request is taken by a writer (C96), the writer's position decreases at each of its steps until it writes (`taken_written`), C90 and C95 say what is written. Missing, because it is false: a port that is lost between the call and the write (`C114_violated_lost`) |
| C115 | `Model/Process`; Spec/Sleep, Props/Sleep | invariant: an identification that is past its wait, and a request that is wanted, have an excuse (`SleepW`); what closes the channel is an applied report (`applied_wire`), which was on the wire. Missing, because it is false: that the command was the notification (`C115_violated_interval`) and that the protocol info was about this node (C102) |
| C116 | `Model/Process`; Spec/Reported, Props/Reported | C45 (states are folds over applied reports) with `applied_wire`; the bytes by C15, C17, C19. Endpoints: an invariant over the controller, the states are never written (`C116_endpoint_states`). Missing, because it is false: the reports of endpoints are shown (`C116_violated_endpoint`), sizes that do not exist (C18) |
| C117 | `Model/Process` and `Model/Persist` together; Spec/Lives, Lemmas/Lives, Props/Lives | `Lives`: an inductive relation over lives with saves cut off anywhere and restarts. `Grounded` is an invariant of the nodes of a life (`grounded_now`, from C102, C110, C113, C115, C116), of the nodes in a file, and is kept by reading it back (`grounded_reread`); a cut off file is not read (C49). The steps of a controller in a process have values from bytes (`sensible_run`), so its nodes can be saved. A save writes each node as it was at one moment; a node written while it changes is C109. Missing, because it is false: sizes that do not exist (C18), concurrent use of maps (C72, C73), whose protocol info it was (C102) |
| C118 | `Model/Process`; Spec/Asked, Lemmas/Asked, Props/Asked | invariant `SentInv`: what an identification has sent is with its goroutine or was given to the connection (`want_keeps`: only `ask` takes it from there); fairness of `ask`, the moment of giving (`given_ready`), then C114 for the connection of the process. `PortHolds` (reading never fails) is needed: `C118_port_needed` is a fair execution in which the request for the nodes is lost with the port and never repeated |
| C119 | `Model/Conn`; Spec/Race (which step accesses which variable), Props/Race | **violated** on five variables, each with a run; exact otherwise (`C119_only_races_partial`): mutual exclusion (`lockInv`) rules out all other pairs. The table of accesses is checked against the steps: unlisted variables are not changed (`C119_writes_sound`) and have no influence (`C119_reads_sound`). A race is taken as two conflicting next steps in a sequentially consistent run; `pkg.result` (written, never read but by `%#v` in log calls), `Connected` and the mutex of the package are left out |
| C120 | `Model/NodeM`, `Model/Controller`; Spec/NodeRace (which step accesses which field of a node, and whether under its lock), Props/NodeRace | **violated** on the states while the file is written, on `connection`/`pushEventFunc` while a node already in the list is set up, on the command classes against a user's command, on `awake` between `isAwake` and a wake-up, each with a run; exact otherwise (`C120_only_races_partial`). The table is checked against the steps: an unlisted field stays the same (`C120_writes_sound`), has no influence (`C120_reads_sound`), and an access listed as guarded is only made when nobody else holds the lock (`C120_guard_sound`). Corollaries: no race on the states or on what was found out unless the saver reads the node, after identification only the saver races, none on `awake` for a node that is awake. A report that puts into a map with entries while the saver reads it kills the program (`C120_violated_kills`). The map of the list is C72 |
| C121 | `Model/Controller`, `Model/NodeM`, `Model/Persist`; Spec/SaveEnd (what the file contains along an execution), Props/SaveEnd | **violated** for what the identification finds out without pushing an update: `C121_violated_stale`, a fair execution in which every update is saved and the file for ever lacks the command classes of a sleeping node. Otherwise proved on fair executions: `C121_file_in_the_end_partial` (nodes that stay as they are), `C121_updates_suffice_partial` (every other change of what is saved pushes an update, `ctl_pushes`, so the nodes stay as they are because no update comes), `C121_identified_partial` (no identification under way), `C121_restart_partial` (a restart finds every node again). Without any assumption about earlier saves: `C121_nothing_pending` (Props/SavePending; at every moment of every execution, if no update waits to be saved, no save is in progress, the discovery has no node at hand and none is being identified, then the file says exactly what is known, or nothing has changed since the start), and on fair executions `C121_known_in_file_partial`. Exceptions kept: a crash (C73), a stuck saver (C47). A node is taken as it is when the saver is done with it; torn reads are C109 |
| C122 | the whole process (`Model/System`) with Spec/SaveEnd; Props/WireFile, Props/WireSleep | on fair executions of the whole process: `C122_updates_stop` (a potential: updates pushed, plus two for every delivery under way, plus one for every alarm to be cleared, plus what each identification can still push, does not grow when nothing arrives, so the updates stop), `C122_file_partial` (then, by C121, the file says what is known), and with C100, C113 and C48 what a restart shows: `C122_on_after_restart_partial`, `C122_level_after_restart_partial`, `C122_state_after_restart_partial`, `C122_no_alarm_after_restart_partial`, `C122_last_type_after_restart_partial`. That the reports which arrive are decoded ones is proved (`steps_sensible`), for the answers the identification gets it is assumed. Kept as hypotheses: discovery over, no identification under way, at least one update so far. Without the assumption about identifications, so also in a network with nodes that sleep: `C122_states_in_file_partial` (the states of all nodes, though not their command classes, C121, are in the end in the file) and `C122_on_while_identifying_partial`, `C122_level_while_identifying_partial`, `C122_state_while_identifying_partial`, `C122_no_alarm_while_identifying_partial`, `C122_last_type_while_identifying_partial`; there an update must be unsaved when the discovery is over, or come later. Exceptions: a crash (C73), a stuck saver (C47) |
| C123 | `Model/Controller`, `Model/System`; Spec/Network (`SameNetwork`: every node in a reply is in the file), Props/SameNetwork, Props/SameNetworkWire, Props/SameNetworkFile, Props/SameNetworkAlarm, Props/SameNetworkEvents (C74 and C88 without exception), Props/SecondStart | invariant `Undisturbed` (the list is that of the file, `getNodes` never gets to `Add`, nothing is stuck), so C97, C100 and C122 hold without their hypotheses about the discovery and about what was applied before (for the file, Props/SameNetworkFile, there must at some moment be no identification under way; every state that is applied is announced, `C123_announced`). `C123_second_start`: what is saved after a discovery is such a file, so a restart on a network in which the stick reports no further nodes meets the hypothesis, and so does every later one (`C123_every_later_start`); the remaining crash is C73. `C123_violated_new_node`: one unknown node suffices to lose a report |
| C27 | `Endpoint(id)` | **violated**: index is off by one; exact lookup |

### Matching and the connection machine (Props/Match, Props/Conn*)

| id | model | proof |
|----|-------|-------|
| C29 | `matchPkg` | sound on buffer positions; equivalence for frames that carry a command; **violated** for shorter ones |
| C30 | `matchPkg` | every proper reply matches |
| C31 | `matchPkg` | **violated** by buffers under nine bytes |
| C32 | `matchPkg` | **violated** with two protocol-info requests (the reply has no node id) |
| C33, C34 | `Conn.step` | inductive invariants over all label sequences (ghost history) |
| C35 | `Conn.step` | every open request has a live timeout worker or a writer about to start one |
| C36, C68 | `Conn.step` | invariant until the first reconnect; **violated** after it (two writers) |
| C37 | scan of the table on NAK | all tables and orders; safety under interleavings |
| C38 | resend on CAN | per-iteration variables proved; **violated** with shared loop variables |
| C39 | table contents | invariant for requests not retransmitted; **violated** by resend (entry stays for ever, no bound) |
| C40 | matching scan | **violated** (all matching requests complete); exact set proved |
| C41 | callers | release is reachable unless the process crashed; **violated** by a crash |
| C42 | wire | every frame on the wire is of a submitted request; counting invariant |
| C67 | map accesses | **violated**: control byte scan iterates without the lock; the only race |
| C69 | connection lock | the holder can release by its own steps |
| C83 | nil port after a failed re-open | **violated**; exact condition, safety if no re-open fails |
| C85 | the reader inside the concurrent machine | simulation: its history is that of the byte-level reader of Model/Reader; termination measure per frame |
| C84 | all panics of the machine | **violated** in five ways; complete list of causes as an invariant (`Spec/Crash.Cause`) |

### Controller, nodes (Props/Ctl, Props/Node, Props/NodeList)

| id | model | proof |
|----|-------|-------|
| C43 | event queue | refinement to a bounded FIFO |
| C44 | `getNodes` | fold over the bitmap, all prior lists |
| C45 | `ReportCallback` | frame property of every step; ghost of deliveries |
| C46 | delivery goroutines | **violated** (no order among goroutines); proved when deliveries do not overlap |
| C47 | `saveDebouncer` | cause, quiet period and rest; **violated** when the saver copies the list during `Add` |
| C51 | `nodes/list.go` | fold of `Add`; panics of `Add` exactly; **violated**: stays locked after one |
| C52–C54 | `ProcessEvent` | fold of the reports; C54 **violated** (0xFE, "unknown", is shown as off, on, or level 100) |
| C55 | `Identify` | invariant over interleavings |
| C56 | classes | **violated**: database classes are dropped by the next round; exact set proved |
| C57 | termination | measure for answering nodes; **violated** otherwise by an infinite run |
| C58 | wake-up | counter invariant; **violated** with two identifications |
| C59 | endpoints | **violated**: endpoint k of k missing; exactly 1..k-1 |
| C66 | links | invariant over discovery, loads, interrogations |
| C70 | panics of a node | proved for usable nodes; **violated** without maps or before `Setup` |
| C71 | lost wake-up | **violated**; a waiter on its channel is released |
| C72, C74 | report or use during discovery | **violated** (copied lock, race; announced before `Setup`); proved outside the window |
| C73 | save during reports | **violated**: JSON encoder iterates the maps unlocked |
| C75 | identifications | at most one per node; exact count after a discovery |
| C87 | what identification sends (Props/NodeAsk) | invariants of the node machine with one identification; for controller nodes without that hypothesis (Props/CtlEvents) |
| C88 | update events (Props/CtlEvents) | step analysis over reachable states; **violated** between `Nodes.Add` and `Setup` |

### From the wire to the states (Props/EndToEnd)

| id | model | proof |
|----|-------|-------|
| C89 | connection machine and controller machine side by side: the controller's arrivals are the callbacks of the connection | composition of C85, C07, C86, C15, C20, C45 and C46; "on" and "level" stated on the bytes of frames alone |

### From the user to the wire (Props/CommandPath)

| id | model | proof |
|----|-------|-------|
| C90 | commands of nodes composed with the connection machine | C26, C01 and the `contents` invariant; the last part by driving the machine from an arbitrary reachable state (`reaches_port`) |
| C91 | connection machine | invariant `OrderInv` over all steps while there is one writer; **violated** after a reconnect (two writers) and by a cancelled command (repeated after the later one) |

### Tables and tools (Props/Tables, Props/RealDB, Props/Tools)

| id | model | proof |
|----|-------|-------|
| C60, C61 | lookups in the generated tables | decision over the table, lifted |
| C62 | `escape` / reader of Go literals | induction; **violated** by NUL and byte order mark |
| C63 | `combine` | induction on rows; **violated**: last group lost, clock steps |
| C64 | names | all values; **violated** for eight classes |
| C76, C77 | generator of mandatory classes | **violated** for Multichannel Association; the committed table is what the generator makes of the text |
| C78 | device generator | **violated** if references differ in letter case |

### Recorder (Props/Recorder)

| id | model | proof |
|----|-------|-------|
| C92 | recorder machine: callers' memory, row goroutines, channel of 100, log writers | invariants on where each row is and on buffers; drain by a weight; **violated**: order (goroutines overtake, time taken inside), reused buffers |
| C93 | recorder machine and gob decoder | exact characterisation; **violated** after a second `Open` (two encoders, duplicate type definitions), for good |

### Persistence and connecting (Props/Persist, Props/Connect)

| id | model | proof |
|----|-------|-------|
| C48, C82 | save, load | printer/parser round trip by mutual induction; invariant of every list reachable over any number of restarts |
| C49 | crash during a save | exact set of file contents; **violated** (truncate before write) |
| C50 | failed loads | the parser's recursion bound is irrelevant; it rejects every proper prefix of a printed object, blank, non-JSON, non-object |
| C79 | errors of saving | **violated**: nil always returned |
| C80 | hostile files | **violated**; panicking files characterised exactly; own files safe |
| C81 | announcements of loaded nodes | first ten exactly; **violated** beyond |
| C65 | `ConnectWithCustomPortOpener` | invariants of the timed machine; **violated** in four ways |

## 4. Testing the theorems

`seeded/LOG.jsonl` lists the seeded bugs: the definition edited, the edit, the claim it breaks, the theorems that
failed, and the theorems that were tightened because they did not.
