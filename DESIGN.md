# Formal model of hired/gevulot in Lean 4

## Layout

* `lean/Verif/Model/*.lean` – the model, one file per Go file or small group of Go files. Every definition
  cites the Go file and lines it models, and says what was simplified.
* `lean/Verif/Spec/*.lean` – small specifications written without the model's helpers (wire grammar in terms of
  `Nat` arithmetic, sequential config distributor, LIKE patterns, ...).
* `lean/Verif/Proofs/*.lean` – helper lemmas and invariants.
* `lean/Verif/Props/*.lean` – the property theorems, each next to an `example` showing a concrete non-trivial
  case meets its hypotheses.
* `lean/Verif/Tests/*.lean` – the unit tests of /repo, of the model, each under its name: the same inputs, the same expected results,
  checked by evaluation in the kernel. Tests with goroutines are executions with the same calls and observations. They
  are evidence for the model, not for the properties.

## Modelling conventions

* Bytes are `BitVec 8`, Go strings and slices of bytes are `List (BitVec 8)`, `int32`/`uint32` are `BitVec 32`,
  `int16` is `BitVec 16`; Go `int` (64 bit) is `Int`, with explicit wrap-around where the code multiplies.
* A Go function returning `(T, error)` returns `Res T` = `ok | err | panic`; a run-time panic is an explicit outcome.
* Methods with pointer receivers return the new value of the receiver next to their result.
* `nil` slices that matter (SQL NULL) are `Option`.
* Goroutines are state machines with explicit program counters; `step : State → Action → Option State` is
  executable, `none` means the action is not enabled (the goroutine blocks); an execution is a list of actions; a
  property of all executions is proved by induction over it.
* External calls (network, DNS, TOML, kingpin, fsnotify, url.Parse, PostgreSQL) are parameters or environment
  actions: the theorems hold for every behaviour they may have. C100–C102 are about `ParseDatabaseURI` with the actual
  `url.Parse`, modelled in Model/URL.lean.

## Plan per property

| id | what is modelled | how it is proved |
|----|------------------|------------------|
| C01–C05 | `ReadBuffer`, `WriteBuffer` on byte lists, `encoding/binary` shifts on `BitVec` | algebra; spec in base-256 `Nat` digits |
| C06–C10 | `StandardFrame`, `StartupFrame`, `io.CopyN` over a segmented reader | induction over segments; C10 is false: refutation + exact behaviour |
| C11–C23 | every message's `Frame` / `Parse*`, `RecvMessage` dispatch | exact grammar equivalence per parser, the rest are corollaries; C18, C19, C20 are false: refutation by witness + exact characterisation |
| C24–C26 | `ParseDatabaseURI` over the components `net/url` returns | lookup equation per key, permutation invariance |
| C27–C32 | `negotiateSessionParams`, `establishDBConnection`, `getDBConnnectionParam` over byte streams and an arbitrary sequence of config store answers | induction over the stream; C28 false: witness with duplicate parameter |
| C33–C40 | the five session goroutines, four bounded channels, `Close` step by step, byte-level connections | invariants over all action sequences; C37, C38, C40 false: witness schedule / invariant + partial theorem |
| C41–C42 | `Event` with `sync.Once` at the level of its atomic steps | invariant, any number of threads |
| C43–C49 | `ConfigDistributor` with RW-mutex, monitor goroutine, subscriber channels | refinement to a sequential distributor; C47, C48 false: witness schedules + partial theorems |
| C50–C57 | `Server` with mutex, waitgroup, listeners, sessions, `Start`/`Serve`/`ServeConn`/`Close` threads | invariants; C52, C53, C56 false: witness schedules + partial theorems |
| C58–C61, C65, C66 | `cli.Run` decision logic, `prepareConfigChan`, `watchServerConfig`, event dispatch, a file system with one watched path | case analysis, invariant over file/event histories; C61, C65, C66 false as stated: witnesses + partial theorems |
| C62–C63 | `OIDTableMapping` loop over rows, the catalog query's WHERE clause with a LIKE matcher | induction; both false as stated: refutation + exact characterisation; the matcher is proved to be LIKE as its rules define it |
| C67–C69, C83 | the whole session: handshake, relay and closing interleaved (Model/FullSession.lean) | simulation by the session of C33–C40, invariant of the handshake, uniqueness of the packet and message boundaries, termination measure |
| C70–C72 | the server with a whole session per `ServeConn` (Model/System.lean) | invariant linking the two models; projections to the server and to each session, whose theorems carry over; C70, C71 false: witnesses + partial theorems |
| C73–C77, C84, C85 | the whole program (Model/Process.lean): the file and its watcher, the distributor and the server with its sessions, tied together as `cli.Run` and `server.Run` do | each part makes the steps of its own model, whose theorems carry over; an invariant linking the three; a termination measure |
| C78–C82 | `fileWatcher` on its own, any number of calls of `Watch` and `StopWatch` (Model/FileWatcher.lean) | invariant per call; C80, C81, C82 false: witnesses + partial theorems |
| C86, C87 | the server with `sync.WaitGroup` (Go 1.13) at the level of its atomic operations (Model/WaitGroup.lean) | refinement of the model with a counter, invariant on the phases of the wait group, termination measure; C86 false: witnesses + partial theorems |
| C88, C89 | `FullSession`, `FileWatcher`: which goroutine is about to access which variable (Spec/Races.lean) | false as stated: witness states + exact characterisation from the invariants; none in the whole program for `s.dbConn` |
| C90, C91 | a whole session with its log (Model/Logging.lean) | invariant on log and messages in transit; C91 false: witness + partial theorem |
| C92–C94 | `FullSession` (same model as C67–C69) | false as stated: family of executions, witnesses + partial theorems |
| C95 | `Inspector` as a sequence of calls (Model/InspectorUse.lean) | case distinction, induction on the calls |
| C96 | `Pieces`: the session of C67–C69 with each `Read` and each part of a `Write` a step of its own | refinement: simulation by `FullSession` and the converse, two measures for termination |
| C97 | `Whole`: the program of C73–C77 with the sessions of C96 | refinement: simulation by `Process` and the converse, lexicographic measure |
| C98 | `handshake` (C27–C32) and `FullSession` (C67–C69) | refinement: the sequential program run ahead from every state of the session gives the same outcome; the converse by driving the session along the sequential program |
| C99 | `Session` (C33–C40) and `System` (C70–C72) | false as stated: witness of 270 steps, invariant that the session stays blocked; the queue bound from the invariant of C33–C40 |
| C100, C101 | `ParseDatabaseURI` with `url.Parse` of Go 1.13 (Model/URL.lean), against the documented grammar of connection URIs (Spec/URI.lean) | induction over the grammar, one lemma per function of `net/url`; false as stated: witnesses + partial theorems |
| C102 | the same in the whole program (C97) | from C97_db and C100_partial |
| C103 | `prepareConfigChan` and `watchServerConfig` with the goroutines of `Watch` step by step and the file (Model/CliWatch.lean) | refinement: simulation by the model of C58–C61, whose theorems carry over; termination measure |
| C104 | `Inspect` with `hex.Dump` (Model/BufferInspect.lean) | induction on the lines |
| C105 | `Program`: the program of C97 with the watcher of C103 (Model/Program.lean) | refinement: simulation by `Whole`, at rest also the other way round; lexicographic measure |
| C106 | `ServerLock`: the server of C50–C57 with `Lock`, `Unlock` and each thing in between as steps (Model/ServerLock.lean) | refinement in both directions: a section takes effect with the first thing done in it; measure |
| C107 | `DistributorLock`: the distributor of C43–C49 with `Lock`, `Unlock`, `RLock`, `RUnlock` and each thing in between as steps (Model/DistributorLock.lean) | refinement in both directions, as for C106; a reader takes effect when it reads; measure |
| C108, C109 | `SessionLog`: the session of C54 and following with the errgroup, the result of `Start` and three logs (Model/SessionLog.lean) | invariants over the steps; what a goroutine returned does not change; both directions of the projection |
| C110 | `ServerLog`: the server of C50–C57 with the log of each thread (Model/ServerLog.lean) | invariants over the steps, one for each kind of call; both directions of the projection |
| C111 | `SystemLog`: the process of C70 with the server of C110 and the sessions of C108, C109 (Model/SystemLog.lean) | invariant; both directions of the projection |
| C112 | `WatchLog`: the watched file of C103 with the lines of `OnWrite` and the message of `Run` (Model/WatchLog.lean) | invariant; the refinement of C103, and that of C105 for the whole program; both directions of the projection |
| C113 | `DistributorLog`: the distributor of C41–C49 with the log of its monitor (Model/DistributorLog.lean) | invariant over the steps; both directions of the projection |
| C64 | the connections of `Server` (same model as C50–C57) | invariant; false as stated: witness schedule + partial theorem |

## How the theorems are stated

* `Props/*.lean` holds the property theorems, named after the property: `C33`, `C34_finite`, ... A property whose English
  statement is true of the model has only such theorems (status `proved`).
* A property that is **false of the code** is kept as stated. Its formal version is a definition `Cnn_claim` (or the
  statement of the refutation), `Cnn_refuted...` proves that it fails by a concrete execution, and `Cnn_partial...` proves what
  does hold, as an exact characterisation where possible (status `partial`). These are findings about the code, not gaps in
  the proofs; MANIFEST.json says in one line what is wrong.
* Where a property needs vocabulary, it is in `Spec/*.lean` (or in the `Props` file itself), written without the model's helpers:
  big-endian numbers in `Nat`/`Int` arithmetic, the wire encoding of every message, streams of messages, PostgreSQL's reading of
  a startup packet, the sequential configuration distributor, "listening on the current address", and so on.
* Transition systems: `Reachable step init s` is "there is a finite sequence of actions from `init` to `s`", with no bound on its
  length, the number of threads, messages, channels or connections. Statements about "eventually" are of one of two forms: from
  every reachable state there is a continuation by the code's own steps that reaches the goal (nothing is stuck); or the code's own
  steps are finite in number, and where no such step is possible the goal holds.
* Beside each theorem an `example` gives a concrete state or input that meets its hypotheses.

## Trusted base

* **Lean's kernel** (4.33.0), with Mathlib as a library of proved lemmas; no `sorry`, `admit`, `native_decide`, `bv_decide`, no
  axioms of our own.
* **Axioms**: `propext`, `Quot.sound`, `Classical.choice` (Lean's own) and no others. AXIOMS.md lists, for every theorem in
  MANIFEST.json, which of them it uses.
* **The model is a faithful reading of the Go code.** This is by inspection: each definition cites the lines it models. The code
  was never run. What is abstracted is listed below.
* **Go semantics as assumed**: sequentially consistent memory between goroutines (the code has unsynchronised accesses,
  C88 and C89 say exactly which for the variables without a lock; the consequences of weak memory are outside), `int` of 64 bits, the documented behaviour of channels, `select`,
  `sync.Mutex`/`RWMutex`/`Once` and, except in `Server`, `WaitGroup`, `errgroup.Group` (its `errOnce` is one step in Model/SessionLog.lean), `io.CopyN`, `bytes.Buffer`, `encoding/binary`, `encoding/hex`, the verbs of `fmt` that are used, maps. Allocation succeeds (up to
  Go's limit, beyond which `make` panics). A panic in any goroutine ends the process.

## What is modelled, and what is not

| file in /repo | modelled | left out |
|---|---|---|
| `pkg/pg/read_buffer.go`, `write_buffer.go` | every method (`Inspect` with Go's `hex.Dump`, Model/BufferInspect.lean) | |
| `pkg/pg/frame.go`, `standard_frame.go`, `startup_frame.go` | everything; readers deliver arbitrary segments and end with an arbitrary error. In a session (Model/Pieces.lean): read by read, concurrently with the other goroutines | |
| `pkg/pg/*_message.go`, `message_field.go` | every `Parse*`, every `Frame`, `GetParameter` | nil pointers inside message structures (no code creates them) |
| `pkg/pg/conn.go` | `RecvMessage`, `RecvStartupMessage`, `SendMessage`, `SendByte` | `NewConn`, `Unwrap`, `Close` (pass-through) |
| `pkg/pg/dsn.go` | everything, over the parts `net/url` returns; for C100–C102 with `url.Parse`, `Hostname`, `Port` and `Query` of the Go 1.13 standard library (Model/URL.lean; its source is not in /repo and was not at hand, so this is as trusted as the documented behaviour of the library) | `os/user` |
| `pkg/server/session.go` | everything. The handshake as a sequential program (Model/Handshake.lean); the concurrent session with an over-approximation of the handshake (Model/Session.lean); both together, the handshake step by step (Model/FullSession.lean); the log of the relayed messages (Model/Logging.lean); what `Start` returns and all other lines, each goroutine's in its order (Model/SessionLog.lean, C108, C109) | the errors in the lines about closed connections; a second `Start` on the same session |
| `pkg/server/server.go` with `session.go` | the server and the sessions of all its connections as one process (Model/System.lean): `ServeConn` runs a session, `Close` of the server closes sessions one after the other under the mutex | the configurations that sessions ask for are arbitrary here (in Model/Process.lean they come from the distributor); what `Start` returns to `ServeConn` is arbitrary here (in Model/SystemLog.lean, C111, it is what the session returned) |
| `pkg/server/event.go` | everything, `sync.Once` at the level of its atomic operations | |
| `pkg/server/config_distributor.go` | everything; sections under the lock that neither block nor send are one step in Model/Distributor.lean, and step by step in Model/DistributorLock.lean (C107); what the monitor logs is in Model/DistributorLog.lean | |
| `pkg/server/server.go` | everything; sections under the mutex are one step in Model/Server.lean, and in Model/ServerLock.lean `Lock`, `Unlock` and each thing done in between are steps of their own. The wait group is a counter in Model/Server.lean; in Model/WaitGroup.lean the server runs with `sync.WaitGroup` at the level of its atomic operations, with its panics. What is logged, each goroutine's lines in their order, is in Model/ServerLog.lean | time (the watchdog may fire whenever `Close` is waiting) |
| `pkg/server/config.go`, `run.go` | `Config` as the two strings; `Run`: how the channel of configurations, the distributor, the server and its sessions are tied together, and the two deferred `Close` calls (Model/Process.lean) | |
| `pkg/cli/cli.go`, `run.go`, `/repo/main.go` | `Run`, `parseArgs`, `prepareConfigChan`: decisions and effects, over the outcome of kingpin; `main`, `Run` from `prepareConfigChan` on as the main goroutine of Model/Process.lean; `configureLogger` for the lines of sessions (C109) | kingpin, the text of messages |
| `pkg/cli/read_server_config.go` | over the outcome of TOML decoding | TOML |
| `pkg/cli/watch_server_config.go`, `file_watcher.go` | the callbacks, the handler loop, the events (Model/Cli.lean: one `Watch` as the program uses it, with the file; Model/FileWatcher.lean: `Watch` and `StopWatch` at the level of the goroutines' steps; Model/CliWatch.lean: both together; Model/WatchLog.lean: and what is logged; Model/Program.lean: with the rest of the program) | fsnotify and inotify, except: events are queued in order, adjacent equal ones are merged, the watch follows the file, not the path |
| `pkg/pgmeta/inspector.go` | `OIDTableMapping`: the query on a catalog, the loop over its rows; what `Inspect`, `DatabaseName`, `OIDTableMapping` and `Close` open and close (Model/InspectorUse.lean) | `database/sql` |

Assumptions worth knowing when reading particular theorems:

* Session: bytes of a frame are taken at once when the last one has arrived; a write is one step, with any outcome, including an
  error after any number of bytes (C96 proves that this makes no difference: in Model/Pieces.lean each `Read` and each part of a
  `Write` is a step of its own; C97 does the same for the whole program); one `Start` per session.
* Distributor: the checks given to `Subscribe` are pure functions; user channels have any capacity, may be drained, abandoned or
  closed at any time; the order in which a map is iterated is arbitrary.
* Server: the outcomes of `net.Listen`, `Accept` and `Session.Start` are arbitrary; the configuration store delivers as the
  distributor does (C44).
* File watching: reading the file is atomic with respect to writing it; a program that writes in several steps is several writes.
  Reading that overlaps with a write, and returns a mixture `x` of old and new, is covered: in the model it is a write of `x`, the
  reading, and the write, since notifications of writes that were not taken yet are merged. Only `x` is then among what the file has contained.
* The whole program: a step is a step of one part, or of several at the same time where a value goes from one to the other (a send
  to a channel and the other side's queue growing are the same thing seen from two models). C75_free proves that this does not
  keep any part from making a step it could make on its own. The pointer to a configuration in the model of the distributor is
  the pair of its two strings.
* Catalog: text is compared by characters; collations play no role in `LIKE` with a deterministic collation.

## Testing the theorems

`seeded/LOG.jsonl` records edits of the model in a scratch copy, each a plausible bug (or a repair, which must make a refutation
fail), and which theorems failed. For the transition systems the inversion relation `Tr` in the proofs was edited along with
`step`, so that what fails is an invariant or a property, not the bookkeeping. When a lemma failed it was replaced by `sorry` in the
scratch copy to see the theorems behind it.

A lemma that no longer goes through shows only that its proof depends on the edited line. For most edits of the transition systems
more was done: in the scratch copy the *negation* of the property theorem was proved of the edited model, by a concrete execution
(field `proved_false_of_the_edited_model`), without using any lemma about the edited model that was left unproved. As a control, the
same negation was tried against the unedited model, where it must fail. Edits for which no theorem could be refuted although the
English claim had become false led to stronger theorems (field `tightened`): C70_closed, C73_begin, C76_same (and then C85), C78_end,
C81_stop_partial, C82_printed_partial, C83, C46_source, C64_partial_served, C64_partial_refused, C69_rest, C10_startup_partial,
C05_readInt32Array_any, C05_readInt16Array_any, C28_exact_partial, C63_partial_like, and stronger forms of C28_partial, C34, C68, C72_client, C89_partial, C92_partial, C93_partial and
C94_partial.
