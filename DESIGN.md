# Formal model of go-stomp/stomp in Lean 4 — design

## 1. Layout

`lean/Verif/Model/*`  — the model, function by function; every definition cites file and lines in `/repo`.
`lean/Verif/Spec/*`   — small independent specifications used in property statements.
`lean/Verif/Proofs/*` — helper lemmas (no property is stated here).
`lean/Verif/Props/*`  — the property theorems `Cxx_…`, each with a non-vacuity `example` beside it.
`properties.jsonl`    — the properties in English.
`MANIFEST.json`       — status and theorems per property (`scripts/manifest.py` makes it from `Props/` and
`scripts/notes.json`).
`seeded/LOG.jsonl`    — wrong programs tried against the theorems (section 6).

Go strings and byte slices are `List UInt8`. Errors are values, `nil` is an explicit case, a panic is an explicit
outcome. Goroutines and channels are state machines `step : State → Event → Option State`; an event says which
goroutine moves and how the non-deterministic things turn out (which case of a `select`, order of a map iteration,
outcome of a write, which timer fires). "For every schedule" is an induction over all event lists.

Names: `…_partial` marks a theorem weaker than the English claim; `…_false` (or `…_negation`) proves that the claim is false
of the code, with a concrete run as witness.

## 2. The models

| file in `Model/` | Go code |
|---|---|
| `Bytes`, `AMap` | what is used of `strconv`, `strings`; Go maps as association lists |
| `Codec` | `frame/encode.go`, `frame/reader.go`, `frame/writer.go` on a flat byte list |
| `Bufio` | `bufio.Reader` (fill, ReadSlice, ReadBytes, Read, ReadByte) on a transport that delivers arbitrary chunks, and `frame/reader.go` on top of it |
| `Memory` | `bufio.Reader` and `frame.Reader` on byte arrays that are overwritten in place, with `bytesToString` (strings that share memory with slices); any number of readers, and a program that writes into the bodies |
| `BufioWriter` | `bufio.Writer` with its sticky error on a transport that may fail at any byte, and the writes of `frame/writer.go` |
| `Header`, `Frame` | `frame/header.go`, `frame/frame.go` as values |
| `HeaderHeap` | the same as heap objects: slices with backing array, length, capacity, any growth policy |
| `HeartBeat` | `frame/heartbeat.go`, `server/client/frame.go` (heart-beat parsing), milliseconds |
| `Client/Options`, `Client/Connect`, `Client/Buffers` | `conn_options.go`, `ConnectWithContext` with the sizes of its buffers |
| `Client/Frames`, `Client/Transaction`, `Client/Message` | frames built by the API (`conn.go`, `send_options.go`, `subscribe_options.go`, `id.go`), `transaction.go`, `message.go` |
| `Client/System` | the running client: API callers, `processLoop`, `readLoop`, `Subscription.readLoop`, `Unsubscribe` with its helper goroutine, channels, `closeMutex`, `sync.Once`, `sync.Cond` |
| `Client/Timer` | the same with a clock and the two timers of `processLoop` |
| `Float64`, `Client/Grace` | finite float64 products and their conversion to a duration; the read timer of `processLoop` |
| `Client/Read` | the same with calls of `Subscription.Read` |
| `Client/Reader` | the same with the frame that `readLoop` has read and not yet pushed into `readCh` |
| `Client/Stats` | the same with the counters of `ConnOpt.WithStats` |
| `Client/Errors` | `errors.go`: the texts of the errors a program sees |
| `Client/Dial` | `DialWithContext` and the handshake with the network connection in view |
| `Client/TxSystem` | the same with `Transaction` objects used by any number of goroutines |
| `Client/Bodies` | the same with the memory of the program: the arrays of the bodies given to `Send` |
| `Server/Types`, `Server/TxStore`, `Server/SubscriptionList`, `Server/Storage`, `Server/Version` | data structures of `server/client`, `server/queue` |
| `Server/Conn` | one server connection (`server/client/conn.go`): handlers, process loop, clean-up |
| `Server/System` | all connections, request channel, processor, queues, topics |
| `Server/AnyStorage` | the same over any implementation of `queue.Storage` |
| `Server/Managers` | the managers of queues and topics: `Find`, and queues and topics as objects |
| `Client/Accesses` | which goroutine of the client takes part in a step, locks and unlocks `closeMutex`, reads or writes `closed` |
| `Server/Accesses` | which goroutine of the server reads or writes which subscription and which frame, step by step |
| `Server/TopicHeap` | broadcasting at the level of frame pointers |
| `Server/ReadLoop`, `Server/Listen` | read deadline, accept loop |
| `Server/Serve` | `ListenAndServe`, `Serve` and the accept loop in front of the server over any storage (`server/server.go:51-89`, `server/processor.go:23-43`, `102-130`) |
| `Server/LinkedList` | `SubscriptionList` as it is written: loops over a linked list from which elements are taken out |
| `Server/Timer` | a server connection with a clock, the heart-beat timer of `processLoop` and the read deadline of `readLoop` |
| `Joint` | the server of `Server/System` and any number of clients of `Client/System`, in one execution, joined by byte streams |

## 3. Per property: what is proved, and how

Theorems are listed in `MANIFEST.json`; here the idea.

* **C01, C02, C03, C04, C06** (`Props/Codec`): structural induction on the bytes. The key lemmas say what the reader does with one
  encoded header line and with an encoded frame followed by anything; C04 follows from an extension lemma (a frame
  read from a prefix is read from every extension) and the round trip. `Spec/Codec` has its own escape table and its own
  notion of a well-formed frame. C06 is about arbitrary input; `C06_fuel` shows the fuel of the model is never exhausted.
* **C05** (`Props/Bufio`): simulation of the chunked reader by the flat reader, for all buffer sizes and chunkings; a transport
  that returns 100 empty reads in a row is excluded, with a witness why.
* **C07, C08** (`Props/Header`): the heap model refines a list of pairs (`Spec/Header`); separation invariant: different headers
  own different arrays, for any interleaving of operations and any growth policy of `append`.
* **C09, C10** (`Props/Header`, `Props/HeartBeat`): digit-string arithmetic with explicit 32/64-bit bounds.
* **C11**: false. `C11_negation`: for every buffer size there is a larger header section that is accepted.
* **C12, C14, C50** (`Props/Client/Connect`): case analysis of the handshake. `C12_connect_iff` characterises success.
  C50 is false (the client does not look whether it asked for the version).
* **C51** (`Props/Handshake`): the client's CONNECT frame (C14) goes through the codec (C01) into `handleConnect`, the answer back into
  `handleResponse`. The reasons for refusal are computed from the option list alone (`refusal`), in the order the server checks them.
* **C13** (`Props/Interop`): client and server negotiation composed through the bytes on the wire (C01); linear arithmetic. False for
  read timeouts below a millisecond (announced as 0, but enforced).
* **C15, C16, C17, C18, C28** (`Props/Client/Frames`, `Props/Client/Ids`): header algebra composed with C01; counter arithmetic; induction over call
  sequences with an arbitrary outcome for every send.
* **C19, C20** (`Props/Client/Closed`): invariant "a caller at its send on `writeCh` holds `closeMutex`, and the connection is not closed";
  `closed` is monotone; a call that starts on a closed connection returns by its own steps.
* **C21** (`Props/Client/Order`): the trace of accepted, taken and sent frames; prefix invariant.
* **C22** (`Props/Client/Receipts`): ghost trace; every response channel is registered under the receipt id of its request only. False as worded
  (a RECEIPT that arrived before the request satisfies it), true for servers that answer requests.
* **C23** (`Props/Client/Messages`): `Spec/Client` defines which MESSAGE frames are due to a subscription from the observable trace; the
  content of `C` equals them up to two frames in flight. Needs distinct ids (false otherwise), which users get by leaving the ids to the
  library (`Spec/Library`, `C17_requests`, `C23_library`; `Proofs/Client/Library` tracks which caller owns which value of the counter).
* **C24, C25** (`Props/Client/Unsubscribe`): closing exactly once; panics by sending on a closed `C` are possible (two witnesses), and only in the
  named situations; the lost wake-up of `Unsubscribe` as a run after which no continuation returns.
* **C53** (`Props/Client/Panics`): the panics of the model are enumerated (`Model/Client/System`, `Panic`); every crashed execution is traced back to
  the step that crashed it (`Proofs/Client/Panics`). A nil response is excluded because `Send` and `Disconnect` hold the lock while they wait, so their
  request is the last one accepted (`Proofs/Client/NilResponse`). What remains is a SUBSCRIBE with a receipt header, and the panic of C24.
* **C26, C27** (`Props/Client/Failure`): `C26_stuck`: from a state with a registered channel nobody receives from no continuation gets
  `processLoop` out of its send. Positive parts: progress and who is told, by invariants.
* **C29** (`Props/Client/Timer`): invariants of the timed system: deadline of the timers against the time of the last transmission, with the
  time the loop was late as a separate quantity.
* **C30–C35, C46** (`Props/Server/Basics`, `Session`, `Replies`): one connection in an arbitrary environment (the request processor is a free
  adversary). `Spec/Session` specifies sessions and transactions independently of the handlers; `SessionInv` relates them.
  What holds of C46 for a client that sends nothing after DISCONNECT (`Props/Server/Disconnected`, `Spec/Residue`) is an invariant of the whole server: no step writes a
  RECEIPT or an ERROR, or asks for a message to be enqueued, unless a frame of the client is read.
* **C36, C43** (`Props/Server/Queues`): a trace relation between requests and deliveries at each queue (`Spec/Queue`), simulated by the system for all
  schedules.
* **C37, C38** (`Props/Server/Conservation`): `places` lists all the locations a message can be in; the multiset of places is
  invariant. False through failed writes and stranded messages (witness runs).
* **C39** (`Props/Server/Topics`): trace relation (`Spec/Topic`) plus the pointer-level model for independence of the frames.
* **C40, C41, C45** (`Props/Server/Basics`, `Acks`, `Props/Interop`): list algebra; exact statement of what ACK/NACK do on a connection, and witnesses
  against the intended semantics.
* **C42** (`Props/Server/Basics`/`Proofs/Server/Panics`): invariant excluding every panic under the five excluded client behaviours, each shown necessary.
* **C44** (`Props/Server/Replies`): provenance of every written MESSAGE over all schedules.
* **C47** (`Props/Server/Deadlock`, `Props/Server/Few`): characterisation of the states where the processor stands still, and witnesses; for which connections it can ever wait (see C89).
* **C52** (`Props/Server/Wire`): the frames received by a connection are read off the execution (`Spec/Received`); processed plus queued frames
  equal them (induction over the run). Answers are well-formed by case analysis of the handlers, deliveries because the SEND frame is (C06) and the
  delivery keeps its application headers and body (C44); then C02 gives the stream.
* **C48** (`Props/Server/Basics`), **C49** (`Props/BufioWriter`): induction over accept outcomes; over the writes.
* **C54** (`Props/Server/Subscriptions`): `Spec/Subscriptions` folds SUBSCRIBE and UNSUBSCRIBE over the processed frames; invariant: while a connection serves, its map
  of subscriptions and its subscription objects are those of the fold (`Proofs/Server/OpenSubs`). The step that writes a queue message looks the id up in
  the map; with ids used once, object and id determine each other.
* **C55** (`Props/Client/Wire`): every written frame is the wire form of an accepted request (C21), which is the frame of some call (C21_frames); by cases on the call it is
  well-formed if the arguments are unproblematic (`Spec/ClientWire`), and then C02 applies to the whole stream.
* **C56** (`Props/Server/Redelivery`): `Spec/Redelivery` lists the messages away from a queue (handed out, held, on their way back) and removes immediate repetitions. A queue as a function of
  its requests keeps the order if every message put back is the one handed out last (`disciplined_order`). In an execution with at most one message away this holds: a step
  either hands out a message, which is then the only one away, or brings nothing new (`away_step`, over the elementary operations of a connection). That the messages sent are
  distinct is a counting invariant like the one of C37 (`enq_run`).
* **C57** (`Props/EndToEnd`): `Spec/EndToEnd` connects clients and server: `Carries` says that one side has read frames from a prefix of the bytes the other side has written; `Conveys` says what a
  message has to have in common with the call that sent it (`Message.ofFrame` is the struct `readLoop` builds). The proof goes backwards along the path: the frame was put on `C` for a SUBSCRIBE of
  this client (C23), was read, hence written by the server (C04, `out_wf`), delivers a SEND to a SUBSCRIBE (C44), both of which were received, hence written by clients (C04, `stream_wf`), hence
  made from calls (`written_call`, `createSend_plain`); that the SUBSCRIBE is the one of the channel follows from the ids being distinct.
* **C58** (`Props/Server/Timer`): `Model/Server/Timer` adds a clock, the heart-beat timer and the read deadline to the connection of `Server/Conn`; the observations are logged with their times. Invariants: the deadline
  of the timer against the last write (`SentInv`), the read deadline against the last completed item (`DeadInv`), and the CONNECTED frame against `writeTimeout` and the first frame received (`Told`), which
  also shows that `readLoop` and `processLoop`, computing the interval separately, agree (`rl_announced`). `late` counts the time that passes while `processLoop` has something to do (`C58_late`).
* **C59** (`Props/Client/Read`): `Model/Client/Read` adds calls of `Read`, in two steps (`Active`, then the receive from `C`), to the client of `Client/System`. `grow_step`: every step other than a receive extends the
  contents and the history of each `C` by the same entries; with it, what was read and what is on `C` make up what was put there. `Settled`: a subscription closed without `Unsubscribe` gets nothing more. `Clog`: the
  blocked state, kept by every step that does not receive from `C`.
* **C60** (`Props/Client/Slow`): `Dammed`: full `C`, `readLoop` at the send on `C`, `processLoop` at the send to `readLoop`; kept by every step that does not receive from `C` (`dammed_step`, from `grow_step` and the
  classification of steps used for C25 and C26). The positive half is `C26_send_partial`.
* **C61** (`Props/HeartBeats`, `Spec/HeartBeats`): the two timed models, with the network given by what it does (`ToClient`, `ToServer`: what is written on one side is read on the other at most `δ` later) and the handshake by `Joined` (the client's
  durations are those `connect` computes from a CONNECTED frame in the server's output). `joined_times` relates the durations to what the server announced: the read timer is at least the announced interval plus `HeartBeatError`, the write timer at most
  the announced one. The rest combines C58 (`C58_transmits_partial`, `C58_gives_up`) with C29 (`C29_write_partial`, `C29_read`, `C29_received`). The state of the other side is taken `δ` and one nanosecond earlier or later; since a `delay` can be
  split, every execution has such a state. The witnesses are a pair of executions for each direction, in which the frames handled on one side are those sent by the other.
* **C62** (`Props/Server/TopicOrder`, `Props/TopicOrder`, `Spec/TopicOrder`): the order is the order of the requests the processor handles for the topic (`broadcast`, observed from the events). Two invariants of all executions. `ChainOk`
  (`Proofs/Server/TopicMembers`): the subscribe and unsubscribe requests of a connection for the topic that are on the way to the processor alternate in such a way that the topic never has a subscription twice. `OrderOk`
  (`Proofs/Server/TopicOrder`): what was written for a subscription, followed by what is in the write channel of its connection, followed by what the processor is about to push, is a sublist of `broadcast`. `sent_run` follows the requests of each
  sender from its SEND frames to the processor. End to end: the frames on `C` are a sublist of those the client read (`C23_isolation`), which are a sublist of those written (`C04_stream_cut`).
* **C63** (`Props/Server/QueueOrder`, `Props/QueueOrder`, `Spec/QueueOrder`): `HandedOk` (`Proofs/Server/QueueOrder`): what was written to a connection for the queue, followed by the messages of the subscriptions in its channel, is a sublist of what
  the processor handed to the connection. It needs that the message of a subscription in the channel does not change, because a subscription is in one place at a time (`Loc`). With C36 (`C36_order`) and `sent_run` (see C62) this gives the order
  of the senders; end to end as for C62.
* **C64** (`Props/Confirmed`, `Spec/Confirmed`): `receipt_session` (`Proofs/Server/Confirmed`): every RECEIPT written answers a frame processed, and the frames up to it form a session in the sense of `Spec/Session` with effects that are
  a prefix of those that took place. On the client's side C22 gives the RECEIPT, C21 the order of the writes, and `Distinct` (C17) that the frame answered is that of this call; `carries_prefix` joins the two sides. `taken_or_pending`
  (`Proofs/Server/Taken`): every message accepted has been taken by the processor, for its destination, or waits for it; for queues C37 says more.
* **C65** (`Props/Joint`, `Spec/Joint`): `Model/Joint` runs the server and any number of clients in one execution; a frame can be read only if its bytes are among those written. `Proofs/Joint/Inv`: both projections are executions
  of the separate models, and what one side has read is a prefix of what the other side has written. `Proofs/Joint/InTime`: what a client reads was caused by a frame it had written before (`answered_run`: every RECEIPT answers a frame
  processed; C44: every MESSAGE has the id of a SUBSCRIBE processed). `sent_taken` (`Proofs/Client/NoRead`): a frame is written after its request was taken, and registered. So the conditions C22 and C23 impose on the server hold.
* **C66** (`Props/JointUnsub`): on the client side (`Proofs/Client/Dismissed`), by induction over the executions: the `readLoop` of a subscription ends, or its channel is closed, only if a RECEIPT with its id was taken, or `processLoop` has
  ended, or a temporary queue was given up; `Unsubscribe` returns with anything but its own errors only if the subscription is closed, hence `readLoop` over. On the other side `unanswered_sub` (`Props/Joint`): every RECEIPT of this server
  answers a frame that is not an UNSUBSCRIBE (`answered_run`), and with distinct ids no other frame has the id of the subscription.
* **C67** (`Props/Server/Settings`): `Settings.config` is the configuration built from the fields of `Server`. The invariant `Told` of the timer proofs says what CONNECTED announces in terms of the configuration (`announced_eq`); `raise_atLeast` computes it
  for every setting (nothing set, negative, longer than the largest interval); what the client declared is read off with C10. Authentication is the gate invariant of C30 with the configuration computed.
* **C68** (`Props/Rest`): a state of the joint model of C65 with nothing left to do. Queues: C37 puts every message in one place; a place is either the store (and then nobody waits, by C36), or a subscription that got it written (C37_written), and what is
  written has arrived by C65_messages. Topics: `keep_run` (`Proofs/Server/TopicKeep`) — a message the topic is asked to send stays on its way (to be handed over, in the write channel, written) to every subscription of that moment as long as the connection runs.
  The messages of the program are those of the server because all frames are written, read and processed (`sent_messages`: C21, C33).
* **C69** (`Model/Client/Stats`, `Props/Client/Stats`): the client system with the two counters; `readLoop` reads and counts in one step (`read`) and puts the frame on `readCh` in another (`put`). `Proofs/Client/Stats` shows, function by function, that the number of
  requests accepted plus the calls that wait for acceptance or gave up (`debt`) grows in a step exactly if a caller passes the increment (`passes`); so `WritesSent` is that number. The lock invariant of C19 shows that at most one call waits. `ReadsReceived` follows from the
  read invariant. `C69_sound` and `C69_complete` relate the executions to those of the system without counters, in both directions.
* **C70** (`Spec/Effects`, `Proofs/Server/Effects`, `Props/Effects`): which frames take effect, with which frame and in which order is specified by positions alone (`TakesEffect`, `Effects`); an induction over the sessions of C33 shows that the effective frames of a connection are these
  (`C70_effects`). With the joint executions of C65 this gives the messages of every program (`C70_sender`: exactly those of a prefix of what it put on the wire; so all of a transaction or nothing), the origin of every message that arrives (`C70_arrived`), and with the lemmas of C68 what has
  arrived or is stored when nothing is left to do (`C70_rest`, which covers transactions, unlike C68).
* **C71** (`Model/Client/TxSystem`, `Spec/TxSystem`, `Proofs/Client/TxSystem`, `Props/Client/TxSystem`): the client system with `Transaction` objects whose methods run in steps: test of `completed` with the frame, the steps of `sendFrame` (a call of the system), setting `completed`. An invariant
  (`XBase`) relates the calls of `sendFrame` to the methods that made them, for all interleavings; `XShut` gives `C71_refused`. If the methods are called in turn (`XTurn`), all calls of a transaction but the last have returned (`of_returned`), so the requests of a transaction are accepted in
  the order of the calls (`ord_step`: the caller that is accepted is at its push, hence has not returned), and a call after an ending one finds `completed`. `C71_written_partial` follows with C21. `C71_sound`: the projection to the client system, `allocateId` being steps `tick` of it.
* **C72** (`Proofs/Client/Sparse`, `Proofs/Server/Sparse`, `Props/HeartBeatsDue`): the counterpart of C29 and C58, on the same timed models: a running timer never fires earlier than an interval after anything transmitted (client), resp. after any message or heart-beat (server). Only the cases that stop the timer transmit
  (`mute_step`), resp. write anything but answers (`answers_step`).
* **C73** (`Spec/Once`, `Proofs/Server/Returns`, `Props/Once`): the multiset version of C63/C68/C70. `C73_none_back` shows that a message is put back only because of a NACK, an UNSUBSCRIBE or the end of a connection (`Proofs/Server/Returns`: each requeue request is traced to a frame in a connection's history or
  to a stage other than `run`). Then C63_order and C36_order give disjoint parts without duplicates, C37 that nothing is missing, and C65_messages with the uniqueness of registered subscriptions that what was written on a connection is what the program's subscriptions have got, sorted by subscription (`flatMap_split`).
* **C74** (`Spec/Busy`, `Proofs/Server/Busy`, `Props/Server/Busy`): termination. The measure is lexicographic: frames read and not yet handled; stages of clean-up left, over all connections; queue subscriptions on their way (waiting in a queue, asking, or holding a message); messages on their way to the processor for the first time; and a weighted
  count of what lies in channels, outboxes and queues (a message put back weighs more than a stored one, a stored one as much as one being handed over, that more than one in a channel). A message can be given out, put back and given out again, but each time one subscription leaves for good. What stopping means is proved from the enabling lemmas of C47.
* **C75** (`Spec/ClientBusy`, `Proofs/Client/OwnStep`, `Woken`, `Mid`, `Busy`, `Props/Client/Busy`): termination of the client, as C74 of the server. The measure is lexicographic: what the callers, their helpers and the subscriptions have still to do (with the requests in `writeCh`), the phase of `processLoop`, the frames to hand over. The one place where a loop could turn is `for state != closed { Wait }` in `Unsubscribe`:
  an invariant (`WokenInv`) says that a caller is woken only when the state is closed, so that each waits once. Receiving from `C` counts as the program's own step; timers count as own steps for `C75_ends` (they only help things to end) and not for `C75_settles` and `C75_rest`.
* **C76** (`Spec/JointBusy`, `Proofs/Joint/Busy`, `Proofs/Client/Voiceless`, `Unmet`, `Props/JointBusy`): termination of the joint model of C65. The measure is lexicographic: clients not yet welcomed, work of the callers, bytes of requests not yet read by the server, the measure of C74, frames not yet read by the clients, the measure of C75. That the wires are exhausted in a state where nothing can happen follows from C02 (all bytes arrived, hence all frames legible).
  For `C76_returned` a caller still waiting is led to a contradiction: it is registered (`Told`), so since its request was taken no RECEIPT with its id was taken (`Unmet`); its frame was processed by the server, which has written an answer (`C34_counts_partial`); the client has taken all that was written; so the answer was taken before the request was, against `receipt_cause`. `Working` and the absence of the deadlock of C47 are conditions on the state in which the execution stops; they fail when a connection fails, an ERROR frame comes, a call gives up (C26) or the server deadlocks (C47).
* **C77** (`Model/Server/AnyStorage`, `Spec/AnyStorage`, `Props/Server/AnyStorage`): the server over an arbitrary `QueueStorage σ`; only the processor's three operations on queues differ from `Sys`, and each ignores the error as the code does. `Spec.Keeps` says what a storage must do, through an abstraction `content : σ → queue → messages`. `C77_same_partial` is a simulation: equal states of server and connections, `content` of the storage equal to the queues of `Sys`, step by step (`same_step`). A ghost counter `errors` counts what the storage has refused.
* **C78** (`Spec/Dialogue`, `Proofs/Server/{Dialogue,Rules}`, `Props/Server/Dialogue`): invariant `Talk` of a single connection, by cases over the eleven handlers: the `spoken` part of the output is the `Dialogue` of the frames handled, or a `Dialogue` with a `Refused` frame and the connection past its loop, or a write has failed and the output is a prefix of such a text. That the rules are unambiguous is proved by evaluating them: functions `reason` and `meaning` are shown to give the value of each constructor. On the client's side (`Model/Client/Errors`, `Proofs/Client/Reasons`, `Props/JointDialogue`): invariant `NewsInv`, every frame on its way to a caller or a subscription as an error was taken from `readCh` or is one of the five made by `sendError`; joined with the above by the streams of C65.
* **C79** (`Model/Client/Bodies`, `Spec/Bodies`, `Proofs/Client/Bodies`, `Props/Client/Bodies`): the client system with the arrays of the program, an event for a write to an array, the callers of the requests on `writeCh`, and the frames as loaded from the arrays when written. Invariants: the callers on the queue are those of the accepted requests that were not taken (`OrderInv`), and the arrays of bodies still to be read are as at the call (`KeptInv`). That a confirmed call is no longer on the queue is `ServeInv.caller`: the caller of a channel on `writeCh` waits or has given up.
* **C80** (`Model/Float64`, `Model/Client/Grace`, `Spec/Float64`, `Proofs/Float64`, `Props/Client/Grace`): natural numbers rounded to 53 significant bits. `round_nearest`: above `2 ^ (52 + k)` every float64 is a multiple of `2 ^ k`, so none lies between the two candidates. Monotony, exactness on representable numbers and the error follow from nearness; the client's part is C29_read with the duration of the timer computed.
* **C81** (`Model/Memory`, `Spec/Memory`, `Proofs/Memory`, `Proofs/MemoryWorld`, `Props/Memory`): strings and slices are references into arrays. Each function of the reader refines its counterpart of `Model/Bufio` and keeps every array but the buffer (`Kept`); what it returns lies in arrays made during the call, and not in the buffer (`Own`). Invariant of the world: all frames own their arrays, the body its own one; only `poke` and `append` touch a body, and `append` writes within the array of that body or makes a new one.
* **C82** (`Spec/Memory`, `Proofs/MemorySize`, `Props/Memory`): the sum of the lengths of all arrays against the bytes not yet consumed, function by function on the memory model: a line is copied at most once in pieces and once as a whole, its header entries are slices of it or, where something was replaced, copies that are not longer. The witness keeps 2^32-1 as a variable, the rest of the run is computed.
* **C83** (`Model/Server/Accesses`, `Spec/Races`, `Proofs/Server/Watch`, `RaceConn`, `RaceInv`, `RaceStep*`, `RaceRun`, `HappensBefore`, `RaceWrites`, `Props/Server/Races`): each step of the system has a list of cells it may read or write. `Watch` follows a run with what each goroutine knows of and what travels with each element of a channel. Invariant: wherever a cell is (held by a connection, in a channel, in a request, with the processor), the knowledge there contains all earlier accesses of it; it rests on the invariants that a subscription is in one place (C42) and a message in one place (C37). What is known has happened before (`HInv`), so conflicting accesses are ordered.
* **C84** (`Spec/Refused`, `Proofs/Client/Refused`, `Props/Client/Refused`): `Spec.Wrong` says of a call, from its options alone, that it must be refused. Invariant `Refusals`: a thread with a wrong call is at its start or has returned, and no request in the system is its; so nothing of it can be sent. `NothingBut` compares the states before and after. For `Unsubscribe` the invariant `won` of C62 is used to show that nobody can unsubscribe any more.
* **C85** (`Model/Client/Dial`, `Spec/Dial`, `Props/Client/Dial`): the handshake as a list of operations on the network connection, with bytes arriving at given times; by cases. `C85_handshake` ties it to the `connect` of C12.
* **C86** (`Spec/Forgotten`, `Proofs/Server/Asked`, `Proofs/Server/Listed`, `Proofs/Server/Forgotten`, `Props/Server/Forgotten`): `Spec.turns` lists the requests about one subscription. `askStep`: which steps of a connection ask to put a subscription into its list or to take it out, and why. Invariants: `LastOk` (a subscription whose last request was to take it out is out, or that request is on its way), `Settled` (it is in the connection's map, or its last request was to take it out, or it is marked as being in a list and in no queue, so that the processor would rather panic than list it). For topics the chain of C68 gives it without a condition.
* **C87** (`Spec/Leaks`, `Model/Client/Reader`, `Proofs/Client/NetShut`, `Proofs/Client/Reader`, `Props/Client/Leaks`, `Props/Server/Leaks`): `Model/Client/Reader` splits the read of a frame from its push into `readCh`; the executions project to those of `Client/System`. At rest: case analysis over what is enabled, the network connection is closed once `closed` is set (`NetShut`), `rest_sub` of C76. For ever: `Left`, `LeftBehind`, `HLost` are kept by every step. The number of frames read and not taken: `readCount_eq`, `takenCount_eq`.
* **C88** (`Model/Server/LinkedList`, `Spec/Lists`, `Proofs/Server/LinkedList`, `Props/Server/Lists`): the functions of `subscription_list.go` as loops with a cursor over a `list.List`, of which the documented behaviour is modelled (`Next` of a removed element is nil). Each loop by induction over the part of the list behind the cursor; the invariant that elements are distinct gives the neighbour. The system model takes these lists as sequences; `C88_system` is the link.
* **C89** (`Spec/Courteous`, `Proofs/Server/Few`, `Props/Server/Few`, `Props/Server/Courteous`, `Props/JointCourteous`): no crash by `crash_culprit` (C42), whose culprit has received what is not courteous. No blocking: a blocked topic delivery has a member subscribed to a topic (`addr_run`), and the heap of a connection is made by its SUBSCRIBE frames (`heapPre_run`); for a queue delivery the subscription in the processor's hand is not in the channel (the token invariant of `SInv`), so the channel holds at most the 15 other ones. The rest from C74 and C76.
* **C90** (`Model/Server/Managers`, `Spec/Managers`, `Proofs/Server/Managers`, `Props/Server/Managers`): a bisimulation between the server with objects and maps (`MSys`) and the one in which a destination has its list from the start (`Sys`), which so turns a simplification of `Model/Server/System` into a theorem. That objects are given up is false of the code.
* **C91** (`Spec/Standard`, `Proofs/Standard`, `Props/Standard`): a second reader (`Std.decode`), strict and with the version as a parameter, written after the text of the STOMP specifications. `decode_write` and `decode_sound` relate it to the writer and the reader of the code line by line; the conditions `Writable` and `Readable` say where they differ.
* **C92** (`Spec/Conversation`, `Proofs/Server/Conversation`, `Props/Server/Conversation`): the specification says in which order a server may send what, with the headers each frame must have; it refers to the frames the client has sent. The invariant `Shape` of a connection is proved by induction over the run of the whole server, because that no MESSAGE comes before CONNECTED depends on the processor knowing no subscriptions of that connection; the headers of messages come from C44, the interval of the heart-beats from the invariant `Interval`.
* **C93** (`Spec/ClientConversation`, `Proofs/Client/Conversation`, `Props/Client/Conversation`): the counterpart of C92. That nothing follows a DISCONNECT is the invariant `ByeInv`: after it has been accepted `Disconnect` waits with the mutex held until the connection is closed, or `processLoop` has ended before it took anything further. That an UNSUBSCRIBE follows its SUBSCRIBE is `UnsubInv`, which follows a subscription from the request that started it to the call of `Unsubscribe`. The headers come from the functions that make the frames, for arbitrary options. The heart-beats are allowed at any time (when they are sent is C29, C58 and C67).
* **C94** (`Model/Server/Serve`, `Spec/Serve`, `Props/Server/Serve`): `Service` puts the loop of `Listen`, with the results of `Accept` as events, in front of the server over any storage of C77. `C94_served` projects an execution to one of that server, so that the other properties apply. Which methods of the storage are called is recorded by a storage that wraps another one (`Spec.recording`). `C94_false_returns` includes that its last state is final: no event is possible in it.
* **C95** (`Props/JointConversation`): C92 and C93 combined over the executions of `Model/Joint`. A MESSAGE that the client has read was written by the server (`PeerInv.down`), by C92 for a SUBSCRIBE that the server has read, which the client has written (`PeerInv.up`); so the client's `Addressed` holds, and with distinct ids no MESSAGE can be taken for the receipt of the DISCONNECT.
* **C96** (`Spec/Lifecycle`, `Props/Client/Lifecycle`): from `UEff` (what a step does to a subscription and to the call of `Unsubscribe` that passed the compare-and-swap) and the invariant `UInv` that there is at most one. A request is handed over only by that call (`Heard`). For the wire: an UNSUBSCRIBE with an id was made for a subscription with that id, whose SUBSCRIBE was handed over before with the subscription's channel (`Started`); distinct ids make that one subscription.
* **C97** (`Spec/JointModest`, `Props/JointModest`): a refusal (C78) is of the first frame, which the welcome excludes by the determinism of the session rules, or of a later one that the client has written. `plain_written` gives the shapes of what modest calls write; `subscribe_once` (one SUBSCRIBE per id) and `C96_wire` (one UNSUBSCRIBE per id), `unsub_written` (UNSUBSCRIBE after its SUBSCRIBE) and `dialogue_subs` (what the server's state says about an id, from the frames alone) exclude "subscription already exists" and "subscription not found". `dialogue_tx` and `bracket_at` do the same for "transaction already in progress" and "unknown transaction" (`C97_transactions`); the frames of transactions are brackets trivially if there are none (`C97_never_refused`), and by C71 if the program uses them in turn (`C97_in_turn`). All the other reasons of `Spec.Refused` are excluded by shape. Examples: a session with ACK and UNSUBSCRIBE; a session with a transaction and a SEND outside it; a chosen id used twice, and a transaction not begun, are refused.
* **C98** (`Model/Client/Buffers`, `Spec/Buffers`, `Props/Client/Buffers`): false of the writer's buffer. `applyOpts_knob`: an induction over the options, for each number at once. One write per frame: pieces that fit are only appended to the buffer (`bwPieces_fits`), so the flush at the end is the one call of the transport; the model of `bufio.Writer` is that of C49, the outcomes of the transport's calls being its oracle.
* **C99** (`Model/Client/Accesses`, `Spec/ClientRaces`, `Proofs/Client/Races`, `RacesRun`, `Places`, `Props/Client/Races`): each step of the client system has its goroutines, its `Lock` and `Unlock` and its accesses to `closed`. By the invariant of C19 (`LockInv`) a goroutine is between `Lock` and `Unlock` exactly when it is the owner of the mutex; so between two accesses to `closed` of different goroutines there are an `Unlock` of the first (`unlocks`) and a later `Lock` of the second (`locks`). A caller is done with its frame when it has put it on `writeCh` (`prepared`, from `OriginInv`); incoming frames go from `readLoop` through `readCh` to `processLoop` and, in the same step as the send on a response channel, to the receiver; `sendError` is entered once (`failure_first`). Deliberately few edges are used: program order, the mutex and sends. An ERROR frame is given to all callers and subscriptions, whose messages share its header: they only read it, but a user who changes the header of such a message races with others who read theirs. `C99_places` goes through all steps and says that a goroutine not said to take part stays where it is; without it a wrong receiver of a frame was noticed by an example only (section 6).

## 4. Disagreements between property and code

Every item is settled by a theorem unless marked (reading), which are observations made while modelling.

Frame layer
* C11 the reader never limits the header section (`ReadBytes` grows without bound).
* C07 `h.AddHeader(h)` does not terminate. C15 bodies of 4 GiB or more cannot be read back.
* `Header.Set` replaces the first occurrence only; `Frame.Clone` copies the body though its comment says it is shared (reading).
* **C82** false: `frame/reader.go:109` makes the slice for the body as long as the header says, before reading. A peer makes the server take 4 GB per connection with one short frame, before it has logged in. Reading in pieces, or a limit, would be needed.
* **C91** the specification exempts CONNECT and CONNECTED from escaping; the code escapes and unescapes all frames alike. A server that follows the specification sees another passcode if it contains a backslash (`C91_passcode_false`), another host if the client connects to an IPv6 address and names no host (`C91_host_false`), and the client reads CONNECTED headers with backslashes wrongly (`C91_connected_false`). The code escapes also in versions 1.0, which has no escapes, and CR in 1.1, which has none for it (`C91_v10_false`, `C91_cr_false`). Undefined escapes, a fatal protocol error, are read literally (`C91_strict_false`; there is a TODO in `frame/encode.go:30`). Between this library's own client and server none of this shows (C01, C51).

Client
* C13 a ReadTimeout below 1 ms is announced as 0 and enforced; a negative HeartBeatError breaks the margin.
* C14 a custom `content-length` entry makes the CONNECT frame unreadable.
* C50 the version the server picks is not compared with the versions asked for.
* C22 a RECEIPT that was read before the request was written satisfies the request; `Disconnect` of a closed connection returns nil.
* C23 two subscriptions with the same user-chosen id: the first gets nothing.
* C24 `readLoop` and `Unsubscribe` send on `C` after the other closed it: panic.
* C53 a RECEIPT for a SUBSCRIBE (the receipt header set by `SubscribeOpt.Header`) closes the response channel of the subscription but leaves it
  registered under the subscription id: the next MESSAGE is a send on a closed channel in `processLoop` (`conn.go:362-397`), and with a reply-to header
  `Unsubscribe` closes the channel a second time.
* C25 lost wake-up: the RECEIPT is processed between the check and `Wait`, `Unsubscribe` then waits for ever (or reports a timeout).
* C26 after a receipt timeout the unbuffered channel stays registered: a late RECEIPT, or the failure of the connection, blocks `processLoop`
  for ever. A MESSAGE whose `subscription` is a pending receipt id has the same effect.
* C27 a request still in `writeCh` when ERROR arrives is never answered, and its `Send` keeps `closeMutex`, so the connection
  is never closed; `Unsubscribe` returns nil on ERROR; a SUBSCRIBE still in `writeCh` is never told.
* C29 SUBSCRIBE/UNSUBSCRIBE for temporary queues restart the write timer without writing.
* `Subscribe` with a `receipt` header registers its channel twice; `Unsubscribe` with a `receipt`
  header waits for a receipt whose id `processLoop` overwrites; after a timeout of `Unsubscribe` its helper
  goroutine, when woken, locks the subscription's mutex and nobody unlocks it; a failing option leaves the subscription in state closing (reading).
* C55 `SendOpt.NoContentLength` with a body containing NUL is accepted: the body ends there and what follows is read by the peer as frames (injection if the body
  comes from elsewhere). `SubscribeOpt.Header("content-length", …)` is accepted: the peer takes the following frames as the body of the SUBSCRIBE.
* `subscription.go:142-144`: `Read` returns `ErrCompletedSubscription` when the subscription is no longer active, without looking at `C`. Up to 16 messages, and the error that ended the subscription, are lost to an application
  that uses `Read` (`C59_end_false`). Nor does such an application make room for the messages that come before the RECEIPT for UNSUBSCRIBE: 18 of them block `Unsubscribe`, even with a timeout, and the whole connection
  (`C59_unsubscribe_false`).
* `subscription.go:172-230`, `conn.go:390-397`: the channel `C` has room for 16 messages, and `processLoop` hands each MESSAGE over to the `readLoop` of its subscription before it does anything else. 18 messages for a
  subscription that is not read stop everything on the connection, heart-beats included, so that the server will drop it (`C60_stuck`, `C60_false`).
* C66 `Subscription.Unsubscribe` cannot succeed with the library's own server: `server/client/conn.go:640-657` (`handleUnsubscribe`) sends no RECEIPT, though the client puts a receipt header on every UNSUBSCRIBE
  (`conn.go:442-446`) and waits for the answer. It returns the time-out error, or waits until the connection ends if no time-out is set. (The reverse of C34: SUBSCRIBE and UNSUBSCRIBE are the two frames the server does not answer.)
* **C69**: `WritesSent` is advanced before the request is handed to `processLoop`: a `Send` that gives up with `ErrMsgSendTimeout` is counted (`C69_gave_up_false`), as are the SUBSCRIBE and UNSUBSCRIBE of a temporary queue, which are never written (`C69_temp_queue_false`); heart-beats received
  are counted as reads (`C69_beats_false`) while heart-beats written are not counted.
* **C71**: `completed` is tested before and set after `sendFrame`, unsynchronised: two goroutines can both commit (two COMMITs, both nil: `C71_two_commits_false`), a `Send` can go out after the COMMIT and return nil (`C71_late_send_false`); the server answers with ERROR and ends the connection. With one
  goroutine: `CommitWithReceipt` and `AbortWithReceipt` that fail waiting for the receipt leave the transaction open though the frame was written (`C71_timeout_false`).
* **C79** false: the client does not copy the body of a message. After `Send` without receipt has returned nil (or `Send` with receipt an error) the frame may still be in `writeCh`, and writing to the slice changes the message on the wire. The documentation does not say that the slice must not be used again.
* **C80** false for read timeouts within 512 ns of the maximum: `time.Duration(float64(c.readTimeout) * 1.0)` overflows, and the timer may fire at once. Besides, the comment on `HeartBeatGracePeriodMultiplier` says that it is applied to the interval of the CONNECT frame and tells what the broker will enforce; it is applied to the negotiated read timeout plus `HeartBeatError`, in the client.
* C84 `Unsubscribe` with a nil option (`subscription.go:65-85`) sets the state to closing before it looks at the options, returns `ErrNilOption`, and the subscription can neither be read with `Read` nor ever be unsubscribed; the server keeps sending.
* C85 `DialWithContext` (`conn.go:89`) returns the error of `ConnectWithContext` without closing the connection it has opened, so each failed handshake (wrong password, wrong version, timeout) leaks a socket. The deadline of the context is set after the CONNECT frame has been written, for reading only; it is not removed if reading fails; `net.Dial` does not get the context.
* C87 `readLoop` sends to `readCh` (`conn.go:301`) and to `readChannel` (`server/client/conn.go:181`) without a `select`; when `processLoop` has returned and the channel is full, it never ends, though the network connection is closed. `Subscription.readLoop` (`subscription.go:172-230`) waits on a channel that `processLoop` closes only if it has taken the SUBSCRIBE. The goroutine of `waitWithTimeout` (`subscription.go:119-134`) may call `Wait` after the only `Broadcast`.
* **C93** `processLoop` keeps the channels of receipts and of subscriptions in one map (`conn.go:307`, `390-397`, `411-416`). A subscription whose id the user has chosen and the receipt of `Disconnect` can have the same name; then a MESSAGE is handed to `Disconnect`, which returns an error and leaves the connection open (`conn.go:492-503`), so that frames follow the DISCONNECT (`C93_false`).
* C98 `WriteBufferSize` does not set the size of the writer's buffer: it becomes that of `ReadBufferSize`, or stays at 4096 (`conn.go:120-122`).

Server
* C34 SUBSCRIBE/UNSUBSCRIBE never get a RECEIPT; a RECEIPT is sent before the operation can fail, the ERROR then lacks the receipt id.
* C37, C38 a failed write drops the message being written; a message handed to a connection after its last
  clean-up drain is stranded.
* C41 `Subscription.msgId` is never assigned: an ACK in mode `client` releases everything, in mode `client-individual` nothing (unless its
  number is 0).
* C42 SEND without destination, an unknown ack mode followed by ACK, and the next delivery or store after a successful ACK/NACK
  (`SubscriptionList` keeps the membership pointer) crash the server.
* C44 an application header `id` is overwritten.
* C45 a STOMP 1.2 ACK built by the client library has no header the server looks at.
* C46 the server goes on handling frames after DISCONNECT, and messages of subscriptions that were not given up are still written after the RECEIPT.
* C47 the processor and a connection can block each other for ever, because of a topic or because of more than 16 subscriptions to queues; the processor can block on a connection that is gone.
* C54 a topic message in the write channel is written after the client's UNSUBSCRIBE was processed. A queue message on its way to a subscription that was given up is
  written if the id is in use again (`conn.go:283` looks up the id, not the subscription): the client gets a message of the old destination.
* C56 `cleanupConn` (`conn.go:353-355`) puts the unacknowledged messages back oldest first, each to the front of its queue (`memory_queue.go`): they come back in reverse order, so the next
  subscriber gets the later message first.
* `server/client/conn.go:275-311`: the case of `subChannel` stops the heart-beat timer before it looks whether the subscription still exists, and if not, writes nothing. A client that subscribes and unsubscribes often enough
  hears nothing for as long as it goes on (`C58_false`).
* `server/client/conn.go:122-128`: the read deadline is set once per frame or heart-beat, and covers the whole of it. A client that needs more than twice its interval for a large frame is disconnected although its bytes keep
  arriving (`C58_slow_false`).
* `server/client/conn.go:275-311` against `conn.go:326-332`: with the default heart-beats of one minute, a client that subscribes and unsubscribes 59 seconds after the last transmission of the server loses the connection to a read timeout 6 seconds
  later, if a message was on its way to the subscription (`C61_false`). In the other direction `Subscribe` with a reply-to header every 54 seconds makes the server give the client up (`C61_server_false`).
* **C70**: "processed atomically" (`transaction.go:9-10`) holds in the sense of all or nothing; the messages of a transaction are handed over one by one, so that messages of other clients can come between them (`C70_together_false`).
* **C72**: the answers of a server connection (RECEIPT) do not restart the heart-beat timer, so heart-beats are also sent when they are not needed (`C72_server_false`). Harmless.
* **C77** `server/processor.go:48-49,73,90` (`// todo error handling`): the errors returned by `Queue.Subscribe`, `Enqueue` and `Requeue` are ignored. The RECEIPT for a SEND is written before the storage is asked (`server/client/conn.go`, `handleSend`), so a sender is told that a message is accepted which the storage has refused; a subscription for which `Dequeue` failed is not entered in the queue's list, so it never gets a message. `Storage.Start` and `Stop` (`server/queue/storage.go:26-32`) are never called.
* C86 `processLoop` (`server/client/conn.go:281`) looks `sub.id` up in `c.subs` without comparing the subscription found with `sub`. If the id has been used again, a subscription that has been given up is put back into its queue (`SubscribeOp`), and neither UNSUBSCRIBE nor the end of the connection takes it out. The queue gives messages to it after the connection has ended: they are lost, and the 17th blocks the processor.
* C88 `SubscriptionList.Ack`, `Nack` and `FindByIdAndRemove` (`server/client/subscription_list.go:57-97`) do not reset `sub.subList`; a later `Add` of the subscription panics. For `Ack` and `Nack` a client can cause it (C42).
* **C90** queues and topics are never given up: `Find` makes an entry in the map of the manager for any destination a client names, also one without subscribers, and nothing deletes entries. One client that sends to ever new topics makes the server grow without bound (`C90_false`).
* **C92** `handleSubscribe` keeps the ack mode of a subscription to a topic, but `allocateMessageId` is called without a subscription for frames from the write channel and removes the header `ack` (`server/client/conn.go:218`, `408-424`). In version 1.2 a client that has asked for acknowledgements MUST find this header (`C92_ack_false`).
* **C94** `QueueStorage.Start` and `Stop` are documented as called before and after use (`server/queue_storage.go:23-29`); nothing calls them (`C94_false_storage`; what this does to a storage that needs them is `C77_start_false`). When `Accept` fails for good, `Listen` returns (`server/processor.go:121`) and ends its goroutine, but `Serve` has no way to know and waits for requests for ever (`C94_false_returns`).

## 5. Trusted base

* Lean's kernel (4.33.0), and the axioms `propext`, `Classical.choice`, `Quot.sound`. No `sorry`, no axioms of our own, no
  `native_decide`/`bv_decide`. Witness runs are evaluated by the kernel (`decide`, `decide +kernel`, `rfl`). Mathlib is not imported.
* The correspondence of the model with the Go source, by reading: every definition cites the lines it models.
* The meaning of Go itself as built into the models: unbuffered and buffered channels, `select`, `sync.Mutex`, `sync.Once`,
  `sync.Cond`, maps, slices, uint64 wrap-around, time as nanoseconds; sequential consistency (the modelled code synchronises shared data by
  channels and mutexes, except the places where the model makes every access its own step: `Subscription.state`, `C`).
* `bufio` and `strconv` as modelled in `Bufio`, `Memory`, `BufioWriter`, `Bytes`.

Not modelled: logging; the validator (always the null validator); `net.Dial` itself and TLS; `ConnOpt` option functions that are
not from the library; the text of errors that nobody can see, of failed writes (`write error` stands for them) and of `strconv.ParseUint` (a parameter); allocation failure; an infinite or NaN grace-period multiplier; what the Go memory model allows beyond interleavings for the unsynchronised flag of a `Transaction` (C71 takes each access as one step); `stompd` command line,
`testutil`.

Simplifications are stated in the comment of each definition and at the top of each model file. In particular steps
that touch only data of one goroutine are merged with the next blocking operation, and queue messages are values in `Server/System` (each has one
owner; frames of topics, which are shared, have the pointer-level model `TopicHeap`).

Axioms per theorem:

<!-- axioms -->
* none (3): C16_should_ack_mode, C18_begin, C94_address
* propext (69): C05_stall_witness, C13_not_announced, C13_negation, C13_margin_needed, C14_wire_restriction_needed, C15_accepted, C17_chosen, C18_tagged, C18_refused_only_after, C23_false, C24_false_message, C24_false_timeout, C25_false_timeout, C31_absent, C34_false, C34_false_failed, C40_deque, C40_independent, C41_list_ack_partial, C41_list_nack_partial, C41_ack_too_much_false, C41_ack_too_little_false, C41_nack_false, C42_no_destination_false, C42_unknown_mode_false, C42_ack_false, C42_ack_stored_false, C42_nack_false, C44_false, C46_quiet_false, C46_false, C50_negation, C53_false_message, C53_false_unsubscribe, C54_false_topic, C54_false_reuse, C55_false_injection, C55_false_swallowed, C56_false, C69_gave_up_false, C69_temp_queue_false, C69_beats_false, C74_idle, C76_reached, C77_memory, C77_refused_false, C77_subscribe_false, C77_start_false, C79_false, C79_late_false, C79_transaction_false, C84_transaction, C84_false, C85_handshake, C85_success, C85_closed_partial, C88_false, C91_passcode_false, C91_host_false, C91_connected_false, C91_cr_false, C91_v10_false, C91_strict_false, C92_ack_false, C93_false, C98_last, C98_reader, C98_false_writer, C98_false_one_piece
* propext, Quot.sound (72): C01_roundtrip, C01_writer_injective, C03_encode_safe, C03_encode_injective, C03_no_injection, C07_value_model, C09_content_length, C10_parse, C10_server_parse, C14_frame, C14_not_overridden, C14_wire, C16_ack_nack, C16_not_received, C16_identifies, C16_should_ack, C17_wraps, C18_nothing_after, C18_answer, C26_late, C27_false_unsubscribe, C28_reads, C28_eof, C29_false, C31_highest, C37_false, C38_write_false, C45_v12_false, C45_individual_false, C47_false, C47_gone_false, C47_seventeen_false, C47_queues_false, C48_backoff, C58_false, C58_slow_false, C60_reached, C61_false, C61_server_false, C69_sound, C71_two_commits_false, C71_late_send_false, C71_timeout_false, C72_server_false, C80_off, C80_on, C80_false, C82_false, C85_deadline_partial, C85_dial_deadline_partial, C85_false_open, C85_false_write, C85_false_ignored, C85_false_left, C86_false, C86_dead_false, C87_reader_exact, C87_reader_false, C87_server_exact, C87_server_false, C91_understood_partial, C91_understands_partial, C91_versions_partial, C94_served, C94_count, C94_loop, C94_undisturbed, C94_no_more_partial, C94_false_storage, C94_false_returns, C98_settings, C98_writer_partial
* propext, Classical.choice, Quot.sound (285): C01_roundtrip_iff, C02_stream, C04_truncated, C04_extension, C04_stream_cut, C05_chunking, C05_split_irrelevant, C06_sound, C06_heartbeat, C06_fuel, C07_multimap, C07_put_laws, C07_addHeader_self_diverges, C08_clone_independent, C10_no_overflow, C11_oversized_accepted, C11_negation, C11_body_bound_partial, C12_connect_iff, C12_version, C13_compatible_partial, C15_send, C15_bounds_needed, C17_unique, C17_interleaved, C17_frames, C17_requests, C18_one_end, C19_writeCh, C20_closed, C20_stays, C20_returns, C21_prefix, C21_all, C21_frames, C22_receipt_partial, C22_honest_partial, C22_false, C23_exact_partial, C23_library, C23_isolation, C24_close_once, C24_nothing_after, C24_blame_partial, C24_without_unsubscribe_partial, C25_returns_partial, C25_missed, C25_false, C26_stuck, C26_false_late, C26_false_fail, C26_send_partial, C26_select_partial, C27_closed, C27_never_success_partial, C27_callers_partial, C27_subscriptions_partial, C27_progress_partial, C27_false_waiting, C27_false_subscribe, C29_write_partial, C29_log, C29_read, C29_received, C29_late, C30_gate, C30_refused, C31_connected, C32_unique, C32_refused, C33_session, C33_requests, C33_commit, C33_no_effect, C34_counts_partial, C35_increasing, C36_queue, C36_work_conserving, C36_order, C36_fair, C36_requeued_first, C37_one_place_partial, C37_one_place_writing_partial, C37_no_forgery, C37_written, C38_sent_back_partial, C38_elsewhere_partial, C38_stranded_false, C39_topic, C39_frames, C39_headers, C41_ack_actual_partial, C41_ack_partial, C41_nack_actual_partial, C42_no_panic_partial, C43_kinds, C43_separate, C44_delivered_partial, C44_fresh_ids, C45_written, C45_client_v11_partial, C45_v12_rejected_false, C46_afterwards_partial, C46_unsubscribed_partial, C46_disconnect_partial, C47_progress_partial, C47_cause_partial, C47_modest_partial, C48_bounds, C49_wire_prefix, C49_no_failure, C49_peer_view, C50_requested_partial, C51_handshake, C51_iff, C52_in_order, C52_readable, C53_only_partial, C53_receipt, C53_tame_partial, C53_quiet_partial, C54_queue_partial, C54_asked_partial, C55_readable_partial, C55_api, C56_order_partial, C56_sent_once, C57_end_to_end, C58_transmits_partial, C58_log, C58_late, C58_gives_up, C58_notices, C59_in_order, C59_returns, C59_completed_partial, C59_closed, C59_stuck, C59_end_false, C59_unsubscribe_false, C60_stuck, C60_goes_on_partial, C60_false, C61_client_partial, C61_server_partial, C61_client_quiet_partial, C61_server_quiet_partial, C62_topic_order, C62_agree, C62_end_to_end, C62_programs, C63_end_to_end, C63_programs, C63_follows, C63_order, C64_barrier, C64_sends, C64_commit, C65_streams, C65_receipt, C65_messages, C66_partial, C66_false, C66_false_waiting, C67_intervals, C67_authenticator, C68_queue, C68_topic, C69_complete, C69_writes, C69_written_partial, C69_written_le, C69_reads, C69_bounds, C70_effects, C70_sender, C70_arrived, C70_rest, C70_together_false, C71_sound, C71_refused, C71_in_turn_partial, C71_written_partial, C72_client, C72_server_partial, C73_none_back, C73_once, C73_count, C74_ends, C74_rest, C74_settles, C75_ends, C75_settles, C75_rest, C75_served, C76_ends, C76_settles, C76_rest, C76_returned, C76_delivered, C76_once, C76_select, C77_same_partial, C78_source, C78_told, C78_decided, C78_answers, C78_failing, C78_error, C78_refused, C78_determined, C79_unwritten_partial, C79_receipt_partial, C79_shape, C80_nearest, C80_default, C80_error_partial, C80_not_shorter_partial, C80_monotone, C80_client_partial, C80_negative_partial, C81_unchanged, C81_stream, C82_success_partial, C82_partial, C83_no_race, C83_writes, C83_makes, C84_only, C84_silent, C84_nothing_partial, C84_given_up, C86_topic, C86_last_partial, C86_queue_partial, C86_forever_partial, C86_lost_false, C87_client_partial, C87_helper_lost, C87_subscription_false, C87_helper_false, C87_server_partial, C88_sequence, C88_ends, C88_forEach, C88_system, C88_add_partial, C89_reached, C89_through, C89_once, C89_safe, C89_rest, C89_settles, C90_same, C90_one, C90_room_partial, C90_false, C91_streams_partial, C92_conversation_partial, C92_open_partial, C92_ack_partial, C93_conversation_partial, C93_library_partial, C95_server, C95_client, C96_forward, C96_one, C96_closing, C96_late, C96_once, C96_wire, C96_library, C97_transactions, C97_never_refused, C97_in_turn, C97_no_error, C97_quiet, C98_one_piece, C99_no_race, C99_closed_written, C99_places, C99_writeCh, C99_readCh, C99_in_hand, C99_order
<!-- end axioms -->

## 6. Wrong programs

`seeded/LOG.jsonl` lists edits of the model that imitate realistic bugs, made in a copy outside this repository, and the property
theorems that stop being provable. Where a theorem survived an edit that falsifies its English claim, it was
strengthened; the log says so (`tightened`). Edits that no property speaks about are marked as such.
