{
 "C01": {
  "status": "proved",
  "note": "Also an iff: a frame survives the round trip exactly when it is well-formed."
 },
 "C02": {
  "status": "proved",
  "note": ""
 },
 "C03": {
  "status": "proved",
  "note": ""
 },
 "C04": {
  "status": "proved",
  "note": "Also for whole streams cut at any byte."
 },
 "C06": {
  "status": "proved",
  "note": ""
 },
 "C09": {
  "status": "proved",
  "note": ""
 },
 "C05": {
  "status": "proved",
  "note": "For every transport that does not return 100 empty reads in a row; C05_stall_witness shows that exclusion is needed (bufio returns io.ErrNoProgress)."
 },
 "C07": {
  "status": "proved",
  "note": "AddHeader with itself as argument is excluded and shown to diverge (C07_addHeader_self_diverges)."
 },
 "C08": {
  "status": "proved",
  "note": "For any growth policy of append."
 },
 "C10": {
  "status": "proved",
  "note": "Client parser and the server's nine-digit parser."
 },
 "C11": {
  "status": "partial",
  "note": "The claim is false of the code: C11_negation proves that for every size a larger header section is accepted. C11_body_bound_partial is what does hold."
 },
 "C49": {
  "status": "proved",
  "note": ""
 },
 "C12": {
  "status": "proved",
  "note": "C12_connect_iff characterises success exactly."
 },
 "C14": {
  "status": "proved",
  "note": "C14_wire_restriction_needed shows a custom content-length entry breaks the frame on the wire."
 },
 "C15": {
  "status": "proved",
  "note": "C15_bounds_needed: the 4 GiB and NUL restrictions are sharp."
 },
 "C16": {
  "status": "proved",
  "note": ""
 },
 "C17": {
  "status": "proved",
  "note": "Sharp: C17_wraps. C17_frames: no two frames made by Begin, Commit, Abort, Subscribe and Send carry the same chosen id. C17_requests: on a connection whose user leaves the ids to the library, no two requests share a receipt or subscription id, in every interleaving."
 },
 "C18": {
  "status": "proved",
  "note": "Calls on one transaction are sequential (as in the property). C18_answer: what a call answers is decided by whether the frame could be handed over."
 },
 "C28": {
  "status": "proved",
  "note": ""
 },
 "C50": {
  "status": "partial",
  "note": "False of the code: C50_negation (the client never compares the announced version with the requested ones). C50_requested_partial is what holds."
 },
 "C13": {
  "status": "partial",
  "note": "False as stated: a ReadTimeout below one millisecond is announced as 0 but still enforced (C13_negation). C13_compatible_partial covers timeouts that are 0 or at least 1 ms and a non-negative margin; C13_margin_needed shows the margin hypothesis is needed."
 },
 "C31": {
  "status": "proved",
  "note": "C31_highest and C31_absent: the function that picks the version, against an independent specification. C31_connected: the CONNECTED frame actually written, in every run."
 },
 "C40": {
  "status": "proved",
  "note": ""
 },
 "C48": {
  "status": "proved",
  "note": ""
 },
 "C30": {
  "status": "proved",
  "note": "For every connection in an arbitrary environment: the request processor is a free adversary."
 },
 "C32": {
  "status": "proved",
  "note": "C32_unique: at all times; C32_refused: the ERROR answers."
 },
 "C33": {
  "status": "proved",
  "note": "C33_session: the whole session agrees with an independent specification of transactions (Spec/Session.lean). C33_requests: the requests passed on are those of the frames in effect, in order. C33_commit: a COMMIT. C33_no_effect: frames of a transaction that is not committed."
 },
 "C34": {
  "status": "partial",
  "note": "False of the code: SUBSCRIBE and UNSUBSCRIBE are never answered (C34_false) and a RECEIPT may be sent for a frame that then fails, the ERROR lacking the receipt id (C34_false_failed). Proved: never a receipt nobody asked for, and all other frames are answered exactly once."
 },
 "C35": {
  "status": "proved",
  "note": "For fewer than 2^64-1 frames written on the connection (the counter is a uint64)."
 },
 "C46": {
  "status": "partial",
  "note": "False of the code: the server goes on handling frames after DISCONNECT (C46_false), and messages of subscriptions not given up are still written after the RECEIPT (C46_quiet_false); both are runs of the whole server. Proved: the DISCONNECT step itself only writes the RECEIPT (C46_disconnect_partial); in every execution a client that sends nothing after its DISCONNECT was handled is written heart-beats and MESSAGE frames only, for subscriptions it has asked for, those of queues only if the subscription is open, and nothing is sent to a destination on its behalf (C46_afterwards_partial); if it has given up its subscriptions and had none for topics, it is written heart-beats only (C46_unsubscribed_partial)."
 },
 "C36": {
  "status": "proved",
  "note": "Trace relation over what the processor is asked and what it hands out; order, work conservation, requeue-to-front and fairness among waiting subscriptions."
 },
 "C43": {
  "status": "proved",
  "note": ""
 },
 "C37": {
  "status": "partial",
  "note": "False of the code: C37_false (a failed write loses the message). C37_one_place_partial has the failed writes as a fifth place; without failed writes the four places are exact (C37_one_place_writing_partial)."
 },
 "C38": {
  "status": "partial",
  "note": "False of the code in two ways: C38_write_false, C38_stranded_false. Everything held when the clean-up begins is sent back to the processor: C38_sent_back_partial."
 },
 "C44": {
  "status": "partial",
  "note": "False of the code for an application header named id (C44_false). C44_delivered_partial gives body, destination, all other headers in order, subscription, message-id and ack, including redelivery."
 },
 "C41": {
  "status": "partial",
  "note": "The ack list implements the three modes for the message numbers it is given (C41_list_*_partial, C41_ack_partial), but Subscription.msgId is never set, so on a connection ACK releases too much (C41_ack_too_much_false), too little (C41_ack_too_little_false), and NACK likewise (C41_nack_false). C41_ack_actual_partial / C41_nack_actual_partial say exactly what happens."
 },
 "C42": {
  "status": "partial",
  "note": "False of the code in five ways (C42_*_false). C42_no_panic_partial: without those client behaviours no execution panics."
 },
 "C45": {
  "status": "partial",
  "note": "Works for 1.0/1.1 with auto and client modes (C45_written, C45_client_v11_partial); false for 1.2 (C45_v12_rejected_false, C45_v12_false) and for client-individual (C45_individual_false)."
 },
 "C47": {
  "status": "partial",
  "note": "False of the code in three ways: circular wait with a topic (C47_false) or with more than 16 subscriptions to queues (C47_queues_false), and waiting for an ended connection (C47_gone_false). C47_progress_partial: these are the only ways in which the processor stands still. C47_cause_partial, C47_modest_partial: it never waits for a connection with at most 16 subscriptions, all to queues; 17 are too many (C47_seventeen_false)."
 },
 "C39": {
  "status": "proved",
  "note": "C39_topic: order, recipients and contents in every execution of the server; C39_frames, C39_headers: the frames as heap objects, under interleaving with the receivers."
 },
 "C19": {
  "status": "proved",
  "note": "Invariant over all executions of the client system model (callers, processLoop, readLoop, subscriptions, timers, network): the mutex is held and closed is false whenever a caller is at its send on writeCh."
 },
 "C20": {
  "status": "proved",
  "note": "C20_closed: each of the named events implies the closed flag. C20_stays: from then on nothing is handed to the writer and every call that begins later returns the error of a closed connection. C20_returns: such a call cannot block. Unsubscribe has its own results and is only covered by the first two parts."
 },
 "C21": {
  "status": "proved",
  "note": "C21_prefix for every execution; C21_all: nothing is held back except what is still in writeCh. The UNSUBSCRIBE frame is written with the receipt header processLoop adds; frames for temporary queues are not written. C21_frames: what is accepted are the frames the calls make, at most one per call."
 },
 "C22": {
  "status": "partial",
  "note": "False as worded (C22_false): a RECEIPT already read from the network before the request is written satisfies the call. C22_receipt_partial, for every execution and server: a nil result implies that the request was accepted, written, and that processLoop then took a RECEIPT with exactly the id of this request before the call returned (or: Disconnect of a closed connection, without request). C22_honest_partial: if the server sends no RECEIPT with this id before the request is written, the RECEIPT was read after it."
 },
 "C23": {
  "status": "partial",
  "note": "False when the user chooses equal ids (C23_false: the first of two subscriptions with the same id gets nothing). Proved: if the user leaves the ids to the library (C23_library), and more generally with distinct keys, C holds exactly the due MESSAGE frames (registration to end), unchanged, in order, once, up to at most two in flight (C23_exact_partial); for all ids, only frames with a key of the subscription, in network order (C23_isolation)."
 },
 "C24": {
  "status": "partial",
  "note": "False as worded, two ways: readLoop sends a MESSAGE on C after Unsubscribe closed it (C24_false_message), Unsubscribe sends its timeout error on C after readLoop closed it (C24_false_timeout); both panic. Proved for every execution: C is closed at most once (C24_close_once), nothing is put on C once closed (C24_nothing_after), a send on a closed C is only attempted on behalf of an Unsubscribe that timed out or returned ErrClosedUnexpectedly (C24_blame_partial), hence never without Unsubscribe (C24_without_unsubscribe_partial)."
 },
 "C25": {
  "status": "partial",
  "note": "False: lost wake-up (C25_false: RECEIPT processed, C closed, Unsubscribe without timeout returns in no continuation; C25_false_timeout: with a timeout it reports a timeout although the RECEIPT was processed). Proved for every execution: outside the window between the state check and the registration as a waiter the call returns by its own steps, without timeout error (C25_returns_partial); inside it never returns (C25_missed)."
 },
 "C26": {
  "status": "partial",
  "note": "False: a call that gives up stays registered with an unbuffered channel, so its late RECEIPT (C26_false_late), or the error broadcast when the connection fails (C26_false_fail), blocks processLoop for ever; C26_late and C26_stuck show it for every such state and every continuation. Proved for every execution: processLoop at a send goes on unless the receiver gave up, was answered by a MESSAGE, or is a subscription still busy putting its last message on C (C26_send_partial, no SUBSCRIBE that asks for a receipt), and at its select it always goes on (C26_select_partial)."
 },
 "C27": {
  "status": "partial",
  "note": "False three ways: request still in writeCh when ERROR is taken, so its Send waits for ever holding closeMutex and the connection is never closed (C27_false_waiting); Unsubscribe waiting for its receipt returns nil on ERROR (C27_false_unsubscribe); SUBSCRIBE still in writeCh when the connection is lost, nothing ever put on C (C27_false_subscribe). Proved for every execution: when processLoop has returned the connection is closed (C27_closed); a waiting call never returns success (C27_never_success_partial, not Unsubscribe); a call still waiting has a closed channel or a request never taken (C27_callers_partial, distinct keys); an open subscription whose SUBSCRIBE was taken gets an error on C (C27_subscriptions_partial, no Unsubscribe); processLoop gets to its end except in the named situations (C27_progress_partial)."
 },
 "C29": {
  "status": "partial",
  "note": "False as worded: SUBSCRIBE/UNSUBSCRIBE requests for a temporary (reply-to) queue restart the write timer without sending anything, so that silence can last arbitrarily long (C29_false, for every bound). Proved: without such requests every state of a running loop has a transmission within the last W plus the time the loop was late (C29_write_partial, C29_late); a read timeout is declared only if nothing was taken from the network for the whole interval (C29_read), nor anything read unless the loop was late or it came at that very moment (C29_received)."
 },
 "C51": {
  "status": "proved",
  "note": "Over the bytes on the wire in both directions. Custom header entries with an empty name or content-length are excluded (C14_wire_restriction_needed shows the reader then refuses the frame)."
 },
 "C52": {
  "status": "proved",
  "note": "Incoming frames are assumed to come from frame.Reader (results of readFrame). C52_in_order: processed frames are a prefix of the received ones, at most 16 wait. C52_readable: the stream written to each client reads back as written."
 },
 "C53": {
  "status": "partial",
  "note": "False: a SUBSCRIBE with a receipt header (C53_false_message, C53_false_unsubscribe), and sends on a closed C (C24). Proved: these are the only panics (C53_only_partial); a nil response is never dereferenced (C53_receipt); without receipt headers on SUBSCRIBE only the C24 panic is left, without Unsubscribe none."
 },
 "C54": {
  "status": "partial",
  "note": "False for topics (a message already in the write channel is written after UNSUBSCRIBE, C54_false_topic) and for queues when an id is used again (C54_false_reuse). Proved for queues: the id is open, and with ids used once the destination is that of the subscription. Proved for topics and queues: the client has asked for a subscription with that id and the destination of the message (C54_asked_partial)."
 },
 "C55": {
  "status": "partial",
  "note": "False: with NoContentLength a NUL in the body lets the rest be read as further frames (C55_false_injection); a content-length option on Subscribe swallows the next frame (C55_false_swallowed). Proved for all executions whose calls have arguments meeting Spec.Sound (no empty header names, bodies below 4 GiB, no NUL or own length with NoContentLength, no length on (UN)SUBSCRIBE); frames of Ack, Nack, Begin and transactions meet it (C55_api)."
 },
 "C56": {
  "status": "partial",
  "note": "False with two messages away from the queue (C56_false: they come back in reverse order). Proved for executions in which at most one message of the queue is away at a time (C56_order_partial); no message is ever sent to a queue twice (C56_sent_once)."
 },
 "C57": {
  "status": "proved",
  "note": "Composition of C55, C04, C44, C52 and C23. Failures outside the hypotheses: equal ids chosen by the user (C23), NoContentLength with a NUL and a user-set content-length (C55), server panics (C42)."
 },
 "C58": {
  "status": "partial",
  "note": "False in both halves as worded (C58_false: messages of subscriptions that have just ended stop the timer without a write, here for almost five intervals; C58_slow_false: the deadline is for a whole frame, so a client sending a large frame slowly is given up while bytes arrive). Proved instead: something is written, or a message of an ended subscription taken, within each interval, apart from time for which the loop is late, and C58_late says that then it had something to do; no item completed in the last 2b ms whenever the deadline passes; and the deadline does pass if so."
 },
 "C59": {
  "status": "partial",
  "note": "False as worded: C59_end_false (a MESSAGE and an ERROR are on C, no Unsubscribe: Read returns ErrCompletedSubscription for ever), C59_unsubscribe_false (Read stops draining C when Unsubscribe has begun; with 18 messages in flight Unsubscribe never returns, timeout or not, and processLoop stands still for everybody). Proved: what Read returns is what was put on C, in order, each once, the rest being still on C (C59_in_order); Read waits only while C is open and empty (C59_returns); ErrCompletedSubscription means that all was read, or Unsubscribe was called, or exactly the at most 16 entries on C are never read (C59_completed_partial)."
 },
 "C60": {
  "status": "partial",
  "note": "False as worded: C60_stuck says in general, and C60_false by a witness, that with 16 messages on C, one in the hand of readLoop and one in that of processLoop, the whole connection stands still (no frame read, no request taken, no heart-beat written) until the application receives from that C; C60_reached: the 18th message leads there. Proved instead: with fewer than 16 messages on C processLoop goes on (C60_goes_on_partial)."
 },
 "C61": {
  "status": "partial",
  "note": "False as worded: C61_false (the client times a punctual server out, because a message for a subscription that has ended stops the server's timer) and C61_server_false (the server gives a punctual client up, because Subscribe with a reply-to header stops the client's timer). Proved: these are the only reasons apart from lateness of a loop. C61_client_partial and C61_server_partial say how late the loops must have been; C61_client_quiet_partial and C61_server_quiet_partial are the case without lateness."
 },
 "C62": {
  "status": "proved",
  "note": "C62_topic_order: one order (Spec.broadcast), without repetition, following each sender, which the writes for every subscription follow. C62_agree: any two subscriptions. C62_end_to_end and C62_programs: the same for the channels C of client programs (ids left to the library, sound arguments, as in C57)."
 },
 "C63": {
  "status": "proved",
  "note": "C63_follows holds with messages that come back too (what is written follows what the queue handed out to the connection); C63_order adds order, uniqueness and the order of each sender when none comes back. C63_end_to_end and C63_programs: the same for the channels C of client programs. Order with messages that come back is C56."
 },
 "C64": {
  "status": "proved",
  "note": "C64_barrier: the session specification of C33 holds for everything sent before, and the effects (frames that took effect) are there. C64_sends and C64_commit: what this means for messages. Hypotheses as in C57: keys distinct (the library's own ids are, C17), unproblematic arguments; no goroutine about to panic. The server writes the RECEIPT before it hands the message to the processor, so 'has' includes the connection's goroutine being about to do so (pendingRequests); and a COMMIT of an unknown transaction is confirmed although it fails (C34_false_failed), which C64_barrier states as its second case."
 },
 "C65": {
  "status": "proved",
  "note": "C65_streams: in every joint execution the hypotheses on the transport of C57 and C62-C64 hold. C65_receipt and C65_messages need that the ids of this client are distinct (Distinct, which C17_requests derives for programs that leave ids to the library). C65_messages also needs that the subscription is not that of a temporary queue which the program unsubscribes, and says nothing of a subscription whose request was not accepted."
 },
 "C66": {
  "status": "partial",
  "note": "False (C66_false, C66_false_waiting): the server never answers UNSUBSCRIBE, though the client always puts a receipt header on it. C66_partial: while processLoop of the connection has not ended, Unsubscribe returns only errors (options, subscription already given up, time-out, connection lost); needs distinct ids and excludes the subscriptions of temporary queues, which the client ends without asking the server."
 },
 "C67": {
  "status": "proved",
  "note": "C67_intervals and C67_authenticator, for every execution of a connection of the model, with the configuration computed from the fields of Server as processor.go does."
 },
 "C68": {
  "status": "proved",
  "note": "C68_queue and C68_topic, in the joint model of server and clients (C65). Messages of transactions and programs that unsubscribe are not covered; a message to a queue may arrive more than once if a NACK or a lost connection sends it back (C63)."
 },
 "C69": {
  "status": "partial",
  "note": "C69_writes and C69_reads say exactly what the counters count; C69_written_partial relates WritesSent to the frames written as long as the connection works and no temporary queue is used. False as worded: a Send that returns ErrMsgSendTimeout is counted though it is never written (C69_gave_up_false), so is the SUBSCRIBE of a temporary queue (C69_temp_queue_false), and ReadsReceived counts heart-beats (C69_beats_false). Bounds, the zero counters and the projection to the system without counters are proved in full (C69_bounds, C69_sound, C69_complete)."
 },
 "C70": {
  "status": "proved",
  "note": "Effects are specified by positions of frames only (Spec/Effects), without the session state of C33. What is not so: that the messages of a transaction stay together in the queue (C70_together_false); the property does not claim it. Executions in which the server is about to panic (C42) are excluded."
 },
 "C71": {
  "status": "partial",
  "note": "C71_refused (after a successful Commit or Abort) holds for any number of goroutines. The order of the frames is proved for transactions whose methods are called one after the other and whose Begin, Commit and Abort do not fail, whatever the rest of the client does meanwhile (C71_in_turn_partial: handed over; C71_written_partial: written). Otherwise false: two concurrent Commits both return nil and write two COMMITs (C71_two_commits_false); a Send concurrent with a Commit is written after the COMMIT, both return nil (C71_late_send_false); after a CommitWithReceipt that timed out the next Commit writes a second COMMIT (C71_timeout_false). In each case no server session accepts what was written (no_session)."
 },
 "C72": {
  "status": "partial",
  "note": "Proved as worded for the client (C72_client). False of the server: answers (RECEIPT) do not restart its timer, so a heart-beat can follow a RECEIPT at once (C72_server_false); proved counting messages and heart-beats only (C72_server_partial)."
 },
 "C73": {
  "status": "proved",
  "note": "C73_once: the messages got (with the message each is a copy of) and the stored ones are a permutation of those that took effect, which have no duplicates and are the program's SEND frames outside transactions or in committed ones. C73_none_back: nothing comes back to a queue while no client refuses, unsubscribes or ends."
 },
 "C74": {
  "status": "proved",
  "note": "C74_ends: no infinite sequence of the server's own steps from any reachable state (a measure of five numbers, each step makes one less without making an earlier one greater). C74_rest / C74_idle: the server can do nothing by itself exactly when it is idle, apart from the crash (C42) and the deadlocks (C47). C74_settles: from every reachable state it gets there without a failing write."
 },
 "C75": {
  "status": "proved",
  "note": "C75_ends: no infinite sequence of the client's own steps from any reachable state. C75_settles: from every reachable state it comes to rest without any timer. C75_rest: the complete list of what is waited for at rest (no SUBSCRIBE with receipt header, as in C26). C75_served: at rest with processLoop at its select, everything accepted is written and every call that has not returned waits for an answer, behind a call that waits for its answer, or for the broadcast of C25."
 },
 "C76": {
  "status": "proved",
  "note": "C76_ends: no infinite sequence of own steps. C76_settles: a continuation without timers and failing writes to a state where nothing can happen; C76_reached: that state is covered by the rest. C76_rest: nothing is left to do there (or the processor and a connection wait for each other, C47_false). C76_returned: every call other than Unsubscribe has returned (Unsubscribe: C66_false). C76_delivered, C76_once: the conclusions of C68 and C73, now for the state in which executions stop. C76_select: when processLoop is at its select."
 },
 "C77": {
  "status": "partial",
  "note": "C77_same_partial: with any order-keeping storage the server, as long as the storage returned no error, does what it does with the queues in memory, and if the storage never fails it does all of it; so every property proved of the server holds with it. C77_memory: MemoryQueueStorage is such a storage. False of the code: C77_refused_false (the storage refuses a message; the sender has its RECEIPT, the message is gone), C77_subscribe_false (Dequeue fails at SUBSCRIBE; the subscription is never entered, nobody is told), C77_start_false (Start is never called)."
 },
 "C78": {
  "status": "proved",
  "note": "Two relations are given independently of the model: Spec.Step (what a frame means in a state, used since C33) with Spec.Answer (what is written for it), and Spec.Refused (the eighteen reasons, with their texts). C78_decided: for every state and frame exactly one of them applies and the answer and reason are unique. C78_answers: the output of the server is what they say. C78_failing: with failing writes it is a beginning of it. C78_error, C78_refused, C78_determined: the consequences as worded. The text for a message-id that is no number is that of strconv.ParseUint and stays a parameter. C78_source (client with any server) and C78_told (client and server together): the frames behind the errors a program sees, and their texts."
 },
 "C79": {
  "status": "partial",
  "note": "False as worded: createSendFrame keeps the slice of the caller (f.Body = body). C79_false: Send of one has returned nil, the program uses its array for a second message, and the second body goes over the wire twice. C79_late_false: the same after Send has returned ErrMsgReceiptTimeout. C79_transaction_false: the same with Send of a transaction. C79_unwritten_partial: the frames on the wire are those the calls made if arrays are written to only when no body in them has still to be written; C79_receipt_partial: with what the program can see, once all the calls given a body in the array have asked for a receipt and returned nil. C79_shape: commands, headers and body lengths are right whatever the program does. Bodies are whole arrays of fixed length; writer.Write reads a body at one moment."
 },
 "C80": {
  "status": "partial",
  "note": "False as worded for the longest timeouts: C80_false, with a read timeout of 2^63-1 ns and the default multiplier the product is rounded to 2^63, which is not an int64, and the duration is up to the implementation (the model leaves it open); where it is negative the client gives up at once. C80_nearest: the model of rounding gives the nearest float64, ties to even. C80_default: exact up to 2^53 ns (104 days). C80_error_partial: two roundings and the fraction, for products below 2^62 ns. C80_not_shorter_partial, C80_client_partial: for products below 2^62 ns and timeouts up to 2^53 ns. C80_monotone. C80_negative_partial: with a negative multiplier the timer fires at once. C80_on, C80_off: the timers run from the start; without a read timeout there is no read timer, without a write timeout no heart-beats are sent. Infinities and NaN as multiplier are not modelled."
 },
 "C81": {
  "status": "proved",
  "note": "Proved of the reader on byte arrays that are overwritten in place: C81_unchanged for what was read earlier against every later operation, C81_stream for all frames of a reader together, tied to the value-level readers of C02, C05 and C06. C81_stream assumes, as C05, that the transport does not return 100 empty reads in a row."
 },
 "C82": {
  "status": "partial",
  "note": "False: C82_false, thirty-five bytes that announce a body of 2^32-1 bytes make the reader allocate them before any of it has come, also on a connection that has not logged in. C82_success_partial: a Read that returns a frame or a heart-beat has allocated at most three bytes for each byte it consumed. C82_partial: any Read allocates at most three bytes for each byte there is, plus less than 2^32. Memory is counted in bytes of the arrays of bytes; the array of Header.slice is not counted."
 },
 "C83": {
  "status": "proved",
  "note": "C83_no_race: any two conflicting accesses in a run are ordered by the program order of goroutines, the order of the n-th send and n-th receive on the request channel and on each subChannel, and transitivity. The accesses are attached to the steps by hand from the code (Model/Server/Accesses); C83_writes shows that they contain every change the model makes to a subscription or to the message allocated to it, and C83_makes that a frame the connection makes is written, not just read, by the step that makes it. Fields fixed at creation, topic frames once the topic has them, and the connection's private fields are left out."
 },
 "C84": {
  "status": "partial",
  "note": "False for Unsubscribe (C84_false, C84_given_up): it marks the subscription as closing before it looks at its options, so after a nil option the subscription is given up for ever: every later Unsubscribe returns ErrCompletedSubscription, no UNSUBSCRIBE is ever sent, and messages keep arriving. Proved for all other calls: C84_only and C84_silent (a wrong call sends nothing, in any run), C84_nothing_partial (its step changes nothing but the call itself), C84_transaction (a transaction stays usable)."
 },
 "C85": {
  "status": "partial",
  "note": "False (C85_false_open, _write, _ignored, _left): whenever the handshake fails, Dial leaves the connection open; the CONNECT frame is written without a deadline; the deadline is ignored if the connection is not a net.Conn, and stays set when reading fails; cancellation is never looked at. Proved: after a success the connection is open without deadline (C85_success); with a net.Conn what arrives after the deadline has no influence (C85_deadline_partial, for Dial itself C85_dial_deadline_partial); a connection whose address cannot be split is closed (C85_closed_partial); the handshake is that of C12, C14 and C50 (C85_handshake)."
 },
 "C86": {
  "status": "partial",
  "note": "False for queues (C86_false): a client gives a subscription up while a message is on its way to it and uses the id again; the check for a subscription given up looks the id up, finds the new one, writes the message and puts the old subscription back into its queue, where it stays. C86_lost_false: a message sent later is put into the channel of the connection that has ended and is lost, though another client waits. C86_dead_false: with 17 such subscriptions the server stands still for ever. Proved: no topic keeps one (C86_topic); no queue keeps one if the client gave no subscription up before it ended or used no id twice (C86_queue_partial), or if the last request about it was to take it out (C86_last_partial); if no queue keeps one, none ever does again and nothing reaches the connection (C86_forever_partial)."
 },
 "C87": {
  "status": "partial",
  "note": "False as worded, in four ways. C87_reader_false, C87_server_false: after the frame that ends the connection more frames arrive than readCh (readChannel) holds; readLoop waits in its send for ever, on the client and on the server. C87_subscription_false: the SUBSCRIBE was never taken from writeCh; the subscription's readLoop never ends, not even if the program calls Unsubscribe. C87_helper_false: the goroutine of waitWithTimeout has missed the broadcast and sleeps for ever. Proved: at rest these are the only exceptions (C87_client_partial, C87_server_partial; the server's connection at rest is either alive and waiting or cleaned up completely); exactly when readLoop can still end (C87_reader_exact, C87_server_exact); the missed broadcast is for ever (C87_helper_lost)."
 },
 "C88": {
  "status": "partial",
  "note": "Proved: C88_sequence, C88_ends (the loops end; a call fails only by a panic, and when), C88_forEach, C88_system (the loops do what the model of the whole server takes them to do). The last sentence is false (C88_false): Ack, Nack and FindByIdAndRemove do not reset subList, and Add panics. C88_add_partial: Add panics only for a subscription that is in the list or was taken out by one of these three."
 },
 "C89": {
  "status": "proved",
  "note": "C89_safe, C89_rest, C89_settles: the server alone, frames as received. C89_reached, C89_through, C89_once: server and clients together (C76 without its deadlock, and without the assumption that the server has not crashed). That the rules are needed: C42_*_false, C47_false, C47_queues_false, C47_seventeen_false."
 },
 "C90": {
  "status": "partial",
  "note": "C90_same: bisimulation of the server with objects and maps and the server of Model/Server/System, in both directions. C90_one: one object per destination. The last sentence is false (C90_false: for every n, n topics without subscribers kept for ever on behalf of one client that only sends); C90_room_partial: objects stay, and there are at most as many as requests have been handled."
 },
 "C91": {
  "status": "partial",
  "note": "Spec/Standard is a strict reader written after the text of the specifications. C91_understood_partial, C91_understands_partial: version 1.2, every frame but CONNECT and CONNECTED, both directions. C91_versions_partial, C91_streams_partial: all versions and commands under the conditions that are needed. False as worded: CONNECT and CONNECTED are escaped though they must not be (C91_passcode_false, C91_host_false, C91_connected_false), 1.1 has no escape for CR (C91_cr_false), 1.0 has none at all (C91_v10_false); undefined escapes are accepted (C91_strict_false)."
 },
 "C92": {
  "status": "partial",
  "note": "Spec/Conversation is the grammar with the required headers. C92_conversation_partial: all that is written to a client is such a conversation. C92_open_partial: while the connection is served there is no ERROR frame in it. C92_ack_partial: messages from queues have the ack header exactly when it is required. False as worded: in version 1.2 messages from topics to a subscription with ack:client have no ack header (C92_ack_false)."
 },
 "C93": {
  "status": "partial",
  "note": "Spec/ClientConversation says which frames with which headers a client may send, and in which order. C93_conversation_partial: the opening frame followed by all that is written is such a conversation, provided that no MESSAGE comes for a 'subscription' with the name of the receipt a DISCONNECT asks for. C93_library_partial: if the ids are left to the library it is enough that the server sends messages only for subscriptions of the client. False as worded: C93_false, in which the user gives a subscription an id that the library then uses for the receipt of the DISCONNECT."
 },
 "C94": {
  "status": "partial",
  "note": "False: C94_false_storage (whatever the storage, neither Start nor Stop is ever called) and C94_false_returns (Serve returns in no execution, not even when the listener has failed for good, all clients have gone and nothing can happen any more). Proved: C94_address, C94_served (what happens is an execution of the server of the other properties), C94_count, C94_loop (how long it waits), C94_undisturbed, and what is left of the end: C94_no_more_partial."
 },
 "C95": {
  "status": "proved",
  "note": "C95_server: what is written to a client is a conversation relative to the frames that the client has written (C92 has it for those the server has read). C95_client: the condition of C93 that the server sends messages only for subscriptions of the client follows from C95_server, so with ids left to the library (Distinct) nothing remains to be assumed of the server; the version is the one in the CONNECTED frame. The header ack of messages from topics in version 1.2 is not part of the statement (C92_ack_false)."
 },
 "C96": {
  "status": "proved",
  "note": "C96_forward: states only move on. C96_one: at most one call on a subscription is neither at its start nor refused, and then the subscription is not active. C96_closing: the state is \"closing\" only because of such a call. C96_late: a call that begins when the subscription is not active does nothing but return ErrCompletedSubscription. C96_once, C96_wire, C96_library: at most one request handed over per subscription, at most one UNSUBSCRIBE written per id; with one id chosen by the program for two subscriptions there are two, see the example."
 },
 "C97": {
  "status": "proved",
  "note": "Full statement. ACK and NACK frames must carry the number of their message in `ack` or `message-id`; the frames that Ack makes in version 1.2 do not (C45). Transactions: C97_transactions asks for the order of the frames of each on the wire, C97_in_turn obtains it from C71 (methods called in turn, distinct transaction ids, no failed Begin, Commit or Abort); without this C71 has counterexamples."
 },
 "C98": {
  "status": "partial",
  "note": "C98_last, C98_settings, C98_reader, C98_one_piece: all but the size of the writer's buffer. C98_false_writer: that is wrong, the size of ReadBufferSize is used (conn.go:121); C98_writer_partial says exactly what the size is and when it is the one asked for; C98_false_one_piece: a frame below the size of WriteBufferSize that is written in pieces."
 },
 "C99": {
  "status": "proved",
  "note": "C99_no_race: conflicting accesses are ordered. C99_closed_written, C99_places, C99_writeCh, C99_readCh, C99_in_hand: what it speaks of is what the system does (closed changes only where a write is listed; only goroutines said to take part in a step move in it; steps that correspond on a channel hand over the same thing; the frame given away is the one taken last). C99_order: happening before is a strict order that agrees with the run. Not covered: what the user does with frames and messages it was given, and Transaction.completed, which has no protection (C71)."
 }
}
