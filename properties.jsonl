{"id": "C01", "title": "Frame round-trip", "statement": "If frame.Writer.Write writes a frame whose command is a STOMP command, whose header names are non-empty, and whose body either matches the (first) content-length header or, with no content-length header, contains no NUL byte, then frame.Reader.Read on those bytes returns a frame with the same command, the same header entries in the same order and the same body, and consumes exactly the bytes written.", "quantifier": "every frame (any command, any list of header entries over arbitrary bytes, any body length and content) and every trailing byte stream", "why_tests_cant": "The header and body bytes range over all byte strings of every length; a test can only try a handful of escapes and sizes.", "anchors": ["frame/writer.go:Writer.Write", "frame/reader.go:Reader.Read", "frame/encode.go"]}
{"id": "C02", "title": "Stream round-trip", "statement": "Writing any sequence of well-formed frames and heart-beats back to back and then reading repeatedly yields exactly that sequence (nil for each heart-beat), followed by end-of-stream: frame boundaries are never lost, merged or invented.", "quantifier": "every finite sequence of well-formed frames and heart-beats", "why_tests_cant": "Sequences have unbounded length and arbitrary contents.", "anchors": ["frame/writer.go:Writer.Write", "frame/reader.go:Reader.Read"]}
{"id": "C03", "title": "Header text cannot break out of its line", "statement": "The encoded form of a header name or value never contains a LF, CR or colon byte, decoding it gives back the original bytes, and distinct texts have distinct encodings; so no header content supplied by an application can inject a header entry, end the header section, or alter the body.", "quantifier": "every byte string used as a header name or value", "why_tests_cant": "Injection freedom is a statement about all byte strings.", "anchors": ["frame/encode.go:replacerForEncodeValue", "frame/encode.go:unencodeValue"]}
{"id": "C04", "title": "A truncated frame is never delivered", "statement": "If the stream ends at any point strictly inside a written frame, Read returns end-of-stream and no frame. More generally the frame Read returns is decided by the bytes it consumed: appending more bytes never changes it.", "quantifier": "every well-formed frame, every cut point strictly inside its encoding; every byte stream and every extension", "why_tests_cant": "Every crash point of every frame.", "anchors": ["frame/reader.go:Reader.Read", "frame/reader.go:Reader.readLine"]}
{"id": "C05", "title": "Transport chunking does not matter", "statement": "What Read returns depends only on the bytes sent, not on how the transport splits them into reads (including one byte at a time, or empty reads).", "quantifier": "every byte stream and every way to split it into chunks", "why_tests_cant": "Exponentially many splits of streams of any length.", "anchors": ["frame/reader.go:Reader.Read (body loop, bufio reads)"]}
{"id": "C06", "title": "Anything Read accepts is well-formed", "statement": "For arbitrary (hostile) input Read terminates, and if it returns a frame then the command is one of the 15 STOMP commands, every header name is non-empty, a content-length header (if any) is a valid number equal to the body length, a body without content-length has no NUL, and at least one byte was consumed; otherwise it returns an error or a heart-beat.", "quantifier": "every byte stream", "why_tests_cant": "Hostile inputs are unbounded.", "anchors": ["frame/reader.go:Reader.Read", "frame/header.go:Header.ContentLength"]}
{"id": "C07", "title": "Header behaves as an ordered multimap", "statement": "After any sequence of Add, Set, Del, AddHeader on a Header: Len/GetAt enumerate the entries in order; Get/Contains return the first value for a key or report absence; GetAll returns all values in order; Set changes only the first entry for the key or appends one; Del removes all and only the entries of that key. The result is the same as that of a plain list of (key, value) pairs.", "quantifier": "every sequence of operations, keys and values", "why_tests_cant": "Unbounded operation histories.", "anchors": ["frame/header.go:Header"]}
{"id": "C08", "title": "Clones are independent", "statement": "Frame.Clone / Header.Clone return an equal frame, and no later operation (Add, Set, Del, including in-place slice edits and appends into spare capacity) on either one is visible through the other.", "quantifier": "every frame, every history of operations on the original and the clone, in any interleaving, and every slice growth policy", "why_tests_cant": "Aliasing bugs depend on capacity and history.", "anchors": ["frame/frame.go:Frame.Clone", "frame/header.go:Header.Clone", "frame/header.go:Header.Del"]}
{"id": "C09", "title": "content-length is parsed exactly", "statement": "Header.ContentLength returns ok=false when the header is absent, n when the first content-length entry is a non-empty string of ASCII digits denoting n < 2^32, and an error for every other text.", "quantifier": "every header", "why_tests_cant": "All texts, including overflow boundaries.", "anchors": ["frame/header.go:Header.ContentLength"]}
{"id": "C10", "title": "heart-beat header is parsed exactly and never overflows", "statement": "frame.ParseHeartBeat succeeds exactly on texts 'a,b' where a and b are non-empty digit strings whose values are at most 9223372036854 ms, and returns those durations without 64-bit overflow; every other text gives ErrInvalidHeartBeat.", "quantifier": "every text", "why_tests_cant": "All texts, including 19/20 digit overflow boundaries.", "anchors": ["frame/heartbeat.go:ParseHeartBeat"]}
{"id": "C11", "title": "Oversized header sections are rejected", "statement": "The Reader documentation promises that a frame whose command and header section exceed the buffer size is rejected.", "quantifier": "every buffer size and every frame", "why_tests_cant": "All sizes.", "anchors": ["frame/reader.go:Reader (doc comment)", "frame/reader.go:NewReaderSize"]}
{"id": "C12", "title": "Connect yields a supported, server-announced version", "statement": "If Connect returns a connection, the server's first frame was CONNECTED and Version() is the version it announced, one of 1.0, 1.1, 1.2 (1.0 if none was announced); if the server answers with anything else, a heart-beat, an unsupported version or a malformed heart-beat, Connect returns an error and no connection.", "quantifier": "every server response byte stream and every option list", "why_tests_cant": "All server responses.", "anchors": ["conn.go:ConnectWithContext"]}
{"id": "C13", "title": "Heart-beat negotiation of client and server is compatible", "statement": "For the client and the server of this repository, after negotiation each side transmits often enough for the other: the server's write interval does not exceed the client's read timeout, and the client's write interval does not exceed the server's read deadline; a side that announced no heart-beats is not required to send any.", "quantifier": "every client option value, every server configuration, both directions", "why_tests_cant": "All pairs of configurations.", "anchors": ["conn.go:ConnectWithContext", "conn_options.go:connOptions.NewFrame", "server/client/conn.go:handleConnect", "server/client/conn.go:readLoop"]}
{"id": "C14", "title": "CONNECT frame carries the options, custom headers cannot override them", "statement": "The frame Connect sends has the command, host, login/passcode, accept-version and heart-beat values given by the options (last option wins, defaults otherwise), readable by Header.Get on the server side whatever custom ConnOpt.Header entries are also given.", "quantifier": "every list of connect options; for the bytes on the wire, custom names are non-empty and not content-length (that this exclusion is needed is proved as well)", "why_tests_cant": "All option lists and orders.", "anchors": ["conn_options.go:newConnOptions", "conn_options.go:connOptions.NewFrame"]}
{"id": "C15", "title": "Send delivers the body intact to the peer's parser", "statement": "A SEND frame built by Conn.Send with any destination, content type, body (shorter than 4 GiB) and any SendOpt.Header/SendOpt.Receipt options (non-empty custom names) is read back by frame.Reader with exactly that destination and body; with NoContentLength this holds for bodies without NUL bytes if no custom header is called content-length. Longer bodies, or NUL bytes under NoContentLength, are never read back as sent.", "quantifier": "every destination, content type, body and list of built-in send options", "why_tests_cant": "All bodies (with NULs, newlines) and option lists.", "anchors": ["conn.go:createSendFrame", "send_options.go"]}
{"id": "C16", "title": "ACK/NACK frames identify the right message for the negotiated version", "statement": "Ack/Nack on a message never send anything for an auto subscription (Ack: nil, Nack: error), NACK is refused in 1.0, and otherwise the frame sent identifies the message: subscription id and message-id for 1.0/1.1, the message's ack header as id for 1.2; if that header is missing an error is returned and nothing is sent. ShouldAck is true of exactly the messages for which there is something to send.", "quantifier": "every message, subscription, ack mode and version", "why_tests_cant": "All header contents and version combinations.", "anchors": ["conn.go:createAckNackFrame", "conn.go:Ack", "conn.go:Nack", "message.go:ShouldAck", "ack.go:ShouldAck"]}
{"id": "C17", "title": "Allocated ids are unique", "statement": "Identifiers allocated by the library (subscription, receipt, transaction) never repeat within a process, for any interleaving of callers (up to 2^64-1 allocations).", "quantifier": "every number of allocations and every interleaving", "why_tests_cant": "Interleavings and counter values are unbounded.", "anchors": ["id.go:allocateId"]}
{"id": "C18", "title": "Transactions: nothing after completion, everything tagged", "statement": "Every frame sent through a Transaction carries its id in the transaction header; after a Commit or Abort returned nil, every further call on the transaction returns ErrCompletedTransaction and transmits nothing, so at most one of COMMIT/ABORT succeeds.", "quantifier": "every sequence of calls on a transaction (not called concurrently) and every outcome of the underlying sends", "why_tests_cant": "All call histories and error outcomes.", "anchors": ["transaction.go:Transaction"]}
{"id": "C19", "title": "No use of a closed write channel", "statement": "No interleaving of Send, Subscribe, Ack, Begin, Disconnect, MustDisconnect, heart-beat timeouts, network errors and server ERROR frames makes the client panic by sending on or closing an already closed internal write channel.", "quantifier": "every number of concurrent callers and every interleaving of their steps with the I/O goroutines", "why_tests_cant": "Schedules are unbounded; the code itself carries a TODO asking whether this is safe.", "anchors": ["conn.go:Disconnect", "conn.go:MustDisconnect", "conn.go:sendFrame", "conn.go:Subscribe", "conn.go:processLoop"]}
{"id": "C20", "title": "Closed means closed", "statement": "Once Disconnect has returned nil (or a receipt timeout), MustDisconnect has returned, or the server's ERROR has been processed, the connection stays closed: later Send returns ErrAlreadyClosed, later Subscribe/Ack/Nack/Begin/transaction calls return ErrClosedUnexpectedly, and none of them hands a frame to the writer.", "quantifier": "every interleaving of callers and I/O goroutines", "why_tests_cant": "Schedules are unbounded.", "anchors": ["conn.go:Conn.closed", "conn.go:Send", "conn.go:sendFrame"]}
{"id": "C21", "title": "Frames go out in the order they were accepted", "statement": "The frames written to the network are exactly a prefix of the frames accepted from API calls, in the order of acceptance, with heart-beats interleaved: no frame is duplicated, reordered or skipped (temporary-queue SUBSCRIBE/UNSUBSCRIBE frames are the documented exception: they are not transmitted).", "quantifier": "every interleaving of callers and the I/O goroutine", "why_tests_cant": "Schedules are unbounded.", "anchors": ["conn.go:processLoop", "conn.go:Send"]}
{"id": "C22", "title": "A nil result from a receipted call means the server's RECEIPT arrived", "statement": "If Send with a receipt, or Disconnect, or a receipted transaction call returns nil then a RECEIPT frame whose receipt-id is the id allocated to that very call was read from the server after the request was written.", "quantifier": "every interleaving, every server behaviour (duplicate, unknown, late receipts)", "why_tests_cant": "Schedules and server behaviours are unbounded.", "anchors": ["conn.go:processLoop", "conn.go:readReceiptWithTimeout", "conn.go:sendFrame"]}
{"id": "C23", "title": "Messages are routed to the right subscription, in order, exactly once", "statement": "Each subscription's C receives exactly the MESSAGE frames whose subscription header is its id, that were read between its registration and its end, in network order, each once, with body and headers unchanged; no message reaches another subscription.", "quantifier": "every frame sequence from the server, every set of subscriptions, every interleaving", "why_tests_cant": "Unbounded histories.", "anchors": ["conn.go:processLoop (MESSAGE)", "subscription.go:readLoop"]}
{"id": "C24", "title": "Subscription channel is closed exactly once and never written afterwards", "statement": "For each subscription, C is closed at most once and no goroutine sends on it after it is closed, whatever the interleaving of messages, server errors, Unsubscribe calls and timeouts.", "quantifier": "every interleaving", "why_tests_cant": "Schedules are unbounded.", "anchors": ["subscription.go:closeChannel", "subscription.go:Unsubscribe", "subscription.go:readLoop"]}
{"id": "C25", "title": "Unsubscribe returns once the server's receipt has been processed", "statement": "A call to Unsubscribe whose RECEIPT has been processed (state closed, C closed) returns; no wake-up is lost.", "quantifier": "every interleaving of Unsubscribe with the subscription's read loop", "why_tests_cant": "The failing schedule is a two-instruction window.", "anchors": ["subscription.go:Unsubscribe", "subscription.go:waitWithTimeout", "subscription.go:closeChannel"]}
{"id": "C26", "title": "A receipt timeout does not wedge the connection", "statement": "After a receipted call gives up with a timeout, the connection keeps serving other callers and subscriptions, also if the receipt arrives late or the connection then fails.", "quantifier": "every interleaving and server behaviour", "why_tests_cant": "Depends on relative timing of receipt and timeout.", "anchors": ["conn.go:processLoop (RECEIPT)", "conn.go:readReceiptWithTimeout", "conn.go:sendError"]}
{"id": "C27", "title": "Server ERROR reaches every waiter", "statement": "When the server sends ERROR, or the connection is lost, every caller waiting for a receipt and every open subscription gets an error (never a success), and the connection ends up closed.", "quantifier": "every set of waiters, every interleaving", "why_tests_cant": "Unbounded sets of waiters and map iteration orders.", "anchors": ["conn.go:processLoop (ERROR)", "conn.go:sendError", "subscription.go:readLoop"]}
{"id": "C28", "title": "Message implements io.Reader faithfully", "statement": "Reading a Message with any sequence of buffer sizes (and ReadByte) yields the body's bytes in order, each once, then io.EOF forever.", "quantifier": "every body and every sequence of read sizes", "why_tests_cant": "All bodies and read-size sequences.", "anchors": ["message.go:Message.Read", "message.go:Message.ReadByte"]}
{"id": "C29", "title": "Client sends a heart-beat in every write interval and only times out on silence", "statement": "While its I/O loop is not blocked, a client with negotiated write interval W>0 never lets more than W pass between two transmissions, and it declares a read timeout only if nothing was received for the whole read interval.", "quantifier": "every timed execution", "why_tests_cant": "Continuum of timings.", "anchors": ["conn.go:processLoop (timers)"]}
{"id": "C30", "title": "No request is processed before an authenticated CONNECT", "statement": "The server acts on a connection's frames (enqueue, subscribe, ...) only after a CONNECT/STOMP frame without receipt header, accepted by the Authenticator and with an acceptable version; any other first frame gets an ERROR and the connection is closed with no effect on queues or topics.", "quantifier": "every frame sequence on every connection, every authenticator", "why_tests_cant": "All frame sequences.", "anchors": ["server/client/conn.go:connecting", "server/client/conn.go:handleConnect"]}
{"id": "C31", "title": "Server picks the highest mutually supported version", "statement": "For a CONNECT/STOMP frame with accept-version, the server's choice is the greatest of 1.0/1.1/1.2 listed, independent of order and duplicates and unknown entries; without accept-version CONNECT means 1.0 and STOMP is an error; the server then answers CONNECTED with that version only for 1.1 and 1.2.", "quantifier": "every accept-version text", "why_tests_cant": "All lists of versions.", "anchors": ["server/client/frame.go:determineVersion", "server/client/conn.go:handleConnect"]}
{"id": "C32", "title": "Subscription ids are unique per connection", "statement": "On one connection a SUBSCRIBE reusing the id of an existing subscription is refused with an ERROR, UNSUBSCRIBE of an unknown id is refused, and at all times the ids of a connection's subscriptions are distinct.", "quantifier": "every frame sequence", "why_tests_cant": "All frame sequences.", "anchors": ["server/client/conn.go:handleSubscribe", "server/client/conn.go:handleUnsubscribe"]}
{"id": "C33", "title": "Server transactions are all-or-nothing and ordered", "statement": "The SEND/ACK/NACK frames of a transaction have no effect before COMMIT; at COMMIT exactly those frames added since BEGIN take effect, in order, each once; after ABORT, an error or a disconnect none does; transactions do not affect each other.", "quantifier": "every frame sequence, any number of open transactions", "why_tests_cant": "All histories.", "anchors": ["server/client/tx_store.go", "server/client/conn.go:handleCommit"]}
{"id": "C34", "title": "Every frame with a receipt header is answered by exactly one RECEIPT", "statement": "For each processed client frame with a receipt header the server writes exactly one RECEIPT (or, if it fails, one ERROR) carrying that receipt id, and never a RECEIPT nobody asked for.", "quantifier": "every frame in every connection state", "why_tests_cant": "All frames and histories.", "anchors": ["server/client/conn.go:sendReceiptImmediately", "server/client/conn.go:sendErrorImmediately", "server/client/conn.go:handleSubscribe"]}
{"id": "C35", "title": "message-id values never repeat on a connection", "statement": "The message-id header values of the MESSAGE frames the server writes on one connection are strictly increasing, hence distinct.", "quantifier": "every execution that writes fewer than 2^64 - 1 frames on the connection", "why_tests_cant": "Unbounded histories.", "anchors": ["server/client/conn.go:allocateMessageId"]}
{"id": "C36", "title": "Queues are FIFO and work-conserving", "statement": "For every destination, messages are handed to subscribers in the order they were accepted (absent re-queues), re-queued ones first; a message is stored only while no subscription is waiting, and a subscription waits only while no message is stored.", "quantifier": "every sequence of subscribe, unsubscribe, enqueue and requeue requests", "why_tests_cant": "Unbounded histories.", "anchors": ["server/queue/queue.go:Queue", "server/queue/memory_queue.go"]}
{"id": "C37", "title": "Queue messages are neither lost nor duplicated inside the server", "statement": "Every message accepted for a queue is, at each moment, in exactly one place: waiting to be processed, stored in its queue, allocated to exactly one subscription, or finished (acknowledged, or written to an auto-ack subscriber).", "quantifier": "every execution of the server with any number of connections", "why_tests_cant": "All schedules and disconnect points.", "anchors": ["server/processor.go:Serve", "server/queue", "server/client/conn.go:processLoop", "server/client/conn.go:cleanupConn"]}
{"id": "C38", "title": "Unacknowledged messages are re-queued when the connection ends", "statement": "When a connection ends, every queue message it was holding without acknowledgement goes back to its queue and can be delivered to another subscriber.", "quantifier": "every execution, every moment and cause of disconnection (client close, protocol error, write failure)", "why_tests_cant": "All crash points.", "anchors": ["server/client/conn.go:cleanupConn", "server/client/conn.go:cleanupSubChannel"]}
{"id": "C39", "title": "Topic messages reach exactly the current subscribers", "statement": "A message sent to a topic is handed once to each subscription subscribed at that moment, in subscription order, with that subscription's own id in the subscription header and an otherwise identical frame, and to nobody else; the frames handed out do not share mutable state.", "quantifier": "every sequence of subscribe/unsubscribe/enqueue, any number of subscribers", "why_tests_cant": "Unbounded histories and subscriber counts.", "anchors": ["server/topic/topic.go:Topic", "server/client/subscription.go:SendTopicFrame"]}
{"id": "C40", "title": "Queue storage is a per-destination deque", "statement": "MemoryQueueStorage behaves as an independent double-ended queue for each name: Enqueue appends, Requeue prepends, Dequeue removes the head or returns nil; operations on one name never affect another.", "quantifier": "every sequence of storage operations", "why_tests_cant": "Unbounded histories.", "anchors": ["server/queue/memory_queue.go"]}
{"id": "C41", "title": "ACK semantics follow the ack mode", "statement": "An ACK for message-id m releases, for 'client' subscriptions, exactly the pending messages with id up to m, and for 'client-individual' exactly the message with id m; a NACK releases exactly the message with that id; all others stay pending, in order.", "quantifier": "every set of pending messages and every m", "why_tests_cant": "All pending sets.", "anchors": ["server/client/subscription.go:IsAckedBy", "server/client/subscription_list.go:Ack", "server/client/conn.go:handleAck"]}
{"id": "C42", "title": "No client can crash the server", "statement": "No sequence of frames from any set of clients makes the server panic.", "quantifier": "every execution", "why_tests_cant": "All frame sequences and schedules.", "anchors": ["server/processor.go:Serve", "server/client/subscription_list.go:Add", "server/client/subscription.go:IsAckedBy"]}
{"id": "C43", "title": "Destination kind is decided by prefix", "statement": "Destinations starting with '/queue' are treated as queues and all others as topics, consistently for subscribe, unsubscribe, send and requeue; a topic message is never stored and a queue message never broadcast.", "quantifier": "every destination text and every request sequence", "why_tests_cant": "All texts.", "anchors": ["server/processor.go:isQueueDestination", "server/processor.go:Serve"]}
{"id": "C44", "title": "Delivered messages are the sent messages", "statement": "A MESSAGE written to a subscriber has the body, destination and application headers of the SEND it came from, with subscription set to the receiving subscription's id and fresh message-id; no server bookkeeping from an earlier delivery attempt shows through.", "quantifier": "every execution including redelivery after requeue", "why_tests_cant": "All histories and header contents.", "anchors": ["server/client/subscription.go:setSubscriptionHeader", "server/client/conn.go:allocateMessageId", "server/client/conn.go:handleSend"]}
{"id": "C45", "title": "Library client and library server interoperate on acknowledgement", "statement": "The ACK frame the client library builds for a message delivered by the server library is accepted by that server and acknowledges that message, for each negotiated version.", "quantifier": "every message and version the two negotiate", "why_tests_cant": "All messages and both versions.", "anchors": ["conn.go:createAckNackFrame", "server/client/conn.go:handleAck"]}
{"id": "C46", "title": "After DISCONNECT the server sends nothing but the receipt", "statement": "Once the server has processed a client's DISCONNECT frame, the only further frame it writes to that client is the RECEIPT requested by DISCONNECT, and no further frame from that client has any effect.", "quantifier": "every execution", "why_tests_cant": "All schedules.", "anchors": ["server/client/conn.go:handleDisconnect"]}
{"id": "C47", "title": "The server's goroutines never deadlock on each other", "statement": "No execution reaches a state where the request processor and a connection wait for each other's full channels forever.", "quantifier": "every execution, given the fixed channel capacities", "why_tests_cant": "Needs particular fill levels.", "anchors": ["server/client/conn.go:cleanupConn", "server/processor.go:Serve", "server/client/subscription.go:SendTopicFrame"]}
{"id": "C48", "title": "Accept back-off is bounded and resets", "statement": "On a run of temporary accept errors the server sleeps 5ms, 10ms, 20ms, ... never more than 5s, and starts again at 5ms after any successful accept; a permanent error ends the loop.", "quantifier": "every sequence of accept outcomes", "why_tests_cant": "All outcome sequences.", "anchors": ["server/processor.go:Listen"]}
{"id": "C49", "title": "A failing transport never corrupts the stream", "statement": "However and whenever the transport fails while frames are being written (any write accepted only in part), the bytes on the wire are always a prefix of the concatenated encodings of the frames, a Write that returned nil has put its whole frame on the wire, no Write succeeds after one failed, and so a peer decodes exactly the first k frames for some k that covers every successful Write, and then end-of-stream: never a partial, merged, duplicated or altered frame.", "quantifier": "every sequence of frames and heart-beats, every buffer size, and every pattern of transport failures and partial writes", "why_tests_cant": "Failures may hit any byte of any write of any sequence; tests inject a few.", "anchors": ["frame/writer.go:Writer.Write", "frame/reader.go:Reader.Read"]}
{"id": "C50", "title": "Connect only yields a version the application asked for", "statement": "If Connect returns a connection, the protocol version it uses is one of the versions listed in the accept-version header of the CONNECT frame it sent (ConnOpt.AcceptVersion).", "quantifier": "every list of connect options and every server response byte stream", "why_tests_cant": "Needs a server that answers with a version outside the requested list; tests use well-behaved fakes.", "anchors": ["conn.go:ConnectWithContext", "conn_options.go:NewFrame", "version.go:CheckSupported"]}
{"id": "C51", "title": "The library's client and server agree in the handshake", "statement": "A client of this library that connects to a server of this library gets a connection exactly when its credentials are accepted, it accepts version 1.1 or 1.2, its heart-beat intervals are not negative and have at most nine digits in milliseconds, and it adds no receipt header of its own. Then both sides use the same version, the greatest one the client accepts. Otherwise the server answers with one ERROR frame whose message names the first of these reasons and closes the connection, and Connect returns an error carrying that frame.", "quantifier": "every list of connect options (custom header names non-empty and other than content-length) and every server configuration", "why_tests_cant": "Client and server are tested separately against hand-written frames; the space of option lists is infinite.", "anchors": ["conn.go:ConnectWithContext", "conn_options.go:NewFrame", "server/client/conn.go:handleConnect", "server/client/frame.go:determineVersion", "server/client/frame.go:getHeartBeat"]}
{"id": "C52", "title": "Nothing a client sends can break another client's stream", "statement": "As long as the server has not panicked, every connection processes exactly the frames it received, in order, with at most 16 waiting, and everything the server has written to a client reads back as exactly the frames and heart-beats it wrote, in order, followed by the end of the stream: whatever header names, values and bodies other clients send, no written frame is malformed or runs into the next one.", "quantifier": "every execution of the server with any number of clients, any frames its reader can produce from bytes, and any interleaving", "why_tests_cant": "Depends on every header and body combination a client can send and every interleaving of the connections; needs codec and server together.", "anchors": ["server/client/conn.go:readLoop", "server/client/conn.go:processLoop", "server/client/conn.go:sendImmediately", "server/client/frame.go", "frame/writer.go:Write", "frame/reader.go:Read"]}
{"id": "C53", "title": "The client library never panics", "statement": "Whatever the user calls, in any order and from any number of goroutines, and whatever the server sends, no goroutine of the client library panics: no send on or close of a closed channel (the write channel, response channels, subscription channels), no nil response dereferenced, no unlock of an unlocked mutex.", "quantifier": "every execution of a client connection: any calls, options, frames from the server, timers and interleavings", "why_tests_cant": "The panics need a particular interleaving of processLoop, readLoop and callers, or an option combination with a particular answer of the server; absence of the others must hold for all executions.", "anchors": ["conn.go:processLoop", "conn.go:readReceiptWithTimeout", "conn.go:Send", "conn.go:Disconnect", "conn.go:sendFrame", "subscription.go:readLoop", "subscription.go:closeChannel", "subscription.go:Unsubscribe"]}
{"id": "C54", "title": "A message is delivered only to a subscription the client has", "statement": "Whenever the server writes a MESSAGE frame to a client, the subscription named in its subscription header is one the client has at that moment according to the SUBSCRIBE and UNSUBSCRIBE frames processed so far, and that subscription is for the destination of the message.", "quantifier": "every execution of the server: any number of clients, any frames, any interleaving of connections, processor and writes", "why_tests_cant": "Depends on the interleaving of the processor handing out a message with the connection processing UNSUBSCRIBE and a new SUBSCRIBE.", "anchors": ["server/client/conn.go:processLoop", "server/client/conn.go:handleSubscribe", "server/client/conn.go:handleUnsubscribe", "server/client/subscription.go", "server/queue/queue.go", "server/topic/topic.go"]}
{"id": "C55", "title": "What the client writes reads back as the frames it wrote", "statement": "Reading the bytes the client has written gives exactly the frames and heart-beats it wrote, in order: no call of a program makes the peer see a frame that was not sent or miss one that was.", "quantifier": "every execution of the client after the handshake: any calls with any arguments from any number of goroutines, any frames of the server, any interleaving", "why_tests_cant": "Quantifies over all arguments (bodies, header options) and all interleavings; the failures need particular header options together with particular bodies.", "anchors": ["conn.go:processLoop", "conn.go:createSendFrame", "conn.go:Subscribe", "conn.go:createAckNackFrame", "subscription.go:Unsubscribe", "transaction.go", "send_options.go:NoContentLength", "frame/writer.go:Write", "frame/reader.go:Read"]}
{"id": "C56", "title": "Messages that come back are delivered again in their original order", "statement": "The messages sent to a queue leave it in the order in which they were sent, also when some of them come back (NACK, or the end of the connection that held them): apart from repetitions of a message that came back, the sequence of messages handed out, followed by those stored, is the sequence of messages sent.", "quantifier": "every queue and every execution of the server: any number of clients, any frames, any interleaving of connections, processor and writes", "why_tests_cant": "Depends on how many messages are unacknowledged when connections end and on the order in which the requests that put them back are interleaved with others.", "anchors": ["server/client/conn.go:cleanupConn", "server/client/conn.go:handleNack", "server/queue/queue.go:Requeue", "server/queue/memory_queue.go:Requeue"]}
{"id": "C57", "title": "What arrives on Subscription.C was sent by an application to that destination", "statement": "When programs using the client library talk to the server over byte streams, every message that arrives on the channel C of a subscription was sent by a call of Send (or Send in a transaction) of one of the programs, to the destination given to Subscribe, and has the body, content type, destination and application headers (in order) given to that call.", "quantifier": "every configuration, every execution of the server with any number of connections, every execution of every client (any calls, interleavings, time-outs), every amount of bytes in flight in either direction; the receiving client leaves ids to the library and arguments are unproblematic in the sense of C55", "why_tests_cant": "Composes encoder, client loops, server connections, processor, queues and topics, decoder and dispatch, under all interleavings and all splits of the byte streams.", "anchors": ["conn.go:Send", "conn.go:Subscribe", "subscription.go:readLoop", "message.go:Message", "server/client/conn.go:processLoop", "server/processor.go:Serve", "frame/writer.go:Write", "frame/reader.go:Read"]}
{"id": "C58", "title": "Heart-beats of the server: what it transmits and when it gives up a client", "statement": "When the server has answered a CONNECT with heart-beat:a,b, it transmits something at least every a milliseconds while the connection is up, and it gives up a connection for silence only if the client has sent nothing for 2b milliseconds; and it does give it up then.", "quantifier": "every configuration, every execution of a server connection with a clock: any frames, any bytes and heart-beats of the client at any times, any messages of the processor, any delays", "why_tests_cant": "The timer is stopped and restarted on some of the paths through the select and not on others; whether a gap can exceed the interval depends on the order of events over unbounded time.", "anchors": ["server/client/conn.go:processLoop", "server/client/conn.go:readLoop", "server/client/conn.go:handleConnect"]}
{"id": "C59", "title": "Subscription.Read: everything that arrives, in order, then the end", "statement": "An application that consumes a subscription with Read gets every message put on the channel C in order and each once, then the error that ended the subscription if there was one, and ErrCompletedSubscription only after that; and Unsubscribe of a subscription consumed in this way returns.", "quantifier": "every execution of the client with any number of concurrent calls of Read on any subscriptions, together with any other calls, frames, failures and timers", "why_tests_cant": "Read looks at the state of the subscription before it looks at the channel; whether something is lost depends on how the closing goroutine, the reader and the network interleave, and the loss is silent.", "anchors": ["subscription.go:Read", "subscription.go:Active", "subscription.go:Unsubscribe", "subscription.go:readLoop"]}
{"id": "C60", "title": "A slow consumer hinders nobody else", "statement": "A subscription whose channel C the application reads slowly or not at all delays neither the other subscriptions of the connection, nor calls waiting for their receipts, nor the heart-beats of the connection.", "quantifier": "every execution of the client: any number of subscriptions and calls, any frames of the server, any configuration and timers", "why_tests_cant": "It takes 18 unread messages on one subscription and traffic for another one; the test suite of the library reads all its subscriptions.", "anchors": ["subscription.go:readLoop", "conn.go:processLoop", "conn.go:Subscribe"]}
{"id": "C61", "title": "Heart-beats between this library's client and server keep the connection alive", "statement": "If a client and a server of this library have agreed on heart-beats, what either sends reaches the other within a delay shorter than the client's HeartBeatError, and neither is busy, then the client does not declare a read timeout and the server does not give the client up.", "quantifier": "every pair of executions of the timed client and the timed server connection joined by CONNECT/CONNECTED, any client options (HeartBeatError not negative), any server heart-beat, any traffic, delays and clocks offset", "why_tests_cant": "Needs minutes of wall-clock time and particular interleavings (an UNSUBSCRIBE that crosses a message, reply-to subscriptions just before the timer fires); tests use one side only and short times.", "anchors": ["conn.go:processLoop", "conn.go:Connect", "server/client/conn.go:processLoop", "server/client/conn.go:readLoop"]}
{"id": "C62", "title": "All subscribers of a topic see its messages in one order", "statement": "The messages of a topic have one order that every subscription follows, in whichever program it is: no two subscriptions get two messages in different orders, no subscription gets a message twice, and the messages of one sender come in the order in which it sent them.", "quantifier": "every execution of the server with any number of connections (and of programs using the client joined to it by byte streams), every destination that is not a queue, all subscriptions at any time, all interleavings", "why_tests_cant": "The order is a property of pairs of subscribers over all interleavings of the senders, the request processor and the write channels; tests have at most one consumer and a fixed schedule.", "anchors": ["server/topic/topic.go:31-73", "server/processor.go:65-83", "server/client/conn.go:68-75", "server/client/conn.go:200-215", "conn.go:readLoop", "subscription.go:readLoop"]}
{"id": "C63", "title": "Consumers of a queue get its messages in order, each message once", "statement": "As long as no message comes back to a queue (NACK, or the end of a connection that held it), every consumer gets the messages of the queue in the order in which they were sent to it, those of one sender in the order of its SEND frames, and no message reaches two consumers or one consumer twice.", "quantifier": "every execution of the server with any number of connections (and of programs using the client joined to it by byte streams), every queue, any number of consumers and subscriptions, any acknowledgement modes, all interleavings", "why_tests_cant": "Order and uniqueness concern all pairs of consumers under all interleavings of the processor, the subscription channels and the connections; tests use one consumer and a fixed schedule.", "anchors": ["server/queue/queue.go:30-100", "server/processor.go:65-83", "server/client/conn.go:60-68", "server/client/conn.go:216-270", "subscription.go:readLoop"]}
{"id": "C64", "title": "A receipt is a barrier", "statement": "When a call of the client that asked for a receipt (Send with the option Receipt, the methods of Transaction that ask for one, Disconnect) returns nil, the server has processed, in order, everything this program put on the wire before this request, and the request itself unless it is a protocol error. So the server has every message sent before outside transactions, and all the messages of the transaction if the request is its COMMIT, as one block: messages for a queue in exactly one of the places of C37, messages for a topic sent to its subscriptions or waiting to be.", "quantifier": "every execution of the server with any number of connections and of programs using the client joined to it by byte streams, any number of goroutines calling the client, all interleavings", "why_tests_cant": "The claim joins the two sides: which frames the server has processed when a goroutine of the client returns. Tests look at one side at a time, or at one schedule, and cannot see that no schedule lets a receipt overtake an earlier frame.", "anchors": ["conn.go:306-462", "conn.go:477-506", "conn.go:534-577", "conn.go:634-680", "transaction.go:37-157", "server/client/conn.go:539-560", "server/client/conn.go:563-790", "server/client/tx_store.go:14-65"]}
{"id": "C65", "title": "Client and server together: receipts and messages come in time and none is lost", "statement": "When the library's client talks to the library's server: (a) a call that asked for a receipt and returned nil has had its frame written to the connection, then the frame processed by the server, then the RECEIPT read, in this order; (b) what is put on the channel C of a subscription are the MESSAGE frames which the server writes with its id, in the order in which the server writes them, each once, none left out, however early the first one arrives relative to the call of Subscribe; when the client has nothing left to do, all of them have been put on C.", "quantifier": "every execution of the server and any number of clients joined by byte streams in one interleaving, any fragmentation of the streams, any number of goroutines calling the clients", "why_tests_cant": "It is about races across two processes: whether a RECEIPT or a MESSAGE can reach processLoop before the entry in its map that routes it. Each side alone does not decide it, and a test sees a few schedules of the many.", "anchors": ["conn.go:289-304", "conn.go:306-475", "conn.go:505-545", "conn.go:692-760", "subscription.go:172-219", "server/client/conn.go:186-345", "server/client/conn.go:539-780", "frame/reader.go:47-140", "frame/writer.go:31-100"]}
{"id": "C66", "title": "Unsubscribe succeeds with the library's own server", "statement": "When the library's client calls Unsubscribe on a subscription it has with the library's server, and the server has processed the UNSUBSCRIBE and the client has read all that the server has written, the call returns nil.", "quantifier": "every execution of the server and any number of clients joined by byte streams in one interleaving, every subscription and every call of Unsubscribe", "why_tests_cant": "Client and server are tested apart, each with a hand-written peer; the client's tests have a peer that answers. That no interleaving at all lets the call succeed is a statement about all executions.", "anchors": ["subscription.go:65-125", "conn.go:434-447", "conn.go:634-690", "server/client/conn.go:640-657", "server/client/conn.go:418-463"]}
{"id": "C67", "title": "The server's settings take effect", "statement": "The heart-beat intervals announced in CONNECTED are those the client declared, the other way round, with every non-zero one raised to the HeartBeat setting of the server, and to one minute if nothing is set; a connection opens only if the server's Authenticator accepts the login and passcode of its first frame, and without an Authenticator every acceptable first frame opens it.", "quantifier": "every value of the settings, every execution of a connection, every first frame", "why_tests_cant": "The settings are a duration and a function; the tests set neither, or one value of each, and look at a few CONNECT frames.", "anchors": ["server/server.go:43-49", "server/processor.go:132-154", "server/client/conn.go:465-560", "server/client/frame.go:91-110", "server/client/util.go:10-18"]}
{"id": "C68", "title": "When nothing is left to do, no message is missing", "statement": "Server and clients that use the library, when nothing is left to do (no request, delivery or frame is waiting anywhere, all connections are open, and no program has unsubscribed): every message sent to a queue outside transactions is either stored in the queue, while no subscription waits for a message of it, or has arrived on C of a subscription of some program; every message sent to a topic outside transactions was sent on by the topic, and has arrived on C of every subscription the topic had at that moment.", "quantifier": "every execution of the server and any number of clients, with all interleavings of the goroutines of both and of the byte streams between them, that ends in such a state; every message, queue, topic and subscription", "why_tests_cant": "The tests wait for particular messages in particular schedules; a message that gets lost between the goroutines in a rare schedule, or one that is stuck although somebody waits for it, is a statement about all schedules.", "anchors": ["server/processor.go:39-96", "server/queue/queue.go:31-86", "server/topic/topic.go:31-73", "server/client/conn.go:187-330", "conn.go:290-460", "subscription.go:172-230"]}
{"id": "C69", "title": "The statistics of a connection", "statement": "With ConnOpt.WithStats, WritesSent is the number of frames written to the server and ReadsReceived the number of frames received from it; the sizes reported never exceed the capacities of the channels; without the option both counters stay at zero; and counting changes nothing about what the connection does.", "quantifier": "every execution of the client with any number of callers, every capacity, timeouts firing at any time", "why_tests_cant": "The counters are advanced by several goroutines before the action they count; the only test looks at them after one acknowledged SEND, when nothing is in flight.", "anchors": ["conn.go:269-302", "conn.go:477-486", "conn.go:534-548", "conn.go:634-647", "conn.go:697-760", "conn_options.go:345-349"]}
{"id": "C70", "title": "Transactions take effect as a whole", "statement": "The SEND, ACK and NACK frames of a transaction take effect all together, with the COMMIT that ends the transaction, in the order in which they were sent and each once, or not at all; a message that arrives at any program was sent outside transactions or in a transaction its sender has committed; and when nothing is left to do, exactly those messages have arrived or are stored.", "quantifier": "every execution of the server and any number of clients over byte streams, with any interleaving of transactions, of commands, of connections and of deliveries", "why_tests_cant": "The tests commit one transaction on one connection; they do not look at what reaches other clients, nor at connections that end between BEGIN and COMMIT, nor at transactions whose names are reused.", "anchors": ["transaction.go:7-12", "transaction.go:72-127", "server/client/tx_store.go:18-67", "server/client/conn.go:563-608", "server/client/conn.go:750-774"]}
{"id": "C71", "title": "A transaction on the wire", "statement": "The frames of a transaction made with the library are, in the order in which they are written, a BEGIN, then the SENDs, ACKs and NACKs made with it, then at most one COMMIT or ABORT, and nothing after it; once a Commit or Abort has returned nil every later method call returns ErrCompletedTransaction and sends nothing.", "quantifier": "every execution of the client, any number of goroutines using any number of transactions and making other calls, all interleavings of the steps of the methods and of sendFrame, timeouts firing at any time", "why_tests_cant": "The flag `completed` is tested before the frame is handed over and set after sendFrame has returned, without synchronisation: the harmful interleavings lie between two adjacent lines, and the harmful timeouts between writing a COMMIT and its receipt.", "anchors": ["transaction.go:17-178", "conn.go:697-760", "conn.go:798-810"]}
{"id": "C72", "title": "Heart-beats are sent only when they are due", "statement": "Client and server write a heart-beat only if they have transmitted nothing for the whole interval before it.", "quantifier": "every timed execution of a client, resp. of a server connection, all interleavings and delays", "why_tests_cant": "Which case of the select is taken at the moment a timer fires is a race; whether a timer is restarted by every kind of transmission needs all orders of frames, answers and timers.", "anchors": ["conn.go:317-349", "conn.go:400-406", "server/client/conn.go:193-323", "server/client/conn.go:104-115", "server/client/conn.go:539-551"]}
{"id": "C73", "title": "Every message of a queue exactly once", "statement": "When nothing is left to do and no program has refused a message, given up a subscription or been disconnected, the messages of a queue that the programs have got, together with the messages stored in it, are exactly the messages sent to the queue, each of them once.", "quantifier": "every execution of the server with any number of clients, all programs, all interleavings, all queues; transactions included", "why_tests_cant": "Loss and duplication depend on the interleaving of the goroutines of all clients, the server's connections and its request processor; a test sees a few of them and counts at one place.", "anchors": ["server/queue/queue.go:31-86", "server/client/conn.go:187-323", "server/processor.go:39-96", "conn.go:306-462", "subscription.go:172-230"]}
{"id": "C74", "title": "What the server does by itself comes to an end", "statement": "When nothing comes from outside any more (no connection, no frame, no end of a connection, no timer), the server stops after finitely many steps, whatever the order of its goroutines and whichever writes fail. Then no request waits, nothing is left to hand over, and each connection waits for its client or has ended, unless the server has crashed or the processor waits for a connection that waits for it or has ended.", "quantifier": "every state of every execution, any number of connections, every schedule, every pattern of failing writes", "why_tests_cant": "That no schedule goes round in circles (a message given out, put back and given out again) is a statement about all infinite schedules; a test sees the beginning of one.", "anchors": ["server/processor.go:39-96", "server/client/conn.go:187-325", "server/client/conn.go:331-406", "server/queue/queue.go:27-86", "server/topic/topic.go:31-73"]}
{"id": "C75", "title": "What the client does by itself comes to an end", "statement": "When the program makes no more calls and nothing more is read from the network, the client stops after finitely many steps, whatever the order of its goroutines, whichever timers fire and whichever writes fail. Unless it has crashed, each subscription's readLoop then waits for a frame or has returned; each call has returned or waits for closeMutex, for room in writeCh, for the answer to its request, or in Unsubscribe for a broadcast; and (if no SUBSCRIBE asked for a receipt) processLoop is at its select with nothing to do, has returned, wants to hand a frame to a call that has given up, or waits for closeMutex held by a call. With processLoop at its select everything accepted has been written.", "quantifier": "every state of every execution, any number of calls and subscriptions, every schedule, every pattern of timers and failing writes", "why_tests_cant": "That nobody is woken again and again, and that the list of places to wait at is complete, are statements about all infinite schedules and all reachable states.", "anchors": ["conn.go:290-474", "conn.go:477-760", "subscription.go:65-137", "subscription.go:153-230"]}
{"id": "C76", "title": "Server and clients together come to rest, and then everything has arrived and every call has returned", "statement": "When no program makes a new call, no client connects, no reader sees its connection fail and no heart-beat is due, server and clients, connected by streams of bytes, stop after finitely many steps, whatever the order, the pieces in which the bytes arrive, the timers and the failing writes; and they can always stop without a timer or a failing write. Where they stop while every client goes on working (connected, processLoop at its select, connection open), and the server's processor does not wait for a connection that waits for the processor: the server has dealt with all that the programs have handed over and the clients with all that the server has written; every call other than Unsubscribe has returned; every message sent to a queue outside transactions has arrived at a program or is stored in a queue for which no subscription waits; every message a topic has sent on has arrived at each of its subscriptions; and no message of a queue has arrived twice, if none was refused and no subscription given up. For programs with distinct ids.", "quantifier": "every execution of the server and any number of clients, every schedule, every division of the streams into pieces, every pattern of timers and failing writes", "why_tests_cant": "No finite number of runs shows that nobody waits for ever: a lost wake-up, a receipt given to nobody or a message left in a channel shows only in some interleavings of many goroutines on both sides, and as a run that does not end.", "anchors": ["conn.go:290-474", "conn.go:477-760", "subscription.go:153-230", "server/processor.go:39-96", "server/client/conn.go:117-406", "server/topic/topic.go:47-73", "server/queue/queue.go:31-86"]}
{"id": "C77", "title": "Any queue storage that behaves as documented serves as well as the one in memory", "statement": "With a queue storage supplied by the user (Server.QueueStorage) that keeps the messages of each queue in order (Enqueue at the end, Requeue at the head, Dequeue from the head, nothing else changed), the server behaves exactly as with the queues in memory: the same executions, the same connections, subscriptions, requests and writes, the same contents of the queues. An error of the storage is not lost: a sender whose message was refused gets no RECEIPT, a client whose subscription could not be entered is told. The storage is started before it is used (Start is documented as called at server startup, Stop as called prior to shutdown).", "quantifier": "every storage (any type of states, any functions Enqueue, Requeue, Dequeue, Start, Stop), every execution of the server with it, every configuration", "why_tests_cant": "Quantifies over all implementations of an interface; a test has one or two. The errors are ignored in places where the outcome shows only later, in a message that never comes.", "anchors": ["server/queue/storage.go:7-33", "server/queue/queue.go:31-86", "server/queue/manager.go:15-34", "server/processor.go:27-96", "server/server.go:43-105"]}
{"id": "C78", "title": "What the server answers is determined by the frames it reads, and the client's program gets to see the reason of a refusal", "statement": "What the server writes to a client (apart from MESSAGE frames and heart-beats) is a function of the frames it has read from this client and of its settings: one answer for each frame of the session (CONNECTED with the highest common version and the intervals, a RECEIPT or nothing), in order; and for the first frame against the rules one ERROR frame whose message header says what was wrong with this frame, and which has the receipt id of the frame unless its RECEIPT is written already, after which the connection is closed. No frame that is in order is answered by an ERROR, and none that is not is left without one. Whatever other clients do makes no difference. With the client of this library at the other end: if a call returns an error made from an ERROR frame, or such an error is put on the channel of a subscription, its text is the reason for which the server refused a frame of this client, or one of the few the client makes itself.", "quantifier": "every execution of the server with any number of connections, every sequence of frames (any bytes), every authenticator, every minimum heart-beat interval, every failure of writing", "why_tests_cant": "Some eighteen ways a frame can be wrong, each in any state of transactions and subscriptions and for any bytes in the headers; a test checks the text of the one frame it sends.", "anchors": ["server/client/conn.go:80-115", "server/client/conn.go:117-183", "server/client/conn.go:427-771", "server/client/errors.go:1-36", "server/client/frame.go:1-119", "server/client/tx_store.go:1-65", "errors.go:25-58", "subscription.go:200-222", "conn.go:464-469"]}
{"id": "C79", "title": "The body on the wire is the one given to the call", "statement": "Every SEND frame on the wire has the body its call was given, whatever the program does with its memory after the call has returned.", "quantifier": "every execution of the client with any number of goroutines, every writing of the program to its arrays at any moment, every body and header", "why_tests_cant": "Send returns once the frame is in a channel, and the body is read from the caller's array when another goroutine gets to write the frame: whether a program that uses its buffer again changes a message depends on the scheduling, and the tests give every call a fresh slice.", "anchors": ["conn.go:534-577", "conn.go:596-631", "conn.go:400", "conn.go:451-457", "transaction.go:113-125", "frame/writer.go:80-85"]}
{"id": "C80", "title": "The read timer runs for the read timeout times the grace period multiplier", "statement": "The timer after which a silent connection is given up runs for the read timeout times HeartBeatGracePeriodMultiplier, computed in float64: exactly the read timeout with the default multiplier, never less than it with a multiplier of at least 1, and never less for a longer timeout; so a client with such a multiplier gives up only if nothing has come for the whole read timeout.", "quantifier": "every read timeout and every finite float64 multiplier, every execution of the client with its clock", "why_tests_cant": "Two roundings to 53 bits and a truncation, over 2^63 timeouts and 2^64 multipliers; the tests use no multiplier but the default and timeouts of seconds.", "anchors": ["conn.go:50", "conn.go:135", "conn.go:317-319", "conn_options.go:24", "conn_options.go:39", "conn_options.go:165-169", "conn_options.go:282-286"]}
{"id": "C81", "title": "A frame that has been read does not change", "statement": "The frames that frame.Reader returns are independent of its buffer and of each other: whatever happens after a Read (more reads from this reader or others, writes into and appends to the bodies of frames, the program's own arrays), command and header entries of a frame keep their value, and its body is what was read with the program's own writes to it; so at every time the frames of a reader are those of its byte stream.", "quantifier": "every sequence of operations on any number of readers with any buffer size and any chunking of the streams, at every moment; whether or not strings.Replacer returns its argument when it replaces nothing", "why_tests_cant": "bytesToString makes strings through unsafe.Pointer that share memory with slices; whether one of them is overwritten depends on buffer size, on how the network cuts the stream, and on which later read reuses the buffer. Tests look at a frame right after it was read.", "anchors": ["frame/reader.go:47-157", "frame/encode.go:24-34", "frame/frame.go:9-13"]}
{"id": "C82", "title": "Reading takes memory in proportion to the bytes that are there", "statement": "Each Read of frame.Reader allocates memory in proportion to the number of bytes that have arrived or will arrive on the connection.", "quantifier": "every sequence of operations on any number of readers with any buffer size and any chunking of the streams", "why_tests_cant": "A test that sends a short frame with a large content-length would see an error and not the allocation; and the bound is about all streams, lines of any length among them.", "anchors": ["frame/reader.go:107-119", "frame/header.go:161-175"]}
{"id": "C83", "title": "The server's goroutines do not race for subscriptions and messages", "statement": "There is no data race on subscriptions or on the frames of queue messages in the server: if two goroutines access the same subscription or frame and one of them writes, then one access happens before the other in the sense of the Go Memory Model. (conn.go: all processing in one goroutine helps eliminate race conditions; subscriptions carry no mutex.)", "quantifier": "every run of the server: any number of connections, any frames, any scheduling, write failures and clean-ups included; every pair of steps", "why_tests_cant": "The race detector sees the pairs of accesses of the schedules that were run. A subscription passes between three kinds of goroutines through two kinds of channels, and an order that holds in one schedule need not in another, e.g. an UNSUBSCRIBE that is under way while a message is being handed to the subscription.", "anchors": ["server/client/conn.go:104-108", "server/client/conn.go:184-185", "server/client/conn.go:264-309", "server/client/conn.go:690-740", "server/client/subscription.go:59-84", "server/client/subscription_list.go:22-102", "server/queue/queue.go:31-86", "server/processor.go:39-95"]}
{"id": "C84", "title": "A call refused because of its options leaves no trace", "statement": "When Send, Subscribe, Unsubscribe or a Transaction's Send fails because an option is nil, an option function fails, or a header is not allowed, the call has had no effect: nothing is sent, the connection, its subscriptions and transactions are as they were, and the call can be repeated with correct options.", "quantifier": "every run of a client connection with any number of calls in any interleaving; every wrong call in it", "why_tests_cant": "A test repeats a wrong call on a quiet connection and looks at the error. Whether something changed behind it, and whether it can be repeated with success, depends on what is done before the options are looked at and on everything that may happen afterwards.", "anchors": ["conn.go:534-545", "conn.go:612-632", "conn.go:697-719", "subscription.go:65-85", "transaction.go:113-125", "send_options.go:29-54", "subscribe_options.go:22-42"]}
{"id": "C85", "title": "A failed Dial leaves no connection behind; the context's deadline holds for the handshake only", "statement": "When Dial or DialWithContext fails, the network connection it opened is closed. The deadline of the context bounds the handshake, writing and reading, whatever the kind of connection, and no deadline is left on the connection afterwards.", "quantifier": "every list of options, every context deadline or none, every network connection: of any kind, with or without a usable address, failing to write or not, with any bytes arriving at any times", "why_tests_cant": "Tests connect to servers that answer, and a connection left open does not show in a test: the caller gets an error and no connection to look at. The time at which the bytes of an answer arrive is not under a test's control.", "anchors": ["conn.go:69-91", "conn.go:96-98", "conn.go:100-176"]}
{"id": "C86", "title": "The server forgets a connection that has ended", "statement": "When a connection has ended and the processor has handled the requests it made, no queue and no topic has a subscription of it any more, and no message is ever given to it.", "quantifier": "every run of the server with any number of connections, every connection in it that has ended, however it ended and whatever it did before; every continuation", "why_tests_cant": "A subscription left behind shows only in a message that a later subscriber does not get, or in a server that stands still after the 17th. It takes a message on its way to a subscription at the moment it is given up and its id is used again; a test that looks for it has to know the interleaving.", "anchors": ["server/client/conn.go:264-306", "server/client/conn.go:331-372", "server/client/conn.go:611-657", "server/queue/queue.go:31-54", "server/client/subscription_list.go:22-54", "server/processor.go:39-93", "server/topic/topic.go:31-45"]}
{"id": "C87", "title": "When a connection has ended, its goroutines end", "statement": "When a connection has ended, on the client as on the server, every goroutine started for it ends: readLoop, the readLoop of every subscription, and the goroutine that Unsubscribe starts to wait for the end of its subscription.", "quantifier": "every execution of the client and of a connection of the server; every moment after processLoop has returned (or the clean-up is complete) at which none of the goroutines can go on by itself; every continuation", "why_tests_cant": "A goroutine that stays behind is invisible: the program goes on, and memory grows. It takes frames arriving after the one that ended the connection, more than the channel holds, or a broadcast between two statements of another goroutine; no test counts goroutines after each such schedule.", "anchors": ["conn.go:288-303", "conn.go:306-461", "conn.go:511-523", "subscription.go:119-134", "subscription.go:153-162", "subscription.go:172-230", "server/client/conn.go:117-190", "server/client/conn.go:331-372"]}
{"id": "C88", "title": "A list of subscriptions behaves as a sequence", "statement": "Whatever calls are made, a SubscriptionList holds and hands out what a sequence would: Add appends, Get takes the first, Remove the given one, FindByIdAndRemove the first with the id, Ack and Nack all that are concerned and no others, in order; ForEach visits each once and marks the last. Its loops end. A subscription that has been taken out can be added again.", "quantifier": "every sequence of calls on a list, any number of subscriptions with any ids, modes and message numbers", "why_tests_cant": "The loops take elements out of the list they walk through. Whether an element is skipped depends on which neighbours are taken out and in which order; the tests try a handful of lists with one or two elements taken.", "anchors": ["server/client/subscription_list.go:8-107", "server/client/subscription.go:38-57"]}
{"id": "C89", "title": "Clients that keep to five rules neither crash nor stop the server", "statement": "If on every connection all subscriptions are to queues, no more than 16 are made, every SEND has a destination, and ACK or NACK are sent only where all subscriptions are in mode auto, then the server never panics, its processor never blocks on a connection, and whenever it stops it has nothing left to do: no frame, request or delivery waits. With programs using the client library, every call other than Unsubscribe has then returned, and each message of a queue is either stored or has arrived once.", "quantifier": "every number of connections, every sequence of frames within the rules, every interleaving of the goroutines of server and clients, connections that end at any moment", "why_tests_cant": "Deadlocks and panics (C42, C47) need particular interleavings and full channels. That none is left once these rules are kept is a statement about all interleavings; a test sees a few of them.", "anchors": ["server/processor.go:62-158", "server/client/conn.go:227-378", "server/queue/queue.go:1-86", "server/client/subscription_list.go:8-107"]}
{"id": "C90", "title": "There is one queue and one topic for each destination, made when first needed", "statement": "The managers of queues and topics make an object when a destination is first named and find the same object for it ever after, and different objects for different destinations. This way of keeping them cannot be observed: the server behaves in every execution as if every destination had its list of subscribers from the start. An object that nobody needs any more, because it has no subscribers and stores nothing, is given up.", "quantifier": "every execution of the server: any number of connections, any frames, any interleaving; any destinations; any number of objects", "why_tests_cant": "That lazily made objects are invisible is an equivalence of two systems over all executions. A test of Find calls it with a few names; one that looks at memory would have to run for long and could not say that nothing ever gives an object up.", "anchors": ["server/queue/manager.go:4-23", "server/topic/manager.go:6-24", "server/queue/queue.go:12-86", "server/topic/topic.go:14-73", "server/processor.go:15-94"]}
{"id": "C91", "title": "The library understands, and is understood by, peers that follow the STOMP specification", "statement": "Whatever frame the library writes is, for a peer that reads as the STOMP specification of the negotiated version says (ends of lines, escaping of headers, content-length, heart-beats between frames), that same frame; and whatever such a peer takes for a frame, the library reads as that same frame.", "quantifier": "every version of the protocol (1.0, 1.1, 1.2); every frame: any command, any headers over arbitrary bytes, any body; every stream of bytes", "why_tests_cant": "The repository's tests read what the library itself has written, so a mistake made on both sides goes unseen. A test against a real broker would try a few frames; here the two readings are compared for all bytes.", "anchors": ["frame/encode.go:8-34", "frame/writer.go:31-100", "frame/reader.go:47-157", "conn_options.go:newFrame", "conn.go:Connect"]}
{"id": "C92", "title": "What the server sends is what a STOMP server may send", "statement": "Seen from the client, the server follows the STOMP specifications: it says nothing before the client's first frame; then it sends either one ERROR frame and nothing else, or a CONNECTED frame with a version the client has offered, followed by MESSAGE frames (each with a message-id, with the id of a subscription the client has asked for and with the destination of that subscription, and in version 1.2 with an ack header if the subscription requires acknowledgements), by RECEIPT frames each with a receipt-id the client has asked for, and by heart-beats if and only if the client wants them and the server has announced them; and possibly by one ERROR frame, after which nothing follows.", "quantifier": "every execution of the server with any number of clients sending any frames; every schedule of its goroutines; failing writes; all settings", "why_tests_cant": "The order of what is written to one client depends on the order in which one goroutine chooses between three channels and a timer, while others fill them. A test sees some of these orders, and looks at the headers of a few frames.", "anchors": ["server/client/conn.go:185-325", "server/client/conn.go:89-110", "server/client/conn.go:408-424", "server/client/conn.go:465-551", "server/client/subscription.go:59-84"]}
{"id": "C93", "title": "What the client sends is what a STOMP client may send", "statement": "Seen from the server, the client follows the STOMP specifications: its first frame is CONNECT or STOMP, with a host and the versions it accepts; every later frame is one a client may send in a session of the negotiated version, with the headers that this version requires of it (SEND a destination; SUBSCRIBE a destination, an id and one of the three ack modes; ACK and NACK the id of the message in the form of the version, and no NACK in version 1.0; BEGIN, COMMIT and ABORT a transaction); an UNSUBSCRIBE comes only after a SUBSCRIBE with the same id; and no frame follows a DISCONNECT.", "quantifier": "every handshake that succeeds; every execution of the client: any number of goroutines that call Send, Subscribe, Unsubscribe, Ack, Nack, Begin, methods of transactions, Disconnect and MustDisconnect with any arguments and options, in any interleaving with its own goroutines; anything the server sends; failing writes and expiring timers", "why_tests_cant": "Callers hand frames to one goroutine through a channel, and the mutex, the flag 'closed' and the answer to the DISCONNECT decide which of them still go out. Whether a frame can slip in after the DISCONNECT, or an UNSUBSCRIBE overtake its SUBSCRIBE, depends on all interleavings.", "anchors": ["conn.go:141-263", "conn.go:306-461", "conn.go:471-526", "conn.go:612-632", "conn.go:700-760", "conn.go:813-859", "subscription.go:64-134", "transaction.go:47-178"]}
{"id": "C94", "title": "The server starts, accepts connections and ends as documented", "statement": "ListenAndServe listens on the address it is given, or on :61613 if there is none, and returns the error if it cannot listen. The queue storage is started before it is used and stopped at the end. Every connection that the listener accepts is served. When Accept fails temporarily the server waits 5 ms, twice as long after each further failure in a row up to 5 s, and tries again; the clients that are connected do not notice. When the listener fails for good nobody is accepted any more and Serve returns.", "quantifier": "every address and every result of listening; every queue storage; every execution of the server: any sequence of results of Accept, in any interleaving with the steps of connections and of the request processor", "why_tests_cant": "Tests use a listener that never fails, and a storage for which Start and Stop do nothing. That Serve never returns, and that no execution ever starts the storage, are statements about all executions.", "anchors": ["server/server.go:14-24", "server/server.go:51-89", "server/processor.go:23-43", "server/processor.go:102-130", "server/queue_storage.go:11-30"]}
{"id": "C95", "title": "With this library at both ends, both sides speak STOMP", "statement": "When the library's client talks to the library's server, each side's stream is a conversation the STOMP specifications allow. The client opens with CONNECT, then sends only frames that a client may send in the version the server has chosen, with their required headers, and nothing after its DISCONNECT. The server answers with CONNECTED in a version the client offers, or with ERROR; then come only heart-beats that were agreed on, RECEIPTs for receipts this client has asked for and MESSAGEs for subscriptions this client has asked for, and nothing after an ERROR.", "quantifier": "every execution of the server and any number of clients over byte streams in which the server does not crash; any calls by any number of goroutines with unproblematic arguments, whose ids are left to the library; any interleaving and any cut of the streams", "why_tests_cant": "That no reply of the server can be mistaken for the answer to a DISCONNECT, and that no frame slips in behind it, involves all interleavings of client goroutines, server goroutines and the two streams.", "anchors": ["conn.go:306-526", "conn.go:697-760", "subscription.go:64-134", "server/client/conn.go:185-325", "server/client/conn.go:465-551", "server/processor.go:44-93"]}
{"id": "C96", "title": "A subscription ends once, and asks the server to end it at most once", "statement": "The state of a subscription only moves on, from active by closing to closed or directly to closed; once Active has returned false it never returns true. Of all calls of Unsubscribe on one subscription at most one gets past the first check; all others return ErrCompletedSubscription and have no effect, and so does every call that begins after the server or the connection has ended the subscription. At most one request to end a subscription is handed to the writer, and if no two subscriptions have been given the same id, at most one UNSUBSCRIBE with a given id is ever written.", "quantifier": "every configuration and every execution of the client: any calls by any number of goroutines, any frames from the server, any interleaving, failures of reading and writing, timeouts", "why_tests_cant": "A second UNSUBSCRIBE would need two goroutines to pass the check of the state at the same moment, or a call of Unsubscribe that overlaps with an ERROR or RECEIPT closing the subscription; a test sees only some of those interleavings.", "anchors": ["subscription.go:13-35", "subscription.go:58-69", "subscription.go:87-116", "subscription.go:153-230", "conn.go:400-449"]}
{"id": "C97", "title": "The library's server never refuses a client of the library that uses no transactions, or uses them in turn", "statement": "Let clients and server of this library be connected. A client whose handshake was accepted, whose receipt and subscription ids are left to the library, and whose calls do not name transactions (an ACK or NACK names its message by a number in a header the server looks at) never gets an ERROR from the server, whatever its goroutines do concurrently: no frame it sends falls under any of the server's reasons for refusal. The same holds of a client with transactions whose frames appear on the wire as BEGIN, then SENDs, ACKs and NACKs, then COMMIT or ABORT (or a beginning of this), as they do if the methods of each transaction are called in turn and Begin, Commit and Abort have not failed. So none of its calls and none of its subscriptions ever gets an error other than those the client makes up itself about timeouts and failed writes.", "quantifier": "all server configurations, all interleavings of any number of clients (with arbitrary other clients, polite or not), the network and the server, all numbers of goroutines calling Send, Subscribe, Unsubscribe, Ack, Nack, Disconnect, MustDisconnect, Begin and the methods of transactions with any arguments within the stated limits, all destinations, bodies and option lists", "why_tests_cant": "It combines the client's locking (one UNSUBSCRIBE per subscription, after its SUBSCRIBE), its id allocation under concurrency and the order of its write channel with every refusal of the server's state machine; tests run a few sequential sessions and mostly against a scripted peer.", "anchors": ["conn.go:534-598", "conn.go:697-781", "subscription.go:65-116", "server/client/conn.go:427-771"]}
{"id": "C98", "title": "Connection options take effect as given, and a frame that fits the write buffer leaves in one write", "statement": "Of each connection option with a number (timeouts, channel capacities, buffer sizes) the last one given counts, and without one the documented standard value is used. The reader's buffer has the size of ReadBufferSize and the writer's buffer the size of WriteBufferSize (4096 bytes if not given). A frame or heart-beat whose encoding fits into the writer's buffer is handed to the transport by exactly one Write call with all its bytes, and the answer of that call is the answer of the frame.", "quantifier": "all lists of options, all remote addresses and answers of the server, all frames and heart-beats, all buffer sizes, all behaviours of the transport", "why_tests_cant": "A wrong buffer size changes no byte on the wire, only how often and with what pieces the transport is called; tests with an in-memory pipe compare the bytes. The order and repetition of options is unbounded.", "anchors": ["conn.go:101-135", "conn_options.go:34-70", "conn_options.go:206-351", "frame/reader.go:33-41", "frame/writer.go:21-28", "frame/writer.go:31-100"]}
{"id": "C99", "title": "The goroutines of a client connection race for nothing", "statement": "Whenever two different goroutines of a connection (of callers, processLoop, readLoop, the readLoops of subscriptions) access the field closed, the frame of a request, a frame read from the network or the ERROR frame made by sendError, and one of the accesses is a write, one happens before the other in the sense of the Go Memory Model: by program order, closeMutex, writeCh, readCh and the response channels.", "quantifier": "all configurations, all lists of calls with all their options, all frames of the server and failures of the network, all interleavings of the goroutines, all pairs of accesses", "why_tests_cant": "The race detector sees only the accesses of the interleavings that occur in a test, and a race without a visible wrong value passes every assertion.", "anchors": ["conn.go:46-58", "conn.go:240-241", "conn.go:290-302", "conn.go:311-469", "conn.go:477-523", "conn.go:534-570", "conn.go:578-615", "conn.go:634-692", "conn.go:697-760", "subscription.go:172-230"]}
