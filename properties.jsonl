{"id": "C01", "title": "Integers are written big-endian two's complement", "statement": "WriteBuffer.WriteInt32/WriteInt16 append exactly 4/2 bytes to the buffer, leaving what was there, and those bytes are the big-endian base-256 digits of the two's-complement value of the argument.", "quantifier": "every int32, every int16, every previous buffer content", "why_tests_cant": "2^32 values times unbounded buffer contents; the tests check two literals", "anchors": ["pkg/pg/write_buffer.go:WriteInt32,WriteInt16,WriteBytes,WriteByte"]}
{"id": "C02", "title": "Integers and integer arrays round-trip", "statement": "Reading with ReadInt32/ReadInt16/ReadInt32Array/ReadInt16Array what WriteInt32/WriteInt16/WriteInt32Array/WriteInt16Array wrote returns the same value(s) and leaves exactly the bytes that followed.", "quantifier": "every integer, every array of any length below the Go allocation limit, every following bytes", "why_tests_cant": "unbounded arrays and all bit patterns, sign bit included", "anchors": ["pkg/pg/write_buffer.go", "pkg/pg/read_buffer.go:ReadInt32,ReadInt16,ReadInt32Array,ReadInt16Array"]}
{"id": "C03", "title": "NUL-terminated strings round-trip and stop at the first NUL", "statement": "ReadString succeeds exactly when the buffer contains a zero byte; it then returns the bytes before the first zero byte and leaves the bytes after it. Hence ReadString after WriteString(s) returns s for every s without a zero byte, and returns only the part before the first zero byte otherwise.", "quantifier": "every byte string (Go strings are arbitrary bytes) and every following bytes", "why_tests_cant": "unbounded strings; tests use 'hello world'", "anchors": ["pkg/pg/read_buffer.go:ReadString", "pkg/pg/write_buffer.go:WriteString"]}
{"id": "C04", "title": "Reads consume exactly what they return, failed reads consume nothing", "statement": "Every ReadBuffer method that succeeds removes exactly the bytes it decoded from the front of the buffer; every ReadBuffer method that returns an error leaves the buffer unchanged.", "quantifier": "every buffer, every method, every size argument", "why_tests_cant": "must hold for all buffers and sizes, including sizes around the remaining length", "anchors": ["pkg/pg/read_buffer.go"]}
{"id": "C05", "title": "Exact success/EOF/panic condition of sized reads", "statement": "ReadBytes(n) succeeds iff 0 <= n <= Len(), returns io.EOF iff n > Len(), and panics iff n < 0; ReadByte/ReadInt16/ReadInt32 return io.EOF iff fewer than 1/2/4 bytes are left and never panic; ReadInt32Array(k)/ReadInt16Array(k) behave per the same rule on 4k/2k bytes.", "quantifier": "every buffer and every Go int argument (negative and overflowing ones included)", "why_tests_cant": "needs all ints, in particular negative and overflowing ones which no test tries", "anchors": ["pkg/pg/read_buffer.go:ReadBytes,ReadByte,ReadInt32,ReadInt16,ReadInt32Array,ReadInt16Array"]}
{"id": "C06", "title": "Frame layout and accessors", "statement": "NewStandardFrame(t, body) is the byte t, then the 4-byte big-endian length len(body)+4, then body; MessageType/MessageBody/Bytes give back t, body and the whole. NewStartupFrame(body) is the same without the type byte, and MessageType is 0. The length field is right for every body shorter than 2^31-4 bytes.", "quantifier": "every type byte and every body (length field: every body below 2 GiB)", "why_tests_cant": "unbounded bodies", "anchors": ["pkg/pg/standard_frame.go:NewStandardFrame,MessageType,MessageBody,Bytes", "pkg/pg/startup_frame.go"]}
{"id": "C07", "title": "Frames are cut from the stream exactly", "statement": "If the bytes arriving on a connection start with a well-formed frame, ReadStandardFrame/ReadStartupFrame returns exactly that frame and leaves the stream positioned at the first byte after it; so reading repeatedly recovers any sequence of frames, one by one, in order.", "quantifier": "every frame, every sequence of frames, every following bytes, every segmentation of the stream by the network", "why_tests_cant": "TCP segmentation and stream contents are unbounded", "anchors": ["pkg/pg/standard_frame.go:ReadStandardFrame", "pkg/pg/startup_frame.go:ReadStartupFrame"]}
{"id": "C08", "title": "Framing does not depend on TCP segmentation", "statement": "What ReadStandardFrame, ReadStartupFrame, RecvMessage and RecvStartupMessage return, and the bytes left unread, depend only on the concatenation of the received segments, not on how the network split them.", "quantifier": "every two segmentations (empty reads included) of every byte stream with every final error", "why_tests_cant": "exponentially many segmentations of unbounded streams", "anchors": ["pkg/pg/standard_frame.go:ReadStandardFrame", "pkg/pg/startup_frame.go:ReadStartupFrame", "pkg/pg/conn.go:RecvMessage,RecvStartupMessage"]}
{"id": "C09", "title": "A truncated frame is an error, never a message", "statement": "If the connection ends before the announced length has arrived, ReadStandardFrame/ReadStartupFrame (and RecvMessage/RecvStartupMessage) return an error (io.EOF on orderly close, the connection's error otherwise) and no frame or message.", "quantifier": "every stream, every cut point inside a frame, every connection error", "why_tests_cant": "every cut point of every frame", "anchors": ["pkg/pg/standard_frame.go:ReadStandardFrame", "pkg/pg/startup_frame.go:ReadStartupFrame"]}
{"id": "C10", "title": "Frames with an impossible length field are rejected", "statement": "A frame whose length field is smaller than 4 (it counts itself, so 4 is the minimum) is rejected with an error.", "quantifier": "every stream whose header carries a length field below 4 (0..3 and negative)", "why_tests_cant": "needs all header values, including int32 wrap-around of length-4", "anchors": ["pkg/pg/standard_frame.go:ReadStandardFrame", "pkg/pg/startup_frame.go:ReadStartupFrame"]}
{"id": "C11", "title": "Every message survives send-then-receive", "statement": "For every message the package can build from well-formed content (strings without zero bytes, counts and sizes within the wire limits), sending it with SendMessage and receiving it with RecvMessage on the other side gives back the same message and consumes exactly its bytes (startup messages: see C21; NegotiateProtocolVersion: see C18).", "quantifier": "every message of every type with every content, any following bytes, any segmentation", "why_tests_cant": "unbounded fields, rows and strings for 21 message types; tests use one packet per type", "anchors": ["pkg/pg/conn.go:SendMessage,RecvMessage", "pkg/pg/*_message.go:Frame,Parse*"]}
{"id": "C12", "title": "Parsers accept exactly the protocol grammar", "statement": "Each Parse*Message succeeds with message m if and only if the frame has m's type byte and its body is the wire encoding of the well-formed message m followed by arbitrary (ignored) bytes (no extra bytes for EmptyQueryResponse and Terminate); in particular a parser never invents, drops or reorders a field that is in the body.", "quantifier": "every frame, every message, both directions of the equivalence, for each message type", "why_tests_cant": "all byte strings", "anchors": ["pkg/pg/*_message.go:Parse*"]}
{"id": "C13", "title": "A parser refuses frames of another type", "statement": "Every typed Parse*Message returns ErrMalformedMessage, and no message, when the frame's type byte is not its own.", "quantifier": "every parser, every frame with a different type byte", "why_tests_cant": "255 wrong bytes times all bodies times all parsers", "anchors": ["pkg/pg/*_message.go:Parse*", "pkg/pg/message.go:ErrMalformedMessage"]}
{"id": "C14", "title": "Re-encoding a received message is stable", "statement": "If RecvMessage returned message m from any bytes whatsoever, then m.Frame() re-encodes to a frame that parses to m again; proxying through any number of gevulots gives the same message as proxying through one.", "quantifier": "every byte stream from which a message is received", "why_tests_cant": "all inputs, well-formed or not", "anchors": ["pkg/pg/conn.go:RecvMessage,SendMessage", "pkg/pg/*_message.go"]}
{"id": "C15", "title": "Relaying is byte-exact for well-formed traffic", "statement": "For a frame that is the standard encoding of a message, RecvMessage followed by SendMessage emits byte-for-byte the same frame. Frames of types gevulot does not know are always relayed byte-for-byte, whatever they contain.", "quantifier": "every well-formed frame of a known type, every frame of an unknown type", "why_tests_cant": "unbounded contents", "anchors": ["pkg/pg/conn.go", "pkg/pg/generic_message.go"]}
{"id": "C16", "title": "Rows keep their columns, order and NULLs", "statement": "A DataRow received by gevulot has as many values as the wire message, in the same order, with NULL kept distinct from the empty value, and each value's bytes unchanged; a RowDescription keeps every field's name, table OID, column number, type OID, type size, modifier and format, in order.", "quantifier": "every row with any number of columns below 2^15 and any values", "why_tests_cant": "all combinations of NULL / empty / arbitrary values at any position", "anchors": ["pkg/pg/data_row_message.go", "pkg/pg/row_description_message.go"]}
{"id": "C17", "title": "Authentication requests are decoded by status code", "statement": "An authentication request with status 0,2,3,5,6,7,8,9 parses to the corresponding request (MD5 with its 4-byte salt, GSSContinue with all the remaining bytes) and any other status returns ErrunsupportedAuthenticationRequest; each request encodes its own code.", "quantifier": "every int32 status, every body", "why_tests_cant": "2^32 codes", "anchors": ["pkg/pg/authentication_request_message.go"]}
{"id": "C18", "title": "NegotiateProtocolVersion messages are relayed", "statement": "A NegotiateProtocolVersion message sent by the database is received as such by RecvMessage.", "quantifier": "every NegotiateProtocolVersion message", "why_tests_cant": "RecvMessage's dispatch for that type is not exercised by any test; a proof shows whether any input gets through", "anchors": ["pkg/pg/conn.go:RecvMessage", "pkg/pg/negotiate_protocol_version_message.go"]}
{"id": "C19", "title": "No bytes from a peer can crash the proxy", "statement": "RecvMessage and RecvStartupMessage return a message or an error on every byte stream; they never panic (a panic in a session goroutine kills the whole proxy).", "quantifier": "every byte stream sent by a client or a database", "why_tests_cant": "all byte streams; the crashing ones are a thin set of header values", "anchors": ["pkg/pg/conn.go:RecvMessage", "pkg/pg/data_row_message.go", "pkg/pg/row_description_message.go", "pkg/pg/read_buffer.go:ReadBytes"]}
{"id": "C20", "title": "Counts never overflow their wire field", "statement": "Encoding a DataRow / RowDescription writes a column count equal to the number of columns.", "quantifier": "every number of columns", "why_tests_cant": "needs more than 32767 columns to see the int16 conversion wrap", "anchors": ["pkg/pg/data_row_message.go:Frame", "pkg/pg/row_description_message.go:Frame"]}
{"id": "C21", "title": "Startup messages round-trip with parameter order", "statement": "A startup message with NUL-free strings and non-empty parameter names survives Frame/ParseStartupMessage unchanged, parameters in the same order and duplicates kept; RecvStartupMessage after SendMessage gives it back.", "quantifier": "every protocol version, every parameter list", "why_tests_cant": "unbounded parameter lists", "anchors": ["pkg/pg/startup_message.go:ParseStartupMessage,Frame", "pkg/pg/conn.go:RecvStartupMessage"]}
{"id": "C22", "title": "GetParameter returns the first value of a name", "statement": "GetParameter(name) returns the value of the first parameter with that name, and the empty string iff there is none or that first value is empty.", "quantifier": "every message and name", "why_tests_cant": "all lists, including duplicates", "anchors": ["pkg/pg/startup_message.go:GetParameter"]}
{"id": "C23", "title": "Message encoding is unambiguous", "statement": "Among the ordinary messages, and among the startup messages, two different well-formed messages never have the same encoding, no encoding is a proper prefix of another, and a stream made of encoded messages can be split in messages in only one way.", "quantifier": "all pairs of well-formed messages; all pairs of message sequences", "why_tests_cant": "all pairs of unbounded messages", "anchors": ["pkg/pg/*_message.go:Frame"]}
{"id": "C24", "title": "Only PostgreSQL URIs are accepted", "statement": "ParseDatabaseURI returns settings only if the string parses as a URL and its scheme is postgres or postgresql; otherwise it returns an error and no settings.", "quantifier": "every URL parse result", "why_tests_cant": "all strings", "anchors": ["pkg/pg/dsn.go:ParseDatabaseURI"]}
{"id": "C25", "title": "Connection settings follow the documented precedence", "statement": "For an accepted URI: each query parameter (first value) overrides everything; otherwise host/port come from the URI if non-empty and default to localhost/5432; user (and password, if present) come from the URI, else user is the OS user; database is the path without leading slashes, else the user the URI or OS gave; no other key is present.", "quantifier": "every URI, every key, every OS user lookup outcome", "why_tests_cant": "all combinations of present/absent components and query parameters", "anchors": ["pkg/pg/dsn.go:ParseDatabaseURI,defaultConnectionSettings"]}
{"id": "C26", "title": "Settings do not depend on map iteration order", "statement": "ParseDatabaseURI gives the same settings whatever order Go iterates over the query parameters.", "quantifier": "every query and every iteration order", "why_tests_cant": "iteration order is random and cannot be forced in a test", "anchors": ["pkg/pg/dsn.go:ParseDatabaseURI"]}
{"id": "C27", "title": "The database is contacted only for the configured database name", "statement": "A session dials the database and sends it bytes only after the client sent a startup message with protocol version 3.0 whose first 'database' parameter (empty if absent) equals the database of the configured URI; in every other case the database is never dialled.", "quantifier": "every client byte stream, every configuration and dial outcome", "why_tests_cant": "all client byte streams", "anchors": ["pkg/server/session.go:negotiateSessionParams,establishDBConnection"]}
{"id": "C28", "title": "A client cannot reach another database", "statement": "The startup packet forwarded to PostgreSQL names, as PostgreSQL interprets it (the last 'database' entry wins), the database the proxy is configured for.", "quantifier": "every client startup message that is accepted", "why_tests_cant": "requires a hostile startup message with duplicate parameters; tests only send well-behaved ones", "anchors": ["pkg/server/session.go:negotiateSessionParams", "pkg/pg/startup_message.go:GetParameter"]}
{"id": "C29", "title": "SSL requests are denied with exactly one 'N' each", "statement": "During the handshake the client receives exactly one byte 'N' per SSLRequest it sent and nothing else, and the handshake then continues with the next startup packet.", "quantifier": "every client byte stream with any number of SSL requests", "why_tests_cant": "any number of SSL requests followed by anything", "anchors": ["pkg/server/session.go:negotiateSessionParams", "pkg/pg/conn.go:SendByte"]}
{"id": "C30", "title": "The client's startup message is forwarded intact", "statement": "When the handshake succeeds, the bytes sent to the database are exactly the encoding of the startup message the client sent: same version, same parameters in the same order; for a well-formed non-empty startup packet these are exactly the client's bytes.", "quantifier": "every client byte stream for which the handshake succeeds", "why_tests_cant": "unbounded parameter lists", "anchors": ["pkg/server/session.go:establishDBConnection", "pkg/pg/startup_message.go"]}
{"id": "C31", "title": "A session uses one configuration snapshot", "statement": "The database name check, host and port of one session all come from the same configuration value, even if the configuration changes while the handshake is running.", "quantifier": "every sequence of configurations the store returns on successive calls", "why_tests_cant": "needs a config change in a microsecond window", "anchors": ["pkg/server/session.go:getDBConnnectionParam"]}
{"id": "C32", "title": "The handshake finishes on every finite input", "statement": "For every finite client stream the handshake returns (accepting, or with an error); it consumes at least 8 bytes per SSLRequest, so it can only go on forever if the client sends SSL requests forever; bytes after the accepted startup packet are left for the relay.", "quantifier": "every finite client byte stream", "why_tests_cant": "unbounded recursion depth ('DANGER! infinite loop' comment in the code)", "anchors": ["pkg/server/session.go:negotiateSessionParams"]}
{"id": "C33", "title": "Relaying is in order, without loss, duplication or cross-talk", "statement": "In every execution the bytes gevulot wrote to the database are a prefix of the re-encoding, message by message, of the client's messages in order, and symmetrically for the client; in particular nothing the client sent is ever echoed to the client, no message is duplicated, skipped or reordered.", "quantifier": "every client and database byte stream, every interleaving of the five session goroutines and of Close, every write outcome (including partial writes)", "why_tests_cant": "all interleavings of five goroutines over four channels", "anchors": ["pkg/server/session.go:startClientInPump,startClientOutPump,startDBInPump,startDBOutPump,startProcessing"]}
{"id": "C34", "title": "Everything received is eventually forwarded", "statement": "While the session is open and both peers keep reading, whenever no goroutine of the session can make a further step, every complete message received from either peer has been written to the other peer.", "quantifier": "every reachable state with no enabled session step", "why_tests_cant": "all interleavings", "anchors": ["pkg/server/session.go"]}
{"id": "C35", "title": "Buffering per session is bounded", "statement": "At any moment at most 64 messages wait in each of the four queues and at most one more per goroutine is in flight, whatever the peers do.", "quantifier": "every reachable state", "why_tests_cant": "all interleavings and unbounded traffic", "anchors": ["pkg/server/session.go:NewSession"]}
{"id": "C36", "title": "The relay does not deadlock while open", "statement": "In an open session, as long as there is an undelivered message and both peers accept writes, some session goroutine can make a step.", "quantifier": "every reachable state of an open session", "why_tests_cant": "all interleavings, queue-full corner cases", "anchors": ["pkg/server/session.go"]}
{"id": "C37", "title": "A session ends when a peer hangs up", "statement": "Session.Start returns (and both connections get closed) once the client or the database hangs up, as its documentation says.", "quantifier": "every execution in which a peer hangs up", "why_tests_cant": "tests never check that Start returns; a liveness property over schedules", "anchors": ["pkg/server/session.go:Start"]}
{"id": "C38", "title": "Closing a session never crashes the process", "statement": "Session.Close may be called at any moment, concurrently with the session's goroutines, without causing a panic.", "quantifier": "every interleaving of Close with the session goroutines", "why_tests_cant": "a race between close(channel) and a send", "anchors": ["pkg/server/session.go:Close,startClientInPump,startProcessing"]}
{"id": "C39", "title": "Closing a session is idempotent and closes both connections", "statement": "However many times Close is called, each connection is closed at most once by it; after the first Close the client connection is closed, and the database connection too if it was established before; later calls return nil and do nothing.", "quantifier": "every sequence of calls", "why_tests_cant": "all histories", "anchors": ["pkg/server/session.go:Close"]}
{"id": "C40", "title": "No database connection outlives the session", "statement": "Once Start has returned and Close has been called, no connection opened by the session is still open.", "quantifier": "every interleaving of Close with the handshake", "why_tests_cant": "needs Close to hit the window while the session is dialling", "anchors": ["pkg/server/session.go:Close,establishDBConnection"]}
{"id": "C41", "title": "An Event fires exactly once", "statement": "Among any number of concurrent Fire calls at most one returns true (exactly one, once some call was made and all calls made have returned), and the Done channel is closed at most once (never 'close of closed channel').", "quantifier": "every number of threads and every interleaving", "why_tests_cant": "all interleavings of any number of goroutines", "anchors": ["pkg/server/event.go:Fire"]}
{"id": "C42", "title": "A fired Event is visible everywhere and for ever", "statement": "When any Fire call has returned, HasFired is true and Done is closed, and both remain so; Done closed implies HasFired; before any Fire call started neither holds.", "quantifier": "every interleaving of Fire and HasFired callers", "why_tests_cant": "all interleavings", "anchors": ["pkg/server/event.go:Fire,HasFired,Done"]}
{"id": "C43", "title": "Get never returns a stale configuration", "statement": "When Get returns a configuration, it is one the distributor took from its source, and no older than the one in effect when Get was called, that is, than anything a subscriber had been sent or a Get had returned by then.", "quantifier": "every interleaving of any number of callers and config updates", "why_tests_cant": "all interleavings", "anchors": ["pkg/server/config_distributor.go:Get,waitForNextConfig"]}
{"id": "C44", "title": "Subscribers get exactly the updates they asked for, in order", "statement": "A channel subscribed with checks receives: first the current configuration if there is one and a check accepts (nil, current); then each later update (old,new) for which some check returns true (all updates if no checks were given), in the order they arrived, each exactly once, until it is unsubscribed.", "quantifier": "every history of subscribe/unsubscribe/close/updates by any number of threads", "why_tests_cant": "unbounded histories and interleavings", "anchors": ["pkg/server/config_distributor.go:Subscribe,notifySubscribersLocked,shouldSendUpdatedConfig,monitorConfig"]}
{"id": "C45", "title": "No delivery after Unsubscribe", "statement": "After Unsubscribe(ch) has returned, nothing is sent to ch until it is subscribed again.", "quantifier": "every interleaving", "why_tests_cant": "all interleavings of unsubscribe with the monitor goroutine", "anchors": ["pkg/server/config_distributor.go:Unsubscribe"]}
{"id": "C46", "title": "A closed distributor refuses callers", "statement": "Get and Subscribe calls started after Close returned (or after the source channel was closed and processed) return ErrConfigDistributorClosed; closing again does nothing.", "quantifier": "every interleaving", "why_tests_cant": "all interleavings", "anchors": ["pkg/server/config_distributor.go:Close,Get,Subscribe"]}
{"id": "C47", "title": "Updates are not delivered after Close", "statement": "Once Close has returned, no subscriber receives any further configuration.", "quantifier": "every interleaving of Close with Subscribe calls and updates", "why_tests_cant": "race between the closed check and the lock", "anchors": ["pkg/server/config_distributor.go:Close,Subscribe,monitorConfig"]}
{"id": "C48", "title": "The distributor never deadlocks itself", "statement": "If all user subscriber channels are being drained, then Get, Subscribe, Unsubscribe and Close always eventually return once a configuration is available; no internal lock is held for ever.", "quantifier": "every interleaving", "why_tests_cant": "needs a config update within two particular windows of Get", "anchors": ["pkg/server/config_distributor.go:Get,waitForNextConfig,Subscribe,notifySubscribersLocked"]}
{"id": "C49", "title": "A single monitor goroutine", "statement": "At most one monitoring goroutine ever runs per distributor, and configurations are taken from the source one at a time in order.", "quantifier": "every interleaving of Subscribe/Get calls", "why_tests_cant": "all interleavings", "anchors": ["pkg/server/config_distributor.go:Subscribe,monitorConfig"]}
{"id": "C50", "title": "Start runs at most once and always returns an error", "statement": "Of all Start calls on a server at most one ever starts listening; every other returns ErrServerAlreadyStarted or ErrServerClosed; Start never returns nil, and a Start called after Close returns ErrServerClosed.", "quantifier": "every interleaving of Start and Close calls", "why_tests_cant": "all interleavings", "anchors": ["pkg/server/server.go:Start"]}
{"id": "C51", "title": "At most one listener is open at a time", "statement": "Every listener that was installed by Serve and later replaced or shut down has been closed: at any moment the only installed listener that may be open is the current one.", "quantifier": "every interleaving of any number of Serve and Close calls", "why_tests_cant": "all interleavings", "anchors": ["pkg/server/server.go:changeListener,Serve,Close"]}
{"id": "C52", "title": "The server ends up on the latest configured address", "statement": "When the configuration changes and the dust settles, the server is listening on the address of the most recent configuration (that could be listened on).", "quantifier": "every sequence of configuration updates and every interleaving", "why_tests_cant": "two updates in quick succession race in two goroutines", "anchors": ["pkg/server/server.go:Start,Serve,changeListener"]}
{"id": "C53", "title": "After Close nothing is left listening and no session is left open", "statement": "When Close has returned, the listener and all sessions that were registered are closed, and no listener or session is installed afterwards.", "quantifier": "every interleaving of Close with Serve, ServeConn and Start", "why_tests_cant": "check-then-lock windows in changeListener and registerSession", "anchors": ["pkg/server/server.go:Close,changeListener,registerSession"]}
{"id": "C54", "title": "Close waits for the server's goroutines and is idempotent", "statement": "Close returns only at a moment when every goroutine the server started has finished; only the first call does anything, other calls return nil.", "quantifier": "every interleaving", "why_tests_cant": "all interleavings", "anchors": ["pkg/server/server.go:Close,do"]}
{"id": "C55", "title": "Sessions are tracked exactly while they are served", "statement": "Until Close, the set of active sessions is exactly the set of connections being served: a session is in it from registration until ServeConn returns, whatever other connections do, and each accepted connection is served exactly once.", "quantifier": "every interleaving of connections", "why_tests_cant": "all interleavings", "anchors": ["pkg/server/server.go:ServeConn,registerSession,removeSession,Serve"]}
{"id": "C56", "title": "A configuration update after shutdown does not crash", "statement": "After Server.Start returned because of Close, further configuration updates are harmless.", "quantifier": "every interleaving of Close and configuration updates", "why_tests_cant": "needs an update after Start returned while the distributor is still running", "anchors": ["pkg/server/server.go:Start", "pkg/server/config_distributor.go:notifySubscribersLocked"]}
{"id": "C57", "title": "Accept errors: temporary ones are survived, permanent ones stop the loop", "statement": "Serve keeps accepting after every temporary error and returns precisely at the first non-temporary error, having served exactly the connections accepted before it, each once and in order.", "quantifier": "every sequence of accept outcomes", "why_tests_cant": "unbounded sequences", "anchors": ["pkg/server/server.go:Serve"]}
{"id": "C58", "title": "Exit code and side effects of the command line", "statement": "The exit code is 0 iff help/version was asked or the server returned no error; with help/version neither the config is read nor the server run; the server is run iff the arguments parse, no help/version was asked and the config loads and can be watched; every failure exits 1 with a message on stderr.", "quantifier": "every outcome of argument parsing, config loading, watching and the server", "why_tests_cant": "all combinations of outcomes", "anchors": ["pkg/cli/cli.go:Run,parseArgs,prepareConfigChan"]}
{"id": "C59", "title": "A bad configuration file never replaces a good one", "statement": "On a change of the config file, an unreadable or unparsable file sends nothing to the server; only successfully parsed configurations are sent, in the order they were read, the initial one first.", "quantifier": "every sequence of file contents and file events", "why_tests_cant": "unbounded histories", "anchors": ["pkg/cli/watch_server_config.go:watchServerConfig", "pkg/cli/read_server_config.go:readServerConfig", "pkg/cli/cli.go:prepareConfigChan"]}
{"id": "C60", "title": "The last configuration written is eventually in effect", "statement": "If every write to the config file is followed by a write notification, then when all notifications have been handled the last configuration sent to the server is the file's current content, provided it parses.", "quantifier": "every interleaving of file writes, notifications and their handling, with coalescing of notifications", "why_tests_cant": "all interleavings", "anchors": ["pkg/cli/watch_server_config.go", "pkg/cli/file_watcher.go:Watch", "pkg/cli/cli.go:prepareConfigChan"]}
{"id": "C61", "title": "Every write event reaches OnWrite", "statement": "Whenever a file-system event includes a write, the watcher calls OnWrite.", "quantifier": "every combination of operation bits in an event", "why_tests_cant": "combined Create|Write events do not occur in the test", "anchors": ["pkg/cli/file_watcher.go:Watch"]}
{"id": "C62", "title": "The OID mapping is complete or an error is returned", "statement": "OIDTableMapping returns either an error or a mapping with exactly one entry for every row of its query, giving that row's schema and name.", "quantifier": "every result set, and every point at which the database connection may fail", "why_tests_cant": "needs a connection failure in the middle of the result set", "anchors": ["pkg/pgmeta/inspector.go:OIDTableMapping"]}
{"id": "C63", "title": "User tables are all in the OID mapping", "statement": "The catalog query keeps every table, view and materialized view of every schema that is not a system schema (information_schema, or a name beginning with 'pg_').", "quantifier": "every catalog content", "why_tests_cant": "all schema names; LIKE wildcards", "anchors": ["pkg/pgmeta/inspector.go:OIDTableMapping"]}
{"id": "C64", "title": "Every accepted connection is closed in the end", "statement": "When the goroutine serving an accepted connection has finished, the connection has been closed.", "quantifier": "every interleaving of connections and Close", "why_tests_cant": "needs Close to fall between Accept and the registration of the session", "anchors": ["pkg/server/server.go:Serve,ServeConn,registerSession"]}
{"id": "C65", "title": "Every change of the config file is noticed", "statement": "While the watcher runs and has nothing left to handle, the last configuration sent to the server is the content of the file at the configured path.", "quantifier": "every interleaving of start-up, writes, replacements (rename over the file), removals and notifications", "why_tests_cant": "needs a change in the window before the watch starts, or an editor that replaces the file", "anchors": ["pkg/cli/cli.go:prepareConfigChan", "pkg/cli/watch_server_config.go:watchServerConfig", "pkg/cli/file_watcher.go:WatchFile,Watch"]}
{"id": "C66", "title": "Configurations without the mandatory settings are rejected", "statement": "Only a file that sets both listen and database-url (mandatory according to README.md) is accepted as a configuration.", "quantifier": "every file content", "why_tests_cant": "all texts, including the empty one a watcher sees when the file is truncated before it is rewritten", "anchors": ["pkg/cli/read_server_config.go:readServerConfig"]}
{"id": "C67", "title": "A session from end to end", "statement": "If the database was dialled or got a byte, then the client sent SSL requests, a startup packet admitted by the configuration, and then further bytes; the only address dialled is the configured one; and the database got a prefix of the startup message followed by the client's messages, re-encoded, in order. The client got one 'N' per SSL request and then a prefix of the database's messages, and none of them before the database was dialled.", "quantifier": "every interleaving of handshake, peers, goroutines and Close; every segmentation; every failure of reads, writes, dialling and the configuration store", "why_tests_cant": "the handshake and the relay are only tested apart, in one schedule", "anchors": ["pkg/server/session.go:Start,negotiateSessionParams,establishDBConnection,startProcessing"]}
{"id": "C68", "title": "A well-behaved client and server do not notice the proxy", "statement": "If both peers send well-formed messages in the standard encoding (other than NegotiateProtocolVersion), the database gets byte for byte the beginning of what the client sent after its SSL requests and the client the beginning of what the database sent; once nothing is left to do, all of it but an incomplete last message.", "quantifier": "every list of well-formed messages, cut at any byte; every interleaving", "why_tests_cant": "unbounded traffic in both directions at once", "anchors": ["pkg/server/session.go", "pkg/pg/conn.go:RecvMessage,SendMessage"]}
{"id": "C69", "title": "A refused client is disconnected and the database left alone", "statement": "A client whose startup packet is not admitted by the configuration (or for which there is none) never causes a connection to the database, and once nothing is left to do, Start has returned and the client's connection is closed; and the session does get there.", "quantifier": "every client stream, every interleaving", "why_tests_cant": "all kinds of refusal at every moment, together with Close", "anchors": ["pkg/server/session.go:Start,Close,negotiateSessionParams"]}
{"id": "C70", "title": "Close ends every session and returns", "statement": "Once Close of the server waits for its goroutines, gevulot can carry on so that Close returns; when it has nothing left to do, every session has ended and both its connections are closed.", "quantifier": "every interleaving of callers, connections, handshakes, relays and peers, any number of sessions", "why_tests_cant": "needs Close to fall into a particular moment of one of many concurrent sessions", "anchors": ["pkg/server/server.go:Close,ServeConn,registerSession", "pkg/server/session.go:Start,Close"]}
{"id": "C71", "title": "One session cannot take down the others", "statement": "Nothing that the goroutines and peers of one session do ends the process.", "quantifier": "every interleaving, every behaviour of the peers, any number of sessions", "why_tests_cant": "all byte streams and schedules", "anchors": ["pkg/server/server.go:ServeConn", "pkg/server/session.go:Start,Close", "pkg/pg/conn.go:RecvMessage"]}
{"id": "C72", "title": "Sessions do not mix", "statement": "However many sessions a server has: the database dialled for a connection gets only what the client of that connection sent, and only if its startup packet was admitted; the client gets only what that database sent; a step of one session changes no other, nor what any other can do, short of ending the process.", "quantifier": "every interleaving, any number of sessions", "why_tests_cant": "tests have one session at a time", "anchors": ["pkg/server/server.go:ServeConn", "pkg/server/session.go"]}
{"id": "C73", "title": "The program ends only if it cannot start, or by a malformed message", "statement": "Once the server has been started, Start never returns, the deferred Close calls in run.go are never reached, and neither the server nor the distributor is ever closed. The program exits only if the configuration cannot be read or watched at the beginning, and otherwise ends only when a session panics on a malformed message from one of its peers.", "quantifier": "every interleaving of the watcher, the distributor, the server, all sessions, the file and all peers", "why_tests_cant": "a negative statement about all executions of the whole program", "anchors": ["main.go:main", "pkg/cli/cli.go:Run,prepareConfigChan", "pkg/server/run.go:Run", "pkg/server/server.go:Start"]}
{"id": "C74", "title": "A session always gets a configuration, at once", "statement": "By the time a session asks for the configuration there is one: its call of Get never subscribes, never waits for a configuration and never fails, and what the session is told is the database URL of a configuration that was read from the file.", "quantifier": "every interleaving of the whole program", "why_tests_cant": "needs a connection at the earliest possible moment after the start", "anchors": ["pkg/server/session.go:Start,negotiateSessionParams", "pkg/server/config_distributor.go:Get,Subscribe", "pkg/server/server.go:Start,ServeConn"]}
{"id": "C75", "title": "The program does not lock itself up", "statement": "Used the way the program uses it, the distributor never deadlocks and never sends on a closed channel; no part is kept waiting by another except where its own code waits; after a bounded number of steps of its own the program has nothing to do, and then no lock is held, no call is waiting, no configuration is on its way, and no session waits for one.", "quantifier": "every interleaving of the whole program, any number of sessions and configurations", "why_tests_cant": "absence of deadlock and termination over all schedules", "anchors": ["pkg/server/config_distributor.go", "pkg/server/server.go:Start", "pkg/cli/watch_server_config.go:watchServerConfig"]}
{"id": "C76", "title": "What is in the file comes into force, everywhere, and stays", "statement": "When the program has nothing to do, the last configuration read is what Get returns and what Start has last tried to listen on; it is the content of the file if that was never changed without a notification. It stays so as long as nobody changes the file, and every session that asks from then on is told its database URL.", "quantifier": "every interleaving of the whole program", "why_tests_cant": "a property of the watcher, the distributor, the server and the sessions together", "anchors": ["pkg/cli/watch_server_config.go:watchServerConfig", "pkg/server/config_distributor.go:monitorConfig,Get", "pkg/server/server.go:Start"]}
{"id": "C77", "title": "A session talks to the configured database", "statement": "Every address that a session dials is the host and port of the database URL of a configuration that was in the file and was read; and it is not older than the configuration in force when the session had not asked yet.", "quantifier": "every interleaving of the whole program, any number of sessions and changes of the file", "why_tests_cant": "needs the configuration to change at every moment of a handshake", "anchors": ["pkg/server/session.go:establishDBConnection", "pkg/server/config_distributor.go:Get", "pkg/cli/read_server_config.go:readServerConfig"]}
{"id": "C78", "title": "The callbacks of a watch follow its events", "statement": "For each call of Watch: the callbacks called are those for the events taken, at most one each, in order; one callback begins only when the one before it has returned; and when nothing is left to do, no event has been left out unless the handler has ended.", "quantifier": "every interleaving of any number of calls of Watch and StopWatch, events and errors; any callbacks", "why_tests_cant": "unbounded event histories and schedules", "anchors": ["pkg/cli/file_watcher.go:Watch"]}
{"id": "C79", "title": "Watch reports whether the file is being watched", "statement": "Watch returns only when the file has been added to the fsnotify watcher or that has failed; no error only if it was added, and an error if it was not (an error may also be one that has ended the handler in the meantime); it does return; and the handler never uses a watcher that has been closed.", "quantifier": "every interleaving; every outcome of NewWatcher and Add", "why_tests_cant": "the error variable is shared by three goroutines", "anchors": ["pkg/cli/file_watcher.go:Watch"]}
{"id": "C80", "title": "A Watch that fails leaves nothing behind", "statement": "When a call of Watch has returned an error and nothing is left to do, its goroutines have ended and its fsnotify watcher is not open.", "quantifier": "every interleaving; every outcome of NewWatcher and Add", "why_tests_cant": "leaked goroutines and descriptors do not show in a test", "anchors": ["pkg/cli/file_watcher.go:Watch"]}
{"id": "C81", "title": "StopWatch stops the watcher", "statement": "No callback begins after StopWatch has returned (until Watch is called again).", "quantifier": "every interleaving of calls, events and callbacks", "why_tests_cant": "a select between two ready channels chooses at random", "anchors": ["pkg/cli/file_watcher.go:Watch,StopWatch"]}
{"id": "C82", "title": "An error that ends the watcher is reported", "statement": "When an error of the fsnotify watcher has ended the handler and nothing is left to do, Watch has returned that error or it has been printed.", "quantifier": "every interleaving", "why_tests_cant": "tests do not make inotify fail", "anchors": ["pkg/cli/file_watcher.go:Watch"]}
{"id": "C83", "title": "A client that is admitted gets its session", "statement": "A client sends SSL requests and then a startup packet with protocol version 3.0; nobody calls Close; every configuration given to the session admits the packet, its database can be dialled and the writes of the handshake succeed. Then the session comes to run: the configured database is dialled once and is sent the client's startup message, the client has been answered 'N' once for each SSL request, the goroutines are running and Start has not returned.", "quantifier": "every schedule of the session's goroutines and peers; every packet, any number of SSL requests, any bytes after them", "why_tests_cant": "the sequential tests drive one happy path with an idle network", "anchors": ["pkg/server/session.go:Start,negotiateSessionParams,establishDBConnection"]}
{"id": "C84", "title": "Whoever the file admits gets a session with the database in the file", "statement": "In the whole program: a connection is accepted, its client sends SSL requests and then a startup packet that the configuration admits, the database can be dialled and the writes of the handshake succeed. Then, when the program has nothing left to do, ServeConn is running the client's session, the configured database was dialled once and was sent the client's startup message. If the file has not been changed since the program was last at rest, this is the database in the file.", "quantifier": "every execution of the program, with any other clients, databases and changes of the file", "why_tests_cant": "needs all parts at once: the watcher, the distributor, the server and the session", "anchors": ["main.go", "pkg/cli/cli.go:Run,prepareConfigChan", "pkg/server/run.go", "pkg/server/server.go:ServeConn", "pkg/server/session.go:Start"]}
{"id": "C85", "title": "Only a change of the address touches the listener", "statement": "The addresses on which Start tries to listen are those of the configurations that were read from the file, in this order, with immediate repeats left out: each change is followed once, none is skipped or reordered, and a change of anything else opens no listener. When the program has nothing left to do, all of them have been tried.", "quantifier": "every execution of the program and every sequence of contents of the file", "why_tests_cant": "a test changes the file a few times, with pauses; here two changes may overtake the server anywhere", "anchors": ["pkg/server/server.go:Start", "pkg/server/config_distributor.go:Subscribe,startMonitor", "pkg/cli/cli.go:prepareConfigChan"]}
{"id": "C86", "title": "The server does not misuse its wait group", "statement": "The process never panics in the sync.WaitGroup that counts the server's goroutines, whatever calls, connections and configurations come while Close waits.", "quantifier": "every interleaving of the server's threads and of the atomic operations of Add, Done and Wait", "why_tests_cant": "the panic needs another thread between two instructions inside the library's WaitGroup", "anchors": ["pkg/server/server.go:do,Close"]}
{"id": "C87", "title": "Close is woken up when the last goroutine ends", "statement": "With the WaitGroup as it is implemented: when Close returns from Wait, every goroutine the server has started has finished; no wake-up is lost, that is, if Close waits and nothing can go on, a goroutine is still running; and Wait does not spin forever. For the rest of the server the WaitGroup is a counter.", "quantifier": "every interleaving of the server's threads and of the atomic operations of Add, Done and Wait", "why_tests_cant": "a lost wake-up needs a particular order of single instructions", "anchors": ["pkg/server/server.go:do,Close"]}
{"id": "C88", "title": "No data race for a session's connection to the database", "statement": "No two goroutines of a session access s.dbConn at the same time, one of them writing it, whenever Start and Close are called.", "quantifier": "every interleaving of Start, Close, the handshake, the pumps and the peers", "why_tests_cant": "a race shows only if two goroutines get to two unsynchronised instructions at the same time; the detector sees only what happens in a run", "anchors": ["pkg/server/session.go:establishDBConnection,Close,startDBInPump,startDBOutPump"]}
{"id": "C89", "title": "No data races in a file watcher", "statement": "If Watch is called once, and StopWatch not before it has returned, then there are no two simultaneous accesses, one of them a write, to watcherError, nor to w.watchDone.", "quantifier": "every interleaving of the goroutines of Watch with the events and errors of fsnotify", "why_tests_cant": "the racing accesses need an error of fsnotify in the instant in which the directory is added or Watch returns", "anchors": ["pkg/cli/file_watcher.go:Watch,StopWatch"]}
{"id": "C90", "title": "The log shows all that is relayed", "statement": "For both directions, the messages in the log are the first of those received after the handshake, in order; what has been written to the other end after the handshake is a prefix of what the log shows; lines are only ever appended.", "quantifier": "every interleaving of a session with everything its peers send", "why_tests_cant": "completeness of the log at every moment is a statement about all interleavings", "anchors": ["pkg/server/session.go:startProcessing"]}
{"id": "C91", "title": "No passwords are written to the log", "statement": "No message that carries a password of the client is logged.", "quantifier": "every execution of a session and everything the peers send", "why_tests_cant": "nobody looks at the log of a test for passwords", "anchors": ["pkg/server/session.go:startProcessing"]}
{"id": "C92", "title": "The handshake takes a bounded amount of stack", "statement": "There is a bound on the number of calls of negotiateSessionParams that are on the stack at the same time (it calls itself after each SSL request).", "quantifier": "every session and everything the client sends", "why_tests_cant": "a test sends one SSL request, or two", "anchors": ["pkg/server/session.go:negotiateSessionParams"]}
{"id": "C93", "title": "Clients can cancel their queries", "statement": "A cancel request (the packet a PostgreSQL client sends over a new connection to cancel a query) is passed on to the database.", "quantifier": "every session and every cancel request", "why_tests_cant": "no test uses cancel requests", "anchors": ["pkg/server/session.go:negotiateSessionParams", "pkg/pg/backend_key_data_message.go"]}
{"id": "C94", "title": "A refused client is told why", "statement": "A client that is refused in the handshake gets an ErrorResponse before its connection is closed.", "quantifier": "every session that is refused, for any reason", "why_tests_cant": "the tests check that Start returns an error, not what the client gets", "anchors": ["pkg/server/session.go:Start,negotiateSessionParams"]}
{"id": "C95", "title": "An Inspector leaves nothing open", "statement": "Inspect returns the error of sql.Open or db.Ping and then leaves nothing open, or an open database; DatabaseName and OIDTableMapping leave no rows open on any path and return what they got; after Close all is as before Inspect.", "quantifier": "every outcome of every call of database/sql, and every sequence of calls", "why_tests_cant": "the failing paths need a database that fails at a certain call", "anchors": ["pkg/pgmeta/inspector.go"]}
{"id": "C96", "title": "Messages may come and go in pieces", "statement": "However few or many bytes each Read returns, however long each Write takes and whatever happens in between (Close in the middle of a message, the stream ending in the middle of a frame), the session looks like one in which each message is read and written at once: what either peer gets is, to the last byte, the beginning of what it should get; when all is at rest nothing is half written and every complete message was passed on; a refused client is disconnected; and gevulot does come to rest.", "quantifier": "every sequence of sizes of reads and writes, every interleaving with the other goroutines and with Close, everything the peers send", "why_tests_cant": "a test reads and writes through a pipe or a local socket, where messages come in one piece", "anchors": ["pkg/pg/standard_frame.go:ReadStandardFrame", "pkg/pg/startup_frame.go:ReadStartupFrame", "pkg/pg/conn.go:RecvMessage,RecvStartupMessage,SendMessage", "pkg/server/session.go"]}
{"id": "C97", "title": "The whole program, with messages in pieces", "statement": "However few or many bytes each Read returns and however long each Write takes in any of the sessions, the whole program looks like one in which each message is read and written at once, and the other way round. So, to the last byte: a database gets only what a client sent that a configuration read from the file admits; a client that the configuration in the file admits gets its session; at rest, an open session has delivered everything both peers sent; the program comes to rest; and it ends only because it could not be started, or at a message that makes the parser panic.", "quantifier": "every file and every history of it, every number of sessions, every sequence of sizes of reads and writes, every interleaving", "why_tests_cant": "no test runs the program; it would have to choose the sizes of the reads and writes of all sessions", "anchors": ["main.go", "pkg/cli/run.go:Run", "pkg/server/run.go:Run", "pkg/server/server.go", "pkg/server/session.go", "pkg/server/config_distributor.go", "pkg/pg/conn.go", "pkg/pg/standard_frame.go", "pkg/pg/startup_frame.go"]}
{"id": "C98", "title": "The outcome of a handshake does not depend on timing", "statement": "However the bytes of the client are cut into pieces, whenever they come and whatever goes on meanwhile, the handshake of a session comes to what negotiateSessionParams, read as a sequential program, makes of all the client has sent (if the session is closed meanwhile: of the bytes read so far): the same result, the same bytes taken from the client, the same bytes sent to client and database, as many calls of Get, the same address dialled. And whatever the sequential program can meet, a session can meet.", "quantifier": "every execution of a session, on its own, in the server and in the whole program; every outcome of every call; for the converse every input and every outcome but panics", "why_tests_cant": "a test runs one schedule; the unit tests of the handshake give it all bytes at once", "anchors": ["pkg/server/session.go:Start,negotiateSessionParams", "pkg/pg/conn.go:RecvStartupMessage,SendByte,SendMessage"]}
{"id": "C99", "title": "A peer that does not read holds up only what is meant for it", "statement": "While a client or a database does not read, what is meant for it waits; but what it sends itself still arrives at the other side, and other sessions are not affected.", "quantifier": "every execution of a session in which nothing but a write to that peer is possible; for other sessions every execution of the server", "why_tests_cant": "a test has to fill the queue of 64 messages to see the difference", "anchors": ["pkg/server/session.go:startProcessing,startClientOutPump,startDBOutPump", "pkg/server/server.go:ServeConn"]}
{"id": "C100", "title": "Connection URIs are read as documented", "statement": "ParseDatabaseURI accepts every connection URI of the documented form (postgresql://[user[:password]@][host][:port][/dbname][?name=value[&...]], parts percent-encoded where needed) and every setting has the value the documentation gives it.", "quantifier": "every user, password, host, port, database name and list of parameters of any bytes, and every way of percent-encoding them", "why_tests_cant": "the tests have eight URIs, none of them with percent-encoding, an IPv6 address or a parameter that overrides something", "anchors": ["pkg/pg/dsn.go:ParseDatabaseURI"]}
{"id": "C101", "title": "What is not a connection URI is refused", "statement": "ParseDatabaseURI returns an error unless the string begins with postgresql:// or postgres://, has no control characters and has a number as port.", "quantifier": "every string of bytes", "why_tests_cant": "the tests have two strings that are refused", "anchors": ["pkg/pg/dsn.go:ParseDatabaseURI"]}
{"id": "C102", "title": "Sessions are connected to the database the URI in the file names", "statement": "Whenever a session of the running program has dialled or written to a database, the address dialled is the host and port that the URI of a configuration read from the file names, with the documented defaults, and the client had asked for the database this URI names.", "quantifier": "every file and every history of it, every URI of the form of C100, every number of sessions, every interleaving and every size of reads and writes", "why_tests_cant": "no test goes from the text of the file to the address dialled", "anchors": ["pkg/pg/dsn.go:ParseDatabaseURI", "pkg/server/session.go:getDBConnnectionParam,negotiateSessionParams,establishDBConnection", "pkg/cli/read_server_config.go", "main.go"]}
{"id": "C103", "title": "The configuration file is watched goroutine by goroutine as in one step", "statement": "With the goroutines of Watch, the file and the server interleaved in any way, everything that can be seen (what is read from the file, sent to and received by the server, whether prepareConfigChan succeeds) is as if Watch were one step that fails or not: bad configurations are never sent, good ones are sent in order, and when the program runs and nothing is left to do the server has the configuration in the file, unless a change went without a notification or fsnotify reported an error.", "quantifier": "every interleaving of the goroutines of Watch, the callback, the main goroutine and the server with changes of the file, events and errors", "why_tests_cant": "tests cannot make an event overtake the return of Watch, or make inotify fail between two steps", "anchors": ["pkg/cli/file_watcher.go:Watch", "pkg/cli/watch_server_config.go", "pkg/cli/cli.go:prepareConfigChan"]}
{"id": "C104", "title": "Inspect shows the buffer as it is", "statement": "Inspect of a read or write buffer returns the number of bytes in decimal and then the bytes in lines of sixteen: where the line begins, two columns of eight bytes in hexadecimal, and the bytes as text with a dot for what is not printable ASCII. Different buffers give different texts.", "quantifier": "every buffer of any length", "why_tests_cant": "the tests look for one line of eight bytes", "anchors": ["pkg/pg/read_buffer.go:Inspect", "pkg/pg/write_buffer.go:Inspect"]}
{"id": "C105", "title": "The whole program with the goroutines of Watch", "statement": "With the goroutines of Watch interleaved in any way with the whole program, and messages in pieces, everything outside the watcher is as in the program in which Watch is one step: databases get only what a configuration read from the file and an admitted client account for; when the program has nothing to do it listens where the file says and gives sessions the configuration in the file, unless a change went without a notification or fsnotify reported an error; clients that are admitted have their sessions and all their bytes; nothing that happens to the file ends the program; and it comes to rest.", "quantifier": "every file and every history of it, every number of sessions, every interleaving of all goroutines, every size of reads and writes", "why_tests_cant": "no test runs the program, and none can interleave the goroutines of Watch with those of the server", "anchors": ["main.go", "pkg/cli/cli.go:prepareConfigChan,run", "pkg/cli/file_watcher.go:Watch", "pkg/cli/watch_server_config.go", "pkg/server/server.go", "pkg/server/session.go", "pkg/server/config_distributor.go"]}
{"id": "C106", "title": "The server's mutex", "statement": "With taking and giving back the mutex, and every single thing done in between, as steps of their own, interleaved with all other goroutines, the server is what it is when each section under the mutex is one step: each of its states looks like one of those, and is one whenever the mutex is free, and all of those occur. What the mutex guards is changed by the goroutine which has it and by nobody else, which can always go on and gives it back. At every moment, also while the listener is being replaced, only the current one of the listeners ever installed may be open; and once Close has given the mutex back, every listener and every session that was there when it got it is closed, whatever the order in which the sessions were closed and whatever happened meanwhile.", "quantifier": "every interleaving of any number of calls of Start, Serve, ServeConn and Close, every order of the iteration over the sessions", "why_tests_cant": "no test can stop a goroutine between Lock and Unlock and run others", "anchors": ["pkg/server/server.go:Close,changeListener,registerSession,removeSession"]}
{"id": "C107", "title": "The distributor's RWMutex", "statement": "With Lock, Unlock, RLock, RUnlock and every single thing done in between as steps of their own, interleaved with all other goroutines, the distributor is what it is when each section in which nothing blocks is one step: each of its states looks like one of those, and is one whenever nobody is in such a section, and all of those occur. Never two goroutines are between Lock and Unlock, and no Get is reading while one is; the subscriptions, the current configuration and the start of the monitor change only there. What Get has read is still the current configuration when it gives the mutex back; Close leaves no subscription, whatever the order in which they are deleted; what Unsubscribe does between Lock and Unlock is final. A writer that waits for readers keeps new readers out and gets the mutex when they have left; the distributor comes to rest, and at rest it waits for nothing but what it waits for without the mutex.", "quantifier": "every interleaving of any number of calls of Get, Subscribe, Unsubscribe and Close with the monitor, every order of the iteration over the subscriptions", "why_tests_cant": "no test can stop a goroutine between Lock and Unlock and run others", "anchors": ["pkg/server/config_distributor.go:Get,Subscribe,Unsubscribe,Close,monitorConfig"]}
{"id": "C108", "title": "Start always returns an error", "statement": "Whenever Session.Start returns, it returns an error: ErrSessionClosed, an error of the handshake, or the error that one of the five goroutines handed to the group first. The successful exit which the comment at Wait speaks of does not exist, so 'session: completed' is never logged, and an error is logged only if it is the one that Start returns. When Wait returns, every goroutine has returned and handed over exactly once, and somebody has called Close.", "quantifier": "every execution of a session, every order in which the goroutines return and hand over their errors", "why_tests_cant": "that a result never occurs, for all interleavings, is not something a test can show", "anchors": ["pkg/server/session.go:Start,Close,startClientInPump,startDBInPump,startProcessing"]}
{"id": "C109", "title": "What a session logs", "statement": "The lines of Start tell the story of the session exactly: that it begins, one 'waiting' and one 'denying' for each SSL request of the client, the error that came out of the goroutines, and that it has returned; a refused Start logs only the first and the last. The lines of Close say how far it is, 'closing' occurs once if Close was called and else never. Without --verbose exactly the beginning, the SSL requests, the error, the end, the closing and every relayed message are printed. Logging does not change what sessions do.", "quantifier": "every execution of a session, every number of SSL requests", "why_tests_cant": "tests do not look at the log, and could look only at single executions", "anchors": ["pkg/server/session.go:Start,Close,negotiateSessionParams,startProcessing", "pkg/cli/cli.go:configureLogger"]}
{"id": "C110", "title": "What the server logs", "statement": "Each call of the server logs exactly what it does. Start logs every address it takes, in this order, and after it the failure if and only if it could not listen there. Serve logs that the old listener is closed if there is one, an error about this if it had been closed before, that it is ready, every error of Accept whose text does not speak of a closed connection, in this order, and its end; if the server is closed it logs this and nothing else. ServeConn logs the client, with the right connection, before its session runs, and its end afterwards, or nothing if it finds the server closed. 'server: closing' is logged if and only if the server is closed, by one call of Close and once, however many there are. Logging does not change what the server does.", "quantifier": "every interleaving of any number of calls of Start, Serve, ServeConn and Close, every sequence of outcomes of Listen and Accept", "why_tests_cant": "tests do not look at the log, and could look only at single executions", "anchors": ["pkg/server/server.go:Start,Serve,ServeConn,Close,changeListener"]}
{"id": "C111", "title": "ServeConn always returns an error", "statement": "Whenever ServeConn returns, it returns an error, never nil: ErrServerClosed, or the error that Start of its session has returned, which is ErrSessionClosed, an error of the handshake or the first error of its goroutines. When it returns with that of the session, exactly two lines of the server are about the connection, that it came and that it is over, with the right connection, and those of Start tell its story; an error is among them only if it is the one of the goroutines, so the reason of a failed handshake is logged nowhere. Everything that the server and its sessions can do otherwise can also happen with all of this.", "quantifier": "every interleaving of the server, any number of calls and any number of sessions with their goroutines, clients and databases", "why_tests_cant": "that a result never occurs, for all interleavings, is not something a test can show; tests do not look at the log", "anchors": ["pkg/server/server.go:ServeConn,Serve", "pkg/server/session.go:Start"]}
{"id": "C112", "title": "A configuration that cannot be loaded is logged, or the program says so and ends", "statement": "Of the readings of the configuration file after the first, those that yield no configuration are logged, each once and in order, and nothing else is; no reading is lost: it is sent to the server, or logged, or it is the first one and the program prints that the configuration could not be loaded and ends, having sent and logged nothing. When the program runs and nothing is left to do, the server has the configuration in the file or the last line logged is about what is in the file now, unless a change went without a notification or fsnotify reported an error; and so it is with the whole program, when it has nothing to do: the configuration in force is the one in the file, or the log says that the file has none.", "quantifier": "every interleaving of the goroutines of Watch, the callback, the main goroutine, the server and the changes of the file", "why_tests_cant": "no test looks at the log; that nothing is lost is about all sequences of good and bad files", "anchors": ["pkg/cli/watch_server_config.go:watchServerConfig", "pkg/cli/cli.go:Run,prepareConfigChan", "pkg/cli/file_watcher.go:Watch"]}
{"id": "C113", "title": "What the distributor's monitor logs", "statement": "At most one monitor goroutine ever logs anything. It logs that it starts, then, if it finds the source closed, that it is, and then that it is over, each at most once and in this order; the last exactly when it has ended (or panicked on a subscriber's closed channel). That the source is closed is logged only if it is and nothing is left in it, and the distributor is closed then; and the monitor is not over before the distributor is closed, unless it panicked. When the distributor has been closed without a panic, nothing is left to do and nobody has its mutex, the end of the monitor has been logged, if it was started.", "quantifier": "every interleaving of any number of Get, Subscribe, Unsubscribe and Close calls, the monitor, the source and the subscribers", "why_tests_cant": "tests do not look at the log; the order of the end of the monitor and Close is about interleavings", "anchors": ["pkg/server/config_distributor.go:monitorConfig,Close,Subscribe"]}
