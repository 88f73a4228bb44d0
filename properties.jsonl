{"id": "C01", "title": "Frames survive the wire under any chunking and line noise", "statement": "If any sequence of frames is serialised, arbitrary noise bytes that contain no start-of-frame byte are put between them, and the resulting bytes are handed to the gateway in arbitrary pieces, then the gateway delivers exactly those frames, in order, with the same command type, subsystem, command id and data.", "quantifier": "every list of serialisable frames with at least one data byte, every noise string without 0xFE before each frame, every way of cutting the byte stream into data_received calls", "why_tests_cant": "the space of frame lists, noise and chunk boundaries is infinite; a test fixes one cut of one stream", "anchors": ["zigpy_cc/uart.py:Parser.write", "zigpy_cc/uart.py:UnpiFrame.to_buffer", "zigpy_cc/uart.py:UnpiFrame.from_buffer", "zigpy_cc/uart.py:Gateway.data_received"]}
{"id": "C02", "title": "Delivery depends on the bytes, not on how the OS chunks them", "statement": "Two gateways that receive the same bytes cut into different pieces deliver the same frames to the API and end in the same state.", "quantifier": "every byte stream, every two chunkings of it, every API handler", "why_tests_cant": "chunk boundaries are chosen by the OS and the serial driver; only a proof covers all cuts, in particular cuts that fall next to a frame whose handling raises", "anchors": ["zigpy_cc/uart.py:Gateway.data_received", "zigpy_cc/uart.py:Parser.write"]}
{"id": "C03", "title": "Every delivered frame was on the wire with a valid checksum", "statement": "Whatever bytes arrive, each frame handed to the API is the decoding of one contiguous run of the received bytes that starts with 0xFE, has the announced length and ends in the XOR checksum; the runs of different frames do not overlap and are in delivery order; nothing is invented.", "quantifier": "every byte stream, every prefix of it", "why_tests_cant": "soundness against arbitrary garbage input cannot be sampled", "anchors": ["zigpy_cc/uart.py:Parser.write", "zigpy_cc/uart.py:UnpiFrame.from_buffer", "zigpy_cc/uart.py:UnpiFrame.calculate_checksum"]}
{"id": "C04", "title": "A corrupted byte never yields a wrong frame", "statement": "If exactly one byte of a serialised frame after the length byte is changed on the wire (command bytes, data or checksum), the gateway delivers nothing for it and is back in sync: the following frames are delivered normally.", "quantifier": "every frame, every position after the length byte, every wrong value, every continuation of the stream", "why_tests_cant": "all frame x position x value combinations", "anchors": ["zigpy_cc/uart.py:UnpiFrame.calculate_checksum", "zigpy_cc/uart.py:UnpiFrame.from_buffer", "zigpy_cc/uart.py:Parser.write"]}
{"id": "C05", "title": "The receive buffer is bounded", "statement": "However the peer behaves, the bytes the gateway holds back never exceed one maximal frame minus one byte (259 bytes).", "quantifier": "every byte stream of any length", "why_tests_cant": "an adversarial or noisy stream of unbounded length cannot be tested", "anchors": ["zigpy_cc/uart.py:Parser.write"]}
{"id": "C06", "title": "A complete frame is delivered as soon as its last byte arrives", "statement": "When the last byte of a valid frame has been received, the frame is delivered; no further byte is needed.", "quantifier": "every serialisable frame, including frames without data", "why_tests_cant": "requires all data lengths, including zero", "anchors": ["zigpy_cc/uart.py:Parser.write", "zigpy_cc/uart.py:MinMessageLength"]}
{"id": "C07", "title": "Wire format of a sent frame", "statement": "Sending a frame writes exactly 0xFE, the data length, one byte holding the command type in the top three bits and the subsystem in the low five, the command id, the data, and the XOR of everything after 0xFE; a frame that does not fit (more than 255 data bytes or a command id above 255) raises and writes nothing.", "quantifier": "every frame, of any data length and content", "why_tests_cant": "unbounded data lengths and contents", "anchors": ["zigpy_cc/uart.py:UnpiFrame.to_buffer", "zigpy_cc/uart.py:Gateway.send"]}
{"id": "C08", "title": "Noise between frames never costs a frame", "statement": "Noise without a start-of-frame byte between two frames never makes the gateway lose the second frame, whatever the first frame was.", "quantifier": "every pair of serialisable frames, every noise string without 0xFE", "why_tests_cant": "all frame pairs, including a first frame without data, and all noise lengths", "anchors": ["zigpy_cc/uart.py:Parser.write"]}
{"id": "C09", "title": "Unknown command type or subsystem codes are rejected without losing sync", "statement": "A checksummed frame whose command type or subsystem code is undefined is never delivered; receiving it raises, and frames in later reads are delivered normally; and frames later in the same read are delivered too.", "quantifier": "every frame header byte, every data, every following bytes in the same or later reads", "why_tests_cant": "all 256 header bytes times unbounded continuations", "anchors": ["zigpy_cc/uart.py:UnpiFrame.__init__", "zigpy_cc/types.py:CommandType", "zigpy_cc/types.py:Subsystem", "zigpy_cc/uart.py:Gateway.data_received"]}
{"id": "C10", "title": "Command payloads survive encode then decode", "statement": "For any command of the command table and any payload whose values fit their declared parameter types (counts agreeing with the lists they precede), encoding the command succeeds and decoding the encoded parameters gives back the same payload.", "quantifier": "every command of the table with supported parameter types, every well-typed payload, lists and buffers of any admissible length", "why_tests_cant": "unbounded lists and 2^64 addresses per field; tests fix a handful of payloads", "anchors": ["zigpy_cc/zpi_object.py:ZpiObject.to_unpi_frame", "zigpy_cc/zpi_object.py:ZpiObject.read_parameters", "zigpy_cc/buffalo.py:Buffalo", "zigpy_cc/definition.py:Definition"]}
{"id": "C11", "title": "Re-encoding a received message reproduces its bytes", "statement": "When a received message decodes and its parameter types can be written, encoding the decoded message again gives exactly the bytes the decoder consumed (so data forwarded to zigpy after re-encoding equals what the radio sent).", "quantifier": "every command of the table, every received data", "why_tests_cant": "all received byte strings", "anchors": ["zigpy_cc/zpi_object.py:ZpiObject.to_unpi_frame", "zigpy_cc/zpi_object.py:ZpiObject.from_unpi_frame", "zigpy_cc/buffalo.py:Buffalo.read_parameter", "zigpy_cc/buffalo.py:Buffalo.write_parameter"]}
{"id": "C12", "title": "Numbers are never truncated on the wire", "statement": "Every integer parameter is either encoded little-endian in exactly its declared width or the call raises; no value is silently truncated or wrapped, and distinct accepted values give distinct bytes.", "quantifier": "every Python integer, every width used", "why_tests_cant": "unbounded integers", "anchors": ["zigpy_cc/buffalo.py:Buffalo.write", "zigpy_cc/buffalo.py:Buffalo.read_int"]}
{"id": "C13", "title": "Truncated messages are rejected, never half-decoded", "statement": "If a message decodes from some data consuming n bytes, then the same command with any data that is cut off before those n bytes raises; no decoded message is built from missing bytes, and bytes beyond n do not change the result.", "quantifier": "every parameter list, every data, every cut position", "why_tests_cant": "all data and all cut points", "anchors": ["zigpy_cc/buffalo.py:Buffalo.read", "zigpy_cc/zpi_object.py:ZpiObject.read_parameters"]}
{"id": "C14", "title": "The command table is unambiguous", "statement": "Within a subsystem no two commands share an id or a name; hence building a command by name and looking up its id in a received frame lead to the same command.", "quantifier": "every subsystem and every command of the 235-entry table", "why_tests_cant": "a test would restate the table; the lookup theorem is for every command and payload", "anchors": ["zigpy_cc/definition.py:Definition", "zigpy_cc/zpi_object.py:ZpiObject.from_command", "zigpy_cc/zpi_object.py:ZpiObject.from_unpi_frame"]}
{"id": "C15", "title": "Decoded lists and buffers have the announced size", "statement": "In every successfully decoded message, each variable-size buffer or list has exactly as many elements as the integer parameter decoded just before it says, and each fixed-size buffer has its fixed size.", "quantifier": "every parameter list of the table, every data that decodes", "why_tests_cant": "all data", "anchors": ["zigpy_cc/zpi_object.py:ZpiObject.read_parameters", "zigpy_cc/buffalo.py:Buffalo.read_parameter"]}
{"id": "C16", "title": "Neighbour table entries pack and unpack", "statement": "A neighbour entry whose fields fit their bit widths is encoded in 22 bytes and decodes to the same entry; decoding any 22 bytes yields fields within their widths.", "quantifier": "every neighbour entry, every 22 bytes", "why_tests_cant": "2^170 entries", "anchors": ["zigpy_cc/buffalo.py:Buffalo.write_neighbor_lqi", "zigpy_cc/buffalo.py:Buffalo.read_neighbor_lqi"]}
{"id": "C17", "title": "Every indication of the table can be received", "statement": "For every asynchronous command of the table there is received data that decodes; a user of the library can receive each announced indication.", "quantifier": "every asynchronous command of the table", "why_tests_cant": "requires deciding, for each command, that no data at all decodes or that some does", "anchors": ["zigpy_cc/buffalo.py:Buffalo.read_parameter", "zigpy_cc/definition.py:Definition"]}
{"id": "C18", "title": "One synchronous request at a time", "statement": "At every moment at most one request that was written to the serial port is still waiting for its synchronous response; the next request is written only after the previous caller has got its response, an error, a timeout or was cancelled.", "quantifier": "every number of concurrent callers, every interleaving of submissions, frames, timeouts, cancellations", "why_tests_cant": "schedules of concurrent tasks are unbounded", "anchors": ["zigpy_cc/api.py:API.request_raw", "zigpy_cc/api.py:API._request_raw"]}
{"id": "C19", "title": "Requests are written in submission order", "statement": "Requests waiting for the radio are written to the port in the order in which the callers submitted them, none is written twice, and none is skipped unless its caller was cancelled or got an error instead (port closed, not encodable, not a request).", "quantifier": "every interleaving", "why_tests_cant": "schedules are unbounded", "anchors": ["zigpy_cc/api.py:API.request_raw"]}
{"id": "C20", "title": "A request returns only its own kind of response, received after it was sent", "statement": "When a request returns a result, that result is a synchronous response with the same subsystem and command as the request, decoded from a frame that arrived after the request was written to the port.", "quantifier": "every history of submissions, frames, timeouts and cancellations", "why_tests_cant": "history property", "anchors": ["zigpy_cc/api.py:API._request_raw", "zigpy_cc/api.py:API.data_received", "zigpy_cc/api.py:Waiter.match"]}
{"id": "C21", "title": "Status codes decide success", "statement": "A request whose response carries a status succeeds exactly if the status is among the expected ones (only 0 by default) and otherwise raises a CommandError carrying that status; a response without status always succeeds.", "quantifier": "every response payload, every expected-status list", "why_tests_cant": "all payloads and lists", "anchors": ["zigpy_cc/api.py:API._request_raw", "zigpy_cc/exception.py:CommandError"]}
{"id": "C22", "title": "A waiter is resolved at most once and ids are never reused", "statement": "Each registered waiter gets at most one result over its whole life, a resolved waiter is no longer in the waiter table, and no two waiters ever have the same id.", "quantifier": "every history", "why_tests_cant": "history property", "anchors": ["zigpy_cc/api.py:API.wait_for", "zigpy_cc/api.py:API.data_received", "zigpy_cc/api.py:Waiter.set_result"]}
{"id": "C23", "title": "Waiters do not leak", "statement": "A waiter leaves the waiter table at the latest when its timer (its timeout plus 0.1 s) fires, whether or not a response came and whether or not its caller gave up.", "quantifier": "every history, every timeout value", "why_tests_cant": "history property over time", "anchors": ["zigpy_cc/api.py:API.wait_for"]}
{"id": "C24", "title": "Replies are attributed to requests first come, first served", "statement": "When several requests wait for the same reply from the same device, each reply goes to the oldest still waiting one and to no other, so the k-th reply carries the transaction number of the k-th request.", "quantifier": "every number of identical waiting requests, every order of other traffic", "why_tests_cant": "unbounded numbers of requests and schedules", "anchors": ["zigpy_cc/api.py:API.data_received"]}
{"id": "C25", "title": "Every awaited reply reaches zigpy with its transaction number", "statement": "If a request with transaction number n registered for a reply and that reply arrives, the reply is marked with n and handed to zigpy as a message starting with byte n.", "quantifier": "every transaction number 0..255", "why_tests_cant": "needs all transaction numbers, the value 0 occurs once per 256 requests", "anchors": ["zigpy_cc/api.py:API.data_received", "zigpy_cc/zigbee/application.py:ControllerApplication.handle_znp"]}
{"id": "C26", "title": "Unrelated frames do not disturb waiters", "statement": "A received message that matches no waiter leaves all waiters as they were; a received message never resolves a waiter registered for another type, subsystem, command or payload.", "quantifier": "every waiter table, every message", "why_tests_cant": "all tables and messages", "anchors": ["zigpy_cc/api.py:API.data_received", "zigpy_cc/api.py:Waiter.match"]}
{"id": "C27", "title": "Matching never raises", "statement": "With waiters registered through the API's own response-waiter and request functions, comparing a received message with the waiters never raises.", "quantifier": "every waiter registered for any request of the table, every received message that decodes", "why_tests_cant": "all request/response pairs of the table and all payloads", "anchors": ["zigpy_cc/api.py:Waiter.match", "zigpy_cc/api.py:API.create_response_waiter", "zigpy_cc/definition.py:Definition"]}
{"id": "C28", "title": "Response waiters fit their requests", "statement": "For a data request the response waiter expects the data confirm with the same transaction id; for a ZDO ...Req request it expects the ...Rsp indication from the destination of the request; registering a response waiter does not fail for any request the application can send.", "quantifier": "every ZDO/AF request of the table, every payload", "why_tests_cant": "all requests and payloads", "anchors": ["zigpy_cc/api.py:API.create_response_waiter"]}
{"id": "C29", "title": "A refused request gives back its response waiter", "statement": "If the radio refuses a request with an unexpected status, the caller gets a CommandError (as a (status, message) result from the application) and the request's response waiter is removed from the table.", "quantifier": "every history in which the waiter is still registered or already gone when the refusal arrives", "why_tests_cant": "depends on the order of reply, refusal and timer", "anchors": ["zigpy_cc/api.py:API._request_raw", "zigpy_cc/zigbee/application.py:ControllerApplication.request"]}
{"id": "C30", "title": "The request lock cannot be lost", "statement": "Whatever happens to a request - encoding error, closed port, refusal, timeout, cancellation, unknown type - the lock is released, and as long as requests are waiting some step of the system is possible.", "quantifier": "every history", "why_tests_cant": "schedules are unbounded", "anchors": ["zigpy_cc/api.py:API.request_raw"]}
{"id": "C31", "title": "A reset waits for the radio's reset indication", "statement": "A reset request returns only a SYS resetInd indication received after the reset was written to the port; other asynchronous requests return at once without registering a waiter; poll and response types are refused without writing anything.", "quantifier": "every history and every request object", "why_tests_cant": "history property", "anchors": ["zigpy_cc/api.py:API._request_raw", "zigpy_cc/zpi_object.py:ZpiObject.is_reset_command"]}
{"id": "C32", "title": "Incoming ZCL messages reach zigpy unchanged", "statement": "An incoming application message from a known device is forwarded exactly once with its cluster, endpoints, link quality and data unchanged, whatever the addressing form; one from an unknown device is dropped without effect.", "quantifier": "every incoming message, every device table", "why_tests_cant": "all messages and device tables", "anchors": ["zigpy_cc/zigbee/application.py:ControllerApplication.handle_znp"]}
{"id": "C33", "title": "A device announcement registers the device and is forwarded", "statement": "A device announcement makes the announced address known for the announced device (also if the device was known under another address) and is forwarded as ZDO Device_annce with transaction number 0 and the announced bytes.", "quantifier": "every announcement, every device table", "why_tests_cant": "all announcements and tables", "anchors": ["zigpy_cc/zigbee/application.py:ControllerApplication.handle_znp"]}
{"id": "C34", "title": "ZDO replies are forwarded with the right cluster and body", "statement": "An awaited ZDO reply of a handled kind from a known device is forwarded exactly once, with the ZDO response cluster of its kind, endpoints 0, and as data the transaction number followed by the reply bytes after the source address.", "quantifier": "every reply, every transaction number, every device table", "why_tests_cant": "all reply payloads", "anchors": ["zigpy_cc/zigbee/application.py:ControllerApplication.handle_znp", "zigpy_cc/zigbee/application.py:REQUESTS"]}
{"id": "C35", "title": "Everything else has no effect", "statement": "Synchronous responses, ignored indications and ZDO replies nobody waits for change no application state and forward nothing.", "quantifier": "every message, every application state", "why_tests_cant": "all messages", "anchors": ["zigpy_cc/zigbee/application.py:ControllerApplication.handle_znp", "zigpy_cc/zigbee/application.py:IGNORED"]}
{"id": "C36", "title": "Unicast request on the wire", "statement": "A unicast ZCL request writes exactly one AF dataRequest frame with the destination address, endpoints, cluster, transaction number, options 0, radius 30, data length and data in this order, little-endian.", "quantifier": "every address, endpoint, cluster, sequence and data of at most 245 bytes; longer data raises", "why_tests_cant": "all arguments", "anchors": ["zigpy_cc/zpi_object.py:ZpiObject.from_cluster", "zigpy_cc/zigbee/application.py:ControllerApplication.request"]}
{"id": "C37", "title": "Broadcast and multicast requests on the wire", "statement": "A ZCL broadcast or multicast writes exactly one AF dataRequestExt frame with the right address mode, the group or broadcast address in an 8-byte field, the endpoints, cluster, transaction number, radius and data.", "quantifier": "every group, endpoint, cluster, sequence, radius and data", "why_tests_cant": "all arguments", "anchors": ["zigpy_cc/zpi_object.py:ZpiObject.from_cluster", "zigpy_cc/zigbee/application.py:ControllerApplication.mrequest", "zigpy_cc/zigbee/application.py:ControllerApplication.broadcast"]}
{"id": "C38", "title": "ZDO requests on the wire", "statement": "A ZDO request passed down by zigpy as transaction number followed by the ZDO body is written as the MT ZDO command of the same number with the destination address followed by the unchanged body.", "quantifier": "every ZDO request cluster zigpy can send, every body", "why_tests_cant": "all bodies and clusters", "anchors": ["zigpy_cc/zpi_object.py:ZpiObject.from_cluster"]}
{"id": "C39", "title": "Permit join", "statement": "Permit join writes the broadcast permit-join request with the given duration if it is between 0 and 254 seconds and refuses any other duration without writing anything.", "quantifier": "every integer duration", "why_tests_cant": "all integers", "anchors": ["zigpy_cc/zigbee/application.py:ControllerApplication.permit_ncp"]}
{"id": "C40", "title": "Bounded number of requests in flight", "statement": "Never more than 16 (Z-Stack 3.x.0) or 2 (other stacks) application requests are past the concurrency gate at the same time, and a finished, failed or cancelled request frees its place.", "quantifier": "every interleaving of any number of application requests", "why_tests_cant": "schedules are unbounded", "anchors": ["zigpy_cc/zigbee/application.py:ControllerApplication.startup", "zigpy_cc/zigbee/application.py:ControllerApplication.request", "zigpy_cc/zigbee/application.py:ControllerApplication.broadcast", "zigpy_cc/zigbee/application.py:ControllerApplication.mrequest", "zigpy_cc/zigbee/application.py:ControllerApplication.permit_ncp"]}
{"id": "C41", "title": "The application reports success only if the radio accepted the request", "statement": "request, mrequest and broadcast return (0, success) only if the radio answered this kind of command with status 0 after the request was written, and (status, message) with the radio's status if it refused.", "quantifier": "every history", "why_tests_cant": "history property", "anchors": ["zigpy_cc/zigbee/application.py:ControllerApplication.request", "zigpy_cc/zigbee/application.py:ControllerApplication.mrequest", "zigpy_cc/zigbee/application.py:ControllerApplication.broadcast"]}
{"id": "C42", "title": "A configured stick is re-initialised exactly if its settings differ", "statement": "At start-up the stick is re-initialised exactly if one of the stored items (configured flag, channel list, key distribution, network key, PAN id, extended PAN id) differs from the configuration, with the documented exception that a never-set PAN id 0xFFFF is tolerated on Z-Stack 3.", "quantifier": "every stored NV content, every configuration, every stack version", "why_tests_cant": "all NV contents", "anchors": ["zigpy_cc/zigbee/start_znp.py:needsToBeInitialised", "zigpy_cc/zigbee/start_znp.py:validate_item"]}
{"id": "C43", "title": "Start-up result is truthful", "statement": "start_znp returns 'resumed' only if nothing was re-initialised and 'reset' or 'restored' only after the full initialisation sequence succeeded; 'restored' only on Z-Stack 1.2 when the stick was not configured before.", "quantifier": "every radio behaviour", "why_tests_cant": "all radio behaviours (status codes, values, timeouts at every step)", "anchors": ["zigpy_cc/zigbee/start_znp.py:start_znp"]}
{"id": "C44", "title": "Forming a network is idempotent", "statement": "After a successful initialisation of a stick that stores what is written, a further start-up with the same configuration finds it configured, returns 'resumed' and writes no configuration item.", "quantifier": "every configuration, every initial NV content, every stack version, every effect a reset may have on the NV memory", "why_tests_cant": "all configurations and NV contents", "anchors": ["zigpy_cc/zigbee/start_znp.py:initialise", "zigpy_cc/zigbee/start_znp.py:needsToBeInitialised", "zigpy_cc/zigbee/nv_items.py:Items"]}
{"id": "C45", "title": "Initialisation is crash safe", "statement": "If initialisation is cut off at any point (power loss, timeout, refused command), the next start-up with the same configuration initialises again; a half-initialised stick is never taken for a configured one.", "quantifier": "every crash point, every initial NV content, every configuration", "why_tests_cant": "all crash points times all NV contents", "anchors": ["zigpy_cc/zigbee/start_znp.py:initialise", "zigpy_cc/zigbee/start_znp.py:needsToBeInitialised"]}
{"id": "C46", "title": "Endpoint registration", "statement": "After start-up every one of the 13 coordinator endpoints is active: exactly those missing from the radio's active list are registered, none twice, in table order; a second registration run registers nothing.", "quantifier": "every active-endpoint list, every radio behaviour", "why_tests_cant": "all lists", "anchors": ["zigpy_cc/zigbee/start_znp.py:registerEndpoints", "zigpy_cc/zigbee/start_znp.py:Endpoints"]}
{"id": "C47", "title": "Green Power group", "statement": "Start-up adds endpoint 242 to the green power group exactly if the radio reports that it is not a member.", "quantifier": "every radio answer", "why_tests_cant": "all answers", "anchors": ["zigpy_cc/zigbee/start_znp.py:addToGroup"]}
{"id": "C48", "title": "Network settings: configured value or documented default", "statement": "Each network setting is the configured value if one is given and the documented default only if none is given.", "quantifier": "every configuration", "why_tests_cant": "all configurations, including valid values that are falsy in Python", "anchors": ["zigpy_cc/types.py:NetworkOptions"]}
{"id": "C49", "title": "NV items carry their exact length and value", "statement": "Every NV item written at start-up has a value of exactly the announced length, and the PAN id item holds the PAN id little-endian.", "quantifier": "every option value", "why_tests_cant": "all values", "anchors": ["zigpy_cc/zigbee/nv_items.py:Items"]}
{"id": "C50", "title": "Probe tells the truth and cleans up", "statement": "Probing a port returns True only if the port opened and the radio answered a version request within the time limit, False on timeout, serial error or radio error, and in every case leaves no serial port open.", "quantifier": "every behaviour of port and radio, every point at which the time limit strikes", "why_tests_cant": "all crash points", "anchors": ["zigpy_cc/api.py:API.probe", "zigpy_cc/api.py:API._probe", "zigpy_cc/uart.py:connect"]}
{"id": "C51", "title": "Closing is idempotent and deliberate closing is not reported as a loss", "statement": "Closing twice closes the port once; after a deliberate close a lost-connection callback is not reported; an unexpected loss is reported exactly once.", "quantifier": "every sequence of open, close and loss events", "why_tests_cant": "event sequences are unbounded", "anchors": ["zigpy_cc/uart.py:Gateway.close", "zigpy_cc/uart.py:Gateway.connection_lost", "zigpy_cc/api.py:API.close"]}
{"id": "C52", "title": "Reconnect keeps trying until it succeeds, one connection at a time", "statement": "After an unexpected loss the application keeps trying to reconnect until a start-up succeeds, closing the previous connection before each attempt, and at no time two reconnect loops or two open connections exist.", "quantifier": "every sequence of start-up failures and connection losses", "why_tests_cant": "event sequences are unbounded", "anchors": ["zigpy_cc/zigbee/application.py:ControllerApplication.reconnect", "zigpy_cc/zigbee/application.py:ControllerApplication.connection_lost"]}
{"id": "C53", "title": "Port selection", "statement": "With path 'auto' the single matching USB device is used and start-up fails if there is none or more than one; otherwise the configured path is used; flow-control settings map to exactly one of none, hardware, software.", "quantifier": "every list of USB devices, every configuration", "why_tests_cant": "all lists", "anchors": ["zigpy_cc/uart.py:detect_port", "zigpy_cc/uart.py:connect"]}
{"id": "C54", "title": "A response that comes in time is never lost", "statement": "A request times out only after its time limit (6 s, 20 s for forming a network, 30 s for a reset, counted from the moment it is written); and if the message it waits for arrives before that limit it does not end with a timeout, whatever else happens.", "quantifier": "every execution: any interleaving of callers, frames, timers, timeouts, cancellations", "why_tests_cant": "races between the response, the time limit and the waiter's timer depend on timing", "anchors": ["zigpy_cc/api.py:API._request_raw", "zigpy_cc/api.py:API.wait_for", "zigpy_cc/api.py:API.data_received"]}
{"id": "C55", "title": "The LED shows whether joining is permitted", "statement": "When the radio reports a change of the joining permission, exactly one LED command is started, off if the duration is 0 and on otherwise (none on Z-Stack 3.x.0); no device, forwarded message or other state is affected.", "quantifier": "every duration, every product, every API history", "why_tests_cant": "all durations, products and histories", "anchors": ["zigpy_cc/zigbee/application.py:ControllerApplication.handle_znp", "zigpy_cc/zigbee/application.py:ControllerApplication.set_led"]}
{"id": "C56", "title": "Handling a message never raises", "statement": "Once start-up has read the version, no received frame that decodes to a message makes the receiver raise, whatever requests wait and whatever devices are known.", "quantifier": "every frame, every API history, every device table", "why_tests_cant": "all commands with all payloads in all states", "anchors": ["zigpy_cc/api.py:API.data_received", "zigpy_cc/zigbee/application.py:ControllerApplication.handle_znp"]}
{"id": "C57", "title": "The coordinator runs when start-up returns", "statement": "start_znp returns only if the radio reported to be a running coordinator, or was told to start and reported afterwards that it runs; the notification is awaited from before the command is sent, and no reset follows.", "quantifier": "every radio behaviour, every configuration, every stack version", "why_tests_cant": "all orders in which answers and notifications arrive", "anchors": ["zigpy_cc/zigbee/start_znp.py:boot", "zigpy_cc/zigbee/start_znp.py:start_znp"]}
{"id": "C58", "title": "Application start-up: order, supported versions, coordinator", "statement": "Start-up of the application opens the connection, pings, reads the version and sets the number of concurrent requests by it (16 on Z-Stack 3.x.0, else 2), forms the network exactly if told to, and registers the coordinator under the addresses the radio reports; nothing on the stick is changed unless the radio reported one of the three supported products before.", "quantifier": "every radio behaviour, every point at which start-up fails", "why_tests_cant": "all radio behaviours and failure points", "anchors": ["zigpy_cc/zigbee/application.py:ControllerApplication.startup", "zigpy_cc/zigbee/application.py:ControllerApplication.form_network"]}
{"id": "C59", "title": "Shutdown is final", "statement": "After the user calls shutdown, no serial port of the application is open and no reconnect loop runs, until the user starts the application again.", "quantifier": "every execution before and after the shutdown: losses, failing attempts, timers, probes", "why_tests_cant": "event sequences are unbounded", "anchors": ["zigpy_cc/zigbee/application.py:ControllerApplication.shutdown", "zigpy_cc/zigbee/application.py:ControllerApplication.reconnect", "zigpy_cc/api.py:API.close"]}
{"id": "C60", "title": "Operations of start-up happen on the wire, in order", "statement": "A start-up coroutine that runs on the API next to other users sees only what happened on the wire: each request that succeeds was written to the port and then answered by an acceptable response while it lasted, the requests are written in program order, and a wait returns only a message that was received after its waiter was registered and that the waiter asks for (provided nobody else passes that waiter's id to request_raw).", "quantifier": "every coroutine over the API, every interleaving with other requests, frames, timers, time-outs, cancellations", "why_tests_cant": "all interleavings of start-up with other users of the API", "anchors": ["zigpy_cc/zigbee/start_znp.py:start_znp", "zigpy_cc/api.py:API.request", "zigpy_cc/api.py:API.wait_for", "zigpy_cc/api.py:Waiter.wait"]}
{"id": "C61", "title": "From the serial port to zigpy, in order and complete", "statement": "When the radio sends messages over the serial port, cut into any chunks and with noise between them, while requests are made, time passes and timers fire, then nothing raises, exactly these messages reach the API in their order, and zigpy is told about each of them in order: messages of known devices are handed over, announced devices join under their address, nothing else touches a device.", "quantifier": "every earlier history, every list of messages, every chunking, every interleaving with other API events", "why_tests_cant": "all chunkings, message lists and interleavings", "anchors": ["zigpy_cc/uart.py:Gateway.data_received", "zigpy_cc/api.py:API.data_received", "zigpy_cc/zigbee/application.py:ControllerApplication.handle_znp"]}
{"id": "C62", "title": "A response that arrives in time is never lost", "statement": "If the bytes of the response to a written request have arrived before the time limit of the request is over, in whatever chunks and between whatever other messages, the request does not end with a timeout, whatever happens afterwards.", "quantifier": "every earlier history, every chunking, every other traffic, every continuation", "why_tests_cant": "all interleavings and continuations", "anchors": ["zigpy_cc/uart.py:Gateway.data_received", "zigpy_cc/api.py:API.data_received", "zigpy_cc/api.py:API._request_raw", "zigpy_cc/api.py:Waiter.wait"]}
{"id": "C63", "title": "The wake-up byte precedes every use of a port", "statement": "Whenever connect has returned a connection, its port was opened, then exactly one wake-up byte was written to it, and at least one second passed before connect returned; so no command reaches the radio earlier.", "quantifier": "every execution: losses, failing attempts, timers, probes, several tasks", "why_tests_cant": "the pause competes with losses, time limits and other tasks; all orders matter", "anchors": ["zigpy_cc/uart.py:connect"]}
{"id": "C64", "title": "A request and its reply, end to end", "statement": "If the application asks a node for something over ZDO (node and simple descriptor, endpoints, bind, neighbours, permit join) with a transaction number other than 0, and the node's reply arrives within 10.1 s, zigpy gets the reply exactly once with that transaction number and the body as received (reserved bits of neighbour entries cleared), whatever else happens in between: other calls, frames, time-outs, cancellations, restarts. Provided nobody else was waiting for such a reply, the radio did not refuse the request, and no call from before a restart was still waiting for its turn or had brought the id of its waiter to the new connection.", "quantifier": "every earlier history, every interleaving between request and reply", "why_tests_cant": "all interleavings of other calls, messages, timers and restarts with the exchange", "anchors": ["zigpy_cc/zigbee/application.py:ControllerApplication.request", "zigpy_cc/api.py:API.create_response_waiter", "zigpy_cc/api.py:API.data_received", "zigpy_cc/zigbee/application.py:ControllerApplication.handle_znp"]}
{"id": "C65", "title": "Every response goes to the request it answers", "statement": "The radio answers the requests with one command in the order in which they are written, so the n-th response to a command is meant for the n-th request with it. Then the n-th call that writes such a request ends with the n-th response (returns it, or raises CommandError with its status), never with the response to another call.", "quantifier": "every execution, every command, every number of calls and responses; the radio never sends more responses to a command than there were requests", "why_tests_cant": "late responses, timeouts and cancellations interleave in unboundedly many ways", "anchors": ["zigpy_cc/api.py:API._request_raw", "zigpy_cc/api.py:API.data_received", "zigpy_cc/api.py:Waiter.wait"]}
{"id": "C66", "title": "Every call ends in bounded time", "statement": "If the event loop keeps up (it lets time pass only when nothing is left to do at the moment), every API request ends no later than the sum of its own time limit and the limits of the calls still ahead of it in the queue: 6 s for a synchronous request, 20 s for the two commands that form a network, 30 s for a reset. A silent radio, wrong responses, a lost port, cancellations of other calls change nothing about that.", "quantifier": "every earlier history, every continuation in which the event loop keeps up", "why_tests_cant": "unbounded queues and all interleavings of time-outs, responses, cancellations", "anchors": ["zigpy_cc/api.py:API.request", "zigpy_cc/api.py:API._request_raw", "zigpy_cc/api.py:Waiter.wait", "zigpy_cc/api.py:API.wait_for"]}
{"id": "C67", "title": "A request without a connection fails and writes nothing", "statement": "While the serial port is closed, no byte is written, and every request that was not written before can only fail: AttributeError as soon as it is its turn, at once if no other request is in progress, or its own encoding error or cancellation.", "quantifier": "every earlier history, every continuation until the port is opened again", "why_tests_cant": "closing the port interleaves with queued requests, timers and cancellations", "anchors": ["zigpy_cc/api.py:API.close", "zigpy_cc/api.py:API._request_raw", "zigpy_cc/uart.py:Gateway.send"]}
{"id": "C68", "title": "Broadcasts and multicasts pause, unicasts do not", "statement": "A broadcast or multicast returns success no earlier than 200 ms after its API request was over, and does return once that time has passed and the event loop gets to it; unicast requests and permit join, and broadcasts and multicasts that failed, end in the very step in which their API request ends.", "quantifier": "every history of the application: other calls, frames, timers, cancellations, restarts", "why_tests_cant": "all interleavings of calls, timers and frames", "anchors": ["zigpy_cc/zigbee/application.py:ControllerApplication.mrequest", "zigpy_cc/zigbee/application.py:ControllerApplication.broadcast", "zigpy_cc/zigbee/application.py:ControllerApplication.request"]}
{"id": "C69", "title": "Start-up speaks the language of the stack", "statement": "Start-up sends no SAPI command to Z-Stack 3.x.0, which has none, and to Z-Stack 1.2 no commissioning command; on Z-Stack 1.2 the network key is read and written only by SAPI.", "quantifier": "every radio behaviour, every configuration, every point at which start-up is cut off", "why_tests_cant": "all radio behaviours and failure points", "anchors": ["zigpy_cc/zigbee/start_znp.py:needsToBeInitialised", "zigpy_cc/zigbee/start_znp.py:initialise", "zigpy_cc/zigbee/start_znp.py:start_znp"]}
{"id": "C70", "title": "What the radio reads is what was asked for", "statement": "At every moment the bytes written to the port are exactly the frames of the requests written so far, whole, in the order of the calls, with nothing in between, and they can be cut into frames in one way only; a request whose values fit the command table reads back as that command with these values.", "quantifier": "every execution, every number of concurrent calls", "why_tests_cant": "unbounded interleavings of calls, timeouts and cancellations write to one port", "anchors": ["zigpy_cc/api.py:API._request_raw", "zigpy_cc/uart.py:Gateway.send", "zigpy_cc/uart.py:UnpiFrame.to_buffer"]}
{"id": "C71", "title": "No call of the application is stuck", "statement": "Whatever happened before, with nothing but time limits, pauses and calls going on when they can (a silent radio, no cancellation, no restart), every call of the application ends: places of the semaphore and the request lock are always given back.", "quantifier": "every earlier history: calls, messages, cancellations, restarts", "why_tests_cant": "two nested locks, time limits and cancellations interleave in unboundedly many ways", "anchors": ["zigpy_cc/zigbee/application.py:ControllerApplication.request", "zigpy_cc/zigbee/application.py:ControllerApplication.mrequest", "zigpy_cc/zigbee/application.py:ControllerApplication.broadcast", "zigpy_cc/api.py:API.request_raw"]}
{"id": "C72", "title": "A call that was written ends with the radio's verdict", "statement": "Once the request of request, mrequest, broadcast or permit_ncp has been written, the call ends in one of three ways: with the status the radio answered to this kind of command (status 0 exactly with the success message; permit_ncp returns nothing or raises CommandError with the status), with TimeoutError, or cancelled. It never ends with any other exception.", "quantifier": "every earlier history, every continuation: other calls, messages, timers, cancellations, restarts", "why_tests_cant": "all interleavings of other calls, messages, timers and restarts with the exchange", "anchors": ["zigpy_cc/zigbee/application.py:ControllerApplication.request", "zigpy_cc/zigbee/application.py:ControllerApplication.mrequest", "zigpy_cc/zigbee/application.py:ControllerApplication.broadcast", "zigpy_cc/zigbee/application.py:ControllerApplication.permit_ncp", "zigpy_cc/api.py:API._request_raw"]}
{"id": "C73", "title": "Calls of the application end in bounded time", "statement": "If the event loop keeps up, every call of request, mrequest, broadcast or permit_ncp has ended once more time has passed than the work at hand takes: the time limits of the requests that are open in the API (and, if the connection was or is replaced, in the API objects of the other connections), the time limits and pauses (200 ms after broadcasts and multicasts) of the calls of the application that are open, and those of the calls and requests that come in meanwhile. This holds whatever the radio does or does not answer.", "quantifier": "every earlier history, every continuation: messages, silence, cancellations, other calls, requests from elsewhere, lost ports, restarts", "why_tests_cant": "two nested locks with time limits; the worst case needs many concurrent calls and a silent radio", "anchors": ["zigpy_cc/zigbee/application.py:ControllerApplication.request", "zigpy_cc/zigbee/application.py:ControllerApplication.mrequest", "zigpy_cc/zigbee/application.py:ControllerApplication.broadcast", "zigpy_cc/zigbee/application.py:ControllerApplication.permit_ncp", "zigpy_cc/api.py:API.request_raw"]}
{"id": "C74", "title": "From zigpy's request to zigpy's answer, in bytes", "statement": "zigpy asks a node for something over ZDO (node and simple descriptor, endpoints, bind, neighbours, permit join) with a transaction number other than 0. After that the serial port delivers noise and well-formed messages and then the node's reply, cut into chunks in any way, while anything else happens in the driver (other calls, other ports, restarts, LED requests, changes of the device table). If the last byte of the reply arrives within 10.1 s, then in the chunk that contains it zigpy gets what the messages before the reply have for it, and next the reply with that transaction number and the body as received. Under the conditions of C64. In every execution of the driver the calls see an execution of the application model, so what is proved there holds for the driver.", "quantifier": "every earlier history, every chunking, every interleaving, any bytes after the reply in its chunk", "why_tests_cant": "all cuts of the byte stream combined with all interleavings of calls, timers and restarts", "anchors": ["zigpy_cc/uart.py:Gateway.data_received", "zigpy_cc/api.py:API.data_received", "zigpy_cc/zigbee/application.py:ControllerApplication.handle_znp", "zigpy_cc/zigbee/application.py:ControllerApplication.request"]}
{"id": "C75", "title": "Every LED decision is carried out once, in order", "statement": "At every moment the modes handle_znp decided on so far are, in this order, those of the LED requests already made followed by those of the tasks that have not begun; each request goes to the API object that was current when the decision was taken, the LED requests each API object has got are exactly these, for LED 3, and once the pending tasks have run every decision has been carried out.", "quantifier": "every execution of the driver: bytes, calls, restarts, timers", "why_tests_cant": "tasks are created in one place and run later, between any other events", "anchors": ["zigpy_cc/zigbee/application.py:ControllerApplication.set_led", "zigpy_cc/zigbee/application.py:ControllerApplication.handle_znp"]}
{"id": "C76", "title": "What arrives is told to zigpy, whatever zigpy is doing", "statement": "After the start-up a port delivers noise and well-formed messages, cut into chunks in any way, while calls of zigpy, their timers, cancellations, LED requests and restarts go on. No exception leaves data_received, and at every moment zigpy has been told exactly what the messages received so far have for it, in their order (C61), independent of everything else that goes on. The product by which handle_znp decides about the LED is always the one the last start-up read.", "quantifier": "every earlier history, every chunking, every interleaving with other activity; the other ports silent, no other change of zigpy's device table", "why_tests_cant": "all cuts of the byte stream combined with all interleavings of calls, timers and restarts", "anchors": ["zigpy_cc/uart.py:Gateway.data_received", "zigpy_cc/api.py:API.data_received", "zigpy_cc/zigbee/application.py:ControllerApplication.handle_znp", "zigpy_cc/zigbee/application.py:ControllerApplication.set_led"]}
{"id": "C77", "title": "What arrives while the driver connects", "statement": "On a restart a port delivers messages from the moment it is open, but the driver listens to it only when API.new has returned. No exception leaves data_received; of the messages that were complete before API.new returned nothing is told to zigpy; of all later ones, also of one whose first bytes arrived before, everything is told, in their order, as in C76.", "quantifier": "every earlier history, every chunking, every moment at which API.new returns, every interleaving with other activity", "why_tests_cant": "all moments inside a message at which API.new may return, with all chunkings", "anchors": ["zigpy_cc/uart.py:connect", "zigpy_cc/uart.py:Gateway.data_received", "zigpy_cc/api.py:API.new", "zigpy_cc/api.py:API.data_received", "zigpy_cc/zigbee/application.py:ControllerApplication.startup"]}
{"id": "C78", "title": "What a configuration of the port leads to", "statement": "SCHEMA_DEVICE accepts exactly the dicts with an existing path or 'auto', an int baudrate or none, a known flow control or none, and nothing else. Every port that the driver then opens is the configured one (with 'auto' the only stick there is), with the configured speed and flow control, 115200 baud and no flow control if they are not given. probe checks its argument itself and raises exactly if it is invalid, e.g. for a path that does not exist.", "quantifier": "every dict, every file system, every list of ports, every execution", "why_tests_cant": "all dicts times all executions", "anchors": ["zigpy_cc/config.py:SCHEMA_DEVICE", "zigpy_cc/uart.py:connect", "zigpy_cc/api.py:API.probe"]}
{"id": "C79", "title": "Start-up ends, and when", "statement": "Once the port is connected, startup has returned or raised 502 s later at the latest, plus the time limits of the calls that others had made or make meanwhile, whatever the radio answers or does not answer; form_network 484 s after it was called. The event loop must keep up: time passes only when nothing is left to do at the moment.", "quantifier": "every configuration, every behaviour of the radio, every interleaving with other calls, timers and cancellations", "why_tests_cant": "the worst case takes minutes of silence at every one of some sixty operations, and there are many paths through them", "anchors": ["zigpy_cc/zigbee/start_znp.py:start_znp", "zigpy_cc/zigbee/application.py:ControllerApplication.startup", "zigpy_cc/zigbee/application.py:ControllerApplication.form_network", "zigpy_cc/api.py:API.request_raw", "zigpy_cc/api.py:Waiter.wait"]}
{"id": "C80", "title": "What the radio reports is read from the right bytes", "statement": "For the responses and indications the driver itself works with a table independent of the code says which field lies in which bytes; from_unpi_frame decodes exactly these fields and raises OverflowError if bytes are missing. When startup has returned, the radio was asked for its version and answered with at least nine bytes whose second decides the number of outstanding requests; it was asked about itself, and the coordinator is registered with bytes 1-8 of the answer as address and bytes 9-10 as network address. start_znp returns only if the 13th byte of the answer or the first byte of a later state-change report is 9, and says resumed only if the answers hold the configured values byte by byte. Every decodable frame that arrives is handled once, in order. A radio that answers the version request in the five bytes of older descriptions cannot be started.", "quantifier": "every frame, every configuration, every behaviour of the radio, every interleaving with other calls", "why_tests_cant": "all byte values of the answers with all executions of start-up", "anchors": ["zigpy_cc/definition.py:Definition", "zigpy_cc/zpi_object.py:ZpiObject.from_unpi_frame", "zigpy_cc/zigbee/start_znp.py:start_znp", "zigpy_cc/zigbee/application.py:ControllerApplication.startup", "zigpy_cc/api.py:API.data_received"]}
{"id": "C81", "title": "Start-up fails only for a reason", "statement": "startup and form_network raise an exception only for a reason in what has happened, and the exception fits the reason: no connection (whatever that raised); the port closed when a request was due (AttributeError); cancelled (CancelledError); a request written whose answer did not come in its time limit (TimeoutError); a request written and answered with a status that is not accepted for it (CommandError with that status); no report that the network was started in 60 s (TimeoutError, Exception while initialising); no list of endpoints in 10 s (TimeoutError); a version answer whose second byte is above 2 (ValueError). No answer of the radio leads to any other exception (KeyError, AttributeError for a missing response, TypeError). With C79: within its time start-up has returned or has failed for such a reason. A setting that cannot be read is such a reason: it does not lead to a new initialisation.", "quantifier": "every configuration of the right sizes, every behaviour of the radio, every interleaving with other calls, timers and cancellations", "why_tests_cant": "the absence of other failures is a statement about all answers at all of some sixty operations", "anchors": ["zigpy_cc/zigbee/start_znp.py:start_znp", "zigpy_cc/zigbee/application.py:ControllerApplication.startup", "zigpy_cc/zigbee/application.py:ControllerApplication.form_network", "zigpy_cc/api.py:API.request", "zigpy_cc/api.py:Waiter.wait"]}
{"id": "C82", "title": "The network is the one that was asked for", "statement": "When form_network returns, the stick is marked as configured and holds the channels, key, PAN id and extended PAN id that were asked for: the arguments if given, else the configured values, else the documented defaults. Before a start-up has read the version of the stick it raises KeyError and sends nothing.", "quantifier": "every combination of arguments, every configuration, every stored content, every behaviour of the radio in which form_network returns", "why_tests_cant": "all arguments and configurations combined with all stored contents", "anchors": ["zigpy_cc/zigbee/application.py:ControllerApplication.form_network", "zigpy_cc/types.py:NetworkOptions", "zigpy_cc/zigbee/start_znp.py:start_znp"]}
{"id": "C83", "title": "Start-up over the serial port", "statement": "Whatever bytes the port delivers in whatever chunks, before and after it is connected, startup proceeds as if the API were handed messages that were contiguous on the wire with a correct checksum, in the order of the bytes; what was complete before API.new returned is dropped. While it has not returned, and if it raises, startup tells zigpy nothing, learns nothing, writes nothing and does not return. If the bytes are sound messages with noise between them, every message completed after that reaches the API at once, zigpy is told of it in order, and nothing raises, also while start-up is going on. When startup has returned, the answers to the version request and the device information request were on the wire; the application has the product and the coordinator's address from them. If startup raises, there is a reason among what was received.", "quantifier": "every byte stream, every chunking, every moment at which the port is connected, every interleaving with other calls and timers", "why_tests_cant": "all chunkings and all byte streams combined with all executions of start-up", "anchors": ["zigpy_cc/uart.py:Gateway.data_received", "zigpy_cc/uart.py:connect", "zigpy_cc/api.py:API.new", "zigpy_cc/api.py:API.data_received", "zigpy_cc/zigbee/application.py:ControllerApplication.startup", "zigpy_cc/zigbee/application.py:ControllerApplication.handle_znp"]}
{"id": "C84", "title": "The reconnect loop over the serial port", "statement": "The loop that follows a lost connection sleeps five seconds before every attempt, holds no port meanwhile, and begins attempts at least five seconds apart; if the event loop keeps up, the next attempt begins 508 s at the latest after the port of the one before was opened, or the loop went to sleep (plus the time limits of calls that others make), however ports and radio behave. It ends only when a start-up has returned or it is cancelled. Every attempt starts from a new port, parser and API object, so that neither bytes nor messages nor timers of earlier attempts reach it, with the application's knowledge of the one before; each that fails does so for a reason among its own bytes and timers (C81), and when the loop ends the application knows the product and the coordinator's address of the radio at the last port.", "quantifier": "every configuration, every sequence of failures, every byte stream, every interleaving with other calls, timers and cancellations", "why_tests_cant": "attempts take minutes and there are arbitrarily many of them", "anchors": ["zigpy_cc/zigbee/application.py:ControllerApplication.reconnect", "zigpy_cc/zigbee/application.py:ControllerApplication.startup", "zigpy_cc/api.py:API.new", "zigpy_cc/api.py:API.close", "zigpy_cc/uart.py:connect"]}
{"id": "C85", "title": "A radio that works is started", "statement": "The port is open when the connection is made and stays open; nobody cancels start-up or listens to messages on its API object. The radio answers each request within its time limit (6 s; 20 s for APP_CNF_BDB_START_COMMISSIONING and ZDO_STARTUP_FROM_APP; 30 s for a reset) with a complete response, refuses none, reports that the network was started within 60 s and its endpoints within 10 s of being asked, and is of a known kind. Then startup never raises, whatever else the radio sends in between, whatever is stored on it and whatever requests others make; and it returns within 502 s of the connection (plus the time limits of calls of others). form_network the same, within 484 s. Over the serial port the same holds for sound messages with noise between them, cut into chunks in any way (without the two indications that switch the LED as long as the application does not know the version of the radio). The reconnect loop ends, and start-up has returned, 508 s at the latest after an attempt opened the port of such a radio.", "quantifier": "every configuration of the right sizes, every content of the radio's memory, every delay below the limits, every additional message, every chunking, every interleaving with requests of others", "why_tests_cant": "all contents of the memory, all delays and all additional messages at all of some sixty operations", "anchors": ["zigpy_cc/zigbee/start_znp.py:start_znp", "zigpy_cc/zigbee/application.py:ControllerApplication.startup", "zigpy_cc/zigbee/application.py:ControllerApplication.form_network", "zigpy_cc/zigbee/application.py:ControllerApplication.reconnect", "zigpy_cc/api.py:API.request_raw", "zigpy_cc/api.py:Waiter.wait", "zigpy_cc/uart.py:Gateway.data_received"]}
{"id": "C86", "title": "The receiver finds its way back after garbage", "statement": "Whatever bytes came before (opening the port in the middle of a message, lost or corrupted bytes), a message sent afterwards is delivered if it begins more than 258 bytes later, and so are all after it, each once and in order; before them at most one message is delivered that nobody sent.", "quantifier": "every byte string before, every sequence of messages after it, every noise between them, every chunking", "why_tests_cant": "the bytes before and the bytes after combine to arbitrary pretended messages", "anchors": ["zigpy_cc/uart.py:Parser.write", "zigpy_cc/uart.py:UnpiFrame.from_buffer", "zigpy_cc/uart.py:Gateway.data_received"]}
{"id": "C87", "title": "Decoding, exactly", "statement": "A received frame is understood exactly if its command is in the table (request parameters for requests and indications, response parameters for responses) and its data begin with bytes of the declared form: numbers of 1, 2 or 4 bytes with the low byte first, address modes among the known ones, 8-byte addresses, buffers of fixed size, buffers and lists with as many elements as the number before them says. The values are then those of these bytes under the parameters' names, whatever follows in the data; no other reading of the same data exists; and the encoder turns such values into exactly these bytes (lists of neighbours up to reserved bits).", "quantifier": "every frame, every command of the table", "why_tests_cant": "all data of all 235 commands", "anchors": ["zigpy_cc/zpi_object.py:ZpiObject.from_unpi_frame", "zigpy_cc/zpi_object.py:ZpiObject.read_parameters", "zigpy_cc/zpi_object.py:ZpiObject.to_unpi_frame", "zigpy_cc/buffalo.py:Buffalo.read_parameter", "zigpy_cc/buffalo.py:Buffalo.write_parameter"]}
{"id": "C88", "title": "A probe over the serial port", "statement": "API.probe writes the wake-up byte and, at least a second later, SYS_VERSION, and nothing else, to an open port, and nothing after its end. It returns True only if the bytes of the port, after the request was written, completed a response to SYS_VERSION with all nine bytes of its body, and only within two seconds of the call. If the radio answers within them, the probe returns True, whatever messages came before, whatever noise is between them and however the bytes are cut into chunks, and no message raises. It returns False when its limit is over; it raises only if it is cancelled or opening the port raised something that is not a timeout, a serial error or an error of the radio. A probe that wrote its request has closed its port when it ends. (One whose limit is over while it waits for the port leaves it open.)", "quantifier": "every byte stream, every chunking, every interleaving of bytes, timers, time limits and cancellations", "why_tests_cant": "all byte streams at all moments of the connection", "anchors": ["zigpy_cc/api.py:API.probe", "zigpy_cc/api.py:API._probe", "zigpy_cc/api.py:API.version", "zigpy_cc/api.py:API.close", "zigpy_cc/uart.py:connect", "zigpy_cc/uart.py:Gateway.data_received"]}
{"id": "C89", "title": "Sizes come from the fields that announce them", "statement": "In every response and indication that is decoded, each buffer and list of variable size has as many elements as the field that announces its size says: endpoints activeepcount, clusters numinclusters and numoutclusters, NV values len, neighbours neighborlqilistcount, and so on for every message of the table. In particular it does not depend on an address or status that happens to precede it.", "quantifier": "every frame, every command of the table", "why_tests_cant": "all data of all messages that a radio can send", "anchors": ["zigpy_cc/definition.py:Definition", "zigpy_cc/zpi_object.py:ZpiObject.read_parameters", "zigpy_cc/buffalo.py:Buffalo.read_parameter"]}
{"id": "C90", "title": "Messages without data do not matter", "statement": "Among all responses and indications only eight are understood without data: the responses to ZDO_FORCE_CONCENTRATOR_CHANGE and to five requests of the simple API, SAPI_SYSTEM_RESET and UTIL_SYNC_REQ. None of them has an effect on the application or makes the receiver raise, and none is the response to a command of start-up. (So the receiver's late delivery of frames without data, C06, delays nothing that start-up or the application waits for.)", "quantifier": "every frame, every history of the API, every state of the application, every execution of start-up", "why_tests_cant": "all commands of the table in all states", "anchors": ["zigpy_cc/definition.py:Definition", "zigpy_cc/zpi_object.py:ZpiObject.from_unpi_frame", "zigpy_cc/zigbee/application.py:ControllerApplication.handle_znp", "zigpy_cc/zigbee/start_znp.py:start_znp"]}
{"id": "C91", "title": "Messages are attributed to the device that has the address", "statement": "As long as zigpy does not change its table of devices itself, the table has exactly the devices that were in it before or announced themselves, each under the address it announced last. Every message that zigpy is handed comes from such a device, under the address it had when the message came. A message from an address is handed over as one of the device that announced this address last; a message from an address that no device has is dropped.", "quantifier": "every execution: every byte stream and chunking, every number of connections, every order of announcements and messages", "why_tests_cant": "all histories of announcements", "anchors": ["zigpy_cc/zigbee/application.py:ControllerApplication.handle_znp", "zigpy_cc/zigbee/application.py:IGNORED", "zigpy_cc/api.py:API.data_received", "zigpy_cc/uart.py:Gateway.data_received"]}
{"id": "C92", "title": "An accepted request succeeds", "statement": "Once the request of a call of request, mrequest, broadcast or permit_ncp is written and the radio answers this kind of command only with status 0, the call can end only with success, TimeoutError or cancelled. If moreover a response arrives within 6 s of the writing and nobody cancels the call, it ends only with success. Neither restarts, nor a node's early reply, nor an expired response waiter, nor other calls change this.", "quantifier": "all executions of the application (all interleavings of calls, frames, time-outs, restarts, cancellations); all calls; all moments of writing and answering", "why_tests_cant": "a test answers one call at one moment; the claim excludes every other error (KeyError, TimeoutError, cancellation of a neighbour) in all interleavings", "anchors": ["zigpy_cc/zigbee/application.py:ControllerApplication.request", "zigpy_cc/zigbee/application.py:ControllerApplication.mrequest", "zigpy_cc/zigbee/application.py:ControllerApplication.broadcast", "zigpy_cc/zigbee/application.py:ControllerApplication.permit_ncp", "zigpy_cc/api.py:API._request_raw"]}
{"id": "C93", "title": "Start-up runs next to zigpy's calls", "statement": "While startup runs in a driver that was connected before, with calls from before and new ones, bytes, time-outs and cancellations in any order: (1) the driver does only what it does without startup, plus requests, waits, the new API object, the semaphore and the coordinator's entry made by startup, so everything that holds in all executions of the driver holds; (2) startup does only what its coroutine does on an API object that others use, by the same steps; (3) a connection, a semaphore (with the places for the reported kind of radio) and the coordinator's entry are made exactly when startup makes them; (4) its requests return the answers to them and its waits return the message they wait for, whatever zigpy's calls do.", "quantifier": "every history of the driver before, every interleaving of startup with bytes, calls, time-outs, cancellations and port losses", "why_tests_cant": "interleavings of a coroutine of more than sixty operations with any number of calls, over two connections", "anchors": ["zigpy_cc/zigbee/application.py:ControllerApplication.startup", "zigpy_cc/zigbee/application.py:ControllerApplication.request", "zigpy_cc/api.py:API.request_raw", "zigpy_cc/api.py:API._request_raw", "zigpy_cc/zigbee/start_znp.py:start_znp"]}
{"id": "C94", "title": "Any number of start-ups", "statement": "However often the driver is started, each time with calls, bytes, time-outs, cancellations and port losses at all moments: (1) it is in a state that the driver without startup can reach, so the theorems about all executions of the driver hold; (2) on each connection a request of startup, of a call or of the LED is written only after the one before it has finished; (3) of the calls that take the semaphore of one start-up never more than 16 (product 1) or 2 are past it at once, also after later start-ups; (4) a call that was begun is not lost by later start-ups, and a result once given stays.", "quantifier": "every list of start-ups, each with every interleaving with the rest of the driver", "why_tests_cant": "the number of start-ups is unbounded and calls of one session live on in the next ones", "anchors": ["zigpy_cc/zigbee/application.py:ControllerApplication.reconnect", "zigpy_cc/zigbee/application.py:ControllerApplication.startup", "zigpy_cc/zigbee/application.py:ControllerApplication.request", "zigpy_cc/api.py:API.request_raw"]}
{"id": "C95", "title": "Different requests have different bytes", "statement": "Two requests whose values have the kinds of the fields, and whose lists in the middle have the announced number of elements, become the same frame only if they are the same command with the same value in every field; so no field's bytes can be taken for another's, also if the sizes of data at the end are wrong. In particular messages of the home automation profile with different addresses, endpoints, clusters, transaction numbers, radius or data are written differently.", "quantifier": "every two commands of the table and all payloads", "why_tests_cant": "all pairs of payloads with lists and data of all lengths", "anchors": ["zigpy_cc/zpi_object.py:ZpiObject.from_command", "zigpy_cc/zpi_object.py:ZpiObject.to_unpi_frame", "zigpy_cc/buffalo.py:Buffalo.write_parameter", "zigpy_cc/definition.py:Definition"]}
