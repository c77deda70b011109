{"id": "C01", "title": "Outgoing frames are well formed", "statement": "serialapi.CompileMessage(payload) returns exactly 0x01, a length byte equal to len(payload)+2, 0x00, the payload and one checksum byte such that the XOR of every byte after the 0x01 is 0xFF, for every payload of at most 253 bytes.", "quantifier": "every payload of 0..253 bytes", "why_tests_cant": "the payload space is unbounded in practice; a test samples a handful of payloads", "anchors": ["serialapi/message.go:CompileMessage", "serialapi/message.go:GenerateChecksum"]}
{"id": "C02", "title": "Decode accepts a frame only when length and checksum agree", "statement": "If serialapi.Decode reports a frame of l>1 bytes that fits the buffer, then the buffer starts with 0x01, l is its second byte plus 2 and the XOR of bytes 1..l-1 is 0xFF; conversely a buffer that starts with such a frame is reported as a frame of that length or the call panics, and is never reported as incomplete or as a checksum error.", "quantifier": "every non-empty byte buffer, of any length and capacity", "why_tests_cant": "acceptance has to be exact over 2^(8n) buffers", "anchors": ["serialapi/message.go:Decode"]}
{"id": "C03", "title": "Any single corrupted byte in a frame body is detected", "statement": "Changing any one byte after the length byte of a valid frame (payload or checksum) to any different value makes Decode return -1 with an error and no message.", "quantifier": "every valid frame, every position after the length byte, every replacement value", "why_tests_cant": "the number of (frame, position, value) triples is not enumerable", "anchors": ["serialapi/message.go:Decode", "serialapi/message.go:GenerateChecksum"]}
{"id": "C04", "title": "An incomplete frame asks for more data and is left alone", "statement": "On any proper prefix of a frame (at least the 0x01) Decode returns a length greater than the buffer, no message and no error, and does not modify the buffer; the length it asks for never exceeds the full frame.", "quantifier": "every frame and every proper non-empty prefix", "why_tests_cant": "depends on every split point of every frame", "anchors": ["serialapi/message.go:Decode"]}
{"id": "C05", "title": "Decode does not modify the caller's buffer", "statement": "Decoding leaves the bytes of the caller's buffer unchanged. (False: the code overwrites the checksum byte of any complete candidate frame with 0x00, even when the checksum is wrong; exactly that one byte changes.)", "quantifier": "every buffer", "why_tests_cant": "aliasing effects depend on slice capacity and are invisible to value-level tests", "anchors": ["serialapi/message.go:Decode"]}
{"id": "C06", "title": "Decode never panics", "statement": "serialapi.Decode returns normally on every non-empty buffer. (False: exact panic conditions are characterised, and absence of panics is proved on complete well-formed messages.)", "quantifier": "every non-empty buffer", "why_tests_cant": "panic freedom quantifies over all inputs", "anchors": ["serialapi/message.go:Decode", "serialapi/message.go:NewMessage", "serialapi/application_command_handler.go:NewApplicationCommandHandler", "serialapi/discovery_nodes.go:NewDiscoverdNodes"]}
{"id": "C07", "title": "Frame extraction is independent of how the bytes are chunked", "statement": "For every sequence of well-formed frames and every way of splitting their concatenation into reads that arrive without a 40 ms gap, the reader extracts exactly those frames, in order, with the same decoded messages, and ends with an empty buffer.", "quantifier": "every list of well-formed frames, every chunking", "why_tests_cant": "the number of chunkings is exponential in the stream length", "anchors": ["connection.go:Connection.Reader", "serialapi/message.go:Decode"]}
{"id": "C08", "title": "Each received frame is acknowledged exactly once", "statement": "The reader writes exactly one 0x06 to the port for each complete frame with a correct checksum and none for control bytes, noise, or incomplete data.", "quantifier": "every byte stream and chunking", "why_tests_cant": "must hold for each stream", "anchors": ["connection.go:Connection.Reader"]}
{"id": "C09", "title": "The reader resynchronises after noise", "statement": "A valid frame that follows arbitrary noise is still extracted. (False in general: a false start byte in the noise makes Decode zero a byte of the good frame; proved for noise without SOF/ACK/NAK/CAN bytes.)", "quantifier": "every noise string followed by every well-formed frame", "why_tests_cant": "needs all noise strings", "anchors": ["connection.go:Connection.Reader", "serialapi/message.go:Decode"]}
{"id": "C10", "title": "The reader always makes progress and its buffer stays bounded", "statement": "Processing one read always terminates, consuming the buffer down to nothing or to an incomplete frame: the bytes kept between reads start with 0x01 and number at most 256, whatever the stream.", "quantifier": "every byte stream and chunking on which the process does not crash", "why_tests_cant": "termination and boundedness are universal claims", "anchors": ["connection.go:Connection.Reader"]}
{"id": "C11", "title": "Stale partial data is discarded after a gap", "statement": "If more than 40 ms pass since the previous read, the left-over bytes have no influence on what is extracted from then on.", "quantifier": "every left-over buffer and every later stream", "why_tests_cant": "independence from a discarded prefix is a universal claim", "anchors": ["connection.go:Connection.Reader"]}
{"id": "C12", "title": "No byte stream from the stick can crash the process", "statement": "Whatever bytes the serial port delivers, in whatever chunks, the reader does not panic. (False: e.g. an ACK coalesced with following bytes, short command frames, oversized node bitmaps; proved for well-formed frames and lone control bytes.)", "quantifier": "every byte stream, chunking and in-flight table", "why_tests_cant": "crash freedom quantifies over all streams", "anchors": ["connection.go:Connection.Reader", "connection.go:sendPackage.Match", "serialapi/message.go:NewMessage"]}
{"id": "C13", "title": "Node protocol info is decoded bit-exactly", "statement": "For every reply of at least six bytes NewGetNodeProtocolInfo returns the listening, routing, beaming, FLiRS, security, version, baud and device-class fields at their documented bit positions, and rejects shorter data.", "quantifier": "every byte string", "why_tests_cant": "2^48 inputs", "anchors": ["serialapi/get_node_protocolinfo.go:NewGetNodeProtocolInfo"]}
{"id": "C14", "title": "Node discovery bitmap is decoded exactly", "statement": "For a bitmap of 6 to 29 bytes node k+1 is reported active iff bit k mod 8 of byte k/8 is set, all other positions of the 232-entry table are inactive; shorter bitmaps are rejected, and bitmaps over 29 bytes crash.", "quantifier": "every bitmap", "why_tests_cant": "2^232 bitmaps", "anchors": ["serialapi/discovery_nodes.go:NewDiscoverdNodes"]}
{"id": "C15", "title": "Report type is determined by command class, command and length", "statement": "reports.New yields a report of the kind fixed by (command class, command, payload length) and an error, with no report, for every other combination.", "quantifier": "every command class byte, command byte and payload", "why_tests_cant": "65536 class/command pairs times unbounded payloads", "anchors": ["commands/reports/report.go:New"]}
{"id": "C16", "title": "Manufacturer ids are decoded losslessly", "statement": "NewManufacturerSpecific accepts exactly six-byte payloads and returns three 4-character lower-case hexadecimal strings that determine the payload (different payloads give different identifications).", "quantifier": "every byte string", "why_tests_cant": "2^48 payloads", "anchors": ["commands/reports/manufacturer_specific.go:NewManufacturerSpecific"]}
{"id": "C17", "title": "Multilevel sensor values are decoded exactly", "statement": "For sizes 1, 2 and 4 the sensor value is the signed big-endian integer divided by 10^precision; truncated payloads are rejected.", "quantifier": "every payload", "why_tests_cant": "2^40 payload values times 8 precisions", "anchors": ["commands/reports/sensor_multi_level.go:NewSensorMultiLevel"]}
{"id": "C18", "title": "Unsupported sensor sizes are rejected", "statement": "A multilevel sensor report with a size other than 1, 2 or 4 yields an error. (False: it yields value 0 with no error.)", "quantifier": "every payload with size 0, 3, 5, 6 or 7", "why_tests_cant": "quantifies over all payloads", "anchors": ["commands/reports/sensor_multi_level.go:NewSensorMultiLevel"]}
{"id": "C19", "title": "Sensor names and units are total and distinguish quantities", "statement": "Every sensor type byte gets a non-empty type name; the 31 documented types get their own distinct names, others 'Unknown (n)', so two reports of different types never write the same node state key.", "quantifier": "all 256 types, 4 scales", "why_tests_cant": "all pairs of reports", "anchors": ["commands/reports/sensor_multi_level.go:NewSensorMultiLevel", "nodes/node.go:ProcessEvent"]}
{"id": "C20", "title": "Switch reports give values within range", "statement": "Every accepted multilevel switch report has levels in 0..100 equal to min(byte,100), binary reports are on exactly for the documented bytes, and byte 0xFE is flagged as unknown where the report has a validity flag.", "quantifier": "every payload", "why_tests_cant": "all payloads of both versions", "anchors": ["commands/reports/switch_multilevel.go", "commands/reports/switch_binary.go"]}
{"id": "C21", "title": "Alarm and endpoint reports are decoded exactly", "statement": "Alarm reports need 2 bytes, expose source, status, sensor type and event only when at least 6 bytes are present (else zero); endpoint reports need 2 bytes and expose dynamic, identical and the count.", "quantifier": "every payload", "why_tests_cant": "all payloads", "anchors": ["commands/reports/alarm.go:NewAlarm", "commands/reports/multi_instance_endpoint.go:NewMultiChannelEndpoints"]}
{"id": "C22", "title": "Z-Wave durations are decoded exactly", "statement": "Duration bytes 0..127 are seconds, 128..253 are 1..126 minutes, 254 and 255 are errors; the decoded duration is strictly increasing within each unit.", "quantifier": "all 256 bytes", "why_tests_cant": "exhaustive, and order facts over all pairs", "anchors": ["commands/duration.go:Duration"]}
{"id": "C23", "title": "Switch commands encode the requested node and value", "statement": "Encoded on/off and level commands are exactly 0x13, node id, 3, class, 1, value, 0x25, where the value is 0xFF/0x00 for binary and the requested level clamped to 0..99 and truncated for multilevel, for every float64 level that is not NaN, including infinities.", "quantifier": "every node id 0..255, every non-NaN float64", "why_tests_cant": "2^64 floats", "anchors": ["commands/SwitchBinary.go", "commands/SwitchMultilevel.go"]}
{"id": "C24", "title": "Endpoint encapsulation is lossless", "statement": "MultiChannelEncap.Encode of a SendData command can be decapsulated to the original command and endpoint, and its length byte grows by 4, for every command of at least 3 bytes; shorter commands panic.", "quantifier": "every command and endpoint id 0..255", "why_tests_cant": "unbounded commands", "anchors": ["commands/MultiChannelEncap.go:Encode"]}
{"id": "C25", "title": "Raw commands declare their length", "statement": "The length byte of a raw SendData command equals the number of bytes that follow it. (False: it is one more than the bytes present.)", "quantifier": "every raw payload", "why_tests_cant": "unbounded payloads", "anchors": ["commands/raw.go:Encode"]}
{"id": "C26", "title": "Controlling a node sends at most one command, of a supported class", "statement": "On/Off on a node send exactly one command: binary switch if the node has that class, else multilevel; Level sends exactly one multilevel command if supported; otherwise nothing is sent. The command carries the node's id.", "quantifier": "every node id and command-class list", "why_tests_cant": "all lists of classes", "anchors": ["nodes/commands.go:On", "nodes/commands.go:Off", "nodes/commands.go:Level", "nodes/node.go:HasCommand"]}
{"id": "C27", "title": "Endpoint lookup returns the requested endpoint or nil", "statement": "Node.Endpoint(id) returns the endpoint whose id is id, or nil. (False: Endpoint(k) is the endpoint with Id k+1, and id = number of endpoints or a negative id panics.)", "quantifier": "every endpoint count and id", "why_tests_cant": "all ids and counts", "anchors": ["nodes/endpoints.go:Endpoint", "nodes/request_endpoints.go:RequestEndpoints"]}
{"id": "C28", "title": "Endpoint commands are the node command in an encapsulation", "statement": "Endpoint On/Off/Level send exactly the encapsulation, for that endpoint, of what the node's own On/Off/Level would send, or nothing when the node would send nothing.", "quantifier": "every node, endpoint and level", "why_tests_cant": "all nodes/endpoints/levels", "anchors": ["nodes/endpoints.go:On", "nodes/endpoints.go:Off", "nodes/endpoints.go:Level", "nodes/endpoints.go:Write"]}
{"id": "C29", "title": "A reply is matched only to a request it answers", "statement": "If a received frame completes a request then the frame's function is the request's function (or a command-handler report for a SendData request), and for every request other than protocol-info the frame agrees with the request on node, command class and expected report wherever the request specifies them (non-zero).", "quantifier": "every request and every received buffer", "why_tests_cant": "all pairs of requests and frames", "anchors": ["connection.go:sendPackage.Match", "connection.go:newSendPackage", "connection.go:MatchByteAt"]}
{"id": "C30", "title": "A proper reply is always matched", "statement": "A well-formed command-handler report from the addressed node, of the requested class and expected report, matches the SendData request; a well-formed protocol-info or discovery reply matches its request.", "quantifier": "every request issued by the library and every such reply", "why_tests_cant": "all requests and replies", "anchors": ["connection.go:sendPackage.Match", "nodes/manufacurer_specific.go", "nodes/request_endpoints.go", "nodes/protocol_info.go", "controller.go:getNodes"]}
{"id": "C31", "title": "Matching never crashes", "statement": "Match and MatchByteAt return normally for every received frame. (False: MatchByteAt indexes one past the end when the length equals the position, and the log line of a failed match indexes past the end; proved safe for buffers of at least 9 bytes.)", "quantifier": "every request and buffer", "why_tests_cant": "all buffers", "anchors": ["connection.go:MatchByteAt", "connection.go:sendPackage.Match"]}
{"id": "C32", "title": "A protocol-info reply reaches only the node that was asked", "statement": "A protocol-info reply completes only the request it answers. (False: it completes every outstanding protocol-info request, whatever its node; proved when at most one is outstanding.)", "quantifier": "every in-flight table and reply", "why_tests_cant": "all tables", "anchors": ["connection.go:sendPackage.Match", "connection.go:Connection.Reader"]}
{"id": "C33", "title": "A request gets at most one reply and its channel is closed at most once", "statement": "In every execution, the channel returned for a request yields at most one message, is never closed twice and never written after being closed, so no channel panic occurs.", "quantifier": "every interleaving of callers, writers, the reader, timeout workers and resend goroutines, over unbounded histories and reconnects", "why_tests_cant": "interleavings are unbounded", "anchors": ["connection.go:sendPackage.Close", "connection.go:Connection.Reader", "connection.go:timeoutWorker", "connection.go:Writer"]}
{"id": "C34", "title": "A delivered reply matches its request", "statement": "In every execution each message delivered to a requester was decoded from a received buffer that matches that very request.", "quantifier": "every interleaving and byte stream", "why_tests_cant": "unbounded interleavings", "anchors": ["connection.go:Connection.Reader", "connection.go:sendPackage.Match"]}
{"id": "C35", "title": "A transmitted request with a timeout always has a way to complete", "statement": "In every reachable state, a request that is still open is either still waiting to be transmitted, or is in flight with a timeout worker pending (if its timeout is non-zero); when that worker fires the request is closed and out of the table.", "quantifier": "every interleaving", "why_tests_cant": "reachability over unbounded histories", "anchors": ["connection.go:Writer", "connection.go:timeoutWorker"]}
{"id": "C36", "title": "Commands are transmitted one at a time", "statement": "A new command is not written to the port before the previous one was acknowledged (or its one-second send timeout expired). (Proved until the first reconnect; false afterwards because the old writer keeps running.)", "quantifier": "every interleaving", "why_tests_cant": "unbounded interleavings", "anchors": ["connection.go:Writer", "connection.go:Connect"]}
{"id": "C37", "title": "NAK fails only the outstanding command", "statement": "A NAK from the stick removes exactly the outstanding command from the table and closes its channel without a message; every other request keeps its state.", "quantifier": "every state and interleaving", "why_tests_cant": "all tables", "anchors": ["connection.go:Connection.Reader"]}
{"id": "C38", "title": "A cancelled command is retransmitted", "statement": "After CAN the cancelled command is queued for retransmission. (With Go's pre-1.22 loop variables the command queued is the last one visited in the table; proved under per-iteration loop variables and when it is the only one in flight.)", "quantifier": "every table, iteration order and interleaving", "why_tests_cant": "map iteration order is random", "anchors": ["connection.go:Connection.Reader"]}
{"id": "C39", "title": "Completed requests leave the in-flight table; the table stays bounded", "statement": "A request that completed by reply, NAK or timeout is not in the table unless it was resent after CAN. The table is bounded. (The bound is false: fire-and-forget writes stay until a matching frame arrives; growth by any number is exhibited.)", "quantifier": "every history", "why_tests_cant": "unbounded histories", "anchors": ["connection.go:Writer", "connection.go:Connection.Reader"]}
{"id": "C40", "title": "A reply completes exactly one request", "statement": "Each received frame completes at most one request. (False: it completes every matching request; exact set characterised.)", "quantifier": "every table and frame", "why_tests_cant": "all tables", "anchors": ["connection.go:Connection.Reader"]}
{"id": "C41", "title": "A caller waiting for a reply is always released", "statement": "WriteWithTimeout and WriteAndWaitForReport give the caller a channel that is eventually readable. (False: a caller that is descheduled after handing over the request can read a nil channel and block for ever; proved for callers that obtained the channel.)", "quantifier": "every schedule", "why_tests_cant": "needs an adversarial schedule", "anchors": ["connection.go:WriteWithTimeout", "connection.go:WriteAndWaitForReport"]}
{"id": "C42", "title": "Commands reach the wire unchanged and as often as asked", "statement": "Every frame handed to the port by the writer is the compiled form of a submitted request; each submission is handed over at most once plus once per CAN-triggered resend.", "quantifier": "every interleaving", "why_tests_cant": "unbounded histories", "anchors": ["connection.go:Writer", "connection.go:Connection.Reader"]}
{"id": "C43", "title": "Event queue never blocks, keeps order and at most ten events", "statement": "Pushing an event never blocks; events are read in the order pushed, without duplication; an event is lost only when ten are already waiting.", "quantifier": "every history of pushes and reads", "why_tests_cant": "unbounded histories", "anchors": ["controller.go:pushEvent", "controller.go:GetNextEvent"]}
{"id": "C44", "title": "Discovery registers exactly the active nodes", "statement": "After a discovery reply the known nodes are the previously known ones, unchanged, plus a fresh node for each active id other than the controller's id 1; each fresh node is announced once, before others of higher id.", "quantifier": "every bitmap and prior node list", "why_tests_cant": "2^232 bitmaps", "anchors": ["controller.go:getNodes", "controller.go:initNode"]}
{"id": "C45", "title": "A report changes only the node it came from", "statement": "Delivering a report with node id i changes only the state of node i, and nothing at all when i is unknown.", "quantifier": "every node list, id and report", "why_tests_cant": "all lists and reports", "anchors": ["controller.go:DeliverReportToNode", "nodes/node.go:ProcessEvent"]}
{"id": "C46", "title": "Reports from one node are applied in arrival order", "statement": "The node state reflects the last report received. (False: each report is delivered by its own goroutine; proved for in-order schedules, counterexample otherwise.)", "quantifier": "every schedule", "why_tests_cant": "schedule dependent", "anchors": ["connection.go:Connection.Reader", "controller.go:DeliverReportToNode"]}
{"id": "C47", "title": "Node updates are eventually saved", "statement": "After any node update, if no further update arrives for 10 s the configuration is saved, and no save happens without a preceding update; a save happens at the first 10 s quiet period. (A stream of updates less than 10 s apart postpones the save for ever.)", "quantifier": "every sequence of update times", "why_tests_cant": "unbounded timed histories", "anchors": ["controller.go:saveDebouncer", "controller.go:pushEvent"]}
{"id": "C48", "title": "Saving and loading preserves the nodes", "statement": "Loading what was saved restores every node with its id, identification, command classes, endpoints and states; runtime-only fields are reset.", "quantifier": "every node list built through the API", "why_tests_cant": "all node lists", "anchors": ["controller.go:SaveConfigurationToFile", "controller.go:LoadConfigurationFromFile", "nodes/list.go:MarshalJSON", "nodes/list.go:UnmarshalJSON"]}
{"id": "C49", "title": "A crash while saving never loses the configuration", "statement": "After a crash at any point of a save, the file holds the old or the new configuration. (False: the file is truncated first; exact set of post-crash contents characterised.)", "quantifier": "every crash point", "why_tests_cant": "crash points are not reachable from tests", "anchors": ["controller.go:SaveConfigurationToFile"]}
{"id": "C50", "title": "A failed load changes nothing", "statement": "If the configuration file is missing or does not parse, LoadConfigurationFromFile returns an error and leaves nodes and events unchanged.", "quantifier": "every file content", "why_tests_cant": "all file contents", "anchors": ["controller.go:LoadConfigurationFromFile"]}
{"id": "C51", "title": "The node list is a map keyed by node id", "statement": "After any sequence of Add, Get(i) returns the last added node with id i, or nil; All contains exactly those; every stored node is stored under its own id.", "quantifier": "every sequence of adds", "why_tests_cant": "unbounded sequences", "anchors": ["nodes/list.go:Add", "nodes/list.go:Get", "nodes/list.go:All"]}
{"id": "C52", "title": "Node state is a fold of the reports", "statement": "After any sequence of switch, level and sensor reports, each state key holds the value of the last report that concerns it, and keys no report concerns keep their value; each such report emits exactly one update event.", "quantifier": "every sequence of reports", "why_tests_cant": "unbounded sequences", "anchors": ["nodes/node.go:ProcessEvent"]}
{"id": "C53", "title": "An alarm is raised and then cleared", "statement": "After an active alarm report the node shows alarm=true with the alarm type, and once its one-second pulse ends, alarm=false and type 0; the last type is remembered. Alarms with other status change nothing.", "quantifier": "every interleaving of alarm pulses and other reports on the node", "why_tests_cant": "interleavings", "anchors": ["nodes/node.go:ProcessEvent"]}
{"id": "C54", "title": "Unknown switch values do not change the node state", "statement": "A switch report that says 'unknown' (0xFE) leaves on/level unchanged. (False: it sets on/level.)", "quantifier": "every node state", "why_tests_cant": "all states", "anchors": ["nodes/node.go:ProcessEvent"]}
{"id": "C55", "title": "Identification completes only with full information", "statement": "Whenever a node is marked identified it has protocol info, manufacturer data, an endpoint list and its states requested; while it is not, Identify keeps going.", "quantifier": "every sequence of replies, failures and wake-ups", "why_tests_cant": "unbounded retries", "anchors": ["nodes/node.go:Identify"]}
{"id": "C56", "title": "An identified node knows the classes of its database entry", "statement": "After identification the node's command classes include the mandatory ones and those of the device database. (False: the loop resets them to the mandatory ones; exactly those remain.)", "quantifier": "every device and reply sequence", "why_tests_cant": "all devices and histories", "anchors": ["nodes/node.go:Identify", "database/devices.go:New", "database/commandclasses.go:GetMandatoryCommandClasses"]}
{"id": "C57", "title": "Identification terminates", "statement": "Identification of a responsive node terminates after a bounded number of requests. (It does when all requests are answered; it never does for a node of a known device class that does not answer the endpoint request.)", "quantifier": "every reply sequence", "why_tests_cant": "infinite retries", "anchors": ["nodes/node.go:Identify", "nodes/request_endpoints.go:RequestEndpoints"]}
{"id": "C58", "title": "Sleeping nodes are contacted only after they wake up", "statement": "For a node that is not listening, each of the manufacturer, endpoint and state requests is sent only after a wake-up report received since the wait began.", "quantifier": "every interleaving of wake-ups and identification steps", "why_tests_cant": "schedules", "anchors": ["nodes/node.go:isAwake", "nodes/node.go:Identify", "nodes/node.go:ProcessEvent"]}
{"id": "C59", "title": "Endpoints are created for every reported endpoint", "statement": "After an endpoint report with count k the node has k endpoints with ids 1..k. (False: it has k-1.)", "quantifier": "every count", "why_tests_cant": "all counts", "anchors": ["nodes/request_endpoints.go:RequestEndpoints"]}
{"id": "C60", "title": "Device lookup returns the device with the requested ids", "statement": "database.New returns a device iff the id triple is in the table, and the returned device's ids equal the requested ones up to letter case.", "quantifier": "all id triples", "why_tests_cant": "all string triples", "anchors": ["database/devices.go:New"]}
{"id": "C61", "title": "Mandatory class lookup is deterministic", "statement": "GetMandatoryCommandClasses does not depend on map iteration order and returns the classes of the unique matching definition, or nil.", "quantifier": "all (generic, specific) pairs, all iteration orders", "why_tests_cant": "map iteration order is random", "anchors": ["database/commandclasses.go:GetMandatoryCommandClasses", "database/mandatory.go:definitions"]}
{"id": "C62", "title": "Generated strings read back unchanged", "statement": "The escaping used by the database generator yields the body of a Go string literal that denotes the original text, with no unescaped quote or newline.", "quantifier": "every string", "why_tests_cant": "all strings", "anchors": ["generators/database/database.go:escaper"]}
{"id": "C63", "title": "Serial recordings lose no data when merged", "statement": "Merging recorded rows into groups loses and reorders no bytes per direction. (False for the last group of each direction, which is never printed; exact conservation law proved.)", "quantifier": "every recording", "why_tests_cant": "all recordings", "anchors": ["cmd/serialrecordingtohex/serialrecordingtohex.go:combine"]}
{"id": "C64", "title": "Names of commands and functions are faithful", "statement": "String() of each named command-class or serial function constant is its name, and distinct named values have distinct names. (Command classes: false for eight constants, including Mark.)", "quantifier": "all 256 values of both types", "why_tests_cant": "exhaustive over the table", "anchors": ["commands/constants.go:String", "serialapi/types.go:String"]}
{"id": "C65", "title": "Connect reports the outcome of opening the port", "statement": "ConnectWithCustomPortOpener returns an error iff opening the port failed, and Connection.Connected tells whether the port is open. (Connected can be true while disconnected; characterised.)", "quantifier": "every schedule of open results, read failures and timers", "why_tests_cant": "schedules", "anchors": ["gozwave.go:ConnectWithCustomPortOpener", "connection.go:Connect"]}
{"id": "C66", "title": "Endpoints are linked to their node", "statement": "Every endpoint of a node that is in the node list, whether added by discovery, by endpoint interrogation or by loading a file, refers back to that node, so commands sent through the endpoint reach it.", "quantifier": "all sequences of additions, loads and interrogations", "why_tests_cant": "all operation sequences", "anchors": ["nodes/list.go:Add", "nodes/request_endpoints.go"]}
{"id": "C67", "title": "No fatal concurrent map access", "statement": "Go aborts the process when one goroutine iterates or writes a map while another writes it. No interleaving of the connection's goroutines makes such an access to the in-flight table. (False: the control-byte scan iterates without the lock; proved that this is the only place.)", "quantifier": "every interleaving", "why_tests_cant": "races need a particular schedule", "anchors": ["connection.go:Connection.Reader"]}
{"id": "C68", "title": "Acknowledgements are credited to the command on the wire", "statement": "The ACK, NAK or CAN handed to a waiting writer is handed to the writer of the command that was written last. (True until the first reconnect, false afterwards.)", "quantifier": "every interleaving", "why_tests_cant": "needs particular schedules", "anchors": ["connection.go:Connection.Reader", "connection.go:Connection.Writer"]}
{"id": "C69", "title": "The connection lock is always released", "statement": "Whoever holds the connection lock can release it by its own steps alone, without waiting for a caller, for the stick or for another goroutine.", "quantifier": "every reachable state", "why_tests_cant": "deadlocks depend on the schedule", "anchors": ["connection.go"]}
{"id": "C70", "title": "Reports and identification never crash a node", "statement": "For a node that was created by New (or loaded with its maps) and set up, no interleaving of reports, wake-ups, alarm pulses and identification steps, with any replies, panics. (False for nodes loaded without state maps and for nodes identified before Setup.)", "quantifier": "every interleaving, every reply, every report", "why_tests_cant": "Panics depend on rare interleavings (double close of the wake-up channel) and on node contents; a test exercises a handful.", "anchors": ["nodes/node.go:69-145", "nodes/node.go:153-302"]}
{"id": "C71", "title": "A wake-up report resumes a waiting identification", "statement": "When a sleeping node wakes up while its identification waits for it, the identification goes on. (False when the report is processed between creating and returning the channel: the identification then waits on nil for ever.)", "quantifier": "every interleaving of the wake-up with isAwake", "why_tests_cant": "The losing interleaving has a window of a few instructions.", "anchors": ["nodes/node.go:69-81", "nodes/node.go:108-113"]}
{"id": "C72", "title": "A report is delivered whatever the discovery is doing", "statement": "Delivering a report to a known node never blocks for ever and never crashes because of accesses to the node list. (False: List.Get copies the list with its mutex; a copy made while Add holds the lock stays locked for ever, and a read during the map write is a fatal error. Holds while no node is being added.)", "quantifier": "every interleaving of discovery and deliveries", "why_tests_cant": "needs a schedule inside a critical section", "anchors": ["nodes/list.go:Get", "nodes/list.go:Add", "controller.go:DeliverReportToNode"]}
{"id": "C73", "title": "Saving while reports arrive is safe", "statement": "Reports may arrive while the configuration is being saved without crashing the program. (False: json.Marshal ranges over the state maps without the node's lock. Holds when no file is configured.)", "quantifier": "every interleaving of saver and deliveries", "why_tests_cant": "needs a schedule inside json.Marshal", "anchors": ["controller.go:SaveConfigurationToFile", "nodes/node.go:ProcessEvent"]}
{"id": "C74", "title": "An announced node can be used", "statement": "When the user receives NodeDiscoverd for a node, the node has a connection, so commands can be sent to it. (False: initNode announces before Setup. Holds for nodes from the file and whenever discovery is not in the middle of adding a node.)", "quantifier": "every interleaving of discovery and user", "why_tests_cant": "schedule dependent", "anchors": ["controller.go:initNode", "nodes/node.go:Setup"]}
{"id": "C75", "title": "Each active node is identified once", "statement": "A discovery starts exactly one identification for every active node, known or new, and none for the others; the library never runs two identifications of one node.", "quantifier": "every bitmap, node list and interleaving", "why_tests_cant": "all bitmaps and schedules", "anchors": ["controller.go:getNodes", "nodes/node.go:Identify"]}
{"id": "C76", "title": "The generator reads every announced class line", "statement": "Each line text announced in the comments of StringToByte is mapped to the command class the comment announces. (False: Multichannel Association is read as Association; no line at all yields 0x8e.)", "quantifier": "all lines; all strings for the negative part", "why_tests_cant": "the order of the substring tests matters for every string", "anchors": ["generators/commandclasses/commandclasses.go:StringToByte"]}
{"id": "C77", "title": "The committed mandatory table is what the generator makes of the committed text", "statement": "Running the generator over database/mandatory.txt gives, without panic, exactly the entries of database/mandatory.go.", "quantifier": "the whole table", "why_tests_cant": "the generator is not run by tests, and its output is not compared", "anchors": ["generators/commandclasses/commandclasses.go:main", "database/mandatory.go:definitions", "database/mandatory.txt"]}
{"id": "C78", "title": "The device generator emits each case once", "statement": "Every device reference ends up in the switch exactly once, and no two cases have equal labels. (False for references that differ only in letter case: the generated file does not compile.)", "quantifier": "every list of device references", "why_tests_cant": "all lists of references", "anchors": ["generators/database/database.go:main", "generators/database/database.go:templ"]}
{"id": "C79", "title": "Saving reports failure", "statement": "SaveConfigurationToFile returns an error when the configuration was not written completely. (False: every failure is only logged and nil is returned; a nil result is informative only when nothing failed.)", "quantifier": "every sequence of file system outcomes", "why_tests_cant": "all failure points", "anchors": ["controller.go:SaveConfigurationToFile"]}
{"id": "C80", "title": "No configuration file can crash the program", "statement": "LoadConfigurationFromFile returns (possibly an error) whatever the file contains, and the loaded state does not make later reports or saves panic. (False: exactly characterised which files make it panic; files the program wrote itself are safe.)", "quantifier": "every file content", "why_tests_cant": "all texts", "anchors": ["controller.go:LoadConfigurationFromFile", "nodes/list.go:UnmarshalJSON", "nodes/list.go:Add"]}
{"id": "C81", "title": "Every loaded node is announced", "statement": "Every node loaded from the configuration file is announced on the event queue. (False beyond ten: the announcements of exactly the first ten in iteration order fit the queue, the others are dropped, since nobody can take events yet.)", "quantifier": "every file and every map iteration order", "why_tests_cant": "unbounded number of nodes, iteration order", "anchors": ["controller.go:LoadConfigurationFromFile", "controller.go:pushEvent"]}
{"id": "C82", "title": "Saving what was loaded writes the same file", "statement": "Loading a file written by the program and saving again gives the same bytes, whatever the map iteration order and however often it is repeated.", "quantifier": "every reachable node list, every iteration order", "why_tests_cant": "all states and orders", "anchors": ["controller.go:SaveConfigurationToFile", "controller.go:LoadConfigurationFromFile"]}
{"id": "C83", "title": "Losing the port does not kill the process", "statement": "Whatever the order of read errors, failed and successful attempts to open the port and requests, writing a request never kills the process. (False: after a failed re-open the writer of the previous port writes through a nil interface; characterised exactly.)", "quantifier": "every interleaving and every sequence of Open results", "why_tests_cant": "unbounded interleavings", "anchors": ["connection.go:Connect", "connection.go:Writer"]}
{"id": "C84", "title": "No exchange with the stick kills the process", "statement": "No traffic from the stick and no sequence of requests kills the process. (False: an ACK that is read together with the response after it, an undecodable report, a short frame, a concurrent map access and malformed bytes do; the list of causes is proved complete.)", "quantifier": "every interleaving, every byte stream", "why_tests_cant": "unbounded interleavings and inputs", "anchors": ["connection.go:Reader", "connection.go:WriteAndWaitForReport", "serialapi/message.go:Decode"]}
{"id": "C85", "title": "The connection's reader behaves as the byte-level reader", "statement": "While requests, timeouts and other goroutines interleave with it, the reader handles the bytes of the port exactly as if it ran alone: same frames in the same order, one acknowledgement per frame, and it gets back to reading after every frame.", "quantifier": "every interleaving, every byte stream, every split into reads", "why_tests_cant": "unbounded interleavings and inputs", "anchors": ["connection.go:Reader", "connection.go:Writer"]}
{"id": "C86", "title": "Application commands reach their decoder", "statement": "The command class, command and data of an application command frame select the decoder and are its input, and the report carries the sender's node id. (False for the id: FuncApplicationCommandHandler.Node is never set.)", "quantifier": "every frame", "why_tests_cant": "256^n frames", "anchors": ["serialapi/message.go:Decode", "serialapi/application_command_handler.go"]}
{"id": "C87", "title": "Identification only asks", "statement": "Identifying a node sends queries to that node and nothing else, never a command that changes it; an identified node has been asked for every state its classes have.", "quantifier": "every node, every answer, every interleaving", "why_tests_cant": "unbounded interleavings", "anchors": ["nodes/node.go:Identify", "nodes/request_states.go"]}
{"id": "C88", "title": "Update events say what happened", "statement": "An update event carries the address of the node that changed and is sent for every processed report that carries a state or raises an alarm, once. (False between the addition of a node and its setup.)", "quantifier": "every execution of the controller", "why_tests_cant": "unbounded interleavings", "anchors": ["controller.go:pushEvent", "controller.go:initNode", "nodes/node.go:ProcessEvent"]}
{"id": "C89", "title": "A report on the wire becomes the state of its node", "statement": "Every report frame that reaches the port, however its bytes are split into reads and whatever else the connection does, is handed on exactly once and in order with the sender's id; and when the controller has applied the reports of a listed node and the frames of that node agree about a state, the node shows that state; a state no frame mentions is as it was. (When the frames disagree the last one decides only if reports are delivered one at a time.)", "quantifier": "every interleaving of the connection and of the controller, every byte stream of frames, noise and control bytes, every split into reads", "why_tests_cant": "unbounded interleavings and inputs, across all layers", "anchors": ["connection.go:Reader", "serialapi/message.go:Decode", "commands/reports/report.go:New", "controller.go:ReportCallback", "nodes/node.go:ProcessEvent"]}
{"id": "C90", "title": "A command given to a node reaches the port as exactly the right frame", "statement": "Whatever the port carries for the call node.On, Off or Level is one well-formed frame addressed to that node, with the command class the node supports (binary switch preferred), the command Set and the requested value (0xFF / 99 for on, 0 for off, the level limited to 0..99 without its fraction); whatever else is in flight. While the port is open and the process alive, a command whose caller still waits for the writer can always still reach the port.", "quantifier": "all nodes with an id of one byte, all class lists, all levels, all executions of the connection (any number of callers, reconnects, resends, any bytes read), all states for the last part", "why_tests_cant": "The command code, the framing and the goroutines of the connection are tested apart at most; the claim is about their composition under every interleaving.", "anchors": ["nodes/commands.go:On", "nodes/commands.go:Off", "nodes/commands.go:Level", "connection.go:Write", "connection.go:Writer", "serialapi/message.go:CompileMessage"]}
{"id": "C91", "title": "Commands given in turn reach the wire in turn", "statement": "If the call for a first command has returned before a second command is given, then every transmission of the second is preceded by one of the first, and the device ends up with the second.", "quantifier": "all executions of the connection and all pairs of commands", "why_tests_cant": "Depends on the interleaving of writer goroutines of old and new connections and of resend goroutines.", "anchors": ["connection.go:Write", "connection.go:Writer", "connection.go:Connect", "connection.go:Reader"]}
{"id": "C92", "title": "A recording contains exactly the traffic, in order", "statement": "The rows of a recording made with serialrecorder are the Read and Write calls with direction and exactly the bytes that passed the port: none invented, none twice, none altered, none lost while the process lives, in the order of the calls.", "quantifier": "all sequences of calls, all buffers, all interleavings of the goroutines, all clocks", "why_tests_cant": "Rows are sent by goroutines and refer to the caller's buffers; what is recorded depends on the interleaving. The test waits for a single row.", "anchors": ["serialrecorder/serialrecorder.go:Read", "serialrecorder/serialrecorder.go:Write", "serialrecorder/serialrecorder.go:writeToLog", "serialrecorder/serialrecorder.go:logWriter"]}
{"id": "C93", "title": "A recording can be decoded", "statement": "Whatever a recorder has written can be read back by serialrecordingtohex, also after the port was opened again.", "quantifier": "all executions of the recorder with any number of Open calls", "why_tests_cant": "Needs two Open calls and rows taken by both log writers.", "anchors": ["serialrecorder/serialrecorder.go:Open", "serialrecorder/serialrecorder.go:logWriter", "cmd/serialrecordingtohex/serialrecordingtohex.go:main"]}
{"id": "C94", "title": "Sensor readings survive the conversion to float64", "statement": "The float64 value of a multilevel sensor report identifies the transmitted integer: multiplied by 10^precision it is within 1/2 of that integer and of no other; readings of equal size and precision are ordered as their values and different readings never get the same value.", "quantifier": "every payload of size 1, 2 or 4, every precision, every rounding to nearest (either candidate on ties)", "why_tests_cant": "2^32 readings times 8 precisions, and pairs of them", "anchors": ["commands/reports/sensor_multi_level.go:NewSensorMultiLevel"]}
{"id": "C95", "title": "The web interface of the example controls the node that was named", "statement": "A request /nodes/<id>/<action> is answered with 500 exactly if id is not a decimal integer, with 404 exactly if there is no such node or the action is neither on nor off, and with 200 exactly otherwise; only then a command is given, one, and to the node with that number; the answer 200 means that the node was told. /nodes lists every node once under a key that /nodes/<key> resolves to that node. No handler panics while the controller runs.", "quantifier": "all path texts, all node lists, all executions of the controller between the two lookups of a handler", "why_tests_cant": "All texts, and a lookup is repeated while the list may change.", "anchors": ["zwave-example/example.go:getNodes", "zwave-example/example.go:getNode", "zwave-example/example.go:control"]}
{"id": "C96", "title": "Every request comes to an end if no goroutine is passed over for ever", "statement": "In every infinite execution of the connection in which each goroutine that can move again and again does move again and again: the connection's lock is released again and again; every writer comes back for the next request; every Write returns once the connection was up; every request with a timeout that was handed over is closed; the caller of a request with a timeout is released. (False for a caller that reads the channel field only after its request was closed, and while no connection was ever made; both proved with a fair execution.)", "quantifier": "every infinite fair execution, any number of callers, writers, reconnects, every input from the port", "why_tests_cant": "Inevitability over infinite schedules; a test sees one finite schedule.", "anchors": ["connection.go:Writer", "connection.go:Write", "connection.go:WriteWithTimeout", "connection.go:WriteAndWaitForReport", "connection.go:Reader", "connection.go:timeoutWorker"]}
{"id": "C97", "title": "In a controller every report is applied, every change is saved and every discovery ends, if no goroutine is passed over for ever", "statement": "In every infinite execution of the controller in which the goroutines of the discovery, of the deliveries, of the nodes and of the saver are not passed over for ever and time goes on: a discovery that was begun ends; a report from a node in the list is applied to that node; when updates pause, a save begins after the last of them and is completed. (Updates must pause: with one every nine seconds for ever nothing is ever saved, proved with a fair execution. False for a report or a save that copies the node list while a node is being added: it waits for ever; proved with fair executions. Without a configuration file and after the discovery reports are applied without exception.)", "quantifier": "every infinite fair execution, every list of nodes, any reports and answers", "why_tests_cant": "Inevitability over infinite schedules; a test sees one finite schedule.", "anchors": ["controller.go:getNodes", "controller.go:DeliverReportToNode", "controller.go:saveDebouncer", "connection.go:Reader", "nodes/node.go:ProcessEvent"]}
{"id": "C98", "title": "A node that answers in the end is identified, however many requests are lost", "statement": "In every infinite execution in which Identify is called once, the goroutines of the identification and of the wake-ups are not passed over for ever, and what is asked for again and again (protocol info, manufacturer, endpoints) is answered at least once: the node ends up identified for good. For a listening node nothing more is assumed; a sleeping node has to wake up again and again. (False for a sleeping node whose wake-up report is processed between the creation of the channel and its return: the identification waits on nil for ever; proved with a fair execution. True if that does not happen.)", "quantifier": "every infinite fair execution, any number of lost or wrong answers, any reports in between, every database", "why_tests_cant": "Inevitability over infinite schedules with arbitrarily many losses; a test sees one finite schedule.", "anchors": ["nodes/node.go:Identify", "nodes/node.go:isAwake", "nodes/node.go:ProcessEvent", "nodes/protocol_info.go:RequestProtocolInfo", "nodes/manufacurer_specific.go:RequestManufacturerSpecific", "nodes/request_endpoints.go:RequestEndpoints"]}
{"id": "C99", "title": "What was read from the stick is processed, if no goroutine is passed over for ever", "statement": "In every infinite execution of the connection in which no goroutine is passed over for ever: once requests and repetitions pause (no writer takes one any more), the reader comes back to waiting for bytes, and then every frame that was read has been matched and acknowledged and every report handed to the callback, in the order of the bytes; bytes on which the byte level reader panics end the process. Timeouts, callers and the port may do anything meanwhile.", "quantifier": "every infinite fair execution, any bytes, any number of requests in the table", "why_tests_cant": "Inevitability over infinite schedules of reader, writers, timeouts and callers contending for the lock; a test sees one finite schedule.", "anchors": ["connection.go:Reader", "connection.go:Writer", "connection.go:timeoutWorker", "connection.go:Decode"]}
{"id": "C100", "title": "What a node says on the wire is in the end what it is shown as", "statement": "In every infinite execution of the whole process (connection and controller together) in which no goroutine is passed over for ever: every report of a listed node that the reader decodes after the discovery is applied to that node; and when no more bytes and requests come, every frame that was read is decoded, delivered and applied, so that from some moment on the node shows what its frames say (on/off, level, every sensor key, as long as its frames do not contradict each other). The reports reaching the controller are at every moment exactly those the reader handed out, in order. When Connect returned an error, nothing is ever discovered or saved in that process, whatever the port does later.", "quantifier": "every infinite fair execution of the process, any sessions of well-formed traffic split into any reads, any requests and answers before", "why_tests_cant": "Inevitability across two concurrent subsystems and unboundedly many frames; a test sees one finite schedule of one of them.", "anchors": ["gozwave.go:ConnectWithCustomPortOpener", "connection.go:Reader", "controller.go:DeliverReportToNode", "nodes/node.go:ProcessEvent"]}
{"id": "C101", "title": "The text of a report says what was on the wire", "statement": "Reading the text a report prints of itself gives back the bytes it was decoded from: the six alarm bytes (or type and level for a short alarm), the three manufacturer identifiers, endpoint flags and number, switch state, level or 'unknown', target and duration in seconds, and for sensors the transmitted integer with its decimals, type and unit, exactly, although the report holds a rounded float64. Texts of different command classes are never the same, and two durations print the same exactly if they are the same time. The code breaks this twice: a binary switch in unknown state (0xFE) prints as off, and readings with seven decimals are printed rounded to six.", "quantifier": "every payload of every length, every nearest float64 of every reading", "why_tests_cant": "Injectivity of a text over all payloads, and exactness of decimal printing over 2^32 integers times eight precisions and every rounding.", "anchors": ["commands/reports/alarm.go:String", "commands/reports/manufacturer_specific.go:String", "commands/reports/multi_instance_endpoint.go:String", "commands/reports/switch_binary.go:String", "commands/reports/switch_multilevel.go:String", "commands/reports/sensor_multi_level.go:String", "commands/duration.go:String"]}
{"id": "C102", "title": "What is known about the nodes was said on the wire", "statement": "In every execution of the joined process (requests of the discovery and the identifications go out through the connection, their answers come back through it): every node in the list comes from the configuration file or was named in the bitmap of a discovery reply that was read from the port; the protocol information of every node is from the file or was said, flag by flag, by a protocol info frame that was read; the manufacturer identification is from the file or was said by a report frame sent by that node. Every request on the wire was made by the user, is the discovery request, or is one of the six questions of an identification, addressed to a node from the file or one that the stick has named. The code breaks one thing a user would expect: the protocol information of a node need not be that node's own: two nodes asked at the same time both take the one reply that comes.", "quantifier": "every finite execution of the joined process, every session of well-formed traffic split into any reads, every schedule, any file and device database", "why_tests_cant": "Provenance of every piece of knowledge through matching, timeouts and concurrent requests over all schedules; a test sees one answer at a time.", "anchors": ["controller.go:getNodes", "controller.go:runDiscovery", "nodes/protocol_info.go:RequestProtocolInfo", "nodes/manufacurer_specific.go:RequestManufacturerSpecific", "connection.go:WriteWithTimeout", "connection.go:WriteAndWaitForReport"]}
{"id": "C103", "title": "A node the stick names is in the end identified", "statement": "In every infinite execution of the joined process in which no goroutine is passed over for ever: a discovery that was begun ends, whether the stick answers or not; every node named in the reply it accepts gets into the list and its identification is started; and a node that is always awake, or whose wake-ups keep coming, and that at some time answers what it is asked again and again, is in the end marked as identified and stays so. What C100 says of the states shown carries over. The code breaks this: WriteWithTimeout reads the channel from the package after handing the package to the writer; if the answer is quicker the caller gets a nil channel and the discovery waits for ever although the stick named its nodes.", "quantifier": "every infinite fair execution of the joined process, any traffic, any losses, any file and any device database with bounded classes", "why_tests_cant": "Inevitability through two subsystems with unboundedly many retries and timeouts under every fair schedule.", "anchors": ["controller.go:getNodes", "controller.go:runDiscovery", "nodes/node.go:Identify", "connection.go:WriteWithTimeout", "connection.go:timeoutWorker"]}
{"id": "C104", "title": "An alarm is over in the end", "statement": "In every infinite execution of the controller in which no goroutine is passed over for ever: an alarm that a node raised is taken back, whatever else is reported meanwhile, and at that moment the node shows no alarm and alarm type 0; and if from some moment on no alarm is raised, the node in the end shows none for ever. The code breaks this across a restart: a save that happens during an alarm writes alarm = true into the file, and the program that loads the file shows the alarm for ever, since the goroutine that would end it died with the old program.", "quantifier": "every infinite fair execution, any number of overlapping alarms, any other reports, any file", "why_tests_cant": "Inevitability under every fair schedule with unboundedly many overlapping timers, and a failure that needs a save and a restart in the second of an alarm.", "anchors": ["nodes/node.go:ProcessEvent", "controller.go:SaveConfigurationToFile", "controller.go:LoadConfigurationFromFile"]}
{"id": "C105", "title": "What was learned about a node is final", "statement": "In a running controller the protocol info, the manufacturer, brand, product and description and the endpoints of a node, once known, never change, and nobody asks for them again, whatever is reported and however often. Manufacturer, brand, product, description and the numbers of the endpoints are also the same after the program was stopped and started again with its own file, however often, and a node whose manufacturer and endpoints were in the file is never asked for them.", "quantifier": "every reachable state and every continuation with any number of restarts, any map iteration order", "why_tests_cant": "All histories with any number of lives of the program and all interleavings of reports with the identification.", "anchors": ["nodes/node.go:Identify", "nodes/manufacurer_specific.go:RequestManufacturerSpecific", "nodes/request_endpoints.go:RequestEndpoints", "controller.go:LoadConfigurationFromFile"]}
{"id": "C106", "title": "A node that can be switched stays so", "statement": "A command class of a node, once known to the controller, stays known while the program runs, so that what On, Off and Level send for the node does not change: for a class that is mandatory for the kind of node always, and for every class once the node is identified. For the classes taken from the device database it is false: On sends the command as soon as the manufacturer is known, and when the endpoints are known the classes are reset to the mandatory ones, so that On, Off and Level send nothing for ever.", "quantifier": "every device database, every reachable state and every continuation of any length", "why_tests_cant": "All histories of a running controller with any number of nodes, reports and attempts.", "anchors": ["nodes/node.go:Identify", "nodes/node.go:HasCommand", "nodes/node.go:On", "nodes/node.go:Off", "nodes/node.go:Level"]}
{"id": "C107", "title": "The committed device table is what the generator makes of the committed device files", "statement": "Running the generator over the 553 files of database/json gives exactly the cases and constructors of database/devices.go, in order, with brand, product, description, ids and command classes (the parameters, which nothing reads, are not compared); no label appears twice, so the result compiles.", "quantifier": "the committed files, all 553 of them and all 706 cases", "why_tests_cant": "The generator is never run by the tests and its output is not compared with the committed file.", "anchors": ["generators/database/database.go:main", "generators/database/database.go:templ", "database/devices.go:New", "database/json"]}
{"id": "C108", "title": "What the device files list is found", "statement": "For whatever device files the generated New finds a device, asked with lower case ids, exactly for the products the files list, and it is the device of the first file that lists it. For the committed files every product of every file is found from the manufacturer report of some node. False: that the data of every file are used; fibaro_fgwpe_0_0.json and others are never returned by any lookup, and their products come out as other products. A reference with two colons is lost.", "quantifier": "every list of device files of any length and any three ids", "why_tests_cant": "All device databases and all ids.", "anchors": ["generators/database/database.go:main", "generators/database/database.go:UnmarshalJSON", "database/devices.go:New", "nodes/node.go:Identify"]}
{"id": "C109", "title": "A save while nodes change writes nothing that was never so", "statement": "A save that runs while nodes are being identified writes for each node and each of its fields (manufacturer, brand, product, description, endpoints) what it was when the save began or what it is when the save ends, and what was known when it began as it is. False: that what it writes is complete. A save in the middle of an identification can write the manufacturer without brand and product, or an unfinished list of endpoints; after a restart from that file these are never asked for again and missing for ever.", "quantifier": "every database and file, every reachable state, every number of steps taken during the save, every moment at which a field is read, also between two assignments of a locked region", "why_tests_cant": "All interleavings of encoding and identification; json.MarshalIndent reads the nodes without their locks.", "anchors": ["controller.go:SaveConfigurationToFile", "nodes/node.go:Identify", "nodes/request_endpoints.go:RequestEndpoints"]}
{"id": "C110", "title": "What is shown of a node is what it said", "statement": "Brand, product and description shown for a node are those of the configuration file, or none, or those of the first committed device file that lists the product which that very node reported on the wire. Its endpoints are those of the file, or none, or that node said on the wire how many there are and they are numbered from 1 (to one less than it said). IsDeviceClass never panics, whatever the node does between its three reads of the protocol information; it says yes for one generic and specific type at most, for ever, and these were said on the wire.", "quantifier": "every database and file, every run of the whole process (connection, controller, nodes) of any length, every byte stream", "why_tests_cant": "All byte streams, interleavings and device databases; the chain goes from the wire over matching, decoding, identification and the generated table to the files it was generated from.", "anchors": ["nodes/node.go:Identify", "nodes/node.go:IsDeviceClass", "nodes/protocol_info.go:ProtocolInfo", "nodes/request_endpoints.go:RequestEndpoints", "database/devices.go:New", "connection.go:WriteAndWaitForReport"]}
{"id": "C111", "title": "A program that handles the events sees each of them and its node", "statement": "The example program (zwave-example), which receives the events one by one and looks the named node up, handles the accepted events in order, none twice and none skipped; every event names a node of the list, so the program never uses a node that is not there; what it prints is the node that was named. After the discovery every accepted event is handled. False during the discovery: looking up the first node while the second is being added can hang the loop for ever (the list is copied with its locked lock) or end the process (the map is read while it is written).", "quantifier": "every configuration file, every reachable controller, every interleaving of the event loop with all goroutines of the controller, every fair infinite execution", "why_tests_cant": "All interleavings and infinite executions; the copy of the lock must fall between two instructions of Add.", "anchors": ["zwave-example/example.go:main", "controller.go:pushEvent", "nodes/list.go:Get", "nodes/list.go:Add"]}
{"id": "C112", "title": "Requests that read nodes are answered, with the right nodes", "statement": "GET /nodes shows every node that was in the list when the request was made, no node twice, and nothing else; GET /nodes/<id> shows the node with that number, and a node that was in the list is never 'not found'. After the discovery every request is answered unless the process dies, and the only thing that can kill the program is a request that encodes a node while a state of that node is written. False: that no request hangs (during the discovery), that no request kills the process (the list while a node is added; at any time the states of a node that is reporting).", "quantifier": "any number of concurrent requests, every interleaving with the controller, every fair infinite execution", "why_tests_cant": "All interleavings; a fatal concurrent map access needs a particular schedule.", "anchors": ["zwave-example/example.go:getNodes", "zwave-example/example.go:getNode", "nodes/list.go:All", "nodes/list.go:Get"]}
{"id": "C113", "title": "From an alarm frame on the wire to what the node shows in the end", "statement": "In every fair execution of the whole process: once the wire has fallen silent, a listed node shows no alarm in the end and from then on, whatever alarm frames were on the wire and however their deliveries and the goroutines that end the alarms overlap; and if the node sent alarm frames with status 0xFF and all of them name the same type, the node shows this type as the type of the last alarm, in the end and from then on. The code breaks the first part for a node that is loaded from a file that was written during an alarm: it shows the alarm for ever although not a byte is on the wire.", "quantifier": "every infinite fair execution of the process, any byte stream cut into reads in any way, any number of alarms, any file without an alarm in it", "why_tests_cant": "It composes the parser, the controller's goroutines and the timers of arbitrarily many alarms over unbounded executions under every fair schedule.", "anchors": ["nodes/node.go:ProcessEvent", "commands/reports/alarm.go:NewAlarm", "connection.go:Reader", "controller.go:DeliverReportToNode"]}
{"id": "C114", "title": "A command that is given is in the end on the wire", "statement": "In every infinite execution of the connection in which no goroutine is passed over for ever: once the connection was up, every command given to Write is in the end handed to the port; while the port stays open, the frame of exactly the bytes that were given is in the end written to it, so that a request /nodes/<id>/on of the example program ends in the frame that switches that very node on. The code breaks this when the port is lost after Write was called: Write returns as if all were well and the command is never written, not even after the port was opened again.", "quantifier": "every infinite fair execution, any number of other callers, any input from the port, every command", "why_tests_cant": "Inevitability under every fair schedule; the loss needs the port to fail between two lines of the writer.", "anchors": ["connection.go:Write", "connection.go:Writer", "nodes/commands.go:On", "zwave-example/example.go"]}
{"id": "C115", "title": "A sleeping node is left alone until it wakes up", "statement": "The library contacts a node of its own accord (sends it a request of its identification) only if the configuration file said that the node is awake, or a protocol info reply said that a node is always listening, or that node itself has sent a wake-up notification. The code breaks this: every command of the wake-up class counts, so that a report of the wake-up interval makes the library contact a sleeping node.", "quantifier": "every run of the whole process (file, connection, controller, nodes), every arrangement of the bytes on the wire, every node", "why_tests_cant": "A statement about everything that is ever sent, over all interleavings of discovery, identification and arriving reports.", "anchors": ["nodes/node.go:isAwake", "nodes/node.go:Identify", "reports/reports.go:New", "nodes/node.go:ProcessEvent"]}
{"id": "C116", "title": "The states shown are the ones reported by that very node", "statement": "The switch state, level and sensor readings shown of a node are from the file or were sent by that very node in a frame of its own; a sensor reading is the two's complement value of the bytes in that frame with the precision in it, under the documented name of its type. A report of an endpoint (multi channel encapsulation) is never taken for one of its node. The code breaks the rest: the state of an endpoint shown is for ever the one of the file or none, so that what an endpoint reports is shown nowhere; and a sensor report with a size that does not exist is shown as 0.", "quantifier": "every run of the whole process, every node and key except the alarm keys (C53, C113), every arrangement of the bytes on the wire", "why_tests_cant": "Attribution to a sender has to hold over all interleavings of frames, deliveries and identifications.", "anchors": ["nodes/node.go:ProcessEvent", "nodes/endpoints.go", "nodes/request_endpoints.go", "reports/sensor_multi_level.go", "connection.go:Reader"]}
{"id": "C117", "title": "Over any number of restarts, what is shown of a node was said on the wire", "statement": "Take a program that starts without a file and is then stopped, killed (also in the middle of a save) and started again any number of times, saving and loading its own file. In every life, every node shown was named by a discovery reply (of this or an earlier life), has an id from 2 to 232, and its switch state, level, sensor readings, alarm, product and endpoints are ones which that very node has sent in this or an earlier life; a node is contacted unasked only if it has sent something of the wake-up class, or a protocol info reply has said that a node is listening. What a completed save wrote is what the next life begins with, and neither loading nor saving ever panics. The code breaks the parts named in C18, C72 and C115: sensor values of a size that does not exist, the concurrent use of maps, and the node a protocol info reply is about.", "quantifier": "any number of lives, saves and restarts; every run of the whole process in each of them; every point at which a save is cut off; every arrangement of the bytes on the wire", "why_tests_cant": "An unbounded history of crashes and restarts; every path of a value from a frame through a node, a file, and another life has to be covered.", "anchors": ["controller.go:SaveConfigurationToFile", "controller.go:LoadConfigurationFromFile", "gozwave.go:Connect", "nodes/node.go:ProcessEvent", "nodes/node.go:Identify"]}
{"id": "C118", "title": "What the library asks is in the end on the wire", "statement": "In a process in which nobody is passed over for ever and reading from the port does not fail, every request the library itself makes is in the end written to the port in a proper frame, or the process dies: the request for the list of nodes once the discovery has begun, and every request an identification makes. In particular an identified node that has the binary switch, multilevel switch or multilevel sensor class is asked for the state of that class: the frame with the get command of that class, addressed to that very node, is on the wire in the end. If reading fails, a request is still in the end handed to the port, but the port may be closed then: the code does not repeat it, and the discovery can end although the stick was never asked.", "quantifier": "every fair execution of the whole process, any number of nodes, requests, other traffic and errors of the peer; every request", "why_tests_cant": "The claim is about every schedule of writers, timers, the reader, the discovery and the identifications, and about what happens in the end.", "anchors": ["controller.go:getNodes", "nodes/node.go:Identify", "nodes/request_states.go:RequestStates", "connection.go:Writer", "connection.go:WriteWithTimeout", "connection.go:WriteAndWaitForReport", "connection.go:Write"]}
{"id": "C119", "title": "The goroutines of a connection do not race on its variables", "statement": "In no interleaving of callers, writers, timeout workers, resend goroutines and the reader are two goroutines about to access the same shared variable of the connection (in-flight table, last command, port, channel of a request, captured loop variable), at least one writing, without being ordered by the connection's lock or by a channel. (False; exactly these pairs race: the loop over the table when a control byte arrives, against entering and removing requests; the writer forgetting its command, against the reader's comparison and other writers; opening the port again, against a writer left from before; a caller fetching its reply channel, against closing it; before Go 1.22 the captured loop variable. Everything under the lock is ordered.)", "quantifier": "every interleaving of any number of requests, goroutines and reconnects, both loop variable semantics", "why_tests_cant": "data races depend on the schedule; a race detector reports only those of the runs it sees, and never their absence", "anchors": ["connection.go:90", "connection.go:103", "connection.go:122", "connection.go:146-181", "connection.go:213-238", "connection.go:253-271", "connection.go:342-354"]}
{"id": "C120", "title": "The goroutines that use a node do not race on its fields", "statement": "While the library runs, discovery, report delivery, identification, wake-up and alarm handling, saving and users' commands may use a node at the same time, and no field of the node is written by one goroutine while another accesses it without both holding the node's lock. (False: the file is written from the fields without the lock; Setup writes connection and pushEventFunc without the lock when the node is already in the list; HasCommand reads the command classes without the lock; isAwake makes, reads and a wake-up clears the channel without a common lock. These are all the races: state reports and identification never race with each other, and after identification only saving races.)", "quantifier": "every file loaded at start, every interleaving of the goroutines, any number of nodes, reports, alarms, wake-ups, discoveries and user commands; every pair of goroutines and every field of every node", "why_tests_cant": "A race detector reports only the pairs of accesses that a test run happens to make close together; that no other pair is unordered, in any interleaving, with any number of goroutines, cannot be tested.", "anchors": ["nodes/node.go:30", "nodes/node.go:64", "nodes/node.go:69", "nodes/node.go:83", "nodes/node.go:153", "nodes/node.go:308", "controller.go:80", "controller.go:137", "controller.go:150"]}
{"id": "C121", "title": "What is known about the nodes is in the end in the file", "statement": "With a configuration file, after the discovery, once nodes push no more updates: the file in the end says, and goes on saying, what the controller knows about every node, and a restart finds all of it again. (False for what the identification finds out without pushing an update: the command classes of a node that then sleeps, and the endpoints until the identification goes on. Holds for everything else: whatever is saved and changed elsewhere pushes an update, and a save after the last update takes every node as it is.)", "quantifier": "every fair execution, every file at the start, any number of nodes, reports, updates and saves, every device database", "why_tests_cant": "The file lags behind a debounced, restarting timer and a save that runs beside the reports; that every change is in the file in the end is a liveness statement about infinite executions.", "anchors": ["controller.go:91-117", "controller.go:134-157", "nodes/node.go:153-302", "nodes/request_endpoints.go:20", "nodes/list.go:73"]}
{"id": "C122", "title": "What a node said on the wire outlives the program", "statement": "With a configuration file, once the nodes are discovered and identified and the wire has fallen silent: the file says in the end, and goes on saying, what the controller knows about every node; so if the frames of a node that say whether it is on (its level, another state, the type of its last alarm) agree, every restart shows exactly that before anything is read from the wire, and no restart revives an alarm. The states are in the end in the file also while nodes are still being identified, as those are for ever that never wake up. Between the last frame and the save, all of it happens without the help of anything outside. (Except if the process crashes by C73, or the saver is stuck by C47.)", "quantifier": "every fair execution of the whole process, every sequence of sessions and bursts of good frames, any number of nodes, reports and alarms, every order in which Go ranges over maps at the restart", "why_tests_cant": "It joins the reader, the delivery goroutines, the alarm timers, the debounced save, the encoder and the decoder, each with its own goroutine; that the chain ends, with every restart of the save timer and every alarm still to be cleared, is a termination argument about unbounded executions.", "anchors": ["connection.go:150-280", "gozwave.go:45-51", "controller.go:91-157", "nodes/node.go:84-150", "nodes/list.go:60-100"]}
{"id": "C123", "title": "With an unchanged network the discovery disturbs nothing: no report and no save is lost, from the first frame on", "statement": "If the configuration file holds every node the stick reports, then in every execution the node list stays that of the file, nobody ever waits for its lock or writes its map, no delivery and no save gets stuck, and the program dies only in a save that meets a report of the node being written (without a file to write: never). Every report of a node in the file is applied, whether it comes before, during or after the discovery; changes are saved when updates pause; and in the end a node shows what its frames on the wire said, counted from the first frame on, and if the identifications have come to an end shows it again after a restart. What is saved after a discovery is such a file: every node the stick reported is in it. (With one node that is not in the file this is false, proved with a fair execution.)", "quantifier": "all files, all replies whose nodes are in the file, all reports, all schedules; infinite fair executions for what is inevitable", "why_tests_cant": "A test runs one discovery with reports at chosen moments; the claim is about every moment of every discovery.", "anchors": ["controller.go:getNodes", "controller.go:initNode", "controller.go:DeliverReportToNode", "nodes/list.go:Get", "nodes/list.go:Add", "controller.go:saveDebouncer"]}
