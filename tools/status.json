{
 "C01": [
  "proved",
  "Exact layout of compiled messages for every payload up to 252 bytes; behaviour of longer payloads (length byte wraps) characterised."
 ],
 "C02": [
  "proved",
  "Decode reports a complete frame exactly for buffers that start with a frame with correct length and checksum."
 ],
 "C03": [
  "proved",
  "Any single corrupted byte after the start and length bytes is detected."
 ],
 "C04": [
  "proved",
  "Incomplete frames ask for more data and leave the buffer unchanged."
 ],
 "C05": [
  "partial",
  "Violated by the code: the checksum byte of the caller's buffer is overwritten (C05_violated_buffer_changed). Proved instead: exactly that byte is the only one that may change."
 ],
 "C06": [
  "partial",
  "Violated by the code (C06_violated_panics). Proved instead: the exact set of buffers on which Decode panics, and absence of panics on sane frames and junk."
 ],
 "C07": [
  "proved",
  "For every burst of good frames, noise and a final control byte, every chunking and every capacity; also whole sessions of bursts."
 ],
 "C08": [
  "proved",
  "For every byte stream and chunking."
 ],
 "C09": [
  "partial",
  "Violated for noise that contains a start byte (C09_violated_false_start). Proved for noise of any length without start and control bytes."
 ],
 "C10": [
  "proved",
  "Loop termination, shape of the remainder, bound on the buffer for every history of reads."
 ],
 "C100": [
  "proved",
  ""
 ],
 "C101": [
  "partial",
  "unknown binary state (0xFE) prints as off and readings with seven decimals are printed rounded (both proved); everything else reads back exactly"
 ],
 "C102": [
  "partial",
  "Exact for nodes, protocol information, manufacturer and requests; violated: one protocol info reply is taken as the answer for two nodes."
 ],
 "C103": [
  "partial",
  "Proved except for goroutines that read the channel from the package late (nil channel); that gap is a proved counterexample."
 ],
 "C104": [
  "partial",
  "false across a restart (C104_violated_restart); proved for nodes that were not loaded with a raised alarm"
 ],
 "C105": [
  "proved",
  ""
 ],
 "C106": [
  "partial",
  "A class mandatory for the kind of node, once known, stays known (C106_mandatory_stays); an identified node takes the same commands for ever (C106_identified_fixed). False for the classes of the device database before the end of the identification (C106_violated_switch_lost)."
 ],
 "C107": [
  "proved",
  ""
 ],
 "C108": [
  "partial",
  "Found exactly if listed, first file wins (C108_found_iff_listed, C108_first_file). False that the data of every file are used (C108_violated_file_lost)."
 ],
 "C109": [
  "partial",
  "Every field written is old or new, what was known is written as it is: proved. Completeness is false: a save during an identification can lose brand and product or endpoints for ever (C109_violated_brand_lost, C109_violated_endpoints_lost)."
 ],
 "C11": [
  "proved",
  "For every leftover, read and continuation."
 ],
 "C110": [
  "proved",
  "For every run of the whole process: product data, endpoints and device class are from the file or from the wire, with the committed device files by C107 and C108."
 ],
 "C111": [
  "partial",
  "After the discovery; false during it (C111_violated_hangs, C111_violated_map_race)."
 ],
 "C112": [
  "partial",
  "Contents proved; answered after the discovery; false during it and for nodes that report while they are shown."
 ],
 "C113": [
  "partial",
  "a node loaded from a file that was written during an alarm shows it for ever (C113_violated_restart)"
 ],
 "C114": [
  "partial",
  "a port that is lost between the call and the write loses the command for ever, although Write returned (C114_violated_lost)"
 ],
 "C115": [
  "partial",
  "any command of the wake-up class counts as a wake-up (C115_violated_interval); the protocol info reply need not be this node's (C102)"
 ],
 "C116": [
  "partial",
  "endpoint reports are shown nowhere (C116_violated_endpoint); sensor reports with impossible sizes are shown as 0 (C18)"
 ],
 "C117": [
  "partial",
  "proved over any number of lives; missing because false: sensor reports of sizes that do not exist (C18), map races (C72, C73), the node a protocol info reply is about (C102, C115)"
 ],
 "C118": [
  "proved",
  "For every fair execution; for the frame on the wire reading from the port must not fail, which is part of the claim and shown to be needed (C118_port_needed). Without that: C118_attempted."
 ],
 "C119": [
  "partial",
  "false: five pairs of accesses race; the exact list is proved to be complete, and each pair occurs"
 ],
 "C12": [
  "partial",
  "Violated by the code (C12_violated_bytes_crash). Proved for sessions of good bursts."
 ],
 "C120": [
  "partial",
  "false: saving, Setup of a listed node, HasCommand and isAwake race (violated_*); these are all the races (C120_only_races_partial)"
 ],
 "C121": [
  "partial",
  "Violated for the command classes of a sleeping node (C121_violated_stale); otherwise, after the last update, the file says in the end what is known (also after a restart), unless the program crashes or the saver got stuck."
 ],
 "C122": [
  "partial",
  "on fair executions of the whole process; exceptions: a crash (C73), a stuck saver (C47); while nodes are identified for the states only (C121)"
 ],
 "C123": [
  "proved",
  "Holds as stated; the hypothesis (an unchanged network) is part of the claim, C123_violated_new_node shows that it cannot be dropped"
 ],
 "C13": [
  "proved",
  "Every field at its bit position for every payload, also through the whole decoder."
 ],
 "C14": [
  "proved",
  "Exact bitmap semantics, rejection and panic ranges, also through the whole decoder."
 ],
 "C15": [
  "proved",
  "Equivalence with an independent (class, command, length) table."
 ],
 "C16": [
  "proved",
  "Length, digit alphabet, value, injectivity."
 ],
 "C17": [
  "proved",
  "Two's complement value over 10^precision for every payload; exact rationals (float rounding not modelled)."
 ],
 "C18": [
  "partial",
  "Violated by the code (C18_violated_size3). Proved instead: what happens for every unsupported size."
 ],
 "C19": [
  "proved",
  "Names, distinctness over all 256 types, disjointness of state keys."
 ],
 "C20": [
  "proved",
  "All switch reports."
 ],
 "C21": [
  "proved",
  "Alarm and endpoint reports."
 ],
 "C22": [
  "proved",
  "All 256 bytes; monotonicity."
 ],
 "C23": [
  "proved",
  "Every finite level, infinities; NaN shown to be implementation-defined."
 ],
 "C24": [
  "proved",
  "Losslessness, injectivity, length, panic range."
 ],
 "C25": [
  "partial",
  "Violated for every raw command (C25_violated_length). Proved instead: the exact encoding."
 ],
 "C26": [
  "proved",
  "On, Off, Level for every node."
 ],
 "C27": [
  "partial",
  "Violated by the code (C27_violated_offset). Proved instead: the exact lookup behaviour."
 ],
 "C28": [
  "proved",
  "For every endpoint linked to its node; linkage is C66."
 ],
 "C29": [
  "partial",
  "Proved on buffer positions for every buffer, and as an equivalence for every frame that carries a command. Violated for shorter frames followed by stray bytes (C29_violated_short_frame)."
 ],
 "C30": [
  "proved",
  "Reports, protocol info and discovery replies."
 ],
 "C31": [
  "partial",
  "Violated by the code (C31_violated). Proved for buffers of at least nine bytes and for unaddressed requests."
 ],
 "C32": [
  "partial",
  "Violated by the code (C32_violated). Proved with a single protocol-info request outstanding."
 ],
 "C33": [
  "proved",
  ""
 ],
 "C34": [
  "proved",
  ""
 ],
 "C35": [
  "proved",
  "Every open request has a live timeout worker or a writer about to start one; firing it closes the channel."
 ],
 "C36": [
  "partial",
  "Proved until the first reconnect and per writer always; after a reconnect two writers exist and C36_violated_after_reconnect exhibits two unacknowledged commands."
 ],
 "C37": [
  "proved",
  "Effect of a NAK for every table and iteration order with the reader running alone; safety for every interleaving; the reader can always finish the scan."
 ],
 "C38": [
  "partial",
  "Proved for per-iteration loop variables and, with shared loop variables, when the scan visited only the cancelled command; C38_violated_shared_variable otherwise."
 ],
 "C39": [
  "partial",
  "Holds for every request that was not retransmitted; C39_violated_resend and C39_violated_unbounded are the exceptions."
 ],
 "C40": [
  "partial",
  "False as stated: one frame completes every matching request (C40_violated). The exact set of completed requests is proved."
 ],
 "C41": [
  "partial",
  "A caller can always be released by the timeout of its request unless the process crashed; C41_violated is the crash."
 ],
 "C42": [
  "proved",
  "Every frame on the wire is the frame of a submitted request, and counts are conserved."
 ],
 "C43": [
  "proved",
  "Fifo refinement of the queue, order law, capacity, and independence of progress from the queue, for all runs of the controller machine"
 ],
 "C44": [
  "proved",
  "all bitmaps and prior lists: kept, registered, announced once in id order, untouched, ends"
 ],
 "C45": [
  "proved",
  "only the sender's node changes; unknown ids change nothing; applied at most once; states are those of the node's own reports"
 ],
 "C46": [
  "partial",
  "false in general (counterexample); proved when a report arrives only after earlier deliveries are over"
 ],
 "C47": [
  "partial",
  "cause, quiet period and rest theorems for all runs; false when the saver copies the list during Add (counterexample)"
 ],
 "C48": [
  "proved",
  "Every node list reachable through any number of runs, saves and restarts is restored by loading the saved text (up to the fields that are not saved); proved for every savable list, with a full JSON printer and parser."
 ],
 "C49": [
  "partial",
  "The contents a crash can leave are characterised exactly (old file, or a prefix of the new text, every prefix occurs); C49_violated_crash_loses_both: neither the old nor the new configuration may be recoverable."
 ],
 "C50": [
  "proved",
  "A load that fails changes nothing; missing, blank, non-JSON, non-object and truncated files fail."
 ],
 "C51": [
  "proved",
  "Any sequence of Add of nodes without nil endpoints on an empty or zero list; panics of Add characterised exactly, and after one the list stays locked."
 ],
 "C52": [
  "proved",
  "Node state after any run is the last report per key; one event per state report; reports never blocked or panicking."
 ],
 "C53": [
  "proved",
  "Raise, clear, other statuses, only-during-pulse invariant, last type, pulse can always end."
 ],
 "C54": [
  "partial",
  "False: 0xFE sets on/level for every node (C54_violated_...). Proved: nothing else changes."
 ],
 "C55": [
  "proved",
  "Invariant over all interleavings; goroutine ends only when identified; progress whenever the lock is free."
 ],
 "C56": [
  "partial",
  "False: database classes are dropped by the next loop round. Proved: exactly the mandatory classes remain (one identification)."
 ],
 "C57": [
  "partial",
  "Proved for answering nodes (bounds on steps and requests). False for nodes of a known class that do not answer the endpoint request."
 ],
 "C58": [
  "partial",
  "Proved for one identification per node; counterexample with two concurrent identifications."
 ],
 "C59": [
  "partial",
  "False: endpoint k is missing for every count k >= 1. Proved: exactly 1..k-1, linked."
 ],
 "C60": [
  "proved",
  ""
 ],
 "C61": [
  "proved",
  ""
 ],
 "C62": [
  "partial",
  "False for texts with NUL or a byte order mark, which the compiler rejects (C62_violated_nul); proved for all others."
 ],
 "C63": [
  "partial",
  "False: the last group of each direction is never printed (C63_violated_last_row), and a clock that steps back reorders groups (C63_violated_clock). Exact output proved for nondecreasing times."
 ],
 "C64": [
  "partial",
  "Proved for serial functions; false for eight command classes (C64_violated_unnamed, C64_violated_mark)."
 ],
 "C65": [
  "partial",
  "Answers are truthful in all runs; error iff the first attempt failed when the call waits in time and timers are not late; otherwise false (lost errors, port kept after an error, Connected while disconnected: C65_violated_*)."
 ],
 "C66": [
  "proved",
  "invariant over discovery, loads and interrogations"
 ],
 "C67": [
  "partial",
  "Only the unlocked iteration of the control byte scan can race; C67_violated exhibits it."
 ],
 "C68": [
  "partial",
  "Acknowledgements credit the command on the wire until the first reconnect; C68_violated_after_reconnect afterwards."
 ],
 "C69": [
  "proved",
  "The holder of the connection lock can release it by its own steps."
 ],
 "C70": [
  "partial",
  "Proved for usable nodes. False for nodes without maps (null in the file) or before Setup."
 ],
 "C71": [
  "partial",
  "Counterexample: lost wake-up. Proved: a wake-up that finds the waiter on its channel releases it."
 ],
 "C72": [
  "partial",
  "false (two counterexamples); proved while no node is being added"
 ],
 "C73": [
  "partial",
  "false (counterexample); proved without a configuration file"
 ],
 "C74": [
  "partial",
  "false (counterexample); proved when discovery is not in the middle of adding the node"
 ],
 "C75": [
  "proved",
  "invariant over all runs; exact count after a discovery"
 ],
 "C76": [
  "partial",
  "False for Multichannel Association (C76_violated_multichannel); proved for all other announced lines."
 ],
 "C77": [
  "proved",
  ""
 ],
 "C78": [
  "partial",
  "False when references differ only in letter case (C78_violated_letter_case)."
 ],
 "C79": [
  "partial",
  "Violated by the code: nil is always returned (C79_violated_failure_not_reported); C79_success_partial says when a save has succeeded."
 ],
 "C80": [
  "partial",
  "Violated by the code: the files that make loading panic are characterised exactly; files the program wrote itself are safe."
 ],
 "C81": [
  "partial",
  "Violated by the code beyond ten nodes; exact contents of the queue proved; up to ten nodes each is announced."
 ],
 "C82": [
  "proved",
  "Save, load, save is the identity on bytes for every reachable list and every iteration order."
 ],
 "C83": [
  "partial",
  "False after a failed re-open (C83_violated); exact condition proved, and safety when no Open fails after a success."
 ],
 "C84": [
  "partial",
  "False (five counterexamples, one of them for every command); the list of causes is complete (C84_crash_causes_partial)."
 ],
 "C85": [
  "proved",
  "Simulation of the byte-level reader inside the concurrent machine; every frame is handled in finitely many reader steps."
 ],
 "C86": [
  "partial",
  "Decoding of class, command and data proved for all frames; false for the node id of the handler, which is never set (C86_violated_handler_node)."
 ],
 "C87": [
  "proved",
  "Queries only, for any number of identifications; completeness with one identification per node (_partial), which holds for every node of a controller (C87_controller_*)."
 ],
 "C88": [
  "partial",
  "False between the addition of a node and its setup (C88_violated_before_setup); otherwise exact, and every update event names the node that changed."
 ],
 "C89": [
  "partial",
  "for disagreeing reports only when they are delivered one at a time (C89_last_bool_partial); other schedules: C46_violated_reordered"
 ],
 "C90": [
  "proved",
  "Frames on the wire for On, Off, Level of nodes and endpoints; every waiting command can still reach the port."
 ],
 "C91": [
  "partial",
  "In turn until the first reconnect (C91_in_turn_partial); false after a reconnect and for repetitions of cancelled commands, with concrete executions."
 ],
 "C92": [
  "partial",
  "Proved when callers do not reuse buffers and (completeness, order) for one Open; order and reused buffers violated with concrete executions."
 ],
 "C93": [
  "partial",
  "Exactly when a recording decodes; violated after a second Open, permanently."
 ],
 "C94": [
  "proved",
  "For every rounding to nearest; that Go's division of exact operands is such a rounding is IEEE 754, trusted."
 ],
 "C95": [
  "partial",
  "Everything but 'the answer 200 means that the node was told', which is refuted for nodes that are no switches (C95_violated_silent)."
 ],
 "C96": [
  "partial",
  "Violated: a caller that reads the channel field after its request was closed waits for ever in a fair execution, and so does every caller before the first connection (C96_violated_*). Everything else of the claim is proved for every fair execution."
 ],
 "C97": [
  "partial",
  "Violated: a delivery or save that copies the node list while a node is being added waits for ever in a fair execution (C97_violated_*). Proved: the discovery ends; reports are applied (without exception after the discovery and without a file); changes are saved when updates pause, unless the saver got stuck or the program died."
 ],
 "C98": [
  "partial",
  "Violated: a sleeping node whose wake-up report is processed between the creation of the channel and its return is never identified in a fair execution (C98_violated_lost_wakeup). Proved: listening nodes and sleeping nodes without that race are identified; in general the only other outcome is the wait on nil."
 ],
 "C99": [
  "proved",
  "For every fair execution in which requests and repetitions pause; the pause is part of the claim."
 ]
}