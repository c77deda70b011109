{
 "S9": {
  "claim": "C14: node id of discovery replies"
 },
 "S17": {
  "note": "equivalent change: the byte at index 3 is read first, so the panic is the same; the lemmas failed, the claim is not false"
 },
 "S18": {
  "claim": "C86: the handler's Node field is never assigned",
  "tightened": [
   "C86_violated_handler_node"
  ],
  "note": "survived at first; the theorem was added afterwards and fails on this edit"
 },
 "Y10": {
  "claim": "C87: state query sets the switch instead of asking"
 },
 "D4": {
  "note": "the edited definition does not compile (structural recursion), so nothing was tested; replaced by D4b"
 },
 "W7": {
  "note": "harmless: the second lookup never fails (C95_control_never_panics), so the edit changes no behaviour of the handler; no claim is false after it"
 },
 "P12p": {
  "note": "an example failed, no property theorem: the text differs from Go's %X, but C101 claims that the text is unambiguous, which it still is"
 },
 "U3": {
  "note": "harmless: by C111_never_nil the case never arises; no claim is false after the edit"
 },
 "CS4": {
  "tightened": [
   "C120_violated_kills"
  ],
  "note": "survived at first: no theorem said that every report that changes a map with entries can be caught; C120_violated_kills was added and says so"
 },
 "RC12": {
  "tightened": [
   "C119_violated_table",
   "C119_violated_table_timeout",
   "C119_violated_last",
   "C119_violated_last_writers",
   "C119_violated_port",
   "C119_violated_channel",
   "C119_violated_loop",
   "C120_violated_setup",
   "C120_violated_early_command",
   "C120_violated_classes",
   "C120_violated_sleep",
   "C120_violated_wake",
   "C120_violated_saving"
  ],
  "note": "survived at first: the theorems relied on the table of accesses, which still listed the write; they now also demand that the step changes the variable (RealRace, NRealRace)"
 }
}