import Verif.Model.Conn

/-
Building blocks for concrete executions of the connection machine, used by the examples and by the
counterexamples.
-/

namespace Verif.Lemmas.Conn

open Verif.Go Verif.Model Verif.Model.Conn

/-- Writer `w` takes request `u` from its caller and runs up to waiting for the result. -/
def xSend (w u : Nat) : List Label := .take w (.client u) :: List.replicate 9 (.writer w)

/-- Writer `w` gives up waiting and becomes idle. -/
def xGiveUp (w : Nat) : List Label := [.resultTimeout w, .writer w, .writer w]

/-- The reader reads `bytes` and starts handling them. -/
def xRead (bytes : List UInt8) : List Label :=
  [.reader (.read ⟨bytes, false, 0⟩), .reader .go, .reader .go]

/-- The scan visits entry `u`, which is the last command; the result goroutine of `w` receives. -/
def xHit (u w : Nat) : List Label :=
  [.reader (.pick u), .reader .go, .reader .go, .reader (.sendTo w), .reader .go]

/-- The scan visits entry `u`, which is not the last command. -/
def xMiss (u : Nat) : List Label := [.reader (.pick u), .reader .go, .reader .go, .reader .go]

/-- The stick acknowledges: the reader reads ACK, the scan visits `u` and wakes writer `w`. -/
def xAck (u w : Nat) : List Label :=
  xRead [0x06] ++ xHit u w ++
  [.reader .go, .reader .go, .reader .stop, .reader .go, .reader .go, .writer w, .writer w]

/-- A request for the report of binary switch 2. -/
def xReq : List UInt8 := [0x13, 0x02, 0x03, 0x25, 0x02, 0x25]

/-- A report of binary switch 2. -/
def xReport : List UInt8 := [0x01, 0x09, 0x00, 0x04, 0x00, 0x02, 0x03, 0x25, 0x03, 0xFF, 0x2A]

/-- The reader reads a report and starts to match it. -/
def xFrame : List Label := xRead xReport ++ [.reader .go]

/-- The frame matches entry `u`, the caller receives, the channel is closed, the entry removed. -/
def xDeliver (u : Nat) : List Label :=
  [.reader (.pick u), .reader .go, .reader .go, .reader .deliver, .reader .go, .reader .go,
    .reader .go, .reader .go, .reader .go]

/-- The frame matches entry `u` (no channel any more or never), the entry is removed. -/
def xRemove (u : Nat) : List Label :=
  [.reader (.pick u), .reader .go, .reader .go, .reader .go, .reader .go]

end Verif.Lemmas.Conn
