import Verif.Model.Conn
import Verif.Spec.Frame

namespace Verif.Spec

open Verif.Go Verif.Model Verif.Model.Conn

/-- The outcome of `Open`, if the step is one. -/
def openOf (a : Option Bool) : Label → Option Bool
  | .connect ok => some ok
  | _ => a

/-- How the last call of `Open` in a sequence of steps ended (`none`: there was none). -/
def lastOpen (ls : List Label) : Option Bool := ls.foldl openOf none

/-- The reasons for which a step can kill the process. -/
inductive Cause (s : St) : Label → Panic → Prop where
  /-- the decoder cannot handle the received bytes -/
  | bytes (p : Panic) (h : s.reader = .loop) (hb : s.buf.vis ≠ []) (hi : iter s.buf = .error p)
      (hp : p = .index ∨ p = .slice) : Cause s (.reader .go) p
  /-- the scan for a control byte iterates over the table, which was not empty, without the lock while somebody else
  writes to it -/
  | race (c : Scan) (op : ReaderOp) (h : s.reader = .scanNext c) (hb : s.mapBusy = true)
      (he : c.must ≠ [] ∨ c.seen ≠ []) : Cause s (.reader op) .mapRace
  /-- a control byte for the outstanding command arrived together with other bytes, and the decoder took them all
  for one message, which it rejected -/
  | ack (c : Scan) (u : Nat) (rest sp : List UInt8) (e : Err) (h : s.reader = .scanNak c u) (hr : 3 ≤ rest.length)
      (hm : newMessage ⟨c.byte :: rest, sp⟩ = .ok (.error e)) (hn : c.msg = none) : Cause s (.reader .go) .nilDeref
  /-- a valid frame is too short for the test whether it answers request `u` -/
  | short (c : Scope) (u : Nat) (p : Panic) (h : s.reader = .frameMatch c u)
      (hm : (s.req u).pkg.match_ c.buf.vis = .error p) (hl : c.buf.vis.length < 9) : Cause s (.reader .go) p
  /-- a frame answers a caller that waits for a report, but it has no report that can be decoded -/
  | reply (u : Nat) (buf : Slice) (e : Err) (h : s.client u = .received) (hk : (s.req u).kind = .waitReport)
      (hg : (s.got u).head? = some (buf, none)) (hm : newMessage buf = .ok (.error e)) : Cause s (.client u .handle) .nilDeref
  /-- a command is written after `Open` failed -/
  | port (w u : Nat) (h : s.writer w = .write u) (hp : s.port = .nil) : Cause s (.writer w) .nilDeref

end Verif.Spec
