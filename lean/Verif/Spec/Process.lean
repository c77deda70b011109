import Verif.Model.Process
import Verif.Spec.EndToEnd
import Verif.Spec.System
import Verif.Spec.NodeFair

/-
What the frames of the stick say about the nodes, and executions of the joined process.
-/

namespace Verif.Spec

open Verif.Go Verif.Model Verif.Model.Conn

/-- Frame `f` is a discovery reply that names node `id`: in its bitmap of `n` bytes bit `(id - 1) % 8` of byte
`(id - 1) / 8` is set. -/
def NamesNode (f : List UInt8) (id : Nat) : Prop :=
  ∃ ty v c n bm rest b, IsFrame (ty :: 0x02 :: v :: c :: n :: (bm ++ rest)) f ∧ n.toNat = bm.length ∧
    bm[(id - 1) / 8]? = some b ∧ bit b ((id - 1) % 8) = true

/-- Frame `f` is a protocol info reply that says `p`. -/
def SaysInfo (f : List UInt8) (p : ProtocolInfo) : Prop :=
  ∃ ty d0 d1 d2 d3 d4 d5 rest, IsFrame (ty :: 0x41 :: d0 :: d1 :: d2 :: d3 :: d4 :: d5 :: rest) f ∧
    p.listening = bit d0 7 ∧ p.routing = bit d0 6 ∧ p.version.toNat = d0.toNat % 8 + 1 ∧
    p.maxBaud = (if d0.toNat / 8 % 8 = 2 then 40000 else 9600) ∧
    p.flirs = (bit d1 5 || bit d1 6) ∧ p.beaming = bit d1 4 ∧ p.security = bit d1 0 ∧
    p.basic = d3 ∧ p.generic = d4 ∧ p.specific = d5

/-- What an identification of the node with this id may send: a request for its protocol information, and commands
`manufacturer specific get`, `multi channel endpoint get`, `switch binary get`, `switch multilevel get` and `sensor
multilevel get` to this node. -/
def IdentRequest (id : Int) (data : List UInt8) : Prop :=
  data = [0x41, intToByte id] ∨
    ∃ cls cmd, ((cls, cmd) : UInt8 × UInt8) ∈ [(0x72, 0x04), (0x60, 0x07), (0x25, 0x02), (0x26, 0x02), (0x31, 0x01)] ∧
      ∃ x : UInt8, data = [0x13, intToByte id, 0x04, cls, cmd, x]

/-- The steps the connection makes in a run, without the requests it gets from the library. -/
def connLabels (ls : List WLabel) : List Label :=
  ls.filterMap fun l => match l with
    | .sys (.conn l) => some l
    | _ => none

/-- What has arrived from the port in a run is the bytes of the sessions `xs`. -/
def Arrived (ls : List WLabel) (xs : List Session) : Prop :=
  sessions (connLabels ls) = xs.map Session.reads ∧ ∀ x ∈ xs, x.Ok

/-- A goroutine waits for the answer to its request on a nil channel. -/
def Late (w : Whole) (who : Who) : Prop := ∃ u, w.req who = some u ∧ w.sys.conn.client u = .nilChan

/-- Steps of the parts of the process. -/
def onSys (A : SLabel → Prop) : WLabel → Prop
  | .sys l => A l
  | _ => False

/-- The assumptions: no goroutine is passed over for ever, and time goes on unless the process dies. (See `FairSys`;
the goroutine of the discovery can move only when it has been answered.) -/
structure FairWhole {lv : LoopVars} {db : DB} (e : Exec (wStep lv db)) : Prop where
  writer : ∀ w, Fairly e (onSys (onConn fun l => l = .writer w))
  timer : ∀ t, Fairly e (onSys (onConn fun l => l = .timer t))
  reader : Fairly e (onSys (onConn fun l => isReader l = true ∧ external l = false))
  result : ∀ w, Fairly e (onSys (onConn fun l => l = .resultTimeout w))
  take : ∀ u, Fairly e (onSys (onConn fun l => ∃ w, l = .take w (.client u)))
  client : ∀ u, Fairly e (onSys (onConn fun l => ∃ op, l = .client u op))
  ask : ∀ who, Fairly e (fun l => l = .ask who)
  disc : Fairly e (onSys (onCtl fun l => ∃ a, l = .disc a))
  deliver : ∀ k, Fairly e (onSys (onCtl fun l => l = .deliver k))
  ident : ∀ ref i, Fairly e (onSys (onCtl fun l => ∃ a, l = .node ref (.ident i a)))
  proc : ∀ ref j, Fairly e (onSys (onCtl fun l => l = .node ref (.proc j)))
  saver : Fairly e (onSys (onCtl fun l => ∃ op, l = .saver op))
  time : ∀ t n, ∃ m, n ≤ m ∧ (t ≤ (e.st m).sys.ctl.now ∨ Sys.dead (e.st m).sys)

/-- At moment `m` the identification of node `ref` goes on with answer `a`. -/
def IdentGoes {lv : LoopVars} {db : DB} (e : Exec (wStep lv db)) (ref m : Nat) (a : Answer) : Prop :=
  e.lab m = some (.sys (.ctl (.node ref (.ident 0 a))))

/-- What node `ref` is asked for again and again it answers at some time. -/
def FairAnswers {lv : LoopVars} {db : DB} (e : Exec (wStep lv db)) (ref : Nat) : Prop :=
  ∀ k, (∀ n, ∃ m a, n ≤ m ∧ IdentGoes e ref m a ∧ asked (((e.st m).sys.ctl.heap ref).ident 0) = some k) →
    ∀ n, ∃ m a, n ≤ m ∧ IdentGoes e ref m a ∧ asked (((e.st m).sys.ctl.heap ref).ident 0) = some k ∧ answers k a = true

/-- Again and again a wake-up of node `ref` is processed. -/
def FairWakes {lv : LoopVars} {db : DB} (e : Exec (wStep lv db)) (ref : Nat) : Prop :=
  ∀ n, ∃ m k, n ≤ m ∧ e.lab m = some (.sys (.ctl (.deliver k))) ∧ (e.st m).sys.ctl.deliv k = .process ref .wakeUp

/-- At moment `n` the goroutine of the discovery calls `Identify` of node `ref`. -/
def Identifies {lv : LoopVars} {db : DB} (e : Exec (wStep lv db)) (ref n : Nat) : Prop :=
  (∃ todo, (e.st n).sys.ctl.disc = .start ref todo) ∧ ∃ a, e.lab n = some (.sys (.ctl (.disc a)))

end Verif.Spec
