import Verif.Spec.Process
import Verif.Spec.Persist
import Verif.Lemmas.Fair
import Verif.Model.Persist

/-
A program that is started over and over, for C117: the connection, the controller, the file, and crashes in between.
-/

namespace Verif.Spec

open Verif.Go Verif.Model Verif.Model.Conn Verif.Lemmas

/-- A process at its start: the file has been read into the controller, the port is not yet open (gozwave.go 18-54). -/
def wBegin (c : CSt) : Whole := ⟨⟨init, c, none⟩, fun _ => none, fun _ => none⟩

/-- The node was listed under this id at some moment of the life that began with `c` and has done `ls` so far; `All` are
frames among which are all that had been on the wire by then. -/
def WasShown (lv : LoopVars) (db : DB) (All : List UInt8 → Prop) (c : CSt) (ls : List WLabel) (id : Int) (n : Node) : Prop :=
  ∃ before after w xs, ls = before ++ after ∧ runSteps (wStep lv db) (wBegin c) before = some w ∧ Arrived before xs ∧
    w.sys.conn.crashed = none ∧ (∀ fr ∈ onWire xs, All fr) ∧ w.sys.ctl.nodes.get id = some n

/-- A program that is started over and over: what is in the file, how the present life began, and what it has done.
A save writes some of the nodes, each as it was at some moment of the present life, not the same for all of them; it may
stop at any point.  A restart may happen at any point too; what is then in the file is read, if it can be. -/
inductive Lives (lv : LoopVars) (db : DB) (All : List UInt8 → Prop) : Option (List Char) → CSt → List WLabel → Prop
  | first (hasFile : Bool) : Lives lv db All none (newController hasFile) []
  | run {file : Option (List Char)} {c : CSt} {ls : List WLabel} (more : List WLabel) {w : Whole} : Lives lv db All file c ls →
      runSteps (wStep lv db) (wBegin c) (ls ++ more) = some w → Lives lv db All file c (ls ++ more)
  | save {file : Option (List Char)} {c : CSt} {ls : List WLabel} (l : GoMap Int Node) (o : Order) (ops : List SaveOp) {st : SaveSt} :
      Lives lv db All file c ls → (l.map Prod.fst).Nodup → (∀ e ∈ l, WasShown lv db All c ls e.1 e.2) →
      saveRun o (saveText l) ⟨.compare, file⟩ ops = some st → Lives lv db All st.file c ls
  | restart {file : Option (List Char)} {c c' : CSt} {ls : List WLabel} (o o' : Order) (hasFile : Bool) {err : Bool} :
      Lives lv db All file c ls → loadConfig o o' file (newController hasFile) = .ret err c' → Lives lv db All file c' []

/-- The node with this id has sent, in this or in an earlier life, a frame with the property. -/
def Said (All : List UInt8 → Prop) (id : Int) (P : List UInt8 → UInt8 → Prop) : Prop :=
  ∃ b : UInt8, (b.toNat : Int) = id ∧ ∃ fr, All fr ∧ P fr b

/-- Frame `f` is an alarm report of node `b` with status 0xFF. -/
def RaisesAlarm (f : List UInt8) (b : UInt8) : Prop :=
  ∃ t level src sensorType event rest, CarriesCmd f b 0x71 0x05 (t :: level :: src :: 0xFF :: sensorType :: event :: rest)

end Verif.Spec
