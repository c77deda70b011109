import Verif.Spec.Persist
import Verif.Model.Persist

/-
Runs in which the values come from bytes, as they do in the program.
-/

namespace Verif.Spec

open Verif.Model

/-- The report was decoded from the payload of some message. -/
def Decoded (r : Report) : Prop := ∃ c class_ d, newReport c class_ d = .ok r

/-- A step of a node with values from bytes. -/
def Sensible : NLabel → Prop
  | .report r => Decoded r
  | .ident _ (.report r) => Decoded r
  | _ => True

/-- A step of a controller with values from bytes, and a slice whose length is an `int`. -/
def SensibleC : CLabel → Prop
  | .arrive _ r => Decoded r
  | .node _ l => Sensible l
  | .disc (.nodes bm) => bm.length < 2 ^ 63
  | _ => True

/-- The report a delivery carries. -/
def reportIn : DelivAt → Option Report
  | .call _ r | .look _ r | .process _ r => some r
  | _ => none

/-- The controllers of a program that is started over and over: first without a file, later with the file
that was saved in the life before. -/
inductive Life (db : DB) : CSt → Prop
  | first (hasFile : Bool) : Life db (newController hasFile)
  | step {s s' : CSt} {l : CLabel} : Life db s → SensibleC l → cStep db s l = some s' → Life db s'
  | restart {s c : CSt} (o o' : Order) (hasFile : Bool) : Life db s →
      loadConfig o o' (some (saveText s.nodes)) (newController hasFile) = .ret false c → Life db c

end Verif.Spec
