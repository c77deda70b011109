import Verif.Props.Tables
import Verif.Props.Node

/-
C57 with the tables of package database in place of an arbitrary database.
-/

namespace Verif.Props

open Verif.Go Verif.Model Verif.Model.Tables Verif.Spec Verif.Lemmas Verif.Lemmas.NodeM

/-- No definition has more than 11 classes, no device more than 21. -/
theorem real_bound (order : List ((UInt8 × UInt8) × List UInt8))
    (hp : order.Perm (mkDefinitions definitionRows)) : DBBound (realDB order) 11 21 := by
  constructor
  · intro g s cs h
    obtain ⟨r, hr, _, _, rfl⟩ := (C61_lookup_iff order hp g s cs).1 h
    have : definitionRows.all (fun r => r.2.length ≤ 11) = true := by decide +kernel
    have := List.all_eq_true.1 this r hr
    simpa using this
  · intro a b c d h
    obtain ⟨r, hr, rfl, _⟩ := (C60_found_iff a b c d).1 h
    have := (rowOk_iff hr).2.2.2.2.1
    simpa [DevRow.toDevice] using this

/-- C57 with the real database: an identification whose requests are answered takes at most 473 steps and
sends at most 35 requests. Missing: nodes that do not answer. -/
theorem C57_real_database_partial (order : List ((UInt8 × UInt8) × List UInt8))
    (hp : order.Perm (mkDefinitions definitionRows)) (n : Node) (s0 s1 s2 : NSt)
    (h0 : NReach (realDB order) n s0) (hf : s0.nIdent = 0) (hs : nodeStep (realDB order) s0 .identify = some s1)
    (ls : List NLabel) (hr : AnsweredRun (realDB order) s1 ls s2) (hc : s2.crashed = none) :
    (ls.countP fun l => match l with | .ident .. => true | _ => false) ≤ 473 ∧
    (s2.hist.countP fun e => match e with | .sent .. => true | _ => false) ≤ 35 :=
  ⟨C57_terminates_partial _ 11 21 (real_bound order hp) n s0 s1 s2 h0 hf hs ls hr hc,
   C57_requests_bounded_partial _ 11 21 (real_bound order hp) n s0 s1 s2 h0 hf hs ls hr hc⟩

end Verif.Props
