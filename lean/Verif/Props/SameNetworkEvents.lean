import Verif.Props.SameNetworkFile

/-
C123: with an unchanged network every node can be used at once, and every state that is applied is announced.
-/

set_option linter.unusedSimpArgs false
set_option linter.unusedVariables false

namespace Verif.Props

open Verif.Go Verif.Model Verif.Spec Verif.Lemmas Verif.Lemmas.NodeM Verif.Lemmas.Ctl

variable {db : DB} {f : Bool} {ns : List Node}

/-- C123: with an unchanged network every node object is connected, at every moment (compare C74). -/
theorem C123_usable (hg : GoodFile ns) {s : CSt} (hr : CReach db f ns s) (hn : SameNetwork ns s.hist) {ref : Nat} (hlt : ref < s.nHeap) :
    (s.heap ref).node.hasConn = true := by
  refine ((cinv hg hr).conn ref hlt).resolve_left ?_
  have := (undisturbed hr hn).disc
  cases hx : s.disc <;> rw [hx] at this <;> first | exact this.elim | (intro h; cases h)

/-- C123: so every node that is listed is. -/
theorem C123_listed_usable (hg : GoodFile ns) {s : CSt} (hr : CReach db f ns s) (hn : SameNetwork ns s.hist) {id : Int} {ref : Nat}
    (hl : s.list.get id = some ref) : (s.heap ref).node.hasConn = true ∧ (s.heap ref).node.id = id :=
  ⟨C123_usable hg hr hn ((cinv hg hr).list id ref hl).1, ((cinv hg hr).list id ref hl).2⟩

/-- C123: with an unchanged network C88 holds without exception: a report that carries a state or raises an alarm is announced, once, with
the address it came from; the event is lost only if ten events are waiting. Other reports announce nothing. -/
theorem C123_report_announced (hg : GoodFile ns) {s s' : CSt} (hr : CReach db f ns s) (hn : SameNetwork ns s.hist) {k ref : Nat} {r : Report}
    (hd : s.deliv k = .process ref r) (h : cStep db s (.deliver k) = some s') :
    ∃ id : UInt8, arrivalOf k s.hist = some (id, r) ∧
      (announces r → s'.hist = .pushed (.updated id.toNat) (decide (s.queue.length < 10)) :: .applied k ref r :: s.hist ∧
        s'.queue = if s.queue.length < 10 then s.queue ++ [.updated id.toNat] else s.queue) ∧
      (¬ announces r → s'.hist = .applied k ref r :: s.hist ∧ s'.queue = s.queue) :=
  C88_report_announced_partial db f ns hg s s' hr k ref r hd
    (C123_usable hg hr hn ((cinv hg hr).dref k ref (by rw [hd]; rfl))) h

/-- A report of node 2 is about to be applied while the discovery is looking at it. -/
example : ∃ s s', CReach demoDB true [fileNode 2] s ∧ SameNetwork [fileNode 2] s.hist ∧ s.disc = .loop [2] ∧
    s.deliv 0 = .process 0 repOn ∧ cStep demoDB s (.deliver 0) = some s' ∧ announces repOn := by
  have h : ∃ s, cRun demoDB (start true [fileNode 2]) [.startDisc, .disc (.nodes [true, true]), .arrive 2 repOn, .deliver 0, .deliver 0] = some s ∧
      s.disc = .loop [2] ∧ s.deliv 0 = .process 0 repOn ∧ (cStep demoDB s (.deliver 0)).isSome = true ∧ onlyReply [true, true] s.hist = true :=
    ⟨_, rfl, rfl, rfl, rfl, by decide +kernel⟩
  obtain ⟨s, h1, h2, h3, h4, h5⟩ := h
  obtain ⟨s', h4⟩ := Option.isSome_iff_exists.1 h4
  refine ⟨s, s', ⟨_, h1⟩, same_onlyReply h5 ?_, h2, h3, h4, .inl rfl⟩
  intro i hi hb
  rcases i with _ | _ | i
  · cases hi
  · exact ⟨_, List.mem_singleton.2 rfl, rfl⟩
  · simp at hb

end Verif.Props
