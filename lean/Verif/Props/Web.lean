import Verif.Lemmas.Web
import Verif.Props.Ctl
import Verif.Props.CommandPath

/-
C95: the web interface of the example.
-/

set_option linter.unusedSimpArgs false
set_option linter.unusedVariables false

namespace Verif.Props

open Verif.Go Verif.Model Verif.Model.Web Verif.Spec Verif.Lemmas Verif.Lemmas.Web Verif.Lemmas.Ctl

/-- The answer to `/nodes/<id>/<action>`: 500 exactly if the id is not a number, 404 exactly if there is no
such node or no such action, 200 exactly if both exist; commands are given only in the last case. The handler
does not panic as long as no node is taken off the list while it runs. -/
theorem C95_control_status (undef : Float64 → UInt8) (m m' : GoMap Int Node) (hk : Keeps m m') (id action : List Char) :
    ∃ a, controlNode undef m m' id action = .ok a ∧
      (a.status = 500 ↔ ¬ ∃ i, Decimal id i) ∧
      (a.status = 404 ↔ ∃ i, Decimal id i ∧
        ((¬ ∃ n, NodeAt m i n) ∨ (action ≠ "on".toList ∧ action ≠ "off".toList))) ∧
      (a.status = 200 ↔ ∃ i n, Decimal id i ∧ NodeAt m i n ∧ (action = "on".toList ∨ action = "off".toList)) ∧
      (a.status ≠ 200 → a.commands = []) := by
  have on : "on".toList = ['o', 'n'] := rfl
  have off : "off".toList = ['o', 'f', 'f'] := rfl
  rw [on, off]
  unfold controlNode
  cases hi : atoi id with
  | none =>
    have hd : ∀ i, ¬ Decimal id i := fun i h => by rw [← atoi_iff, hi] at h; cases h
    refine ⟨_, rfl, ?_, ?_, ?_, fun _ => rfl⟩ <;> simp [hd]
  | some i =>
    have hd := (atoi_iff id i).1 hi
    have hu : ∀ {j}, Decimal id j → j = i := fun h => decimal_unique h hd
    dsimp only
    cases hm : m.get i with
    | none =>
      have hm' : ∀ n, ¬ NodeAt m i n := fun n h => by unfold NodeAt at h; rw [hm] at h; cases h
      refine ⟨_, rfl, ?_, ?_, ?_, fun _ => rfl⟩
      · simp; exact ⟨i, hd⟩
      · simp; exact ⟨i, hd, .inl hm'⟩
      · simp
        intro j hj n hn
        exact absurd (hu hj ▸ hn) (hm' n)
    | some n =>
      have hm' : NodeAt m i n := hm
      dsimp only
      by_cases e1 : action = ['o', 'n']
      · rw [if_pos e1]
        refine ⟨_, rfl, ?_, ?_, ?_, ?_⟩
        · simp; exact ⟨i, hd⟩
        · simp
          intro j hj
          cases hu hj
          exact ⟨⟨n, hm'⟩, fun h => absurd e1 h⟩
        · simp; exact ⟨i, hd, ⟨n, hm'⟩, .inl e1⟩
        · simp
      rw [if_neg e1]
      by_cases e2 : action = ['o', 'f', 'f']
      · rw [if_pos e2]
        obtain ⟨n', hn'⟩ := hk i n hm
        unfold NodeAt at hn'
        rw [hn']
        refine ⟨_, rfl, ?_, ?_, ?_, ?_⟩
        · simp; exact ⟨i, hd⟩
        · simp
          intro j hj
          cases hu hj
          exact ⟨⟨n, hm'⟩, fun _ => e2⟩
        · simp; exact ⟨i, hd, ⟨n, hm'⟩, .inr e2⟩
        · simp
      rw [if_neg e2]
      refine ⟨_, rfl, ?_, ?_, ?_, fun _ => rfl⟩
      · simp; exact ⟨i, hd⟩
      · simp; exact ⟨i, hd, .inr ⟨e1, e2⟩⟩
      · simp
        intro j hj _ _
        exact ⟨e1, e2⟩

/-- `/nodes/<id>/on` gives exactly one command, to that node and nobody else, if the node is a switch. -/
theorem C95_on_command (undef : Float64 → UInt8) (m m' : GoMap Int Node) (ho : OwnNumber m) (id : List Char) (i : Int)
    (n : Node) (hd : Decimal id i) (hn : NodeAt m i n) (h0 : 0 ≤ i) (h1 : i ≤ 255) :
    ∃ (a : Reply) (b : UInt8), controlNode undef m m' id "on".toList = .ok a ∧ (b.toNat : Int) = i ∧
      (Supports n 0x25 → a.commands = [[0x13, b, 0x03, 0x25, 0x01, 0xFF, 0x25]]) ∧
      (¬ Supports n 0x25 → Supports n 0x26 → a.commands = [[0x13, b, 0x03, 0x26, 0x01, 99, 0x25]]) := by
  have e := ho i n hn
  obtain ⟨a1, a2, -⟩ := C26_on undef n
  unfold controlNode
  rw [(atoi_iff id i).2 hd]
  dsimp only
  unfold NodeAt at hn
  rw [hn]
  exact ⟨_, intToByte n.id, rfl, by rw [← e]; exact idByte (e ▸ h0) (e ▸ h1), a1, a2⟩

/-- `/nodes/<id>/off` likewise. -/
theorem C95_off_command (undef : Float64 → UInt8) (m m' : GoMap Int Node) (ho : OwnNumber m') (id : List Char) (i : Int)
    (n n' : Node) (hd : Decimal id i) (hn : NodeAt m i n) (hn' : NodeAt m' i n') (h0 : 0 ≤ i) (h1 : i ≤ 255) :
    ∃ (a : Reply) (b : UInt8), controlNode undef m m' id "off".toList = .ok a ∧ (b.toNat : Int) = i ∧
      (Supports n' 0x25 → a.commands = [[0x13, b, 0x03, 0x25, 0x01, 0x00, 0x25]]) ∧
      (¬ Supports n' 0x25 → Supports n' 0x26 → a.commands = [[0x13, b, 0x03, 0x26, 0x01, 0x00, 0x25]]) := by
  have e := ho i n' hn'
  obtain ⟨a1, a2, -⟩ := C26_off undef n'
  unfold controlNode
  rw [(atoi_iff id i).2 hd]
  dsimp only
  unfold NodeAt at hn hn'
  rw [hn, hn']
  exact ⟨_, intToByte n'.id, rfl, by rw [← e]; exact idByte (e ▸ h0) (e ▸ h1), a1, a2⟩

/-- A node that is not a switch: the interface answers 200 and no command is given. -/
theorem C95_violated_silent (undef : Float64 → UInt8) (m m' : GoMap Int Node) (id : List Char) (i : Int)
    (n : Node) (hd : Decimal id i) (hn : NodeAt m i n) (h1 : ¬ Supports n 0x25) (h2 : ¬ Supports n 0x26) :
    controlNode undef m m' id "on".toList = .ok { status := 200, commands := [] } := by
  obtain ⟨-, -, a3⟩ := C26_on undef n
  unfold controlNode
  rw [(atoi_iff id i).2 hd]
  dsimp only
  unfold NodeAt at hn
  rw [hn]
  dsimp only
  rw [if_pos (by rfl), a3 h1 h2]

/-- `/nodes/<id>` shows the node with that number, if the id is a number and there is one. -/
theorem C95_get_node (m : GoMap Int Node) (id : List Char) :
    ((getNode m id).status = 500 ↔ ¬ ∃ i, Decimal id i) ∧
    ((getNode m id).status = 404 ↔ ∃ i, Decimal id i ∧ ¬ ∃ n, NodeAt m i n) ∧
    ((getNode m id).status = 200 ↔ ∃ i n, Decimal id i ∧ NodeAt m i n) ∧
    (∀ n, (getNode m id).node = some n ↔ ∃ i, Decimal id i ∧ NodeAt m i n) := by
  unfold getNode
  cases hi : atoi id with
  | none =>
    have hd : ∀ i, ¬ Decimal id i := fun i h => by rw [← atoi_iff, hi] at h; cases h
    refine ⟨?_, ?_, ?_, ?_⟩ <;> simp [hd]
  | some i =>
    have hd := (atoi_iff id i).1 hi
    have hu : ∀ {j}, Decimal id j → j = i := fun h => decimal_unique h hd
    dsimp only
    cases hm : m.get i with
    | none =>
      have hm' : ∀ n, ¬ NodeAt m i n := fun n h => by unfold NodeAt at h; rw [hm] at h; cases h
      refine ⟨?_, ?_, ?_, ?_⟩
      · simp; exact ⟨i, hd⟩
      · simp; exact ⟨i, hd, hm'⟩
      · simp
        intro j hj n hn
        exact absurd (hu hj ▸ hn) (hm' n)
      · simp
        intro n j hj hn
        exact absurd (hu hj ▸ hn) (hm' n)
    | some n =>
      have hm' : NodeAt m i n := hm
      refine ⟨?_, ?_, ?_, ?_⟩
      · simp; exact ⟨i, hd⟩
      · simp
        intro j hj
        cases hu hj
        exact ⟨n, hm'⟩
      · simp; exact ⟨i, hd, n, hm'⟩
      · intro n'
        constructor
        · intro h
          cases h
          exact ⟨i, hd, hm'⟩
        · rintro ⟨j, hj, hn⟩
          cases hu hj
          unfold NodeAt at hn
          rw [hm] at hn
          exact hn

/-- `/nodes` lists every node once, under a number that `/nodes/<id>` understands as that node, and nothing
else. -/
theorem C95_all_nodes (m : GoMap Int Node) (hm : (m.map Prod.fst).Nodup) (hr : ∀ e ∈ m, -(2 ^ 63) ≤ e.1 ∧ e.1 < 2 ^ 63)
    (k : List Char) (n : Node) :
    (getNodes m).get k = some n ↔ ∃ i, intLit i = k ∧ NodeAt m i n := by
  have := get_foldl k m [] hm hr n
  simp only [GoMap.get, reduceCtorEq, and_false, or_false] at this
  exact this

/-- The keys of `/nodes` lead back to the nodes. -/
theorem C95_links (m : GoMap Int Node) (hm : (m.map Prod.fst).Nodup) (hr : ∀ e ∈ m, -(2 ^ 63) ≤ e.1 ∧ e.1 < 2 ^ 63)
    (k : List Char) (n : Node) (h : (getNodes m).get k = some n) : getNode m k = { status := 200, node := some n } := by
  obtain ⟨i, rfl, hi⟩ := (C95_all_nodes m hm hr k n).1 h
  have hmem : (i, n) ∈ m := get_mem hi
  unfold getNode
  rw [(atoi_iff _ i).2 (decimal_intLit (hr _ hmem))]
  dsimp only
  unfold NodeAt at hi
  rw [hi]

/-- What the command becomes on the wire. -/
theorem C95_on_wire {lv : Conn.LoopVars} {s : Conn.St} (h : Conn.Reachable lv s) (undef : Float64 → UInt8)
    (m m' : GoMap Int Node) (ho : OwnNumber m) (id : List Char) (i : Int) (n : Node) (hd : Decimal id i)
    (hn : NodeAt m i n) (h0 : 0 ≤ i) (h1 : i ≤ 255) {a : Reply} (ha : controlNode undef m m' id "on".toList = .ok a)
    {u w : Nat} {data frame : List UInt8} {kind : Conn.Kind} {to : Bool} {er : UInt8}
    (hc : data ∈ a.commands) (hs : .submit u data kind to er ∈ s.hist) (hm : .cmd w u frame ∈ s.hist) :
    ∃ b : UInt8, (b.toNat : Int) = i ∧
      (Supports n 0x25 ∧ IsFrame [0x00, 0x13, b, 0x03, 0x25, 0x01, 0xFF, 0x25] frame ∨
        ¬ Supports n 0x25 ∧ Supports n 0x26 ∧ IsFrame [0x00, 0x13, b, 0x03, 0x26, 0x01, 99, 0x25] frame) := by
  have e := ho i n hn
  unfold controlNode at ha
  rw [(atoi_iff id i).2 hd] at ha
  dsimp only at ha
  unfold NodeAt at hn
  rw [hn] at ha
  dsimp only at ha
  rw [if_pos (by rfl)] at ha
  cases ha
  obtain ⟨b, k1, k2⟩ := C90_on_wire h undef n (e ▸ h0) (e ▸ h1) hc hs hm
  exact ⟨b, e ▸ k1, k2⟩

/-! ### The lists that a controller has -/

theorem nodes_get (s : CSt) (i : Int) : s.nodes.get i = (s.list.get i).map fun r => (s.heap r).node := by
  unfold CSt.nodes
  induction s.list with
  | nil => rfl
  | cons e l ih =>
    obtain ⟨j, r⟩ := e
    rw [List.map_cons, GoMap.get, GoMap.get]
    split
    · rfl
    · exact ih

theorem list_keeps {db : DB} {s s' : CSt} {l : CLabel} (h : cStep db s l = some s') (i : Int) (r : Nat)
    (hl : s.list.get i = some r) : ∃ r', s'.list.get i = some r' := by
  ctl_step h
  all_goals try simp only [put_list, push_list]
  all_goals first
    | exact ⟨r, hl⟩
    | (rw [get_put]; split <;> exact ⟨_, by first | rfl | assumption⟩)

/-- The lists that a controller has while it runs: nodes are listed under their numbers and stay listed. -/
theorem C95_controller_lists (db : DB) (f : Bool) (ns : List Node) (hg : GoodFile ns) (s s' : CSt) (hr : CReach db f ns s)
    (ls : List CLabel) (h : cRun db s ls = some s') : OwnNumber s.nodes ∧ Keeps s.nodes s'.nodes := by
  have hc := cinv hg hr
  refine ⟨?_, ?_⟩
  · intro i n hn
    unfold NodeAt at hn
    rw [nodes_get, Option.map_eq_some_iff] at hn
    obtain ⟨r, h1, rfl⟩ := hn
    exact (hc.list i r h1).2
  · intro i n hn
    unfold NodeAt at hn ⊢
    rw [nodes_get, Option.map_eq_some_iff] at hn
    obtain ⟨r, h1, -⟩ := hn
    obtain ⟨r', h2⟩ := crun_induct (P := fun s => ∃ r, s.list.get i = some r)
      (fun s l s' ⟨r, h⟩ hs => list_keeps hs i r h) ls s s' ⟨r, h1⟩ h
    exact ⟨_, by rw [nodes_get, h2]; rfl⟩

/-- So with a controller the handler never panics, whatever happens between its two looks at the list. -/
theorem C95_control_never_panics (undef : Float64 → UInt8) (db : DB) (f : Bool) (ns : List Node) (hg : GoodFile ns)
    (s s' : CSt) (hr : CReach db f ns s) (ls : List CLabel) (h : cRun db s ls = some s') (id action : List Char) :
    ∃ a, controlNode undef s.nodes s'.nodes id action = .ok a := by
  obtain ⟨a, ha, -⟩ := C95_control_status undef s.nodes s'.nodes (C95_controller_lists db f ns hg s s' hr ls h).2 id action
  exact ⟨a, ha⟩

/-! Instances. -/

/-- Two nodes: a switch and one of which nothing is known. -/
def exList : GoMap Int Node := [(7, exNode), (12, newNode 12)]

example : atoi "7".toList = some 7 ∧ atoi "+07".toList = some 7 ∧ atoi "-12".toList = some (-12) ∧ atoi "".toList = none ∧
    atoi "-".toList = none ∧ atoi "7a".toList = none ∧ atoi "9223372036854775808".toList = none ∧
    atoi "-9223372036854775808".toList = some (-9223372036854775808) := by decide +kernel

example : Decimal "7".toList 7 ∧ ¬ ∃ i, Decimal "seven".toList i := by
  refine ⟨(atoi_iff _ _).1 (by decide +kernel), ?_⟩
  rintro ⟨i, h⟩
  have := (atoi_iff _ _).2 h
  rw [show atoi "seven".toList = none by decide +kernel] at this
  cases this

example : OwnNumber exList ∧ Keeps exList exList ∧ (exList.map Prod.fst).Nodup ∧
    (∀ e ∈ exList, -(2 ^ 63) ≤ e.1 ∧ e.1 < 2 ^ 63) ∧ NodeAt exList 7 exNode ∧ NodeAt exList 12 (newNode 12) := by
  refine ⟨?_, fun i n h => ⟨n, h⟩, by decide +kernel, by decide +kernel, rfl, rfl⟩
  intro i n h
  unfold NodeAt exList at h
  simp only [GoMap.get] at h
  split at h
  · next e => cases h; subst e; rfl
  · split at h
    · next e => cases h; subst e; rfl
    · cases h

example : (controlNode (fun _ => 0) exList exList "7".toList "on".toList).toOption =
    some { status := 200, commands := [[0x13, 7, 0x03, 0x26, 0x01, 99, 0x25]] } := by decide +kernel

example : controlNode (fun _ => 0) exList exList "12".toList "on".toList = .ok { status := 200, commands := [] } :=
  C95_violated_silent _ _ _ _ 12 (newNode 12) ((atoi_iff _ _).1 (by decide +kernel)) rfl
    (by simp [Supports, newNode]) (by simp [Supports, newNode])

example : ∃ s', cRun demoDB (start true [fileNode 2]) [.startDisc, .arrive 2 repOn] = some s' ∧
    (∃ n, NodeAt (start true [fileNode 2]).nodes 2 n) ∧ (∃ n, NodeAt s'.nodes 2 n) :=
  ⟨_, rfl, ⟨_, rfl⟩, ⟨_, rfl⟩⟩

end Verif.Props
