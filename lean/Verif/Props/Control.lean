import Verif.Props.Known
import Verif.Props.Commands

/-
C106: a node that can be switched stays so.
-/

set_option linter.unusedSimpArgs false
set_option linter.unusedVariables false
set_option maxHeartbeats 4000000

namespace Verif.Props

open Verif.Go Verif.Model Verif.Spec Verif.Lemmas Verif.Lemmas.NodeM Verif.Lemmas.Ctl Verif.Lemmas.Persist

/-- What On, Off and Level send are the same for the two nodes. -/
def SameControl (n n' : Node) : Prop :=
  ∀ undef v, n'.on undef = n.on undef ∧ n'.off undef = n.off undef ∧ n'.level undef v = n.level undef v

theorem sameControl_of {n n' : Node} (h1 : n'.id = n.id) (h2 : n'.classes = n.classes) : SameControl n n' := by
  intro undef v
  have h : ∀ c, n'.hasCommand c = n.hasCommand c := fun c => by unfold Node.hasCommand; rw [h2]
  refine ⟨?_, ?_, ?_⟩
  · unfold Node.on; rw [h, h, h1]
  · unfold Node.off; rw [h, h, h1]
  · unfold Node.level; rw [h, h1]

/-- The classes of a node change only by a step of an identification. -/
theorem classes_step {db : DB} {s s' : NSt} {l : NLabel} (h : nodeStep db s l = some s') :
    s'.node.classes = s.node.classes ∨
    (∃ i a p, l = .ident i a ∧ s.ident i = .classes ∧ s.node.protocolInfo = some p ∧
      s'.node.classes = db.mandatory p.generic p.specific) ∨
    (∃ i m, l = .ident i (.report (.manufacturerSpecific m)) ∧ s.ident i = .reply .manufacturer ∧
      s'.node = s.node.setManufacturer db m) := by
  node_step h
  all_goals try have c := (alarmOn_ok (by assumption)).1
  all_goals try have c := (alarmOff_ok (by assumption)).1
  all_goals try have c := applyState_core (by assumption)
  all_goals first
    | exact .inl rfl
    | exact .inl c.classes
    | exact .inr (.inl ⟨_, _, _, rfl, by assumption, by assumption, rfl⟩)
    | exact .inr (.inr ⟨_, _, rfl, by assumption, rfl⟩)

theorem setManufacturer_has {db : DB} {n : Node} {m : ManufacturerSpecific} {c : UInt8} (h : n.hasCommand c = true) :
    (n.setManufacturer db m).hasCommand c = true := by
  unfold Node.hasCommand at h ⊢
  cases hc : n.classes with
  | none => rw [hc] at h; cases h
  | some cs =>
    rw [hc] at h
    unfold Node.setManufacturer
    cases hd : db.device m.manufacturer m.type m.id with
    | none => simpa [hc] using h
    | some d =>
      simp only [hc, Option.getD_some, List.any_append]
      simp only at h
      simp [h]

/-- Only an identification moves an identification. -/
theorem ident_same {db : DB} {s s' : NSt} {l : NLabel} (h : nodeStep db s l = some s') (h1 : ∀ j x, l ≠ .ident j x)
    (h2 : l ≠ .identify) : s'.ident = s.ident := by
  node_step h
  all_goals first
    | rfl
    | exact absurd rfl h2
    | exact absurd rfl (h1 _ _)

/-- C106: a class that is mandatory for the kind of node, once known, stays known as long as the program runs. -/
theorem C106_mandatory_stays (db : DB) (f : Bool) (ns : List Node) (hg : GoodFile ns) (s s' : CSt) (hr : CReach db f ns s)
    (ls : List CLabel) (h : cRun db s ls = some s') (ref : Nat) (hlt : ref < s.nHeap) (p : ProtocolInfo)
    (cs : List CommandClass) (c : UInt8) (hp : (s.heap ref).node.protocolInfo = some p)
    (hm : db.mandatory p.generic p.specific = some cs) (hc : ∃ v ∈ cs, v.id = c)
    (hh : (s.heap ref).node.hasCommand c = true) : (s'.heap ref).node.hasCommand c = true := by
  refine (crun_induct (P := fun x => CInv x ∧ SeekAll x ∧ ref < x.nHeap ∧ (x.heap ref).node.protocolInfo = some p ∧
      (x.heap ref).node.hasCommand c = true)
    (fun a l b ⟨p1, p2, p3, p4, p5⟩ hb => ?_) ls _ _ ⟨cinv hg hr, seekAll hg hr, hlt, hp, hh⟩ h).2.2.2.2
  refine ⟨cinv_step p1 hb, seekAll_step p1 p2 hb, Nat.lt_of_lt_of_le p3 (nHeap_step hb), ?_⟩
  rcases applied_step p3 hb with ⟨h2, -⟩ | ⟨l', h2, -⟩
  · rw [h2]; exact ⟨p4, p5⟩
  · refine ⟨((keeps_step (p2 ref p3) h2).info (by rw [p4]; simp)).1.trans p4, ?_⟩
    rcases classes_step h2 with h3 | ⟨i, a, p', -, -, h4, h5⟩ | ⟨i, m, -, -, h5⟩
    · unfold Node.hasCommand at p5 ⊢; rw [h3]; exact p5
    · rw [p4] at h4
      injection h4 with h4
      subst h4
      unfold Node.hasCommand
      rw [h5, hm]
      obtain ⟨v, hv, rfl⟩ := hc
      simp only [List.any_eq_true, beq_iff_eq]
      exact ⟨v, hv, rfl⟩
    · rw [h5]; exact setManufacturer_has p5

/-- C106: an identified node takes the same commands for ever. -/
theorem C106_identified_fixed (db : DB) (f : Bool) (ns : List Node) (hg : GoodFile ns) (s s' : CSt) (hr : CReach db f ns s)
    (ls : List CLabel) (h : cRun db s ls = some s') (ref : Nat) (hlt : ref < s.nHeap)
    (hi : (s.heap ref).node.identified = true) :
    (s'.heap ref).node.identified = true ∧ (s'.heap ref).node.classes = (s.heap ref).node.classes ∧
      SameControl (s.heap ref).node (s'.heap ref).node := by
  have key : CInv s' ∧ ref < s'.nHeap ∧ (∃ i, (s'.heap ref).ident i = .done) ∧ (s'.heap ref).node.identified = true ∧
      (s'.heap ref).node.classes = (s.heap ref).node.classes ∧ (s'.heap ref).node.id = (s.heap ref).node.id := by
    refine crun_induct (P := fun x => CInv x ∧ ref < x.nHeap ∧ (∃ i, (x.heap ref).ident i = .done) ∧
        (x.heap ref).node.identified = true ∧ (x.heap ref).node.classes = (s.heap ref).node.classes ∧
        (x.heap ref).node.id = (s.heap ref).node.id)
      (fun a l b ⟨p1, p3, ⟨i, p4⟩, p5, p6, p7⟩ hb => ?_) ls _ _ ⟨cinv hg hr, hlt, ?_, hi, rfl, rfl⟩ h
    · have c' := cinv_step p1 hb
      have hlt' := Nat.lt_of_lt_of_le p3 (nHeap_step hb)
      refine ⟨c', hlt', ?_⟩
      rcases applied_step p3 hb with ⟨h2, -⟩ | ⟨l', h2, -⟩
      · rw [h2]; exact ⟨⟨i, p4⟩, p5, p6, p7⟩
      · have ok := (c'.safe ref hlt').idInv
        have fr := (p1.safe ref p3).wake.fresh
        have fr' := (c'.safe ref hlt').wake.fresh
        have one := c'.one ref hlt'
        have one0 := p1.one ref p3
        have i0 : i = 0 := by
          rcases Nat.lt_or_ge i (a.heap ref).nIdent with h | h
          · omega
          · rw [fr i h] at p4; cases p4
        subst i0
        have other : ∀ j, j ≠ 0 → (a.heap ref).ident j = .absent := fun j hj => fr j (by omega)
        have notIdent : ∀ j x, l' ≠ .ident j x := by
          intro j x e
          subst e
          by_cases hj : j = 0
          · subst hj
            simp only [nodeStep, identStep, p4] at h2
            split at h2 <;> cases h2
          · simp only [nodeStep, identStep, other j hj] at h2
            split at h2 <;> cases h2
        have hid := (frame_step h2).id
        have hcl : (b.heap ref).node.classes = (a.heap ref).node.classes := by
          rcases classes_step h2 with h3 | ⟨j, x, _, e, _⟩ | ⟨j, m, e, _⟩
          · exact h3
          · exact absurd e (notIdent _ _)
          · exact absurd e (notIdent _ _)
        have hdone : (b.heap ref).ident 0 = .done := by
          by_cases hl : l' = .identify
          · subst hl
            simp only [nodeStep] at h2
            split at h2
            · cases h2
            · injection h2 with h2
              rw [← h2] at one
              dsimp only at one
              have h0 : (a.heap ref).nIdent = 0 := by omega
              rw [fr 0 (by omega)] at p4
              cases p4
          · rw [ident_same h2 notIdent hl]; exact p4
        exact ⟨⟨0, hdone⟩, ok.done 0 hdone, hcl.trans p6, hid.trans p7⟩
    · obtain ⟨n, h1, h2, -, h3, -⟩ := ctl_node hg hr hlt
      exact (oneInv h1 h2 h3 ((cinv hg hr).one ref hlt)).fin hi
  exact ⟨key.2.2.2.1, key.2.2.2.2.1, sameControl_of key.2.2.2.2.2 key.2.2.2.2.1⟩

/-- A database that knows the switch class of a device, which is not mandatory for its kind. -/
def plugDB : DB :=
  { mandatory := fun _ _ => some []
    device := fun a _ _ => if a = "0086".toList then
      some { brand := "Aeon".toList, product := "Plug".toList, description := [], classes := [⟨0x25, true, false, true, []⟩],
             manufacturerID := "0086".toList, productType := [], productID := [] } else none }

/-- C106 is false for the classes that come from the device database: the node can be switched, and a moment later it
is identified, and from then on On, Off and Level send nothing for ever. -/
theorem C106_violated_switch_lost : ∃ s s' ls, CReach plugDB true [] s ∧ cRun plugDB s ls = some s' ∧
    s.list.get 2 = some 0 ∧ s'.list.get 2 = some 0 ∧ s'.crashed = none ∧
    (∀ undef, (s.heap 0).node.on undef = [[0x13, 0x02, 0x03, 0x25, 0x01, 0xFF, 0x25]]) ∧
    (s'.heap 0).node.identified = true ∧
    ∀ ls' s'', cRun plugDB s' ls' = some s'' → ∀ undef v, (s''.heap 0).node.on undef = [] ∧
      (s''.heap 0).node.off undef = [] ∧ (s''.heap 0).node.level undef v = [] := by
  have h : ((cRun plugDB (start true []) (ctlIdent.take 18)).map fun s =>
      decide (s.list.get 2 = some 0 ∧ (s.heap 0).node.hasCommand 0x25 = true ∧ (s.heap 0).node.id = 2 ∧
        ((cRun plugDB s (ctlIdent.drop 18).dropLast).map fun s' =>
          decide (s'.list.get 2 = some 0 ∧ s'.crashed.isNone = true ∧ (s'.heap 0).node.identified = true ∧ 0 < s'.nHeap ∧
            (s'.heap 0).node.hasCommand 0x25 = false ∧ (s'.heap 0).node.hasCommand 0x26 = false)) = some true)) = some true := by
    decide +kernel
  rw [Option.map_eq_some_iff] at h
  obtain ⟨s, h1, h2⟩ := h
  obtain ⟨a, b, c, d⟩ := of_decide_eq_true h2
  rw [Option.map_eq_some_iff] at d
  obtain ⟨s', d1, d2⟩ := d
  obtain ⟨e1, e2, e3, e4, e5, e6⟩ := of_decide_eq_true d2
  have hr' : CReach plugDB true [] s' := creach_run ⟨_, h1⟩ d1
  refine ⟨s, s', _, ⟨_, h1⟩, d1, a, e1, by simpa using e2, fun undef => ?_, e3, fun ls' s'' h3 undef v => ?_⟩
  · have : (s.heap 0).node.hasCommand ccSwitchBinary = true := b
    unfold Node.on
    rw [if_pos this, c]
    decide
  · obtain ⟨-, -, g⟩ := C106_identified_fixed plugDB true [] noFileGood s' s'' hr' ls' h3 0 e4 e3
    obtain ⟨g1, g2, g3⟩ := g undef v
    have e5 : (s'.heap 0).node.hasCommand ccSwitchBinary = false := e5
    have e6 : (s'.heap 0).node.hasCommand ccSwitchMultilevel = false := e6
    rw [g1, g2, g3]
    unfold Node.on Node.off Node.level
    simp [e5, e6]

/-- The hypotheses of the other two theorems hold in a complete identification of a switch. -/
example : ∃ s s', CReach demoDB true [] s ∧ 0 < s.nHeap ∧ (s.heap 0).node.protocolInfo = some (demoInfo true) ∧
    (s.heap 0).node.hasCommand 0x25 = true ∧ demoDB.mandatory 0x10 0x01 = some [⟨0x25, true, false, true, []⟩] ∧
    cRun demoDB s (ctlIdent.drop 18) = some s' ∧ (s'.heap 0).node.identified = true := by
  have h : ((cRun demoDB (start true []) (ctlIdent.take 18)).map fun s =>
      decide (0 < s.nHeap ∧ (s.heap 0).node.protocolInfo = some (demoInfo true) ∧ (s.heap 0).node.hasCommand 0x25 = true ∧
        ((cRun demoDB s (ctlIdent.drop 18)).map fun s' => (s'.heap 0).node.identified) = some true)) = some true := by
    decide +kernel
  rw [Option.map_eq_some_iff] at h
  obtain ⟨s, h1, h2⟩ := h
  obtain ⟨a, b, c, d⟩ := of_decide_eq_true h2
  rw [Option.map_eq_some_iff] at d
  obtain ⟨s', d1, d2⟩ := d
  exact ⟨s, s', ⟨_, h1⟩, a, b, c, by decide, d1, d2⟩

end Verif.Props
