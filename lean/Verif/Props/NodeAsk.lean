import Verif.Lemmas.NodeAsk
import Verif.Props.Node

/-
C87: what an identification asks.
-/

set_option linter.unusedSimpArgs false

namespace Verif.Props

open Verif.Go Verif.Model Verif.Spec Verif.Lemmas.NodeM

/-- C87: everything the identifications of a node send, in any interleaving with reports and with each other, is one of
the five queries, addressed to this node. -/
theorem C87_only_queries (db : DB) (n : Node) (s : NSt) (b : UInt8) (hb : n.id = b.toNat) (h : NReach db n s)
    (i : Nat) (p : Option Purpose) (d : List UInt8) (hs : .sent i p d ∈ s.hist) : Query b p d := by
  have e : intToByte n.id = b := by
    rw [hb, intToByte]
    have := b.toNat_lt
    have : ((b.toNat : Int) % 256).toNat = b.toNat := by omega
    rw [this]
    simp
  have := (askInv h).sent i p d hs
  rwa [e] at this

/-- C87: in particular, identifying a node never switches anything. -/
theorem C87_never_switches (db : DB) (n : Node) (s : NSt) (b : UInt8) (hb : n.id = b.toNat) (h : NReach db n s)
    (i : Nat) (p : Option Purpose) (d : List UInt8) (hs : .sent i p d ∈ s.hist) : ¬ isSet d := by
  have q := C87_only_queries db n s b hb h i p d hs
  rintro ⟨h1, h2⟩
  match p with
  | none => simp only [Query] at q; subst q; simp at h2
  | some .manufacturer => obtain ⟨k, rfl⟩ := q; simp at h1
  | some .endpoints => obtain ⟨k, rfl⟩ := q; simp at h1
  | some .states =>
    obtain ⟨k, c, e, rfl, q⟩ := q
    simp at h1 h2
    subst h2
    rcases q with ⟨-, q⟩ | ⟨-, q⟩ | ⟨q, -⟩
    · simp at q
    · simp at q
    · subst q; simp at h1

/-- C87: with one identification, only the states of classes that the node has are asked for. (Missing: several
identifications of one node at the same time.) -/
theorem C87_asks_what_it_has_partial (db : DB) (n : Node) (s s' : NSt) (l : NLabel) (hn : FreshOk n)
    (hf : n.statesOk = false) (h : NReach db n s) (h1 : s.nIdent ≤ 1) (hs : nodeStep db s l = some s')
    (i : Nat) (d : List UInt8) (hd : s'.hist = .sent i (some .states) d :: s.hist) :
    ∃ c, d[3]? = some c ∧ s.node.hasCommand c = true := by
  have q := coverInv hn hf h h1
  have key : ∀ v t j, s.ident j = .query (v :: t) → s.node.hasCommand v.id = true := by
    intro v t j hj
    have := q.sub j (v :: t) (by rw [hj]; rfl) v (by simp)
    unfold Node.hasCommand
    cases hc : s.node.classes with
    | none => rw [hc] at this; simp at this
    | some cs =>
      rw [hc] at this
      simp only [Option.getD_some] at this
      simp only [List.any_eq_true, beq_iff_eq]
      exact ⟨v, this, rfl⟩
  have hne : ∀ (e : NEv) (h : List NEv), h ≠ e :: h := by
    intro e h hc
    have := congrArg List.length hc
    simp at this
  node_step hs
  all_goals first
    | (exfalso; exact hne _ _ hd)
    | (exfalso; simp at hd; done)
    | (have k := key _ _ _ ‹s.ident _ = IdentAt.query _›
       simp only [List.cons.injEq, NEv.sent.injEq, and_true, true_and] at hd
       rw [← hd.2]
       refine ⟨_, rfl, ?_⟩
       first
         | (rw [‹CommandClass.id _ = ccSwitchBinary›] at k; exact k)
         | (rw [‹CommandClass.id _ = ccSwitchMultilevel›] at k; exact k)
         | (rw [‹CommandClass.id _ = ccSensorMultiLevel›] at k; exact k))

/-- C87: and an identified node has been asked for the state of every switch and sensor class it has. (Missing:
several identifications of one node at the same time.) -/
theorem C87_asks_all_states_partial (db : DB) (n : Node) (s : NSt) (hn : FreshOk n) (hf : n.statesOk = false)
    (h : NReach db n s) (h1 : s.nIdent ≤ 1) (hi : s.node.identified = true) (c : UInt8)
    (hc : s.node.hasCommand c = true) (hs : hasState c) :
    ∃ i d, .sent i (some .states) d ∈ s.hist ∧ asksFor c d := by
  have q := coverInv hn hf h h1
  have hid : n.identified = false := by
    cases hx : n.identified with
    | false => rfl
    | true => have := hn.marked hx; rw [hf] at this; cases this
  obtain ⟨p, hp, hcl⟩ := C56_classes_are_mandatory_partial db n s hn hid h h1 hi
  obtain ⟨p', hp', hall⟩ := q.ok ((idInv hn h).marked hi)
  rw [hp] at hp'
  cases hp'
  unfold Node.hasCommand at hc
  rw [hcl] at hc
  cases hm : db.mandatory p.generic p.specific with
  | none => rw [hm] at hc; cases hc
  | some cs =>
    rw [hm] at hc
    simp only [List.any_eq_true, beq_iff_eq] at hc
    obtain ⟨v, hv, rfl⟩ := hc
    exact hall cs hm v hv hs

/-- The complete identification of a switch: four requests, the last one for the state of class 0x25. -/
example : ((nodeRun demoDB (NSt.start (readyNode 3)) (demoIdent 3).dropLast).map fun s =>
    (s.node.identified && s.node.hasCommand 0x25 && decide (s.nIdent ≤ 1) &&
      decide (.sent 0 (some .states) [0x13, 0x03, 0x04, 0x25, 0x02, 0x25] ∈ s.hist) &&
      decide (.sent 0 none [0x41, 0x03] ∈ s.hist) && decide (.sent 0 (some .manufacturer) [0x13, 0x03, 0x04, 0x72, 0x04, 0x00] ∈ s.hist) &&
      decide (.sent 0 (some .endpoints) [0x13, 0x03, 0x04, 0x60, 0x07, 0x25] ∈ s.hist))) = some true := by decide +kernel

example : FreshOk (readyNode 3) ∧ (readyNode 3).statesOk = false ∧ (readyNode 3).id = ((3 : UInt8).toNat : Int) :=
  ⟨readyNode_fresh 3, rfl, rfl⟩

end Verif.Props
