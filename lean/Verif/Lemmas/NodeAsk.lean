import Verif.Lemmas.NodeIdent
import Verif.Spec.NodeAsk

/-
What identifications send.
-/

set_option linter.unusedSimpArgs false
set_option linter.unusedVariables false
set_option maxHeartbeats 4000000

namespace Verif.Lemmas.NodeM

open Verif.Go Verif.Model Verif.Spec

structure AskInv (id : Int) (s : NSt) : Prop where
  idc : s.node.id = id
  sent : ∀ i p d, .sent i p d ∈ s.hist → Query (intToByte id) p d

theorem setManufacturer_id (db : DB) (n : Node) (m : ManufacturerSpecific) : (n.setManufacturer db m).id = n.id := by
  unfold Node.setManufacturer
  simp only
  split <;> rfl

theorem ask_step {db : DB} {id : Int} {s s' : NSt} {l : NLabel} (hi : AskInv id s)
    (h : nodeStep db s l = some s') : AskInv id s' := by
  obtain ⟨k1, k2⟩ := hi
  have a1 : ∀ {n n' : Node} {a : Alarm}, n.alarmOn a = .ok n' → n'.id = n.id := fun h => (alarmOn_ok h).1.id
  have a2 : ∀ {n n' : Node}, n.alarmOff = .ok n' → n'.id = n.id := fun h => (alarmOff_ok h).1.id
  have a3 : ∀ {n n' : Node} {r : Report} {b : Bool}, n.applyState r = .ok (n', b) → n'.id = n.id :=
    fun h => (applyState_core h).id
  node_step h
  all_goals constructor
  all_goals first
    | exact k1
    | exact k2
    | exact (setManufacturer_id _ _ _).trans k1
    | (rename_i hx; exact (a1 hx).trans k1)
    | (rename_i hx; exact (a2 hx).trans k1)
    | (rename_i hx; exact (a3 hx).trans k1)
    | (intro i p d hm; rcases List.mem_cons.1 hm with hm | hm
       · cases hm
         done
       · exact k2 _ _ _ hm)
    | (intro i p d hm; rcases List.mem_cons.1 hm with hm | hm
       · cases hm
         rw [← k1]
         first
           | exact ⟨_, rfl⟩
           | exact ⟨_, _, _, rfl, by simp [*]⟩
           | rfl
       · exact k2 _ _ _ hm)

theorem askInv {db : DB} {n : Node} {s : NSt} (h : NReach db n s) : AskInv n.id s := by
  obtain ⟨ls, h⟩ := h
  refine run_induct (db := db) (P := AskInv n.id) (fun s l s' hp hs => ask_step hp hs) ls _ _ ?_ h
  exact ⟨rfl, by simp [NSt.start]⟩

/-! ### One identification asks everything -/

/-- The classes still to be asked about. -/
def todoOf : IdentAt → Option (List CommandClass)
  | .query t => some t
  | .sensor t => some t
  | _ => none

/-- The mandatory classes have been entered. -/
def past : IdentAt → Bool
  | .absent | .top | .info | .sleep | .classes => false
  | _ => true

def asked (s : NSt) (c : UInt8) : Prop := ∃ i d, .sent i (some .states) d ∈ s.hist ∧ asksFor c d

/-- The mandatory classes are among `cs`. -/
def Covers (db : DB) (n : Node) (P : CommandClass → Prop) : Prop :=
  ∃ p, n.protocolInfo = some p ∧ ∀ cs, db.mandatory p.generic p.specific = some cs → ∀ v ∈ cs, P v

structure CoverInv (db : DB) (s : NSt) : Prop where
  one : s.nIdent ≤ 1
  inf : ∀ i, s.ident i = .info → s.node.protocolInfo = none
  pst : ∀ i, past (s.ident i) = true → Covers db s.node (· ∈ s.node.classes.getD [])
  sub : ∀ i t, todoOf (s.ident i) = some t → ∀ v ∈ t, v ∈ s.node.classes.getD []
  qry : ∀ i t, todoOf (s.ident i) = some t → ∀ v ∈ s.node.classes.getD [], hasState v.id → v ∈ t ∨ asked s v.id
  ok : s.node.statesOk = true → Covers db s.node (fun v => hasState v.id → asked s v.id)

/-- A step that leaves the identifications, the fields that count and the requests alone. -/
theorem cover_same {db : DB} {s s' : NSt} (hi : CoverInv db s) (h1 : s'.nIdent = s.nIdent) (h2 : s'.ident = s.ident)
    (h3 : s'.node.protocolInfo = s.node.protocolInfo) (h4 : s'.node.classes = s.node.classes)
    (h5 : s'.node.statesOk = s.node.statesOk) (h6 : ∀ e ∈ s.hist, e ∈ s'.hist) : CoverInv db s' := by
  obtain ⟨k1, k2, k3, k4, k5, k6⟩ := hi
  have ha : ∀ c, asked s c → asked s' c := fun c ⟨i, d, a, b⟩ => ⟨i, d, h6 _ a, b⟩
  unfold Covers at *
  refine ⟨by rw [h1]; exact k1, ?_, ?_, ?_, ?_, ?_⟩
  · rw [h2, h3]; exact k2
  · unfold Covers; rw [h2, h3, h4]; exact k3
  · rw [h2, h4]; exact k4
  · rw [h2, h4]; exact fun i t ht v hv hs => (k5 i t ht v hv hs).imp_right (ha _)
  · unfold Covers; rw [h3, h5]; exact fun ho => let ⟨p, e, f⟩ := k6 ho; ⟨p, e, fun cs hc v hv hs => ha _ (f cs hc v hv hs)⟩

/-- Identification 0 moves on without touching what counts. -/
theorem cover_goto {db : DB} {s s' : NSt} {a : IdentAt} (hi : CoverInv db s) (h1 : s'.nIdent = s.nIdent)
    (h2 : s'.ident = updN s.ident 0 a)
    (h3 : s'.node.protocolInfo = s.node.protocolInfo) (h4 : s'.node.classes = s.node.classes)
    (h5 : s'.node.statesOk = s.node.statesOk) (h6 : ∀ e ∈ s.hist, e ∈ s'.hist)
    (g1 : a = .info → s.node.protocolInfo = none) (g2 : past a = true → past (s.ident 0) = true)
    (g3 : ∀ t, todoOf a = some t → (∀ v ∈ t, v ∈ s.node.classes.getD []) ∧
      ∀ v ∈ s.node.classes.getD [], hasState v.id → v ∈ t ∨ asked s' v.id) : CoverInv db s' := by
  obtain ⟨k1, k2, k3, k4, k5, k6⟩ := hi
  have ha : ∀ c, asked s c → asked s' c := fun c ⟨i, d, a, b⟩ => ⟨i, d, h6 _ a, b⟩
  unfold Covers at *
  refine ⟨by rw [h1]; exact k1, ?_, ?_, ?_, ?_, ?_⟩
  · rw [h2, h3]; intro i hx
    by_cases h0 : i = 0
    · subst h0; simp [updN] at hx; exact g1 hx
    · simp [updN, h0] at hx; exact k2 i hx
  · unfold Covers; rw [h2, h3, h4]; intro i hx
    by_cases h0 : i = 0
    · subst h0; simp [updN] at hx; exact k3 0 (g2 hx)
    · simp [updN, h0] at hx; exact k3 i hx
  · rw [h2, h4]; intro i t hx
    by_cases h0 : i = 0
    · subst h0; simp [updN] at hx; exact (g3 t hx).1
    · simp [updN, h0] at hx; exact k4 i t hx
  · rw [h2, h4]; intro i t hx
    by_cases h0 : i = 0
    · subst h0; simp [updN] at hx; exact (g3 t hx).2
    · simp [updN, h0] at hx; exact fun v hv hs => (k5 i t hx v hv hs).imp_right (ha _)
  · unfold Covers; rw [h3, h5]; exact fun ho => let ⟨p, e, f⟩ := k6 ho; ⟨p, e, fun cs hc v hv hs => ha _ (f cs hc v hv hs)⟩

theorem cover_step {db : DB} {s s' : NSt} {l : NLabel} (hw : WakeInv s) (hd : IdInv s) (hi : CoverInv db s)
    (h : nodeStep db s l = some s') (h1 : s'.nIdent ≤ 1) : CoverInv db s' := by
  have f := hw.fresh
  have g := hd.ok
  have a1 : ∀ {n n' : Node} {a : Alarm}, n.alarmOn a = .ok n' → SameCore n n' := fun h => (alarmOn_ok h).1
  have a2 : ∀ {n n' : Node}, n.alarmOff = .ok n' → SameCore n n' := fun h => (alarmOff_ok h).1
  have a3 : ∀ {n n' : Node} {r : Report} {b : Bool}, n.applyState r = .ok (n', b) → SameCore n n' :=
    fun h => applyState_core h
  have z : ∀ i, s.ident i ≠ .absent → i = 0 := by
    intro i hx
    have := hi.one
    apply Classical.byContradiction
    intro h0
    exact hx (f i (by omega))
  have k1 := hi.one
  have z' : ∀ i a, s.ident i = a → a ≠ .absent → i = 0 := fun i a h1 h2 => z i (h1 ▸ h2)
  node_step h
  all_goals try (have z0 := z' _ _ (by assumption) (by simp); subst z0)
  all_goals try (exact cover_same hi rfl rfl rfl rfl rfl (fun e he => by simp [he]))
  all_goals try (rename_i hx; exact cover_same hi rfl rfl (a1 hx).protocolInfo (a1 hx).classes (a1 hx).statesOk (fun e he => by simp [he]))
  all_goals try (rename_i hx; exact cover_same hi rfl rfl (a2 hx).protocolInfo (a2 hx).classes (a2 hx).statesOk (fun e he => by simp [he]))
  all_goals try (rename_i hx; exact cover_same hi rfl rfl (a3 hx).protocolInfo (a3 hx).classes (a3 hx).statesOk (fun e he => by simp [he]))
  all_goals try (refine cover_goto hi rfl rfl rfl rfl rfl (fun e he => by simp [he]) ?_ ?_ ?_ <;> simp [*, past, todoOf] <;> done)
  -- identify
  · have hn : s.nIdent = 0 := by simp at h1; omega
    have hz : ∀ i, s.ident i = .absent := fun i => f i (by omega)
    refine ⟨h1, ?_, ?_, ?_, ?_, hi.ok⟩
    · intro i hx; simp [updN, hz] at hx; split at hx <;> cases hx
    · intro i hx; simp [updN, hz] at hx; split at hx <;> simp [past] at hx
    · intro i t hx; simp [updN, hz] at hx; split at hx <;> simp [todoOf] at hx
    · intro i t hx; simp [updN, hz] at hx; split at hx <;> simp [todoOf] at hx
  -- the stick answers with protocol info
  · rename_i hx
    have hz : ∀ i, i ≠ 0 → s.ident i = .absent := fun i h0 => f i (by omega)
    have hn := hi.inf 0 hx
    have ho : s.node.statesOk = false := by
      cases ho : s.node.statesOk with
      | false => rfl
      | true => have := (g ho).1; rw [hn] at this; cases this
    refine ⟨k1, ?_, ?_, ?_, ?_, ?_⟩
    · intro i hy; by_cases h0 : i = 0 <;> simp [updN, h0] at hy; rw [hz i h0] at hy; cases hy
    · intro i hy; by_cases h0 : i = 0 <;> simp [updN, h0, past] at hy; rw [hz i h0] at hy; simp [past] at hy
    · intro i t hy; by_cases h0 : i = 0 <;> simp [updN, h0, todoOf] at hy; rw [hz i h0] at hy; simp [todoOf] at hy
    · intro i t hy; by_cases h0 : i = 0 <;> simp [updN, h0, todoOf] at hy; rw [hz i h0] at hy; simp [todoOf] at hy
    · intro h'; simp [ho] at h'
  -- the classes
  · rename_i p hp hx
    have hz : ∀ i, i ≠ 0 → s.ident i = .absent := fun i h0 => f i (by omega)
    refine ⟨k1, ?_, ?_, ?_, ?_, ?_⟩
    · intro i hy; by_cases h0 : i = 0 <;> simp [updN, h0] at hy; rw [hz i h0] at hy; cases hy
    · intro i hy; exact ⟨p, hp, fun cs hc v hv => by simp [hc, hv]⟩
    · intro i t hy; by_cases h0 : i = 0 <;> simp [updN, h0, todoOf] at hy; rw [hz i h0] at hy; simp [todoOf] at hy
    · intro i t hy; by_cases h0 : i = 0 <;> simp [updN, h0, todoOf] at hy; rw [hz i h0] at hy; simp [todoOf] at hy
    · exact hi.ok
  -- the node is awake: the queries begin
  · refine cover_goto hi rfl rfl rfl rfl rfl (fun e he => by simp [he]) (by simp) (by simp [*, past]) ?_
    intro t ht
    simp [todoOf] at ht
    subst ht
    exact ⟨fun v hv => hv, fun v hv _ => .inl hv⟩
  -- the manufacturer
  · rename_i m hl hx
    have hz : ∀ i, i ≠ 0 → s.ident i = .absent := fun i h0 => f i (by omega)
    have e1 : (s.node.setManufacturer db m).protocolInfo = s.node.protocolInfo := by
      unfold Node.setManufacturer; simp only; split <;> rfl
    have e2 : (s.node.setManufacturer db m).statesOk = s.node.statesOk := by
      unfold Node.setManufacturer; simp only; split <;> rfl
    have e3 : ∀ v ∈ s.node.classes.getD [], v ∈ (s.node.setManufacturer db m).classes.getD [] := by
      intro v hv
      unfold Node.setManufacturer; simp only
      split
      · exact hv
      · simp only
        split
        · rename_i hc _; rw [hc] at hv; simp at hv
        · simp only [Option.getD_some]; exact List.mem_append_left _ hv
    refine ⟨k1, ?_, ?_, ?_, ?_, ?_⟩
    · intro i hy; by_cases h0 : i = 0 <;> simp [updN, h0] at hy; rw [hz i h0] at hy; cases hy
    · intro i hy
      obtain ⟨p, q1, q2⟩ := hi.pst 0 (by rw [hx]; rfl)
      exact ⟨p, e1.trans q1, fun cs hc v hv => e3 v (q2 cs hc v hv)⟩
    · intro i t hy; by_cases h0 : i = 0 <;> simp [updN, h0, todoOf] at hy; rw [hz i h0] at hy; simp [todoOf] at hy
    · intro i t hy; by_cases h0 : i = 0 <;> simp [updN, h0, todoOf] at hy; rw [hz i h0] at hy; simp [todoOf] at hy
    · intro ho
      have ho : s.node.statesOk = true := e2.symm.trans ho
      obtain ⟨p, q1, q2⟩ := hi.ok ho
      exact ⟨p, e1.trans q1, fun cs hc v hv hs => let ⟨j, d, b1, b2⟩ := q2 cs hc v hv hs; ⟨j, d, by simp [b1], b2⟩⟩
  -- all asked
  · rename_i hl hx
    have hz : ∀ i, i ≠ 0 → s.ident i = .absent := fun i h0 => f i (by omega)
    refine ⟨k1, ?_, ?_, ?_, ?_, ?_⟩
    · intro i hy; by_cases h0 : i = 0 <;> simp [updN, h0] at hy; rw [hz i h0] at hy; cases hy
    · intro i hy; by_cases h0 : i = 0 <;> simp [updN, h0, past] at hy; rw [hz i h0] at hy; simp [past] at hy
    · intro i t hy; by_cases h0 : i = 0 <;> simp [updN, h0, todoOf] at hy; rw [hz i h0] at hy; simp [todoOf] at hy
    · intro i t hy; by_cases h0 : i = 0 <;> simp [updN, h0, todoOf] at hy; rw [hz i h0] at hy; simp [todoOf] at hy
    · intro _
      obtain ⟨p, q1, q2⟩ := hi.pst 0 (by rw [hx]; rfl)
      refine ⟨p, q1, fun cs hc v hv hs => ?_⟩
      exact (hi.qry 0 [] (by rw [hx]; rfl) v (q2 cs hc v hv) hs).resolve_left (by simp)
  -- one class
  all_goals
    refine cover_goto hi rfl rfl rfl rfl rfl (fun e he => by simp [he]) (by simp) (by simp [*, past]) ?_
    intro t ht
    simp only [todoOf, Option.some.injEq] at ht
    subst ht
    first
      | (rename_i hx
         exact ⟨hi.sub 0 _ (by rw [hx]; rfl), fun v hv hs => hi.qry 0 _ (by rw [hx]; rfl) v hv hs⟩)
      | (refine ⟨fun v hv => hi.sub 0 _ (by simp only [*]; rfl) v (List.mem_cons_of_mem _ hv), fun v hv hs => ?_⟩
         rcases hi.qry 0 _ (by simp only [*]; rfl) v hv hs with hq | hq
         · rcases List.mem_cons.1 hq with rfl | hq
           · first
               | exact .inr ⟨0, _, List.mem_cons_self, by simp_all [asksFor, rawEncode, ccSwitchBinary, ccSwitchMultilevel, ccSensorMultiLevel]⟩
               | (exfalso; simp_all [hasState, ccSwitchBinary, ccSwitchMultilevel, ccSensorMultiLevel])
           · exact .inl hq
         · exact .inr (let ⟨j, d, b1, b2⟩ := hq; ⟨j, d, by simp [b1], b2⟩))

theorem coverInv {db : DB} {n : Node} {s : NSt} (hn : FreshOk n) (hf : n.statesOk = false)
    (h : NReach db n s) (h1 : s.nIdent ≤ 1) : CoverInv db s := by
  obtain ⟨ls, h⟩ := h
  refine (run_induct_one (db := db) (P := fun s => (WakeInv s ∧ IdInv s) ∧ CoverInv db s)
    (fun s l s' hp hs h1 => ⟨⟨wake_step hp.1.1 hs, id_step hp.1.2 hs⟩, cover_step hp.1.1 hp.1.2 hp.2 hs h1⟩) ls _ _
    ⟨⟨wakeInv_start n, idInv_start hn⟩, ?_⟩ h h1).2
  constructor <;> simp [NSt.start, past, todoOf, hf]

end Verif.Lemmas.NodeM
