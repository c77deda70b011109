import Verif.Lemmas.PersistLoad
import Verif.Lemmas.Ctl
import Verif.Spec.PersistRun

/-! What a running controller has in its nodes can be saved. -/

set_option linter.unusedSimpArgs false
set_option linter.unusedVariables false
set_option maxHeartbeats 4000000

namespace Verif.Lemmas.Persist

open Verif.Go Verif.Model Verif.Spec Verif.Lemmas.NodeM Verif.Lemmas.Ctl

/-! ### reports -/

/-- What is needed of a report. -/
def OkReport : Report → Prop
  | .sensorMultiLevel s => Decimal7 s.value
  | .multiChannelEndpoints m => m.endpoints < 2 ^ 63
  | .switchMultilevelV1 c _ => c ≤ 100
  | .switchMultilevelV4 c _ _ _ _ => c ≤ 100
  | _ => True

theorem decimal_int (m : Int) (h : m.natAbs < 2 ^ 32) : Decimal7 (m : Rat) := by
  refine ⟨m * 10000000, ?_, ?_⟩
  · rw [Rat.intCast_mul]
    have : ((10000000 : Int) : Rat) = 10000000 := by rfl
    rw [this, Rat.mul_div_cancel (by decide)]
  · rw [Int.natAbs_mul]
    have : (10000000 : Int).natAbs = 10000000 := rfl
    rw [this]
    omega

theorem decimal_nat (m : Nat) (h : m < 2 ^ 32) : Decimal7 (m : Rat) := by
  have := decimal_int m (by simpa using h)
  rwa [Rat.intCast_natCast] at this

theorem decimal_div (m : Int) (p : Nat) (hp : p ≤ 7) (h : m.natAbs < 2 ^ 32) :
    Decimal7 ((m : Rat) / (10 ^ p : Nat)) := by
  refine ⟨m * (10 ^ (7 - p) : Nat), ?_, ?_⟩
  · rw [Rat.intCast_mul]
    have e : (10000000 : Rat) = ((10 ^ p : Nat) : Rat) * ((10 ^ (7 - p) : Nat) : Rat) := by
      rw [← Rat.natCast_mul, ← Nat.pow_add]
      have : p + (7 - p) = 7 := by omega
      rw [this]
      rfl
    have h1 : ((10 ^ p : Nat) : Rat) ≠ 0 := by
      intro hz
      have := Rat.natCast_inj.1 (hz : ((10 ^ p : Nat) : Rat) = ((0 : Nat) : Rat))
      exact absurd this (Nat.pos_iff_ne_zero.1 (Nat.pow_pos (by decide)))
    have h2 : ((10 ^ (7 - p) : Nat) : Rat) ≠ 0 := by
      intro hz
      have := Rat.natCast_inj.1 (hz : ((10 ^ (7 - p) : Nat) : Rat) = ((0 : Nat) : Rat))
      exact absurd this (Nat.pos_iff_ne_zero.1 (Nat.pow_pos (by decide)))
    rw [e, Rat.intCast_natCast]
    generalize ((10 ^ p : Nat) : Rat) = a at *
    generalize ((10 ^ (7 - p) : Nat) : Rat) = b at *
    grind
  · rw [Int.natAbs_mul]
    have h1 : ((10 ^ (7 - p) : Nat) : Int).natAbs = 10 ^ (7 - p) := rfl
    have h2 : 10 ^ (7 - p) ≤ 10 ^ 7 := Nat.pow_le_pow_right (by decide) (by omega)
    rw [h1]
    calc m.natAbs * 10 ^ (7 - p) ≤ m.natAbs * 10 ^ 7 := Nat.mul_le_mul_left _ h2
      _ < 2 ^ 64 := by omega

theorem sensorRaw_abs (size : Nat) (d : List UInt8) : (sensorRaw size d).natAbs < 2 ^ 32 := by
  unfold sensorRaw
  split
  · rename_i a _
    have := a.toNat_lt
    unfold signed; split <;> omega
  · rename_i a b _
    have := a.toNat_lt; have := b.toNat_lt
    unfold signed; split <;> omega
  · rename_i a b c e _
    have := a.toNat_lt; have := b.toNat_lt; have := c.toNat_lt; have := e.toNat_lt
    unfold signed; split <;> omega
  · decide

theorem sensor_decimal {d : List UInt8} {s : SensorMultiLevel} (h : newSensorMultiLevel d = .ok s) :
    Decimal7 s.value := by
  unfold newSensorMultiLevel at h
  split at h
  · rename_i t c rest
    dsimp only at h
    split at h
    · cases h
    · injection h with h
      subst h
      dsimp only
      split
      · refine decimal_div _ _ ?_ (sensorRaw_abs _ _)
        rw [UInt8.toNat_shiftRight]
        have : ((5 : UInt8).toNat % 8) = 5 := rfl
        rw [this, Nat.shiftRight_eq_div_pow]
        have := (c &&& 0xE0).toNat_lt
        omega
      · exact decimal_int _ (sensorRaw_abs _ _)
  · cases h

theorem map_ok {α β : Type} {x : GoRet α} {f : α → β} {y : β} (h : x.map f = .ok y) : ∃ a, x = .ok a ∧ y = f a := by
  cases x with
  | error e => cases h
  | ok a => injection h with h; exact ⟨a, rfl, h.symm⟩

theorem decoded_ok {r : Report} (h : Decoded r) : OkReport r := by
  obtain ⟨c, cl, d, h⟩ := h
  unfold newReport at h
  repeat' split at h
  all_goals first
    | (cases h; done)
    | (obtain ⟨a, h1, rfl⟩ := map_ok h; first | trivial | exact sensor_decimal h1 | skip)
    | skip
  · unfold newMultiChannelEndpoints at h1
    split at h1
    · rename_i b n _
      injection h1 with h1
      subst h1
      have := n.toNat_lt
      show n.toNat < 2 ^ 63
      omega
    · cases h1
  · unfold newSwitchBinaryV1 at h
    split at h <;> cases h
    trivial
  · unfold newSwitchBinaryV2 at h
    split at h <;> cases h
    trivial
  · unfold newSwitchMultilevelV1 at h
    split at h <;> cases h
    exact Nat.min_le_right _ _
  · unfold newSwitchMultilevelV4 at h
    split at h <;> cases h
    exact Nat.min_le_right _ _
  · injection h with h
    subst h
    trivial

/-! ### nodes -/

theorem nodup_set {κ ν : Type} [DecidableEq κ] {m : GoMap κ ν} (h : (m.map Prod.fst).Nodup) (k : κ) (v : ν) :
    ((m.set k v).map Prod.fst).Nodup ∧ ∀ x, x ∈ (m.set k v).map Prod.fst → x = k ∨ x ∈ m.map Prod.fst := by
  induction m with
  | nil => simp [GoMap.set]
  | cons e m ih =>
    obtain ⟨k', v'⟩ := e
    simp only [List.map_cons, List.nodup_cons] at h
    obtain ⟨h1, h2⟩ := ih h.2
    rw [GoMap.set]
    split
    · rename_i e
      subst e
      exact ⟨by simpa using h, by intro x hx; exact .inr (by simpa using hx)⟩
    · rename_i e
      constructor
      · simp only [List.map_cons, List.nodup_cons]
        refine ⟨?_, h1⟩
        intro hm
        rcases h2 _ hm with hk | hk
        · exact e hk
        · exact h.1 hk
      · intro x hx
        simp only [List.map_cons, List.mem_cons] at hx ⊢
        rcases hx with rfl | hx
        · exact .inr (.inl rfl)
        · rcases h2 _ hx with hk | hk
          · exact .inl hk
          · exact .inr (.inr hk)

theorem mem_set {κ ν : Type} [DecidableEq κ] {m : GoMap κ ν} {k : κ} {v : ν} {e : κ × ν} (h : e ∈ m.set k v) :
    e = (k, v) ∨ e ∈ m := by
  induction m with
  | nil => left; simpa [GoMap.set] using h
  | cons x m ih =>
    obtain ⟨k', v'⟩ := x
    rw [GoMap.set] at h
    split at h
    · rcases List.mem_cons.1 h with h | h
      · exact .inl h
      · exact .inr (by simp [h])
    · rcases List.mem_cons.1 h with h | h
      · exact .inr (by simp [h])
      · rcases ih h with h | h
        · exact .inl h
        · exact .inr (by simp [h])

theorem savable_setBool {n n' : Node} {k : List Char} {v : Bool} (h : Savable n) (he : n.setBool k v = .ok n') :
    Savable n' := by
  unfold Node.setBool mapPut at he
  split at he
  · cases he
  · rename_i m hm
    cases he
    refine ⟨h.id, ?_, h.mapF, h.dec, h.eps⟩
    intro m' hm'
    injection hm' with hm'
    subst hm'
    exact (nodup_set (h.mapB m hm) _ _).1

theorem savable_setFloat {n n' : Node} {k : List Char} {v : Rat} (h : Savable n) (hv : Decimal7 v)
    (he : n.setFloat k v = .ok n') : Savable n' := by
  unfold Node.setFloat mapPut at he
  split at he
  · cases he
  · rename_i m hm
    cases he
    refine ⟨h.id, h.mapB, ?_, ?_, h.eps⟩
    · intro m' hm'
      injection hm' with hm'
      subst hm'
      exact (nodup_set (h.mapF m hm) _ _).1
    · intro m' hm' e hmem
      injection hm' with hm'
      subst hm'
      rcases mem_set hmem with rfl | hmem
      · exact hv
      · exact h.dec m hm e hmem

theorem savable_alarmOn {n n' : Node} {a : Alarm} (h : Savable n) (he : n.alarmOn a = .ok n') : Savable n' := by
  unfold Node.alarmOn at he
  obtain ⟨n1, h1, he⟩ := res_bind_ok he
  have s1 := savable_setBool h h1
  have ha := a.type.toNat_lt
  split at he
  · obtain ⟨n2, h2, he⟩ := res_bind_ok he
    exact savable_setFloat (savable_setFloat s1 (decimal_nat _ (by omega)) h2) (decimal_nat _ (by omega)) he
  · injection he with he
    exact he ▸ s1

theorem savable_alarmOff {n n' : Node} (h : Savable n) (he : n.alarmOff = .ok n') : Savable n' := by
  unfold Node.alarmOff at he
  obtain ⟨n1, h1, he⟩ := res_bind_ok he
  exact savable_setFloat (savable_setBool h h1) (decimal_nat 0 (by decide)) he

theorem savable_applyState {n n' : Node} {r : Report} {b : Bool} (h : Savable n) (hr : OkReport r)
    (he : n.applyState r = .ok (n', b)) : Savable n' := by
  unfold Node.applyState at he
  split at he
  · obtain ⟨n1, h1, he⟩ := res_bind_ok he
    cases he
    exact savable_setBool h h1
  · obtain ⟨n1, h1, he⟩ := res_bind_ok he
    cases he
    exact savable_setBool h h1
  · obtain ⟨n1, h1, he⟩ := res_bind_ok he
    obtain ⟨n2, h2, he⟩ := res_bind_ok he
    cases he
    exact savable_setFloat (savable_setBool h h1) (decimal_nat _ (by simp only [OkReport] at hr; omega)) h2
  · obtain ⟨n1, h1, he⟩ := res_bind_ok he
    obtain ⟨n2, h2, he⟩ := res_bind_ok he
    cases he
    exact savable_setFloat (savable_setBool h h1) (decimal_nat _ (by simp only [OkReport] at hr; omega)) h2
  · obtain ⟨n1, h1, he⟩ := res_bind_ok he
    cases he
    exact savable_setFloat h hr h1
  · cases he
    exact h

theorem savable_endpoints {n : Node} (h : Savable n) (k : Nat) (hk : k < 2 ^ 63) :
    Savable { n with endpoints := some (n.makeEndpoints k) } := by
  refine ⟨h.id, h.mapB, h.mapF, h.dec, ?_⟩
  intro es he e hm
  injection he with he
  subst he
  obtain ⟨i, hi, rfl⟩ := List.mem_map.1 hm
  have := List.mem_range.1 hi
  exact ⟨by dsimp only; omega, by intro m hm; injection hm with hm; subst hm; simp,
    by intro m hm; injection hm with hm; subst hm; simp,
    by intro m hm; injection hm with hm; subst hm; simp⟩

theorem savable_of {n n' : Node} (h : Savable n) (h1 : n'.id = n.id) (h2 : n'.stateBool = n.stateBool)
    (h3 : n'.stateFloat = n.stateFloat) (h4 : n'.endpoints = n.endpoints) : Savable n' :=
  ⟨h1 ▸ h.id, h2 ▸ h.mapB, h3 ▸ h.mapF, h3 ▸ h.dec, h4 ▸ h.eps⟩

theorem savable_step {db : DB} {s s' : NSt} {l : NLabel} (hi : Savable s.node) (hl : Sensible l)
    (h : nodeStep db s l = some s') : Savable s'.node := by
  node_step h
  all_goals first
    | exact hi
    | exact savable_of hi rfl rfl rfl rfl
    | exact savable_alarmOn hi (by assumption)
    | exact savable_alarmOff hi (by assumption)
    | exact savable_applyState hi (decoded_ok hl) (by assumption)
    | (refine savable_of hi ?_ ?_ ?_ ?_ <;> simp [setManufacturer_fields]; done)
    | exact savable_endpoints hi _ (decoded_ok hl)
    | (refine ⟨hi.id, hi.mapB, hi.mapF, hi.dec, ?_⟩
       intro es he e hm
       injection he with he
       subst he
       cases hm)

/-! ### the controller -/

structure SavInv (s : CSt) : Prop where
  heap : ∀ r, r < s.nHeap → Savable (s.heap r).node
  nodup : (s.list.map Prod.fst).Nodup
  deliv : ∀ k r, reportIn (s.deliv k) = some r → Decoded r
  todo : ∀ id ∈ DiscAt.todo s.disc, (0 : Int) ≤ id ∧ id < 2 ^ 63

theorem savable_new {id : Int} (h : (0 : Int) ≤ id ∧ id < 2 ^ 63) : Savable (NSt.start (newNode id)).node :=
  ⟨⟨Int.le_trans (by decide) h.1, h.2⟩, by intro m hm; injection hm with hm; subst hm; simp,
    by intro m hm; injection hm with hm; subst hm; simp,
    by intro m hm; injection hm with hm; subst hm; simp, by intro es he; cases he⟩

theorem todo_active {bm : List Bool} (h : bm.length < 2 ^ 63) : ∀ id ∈ activeIds bm, (0 : Int) ≤ id ∧ id < 2 ^ 63 := by
  intro id hid
  unfold activeIds at hid
  obtain ⟨p, hp, rfl⟩ := List.mem_map.1 hid
  have := (List.mem_filter.1 hp).1
  have h2 := List.snd_lt_of_mem_zipIdx this
  have hz := (List.mem_filter.1 hp).2
  omega

theorem nodup_put {m : GoMap Int Nat} (h : (m.map Prod.fst).Nodup) (id : Int) (r : Nat) :
    ((listPut m id r).map Prod.fst).Nodup := (nodup_set h id r).1

theorem savInv_step {db : DB} {s s' : CSt} {l : CLabel} (hc : CInv s) (hi : SavInv s) (hl : SensibleC l)
    (h : cStep db s l = some s') : SavInv s' := by
  obtain ⟨i1, i2, i3, i4⟩ := hi
  have k6 := hc.ref
  have k7 := hc.dref
  ctl_step h
  all_goals try have q1 := congrArg DiscAt.ref (by assumption : CSt.disc s = _)
  all_goals try have q4 := congrArg DiscAt.todo (by assumption : CSt.disc s = _)
  all_goals try have q6 := congrArg DelivAt.ref (by assumption : CSt.deliv s _ = _)
  all_goals try have q7 := congrArg reportIn (by assumption : CSt.deliv s _ = _)
  all_goals try have sv := fun hs hl => savable_step hs hl (by assumption)
  all_goals try simp only [DiscAt.ref, DiscAt.todo, DelivAt.ref, reportIn, SensibleC] at q1 q4 q6 q7 hl
  all_goals constructor
  all_goals try simp only [put_heap, put_nHeap, put_list, put_disc, put_nDeliv, put_deliv, put_crashed, push_heap, push_nHeap, push_list, push_disc, push_nDeliv, push_deliv, push_crashed, DiscAt.ref, DiscAt.todo, DelivAt.ref]
  all_goals first
    | assumption
    | exact nodup_put i2 _ _
    | exact todo_active hl
    | grind [updN, reportIn, Sensible, savable_new, DiscAt.todo, SensibleC]

theorem savable_loaded {n : Node} (h : Savable n) : Savable (loaded n) := by
  refine ⟨h.id, h.mapB, h.mapF, h.dec, ?_⟩
  intro es he e hm
  unfold loaded Node.link at he
  dsimp only at he
  cases hn : n.endpoints with
  | none => rw [hn] at he; cases he
  | some xs =>
    rw [hn] at he
    injection he with he
    subst he
    obtain ⟨x, hx, rfl⟩ := List.mem_map.1 hm
    have := h.eps xs hn x hx
    exact ⟨this.id, this.mapB, this.mapF, this.dec⟩

theorem savInv_loads : ∀ {ns : List Node} {s : CSt}, SavInv s → (∀ n ∈ ns, Savable n) → SavInv (s.loadNodes ns) := by
  intro ns
  induction ns with
  | nil => intro s h _; exact h
  | cons n ns ih =>
    intro s h hn
    refine ih (s := s.loadNode n) ?_ fun m hm => hn m (by simp [hm])
    obtain ⟨i1, i2, i3, i4⟩ := h
    refine ⟨?_, nodup_put i2 _ _, i3, i4⟩
    intro r hr
    show Savable (updN s.heap s.nHeap (NSt.start (loaded n)) r).node
    unfold updN
    split
    · exact savable_loaded (hn n (by simp))
    · exact i1 r (by have : r < s.nHeap + 1 := hr; omega)

theorem savInv_start {f : Bool} {ns : List Node} (hn : ∀ n ∈ ns, Savable n) : SavInv (start f ns) :=
  savInv_loads ⟨fun r hr => absurd hr (Nat.not_lt_zero r), List.nodup_nil, fun k r hr => (by cases hr),
    fun id hid => (by cases hid)⟩ hn

theorem savInv_run {db : DB} : ∀ (ls : List CLabel) {s s' : CSt}, CInv s → SavInv s → (∀ l ∈ ls, SensibleC l) →
    cRun db s ls = some s' → CInv s' ∧ SavInv s' := by
  intro ls
  induction ls with
  | nil => intro s s' hc hi _ h; cases h; exact ⟨hc, hi⟩
  | cons l ls ih =>
    intro s s' hc hi hl h
    rw [cRun] at h
    cases hs : cStep db s l with
    | none => rw [hs] at h; cases h
    | some s1 =>
      rw [hs] at h
      exact ih (cinv_step hc hs) (savInv_step hc hi (hl l (by simp)) hs) (fun x hx => hl x (by simp [hx])) h

theorem listOk_nodes {s : CSt} (hc : CInv s) (hi : SavInv s) : ListOk s.nodes := by
  refine ⟨?_, ?_, ?_⟩
  · simpa [CSt.nodes, Function.comp_def] using hi.nodup
  · intro e he
    obtain ⟨x, hx, rfl⟩ := List.mem_map.1 he
    exact (hc.list x.1 x.2 (mem_get hi.nodup hx)).2
  · intro e he
    obtain ⟨x, hx, rfl⟩ := List.mem_map.1 he
    exact hi.heap _ (hc.list x.1 x.2 (mem_get hi.nodup hx)).1

end Verif.Lemmas.Persist
