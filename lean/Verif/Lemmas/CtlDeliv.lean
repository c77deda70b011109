import Verif.Lemmas.CtlDisc

/-
Deliveries of reports.
-/

set_option linter.unusedSimpArgs false
set_option linter.unusedVariables false
set_option maxHeartbeats 4000000

namespace Verif.Lemmas.Ctl

open Verif.Go Verif.Model Verif.Lemmas.NodeM Verif.Spec

@[simp] theorem arrival_push (s : CSt) (e : Event) (k : Nat) : arrivalOf k (s.push e).hist = arrivalOf k s.hist := rfl
@[simp] theorem arrival_put (s : CSt) (ref : Nat) (n : NSt) (k : Nat) :
    arrivalOf k (s.put ref n).hist = arrivalOf k s.hist := by
  unfold CSt.put; simp only; split <;> rfl
@[simp] theorem arrivedFrom_put (s : CSt) (ref : Nat) (n : NSt) (id : UInt8) :
    arrivedFrom id (s.put ref n).hist = arrivedFrom id s.hist := by
  unfold CSt.put; simp only; split <;> rfl
@[simp] theorem arrivedFrom_push (s : CSt) (e : Event) (id : UInt8) :
    arrivedFrom id (s.push e).hist = arrivedFrom id s.hist := rfl

/-- What a delivery carries. -/
def DelivAt.carries : DelivAt → Option (UInt8 × Report)
  | .call id r | .look id r => some (id, r)
  | _ => none

/-- The node and the report a delivery is about to process. -/
def DelivAt.job : DelivAt → Option (Nat × Report)
  | .process ref r => some (ref, r)
  | _ => none

structure ArrInv (s : CSt) : Prop where
  fresh : ∀ k, s.nDeliv ≤ k → arrivalOf k s.hist = none
  carries : ∀ k c, DelivAt.carries (s.deliv k) = some c → arrivalOf k s.hist = some c
  job : ∀ k ref r, DelivAt.job (s.deliv k) = some (ref, r) → ∃ id : UInt8, arrivalOf k s.hist = some (id, r) ∧
    (s.heap ref).node.id = id.toNat

theorem arr_step {db : DB} {s s' : CSt} {l : CLabel} (hc : CInv s) (hi : ArrInv s)
    (h : cStep db s l = some s') : ArrInv s' := by
  obtain ⟨k1, k2, k3⟩ := hi
  have c3 := hc.list
  have c7 := hc.dref
  have c13 := hc.fresh
  have j1 : ∀ k ref r, DelivAt.job (s.deliv k) = some (ref, r) → ref < s.nHeap := by
    intro k ref r h; refine c7 k ref ?_
    cases hx : s.deliv k <;> rw [hx] at h <;> simp_all [DelivAt.job, DelivAt.ref]
  clear hc c7
  ctl_step h
  all_goals try have f := (frame_step (by assumption)).id
  all_goals constructor
  all_goals try simp only [put_heap, put_nHeap, put_list, put_disc, put_nDeliv, put_deliv, put_crashed, push_heap, push_nHeap, push_list, push_disc, push_nDeliv, push_deliv, push_crashed, arrival_put, arrival_push]
  all_goals first
    | assumption
    | grind [updN, arrivalOf, DelivAt.carries, DelivAt.job, start_new]

theorem arr_loads {ns : List Node} : ∀ {s : CSt}, (∀ k, s.deliv k = .absent) → ArrInv s →
    ArrInv (s.loadNodes ns) ∧ ∀ k, (s.loadNodes ns).deliv k = .absent := by
  induction ns with
  | nil => intro s h0 h; exact ⟨h, h0⟩
  | cons n ns ih =>
    intro s h0 h
    refine ih (s := s.loadNode n) h0 ?_
    obtain ⟨k1, k2, k3⟩ := h
    refine ⟨k1, k2, fun k ref r h => ?_⟩
    have : (s.loadNode n).deliv k = .absent := h0 k
    rw [this] at h; cases h

theorem arrInv {db : DB} {f : Bool} {ns : List Node} {s : CSt} (hg : GoodFile ns) (h : CReach db f ns s) :
    ArrInv s := by
  obtain ⟨ls, h⟩ := h
  have := crun_induct (db := db) (P := fun s => CInv s ∧ ArrInv s)
    (fun s l s' hp hs => ⟨cinv_step hp.1 hs, arr_step hp.1 hp.2 hs⟩) ls _ _
    ⟨cinv_start hg, (arr_loads (s := newController f) (fun _ => rfl)
      ⟨fun _ _ => rfl, fun _ _ h => (by cases h), fun _ _ _ h => (by cases h)⟩).1⟩ h
  exact this.2

/-! ### One report after the other -/

/-- Runs in which a report arrives only when the deliveries of all earlier ones are over. -/
def InOrder (db : DB) : CSt → List CLabel → Prop
  | _, [] => True
  | s, l :: ls => (∀ id r, l = .arrive id r → ∀ k, k < s.nDeliv → s.deliv k = .done) ∧
      ∀ s', cStep db s l = some s' → InOrder db s' ls

/-- The report from `id` (node `ref`) that is on its way. -/
def DelivAt.pending (id : UInt8) (ref : Nat) : DelivAt → List Report
  | .call id' r | .look id' r => if id' = id then [r] else []
  | .process ref' r => if ref' = ref then [r] else []
  | _ => []

structure OrdInv (id : UInt8) (ref : Nat) (A B : List Report) (s : CSt) : Prop where
  done : s.disc = .done
  list : s.list.get id.toNat = some ref
  over : ∀ k, k + 1 < s.nDeliv → s.deliv k = .done
  here : ∀ k, s.nDeliv = k + 1 → s.deliv k ≠ .absent ∧ s.deliv k ≠ .stuck
  same : ∃ X, arrivedFrom id s.hist = A ++ X ∧
    B ++ X = appliedTo ref s.hist ++ (if s.nDeliv = 0 then [] else DelivAt.pending id ref (s.deliv (s.nDeliv - 1)))

theorem toNat_inj {a b : UInt8} (h : (a.toNat : Int) = b.toNat) : a = b := by
  apply UInt8.toNat.inj; omega

theorem ord_move {id : UInt8} {ref : Nat} {A B : List Report} {s s' : CSt} {k : Nat} {p : DelivAt}
    (hi : OrdInv id ref A B s) (hk : s.nDeliv = k + 1) (h1 : s'.disc = s.disc) (h2 : s'.list = s.list)
    (h3 : s'.nDeliv = s.nDeliv) (h4 : s'.deliv = updN s.deliv k p) (hp : p ≠ .absent ∧ p ≠ .stuck)
    (h5 : arrivedFrom id s'.hist = arrivedFrom id s.hist)
    (h6 : appliedTo ref s'.hist ++ DelivAt.pending id ref p =
      appliedTo ref s.hist ++ DelivAt.pending id ref (s.deliv k)) : OrdInv id ref A B s' := by
  obtain ⟨k1, k2, k3, k4, X, k5, k6⟩ := hi
  refine ⟨by rw [h1]; exact k1, by rw [h2]; exact k2, ?_, ?_, X, by rw [h5]; exact k5, ?_⟩
  · intro j hj
    rw [h3] at hj
    rw [h4]
    simp only [updN, if_neg (show j ≠ k by omega)]
    exact k3 j hj
  · intro j hj
    rw [h3, hk] at hj
    obtain rfl : k = j := by omega
    rw [h4]
    simpa [updN] using hp
  · rw [k6, h3, hk]
    simp only [Nat.add_sub_cancel, h4, updN, if_true, if_neg (Nat.succ_ne_zero k)]
    exact h6.symm

theorem ord_put {id : UInt8} {ref : Nat} {A B : List Report} {s : CSt} (hi : OrdInv id ref A B s) (r : Nat) (n : NSt) :
    OrdInv id ref A B (s.put r n) := by
  obtain ⟨k1, k2, k3, k4, X, k5, k6⟩ := hi
  constructor
  all_goals simp only [put_disc, put_list, put_nDeliv, put_deliv, arrivedFrom_put, applied_put]
  · exact k1
  · exact k2
  · exact k3
  · exact k4
  · exact ⟨X, k5, k6⟩

theorem ord_step {db : DB} {id : UInt8} {ref : Nat} {A B : List Report} {s s' : CSt} {l : CLabel} (hc : CInv s)
    (hi : OrdInv id ref A B s) (ho : ∀ id r, l = .arrive id r → ∀ k, k < s.nDeliv → s.deliv k = .done)
    (h : cStep db s l = some s') : OrdInv id ref A B s' := by
  have hi' := hi
  obtain ⟨k1, k2, k3, k4, X, k5, k6⟩ := hi
  have c3 := hc.list
  have c13 := hc.fresh
  have hkl : ∀ k, s.deliv k ≠ .absent → s.deliv k ≠ .done → s.nDeliv = k + 1 := by
    intro k h1 h2
    rcases Nat.lt_trichotomy (k + 1) s.nDeliv with hlt | heq | hgt
    · exact absurd (k3 k hlt) h2
    · exact heq.symm
    · exact absurd (c13 k (by omega)) h1
  have hl0 : s.disc.locks = false := by rw [k1]; rfl
  have hw0 : s.disc.writes = false := by rw [k1]; rfl
  have inj : ∀ a : UInt8, s.list.get a.toNat = some ref → a = id := by
    intro a ha
    have h1 := (c3 _ _ ha).2
    have h2 := (c3 _ _ k2).2
    exact toNat_inj (h1.symm.trans h2)
  clear hc c3
  ctl_step h
  all_goals first
    | exact ⟨k1, k2, k3, k4, X, k5, k6⟩
    | exact ord_put hi' _ _
    | (exfalso; simp_all; done)
    | skip
  · rename_i id' r'
    have hall := ho _ _ rfl
    have h0 : (if s.nDeliv = 0 then [] else DelivAt.pending id ref (s.deliv (s.nDeliv - 1))) = [] := by
      split
      · rfl
      · rw [hall _ (by omega)]; rfl
    rw [h0, List.append_nil] at k6
    refine ⟨k1, k2, ?_, ?_, X ++ (if id' = id then [r'] else []), ?_, ?_⟩
    · intro j hj
      have hj : j < s.nDeliv := by simp at hj; omega
      simp only [updN, if_neg (show j ≠ s.nDeliv by omega)]
      exact hall j hj
    · intro j hj
      have hj : s.nDeliv = j := by simp at hj; omega
      subst hj
      simp [updN]
    · simp only [arrivedFrom]
      split <;> simp [k5]
    · rw [← List.append_assoc, k6]
      simp [appliedTo, updN, DelivAt.pending]
  · rename_i k _ id' r' heq _
    refine ord_move hi' (hkl k (by rw [heq]; simp) (by rw [heq]; simp)) rfl rfl rfl rfl (by simp) rfl ?_
    simp [heq, DelivAt.pending]
  · rename_i k _ id' r' heq _ _ hg
    refine ord_move hi' (hkl k (by rw [heq]; simp) (by rw [heq]; simp)) rfl rfl rfl rfl (by simp) rfl ?_
    have : id' ≠ id := by rintro rfl; rw [k2] at hg; cases hg
    simp [heq, DelivAt.pending, this]
  · rename_i k _ id' r' heq _ _ ref' hg
    refine ord_move hi' (hkl k (by rw [heq]; simp) (by rw [heq]; simp)) rfl rfl rfl rfl (by simp) rfl ?_
    have : ref' = ref ↔ id' = id := by
      constructor
      · rintro rfl; exact inj _ hg
      · rintro rfl; rw [k2] at hg; cases hg; rfl
    simp [heq, DelivAt.pending, this]
  · rename_i k _ ref' r' heq _ _
    refine ord_move hi' (hkl k (by rw [heq]; simp) (by rw [heq]; simp)) (put_disc ..) (put_list ..)
      (put_nDeliv ..) rfl (by simp) (arrivedFrom_put ..) ?_
    rw [applied_put, heq]
    simp only [appliedTo, DelivAt.pending]
    split <;> simp

theorem ord_run {db : DB} {f : Bool} {ns : List Node} {id : UInt8} {ref : Nat} {A B : List Report}
    (hg : GoodFile ns) : ∀ (ls : List CLabel) (s s' : CSt), CReach db f ns s → OrdInv id ref A B s →
      InOrder db s ls → cRun db s ls = some s' → OrdInv id ref A B s' := by
  intro ls
  induction ls with
  | nil => intro s s' _ hi _ h; cases h; exact hi
  | cons l ls ih =>
    intro s s' hr hi ho h
    simp only [cRun] at h
    cases hl : cStep db s l with
    | none => rw [hl] at h; cases h
    | some s1 =>
      rw [hl] at h
      exact ih s1 s' (creach_step hr hl) (ord_step (cinv hg hr) hi ho.1 hl) (ho.2 s1 hl) h

end Verif.Lemmas.Ctl
