import Verif.Model.DevGen
import Verif.Lemmas.Tables
import Verif.Lemmas.Tools

/-
Lemmas about the generator of database/devices.go.
-/

namespace Verif.Lemmas

open Verif.Go Verif.Model Verif.Model.Tables

/-- A text as a number. -/
def codeNat : List Char → Nat
  | [] => 0
  | c :: cs => codeNat cs * 2097152 + (c.toNat + 1)

theorem codeNat_inj : ∀ a b, codeNat a = codeNat b → a = b := by
  have hc : ∀ c : Char, c.toNat + 1 < 2097152 := fun c => by
    have := c.valid
    have : c.toNat < 0x110000 := by
      unfold Char.toNat; simp only [UInt32.isValidChar, Nat.isValidChar] at this; omega
    omega
  intro a
  induction a with
  | nil => intro b h; cases b with
    | nil => rfl
    | cons c cs => simp only [codeNat] at h; omega
  | cons x xs ih =>
    intro b h
    cases b with
    | nil => simp only [codeNat] at h; omega
    | cons y ys =>
      have hx := hc x
      have hy := hc y
      simp only [codeNat] at h
      have h1 : codeNat xs = codeNat ys := by omega
      have h2 : x.toNat = y.toNat := by omega
      rw [ih _ h1, Char.toNat_inj.1 h2]

/-- Membership, for numbers. -/
def isIn (k : Nat) : List Nat → Bool
  | [] => false
  | x :: xs => if Nat.beq x k then true else isIn k xs

theorem isIn_code (k : List Char) (l : List (List Char)) : isIn (codeNat k) (l.map codeNat) = l.any fun x => x == k := by
  induction l with
  | nil => rfl
  | cons x xs ih =>
    rw [List.map_cons, isIn, List.any_cons, ih]
    by_cases h : x = k
    · subst h; simp
    · have : Nat.beq (codeNat x) (codeNat k) = false := by
        rw [← Bool.not_eq_true, Nat.beq_eq]
        exact fun e => h (codeNat_inj _ _ e)
      simp [this, h]

/-- `genRefs` with numbers for the keys. -/
def genRefsN (f : DevFile) (idens : List Nat) : List (List Char) → List Nat × List (List Char)
  | [] => (idens, [])
  | s :: ss =>
    match isIn (codeNat (iden (refIds f s))) idens with
    | true => genRefsN f idens ss
    | false =>
      let r := genRefsN f (codeNat (iden (refIds f s)) :: idens) ss
      (r.1, s :: r.2)

/-- `genDevices` with numbers for the keys. -/
def genDevicesN (idens : List Nat) : List DevFile → List DevRow
  | [] => []
  | f :: fs => ((genRefsN f idens f.refs).2.map (genRow f)) ++ genDevicesN (genRefsN f idens f.refs).1 fs

theorem genRefsN_eq (f : DevFile) (ss : List (List Char)) : ∀ idens : List (List Char),
    genRefsN f (idens.map codeNat) ss = ((genRefs f idens ss).1.map codeNat, (genRefs f idens ss).2) := by
  induction ss with
  | nil => intro idens; rfl
  | cons s ss ih =>
    intro idens
    rw [genRefsN, genRefs, isIn_code]
    cases h : idens.any fun k => k == iden (refIds f s) with
    | true => simp only [h, if_true]; exact ih idens
    | false =>
      have := ih (iden (refIds f s) :: idens)
      rw [List.map_cons] at this
      simp [h, this]

theorem genDevicesN_eq (fs : List DevFile) : ∀ idens : List (List Char),
    genDevicesN (idens.map codeNat) fs = genDevices idens fs := by
  induction fs with
  | nil => intro idens; rfl
  | cons f fs ih =>
    intro idens
    rw [genDevicesN, genDevices, genRefsN_eq]
    dsimp only
    rw [ih]

set_option maxRecDepth 100000 in
theorem gen_table : genDevicesN [] devFiles = devRows := by decide +kernel

/-- The label depends on the name only. -/
theorem caseLabel_iden (x : Ids) : caseLabel x = (iden x).map Char.toLower := by
  unfold caseLabel iden
  simp only [List.map_append, List.map_cons]
  rfl

theorem genRefs_find (f : DevFile) (q : List Char) (ss : List (List Char)) : ∀ idens : List (List Char),
    (∀ k ∈ idens, k.map Char.toLower ≠ q) →
    (((genRefs f idens ss).2.map (genRow f)).find? fun r => r.key == q) =
      ((ss.map (genRow f)).find? fun r => r.key == q) ∧
    (((ss.map (genRow f)).find? fun r => r.key == q) = none → ∀ k ∈ (genRefs f idens ss).1, k.map Char.toLower ≠ q) := by
  induction ss with
  | nil => intro idens h; exact ⟨rfl, fun _ => h⟩
  | cons s ss ih =>
    intro idens h
    have hk : (genRow f s).key = (iden (refIds f s)).map Char.toLower := caseLabel_iden _
    rw [genRefs]
    cases ha : idens.any fun k => k == iden (refIds f s) with
    | true =>
      obtain ⟨k, k1, k2⟩ := List.any_eq_true.1 ha
      have hne : ((genRow f s).key == q) = false := by
        rw [hk]
        rw [beq_iff_eq] at k2
        subst k2
        simpa using h _ k1
      simp only [if_true, List.map_cons, List.find?_cons, hne]
      exact ih idens h
    | false =>
      simp only [Bool.false_eq_true, if_false, List.map_cons, List.find?_cons]
      cases hb : (genRow f s).key == q with
      | true => simp
      | false =>
        refine ih (iden (refIds f s) :: idens) fun k hkk => ?_
        rcases List.mem_cons.1 hkk with rfl | hkk
        · rw [← hk]; simpa using hb
        · exact h k hkk

/-- What the switch finds: the first reference of all files with this label. -/
theorem genDevices_find (q : List Char) (fs : List DevFile) : ∀ idens : List (List Char),
    (∀ k ∈ idens, k.map Char.toLower ≠ q) →
    ((genDevices idens fs).find? fun r => r.key == q) =
      ((fs.flatMap fun f => f.refs.map (genRow f)).find? fun r => r.key == q) := by
  induction fs with
  | nil => intro idens h; rfl
  | cons f fs ih =>
    intro idens h
    obtain ⟨h1, h2⟩ := genRefs_find f q f.refs idens h
    rw [genDevices, List.flatMap_cons, List.find?_append, List.find?_append, h1]
    cases hf : (f.refs.map (genRow f)).find? fun r => r.key == q with
    | some r => simp
    | none => simpa using ih _ (h2 hf)

end Verif.Lemmas
