import Verif.Model.Database
import Verif.Lemmas.Serial
import Verif.Spec.Tools

set_option linter.unusedSimpArgs false

namespace Verif.Lemmas

open Verif.Go Verif.Model Verif.Model.Tables Verif.Spec

/-- Two joined triples are equal only if the triples are, when one has no underscore inside. -/
theorem split_us (a b : List Char) (ha : '_' ∉ a) : ∀ x y : List Char, a ++ '_' :: x = b ++ '_' :: y →
    '_' ∉ x ∨ ('_' ∉ b) → ('_' ∉ b) → a = b ∧ x = y := by
  induction a generalizing b with
  | nil =>
    intro x y h _ hb
    cases b with
    | nil => simpa using h
    | cons c cs => simp at h; exact absurd (h.1 ▸ List.mem_cons_self) hb
  | cons c cs ih =>
    intro x y h _ hb
    cases b with
    | nil => simp at h; exact absurd (h.1 ▸ List.mem_cons_self) ha
    | cons d ds =>
      simp only [List.cons_append, List.cons.injEq] at h
      obtain ⟨rfl, h⟩ := h
      obtain ⟨h1, h2⟩ := ih ds (fun hm => ha (.tail _ hm)) x y h (.inr fun hm => hb (.tail _ hm)) (fun hm => hb (.tail _ hm))
      exact ⟨by rw [h1], h2⟩

theorem count_join (m t p : List Char) : (m ++ '_' :: (t ++ '_' :: p)).count '_' =
    m.count '_' + t.count '_' + p.count '_' + 2 := by
  simp [List.count_append, List.count_cons]; omega

/-- A key made of parts without underscore determines the parts. -/
theorem join_inj {a b c m t p : List Char} (ha : '_' ∉ a) (hb : '_' ∉ b) (hc : '_' ∉ c)
    (h : a ++ '_' :: (b ++ '_' :: c) = m ++ '_' :: (t ++ '_' :: p)) : m = a ∧ t = b ∧ p = c := by
  have hcnt := congrArg (List.count '_') h
  rw [count_join, count_join, List.count_eq_zero.2 ha, List.count_eq_zero.2 hb, List.count_eq_zero.2 hc] at hcnt
  have hm : '_' ∉ m := List.count_eq_zero.1 (by omega)
  have ht : '_' ∉ t := List.count_eq_zero.1 (by omega)
  obtain ⟨rfl, h'⟩ := split_us a m ha _ _ h (.inr hm) hm
  obtain ⟨rfl, rfl⟩ := split_us b t hb _ _ h' (.inr ht) ht
  exact ⟨rfl, rfl, rfl⟩

/-- What the table check establishes for one row: the key is the lower-case ids, which contain no
underscore and are four hexadecimal digits each. -/
def rowOk (r : DevRow) : Bool :=
  let m := r.manufacturerID.map Char.toLower
  let t := r.productType.map Char.toLower
  let p := r.productID.map Char.toLower
  r.key == m ++ '_' :: (t ++ '_' :: p) && !m.contains '_' && !t.contains '_' && !p.contains '_' &&
    r.classes.length ≤ 21 &&
  ([m, t, p].all fun s => match hexNat s with
    | some n => n < 65536 && s == hex4 (UInt8.ofNat (n / 256)) (UInt8.ofNat (n % 256))
    | none => false)

theorem rows_ok : devRows.all rowOk = true := by decide +kernel

/-- The key as a number. -/
def keyNat (s : List Char) : Nat := s.foldl (fun n c => n * 256 + c.toNat) 0

/-- Checks that the keys are distinct with a bit set over a hash. -/
def distinct (P : Nat) (seen : Nat) : List Nat → Bool
  | [] => true
  | x :: xs => !seen.testBit (x % P) && distinct P (seen ||| (1 <<< (x % P))) xs

theorem distinct_sound (P : Nat) (xs : List Nat) : ∀ seen, distinct P seen xs = true →
    xs.Nodup ∧ ∀ x ∈ xs, seen.testBit (x % P) = false := by
  induction xs with
  | nil => intro seen _; simp
  | cons x xs ih =>
    intro seen h
    rw [distinct, Bool.and_eq_true, Bool.not_eq_true'] at h
    obtain ⟨i1, i2⟩ := ih _ h.2
    have key : ∀ y ∈ xs, seen.testBit (y % P) = false ∧ y % P ≠ x % P := by
      intro y hy
      have := i2 y hy
      rw [Nat.testBit_or, Bool.or_eq_false_iff] at this
      refine ⟨this.1, fun he => ?_⟩
      have h2 := this.2
      rw [he, Nat.testBit_shiftLeft] at h2
      simp at h2
    refine ⟨List.nodup_cons.2 ⟨fun hm => (key x hm).2 rfl, i1⟩, ?_⟩
    intro y hy
    rcases List.mem_cons.1 hy with rfl | hy
    · exact h.1
    · exact (key y hy).1

theorem keys_distinct : distinct 25393 0 (devRows.map fun r => keyNat r.key) = true := by decide +kernel

end Verif.Lemmas
