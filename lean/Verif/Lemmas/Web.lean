import Verif.Model.Example
import Verif.Spec.Web
import Verif.Lemmas.PersistNum
import Verif.Lemmas.NodeM

/-
Numbers in the paths of the example's web interface.
-/

set_option linter.unusedSimpArgs false

namespace Verif.Lemmas.Web

open Verif.Go Verif.Model Verif.Model.Web Verif.Spec Verif.Lemmas Verif.Lemmas.Persist

theorem isDig_iff (c : Char) : isDig c = true ↔ 48 ≤ c.toNat ∧ c.toNat ≤ 57 := by
  unfold isDig
  simp only [Bool.and_eq_true, decide_eq_true_eq, Char.le_def, UInt32.le_iff_toNat_le]
  rfl

theorem atoiDigits_eq : ∀ (s : List Char) (v : Nat),
    atoiDigits v s = if (∀ c ∈ s, 48 ≤ c.toNat ∧ c.toNat ≤ 57) then some (v * 10 ^ s.length + digitsValue s) else none
  | [], v => by simp [atoiDigits, digitsValue]
  | c :: s, v => by
    rw [atoiDigits]
    by_cases h : isDig c = true
    · rw [if_pos h, atoiDigits_eq s]
      have hc := (isDig_iff c).1 h
      by_cases hs : ∀ c ∈ s, 48 ≤ c.toNat ∧ c.toNat ≤ 57
      · rw [if_pos hs, if_pos (by simpa using ⟨hc, hs⟩), digitsValue, List.length_cons, Nat.pow_succ]
        congr 1
        rw [Nat.add_mul, Nat.mul_comm 10 v, Nat.mul_assoc, Nat.mul_comm 10]
        omega
      · rw [if_neg hs, if_neg (fun h => hs fun c hc => h c (List.mem_cons_of_mem _ hc))]
    · rw [if_neg h, if_neg (fun k => h ((isDig_iff c).2 (k c List.mem_cons_self)))]

theorem minus_ne {ds : List Char} (h : ∀ c ∈ ds, 48 ≤ c.toNat ∧ c.toNat ≤ 57) :
    ds.head? ≠ some '-' ∧ ds.head? ≠ some '+' := by
  cases ds with
  | nil => simp
  | cons c s =>
    have := h c List.mem_cons_self
    constructor <;>
    · intro e
      simp only [List.head?_cons, Option.some.injEq] at e
      subst e
      revert this
      decide

theorem atoiFrom_iff (neg : Bool) (ds : List Char) (i : Int) : atoiFrom neg ds = some i ↔
    ds ≠ [] ∧ (∀ c ∈ ds, 48 ≤ c.toNat ∧ c.toNat ≤ 57) ∧
      i = (if neg then -(digitsValue ds : Int) else digitsValue ds) ∧ -(2 ^ 63) ≤ i ∧ i < 2 ^ 63 := by
  unfold atoiFrom
  rw [atoiDigits_eq]
  simp only [Nat.zero_mul, Nat.zero_add]
  by_cases h1 : ds = []
  · simp [h1]
  by_cases h2 : ∀ c ∈ ds, 48 ≤ c.toNat ∧ c.toNat ≤ 57
  · rw [if_neg h1, if_pos h2]
    grind
  · rw [if_neg h1, if_neg h2]
    simp [h2]

theorem atoi_iff (t : List Char) (i : Int) : atoi t = some i ↔ Decimal t i := by
  unfold atoi
  by_cases e1 : t.head? = some '-'
  · obtain ⟨s, rfl⟩ : ∃ s, t = '-' :: s := by
      cases t with
      | nil => cases e1
      | cons c s => simp at e1; exact ⟨s, by rw [e1]⟩
    rw [if_pos e1, List.tail_cons, atoiFrom_iff]
    constructor
    · rintro ⟨a, b, c, d⟩
      exact ⟨['-'], s, rfl, a, b, .inr (.inr ⟨rfl, by simpa using c⟩), d⟩
    · rintro ⟨sg, ds, a, b, c, d, e⟩
      rcases d with ⟨rfl, d⟩ | ⟨rfl, d⟩ | ⟨rfl, d⟩
      · rw [List.nil_append] at a
        exact absurd (by rw [← a]; rfl) (minus_ne c).1
      · simp at a
      · simp at a
        subst a
        exact ⟨b, c, by simpa using d, e⟩
  rw [if_neg e1]
  by_cases e2 : t.head? = some '+'
  · obtain ⟨s, rfl⟩ : ∃ s, t = '+' :: s := by
      cases t with
      | nil => cases e2
      | cons c s => simp at e2; exact ⟨s, by rw [e2]⟩
    rw [if_pos e2, List.tail_cons, atoiFrom_iff]
    constructor
    · rintro ⟨a, b, c, d⟩
      exact ⟨['+'], s, rfl, a, b, .inr (.inl ⟨rfl, by simpa using c⟩), d⟩
    · rintro ⟨sg, ds, a, b, c, d, e⟩
      rcases d with ⟨rfl, d⟩ | ⟨rfl, d⟩ | ⟨rfl, d⟩
      · rw [List.nil_append] at a
        exact absurd (by rw [← a]; rfl) (minus_ne c).2
      · simp at a
        subst a
        exact ⟨b, c, by simpa using d, e⟩
      · simp at a
  rw [if_neg e2, atoiFrom_iff]
  constructor
  · rintro ⟨a, b, c, d⟩
    exact ⟨[], t, rfl, a, b, .inl ⟨rfl, by simpa using c⟩, d⟩
  · rintro ⟨sg, ds, a, b, c, d, e⟩
    rcases d with ⟨rfl, d⟩ | ⟨rfl, d⟩ | ⟨rfl, d⟩
    · rw [List.nil_append] at a
      subst a
      exact ⟨b, c, by simpa using d, e⟩
    · subst a; simp at e2
    · subst a; simp at e1

theorem decimal_unique {t : List Char} {i j : Int} (h : Decimal t i) (k : Decimal t j) : i = j := by
  rw [← atoi_iff] at h k
  rw [h] at k
  exact Option.some.inj k

theorem digitsValue_eq : ∀ (s : List Char) (v : Nat), Nat.ofDigitChars 10 s v = v * 10 ^ s.length + digitsValue s
  | [], v => by simp [digitsValue]
  | c :: s, v => by
    rw [Nat.ofDigitChars_cons, digitsValue_eq s, digitsValue, List.length_cons, Nat.pow_succ]
    have : '0'.toNat = 48 := rfl
    rw [this, Nat.add_mul, Nat.mul_comm 10 v, Nat.mul_assoc, Nat.mul_comm 10]
    omega

theorem decimal_intLit {i : Int} (h : -(2 ^ 63) ≤ i ∧ i < 2 ^ 63) : Decimal (intLit i) i := by
  have d : ∀ n, ∀ c ∈ itoa n, 48 ≤ c.toNat ∧ c.toNat ≤ 57 := fun n c hc =>
    (isDig_iff c).1 (List.all_eq_true.1 (itoa_all n) c hc)
  have v : ∀ n, digitsValue (itoa n) = n := fun n => by
    have := digitsValue_eq (itoa n) 0
    rw [itoa_val] at this
    simpa using this.symm
  cases i with
  | ofNat n => exact ⟨[], itoa n, rfl, itoa_ne n, d n, .inl ⟨rfl, by rw [v]; rfl⟩, h⟩
  | negSucc n => exact ⟨['-'], itoa (n + 1), rfl, itoa_ne _, d _, .inr (.inr ⟨rfl, by rw [v]; rfl⟩), h⟩

theorem intLit_inj {i j : Int} (h : intLit i = intLit j) (hi : -(2 ^ 63) ≤ i ∧ i < 2 ^ 63)
    (hj : -(2 ^ 63) ≤ j ∧ j < 2 ^ 63) : i = j :=
  decimal_unique (decimal_intLit hi) (h ▸ decimal_intLit hj)

theorem get_mem {m : GoMap Int Node} {j : Int} {y : Node} (h : m.get j = some y) : (j, y) ∈ m := by
  induction m with
  | nil => simp [GoMap.get] at h
  | cons a m ih =>
    obtain ⟨a1, a2⟩ := a
    rw [GoMap.get] at h
    split at h
    · next e => cases h; subst e; exact List.mem_cons_self
    · exact List.mem_cons_of_mem _ (ih h)

theorem get_foldl (k : List Char) : ∀ (m : GoMap Int Node) (r : GoMap (List Char) Node),
    (m.map Prod.fst).Nodup → (∀ e ∈ m, -(2 ^ 63) ≤ e.1 ∧ e.1 < 2 ^ 63) →
    ∀ n, ((m.foldl (fun r e => r.set (intLit e.1) e.2) r).get k = some n ↔
      (∃ i, intLit i = k ∧ m.get i = some n) ∨ (∀ e ∈ m, intLit e.1 ≠ k) ∧ r.get k = some n)
  | [], r, _, _, n => by simp [GoMap.get]
  | (i, x) :: m, r, hn, hr, n => by
    rw [List.foldl_cons, get_foldl k m _ (List.nodup_cons.1 hn).2 (fun e he => hr e (List.mem_cons_of_mem _ he)) n]
    have hi := hr (i, x) List.mem_cons_self
    have h0 : ∀ e ∈ m, e.1 ≠ i := fun e he h => (List.nodup_cons.1 hn).1 (List.mem_map.2 ⟨e, he, h⟩)
    rw [Verif.Lemmas.NodeM.get_set]
    by_cases e : k = intLit i
    · subst e
      simp only [if_true, List.forall_mem_cons, ne_eq, not_true, false_and, or_false]
      constructor
      · rintro (⟨j, hj, hg⟩ | ⟨-, hg⟩)
        · have := get_mem hg
          have h2 := intLit_inj hj (hr _ (List.mem_cons_of_mem _ this)) hi
          exact absurd h2 (h0 _ this)
        · exact ⟨i, rfl, by rw [GoMap.get, if_pos rfl]; exact hg⟩
      · rintro ⟨j, hj, hg⟩
        rw [GoMap.get] at hg
        split at hg
        · next e =>
          refine .inr ⟨fun e' he' h' => ?_, hg⟩
          exact h0 _ he' (intLit_inj h' (hr _ (List.mem_cons_of_mem _ he')) hi)
        · next e =>
          have := get_mem hg
          exact absurd (intLit_inj hj (hr _ (List.mem_cons_of_mem _ this)) hi).symm e
    · rw [if_neg e]
      have e' : ¬ intLit i = k := fun h => e h.symm
      simp only [List.forall_mem_cons, ne_eq, e', not_false_eq_true, true_and]
      have : (∃ j, intLit j = k ∧ GoMap.get m j = some n) ↔ (∃ j, intLit j = k ∧ GoMap.get ((i, x) :: m) j = some n) := by
        constructor <;>
        · rintro ⟨j, hj, hg⟩
          refine ⟨j, hj, ?_⟩
          have : ¬ i = j := fun h => e' (h ▸ hj)
          have e2 : GoMap.get ((i, x) :: m) j = GoMap.get m j := by rw [GoMap.get, if_neg this]
          first
          | rw [e2]; exact hg
          | rw [e2] at hg; exact hg
      rw [this]

end Verif.Lemmas.Web
