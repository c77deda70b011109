import Verif.Spec.Float
import Verif.Props.Reports

/-
C94: sensor values as float64.

`NewSensorMultiLevel` (commands/reports/sensor_multi_level.go 81-100) computes `float64(val) / math.Pow(10, precision)`
in float64. Both operands are exact (`val` has at most 32 bits, 10^7 is below 2^53), so by IEEE 754 the result is a
nearest float64 value of the exact quotient, which is what the model computes.
-/

set_option linter.unusedSimpArgs false
set_option linter.unusedVariables false

namespace Verif.Props

open Verif.Go Verif.Model Verif.Spec Verif.Lemmas

theorem dist_le_iff (a b r : Rat) : dist a b ≤ r ↔ a - b ≤ r ∧ b - a ≤ r := by
  unfold dist; split <;> grind

theorem dist_lt_iff (a b r : Rat) : dist a b < r ↔ a - b < r ∧ b - a < r := by
  unfold dist; split <;> grind

/-- Near `v / P` there is a float64 value. -/
theorem near {v : Int} {q : Rat} {P : Nat} {k : Nat} (hP : 0 < P) (hq : q * P = v) (hk : k ≤ 1074)
    (hb : (v * 2 ^ k).natAbs < 2 ^ 52 * P) : ∃ y, IsFloat64 y ∧ dist y q * ((2 ^ k : Nat) : Rat) < 1 := by
  have hK : (0 : Rat) < ((2 ^ k : Nat) : Rat) := by
    have : 0 < 2 ^ k := Nat.pow_pos (by omega)
    exact_mod_cast this
  have hP' : (0 : Rat) < (P : Rat) := by exact_mod_cast hP
  generalize hm : v * 2 ^ k / (P : Int) = m
  have h1 : m * P ≤ v * 2 ^ k := by rw [← hm]; exact Int.ediv_mul_le _ (by omega)
  have h2 : v * 2 ^ k < m * P + P := by
    rw [← hm]
    have := Int.lt_ediv_add_one_mul_self (v * 2 ^ k) (b := (P : Int)) (by omega)
    rw [Int.add_mul, Int.one_mul] at this
    exact this
  have hlow : -(2 ^ 53) < m := by
    apply Classical.byContradiction
    intro hn
    have : m * P ≤ (-(2 ^ 53)) * P := Int.mul_le_mul_of_nonneg_right (by omega) (by omega)
    omega
  have hup : m < 2 ^ 53 := by
    apply Classical.byContradiction
    intro hn
    have : (2 ^ 53) * P ≤ m * P := Int.mul_le_mul_of_nonneg_right (by omega) (by omega)
    omega
  have r1 : (m : Rat) * P ≤ v * ((2 ^ k : Nat) : Rat) := by exact_mod_cast h1
  have r2 : (v : Rat) * ((2 ^ k : Nat) : Rat) < m * P + P := by exact_mod_cast h2
  refine ⟨m / ((2 ^ k : Nat) : Rat), ⟨m, k, hlow, hup, .inr ⟨Rat.div_mul_cancel (Rat.ne_of_gt hK), hk⟩⟩, ?_⟩
  have hy : m / ((2 ^ k : Nat) : Rat) * ((2 ^ k : Nat) : Rat) = m := Rat.div_mul_cancel (Rat.ne_of_gt hK)
  generalize m / ((2 ^ k : Nat) : Rat) = y at *
  generalize ((2 ^ k : Nat) : Rat) = K at *
  have e : (q - y) * K * P = v * K - m * P := by grind
  have a1 : 0 ≤ (q - y) * K := by
    apply Classical.byContradiction
    intro hn
    have : (q - y) * K * P < 0 * P := (Rat.mul_lt_mul_right hP').2 (by grind)
    grind
  have a2 : (q - y) * K < 1 := by
    apply (Rat.mul_lt_mul_right hP').1
    grind
  have a3 : y ≤ q := by
    apply Classical.byContradiction
    intro hn
    have : (q - y) * K < 0 * K := (Rat.mul_lt_mul_right hK).2 (by grind)
    grind
  unfold dist
  rw [if_pos a3]
  exact a2

/-- The float64 value of a reading, multiplied by the power of ten, is closer than 1/2 to the transmitted integer. -/
theorem float_identifies {v : Int} {q x : Rat} {p : Nat} (hp : p ≤ 7) (hv1 : -(2 ^ 31) ≤ v) (hv2 : v < 2 ^ 31)
    (hq : q * ((10 ^ p : Nat) : Rat) = v) (hx : Nearest q x) : dist (x * ((10 ^ p : Nat) : Rat)) v * 2 < 1 := by
  have hn : v.natAbs ≤ 2 ^ 31 := by omega
  have key : (v * 2 ^ (20 + 3 * p)).natAbs < 2 ^ 52 * 10 ^ p ∧ 2 * 10 ^ p ≤ 2 ^ (20 + 3 * p) ∧ 20 + 3 * p ≤ 1074 := by
    rw [Int.natAbs_mul, Int.natAbs_pow]
    have : v.natAbs * (2 : Int).natAbs ^ (20 + 3 * p) ≤ 2 ^ 31 * 2 ^ (20 + 3 * p) := Nat.mul_le_mul hn (Nat.le_refl _)
    have h3 : ∀ p, p ≤ 7 → 2 ^ 31 * 2 ^ (20 + 3 * p) < 2 ^ 52 * 10 ^ p ∧ 2 * 10 ^ p ≤ 2 ^ (20 + 3 * p) ∧
        20 + 3 * p ≤ 1074 := by decide
    have := h3 p hp
    omega
  obtain ⟨k1, k2, k3⟩ := key
  have hP : 0 < 10 ^ p := Nat.pow_pos (by omega)
  obtain ⟨y, hy, hd⟩ := near hP hq k3 k1
  have hle := hx.2 y hy
  have hP' : (0 : Rat) < ((10 ^ p : Nat) : Rat) := by exact_mod_cast hP
  have hK : (0 : Rat) < ((2 ^ (20 + 3 * p) : Nat) : Rat) := by
    have : 0 < 2 ^ (20 + 3 * p) := Nat.pow_pos (by omega)
    exact_mod_cast this
  have hPK : 2 * ((10 ^ p : Nat) : Rat) ≤ ((2 ^ (20 + 3 * p) : Nat) : Rat) := by exact_mod_cast k2
  generalize ((2 ^ (20 + 3 * p) : Nat) : Rat) = K at *
  generalize ((10 ^ p : Nat) : Rat) = P at *
  -- bound the distance by multiples
  have hd0 : 0 ≤ dist x q := by unfold dist; split <;> grind
  have b1 : dist x q * K < 1 := by
    have : dist x q * K ≤ dist y q * K := by
      apply Classical.byContradiction
      intro hn
      have := (Rat.mul_lt_mul_right hK).1 (Rat.not_le.1 hn)
      grind
    grind
  have b2 : dist x q * (2 * P) < 1 := by
    have : dist x q * (2 * P) ≤ dist x q * K := Rat.mul_le_mul_of_nonneg_left hPK hd0
    grind
  have b3 : dist (x * P) v = dist x q * P := by
    unfold dist
    by_cases c : x ≤ q
    · have : x * P ≤ v := by rw [← hq]; exact Rat.mul_le_mul_of_nonneg_right c (Rat.le_of_lt hP')
      rw [if_pos c, if_pos this]; grind
    · have : ¬ x * P ≤ v := by
        rw [← hq, Rat.not_le]; exact (Rat.mul_lt_mul_right hP').2 (Rat.not_le.1 c)
      rw [if_neg c, if_neg this]; grind
  rw [b3]
  grind

theorem int_near {v w : Int} {z : Rat} (h1 : dist z v * 2 < 1) (h2 : dist z w * 2 < 1) : v = w := by
  have a : (v : Rat) < ((w + 1 : Int) : Rat) := by
    rw [Rat.intCast_add]
    unfold dist at h1 h2
    split at h1 <;> split at h2 <;> grind
  have b : (w : Rat) < ((v + 1 : Int) : Rat) := by
    rw [Rat.intCast_add]
    unfold dist at h1 h2
    split at h1 <;> split at h2 <;> grind
  have a := Rat.intCast_lt_intCast.1 a
  have b := Rat.intCast_lt_intCast.1 b
  omega

theorem prec_le (c : UInt8) : c.toNat / 32 ≤ 7 := by have := c.toNat_lt; omega

theorem twos_range {d : List UInt8} {v : Int} (h : TwosComplement d v) (hd : d.length ≤ 4) :
    -(2 ^ 31) ≤ v ∧ v < 2 ^ 31 := by
  obtain ⟨h1, h2, -⟩ := h
  have : 2 ^ (8 * d.length) ≤ 2 ^ 32 := Nat.pow_le_pow_right (by omega) (by omega)
  generalize 2 ^ (8 * d.length) = k at *
  omega

/-- C94: whatever float64 value a nearest-rounding division delivers for a reading, multiplied by 10^precision it is
within 1/2 of the transmitted integer and of no other: no reading is changed by the representation. -/
theorem C94_reading_recoverable (t c : UInt8) (rest : List UInt8) {s : SensorMultiLevel}
    (hsz : c.toNat % 8 = 1 ∨ c.toNat % 8 = 2 ∨ c.toNat % 8 = 4) (hlen : c.toNat % 8 ≤ rest.length)
    (hs : newSensorMultiLevel (t :: c :: rest) = .ok s) {x : Rat} (hx : Nearest s.value x) :
    ∃ v, TwosComplement (rest.take (c.toNat % 8)) v ∧
      ∀ w : Int, dist (x * (10 ^ (c.toNat / 32) : Nat)) w * 2 < 1 ↔ w = v := by
  obtain ⟨s', v, h1, h2, h3, -⟩ := C17_sensor_value t c rest hsz hlen
  rw [hs] at h1
  cases h1
  have hr := twos_range h2 (by simp; omega)
  have hid := float_identifies (prec_le c) hr.1 hr.2 h3 hx
  exact ⟨v, h2, fun w => ⟨fun hw => int_near hw hid, fun hw => by rw [hw]; exact hid⟩⟩

/-- C94: readings of equal size and precision are ordered as their float64 values; equal values mean equal
readings. -/
theorem C94_order (t t' c : UInt8) (rest rest' : List UInt8) {s s' : SensorMultiLevel}
    (hsz : c.toNat % 8 = 1 ∨ c.toNat % 8 = 2 ∨ c.toNat % 8 = 4) (hlen : c.toNat % 8 ≤ rest.length)
    (hlen' : c.toNat % 8 ≤ rest'.length) (hs : newSensorMultiLevel (t :: c :: rest) = .ok s)
    (hs' : newSensorMultiLevel (t' :: c :: rest') = .ok s') {x x' : Rat} (hx : Nearest s.value x)
    (hx' : Nearest s'.value x') {v v' : Int} (hv : TwosComplement (rest.take (c.toNat % 8)) v)
    (hv' : TwosComplement (rest'.take (c.toNat % 8)) v') : (v < v' → x < x') ∧ (x = x' → v = v') := by
  obtain ⟨a, ha, hb⟩ := C94_reading_recoverable t c rest hsz hlen hs hx
  obtain ⟨a', ha', hb'⟩ := C94_reading_recoverable t' c rest' hsz hlen' hs' hx'
  cases TwosComplement.unique hv ha
  cases TwosComplement.unique hv' ha'
  constructor
  · intro hlt
    have h1 := (hb v).2 rfl
    have h2 := (hb' v').2 rfl
    have hle : ((v + 1 : Int) : Rat) ≤ v' := Rat.intCast_le_intCast.2 (by omega)
    rw [Rat.intCast_add] at hle
    have hP : (0 : Rat) < ((10 ^ (c.toNat / 32) : Nat) : Rat) := by
      have : 0 < 10 ^ (c.toNat / 32) := Nat.pow_pos (by omega)
      exact_mod_cast this
    apply (Rat.mul_lt_mul_right hP).1
    unfold dist at h1 h2
    split at h1 <;> split at h2 <;> grind
  · intro e
    subst e
    exact (hb' v).1 ((hb v).2 rfl)

/-- 0.1 as float64. -/
def tenth : Rat := 7205759403792794 / 72057594037927936

theorem nearest_tenth : Nearest (1 / 10) tenth := by
  constructor
  · exact ⟨7205759403792794, 56, by decide, by decide, .inr ⟨by decide +kernel, by decide⟩⟩
  intro y hy
  have hd : dist tenth (1 / 10) * 72057594037927936 * 5 = 2 := by decide +kernel
  -- multiples of 2^-56
  have mult : ∀ n : Int, y * 72057594037927936 = n → dist tenth (1 / 10) ≤ dist y (1 / 10) := by
    intro n hn
    by_cases c : n ≤ 7205759403792793
    · have : (n : Rat) ≤ ((7205759403792793 : Int) : Rat) := Rat.intCast_le_intCast.2 c
      have e : ((7205759403792793 : Int) : Rat) = 7205759403792793 := rfl
      unfold dist at hd ⊢
      split at hd <;> split <;> grind
    · have : ((7205759403792794 : Int) : Rat) ≤ (n : Rat) := Rat.intCast_le_intCast.2 (by omega)
      have e : ((7205759403792794 : Int) : Rat) = 7205759403792794 := rfl
      unfold dist at hd ⊢
      split at hd <;> split <;> grind
  obtain ⟨m, k, h1, h2, ⟨h3, -⟩ | ⟨h3, -⟩⟩ := hy
  · refine mult (m * 2 ^ k * 72057594037927936) ?_
    rw [h3]
    push_cast
    rfl
  · by_cases hk : k ≤ 56
    · refine mult (m * 2 ^ (56 - k)) ?_
      have e : (72057594037927936 : Rat) = ((2 ^ k : Nat) : Rat) * ((2 ^ (56 - k) : Nat) : Rat) := by
        have : 2 ^ k * 2 ^ (56 - k) = 72057594037927936 := by
          rw [← Nat.pow_add, show k + (56 - k) = 56 by omega]
        exact_mod_cast this.symm
      rw [e, ← Rat.mul_assoc, h3]
      push_cast
      rfl
    · have hK : ((2 ^ 57 : Nat) : Rat) ≤ ((2 ^ k : Nat) : Rat) := by
        have : 2 ^ 57 ≤ 2 ^ k := Nat.pow_le_pow_right (by omega) (by omega)
        exact_mod_cast this
      have hm : (m : Rat) < 9007199254740992 := by
        have : (m : Rat) < ((9007199254740992 : Int) : Rat) := Rat.intCast_lt_intCast.2 (by omega)
        exact this
      have e57 : ((2 ^ 57 : Nat) : Rat) = 144115188075855872 := by decide +kernel
      rw [e57] at hK
      have hy : y ≤ 1 / 16 := by
        apply Classical.byContradiction
        intro hn
        have hn := Rat.not_le.1 hn
        have : 1 / 16 * ((2 ^ k : Nat) : Rat) < y * ((2 ^ k : Nat) : Rat) := (Rat.mul_lt_mul_right (by grind)).2 hn
        grind
      unfold dist at hd ⊢
      split at hd <;> split <;> grind

/-- An instance: 0.1 °C, one byte, one digit. -/
example : ∃ s, newSensorMultiLevel [0x01, 0x21, 0x01] = .ok s ∧ Nearest s.value tenth := by
  obtain ⟨s, v, h1, h2, h3, -⟩ := C17_sensor_value 0x01 0x21 [0x01] (by decide) (by decide)
  have hv : v = 1 := TwosComplement.unique h2 (by unfold TwosComplement; decide)
  subst hv
  refine ⟨s, h1, ?_⟩
  have e : s.value = 1 / 10 := by
    have h4 : s.value * 10 = 1 := h3
    grind
  rw [e]
  exact nearest_tenth

end Verif.Props
