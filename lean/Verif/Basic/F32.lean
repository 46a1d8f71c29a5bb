import Mathlib.Tactic.Linarith
import Mathlib.Tactic.Ring
import Mathlib.Tactic.NormNum
import Mathlib.Algebra.Order.Group.Unbundled.Int
import Mathlib.Algebra.Ring.Parity

/-!
# IEEE-754 binary32 rounding of non-negative integers

`(float)n` for an integer `n`: round to nearest, ties to even, with a 24-bit significand.  (No overflow to
infinity: the integers considered are below 2^64.)
-/

namespace Ecl

/-- exponent of the unit in the last place of a 24-bit significand for integer `n` -/
def ulpExp (n : ℕ) : ℕ := Nat.log2 n - 23

/-- round-to-nearest-even of `n` to a 24-bit significand -/
def rnd24 (n : ℕ) : ℕ :=
  let u := 2 ^ ulpExp n
  let q := n / u
  let r := n % u
  if 2 * r < u then q * u
  else if 2 * r > u then (q + 1) * u
  else if q % 2 = 0 then q * u else (q + 1) * u

theorem rnd24_small {n : ℕ} (h : n < 2 ^ 24) : rnd24 n = n := by
  have he : ulpExp n = 0 := by
    unfold ulpExp
    by_cases h0 : n = 0
    · subst h0; rfl
    · have : Nat.log2 n < 24 := (Nat.log2_lt h0).mpr h
      omega
  unfold rnd24
  simp [he, Nat.mod_one]

/-- the rounding error is at most half a unit in the last place -/
theorem rnd24_error (n : ℕ) : 2 * |(rnd24 n : ℤ) - n| ≤ ((2 ^ ulpExp n : ℕ) : ℤ) := by
  have hu : 0 < 2 ^ ulpExp n := by positivity
  have hd := Nat.div_add_mod n (2 ^ ulpExp n)
  have hm := Nat.mod_lt n hu
  unfold rnd24
  simp only
  generalize 2 ^ ulpExp n = u at *
  generalize n / u = q at *
  generalize n % u = r at *
  have e1 : (n : ℤ) = q * u + r := by
    have : (n : ℤ) = ((u * q + r : ℕ) : ℤ) := by rw [hd]
    rw [this]; push_cast; ring
  have c1 : 2 * |((q * u : ℕ) : ℤ) - n| = 2 * r := by
    have : ((q * u : ℕ) : ℤ) - n = -(r : ℤ) := by rw [e1]; push_cast; ring
    rw [this, abs_neg, abs_of_nonneg (by positivity)]
  have c2 : 2 * |(((q + 1) * u : ℕ) : ℤ) - n| = 2 * ((u : ℤ) - r) := by
    have : (((q + 1) * u : ℕ) : ℤ) - n = (u : ℤ) - r := by rw [e1]; push_cast; ring
    rw [this, abs_of_nonneg (by omega)]
  split
  · rw [c1]; omega
  · split
    · rw [c2]; omega
    · split
      · rw [c1]; omega
      · rw [c2]; omega

theorem ulp_le (n : ℕ) (h : 2 ^ 23 ≤ n) : 2 ^ ulpExp n * 2 ^ 23 ≤ n := by
  unfold ulpExp
  have h0 : n ≠ 0 := by
    have : 0 < 2 ^ 23 := by positivity
    omega
  have hl : 23 ≤ Nat.log2 n := (Nat.le_log2 h0).mpr h
  rw [← pow_add, Nat.sub_add_cancel hl]
  exact Nat.log2_self_le h0

theorem lt_pow_ulp (n : ℕ) : n < 2 ^ (ulpExp n + 24) := by
  by_cases h0 : n = 0
  · subst h0; positivity
  · have h1 : n < 2 ^ (Nat.log2 n + 1) := Nat.lt_log2_self
    refine lt_of_lt_of_le h1 (Nat.pow_le_pow_right (by norm_num) ?_)
    unfold ulpExp; omega

theorem rnd24_le (n : ℕ) : rnd24 n ≤ 2 ^ (ulpExp n + 24) := by
  have hu : 0 < 2 ^ ulpExp n := by positivity
  have hq : n / 2 ^ ulpExp n < 2 ^ 24 := by
    rw [Nat.div_lt_iff_lt_mul hu, ← pow_add, Nat.add_comm]; exact lt_pow_ulp n
  unfold rnd24
  simp only
  rw [pow_add, Nat.mul_comm (2 ^ ulpExp n)]
  generalize 2 ^ ulpExp n = u at *
  generalize n / u = q at *
  split
  · exact Nat.mul_le_mul_right _ hq.le
  · split
    · exact Nat.mul_le_mul_right _ hq
    · split
      · exact Nat.mul_le_mul_right _ hq.le
      · exact Nat.mul_le_mul_right _ hq

theorem ulpExp_mono {a b : ℕ} (h : a < 2 ^ (ulpExp b + 24)) : ulpExp a ≤ ulpExp b := by
  by_cases h0 : a = 0
  · subst h0; unfold ulpExp; simp
  · have := (Nat.log2_lt h0).mpr h
    unfold ulpExp at *; omega

theorem rnd24_of_dvd {n : ℕ} (h : 2 ^ ulpExp n ∣ n) : rnd24 n = n := by
  have hu : 0 < 2 ^ ulpExp n := by positivity
  have hr : n % 2 ^ ulpExp n = 0 := Nat.mod_eq_zero_of_dvd h
  unfold rnd24
  simp only [hr, Nat.mul_zero, hu, if_true]
  exact Nat.div_mul_cancel h

theorem rnd24_idem (n : ℕ) : rnd24 (rnd24 n) = rnd24 n := by
  apply rnd24_of_dvd
  have hdvd : 2 ^ ulpExp n ∣ rnd24 n := by
    unfold rnd24; simp only
    split
    · exact Dvd.intro_left _ rfl
    · split
      · exact Dvd.intro_left _ rfl
      · split <;> exact Dvd.intro_left _ rfl
  rcases lt_or_eq_of_le (rnd24_le n) with h | h
  · exact (Nat.pow_dvd_pow 2 (ulpExp_mono h)).trans hdvd
  · rw [h]
    apply Nat.pow_dvd_pow
    unfold ulpExp
    rw [Nat.log2_two_pow]
    omega

end Ecl
