import Mathlib.Algebra.Order.Field.Basic
import Mathlib.Tactic.Linarith
import Mathlib.Tactic.Ring
import Mathlib.Tactic.NormNum

/-!
# Scalar helpers shared by all models

Models the scalar helpers of `mathlib/mathlib.h` and `EKF/common.h`/`EKF/utils.hpp` over an arbitrary
linearly ordered type (exact arithmetic, no NaN).  NaN-aware versions are in `Verif/Basic/NanFloat.lean`.
-/

namespace Ecl

variable {K : Type*}

/-- `math::min`, mathlib/mathlib.h:60-64 -/
def mmin [LinearOrder K] (a b : K) : K := if a < b then a else b

/-- `math::max`, mathlib/mathlib.h:66-70 -/
def mmax [LinearOrder K] (a b : K) : K := if a > b then a else b

/-- `math::constrain`, mathlib/mathlib.h:72-76 -/
def constrain [LinearOrder K] (v lo hi : K) : K := if v < lo then lo else if v > hi then hi else v

/-- `sq`, EKF/utils.hpp:6 (static constexpr float sq(float var) { return var * var; }) -/
def sq [Mul K] (x : K) : K := x * x

section lemmas
variable [LinearOrder K]

theorem mmin_eq (a b : K) : mmin a b = min a b := by
  unfold mmin; split
  · rw [min_eq_left (le_of_lt ‹_›)]
  · rw [min_eq_right (not_lt.mp ‹_›)]

theorem mmax_eq (a b : K) : mmax a b = max a b := by
  unfold mmax; split
  · rw [max_eq_left (le_of_lt ‹_›)]
  · rw [max_eq_right (not_lt.mp ‹_›)]

theorem constrain_ge {v lo hi : K} (h : lo ≤ hi) : lo ≤ constrain v lo hi := by
  unfold constrain; split
  · exact le_rfl
  · split
    · exact h
    · exact not_lt.mp ‹_›

theorem constrain_le {v lo hi : K} (h : lo ≤ hi) : constrain v lo hi ≤ hi := by
  unfold constrain; split
  · exact h
  · split
    · exact le_rfl
    · exact not_lt.mp ‹_›

theorem constrain_of_mem {v lo hi : K} (h1 : lo ≤ v) (h2 : v ≤ hi) : constrain v lo hi = v := by
  unfold constrain; rw [if_neg (not_lt.mpr h1), if_neg (not_lt.mpr h2)]

theorem constrain_of_lt {v lo hi : K} (h : v < lo) : constrain v lo hi = lo := by
  unfold constrain; rw [if_pos h]

theorem constrain_of_gt {v lo hi : K} (h1 : lo ≤ v) (h : hi < v) : constrain v lo hi = hi := by
  unfold constrain; rw [if_neg (not_lt.mpr h1), if_pos h]

theorem constrain_eq {v lo hi : K} (h : lo ≤ hi) : constrain v lo hi = max lo (min v hi) := by
  unfold constrain; split
  · next hv => rw [min_eq_left (le_trans hv.le h), max_eq_left hv.le]
  · next hv =>
    split
    · next h2 => rw [min_eq_right h2.le, max_eq_right h]
    · next h2 => rw [min_eq_left (not_lt.mp h2), max_eq_right (not_lt.mp hv)]

end lemmas

/-! ### 64-bit time arithmetic -/

theorem u64_sub_toNat_of_le {a b : UInt64} (h : b ≤ a) : (a - b).toNat = a.toNat - b.toNat := by
  rw [UInt64.toNat_sub_of_le _ _ h]

theorem u64_le_iff {a b : UInt64} : a ≤ b ↔ a.toNat ≤ b.toNat := UInt64.le_iff_toNat_le
theorem u64_lt_iff {a b : UInt64} : a < b ↔ a.toNat < b.toNat := UInt64.lt_iff_toNat_lt

end Ecl
