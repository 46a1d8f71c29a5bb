import Verif.Basic.Num

/-!
# Timeout predicates — EKF/ekf.h:924-932
-/

namespace Ecl

/-- `isTimedOut(last_sensor_timestamp, timeout_period)`, EKF/ekf.h:924-927 (`now` = `_time_last_imu`; `uint64_t`
addition wraps).  `last + period < now` is written as the negation of `now ≤ last + period`, which keeps the kernel from
unfolding large numerals; `isTimedOut_iff` gives the original form. -/
def isTimedOut (now last period : UInt64) : Bool := !decide (now ≤ last + period)

/-- `isRecent(sensor_timestamp, acceptance_interval)`, EKF/ekf.h:929-932; `ts + interval > now` written as
`now ≤ ts + interval` and different, see `isRecent_iff` -/
def isRecent (now ts interval : UInt64) : Bool := decide (now ≤ ts + interval ∧ now ≠ ts + interval)

theorem isTimedOut_iff (now last period : UInt64) : isTimedOut now last period = true ↔ last + period < now := by
  unfold isTimedOut
  simp only [Bool.not_eq_true', decide_eq_false_iff_not, u64_lt_iff, u64_le_iff]; omega

theorem isRecent_iff (now ts interval : UInt64) : isRecent now ts interval = true ↔ ts + interval > now := by
  unfold isRecent
  simp only [decide_eq_true_eq, gt_iff_lt, u64_lt_iff, u64_le_iff, ne_eq, ← UInt64.toNat_inj]; omega

/-- **C58.** For time stamps whose sum with the interval does not exceed the 64-bit range: timed out means more than the
period has elapsed, recent means less than the interval has elapsed (or the stamp lies in the future). -/
theorem timeout_meaning (now ts period : UInt64) (h : ts.toNat + period.toNat < 2 ^ 64) :
    (isTimedOut now ts period = true ↔ ts.toNat + period.toNat < now.toNat) ∧
    (isRecent now ts period = true ↔ now.toNat < ts.toNat + period.toNat) := by
  have hs : (ts + period).toNat = ts.toNat + period.toNat := by
    rw [UInt64.toNat_add]; exact Nat.mod_eq_of_lt h
  simp only [isTimedOut_iff, isRecent_iff, gt_iff_lt, u64_lt_iff, hs, and_self]

/-- **C58.** The two never hold together and fail together exactly at equality (for all 64-bit values, wrapped sums
included). -/
theorem timeout_exclusive (now ts period : UInt64) :
    ¬ (isTimedOut now ts period = true ∧ isRecent now ts period = true) ∧
    (isTimedOut now ts period = false ∧ isRecent now ts period = false ↔ now = ts + period) := by
  simp only [← Bool.not_eq_true, isTimedOut_iff, isRecent_iff, gt_iff_lt, u64_lt_iff, ← UInt64.toNat_inj]
  constructor
  · omega
  · omega

/-- **C58 (boundary).** Close to the end of the 64-bit range the wrapped sum makes a current stamp look timed out. -/
theorem timeout_wraps : ∃ now ts period : UInt64, now = ts ∧ 0 < period.toNat ∧ isTimedOut now ts period = true ∧
    isRecent now ts period = false := ⟨UInt64.ofNat (2 ^ 64 - 1), UInt64.ofNat (2 ^ 64 - 1), 5, rfl, by decide, by decide, by decide⟩

/-- Non-vacuity: at 8 s a 7 s timeout on a stamp of 0.5 s has expired. -/
example : isTimedOut 8000000 500000 7000000 = true ∧ isRecent 8000000 500000 7000000 = false := by decide

end Ecl
