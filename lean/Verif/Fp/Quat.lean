import Verif.Fp.Arith
import Verif.Basic.Rot
import Mathlib.Analysis.Real.Sqrt
import Mathlib.Data.Int.Log
import Mathlib.Tactic.Positivity
import Mathlib.Tactic.FieldSimp

/-!
# The attitude quaternion in single precision — EKF/ekf.cpp:268-276, EKF/ekf_helper.cpp:983-987

`rnd` is the rounding of every elementary operation; numbers are finite.  Quaternion product, norm and normalisation are those of the matrix library: a product is a sum of four products
from left to right, the norm is the square root of the accumulated squares, and the components are divided by it or multiplied by its reciprocal (both are covered).
-/

namespace Ecl.Fp

noncomputable section

/-- error of single precision arithmetic for numbers up to 2^20: relative 2^-24, absolute 2^-149 near zero -/
structure Single (rnd : ℝ → ℝ) : Prop where
  err : ∀ x, |x| ≤ 2 ^ 20 → |rnd x - x| ≤ |x| / 2 ^ 24 + 1 / 2 ^ 149

/-- `Vector::dot(self)` for four components, as used by `normalized`, EKF/ekf.cpp:268, and `normalize`, EKF/ekf_helper.cpp:986 -/
def dot4 (rnd : ℝ → ℝ) (q : Fin 4 → ℝ) : ℝ :=
  rnd (rnd (rnd (rnd (0 + rnd (q 0 * q 0)) + rnd (q 1 * q 1)) + rnd (q 2 * q 2)) + rnd (q 3 * q 3))

/-- `normalize()`, EKF/ekf.cpp:268, EKF/ekf_helper.cpp:986; `recip`: multiply by the reciprocal of the norm instead of dividing -/
def normalizeF (rnd : ℝ → ℝ) (recip : Bool) (q : Fin 4 → ℝ) : Fin 4 → ℝ := fun i =>
  let n := rnd (√(dot4 rnd q))
  if recip then rnd (q i * rnd (1 / n)) else rnd (q i / n)

/-- sum of four products with signs `s`, from left to right: one component of `Quaternion::operator*`, EKF/ekf.cpp:268 -/
def sum4 (rnd : ℝ → ℝ) (s1 s2 s3 : ℝ) (a b : Fin 4 → ℝ) : ℝ :=
  rnd (rnd (rnd (rnd (a 0 * b 0) + s1 * rnd (a 1 * b 1)) + s2 * rnd (a 2 * b 2)) + s3 * rnd (a 3 * b 3))

/-- library `Quaternion::operator*`, EKF/ekf.cpp:268 -/
def mulF (rnd : ℝ → ℝ) (p q : Fin 4 → ℝ) : Fin 4 → ℝ :=
  ![sum4 rnd (-1) (-1) (-1) p q,
    sum4 rnd 1 1 (-1) ![p 0, p 1, p 2, p 3] ![q 1, q 0, q 3, q 2],
    sum4 rnd (-1) 1 1 ![p 0, p 1, p 2, p 3] ![q 2, q 3, q 0, q 1],
    sum4 rnd 1 (-1) 1 ![p 0, p 1, p 2, p 3] ![q 3, q 2, q 1, q 0]]

/-- squared length -/
def nsq (q : Fin 4 → ℝ) : ℝ := q 0 ^ 2 + q 1 ^ 2 + q 2 ^ 2 + q 3 ^ 2

/-- limiting the components to [-1, 1] (exact: no operation rounds), EKF/ekf_helper.cpp:552 -/
def clampQ (q : Fin 4 → ℝ) : Fin 4 → ℝ := fun i => if q i < -1 then -1 else if 1 < q i then 1 else q i

/-- the calls that write the attitude: prediction with the delta quaternion `dq`, EKF/ekf.cpp:268 and :293; correction by the computed products `c` of gain and
innovation, EKF/ekf_helper.cpp:983-987; replacement at a yaw reset, EKF/ekf_helper.cpp:1565 -/
inductive QOp where
  | predict (dq : Fin 4 → ℝ)
  | correct (c : Fin 4 → ℝ)
  | replace (q : Fin 4 → ℝ)

/-- effect on the attitude, EKF/ekf.cpp:268, EKF/ekf_helper.cpp:552, 985-986, 1565 -/
def QOp.apply (rnd : ℝ → ℝ) (recip : Bool) (q : Fin 4 → ℝ) : QOp → Fin 4 → ℝ
  | .predict dq => clampQ (normalizeF rnd recip (mulF rnd q dq))
  | .correct c => normalizeF rnd recip (fun i => rnd (q i - c i))
  | .replace q' => q'

/-- delta quaternions and replacements are unit to 10 %, corrections shorter than 1/4 -/
def QOp.Ok : QOp → Prop
  | .predict dq => |nsq dq - 1| ≤ 1 / 10
  | .correct c => nsq c ≤ 1 / 16
  | .replace q => |nsq q - 1| ≤ 1 / 10

/-- the call normalises -/
def QOp.Normalises : QOp → Prop
  | .replace _ => False
  | _ => True

variable {rnd : ℝ → ℝ}

theorem rnd_bound (R : Single rnd) {x M : ℝ} (h : |x| ≤ M) (hM : M ≤ 2 ^ 20) : |rnd x - x| ≤ M / 2 ^ 24 + 1 / 2 ^ 149 := by
  refine le_trans (R.err x (le_trans h hM)) ?_
  have : |x| / 2 ^ 24 ≤ M / 2 ^ 24 := by gcongr
  linarith

theorem rnd_nonneg_bound (R : Single rnd) {x : ℝ} (h0 : 0 ≤ x) (hM : x ≤ 2 ^ 20) :
    x - x / 2 ^ 24 - 1 / 2 ^ 149 ≤ rnd x ∧ rnd x ≤ x + x / 2 ^ 24 + 1 / 2 ^ 149 := by
  have h := R.err x (by rw [abs_of_nonneg h0]; exact hM)
  rw [abs_of_nonneg h0] at h
  have := abs_le.mp h
  constructor <;> linarith [this.1, this.2]

/-- the accumulated square of the length -/
theorem dot4_bound (R : Single rnd) (q : Fin 4 → ℝ) (h1 : 1 / 4 ≤ nsq q) (h2 : nsq q ≤ 4) :
    |dot4 rnd q - nsq q| ≤ 51 / 10 / 2 ^ 24 * nsq q := by
  have hs : ∀ i, 0 ≤ q i * q i ∧ q i * q i ≤ 4 := by
    intro i
    refine ⟨_root_.mul_self_nonneg _, le_trans ?_ h2⟩
    unfold nsq
    fin_cases i <;> simp only [Fin.zero_eta, Fin.mk_one, Fin.reduceFinMk] <;> nlinarith [sq_nonneg (q 0), sq_nonneg (q 1), sq_nonneg (q 2), sq_nonneg (q 3)]
  have e : nsq q = q 0 * q 0 + q 1 * q 1 + q 2 * q 2 + q 3 * q 3 := by unfold nsq; ring
  obtain ⟨a0, b0⟩ := rnd_nonneg_bound R (hs 0).1 (le_trans (hs 0).2 (by norm_num))
  obtain ⟨a1, b1⟩ := rnd_nonneg_bound R (hs 1).1 (le_trans (hs 1).2 (by norm_num))
  obtain ⟨a2, b2⟩ := rnd_nonneg_bound R (hs 2).1 (le_trans (hs 2).2 (by norm_num))
  obtain ⟨a3, b3⟩ := rnd_nonneg_bound R (hs 3).1 (le_trans (hs 3).2 (by norm_num))
  have p0 := hs 0; have p1 := hs 1; have p2 := hs 2; have p3 := hs 3
  unfold dot4
  rw [e] at h1 h2 ⊢
  generalize q 0 * q 0 = x0 at *
  generalize q 1 * q 1 = x1 at *
  generalize q 2 * q 2 = x2 at *
  generalize q 3 * q 3 = x3 at *
  generalize rnd x0 = y0 at *
  generalize rnd x1 = y1 at *
  generalize rnd x2 = y2 at *
  generalize rnd x3 = y3 at *
  have g : ∀ s : ℝ, |s| ≤ 16 → s - |s| / 2 ^ 24 - 1 / 2 ^ 149 ≤ rnd s ∧ rnd s ≤ s + |s| / 2 ^ 24 + 1 / 2 ^ 149 := by
    intro s hs
    have := abs_le.mp (R.err s (le_trans hs (by norm_num)))
    constructor <;> linarith [this.1, this.2]
  have n2 : (2 : ℝ) ^ 24 = 16777216 := by norm_num
  have n149 : (0 : ℝ) < 1 / 2 ^ 149 ∧ (1 : ℝ) / 2 ^ 149 ≤ 1 / 2 ^ 60 := by
    constructor
    · positivity
    · exact one_div_le_one_div_of_le (by positivity) (by gcongr <;> norm_num)
  generalize (1 : ℝ) / 2 ^ 149 = η at *
  obtain ⟨η0, η1⟩ := n149
  have n60 : (1 : ℝ) / 2 ^ 60 = 1 / 1152921504606846976 := by norm_num
  rw [n60] at η1
  rw [n2] at *
  have abound : ∀ s t : ℝ, -t ≤ s → s ≤ t → |s| ≤ t := fun s t h h' => abs_le.mpr ⟨h, h'⟩
  -- s1
  have u1 : |0 + y0| ≤ x0 + x0 / 16777216 + η := abound _ _ (by linarith [p0.1]) (by linarith)
  obtain ⟨l1, r1⟩ := g (0 + y0) (le_trans u1 (by linarith [p0.2]))
  generalize rnd (0 + y0) = s1 at *
  have v1 : |0 + y0| / 16777216 ≤ (x0 + x0 / 16777216 + η) / 16777216 := by gcongr
  have u2 : |s1 + y1| ≤ x0 + x1 + (x0 + x1) / 1000000 + 4 * η := abound _ _ (by linarith [p0.1, p1.1]) (by linarith [p0.1, p1.1])
  obtain ⟨l2, r2⟩ := g (s1 + y1) (le_trans u2 (by linarith [p0.2, p1.2]))
  have v2 : |s1 + y1| / 16777216 ≤ (x0 + x1 + (x0 + x1) / 1000000 + 4 * η) / 16777216 := by gcongr
  generalize rnd (s1 + y1) = s2 at *
  have u3 : |s2 + y2| ≤ x0 + x1 + x2 + (x0 + x1 + x2) / 1000000 + 6 * η := abound _ _ (by linarith [p0.1, p1.1, p2.1]) (by linarith [p0.1, p1.1, p2.1])
  obtain ⟨l3, r3⟩ := g (s2 + y2) (le_trans u3 (by linarith [p0.2, p1.2, p2.2]))
  have v3 : |s2 + y2| / 16777216 ≤ (x0 + x1 + x2 + (x0 + x1 + x2) / 1000000 + 6 * η) / 16777216 := by gcongr
  generalize rnd (s2 + y2) = s3 at *
  have u4 : |s3 + y3| ≤ x0 + x1 + x2 + x3 + (x0 + x1 + x2 + x3) / 1000000 + 8 * η :=
    abound _ _ (by linarith [p0.1, p1.1, p2.1, p3.1]) (by linarith [p0.1, p1.1, p2.1, p3.1])
  obtain ⟨l4, r4⟩ := g (s3 + y3) (le_trans u4 (by linarith [p0.2, p1.2, p2.2, p3.2]))
  have v4 : |s3 + y3| / 16777216 ≤ (x0 + x1 + x2 + x3 + (x0 + x1 + x2 + x3) / 1000000 + 8 * η) / 16777216 := by gcongr
  generalize rnd (s3 + y3) = s4 at *
  refine abs_le.mpr ⟨?_, ?_⟩
  · linarith [p0.1, p1.1, p2.1, p3.1]
  · linarith [p0.1, p1.1, p2.1, p3.1]

end

end Ecl.Fp
