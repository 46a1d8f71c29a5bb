import Verif.Wind.Model
import Verif.Cov.Props
import Mathlib.Analysis.Calculus.Deriv.Inv
import Mathlib.Analysis.Calculus.Deriv.Mul
import Mathlib.Analysis.Calculus.Deriv.Add
import Mathlib.Analysis.Calculus.Deriv.Pow
import Mathlib.Analysis.SpecialFunctions.Sqrt

/-!
# Wind estimator: theorems about one call (C50, C102)
-/

namespace Ecl.Wind

open Cov

/-! ## Specification -/

/-- predicted airspeed reading: scale × length of the air-relative velocity -/
noncomputable def Spec.airspeedModel (v : V3') (x : V3') : ℝ := x 2 * √((v 0 - x 0) ^ 2 + (v 1 - x 1) ^ 2 + v 2 ^ 2)

/-- predicted sideslip (small angle): lateral over forward component of the air-relative velocity in body axes -/
noncomputable def Spec.sideslipModel (v : V3') (q : Quat ℝ) (x : V3') : ℝ :=
  (q.dcm 0 1 * (v 0 - x 0) + q.dcm 1 1 * (v 1 - x 1) + q.dcm 2 1 * v 2) /
    (q.dcm 0 0 * (v 0 - x 0) + q.dcm 1 0 * (v 1 - x 1) + q.dcm 2 0 * v 2)

/-- `H` is the gradient of `f` at `x` -/
def Spec.IsGrad (f : V3' → ℝ) (H x : V3') : Prop := ∀ i, HasDerivAt (fun t => f (Function.update x i t)) (H i) (x i)

/-- variance limits: 25 m²/s² for the wind, 0.1 for the scale factor -/
noncomputable def Spec.cap (i : Fin 3) : ℝ := if i = 2 then 0.1 else 25

/-- posterior state of the Kalman filter before limiting -/
noncomputable def Spec.postX (st : St) (H : V3') (e S : ℝ) (i : Fin 3) : ℝ := st.x i + Spec.mulVec st.P H i / S * e
/-- posterior covariance of the Kalman filter before limiting -/
noncomputable def Spec.postP (st : St) (H : V3') (S : ℝ) (i j : Fin 3) : ℝ :=
  st.P i j - Spec.mulVec st.P H i * Spec.mulVec st.P H j / S

/-- what an accepted measurement does: the Kalman update, followed by the limits; or the estimate is dropped because a variance would be
negative -/
def Spec.Accepted (st st' : St) (H : V3') (e S : ℝ) : Prop :=
  ((∃ i, Spec.postP st H S i i < 0) → st'.init = false) ∧
  ((∀ i, 0 ≤ Spec.postP st H S i i) →
    st'.init = true ∧ st'.x 0 = Spec.postX st H e S 0 ∧ st'.x 1 = Spec.postX st H e S 1 ∧
    st'.x 2 = (if st.c.enforced < 0 then max 0 (Spec.postX st H e S 2) else st.c.enforced) ∧
    ∀ i j, st'.P i j = if i = j then min (Spec.cap i) (Spec.postP st H S i i) else Spec.postP st H S i j)

/-- symmetric -/
def Spec.Sym (P : M3') : Prop := ∀ i j, P i j = P j i

/-! ## Helper lemmas -/

theorem hph_eq (P : M3') (H : V3') : hph P H = Spec.form P H H := by
  unfold hph Spec.form
  simp only [Fin.sum_univ_three]
  ring

theorem gain_eq (P : M3') (H : V3') (S : ℝ) (i : Fin 3) : gain P H S i = Spec.mulVec P H i / S := by
  unfold gain Spec.mulVec
  simp only [Fin.sum_univ_three]

theorem shrink_eq (st : St) (H : V3') (S : ℝ) (hs : Spec.Sym st.P) (i j : Fin 3) :
    shrink st.P (gain st.P H S) H i j = Spec.postP st H S i j := by
  unfold shrink mmul Spec.postP
  simp only [gain_eq]
  unfold Spec.mulVec
  simp only [Fin.sum_univ_three]
  rw [hs 0 j, hs 1 j, hs 2 j]
  ring

theorem diagStep_none (P : M3') (i : Fin 3) (h : P i i < 0) : diagStep P i = none := by
  unfold diagStep
  rw [if_pos h]

theorem diagStep_some (P : M3') (i : Fin 3) (h : 0 ≤ P i i) :
    diagStep P i = some (fun a b => if a = i ∧ b = i then min (Spec.cap i) (P i i) else P a b) := by
  unfold diagStep
  rw [if_neg (not_lt.mpr h)]
  simp only [Option.some.injEq]
  funext a b
  by_cases hab : a = i ∧ b = i
  · rw [if_pos hab, if_pos hab]
    have hc : (if i.val < 2 then (25 : ℝ) else 0.1) = Spec.cap i := by
      unfold Spec.cap
      fin_cases i <;> simp
    rw [hc]
    split
    · rename_i h1; rw [min_eq_left h1.le]
    · rename_i h1; rw [min_eq_right (not_lt.mp h1)]
  · rw [if_neg hab, if_neg hab]

/-- the sanity checks: a negative variance drops the estimate, otherwise limits and the scale rule apply -/
theorem sanity_spec (st : St) (hs : Spec.Sym st.P) :
    ((∃ i, st.P i i < 0) → (sanity st).init = false) ∧
    ((∀ i, 0 ≤ st.P i i) → sanity st = { st with
      x := ![st.x 0, st.x 1, if st.c.enforced < 0 then max 0 (st.x 2) else st.c.enforced]
      P := fun i j => if i = j then min (Spec.cap i) (st.P i i) else st.P i j }) := by
  constructor
  · rintro ⟨i, hi⟩
    unfold sanity
    rcases lt_or_ge (st.P 0 0) 0 with h0 | h0
    · rw [diagStep_none _ _ h0]
    rw [diagStep_some _ _ h0]
    simp only []
    rcases lt_or_ge (st.P 1 1) 0 with h1 | h1
    · rw [diagStep_none _ 1 (by simpa using h1)]
    rw [diagStep_some _ 1 (by simpa using h1)]
    simp only []
    rcases lt_or_ge (st.P 2 2) 0 with h2 | h2
    · rw [diagStep_none _ 2 (by simpa using h2)]
    exfalso
    fin_cases i
    · exact absurd hi (not_lt.mpr h0)
    · exact absurd hi (not_lt.mpr h1)
    · exact absurd hi (not_lt.mpr h2)
  · intro h
    unfold sanity
    rw [diagStep_some _ _ (h 0)]
    simp only []
    rw [diagStep_some _ 1 (by simpa using h 1)]
    simp only []
    rw [diagStep_some _ 2 (by simpa using h 2)]
    simp only [mmax_eq]
    congr 1
    funext i j
    have h01 := hs 0 1
    have h02 := hs 0 2
    have h12 := hs 1 2
    fin_cases i <;> fin_cases j <;> simp <;> linarith

theorem sanity_frame (st : St) :
    (sanity st).c = st.c ∧ (sanity st).tTas = st.tTas ∧ (sanity st).tBeta = st.tBeta ∧ (sanity st).tUpd = st.tUpd ∧
    (sanity st).rejTas = st.rejTas ∧ (sanity st).rejBeta = st.rejBeta ∧ (sanity st).reset = st.reset ∧ (sanity st).nan = st.nan ∧
    (sanity st).tasInnov = st.tasInnov ∧ (sanity st).tasInnovVar = st.tasInnovVar ∧
    (sanity st).betaInnov = st.betaInnov ∧ (sanity st).betaInnovVar = st.betaInnovVar ∧ ((sanity st).init = true → st.init = true) := by
  unfold sanity
  split
  · simp
  · split
    · simp
    · split <;> simp

theorem apply_frame (e S : ℝ) (H : V3') (st : St) :
    (apply e S H st).c = st.c ∧ (apply e S H st).tTas = st.tTas ∧ (apply e S H st).tBeta = st.tBeta ∧
    (apply e S H st).tUpd = st.tUpd ∧ (apply e S H st).rejTas = st.rejTas ∧ (apply e S H st).rejBeta = st.rejBeta ∧
    (apply e S H st).reset = st.reset ∧
    (apply e S H st).tasInnov = st.tasInnov ∧ (apply e S H st).tasInnovVar = st.tasInnovVar ∧
    (apply e S H st).betaInnov = st.betaInnov ∧ (apply e S H st).betaInnovVar = st.betaInnovVar ∧
    ((apply e S H st).init = true → st.init = true) := by
  unfold apply
  split
  · simp
  · obtain ⟨a, b, c, d, e', f, g, -, h, i, j, k, l⟩ := sanity_frame { st with
      x := ![st.x 0 + e * gain st.P H S 0, st.x 1 + e * gain st.P H S 1, st.x 2 + e * gain st.P H S 2]
      P := shrink st.P (gain st.P H S) H }
    exact ⟨a, b, c, d, e', f, g, h, i, j, k, l⟩

theorem apply_accepted (e S : ℝ) (H : V3') (st : St) (hi : st.init = true) (hs : Spec.Sym st.P) (hS : S ≠ 0) :
    Spec.Accepted st (apply e S H st) H e S := by
  unfold apply
  rw [if_neg hS]
  simp only []
  have hP : shrink st.P (gain st.P H S) H = Spec.postP st H S := by
    funext i j
    exact shrink_eq st H S hs i j
  have hsym : Spec.Sym (Spec.postP st H S) := by
    intro i j
    unfold Spec.postP
    rw [hs i j]
    ring
  have key := sanity_spec { st with
      x := ![st.x 0 + e * gain st.P H S 0, st.x 1 + e * gain st.P H S 1, st.x 2 + e * gain st.P H S 2]
      P := shrink st.P (gain st.P H S) H } (by show Spec.Sym (shrink _ _ _); rw [hP]; exact hsym)
  simp only [hP] at key ⊢
  refine ⟨key.1, fun h => ?_⟩
  rw [key.2 h]
  simp only [gain_eq, Spec.postX]
  refine ⟨hi, ?_, ?_, ?_, by intros; trivial⟩
  · simp; ring
  · simp; ring
  · simp only [Matrix.cons_val]
    rw [mul_comm e]

theorem check_spec (now : UInt64) (e S : ℝ) (g : UInt8) (t : UInt64) :
    (e ^ 2 ≤ (g.toNat : ℝ) ^ 2 * S → checkRejected now e S g t = (0, false, false)) ∧
    ((g.toNat : ℝ) ^ 2 * S < e ^ 2 → t = 0 → checkRejected now e S g t = (now, decide (now ≠ 0), false)) ∧
    ((g.toNat : ℝ) ^ 2 * S < e ^ 2 → t ≠ 0 → checkRejected now e S g t = (t, true, decide (now - t > 5000000))) := by
  have hc : (e * e > (g.toNat : ℝ) * g.toNat * S) = ((g.toNat : ℝ) ^ 2 * S < e ^ 2) := by
    rw [gt_iff_lt]; ring_nf
  unfold checkRejected
  simp only [hc]
  refine ⟨fun h => ?_, fun h ht => ?_, fun h ht => ?_⟩
  · rw [if_neg (not_lt.mpr h)]
    simp
  · rw [if_pos h, if_pos ht]
    have h0 : ¬ (now - now > (5000000 : UInt64)) := by
      rw [UInt64.sub_self]
      decide
    simp only [h0, false_and, decide_false]
  · rw [if_pos h, if_neg ht]
    simp [ht]

theorem relSpeed_eq (v x : V3') : relSpeed v x = √((v 0 - x 0) ^ 2 + (v 1 - x 1) ^ 2 + v 2 ^ 2) := by
  unfold relSpeed
  congr 1
  ring

theorem tasPred_eq (v x : V3') : tasPred v x = Spec.airspeedModel v x := by
  unfold tasPred Spec.airspeedModel
  congr 2
  ring

/-! ## C102: the sensitivities are the gradients of the measurement models -/

theorem sqrt_deriv (f : ℝ → ℝ) (f' t : ℝ) (hf : HasDerivAt f f' t) (h0 : 0 < f t) :
    HasDerivAt (fun t => √(f t)) (f' / (2 * √(f t))) t := hf.sqrt h0.ne'

theorem lin_deriv (a b t : ℝ) : HasDerivAt (fun t : ℝ => a * t + b) a t := by
  have h := HasDerivAt.add_const b ((hasDerivAt_id t).const_mul a)
  exact h.congr_deriv (mul_one a)

theorem sq_deriv (c k t : ℝ) : HasDerivAt (fun t : ℝ => (c - t) ^ 2 + k) (2 * (c - t) * -1) t := by
  have h1 := lin_deriv (-1) c t
  have h2 := HasDerivAt.add_const k (h1.mul h1)
  refine (h2.congr_deriv (by ring)).congr_of_eventuallyEq (Filter.Eventually.of_forall fun t => ?_)
  simp only [Pi.mul_apply]
  ring

/-- **C102.** The airspeed sensitivity used by the code is the gradient of `scale·|v − wind|`, wherever the relative airspeed is not zero. -/
theorem airspeed_gradient (v x : V3') (h : 0 < (v 0 - x 0) ^ 2 + (v 1 - x 1) ^ 2 + v 2 ^ 2) :
    Spec.IsGrad (Spec.airspeedModel v) (hTas v x) x := by
  have hq := Real.sqrt_pos.mpr h
  intro i
  unfold Spec.airspeedModel hTas
  rw [relSpeed_eq]
  fin_cases i
  · simp only [Fin.zero_eta, Fin.isValue, Function.update_self, ne_eq, Function.update, Fin.reduceEq, not_false_eq_true, dite_false, dite_true, Matrix.cons_val_zero]
    have hd : HasDerivAt (fun t : ℝ => (v 0 - t) ^ 2 + (v 1 - x 1) ^ 2 + v 2 ^ 2) (2 * (v 0 - x 0) * -1) (x 0) := by
      have h1 := sq_deriv (v 0) ((v 1 - x 1) ^ 2 + v 2 ^ 2) (x 0)
      simpa only [add_assoc] using h1
    have := (sqrt_deriv _ _ _ hd h).const_mul (x 2)
    refine this.congr_deriv ?_
    field_simp
    ring
  · simp only [Fin.mk_one, Fin.isValue, Function.update_self, ne_eq, Function.update, Fin.reduceEq, not_false_eq_true, dite_false, dite_true, Matrix.cons_val_one, Matrix.cons_val_zero]
    have hd : HasDerivAt (fun t : ℝ => (v 0 - x 0) ^ 2 + (v 1 - t) ^ 2 + v 2 ^ 2) (2 * (v 1 - x 1) * -1) (x 1) := by
      have h1 := sq_deriv (v 1) ((v 0 - x 0) ^ 2 + v 2 ^ 2) (x 1)
      refine h1.congr_of_eventuallyEq (Filter.Eventually.of_forall fun t => ?_)
      simp only []
      ring
    have := (sqrt_deriv _ _ _ hd h).const_mul (x 2)
    refine this.congr_deriv ?_
    field_simp
    ring
  · simp only [Fin.reduceFinMk, Fin.isValue, Function.update_self, ne_eq, Function.update, Fin.reduceEq, not_false_eq_true, dite_false, dite_true, Matrix.cons_val]
    have := (hasDerivAt_id (x 2)).mul_const (√((v 0 - x 0) ^ 2 + (v 1 - x 1) ^ 2 + v 2 ^ 2))
    simpa using this

theorem quot_deriv (a b c d t : ℝ) (h : c * t + d ≠ 0) :
    HasDerivAt (fun t => (a * t + b) / (c * t + d)) ((a * (c * t + d) - (a * t + b) * c) / (c * t + d) ^ 2) t := by
  have h1 : HasDerivAt (fun t : ℝ => a * t + b) a t := lin_deriv a b t
  have h2 : HasDerivAt (fun t : ℝ => c * t + d) c t := lin_deriv c d t
  exact h1.div h2 h

theorem sideslip_alg (a n c : ℝ) {X : ℝ} (h : X ≠ 0) : (-a * X - n * -c) / X ^ 2 = c * (n / (X * X)) + 1 / X * -a := by
  field_simp
  ring

/-- **C102.** The sideslip sensitivity used by the code is the gradient of the sideslip model, wherever the forward airspeed is not zero. -/
theorem sideslip_gradient (v x : V3') (q : Quat ℝ)
    (h : q.dcm 0 0 * (v 0 - x 0) + q.dcm 1 0 * (v 1 - x 1) + q.dcm 2 0 * v 2 ≠ 0) :
    Spec.IsGrad (Spec.sideslipModel v q) (hBeta v x q) x := by
  have hx : q.dcm 0 0 * (v 0 - x 0) + q.dcm 1 0 * (v 1 - x 1) + q.dcm 2 0 * v 2 =
      (q.x * q.x - q.y * q.y + (q.w * q.w - q.z * q.z)) * (v 0 - x 0) + (v 1 - x 1) * (2 * q.w * q.z + 2 * q.x * q.y) +
        v 2 * (-(2 * q.w) * q.y + 2 * q.x * q.z) := by
    unfold Quat.dcm
    simp [Matrix.of_apply]
    ring
  have d00 : q.dcm 0 0 = q.w * q.w + q.x * q.x - q.y * q.y - q.z * q.z := by
    unfold Quat.dcm; simp [Matrix.of_apply]
  have d10 : q.dcm 1 0 = 2 * (q.x * q.y + q.w * q.z) := by
    unfold Quat.dcm; simp [Matrix.of_apply]
  have d01 : q.dcm 0 1 = 2 * (q.x * q.y - q.w * q.z) := by
    unfold Quat.dcm; simp [Matrix.of_apply]
  have d11 : q.dcm 1 1 = q.w * q.w - q.x * q.x + q.y * q.y - q.z * q.z := by
    unfold Quat.dcm; simp [Matrix.of_apply]
  have d21 : q.dcm 2 1 = 2 * (q.w * q.x + q.y * q.z) := by
    unfold Quat.dcm; simp [Matrix.of_apply]
  intro i
  fin_cases i
  · have e : (fun t => Spec.sideslipModel v q (Function.update x 0 t)) = fun t =>
        ((-q.dcm 0 1) * t + (q.dcm 0 1 * v 0 + q.dcm 1 1 * (v 1 - x 1) + q.dcm 2 1 * v 2)) /
        ((-q.dcm 0 0) * t + (q.dcm 0 0 * v 0 + q.dcm 1 0 * (v 1 - x 1) + q.dcm 2 0 * v 2)) := by
      funext t
      unfold Spec.sideslipModel
      simp only [Function.update, Fin.isValue, Fin.reduceEq, dite_false, dite_true]
      congr 1 <;> ring
    show HasDerivAt (fun t => Spec.sideslipModel v q (Function.update x 0 t)) (hBeta v x q 0) (x 0)
    rw [e]
    have h' : (-q.dcm 0 0) * x 0 + (q.dcm 0 0 * v 0 + q.dcm 1 0 * (v 1 - x 1) + q.dcm 2 0 * v 2) =
        q.dcm 0 0 * (v 0 - x 0) + q.dcm 1 0 * (v 1 - x 1) + q.dcm 2 0 * v 2 := by ring
    refine (quot_deriv _ _ _ _ _ (by rw [h']; exact h)).congr_deriv ?_
    rw [h', sideslip_alg _ _ _ h]
    unfold hBeta
    simp only [Fin.zero_eta, Fin.isValue, Matrix.cons_val_zero]
    rw [← hx]
    generalize q.dcm 0 0 * (v 0 - x 0) + q.dcm 1 0 * (v 1 - x 1) + q.dcm 2 0 * v 2 = X
    rw [d00, d01, d11, d21]
    ring
  · have e : (fun t => Spec.sideslipModel v q (Function.update x 1 t)) = fun t =>
        ((-q.dcm 1 1) * t + (q.dcm 0 1 * (v 0 - x 0) + q.dcm 1 1 * v 1 + q.dcm 2 1 * v 2)) /
        ((-q.dcm 1 0) * t + (q.dcm 0 0 * (v 0 - x 0) + q.dcm 1 0 * v 1 + q.dcm 2 0 * v 2)) := by
      funext t
      unfold Spec.sideslipModel
      simp only [Function.update, Fin.isValue, Fin.reduceEq, dite_false, dite_true]
      congr 1 <;> ring
    show HasDerivAt (fun t => Spec.sideslipModel v q (Function.update x 1 t)) (hBeta v x q 1) (x 1)
    rw [e]
    have h' : (-q.dcm 1 0) * x 1 + (q.dcm 0 0 * (v 0 - x 0) + q.dcm 1 0 * v 1 + q.dcm 2 0 * v 2) =
        q.dcm 0 0 * (v 0 - x 0) + q.dcm 1 0 * (v 1 - x 1) + q.dcm 2 0 * v 2 := by ring
    refine (quot_deriv _ _ _ _ _ (by rw [h']; exact h)).congr_deriv ?_
    rw [h', sideslip_alg _ _ _ h]
    unfold hBeta
    simp only [Fin.mk_one, Fin.isValue, Matrix.cons_val_one, Matrix.cons_val_zero]
    rw [← hx]
    generalize q.dcm 0 0 * (v 0 - x 0) + q.dcm 1 0 * (v 1 - x 1) + q.dcm 2 0 * v 2 = X
    rw [d10, d01, d11, d21]
    ring
  · have e : (fun t => Spec.sideslipModel v q (Function.update x 2 t)) = fun _ => Spec.sideslipModel v q x := by
      funext t
      unfold Spec.sideslipModel
      simp only [Function.update, Fin.isValue, Fin.reduceEq, dite_false]
    show HasDerivAt (fun t => Spec.sideslipModel v q (Function.update x 2 t)) _ _
    rw [e]
    exact hasDerivAt_const _ _


/-! ## C50, C102: one airspeed or sideslip fusion -/

/-- result of one processed measurement: error `e`, its variance `S`, sensitivity `H`; `t` is the start of the running period of
rejections (0: none) -/
def Spec.Processed (now : UInt64) (e S : ℝ) (H : V3') (gate : UInt8) (t : UInt64) (st st' : St) (v : V3') (tas : ℝ) : Prop :=
  (-- accepted
    e ^ 2 ≤ (gate.toNat : ℝ) ^ 2 * S → 0 < S → Spec.Accepted st st' H e S ∧ st'.reset = st.reset) ∧
  (-- rejected, no reset due
    (gate.toNat : ℝ) ^ 2 * S < e ^ 2 → 0 ≤ S → now ≠ 0 → (t = 0 ∨ now - t ≤ 5000000) →
      st'.x = st.x ∧ st'.P = st.P ∧ st'.init = true ∧ st'.reset = st.reset) ∧
  (-- rejected for too long, or impossible variance: start again from this measurement
    ((gate.toNat : ℝ) ^ 2 * S < e ^ 2 ∧ t ≠ 0 ∧ 5000000 < now - t) ∨ S < 0 →
      ∃ st1 : St, st' = initialise v 0.1 0.1 tas st1 ∧ st1.x = st.x ∧ st1.P = st.P)

/-- **C102.** A processed airspeed measurement: the published innovation is measured − predicted airspeed, its published variance is
HPHᵀ + R with `H` the gradient of the airspeed model; an accepted measurement performs the Kalman update followed by the limits; a rejected one
changes neither estimate nor covariance; the estimator starts again exactly when the variance is negative or rejections last more than
5 s. -/
theorem airspeed_fusion (now : UInt64) (tas : ℝ) (v : V3') (a b : ℝ) (st : St) (hi : st.init = true) (ht : 100000 ≤ now - st.tTas)
    (hs : Spec.Sym st.P) (hrel : 0 < (v 0 - st.x 0) ^ 2 + (v 1 - st.x 1) ^ 2 + v 2 ^ 2) :
    ∃ H, Spec.IsGrad (Spec.airspeedModel v) H st.x ∧
      let e := tas - Spec.airspeedModel v st.x
      let S := Spec.form st.P H H + st.c.tasVar
      let st' := fuseTas now tas v a b st
      st'.tasInnov = e ∧ st'.tasInnovVar = S ∧ st'.tTas = now ∧
        Spec.Processed now e S H st.c.tasGate st.rejTas st st' v tas := by
  refine ⟨hTas v st.x, airspeed_gradient v st.x hrel, ?_⟩
  have ht' : ¬ now - st.tTas < 100000 := by
    rw [u64_lt_iff]; rw [u64_le_iff] at ht; omega
  have hr : relSpeed v st.x ≠ 0 := by
    rw [relSpeed_eq]; exact (Real.sqrt_pos.mpr hrel).ne'
  have e0 : fuseTas now tas v a b st = fuseTasCore now tas v st := by
    unfold fuseTas
    rw [if_neg (by rw [hi]; decide), if_neg ht']
  simp only []
  rw [e0]
  unfold fuseTasCore
  simp only []
  rw [if_neg hr, tasPred_eq, hph_eq]
  generalize hTas v st.x = H
  generalize tas - Spec.airspeedModel v st.x = e
  generalize Spec.form st.P H H + st.c.tasVar = S
  obtain ⟨c1, c2, c3⟩ := check_spec now e S st.c.tasGate st.rejTas
  have hin : ∀ st1 : St, (initialise v 0.1 0.1 tas st1).tasInnov = st1.tasInnov ∧ (initialise v 0.1 0.1 tas st1).tasInnovVar = st1.tasInnovVar ∧
      (initialise v 0.1 0.1 tas st1).tTas = st1.tTas := by
    intro st1; unfold initialise; split <;> exact ⟨rfl, rfl, rfl⟩
  have hx : ∀ (st1 st2 : St), st1.x = st2.x → st1.P = st2.P → st1.c = st2.c → Spec.Accepted st1 = Spec.Accepted st2 := by
    intro st1 st2 h1 h2 h3
    funext st' H' e' S'
    unfold Spec.Accepted Spec.postP Spec.postX
    rw [h1, h2, h3]
  refine ⟨?_, ?_, ?_, ?_, ?_, ?_⟩
  · split
    · split
      · exact (hin _).1
      · rfl
    · exact (apply_frame _ _ _ _).2.2.2.2.2.2.2.1
  · split
    · split
      · exact (hin _).2.1
      · rfl
    · exact (apply_frame _ _ _ _).2.2.2.2.2.2.2.2.1
  · split
    · split
      · exact (hin _).2.2
      · rfl
    · exact (apply_frame _ _ _ _).2.1
  · intro h1 hS
    rw [c1 h1]
    rw [if_neg (by simp [not_lt.mpr hS.le])]
    refine ⟨?_, (apply_frame _ _ _ _).2.2.2.2.2.2.1⟩
    have ha := fun st1 : St => fun h1 h2 h3 h4 => hx st1 st h1 h2 h3 ▸ apply_accepted e S H st1 h4 (by rw [h2]; exact hs) hS.ne'
    exact ha _ rfl rfl rfl hi
  · intro h1 hS hn htt
    by_cases h0 : st.rejTas = 0
    · rw [c2 h1 h0]
      rw [if_pos (by simp [hn]), if_neg (by simp [not_lt.mpr hS])]
      exact ⟨rfl, rfl, hi, rfl⟩
    · rw [c3 h1 h0]
      have : ¬ (now - st.rejTas > 5000000) := by
        rcases htt with h | h
        · exact absurd h h0
        · rw [gt_iff_lt, u64_lt_iff]; rw [u64_le_iff] at h; omega
      rw [if_pos (by simp), if_neg (by rw [decide_eq_false this]; simp [not_lt.mpr hS])]
      exact ⟨rfl, rfl, hi, rfl⟩
  · intro h
    have hre : ((checkRejected now e S st.c.tasGate st.rejTas).2.2 || decide (S < 0)) = true := by
      rcases h with ⟨h1, h2, h3⟩ | h
      · rw [c3 h1 h2]
        simp only [decide_eq_true (show now - st.rejTas > 5000000 from h3), Bool.true_or]
      · rw [decide_eq_true h, Bool.or_true]
    rw [if_pos (by rw [hre, Bool.or_true]), if_pos hre]
    exact ⟨_, rfl, rfl, rfl⟩

theorem relWind_eq (v x : V3') (q : Quat ℝ) : relWind v x q 1 / relWind v x q 0 = Spec.sideslipModel v q x := rfl

/-- **C102.** A processed zero-sideslip measurement with at least 0.1 m/s forward airspeed: as for airspeed, with the sideslip model and
measurement zero; with less forward airspeed nothing but the time stamp changes. -/
theorem sideslip_fusion (now : UInt64) (v : V3') (q : Quat ℝ) (st : St) (hi : st.init = true) (ht : 100000 ≤ now - st.tBeta)
    (hs : Spec.Sym st.P) :
    let fwd := q.dcm 0 0 * (v 0 - st.x 0) + q.dcm 1 0 * (v 1 - st.x 1) + q.dcm 2 0 * v 2
    let st' := fuseBeta now v q st
    (|fwd| < 0.1 → st' = { st with tBeta := now }) ∧
    (0.1 ≤ |fwd| → ∃ H, Spec.IsGrad (Spec.sideslipModel v q) H st.x ∧
      let e := -Spec.sideslipModel v q st.x
      let S := Spec.form st.P H H + st.c.betaVar
      st'.betaInnov = e ∧ st'.betaInnovVar = S ∧ st'.tBeta = now ∧
        Spec.Processed now e S H st.c.betaGate st.rejBeta st st' v (√(v 0 ^ 2 + v 1 ^ 2 + v 2 ^ 2))) := by
  have ht' : ¬ now - st.tBeta < 100000 := by
    rw [u64_lt_iff]; rw [u64_le_iff] at ht; omega
  have e0 : fuseBeta now v q st = fuseBetaCore now v q st := by
    unfold fuseBeta
    rw [if_neg (by rw [hi]; decide), if_neg ht']
  have hl : len3 v = √(v 0 ^ 2 + v 1 ^ 2 + v 2 ^ 2) := by
    unfold len3; congr 1; ring
  intro fwd
  have hf : relWind v st.x q 0 = fwd := rfl
  simp only []
  rw [e0, ← hl]
  constructor
  · intro h
    unfold fuseBetaCore
    simp only []
    rw [hf, if_pos h]
  intro h
  refine ⟨hBeta v st.x q, sideslip_gradient v st.x q (by intro h0; rw [show fwd = 0 from h0, abs_zero] at h; norm_num at h), ?_⟩
  unfold fuseBetaCore
  simp only []
  have h' : ¬ |fwd| < (0.1 : ℝ) := not_lt.mpr h
  rw [hf, if_neg h', ← hf, relWind_eq, hph_eq, zero_sub]
  generalize hBeta v st.x q = H
  generalize -Spec.sideslipModel v q st.x = e
  generalize Spec.form st.P H H + st.c.betaVar = S
  obtain ⟨c1, c2, c3⟩ := check_spec now e S st.c.betaGate st.rejBeta
  have hin : ∀ st1 : St, (initialise v 0.1 0.1 (len3 v) st1).betaInnov = st1.betaInnov ∧ (initialise v 0.1 0.1 (len3 v) st1).betaInnovVar = st1.betaInnovVar ∧
      (initialise v 0.1 0.1 (len3 v) st1).tBeta = st1.tBeta := by
    intro st1; unfold initialise; split <;> exact ⟨rfl, rfl, rfl⟩
  have hx : ∀ (st1 st2 : St), st1.x = st2.x → st1.P = st2.P → st1.c = st2.c → Spec.Accepted st1 = Spec.Accepted st2 := by
    intro st1 st2 h1 h2 h3
    funext st' H' e' S'
    unfold Spec.Accepted Spec.postP Spec.postX
    rw [h1, h2, h3]
  refine ⟨?_, ?_, ?_, ?_, ?_, ?_⟩
  · split
    · split
      · exact (hin _).1
      · rfl
    · exact (apply_frame _ _ _ _).2.2.2.2.2.2.2.2.2.1
  · split
    · split
      · exact (hin _).2.1
      · rfl
    · exact (apply_frame _ _ _ _).2.2.2.2.2.2.2.2.2.2.1
  · split
    · split
      · exact (hin _).2.2
      · rfl
    · exact (apply_frame _ _ _ _).2.2.1
  · intro h1 hS
    rw [c1 h1]
    rw [if_neg (by simp [not_lt.mpr hS.le])]
    refine ⟨?_, (apply_frame _ _ _ _).2.2.2.2.2.2.1⟩
    have ha := fun st1 : St => fun h1 h2 h3 h4 => hx st1 st h1 h2 h3 ▸ apply_accepted e S H st1 h4 (by rw [h2]; exact hs) hS.ne'
    exact ha _ rfl rfl rfl hi
  · intro h1 hS hn htt
    by_cases h0 : st.rejBeta = 0
    · rw [c2 h1 h0]
      rw [if_pos (by simp [hn]), if_neg (by simp [not_lt.mpr hS])]
      exact ⟨rfl, rfl, hi, rfl⟩
    · rw [c3 h1 h0]
      have : ¬ (now - st.rejBeta > 5000000) := by
        rcases htt with h | h
        · exact absurd h h0
        · rw [gt_iff_lt, u64_lt_iff]; rw [u64_le_iff] at h; omega
      rw [if_pos (by simp), if_neg (by rw [decide_eq_false this]; simp [not_lt.mpr hS])]
      exact ⟨rfl, rfl, hi, rfl⟩
  · intro h
    have hre : ((checkRejected now e S st.c.betaGate st.rejBeta).2.2 || decide (S < 0)) = true := by
      rcases h with ⟨h1, h2, h3⟩ | h
      · rw [c3 h1 h2]
        simp only [decide_eq_true (show now - st.rejBeta > 5000000 from h3), Bool.true_or]
      · rw [decide_eq_true h, Bool.or_true]
    rw [if_pos (by rw [hre, Bool.or_true]), if_pos hre]
    exact ⟨_, rfl, rfl, rfl⟩

/-- **C102 (consistency).** With a positive semi-definite covariance, positive noise and no limit reached, an accepted measurement leaves a
positive semi-definite covariance with no larger variances, and the estimate stays valid. -/
theorem accepted_consistent (st st' : St) (H : V3') (e R : ℝ) (hP : Spec.PSD st.P) (hR : 0 < R)
    (ha : Spec.Accepted st st' H e (Spec.form st.P H H + R)) (hc : ∀ i, st.P i i ≤ Spec.cap i) :
    st'.init = true ∧ Spec.PSD st'.P ∧ ∀ i, st'.P i i ≤ st.P i i := by
  have key := kalman_update_valid hP H hR
  have hp : ∀ i j, Spec.postP st H (Spec.form st.P H H + R) i j = st.P i j - Spec.mulVec st.P H i * Spec.mulVec st.P H j / Spec.innovVar st.P H R :=
    fun i j => rfl
  have hS : 0 < Spec.form st.P H H + R := by
    have := hP.nonneg H; linarith
  have hle : ∀ i, Spec.postP st H (Spec.form st.P H H + R) i i ≤ st.P i i := by
    intro i
    unfold Spec.postP
    have := div_nonneg (mul_self_nonneg (Spec.mulVec st.P H i)) hS.le
    linarith
  have hpsd : Spec.PSD (Spec.postP st H (Spec.form st.P H H + R)) := by
    have := key.2.1
    have e1 : Spec.postP st H (Spec.form st.P H H + R) =
        fun i j => st.P i j - Spec.mulVec st.P H i / Spec.innovVar st.P H R * Spec.mulVec st.P H j := by
      funext i j
      rw [hp]
      ring
    rw [e1]
    exact this
  obtain ⟨h1, -, -, -, h5⟩ := ha.2 (fun i => diag_nonneg hpsd i)
  have hPe : st'.P = Spec.postP st H (Spec.form st.P H H + R) := by
    funext i j
    rw [h5]
    split
    · rename_i hij
      subst hij
      exact min_eq_right ((hle i).trans (hc i))
    · rfl
  exact ⟨h1, hPe ▸ hpsd, fun i => hPe ▸ hle i⟩

end Ecl.Wind
