import Verif.Wind.Props

/-!
# Wind estimator: histories, timing and findings (C50, C51, C102, C103)
-/

namespace Ecl.Wind

open Cov

/-! ## Initialisation -/

theorem hyp_pos (v : V3') (h : 3 ≤ √(v 0 ^ 2 + v 1 ^ 2)) : 0 < √(v 0 ^ 2 + v 1 ^ 2) := by linarith

theorem initialise_eq (v : V3') (a b tas : ℝ) (st : St) :
    (√(v 0 ^ 2 + v 1 ^ 2) < 3 → initialise v a b tas st = { st with init := false }) ∧
    (3 ≤ √(v 0 ^ 2 + v 1 ^ 2) → initialise v a b tas st = { st with
      x := ![v 0 - tas * (v 0 / √(v 0 ^ 2 + v 1 ^ 2)), v 1 - tas * (v 1 / √(v 0 ^ 2 + v 1 ^ 2)), 1]
      P := initP v a b tas
      rejTas := 0
      rejBeta := 0
      reset := true
      init := true
      nan := false }) := by
  have e : v 0 * v 0 + v 1 * v 1 = v 0 ^ 2 + v 1 ^ 2 := by ring
  unfold initialise
  rw [e]
  constructor
  · intro h
    rw [if_pos h]
  · intro h
    have hp := hyp_pos v h
    rw [if_neg (not_lt.mpr h)]
    have hpos : 0 < v 0 ^ 2 + v 1 ^ 2 := Real.sqrt_pos.mp hp
    have hc : Real.cos (atan2 (v 1) (v 0)) = v 0 / √(v 0 ^ 2 + v 1 ^ 2) := by
      have := cos_atan2 (x := v 0) (y := v 1) hpos.ne'
      rw [this]
    have hsn : Real.sin (atan2 (v 1) (v 0)) = v 1 / √(v 0 ^ 2 + v 1 ^ 2) := by
      exact sin_atan2 (v 1) (v 0)
    simp only [hc, hsn]

/-- **C103.** No wind estimate starts below 3 m/s ground speed; otherwise the initial wind puts the horizontal air-relative velocity along the
ground track with the measured airspeed as its length, scale factor one, and the reset is announced. -/
theorem initial_wind (v : V3') (a b tas : ℝ) (st : St) :
    (√(v 0 ^ 2 + v 1 ^ 2) < 3 → (initialise v a b tas st).init = false ∧ (initialise v a b tas st).reset = st.reset) ∧
    (3 ≤ √(v 0 ^ 2 + v 1 ^ 2) →
      let st' := initialise v a b tas st
      st'.init = true ∧ st'.reset = true ∧ st'.x 2 = 1 ∧ st'.rejTas = 0 ∧ st'.rejBeta = 0 ∧
      (v 0 - st'.x 0) * √(v 0 ^ 2 + v 1 ^ 2) = tas * v 0 ∧ (v 1 - st'.x 1) * √(v 0 ^ 2 + v 1 ^ 2) = tas * v 1 ∧
      √((v 0 - st'.x 0) ^ 2 + (v 1 - st'.x 1) ^ 2) = |tas|) := by
  refine ⟨fun h => ?_, fun h => ?_⟩
  · rw [(initialise_eq v a b tas st).1 h]
    exact ⟨rfl, rfl⟩
  · have hp := hyp_pos v h
    simp only [(initialise_eq v a b tas st).2 h]
    have h2 : √(v 0 ^ 2 + v 1 ^ 2) ^ 2 = v 0 ^ 2 + v 1 ^ 2 := Real.sq_sqrt (Real.sqrt_pos.mp hp).le
    generalize √(v 0 ^ 2 + v 1 ^ 2) = r at *
    refine ⟨trivial, trivial, rfl, trivial, trivial, ?_, ?_, ?_⟩
    · simp only [Matrix.cons_val_zero]
      field_simp
      ring
    · simp only [Matrix.cons_val_one, Matrix.cons_val_zero]
      field_simp
      ring
    · simp only [Matrix.cons_val_one, Matrix.cons_val_zero]
      rw [← Real.sqrt_sq_eq_abs]
      congr 1
      have : (v 0 - (v 0 - tas * (v 0 / r))) ^ 2 + (v 1 - (v 1 - tas * (v 1 / r))) ^ 2 = tas ^ 2 * ((v 0 ^ 2 + v 1 ^ 2) / r ^ 2) := by
        field_simp
        ring
      rw [this, ← h2, div_self (pow_pos hp 2).ne', mul_one]

/-- the matrix used for the initial covariance, in terms of `k = airspeed / ground speed³` -/
theorem initL_eq (v : V3') (tas : ℝ) (h : 0 < √(v 0 ^ 2 + v 1 ^ 2)) :
    let k := tas / √(v 0 ^ 2 + v 1 ^ 2) ^ 3
    initL v tas = ![![1 + k * (v 0 * v 1), -(k * v 0 ^ 2), 0], ![-(k * v 1 ^ 2), 1 + k * (v 0 * v 1), 0], ![0, 0, 1]] := by
  have h2 : √(v 0 ^ 2 + v 1 ^ 2) ^ 2 = v 0 ^ 2 + v 1 ^ 2 := Real.sq_sqrt (Real.sqrt_pos.mp h).le
  have e : v 1 * v 1 + v 0 * v 0 = v 0 ^ 2 + v 1 ^ 2 := by ring
  intro k
  unfold initL
  simp only [e]
  have hk : tas / ((v 0 ^ 2 + v 1 ^ 2) * √(v 0 ^ 2 + v 1 ^ 2)) = k := by
    show _ = tas / √(v 0 ^ 2 + v 1 ^ 2) ^ 3
    rw [pow_succ (√(v 0 ^ 2 + v 1 ^ 2)) 2, h2]
  rw [hk]
  have hi : -(1 / √(v 0 ^ 2 + v 1 ^ 2)) * tas = -(k * (v 0 ^ 2 + v 1 ^ 2)) := by
    show _ = -(tas / √(v 0 ^ 2 + v 1 ^ 2) ^ 3 * (v 0 ^ 2 + v 1 ^ 2))
    generalize √(v 0 ^ 2 + v 1 ^ 2) = r at h h2
    rw [← h2]
    field_simp
  rw [hi]
  congr 1
  · congr 1
    · ring
    · congr 1
      ring
  · congr 1
    congr 1
    · ring
    · congr 1
      ring

theorem initP_entries (v : V3') (a b tas : ℝ) (h : 0 < √(v 0 ^ 2 + v 1 ^ 2)) :
    let k := tas / √(v 0 ^ 2 + v 1 ^ 2) ^ 3
    let d := 1 + k * (v 0 * v 1)
    initP v a b tas = ![![d ^ 2 * a + (k * v 0 ^ 2) ^ 2 * b, -(d * (k * v 1 ^ 2) * a + d * (k * v 0 ^ 2) * b), 0],
      ![-(d * (k * v 1 ^ 2) * a + d * (k * v 0 ^ 2) * b), (k * v 1 ^ 2) ^ 2 * a + d ^ 2 * b, 0], ![0, 0, 0.0001]] := by
  intro k d
  unfold initP
  rw [initL_eq v tas h]
  funext i j
  fin_cases i <;> fin_cases j <;> simp [mmul, transp, k, d] <;> ring

theorem initP_valid (v : V3') (a b tas : ℝ) (ha : 0 ≤ a) (hb : 0 ≤ b) (h : 0 < √(v 0 ^ 2 + v 1 ^ 2)) :
    Spec.Sym (initP v a b tas) ∧ ∀ i, 0 ≤ initP v a b tas i i := by
  rw [initP_entries v a b tas h]
  constructor
  · intro i j
    fin_cases i <;> fin_cases j <;> rfl
  · intro i
    fin_cases i
    · show 0 ≤ _ + _
      positivity
    · show 0 ≤ _ + _
      positivity
    · show (0 : ℝ) ≤ 0.0001
      norm_num

/-- the initial wind as a function of the ground velocity (east component at zero, north component `V`) -/
noncomputable def Spec.initialWind (tas : ℝ) (vn ve : ℝ) : ℝ × ℝ :=
  (vn - tas * (vn / √(vn ^ 2 + ve ^ 2)), ve - tas * (ve / √(vn ^ 2 + ve ^ 2)))

theorem inv_sqrt_deriv (V : ℝ) (hV : 0 < V) : HasDerivAt (fun t : ℝ => 1 / √(V ^ 2 + t ^ 2)) 0 0 := by
  have h1 : HasDerivAt (fun t : ℝ => V ^ 2 + t ^ 2) 0 0 := by
    have h := sq_deriv 0 (V ^ 2) 0
    refine (h.congr_deriv (by norm_num)).congr_of_eventuallyEq (Filter.Eventually.of_forall fun t => ?_)
    simp only []
    ring
  have h2 := sqrt_deriv _ _ _ h1 (by positivity)
  have h3 := h2.inv (by positivity)
  refine (h3.congr_deriv (by simp)).congr_of_eventuallyEq (Filter.Eventually.of_forall fun t => ?_)
  simp [one_div]

/-- **C103 (finding).** The initial covariance is not the propagated velocity covariance: flying north at speed `V`, the derivative of the
initial wind with respect to the east velocity is (0, 1 − tas/V), so the north variance should be that of the north velocity, the east one
(1 − tas/V)² times that of the east velocity, and their covariance zero; the code's covariance is −(tas/V)·var_e and its
variances are var_n + (tas/V)²·var_e and var_e (the two velocity-dependent rows of the matrix are exchanged). -/
theorem initial_covariance_not_jacobian (V w : ℝ) (hV : 3 ≤ V) (a b tas : ℝ) (st : St) :
    HasDerivAt (fun t => (Spec.initialWind tas V t).1) 0 0 ∧ HasDerivAt (fun t => (Spec.initialWind tas V t).2) (1 - tas / V) 0 ∧
    (let st' := initialise ![V, 0, w] a b tas st
     st'.x 0 = (Spec.initialWind tas V 0).1 ∧ st'.x 1 = (Spec.initialWind tas V 0).2 ∧
     st'.P 0 0 = a + (tas / V) ^ 2 * b ∧ st'.P 1 1 = b ∧ st'.P 0 1 = -(tas / V * b)) := by
  have hV0 : 0 < V := by linarith
  have hi := inv_sqrt_deriv V hV0
  have hs : √(V ^ 2 + (0 : ℝ) ^ 2) = V := by
    rw [show V ^ 2 + (0 : ℝ) ^ 2 = V ^ 2 by ring, Real.sqrt_sq hV0.le]
  refine ⟨?_, ?_, ?_⟩
  · have h1 := HasDerivAt.const_add V (hi.const_mul (-(tas * V)))
    refine (h1.congr_deriv (by ring)).congr_of_eventuallyEq (Filter.Eventually.of_forall fun t => ?_)
    show V - tas * (V / _) = V + -(tas * V) * (1 / _)
    ring
  · have h1 := lin_deriv 1 0 0
    have h2 := (lin_deriv (-tas) 0 0).mul hi
    have h3 := h1.add h2
    refine (h3.congr_deriv ?_).congr_of_eventuallyEq (Filter.Eventually.of_forall fun t => ?_)
    · rw [hs]
      ring
    · show t - tas * (t / _) = 1 * t + 0 + (-tas * t + 0) * (1 / _)
      ring
  · have hsq : √((![V, 0, w] : V3') 0 ^ 2 + (![V, 0, w] : V3') 1 ^ 2) = V := hs
    have h3 := (initialise_eq ![V, 0, w] a b tas st).2 (by rw [hsq]; exact hV)
    simp only []
    rw [h3]
    simp only []
    rw [initP_entries _ _ _ _ (by rw [hsq]; exact hV0), hsq]
    refine ⟨?_, ?_, ?_, ?_, ?_⟩
    · show V - tas * (V / V) = V - tas * (V / √(V ^ 2 + 0 ^ 2))
      rw [hs]
    · show 0 - tas * (0 / V) = 0 - tas * (0 / √(V ^ 2 + 0 ^ 2))
      rw [hs]
    · simp
      field_simp
      exact Or.inl trivial
    · simp
    · simp
      field_simp
      exact Or.inl trivial

/-! ## Prediction -/

/-- **C51, C103.** One `update` call.  Not initialised: nothing.  Otherwise the reset announcement is cleared, and: the first call only stores the
time; less than 1 s after the stored time nothing else happens; otherwise the covariance grows and the time is stored. -/
theorem update_cases (now : UInt64) (st : St) :
    (st.init = false → update now st = st) ∧
    (st.init = true → st.tUpd = 0 → update now st = { st with
      reset := false
      tUpd := now }) ∧
    (st.init = true → st.tUpd ≠ 0 → now - st.tUpd < 1000000 → update now st = { st with reset := false }) ∧
    (st.init = true → st.tUpd ≠ 0 → 1000000 ≤ now - st.tUpd → update now st = { st with
      reset := false
      tUpd := now
      P := predictP st.P (dtSec now st.tUpd) st.c.windPVar st.c.tasPVar }) := by
  unfold update
  refine ⟨fun h => ?_, fun h h0 => ?_, fun h h0 h1 => ?_, fun h h0 h1 => ?_⟩
  · rw [if_pos h]
  · rw [if_neg (by rw [h]; decide)]
    simp only []
    rw [if_pos (Or.inr h0), if_pos h0]
  · rw [if_neg (by rw [h]; decide)]
    simp only []
    rw [if_pos (Or.inl h1), if_neg h0]
  · rw [if_neg (by rw [h]; decide)]
    simp only []
    have : ¬ (now - st.tUpd < 1000000 ∨ st.tUpd = 0) := by
      rintro (h2 | h2)
      · rw [u64_lt_iff] at h2; rw [u64_le_iff] at h1; omega
      · exact h0 h2
    rw [if_neg this]

/-- **C103.** The prediction: both wind variances grow by q·dt², the scale variance by its own q·dt², the correlations with the scale stay, the
estimate does not move, symmetry is kept.  Finding: the north–east covariance also grows by q·dt², so the predicted uncertainty of the
difference north − east never grows: the modelled wind can only drift along the north-east diagonal. -/
theorem prediction (now : UInt64) (st : St) (hi : st.init = true) (h0 : st.tUpd ≠ 0) (h1 : 1000000 ≤ now - st.tUpd) :
    let st' := update now st
    let dt := ((now - st.tUpd).toNat : ℝ) / 1000000
    st'.x = st.x ∧ st'.init = true ∧
    st'.P 0 0 = st.P 0 0 + dt ^ 2 * st.c.windPVar ∧ st'.P 1 1 = st.P 1 1 + dt ^ 2 * st.c.windPVar ∧
    st'.P 2 2 = st.P 2 2 + dt ^ 2 * st.c.tasPVar ∧ st'.P 0 2 = st.P 0 2 ∧ st'.P 1 2 = st.P 1 2 ∧
    st'.P 0 1 = st.P 0 1 + dt ^ 2 * st.c.windPVar ∧ Spec.Sym st'.P ∧
    st'.P 0 0 + st'.P 1 1 - 2 * st'.P 0 1 = st.P 0 0 + st.P 1 1 - 2 * st.P 0 1 := by
  have e := (update_cases now st).2.2.2 hi h0 h1
  simp only []
  rw [e]
  have hd : dtSec now st.tUpd = ((now - st.tUpd).toNat : ℝ) / 1000000 := by
    unfold dtSec; ring
  simp only [hd]
  refine ⟨trivial, hi, ?_, ?_, ?_, rfl, rfl, ?_, ?_, ?_⟩
  · simp [predictP]; ring
  · simp [predictP]; ring
  · simp [predictP]; ring
  · simp [predictP]; ring
  · intro i j
    fin_cases i <;> fin_cases j <;> rfl
  · simp [predictP]; ring

/-- a prediction keeps a positive semi-definite covariance positive semi-definite -/
theorem prediction_psd (P : M3') (hP : Spec.PSD P) (dt qw qk : ℝ) (h1 : 0 ≤ qw) (h2 : 0 ≤ qk) : Spec.PSD (predictP P dt qw qk) := by
  refine ⟨fun i j => by fin_cases i <;> fin_cases j <;> rfl, fun x => ?_⟩
  have h := hP.nonneg x
  have e : Spec.form (predictP P dt qw qk) x x = Spec.form P x x + dt ^ 2 * (qw * (x 0 + x 1) ^ 2 + qk * x 2 ^ 2) := by
    unfold Spec.form predictP
    simp only [Fin.sum_univ_three]
    rw [hP.symm 1 0, hP.symm 2 0, hP.symm 2 1]
    simp
    ring
  rw [e]
  have : 0 ≤ dt ^ 2 * (qw * (x 0 + x 1) ^ 2 + qk * x 2 ^ 2) := by positivity
  linarith

/-- **C103 (finding).** The growth depends on how often `update` is called: over the same 2 s, two predictions add 2q to the north variance, one
adds 4q. -/
theorem growth_depends_on_rate (P : M3') (qw qk : ℝ) :
    predictP (predictP P 1 qw qk) 1 qw qk 0 0 = P 0 0 + 2 * qw ∧ predictP P 2 qw qk 0 0 = P 0 0 + 4 * qw := by
  constructor <;> simp [predictP] <;> ring

/-- **C51 (finding).** A time stamp that goes back by a microsecond passes the 1 s test (unsigned subtraction) and makes the covariance grow
as over more than 500 000 years. -/
theorem time_backwards (st : St) (hi : st.init = true) (h : st.tUpd = 20000000) :
    (update 19999999 st).P 0 0 = st.P 0 0 + (18446744073709551615 / 1000000 : ℝ) ^ 2 * st.c.windPVar := by
  have hs : (19999999 : UInt64) - st.tUpd = 18446744073709551615 := by rw [h]; decide
  have := prediction 19999999 st hi (by rw [h]; decide) (by rw [hs]; decide)
  simp only [hs] at this
  exact this.2.2.1

/-! ## C50: every history -/

/-- the covariance is symmetric, no variance and no scale factor is negative -/
def Spec.Valid (st : St) : Prop := Spec.Sym st.P ∧ (∀ i, 0 ≤ st.P i i) ∧ 0 ≤ st.x 2

/-- the invariant: an estimate reported as valid is valid, and the process noise variances are not negative -/
def Good (st : St) : Prop := (st.init = true → Spec.Valid st) ∧ 0 ≤ st.c.windPVar ∧ 0 ≤ st.c.tasPVar

theorem initialise_valid (v : V3') (a b tas : ℝ) (ha : 0 ≤ a) (hb : 0 ≤ b) (st : St) :
    ((initialise v a b tas st).init = true → Spec.Valid (initialise v a b tas st)) ∧ (initialise v a b tas st).c = st.c := by
  rcases lt_or_ge (√(v 0 ^ 2 + v 1 ^ 2)) 3 with h | h
  · rw [(initialise_eq v a b tas st).1 h]
    exact ⟨fun h => absurd h Bool.false_ne_true, rfl⟩
  · rw [(initialise_eq v a b tas st).2 h]
    have hv := initP_valid v a b tas ha hb (hyp_pos v h)
    exact ⟨fun _ => ⟨hv.1, hv.2, zero_le_one⟩, rfl⟩

theorem cap_nonneg (i : Fin 3) : 0 ≤ Spec.cap i := by
  unfold Spec.cap
  split <;> norm_num

theorem accepted_valid (st st' : St) (H : V3') (e S : ℝ) (hs : Spec.Sym st.P) (ha : Spec.Accepted st st' H e S) (hi : st'.init = true) :
    Spec.Valid st' := by
  have hn : ∀ i, 0 ≤ Spec.postP st H S i i := by
    by_contra hc
    push Not at hc
    rw [ha.1 hc] at hi
    cases hi
  obtain ⟨-, -, -, h4, h5⟩ := ha.2 hn
  refine ⟨?_, ?_, ?_⟩
  · intro i j
    rw [h5, h5]
    by_cases hij : i = j
    · subst hij; rfl
    · rw [if_neg hij, if_neg (fun h => hij h.symm)]
      unfold Spec.postP
      rw [hs i j]
      ring
  · intro i
    rw [h5, if_pos rfl]
    exact le_min (cap_nonneg i) (hn i)
  · rw [h4]
    split
    · exact le_max_left _ _
    · rename_i h; exact not_lt.mp h

theorem apply_valid (e S : ℝ) (H : V3') (st : St) (hg : Spec.Sym st.P) (hi : (apply e S H st).init = true) : Spec.Valid (apply e S H st) := by
  by_cases hS : S = 0
  · exfalso
    unfold apply at hi
    rw [if_pos hS] at hi
    cases hi
  · have h0 := (apply_frame e S H st).2.2.2.2.2.2.2.2.2.2.2 hi
    exact accepted_valid st _ H e S hg (apply_accepted e S H st h0 hg hS) hi

theorem len3_nonneg (v : V3') : 0 ≤ len3 v := Real.sqrt_nonneg _

theorem good_initialise (v : V3') (a b tas : ℝ) (ha : 0 ≤ a) (hb : 0 ≤ b) (st : St) (hq : 0 ≤ st.c.windPVar ∧ 0 ≤ st.c.tasPVar) :
    Good (initialise v a b tas st) := by
  obtain ⟨h1, h2⟩ := initialise_valid v a b tas ha hb st
  refine ⟨h1, ?_⟩
  rw [h2]
  exact hq

theorem good_tas (now : UInt64) (tas : ℝ) (v : V3') (a b : ℝ) (st : St) (h : Good st) : Good (fuseTas now tas v a b st) := by
  unfold fuseTas
  split
  · refine good_initialise _ _ _ _ ?_ ?_ _ h.2
    · rw [mmax_eq]; exact le_max_of_le_left (by norm_num)
    · rw [mmax_eq]; exact le_max_of_le_left (by norm_num)
  rename_i hi
  have hi' : st.init = true := by simpa using hi
  have hv := h.1 hi'
  split
  · exact h
  unfold fuseTasCore
  simp only []
  split
  · exact ⟨fun h => absurd h Bool.false_ne_true, h.2⟩
  split
  · split
    · exact good_initialise _ _ _ _ (by norm_num) (by norm_num) _ h.2
    · exact ⟨fun _ => hv, h.2⟩
  · refine ⟨fun hh => apply_valid _ _ _ _ hv.1 hh, ?_⟩
    rw [(apply_frame _ _ _ _).1]
    exact h.2

theorem good_beta (now : UInt64) (v : V3') (q : Quat ℝ) (st : St) (h : Good st) : Good (fuseBeta now v q st) := by
  unfold fuseBeta
  split
  · exact good_initialise _ _ _ _ (by norm_num) (by norm_num) _ h.2
  rename_i hi
  have hi' : st.init = true := by simpa using hi
  have hv := h.1 hi'
  split
  · exact h
  unfold fuseBetaCore
  simp only []
  split
  · exact ⟨fun _ => hv, h.2⟩
  split
  · split
    · exact good_initialise _ _ _ _ (by norm_num) (by norm_num) _ h.2
    · exact ⟨fun _ => hv, h.2⟩
  · refine ⟨fun hh => apply_valid _ _ _ _ hv.1 hh, ?_⟩
    rw [(apply_frame _ _ _ _).1]
    exact h.2

theorem good_update (now : UInt64) (st : St) (h : Good st) : Good (update now st) := by
  obtain ⟨u1, u2, u3, u4⟩ := update_cases now st
  cases hi : st.init
  · rw [u1 hi]; exact h
  have hv := h.1 hi
  by_cases h0 : st.tUpd = 0
  · rw [u2 hi h0]; exact ⟨fun _ => hv, h.2⟩
  by_cases h1 : now - st.tUpd < 1000000
  · rw [u3 hi h0 h1]; exact ⟨fun _ => hv, h.2⟩
  have h1' : 1000000 ≤ now - st.tUpd := by
    rw [u64_lt_iff] at h1; rw [u64_le_iff]; omega
  obtain ⟨p1, p2, p3, p4, p5, -, -, -, p9, -⟩ := prediction now st hi h0 h1'
  have hc : (update now st).c = st.c := by rw [u4 hi h0 h1']
  refine ⟨fun _ => ⟨p9, ?_, by rw [p1]; exact hv.2.2⟩, by rw [hc]; exact h.2⟩
  intro i
  have hq1 := mul_nonneg (sq_nonneg (((now - st.tUpd).toNat : ℝ) / 1000000)) h.2.1
  have hq2 := mul_nonneg (sq_nonneg (((now - st.tUpd).toNat : ℝ) / 1000000)) h.2.2
  fin_cases i
  · show 0 ≤ (update now st).P 0 0
    rw [p3]; linarith [hv.2.1 0]
  · show 0 ≤ (update now st).P 1 1
    rw [p4]; linarith [hv.2.1 1]
  · show 0 ≤ (update now st).P 2 2
    rw [p5]; linarith [hv.2.1 2]

theorem good_step (st : St) (c : Call) (h : Good st) : Good (step st c) := by
  cases c with
  | update t => exact good_update t st h
  | airspeed t tas v a b => exact good_tas t tas v a b st h
  | beta t v q => exact good_beta t v q st h
  | setWindPNoise s => exact ⟨h.1, mul_self_nonneg s, h.2.2⟩
  | setTasScalePNoise s => exact ⟨h.1, h.2.1, mul_self_nonneg s⟩
  | setTasNoise s => exact h
  | setBetaNoise s => exact h
  | setTasGate g => exact h
  | setBetaGate g => exact h
  | enforceScale s => exact h

theorem good_run (l : List Call) : Good (run l) := by
  unfold run
  have key : ∀ (l : List Call) (st : St), Good st → Good (l.foldl step st) := by
    intro l
    induction l with
    | nil => intro st h; exact h
    | cons c l ih => intro st h; exact ih _ (good_step st c h)
  refine key l _ ⟨fun h => absurd h Bool.false_ne_true, ?_, ?_⟩
  · show (0 : ℝ) ≤ 0.1; norm_num
  · show (0 : ℝ) ≤ 0.0001; norm_num

/-- **C50.** After every history of calls on a fresh estimator: if it reports a valid estimate, the covariance is symmetric, no variance is
negative and the scale factor is not negative. -/
theorem always_valid (l : List Call) (h : (run l).init = true) :
    (∀ i j, (run l).P i j = (run l).P j i) ∧ (∀ i, 0 ≤ (run l).P i i) ∧ 0 ≤ (run l).x 2 := (good_run l).1 h

/-- **C50 (limits).** After every accepted measurement the variances are at most 25 (wind) and 0.1 (scale), and the scale factor is the enforced
one if a non-negative one is enforced. -/
theorem limits_after_fusion (st st' : St) (H : V3') (e S : ℝ) (ha : Spec.Accepted st st' H e S) (hi : st'.init = true) :
    st'.P 0 0 ≤ 25 ∧ st'.P 1 1 ≤ 25 ∧ st'.P 2 2 ≤ 0.1 ∧ (0 ≤ st.c.enforced → st'.x 2 = st.c.enforced) := by
  have hn : ∀ i, 0 ≤ Spec.postP st H S i i := by
    by_contra hc
    push Not at hc
    rw [ha.1 hc] at hi
    cases hi
  obtain ⟨-, -, -, h4, h5⟩ := ha.2 hn
  have hc : ∀ i, st'.P i i ≤ Spec.cap i := by
    intro i
    rw [h5, if_pos rfl]
    exact min_le_left _ _
  refine ⟨hc 0, hc 1, hc 2, fun h => ?_⟩
  rw [h4, if_neg (not_lt.mpr h)]

/-- **C50 (finding).** The limits do not hold in general: whatever the bound, a first airspeed call with a large velocity variance gives a valid
estimate whose wind variance exceeds it (and `update` adds to it without limit); and an enforced scale factor is not in force: the scale is
one until the next accepted measurement. -/
theorem limits_not_always (B : ℝ) : ∃ l : List Call, (run l).init = true ∧ B < (run l).P 0 0 ∧ 0 ≤ (run l).c.enforced ∧
    (run l).x 2 ≠ (run l).c.enforced := by
  refine ⟨[.enforceScale 2, .airspeed 1000000 10 ![10, 0, 0] (|B| + 1) 1], ?_⟩
  have hsq : √((![10, 0, 0] : V3') 0 ^ 2 + (![10, 0, 0] : V3') 1 ^ 2) = 10 := by
    show √((10 : ℝ) ^ 2 + 0 ^ 2) = 10
    rw [show (10 : ℝ) ^ 2 + 0 ^ 2 = 10 ^ 2 by norm_num, Real.sqrt_sq (by norm_num)]
  have e : run [.enforceScale 2, .airspeed 1000000 10 ![10, 0, 0] (|B| + 1) 1] =
      initialise ![10, 0, 0] (mmax 0.01 (|B| + 1)) (mmax 0.01 1) 10 { fresh with c := { fresh.c with enforced := 2 } } := rfl
  rw [e, (initialise_eq _ _ _ _ _).2 (by rw [hsq]; norm_num)]
  refine ⟨rfl, ?_, ?_, ?_⟩
  · show B < initP _ _ _ _ 0 0
    rw [initP_entries _ _ _ _ (by rw [hsq]; norm_num), hsq, mmax_eq, mmax_eq]
    have h1 := le_abs_self B
    have h2 : |B| + 1 ≤ max 0.01 (|B| + 1) := le_max_right _ _
    have h3 : (0 : ℝ) ≤ max 0.01 1 := le_max_of_le_right (by norm_num)
    simp only [Matrix.cons_val_zero, Matrix.cons_val_one]
    norm_num
    nlinarith
  · show (0 : ℝ) ≤ 2; norm_num
  · show (1 : ℝ) ≠ 2; norm_num

/-- **C50 (finding).** Limiting the variances but not the covariances can destroy the covariance matrix: an accepted measurement turns a positive
semi-definite covariance into one that assigns a negative variance to north − east. -/
theorem limit_breaks_covariance : ∃ st : St, st.init = true ∧ Spec.PSD st.P ∧
    (let st' := fuseTas 200000 0 ![10, 0, 0] 1 1 st
     st'.init = true ∧ st'.P 0 0 + st'.P 1 1 - 2 * st'.P 0 1 < 0) := by
  let P : M3' := ![![27, 26, 0], ![26, 27, 0], ![0, 0, 0.1]]
  let st : St := { fresh with
    init := true
    P := P }
  have hP : Spec.PSD P := by
    refine ⟨fun i j => by fin_cases i <;> fin_cases j <;> rfl, fun x => ?_⟩
    have : Spec.form P x x = 26 * (x 0 + x 1) ^ 2 + x 0 ^ 2 + x 1 ^ 2 + 0.1 * x 2 ^ 2 := by
      unfold Spec.form
      simp [Fin.sum_univ_three, P]
      ring
    rw [this]
    positivity
  refine ⟨st, rfl, hP, ?_⟩
  have hx : st.x = fun _ => 0 := rfl
  obtain ⟨H, hH, e1, e2, -, hpr, -⟩ := airspeed_fusion 200000 0 ![10, 0, 0] 1 1 st rfl (by decide) (fun i j => hP.symm i j)
    (by rw [hx]; simp)
  simp only [] at hpr ⊢
  -- the sensitivity at zero scale is (0, 0, 10)
  have hg : Spec.IsGrad (Spec.airspeedModel ![10, 0, 0]) (hTas ![10, 0, 0] st.x) st.x := airspeed_gradient _ _ (by rw [hx]; simp)
  have hHe : H = ![0, 0, 10] := by
    funext i
    rw [(hH i).unique (hg i)]
    have hr : relSpeed ![10, 0, 0] st.x = 10 := by
      rw [relSpeed_eq, hx]
      simp
    unfold hTas
    rw [hr, hx]
    fin_cases i <;> simp
  have hm : Spec.airspeedModel ![10, 0, 0] st.x = 0 := by
    unfold Spec.airspeedModel
    rw [hx]
    simp
  rw [hm, hHe] at hpr
  have hS : Spec.form st.P ![0, 0, 10] ![0, 0, 10] + st.c.tasVar = 11.4 := by
    unfold Spec.form
    simp [Fin.sum_univ_three, st, P, fresh]
    norm_num
  rw [hS] at hpr
  obtain ⟨ha, -⟩ := hpr (by norm_num) (by norm_num)
  have hpost : ∀ i j, Spec.postP st ![0, 0, 10] 11.4 i j = if i = 2 ∧ j = 2 then (0.1 - 1 / 11.4 : ℝ) else P i j := by
    intro i j
    unfold Spec.postP Spec.mulVec
    simp only [Fin.sum_univ_three]
    fin_cases i <;> fin_cases j <;> simp [st, P]
    norm_num
  obtain ⟨h1, -, -, -, h5⟩ := ha.2 (by
    intro i
    rw [hpost]
    fin_cases i <;> simp [P]
    norm_num)
  refine ⟨h1, ?_⟩
  rw [h5, h5, h5, hpost, hpost, hpost]
  simp [P, Spec.cap]
  norm_num

/-- **C102 (finding).** With zero air-relative velocity (wind estimate equal to the ground velocity, no vertical speed) the next processed airspeed
measurement, whatever its value, drops the estimate: the sensitivity is zero divided by zero. -/
theorem zero_airspeed_drops_estimate (now : UInt64) (tas a b : ℝ) (v : V3') (st : St) (hi : st.init = true) (ht : 100000 ≤ now - st.tTas)
    (h : v 0 = st.x 0 ∧ v 1 = st.x 1 ∧ v 2 = 0) : (fuseTas now tas v a b st).init = false := by
  have ht' : ¬ now - st.tTas < 100000 := by
    rw [u64_lt_iff]; rw [u64_le_iff] at ht; omega
  unfold fuseTas
  rw [if_neg (by rw [hi]; decide), if_neg ht']
  unfold fuseTasCore
  simp only []
  rw [if_pos]
  rw [relSpeed_eq, h.1, h.2.1, h.2.2]
  simp

/-! ## C51: rate limits over histories -/

theorem initialise_times (v : V3') (a b tas : ℝ) (st : St) :
    (initialise v a b tas st).tTas = st.tTas ∧ (initialise v a b tas st).tBeta = st.tBeta ∧ (initialise v a b tas st).tUpd = st.tUpd := by
  unfold initialise
  split <;> exact ⟨rfl, rfl, rfl⟩

theorem fuseTas_times (now : UInt64) (tas : ℝ) (v : V3') (a b : ℝ) (st : St) :
    (fuseTas now tas v a b st).tBeta = st.tBeta ∧ (fuseTas now tas v a b st).tUpd = st.tUpd ∧
    (fuseTas now tas v a b st).tTas = (if st.init = true ∧ ¬ now - st.tTas < 100000 then now else st.tTas) := by
  unfold fuseTas
  split
  · rename_i h
    obtain ⟨h1, h2, h3⟩ := initialise_times v (mmax 0.01 a) (mmax 0.01 b) tas st
    exact ⟨h2, h3, by rw [h1, if_neg (by rw [h]; simp)]⟩
  rename_i hi
  have hi' : st.init = true := by simpa using hi
  split
  · rename_i h
    exact ⟨rfl, rfl, by rw [if_neg (by tauto)]⟩
  rename_i h
  rw [if_pos ⟨hi', h⟩]
  unfold fuseTasCore
  simp only []
  split
  · exact ⟨rfl, rfl, rfl⟩
  split
  · split
    · obtain ⟨h1, h2, h3⟩ := initialise_times v 0.1 0.1 tas { st with
        tTas := now
        tasInnov := tas - tasPred v st.x
        tasInnovVar := hph st.P (hTas v st.x) + st.c.tasVar
        rejTas := (checkRejected now (tas - tasPred v st.x) (hph st.P (hTas v st.x) + st.c.tasVar) st.c.tasGate st.rejTas).1 }
      exact ⟨h2, h3, h1⟩
    · exact ⟨rfl, rfl, rfl⟩
  · obtain ⟨-, h1, h2, h3, -⟩ := apply_frame (tas - tasPred v st.x) (hph st.P (hTas v st.x) + st.c.tasVar) (hTas v st.x) { st with
        tTas := now
        tasInnov := tas - tasPred v st.x
        tasInnovVar := hph st.P (hTas v st.x) + st.c.tasVar
        rejTas := (checkRejected now (tas - tasPred v st.x) (hph st.P (hTas v st.x) + st.c.tasVar) st.c.tasGate st.rejTas).1 }
    exact ⟨h2, h3, h1⟩

theorem fuseBeta_times (now : UInt64) (v : V3') (q : Quat ℝ) (st : St) :
    (fuseBeta now v q st).tTas = st.tTas ∧ (fuseBeta now v q st).tUpd = st.tUpd ∧
    (fuseBeta now v q st).tBeta = (if st.init = true ∧ ¬ now - st.tBeta < 100000 then now else st.tBeta) := by
  unfold fuseBeta
  split
  · rename_i h
    obtain ⟨h1, h2, h3⟩ := initialise_times v 0.1 0.1 (len3 v) st
    exact ⟨h1, h3, by rw [h2, if_neg (by rw [h]; simp)]⟩
  rename_i hi
  have hi' : st.init = true := by simpa using hi
  split
  · rename_i h
    exact ⟨rfl, rfl, by rw [if_neg (by tauto)]⟩
  rename_i h
  rw [if_pos ⟨hi', h⟩]
  unfold fuseBetaCore
  simp only []
  split
  · exact ⟨rfl, rfl, rfl⟩
  split
  · split
    · obtain ⟨h1, h2, h3⟩ := initialise_times v 0.1 0.1 (len3 v) { st with
        tBeta := now
        betaInnov := 0 - relWind v st.x q 1 / relWind v st.x q 0
        betaInnovVar := hph st.P (hBeta v st.x q) + st.c.betaVar
        rejBeta := (checkRejected now (0 - relWind v st.x q 1 / relWind v st.x q 0) (hph st.P (hBeta v st.x q) + st.c.betaVar) st.c.betaGate st.rejBeta).1 }
      exact ⟨h1, h3, h2⟩
    · exact ⟨rfl, rfl, rfl⟩
  · obtain ⟨-, h1, h2, h3, -⟩ := apply_frame (0 - relWind v st.x q 1 / relWind v st.x q 0) (hph st.P (hBeta v st.x q) + st.c.betaVar) (hBeta v st.x q) { st with
        tBeta := now
        betaInnov := 0 - relWind v st.x q 1 / relWind v st.x q 0
        betaInnovVar := hph st.P (hBeta v st.x q) + st.c.betaVar
        rejBeta := (checkRejected now (0 - relWind v st.x q 1 / relWind v st.x q 0) (hph st.P (hBeta v st.x q) + st.c.betaVar) st.c.betaGate st.rejBeta).1 }
    exact ⟨h1, h3, h2⟩

theorem update_times (now : UInt64) (st : St) :
    (update now st).tTas = st.tTas ∧ (update now st).tBeta = st.tBeta ∧
    (update now st).tUpd = (if st.init = true ∧ (st.tUpd = 0 ∨ ¬ now - st.tUpd < 1000000) then now else st.tUpd) := by
  unfold update
  split
  · rename_i h
    exact ⟨rfl, rfl, by rw [if_neg (by rw [h]; simp)]⟩
  rename_i hi
  have hi' : st.init = true := by simpa using hi
  simp only []
  split
  · split
    · rename_i h0
      exact ⟨rfl, rfl, by rw [if_pos ⟨hi', Or.inl h0⟩]⟩
    · exact ⟨rfl, rfl, by rw [if_neg (by tauto)]⟩
  · refine ⟨rfl, rfl, by rw [if_pos (by tauto)]⟩

/-- the calls of a history whose time stamps matter to a rate limit all lie in the window `[t, t + w)` -/
def Spec.within (t w : ℕ) (now : UInt64) : Prop := t ≤ now.toNat ∧ now.toNat < t + w

theorem within_sub {t now : UInt64} {w : ℕ} (h : Spec.within t.toNat w now) : (now - t).toNat < w := by
  have h1 : t ≤ now := by rw [u64_le_iff]; exact h.1
  rw [u64_sub_toNat_of_le h1]
  unfold Spec.within at h
  omega

theorem u64_lt_lit {a : UInt64} {n : ℕ} (h : a.toNat < n) (hn : n < 2 ^ 64) : a < UInt64.ofNat n := by
  rw [u64_lt_iff, UInt64.toNat_ofNat_of_lt' hn]; exact h

/-- **C51 (prediction rate).** After an `update` at `t` that stored its time (the first one, or a prediction), no `update` with a time in
`[t, t + 1 s)` changes the covariance, whatever calls come in between (their update times in that window too). -/
theorem prediction_at_most_1Hz (t : UInt64) (st : St) (hi : st.init = true) (hd : st.tUpd = 0 ∨ 1000000 ≤ t - st.tUpd) (h0 : t ≠ 0)
    (l : List Call) (hl : ∀ now, .update now ∈ l → Spec.within t.toNat 1000000 now) (t2 : UInt64) (h2 : Spec.within t.toNat 1000000 t2) :
    let st1 := l.foldl step (update t st)
    (update t2 st1).P = st1.P := by
  have key : ∀ (l : List Call) (s : St), s.tUpd = t → (∀ now, .update now ∈ l → Spec.within t.toNat 1000000 now) →
      (l.foldl step s).tUpd = t := by
    intro l
    induction l with
    | nil => intro s h _; exact h
    | cons c l ih =>
      intro s hs hl
      refine ih _ ?_ (fun now h => hl now (List.mem_cons_of_mem _ h))
      cases c with
      | update now =>
        have hw := u64_lt_lit (within_sub (hl now (List.mem_cons_self ..))) (by norm_num)
        show (update now s).tUpd = t
        rw [(update_times now s).2.2, hs]
        split
        · rename_i h
          rcases h.2 with h' | h'
          · exact absurd h' h0
          · exact absurd hw h'
        · rfl
      | airspeed now tas v a b => exact (fuseTas_times now tas v a b s).2.1.trans hs
      | beta now v q => exact (fuseBeta_times now v q s).2.1.trans hs
      | _ => exact hs
  have h1 : (update t st).tUpd = t := by
    rw [(update_times t st).2.2, if_pos]
    refine ⟨hi, hd.imp_right fun h => ?_⟩
    rw [u64_le_iff] at h; rw [u64_lt_iff]; omega
  have hs := key l (update t st) h1 hl
  intro st1
  have hw : t2 - st1.tUpd < 1000000 := by
    rw [hs]
    exact u64_lt_lit (within_sub h2) (by norm_num)
  obtain ⟨u1, -, u3, -⟩ := update_cases t2 st1
  cases hi1 : st1.init
  · rw [u1 hi1]
  · rw [u3 hi1 (by rw [hs]; exact h0) hw]

/-- **C51 (fusion rate, airspeed).** After an airspeed measurement processed at `t`, every further airspeed call in `[t, t + 0.1 s)` is
ignored as long as the estimate is valid, whatever calls come in between. -/
theorem airspeed_at_most_10Hz (t : UInt64) (tas a b : ℝ) (v : V3') (st : St) (hi : st.init = true) (hd : 100000 ≤ t - st.tTas)
    (l : List Call) (hl : ∀ now tas v a b, .airspeed now tas v a b ∈ l → Spec.within t.toNat 100000 now) (t2 : UInt64)
    (h2 : Spec.within t.toNat 100000 t2) (tas2 a2 b2 : ℝ) (v2 : V3') :
    let st1 := l.foldl step (fuseTas t tas v a b st)
    st1.init = true → fuseTas t2 tas2 v2 a2 b2 st1 = st1 := by
  have key : ∀ (l : List Call) (s : St), s.tTas = t → (∀ now tas v a b, .airspeed now tas v a b ∈ l → Spec.within t.toNat 100000 now) →
      (l.foldl step s).tTas = t := by
    intro l
    induction l with
    | nil => intro s h _; exact h
    | cons c l ih =>
      intro s hs hl
      refine ih _ ?_ (fun now tas v a b h => hl now tas v a b (List.mem_cons_of_mem _ h))
      cases c with
      | update now => exact (update_times now s).1.trans hs
      | airspeed now tas v a b =>
        have hw := u64_lt_lit (within_sub (hl now tas v a b (List.mem_cons_self ..))) (by norm_num)
        show (fuseTas now tas v a b s).tTas = t
        rw [(fuseTas_times now tas v a b s).2.2, hs]
        split
        · rename_i h
          exact absurd hw h.2
        · rfl
      | beta now v q => exact (fuseBeta_times now v q s).1.trans hs
      | _ => exact hs
  have h1 : (fuseTas t tas v a b st).tTas = t := by
    rw [(fuseTas_times t tas v a b st).2.2, if_pos]
    refine ⟨hi, ?_⟩
    rw [u64_le_iff] at hd; rw [u64_lt_iff]; omega
  have hs := key l _ h1 hl
  intro st1 hi1
  have hw : t2 - st1.tTas < 100000 := by
    rw [hs]
    exact u64_lt_lit (within_sub h2) (by norm_num)
  unfold fuseTas
  rw [if_neg (by rw [hi1]; decide), if_pos hw]

/-- **C51 (fusion rate, sideslip).** The same for sideslip. -/
theorem sideslip_at_most_10Hz (t : UInt64) (v : V3') (q : Quat ℝ) (st : St) (hi : st.init = true) (hd : 100000 ≤ t - st.tBeta)
    (l : List Call) (hl : ∀ now v q, .beta now v q ∈ l → Spec.within t.toNat 100000 now) (t2 : UInt64)
    (h2 : Spec.within t.toNat 100000 t2) (v2 : V3') (q2 : Quat ℝ) :
    let st1 := l.foldl step (fuseBeta t v q st)
    st1.init = true → fuseBeta t2 v2 q2 st1 = st1 := by
  have key : ∀ (l : List Call) (s : St), s.tBeta = t → (∀ now v q, .beta now v q ∈ l → Spec.within t.toNat 100000 now) →
      (l.foldl step s).tBeta = t := by
    intro l
    induction l with
    | nil => intro s h _; exact h
    | cons c l ih =>
      intro s hs hl
      refine ih _ ?_ (fun now v q h => hl now v q (List.mem_cons_of_mem _ h))
      cases c with
      | update now => exact (update_times now s).2.1.trans hs
      | airspeed now tas v a b => exact (fuseTas_times now tas v a b s).1.trans hs
      | beta now v q =>
        have hw := u64_lt_lit (within_sub (hl now v q (List.mem_cons_self ..))) (by norm_num)
        show (fuseBeta now v q s).tBeta = t
        rw [(fuseBeta_times now v q s).2.2, hs]
        split
        · rename_i h
          exact absurd hw h.2
        · rfl
      | _ => exact hs
  have h1 : (fuseBeta t v q st).tBeta = t := by
    rw [(fuseBeta_times t v q st).2.2, if_pos]
    refine ⟨hi, ?_⟩
    rw [u64_le_iff] at hd; rw [u64_lt_iff]; omega
  have hs := key l _ h1 hl
  intro st1 hi1
  have hw : t2 - st1.tBeta < 100000 := by
    rw [hs]
    exact u64_lt_lit (within_sub h2) (by norm_num)
  unfold fuseBeta
  rw [if_neg (by rw [hi1]; decide), if_pos hw]

end Ecl.Wind
