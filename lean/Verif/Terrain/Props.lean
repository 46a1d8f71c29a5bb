import Verif.Terrain.Model
import Mathlib.Analysis.Calculus.Deriv.Inv
import Mathlib.Analysis.Calculus.Deriv.Mul

/-!
# Terrain estimator: theorems (C48, C49, C101)
-/

namespace Ecl.Terrain

open Fusion Cov

/-! ## Specification -/

/-- scalar Kalman update of a terrain height estimate (h, P) with the measurement error `e` = measured − predicted, sensitivity `H`
and noise `R` -/
noncomputable def Spec.kalman (h P H e R : ℝ) : ℝ × ℝ := (h + P * H / (H ^ 2 * P + R) * e, P - (P * H) ^ 2 / (H ^ 2 * P + R))

/-- predicted flow rate about body axis x (0) or y (1) at terrain height `h`: the body velocity across that axis over the distance along
the optical axis -/
noncomputable def Spec.flowPred (x : In) (a : Fin 2) (h : ℝ) : ℝ :=
  (if a = 0 then flowVelBody x.flow x.s 1 else -flowVelBody x.flow x.s 0) * ((attQuat x.s).dcm 2 2) / (h - x.s 9)

/-- terrain variance after one prediction -/
noncomputable def Spec.grownVar (x : In) (P : ℝ) : ℝ :=
  max 0 (min 10000 (P + x.dt ^ 2 * (x.pNoise ^ 2 + x.gradient ^ 2 * (x.s 4 ^ 2 + x.s 5 ^ 2))))

/-- the range measurement passes its innovation check -/
def Spec.rangeOk (x : In) (vpos P : ℝ) : Prop :=
  x.useRange = true ∧ x.rngHealthy = true ∧ (vpos - x.s 9 - x.distBottom) ^ 2 ≤ max x.rngGate 1 ^ 2 * (Spec.grownVar x P + obsVar x)

/-! ## Prediction and range fusion -/

theorem predict_spec (x : In) (st : St) : predict x st = { st with var := Spec.grownVar x st.var } := by
  unfold predict Spec.grownVar
  simp only []
  congr 1
  rw [constrain_eq (by norm_num), min_comm]
  congr 2
  unfold sq
  ring

theorem grownVar_range (x : In) (P : ℝ) : 0 ≤ Spec.grownVar x P ∧ Spec.grownVar x P ≤ 10000 :=
  ⟨le_max_left _ _, max_le (by norm_num) (min_le_left _ _)⟩

/-- **C48 (growth).** The predicted variance is within [0, 10⁴] and does not shrink as long as it was within that range; it grows with the
elapsed time. -/
theorem prediction_grows (x : In) (st : St) (h0 : 0 ≤ st.var) (h1 : st.var ≤ 10000) :
    st.var ≤ (predict x st).var ∧ 0 ≤ (predict x st).var ∧ (predict x st).var ≤ 10000 ∧ (predict x st).vpos = st.vpos ∧
    (∀ dt', |x.dt| ≤ |dt'| → (predict x st).var ≤ (predict { x with dt := dt' } st).var) := by
  rw [predict_spec]
  have hg : 0 ≤ x.pNoise ^ 2 + x.gradient ^ 2 * (x.s 4 ^ 2 + x.s 5 ^ 2) := by positivity
  refine ⟨?_, (grownVar_range _ _).1, (grownVar_range _ _).2, rfl, ?_⟩
  · show st.var ≤ Spec.grownVar x st.var
    unfold Spec.grownVar
    refine le_max_of_le_right (le_min h1 ?_)
    nlinarith [mul_nonneg (sq_nonneg x.dt) hg]
  · intro dt' hd
    rw [predict_spec]
    show Spec.grownVar x st.var ≤ Spec.grownVar { x with dt := dt' } st.var
    unfold Spec.grownVar
    refine max_le_max le_rfl (min_le_min le_rfl ?_)
    have : x.dt ^ 2 ≤ dt' ^ 2 := sq_le_sq.mpr hd
    nlinarith [mul_le_mul_of_nonneg_right this hg]

theorem obsVar_spec (x : In) : obsVar x = max 0 (x.p99 * x.vehVarScaler) + x.rngNoise ^ 2 + (x.rngNoiseScaler * x.range) ^ 2 := by
  unfold obsVar sq; rw [max_comm]; ring

theorem obsVar_nonneg (x : In) : 0 ≤ obsVar x := by
  rw [obsVar_spec]; have := le_max_left (0 : ℝ) (x.p99 * x.vehVarScaler); positivity

theorem obsVar_pos {x : In} (h : x.rngNoise ≠ 0) : 0 < obsVar x := by
  rw [obsVar_spec]; have := le_max_left (0 : ℝ) (x.p99 * x.vehVarScaler); positivity

/-- **C48 (range fusion).** A range measurement whose innovation is within `gate` standard deviations is fused by the Kalman update of
the terrain height with sensitivity 1 — the estimate moves towards the measured height by the fraction P/(P+R) of the difference and
the variance becomes P R/(P+R) ≤ P. Otherwise nothing changes but the rejection flag, unless no fusion was accepted for more than 10 s:
then height and variance are set to those of the measurement; the time of the last fusion and the rejection flag are left. -/
theorem fuseHagl_spec (x : In) (st : St) (hn : x.rngNoise ≠ 0) (h0 : 0 ≤ st.var) :
    let R := obsVar x
    let meas := x.s 9 + x.distBottom
    let st' := fuseHagl x st
    (st'.innov = st.vpos - meas ∧ st'.innovVar = st.var + R ∧ st'.testRatio = (st.vpos - meas) ^ 2 / (max x.rngGate 1 ^ 2 * (st.var + R))) ∧
    ((st.vpos - meas) ^ 2 ≤ max x.rngGate 1 ^ 2 * (st.var + R) →
      (st'.vpos, st'.var) = Spec.kalman st.vpos st.var 1 (meas - st.vpos) R ∧ st'.tHagl = x.now ∧ st'.reject = false ∧
      0 ≤ st'.var ∧ st'.var ≤ st.var ∧ |st'.vpos - meas| = R / (st.var + R) * |st.vpos - meas|) ∧
    (max x.rngGate 1 ^ 2 * (st.var + R) < (st.vpos - meas) ^ 2 → st'.tHagl = st.tHagl ∧
      (isTimedOut x.now st.tHagl 10000000 = true → st'.vpos = meas ∧ st'.var = R ∧ st'.reject = st.reject) ∧
      (isTimedOut x.now st.tHagl 10000000 = false → st'.vpos = st.vpos ∧ st'.var = st.var ∧ st'.reject = true)) := by
  intro R meas st'
  have hR : 0 < R := obsVar_pos hn
  have hS : max (st.var + obsVar x) (obsVar x) = st.var + R := max_eq_left (by show obsVar x ≤ _; linarith)
  have hSp : 0 < st.var + R := by linarith
  have hg : 0 < max x.rngGate 1 := lt_of_lt_of_le one_pos (le_max_right _ _)
  have hi : st.vpos - x.s 9 - x.distBottom = st.vpos - meas := by simp only [meas]; ring
  have hden : 0 < max x.rngGate 1 ^ 2 * (st.var + R) := by positivity
  have hst : st' = fuseHagl x st := rfl
  unfold fuseHagl at hst
  simp only [] at hst
  rw [hS, hi] at hst
  have hc : sq (st.vpos - meas) / (sq (max x.rngGate 1) * (st.var + R)) ≤ 1 ↔ (st.vpos - meas) ^ 2 ≤ max x.rngGate 1 ^ 2 * (st.var + R) := by
    unfold sq; rw [← pow_two, ← pow_two, div_le_one hden]
  refine ⟨?_, ?_, ?_⟩
  · rw [hst]
    refine ⟨by split_ifs <;> rfl, by split_ifs <;> rfl, ?_⟩
    split_ifs <;> simp only [sq, pow_two]
  · intro h
    rw [if_pos (hc.mpr h)] at hst
    rw [hst]
    simp only []
    have e1 : 1 - st.var / (st.var + R) = R / (st.var + R) := by field_simp; ring
    have e2 : 0 ≤ st.var * (R / (st.var + R)) := mul_nonneg h0 (by positivity)
    rw [e1, max_eq_left e2]
    refine ⟨?_, trivial, trivial, e2, ?_, ?_⟩
    · unfold Spec.kalman
      rw [one_pow, one_mul, mul_one]
      congr 1
      · ring
      · field_simp; ring
    · apply mul_le_of_le_one_right h0
      rw [div_le_one hSp]; linarith
    · rw [show st.vpos - st.var / (st.var + R) * (st.vpos - meas) - meas = R / (st.var + R) * (st.vpos - meas) by field_simp; ring,
        abs_mul, abs_of_pos (by positivity : 0 < R / (st.var + R))]
  · intro h
    rw [if_neg (fun hh => absurd (hc.mp hh) (not_le.mpr h))] at hst
    rw [hst]
    refine ⟨by split_ifs <;> rfl, fun ht => ?_, fun ht => ?_⟩
    · rw [if_pos ht]; exact ⟨rfl, rfl, rfl⟩
    · rw [ht, if_neg (by simp)]; exact ⟨rfl, rfl, rfl⟩

/-- non-vacuity: 10 m of range noise free flight, an estimate 1 m off with unit variances -/
example (x : In) (st : St) (h : x.rngNoise = 1) (hv : st.var = 1) (hp : st.vpos = x.s 9 + x.distBottom + 1) :
    x.rngNoise ≠ 0 ∧ 0 ≤ st.var ∧ (st.vpos - (x.s 9 + x.distBottom)) ^ 2 ≤ max x.rngGate 1 ^ 2 * (st.var + obsVar x) := by
  refine ⟨by rw [h]; norm_num, by rw [hv]; norm_num, ?_⟩
  have h1 := obsVar_nonneg x
  have h2 : (1 : ℝ) ≤ max x.rngGate 1 := le_max_right _ _
  have h3 : (1 : ℝ) ≤ max x.rngGate 1 ^ 2 := by nlinarith
  rw [hv, hp]
  nlinarith

/-! ## Flow fusion -/

theorem e22_eq (s : Vec ℝ) : Utils.quatToInverseRotMat (attQuat s) 2 2 = s 0 * s 0 - s 1 * s 1 - s 2 * s 2 + s 3 * s 3 ∧
    (attQuat s).dcm 2 2 = s 0 * s 0 - s 1 * s 1 - s 2 * s 2 + s 3 * s 3 := by
  constructor
  · simp [Utils.quatToInverseRotMat, attQuat]
  · simp [Quat.dcm, attQuat]

/-- derivative of the predicted flow rate with respect to the terrain height -/
theorem flowPred_deriv (x : In) (a : Fin 2) (h : ℝ) (hne : h - x.s 9 ≠ 0) :
    HasDerivAt (Spec.flowPred x a)
      (-((if a = 0 then flowVelBody x.flow x.s 1 else -flowVelBody x.flow x.s 0) * (attQuat x.s).dcm 2 2) / (h - x.s 9) ^ 2) h := by
  unfold Spec.flowPred
  have h1 : HasDerivAt (fun h : ℝ => h - x.s 9) 1 h := (hasDerivAt_id h).sub_const _
  have h2 := (h1.inv hne).const_mul ((if a = 0 then flowVelBody x.flow x.s 1 else -flowVelBody x.flow x.s 0) * (attQuat x.s).dcm 2 2)
  simp only [div_eq_mul_inv]
  exact h2.congr_deriv (by ring)

theorem kal_aux {P h R : ℝ} (hS : h ^ 2 * P + R ≠ 0) : P - P * h / (h ^ 2 * P + R) * h * P = P * (R / (h ^ 2 * P + R)) := by
  obtain ⟨S, e⟩ : ∃ S, S = h ^ 2 * P + R := ⟨_, rfl⟩
  rw [← e] at hS ⊢
  have : R = S - h ^ 2 * P := by linarith
  rw [this]
  field_simp

theorem flowAxis_spec (x : In) (a : Fin 2) (h pred : ℝ) (st : St) (h0 : 0 ≤ st.var) (hR : 0 < flowMeasVar x.flow) :
    let R := flowMeasVar x.flow
    let e := flowRate x.flow a - pred
    let st' := flowAxis x a h pred st
    st'.flowInnov a = -e ∧ st'.flowInnovVar a = h ^ 2 * st.var + R ∧
    (e ^ 2 ≤ max x.flow.gate 1 ^ 2 * (h ^ 2 * st.var + R) → (st'.vpos, st'.var) = Spec.kalman st.vpos st.var (-h) e R ∧ st'.tFlow = x.now ∧
      0 ≤ st'.var ∧ st'.var ≤ st.var) ∧
    (max x.flow.gate 1 ^ 2 * (h ^ 2 * st.var + R) < e ^ 2 → st'.vpos = st.vpos ∧ st'.var = st.var ∧ st'.tFlow = st.tFlow) ∧
    st'.tHagl = st.tHagl ∧ st'.tFake = st.tFake ∧ st'.init = st.init ∧ st'.gndPosD = st.gndPosD ∧ 0 ≤ st'.var ∧ st'.var ≤ st.var ∧ st'.reject = st.reject := by
  intro R e st'
  have hS : 0 < h ^ 2 * st.var + R := by positivity
  have hg : 0 < max x.flow.gate 1 := lt_of_lt_of_le one_pos (le_max_right _ _)
  have hden : 0 < max x.flow.gate 1 ^ 2 * (h ^ 2 * st.var + R) := by positivity
  have hst : st' = flowAxis x a h pred st := rfl
  unfold flowAxis at hst
  simp only [] at hst
  rw [show h * h * st.var + flowMeasVar x.flow = h ^ 2 * st.var + R by simp only [R]; ring, show pred - flowRate x.flow a = -e by simp only [e]; ring] at hst
  have hc : sq (-e) / (sq (max x.flow.gate 1) * (h ^ 2 * st.var + R)) ≤ 1 ↔ e ^ 2 ≤ max x.flow.gate 1 ^ 2 * (h ^ 2 * st.var + R) := by
    rw [show sq (-e) = e ^ 2 by unfold sq; ring, show sq (max x.flow.gate 1) = max x.flow.gate 1 ^ 2 by unfold sq; ring, div_le_one hden]
  have hvar : st.var - st.var * h / (h ^ 2 * st.var + R) * h * st.var = st.var * (R / (h ^ 2 * st.var + R)) := kal_aux hS.ne'
  have e2 : 0 ≤ st.var * (R / (h ^ 2 * st.var + R)) := mul_nonneg h0 (by positivity)
  have e3 : st.var * (R / (h ^ 2 * st.var + R)) ≤ st.var := by
    apply mul_le_of_le_one_right h0
    rw [div_le_one hS]; nlinarith [mul_nonneg (sq_nonneg h) h0]
  by_cases hh : e ^ 2 ≤ max x.flow.gate 1 ^ 2 * (h ^ 2 * st.var + R)
  · rw [if_pos (hc.mpr hh), hvar, max_eq_left e2] at hst
    rw [hst]
    refine ⟨by simp [set2], by simp [set2], fun _ => ⟨?_, rfl, e2, e3⟩, fun hn => absurd hh (not_le.mpr hn), rfl, rfl, rfl, rfl, e2, e3, rfl⟩
    unfold Spec.kalman
    simp only [neg_sq]
    congr 1
    · ring
    · rw [← kal_aux hS.ne']; ring
  · rw [if_neg (fun g => hh (hc.mp g))] at hst
    rw [hst]
    exact ⟨by simp [set2], by simp [set2], fun g => absurd g hh, fun _ => ⟨rfl, rfl, rfl⟩, rfl, rfl, rfl, rfl, h0, le_rfl, rfl⟩

theorem flowMeasVar_pos (x : FlowIn) : 0 < flowMeasVar x := by
  have := (flow_variance x).2.1
  exact lt_of_lt_of_le (by norm_num) this

/-- **C101 (flow fusion for terrain).** Starting from an estimate at least the minimum clearance away, each axis of an optical flow
measurement is fused, x before y, by the Kalman update of the terrain height with the derivative `H` of the predicted flow rate with
respect to the terrain height, if its innovation is within `gate` standard deviations, and else leaves height and variance unchanged.
Prediction and derivative of both axes are those at the height before the fusion. -/
theorem fuseFlow_spec (x : In) (st : St) (h0 : 0 ≤ st.var) (hc : 0 < x.flow.gndClearance) (hv : x.flow.gndClearance ≤ st.vpos - x.s 9) :
    ∃ Hx Hy mid, HasDerivAt (Spec.flowPred x 0) Hx st.vpos ∧ HasDerivAt (Spec.flowPred x 1) Hy st.vpos ∧
      (let R := flowMeasVar x.flow
       let ex := flowRate x.flow 0 - Spec.flowPred x 0 st.vpos
       let ey := flowRate x.flow 1 - Spec.flowPred x 1 st.vpos
       let st' := fuseFlow x st
       ((mid : ℝ × ℝ) = if ex ^ 2 ≤ max x.flow.gate 1 ^ 2 * (Hx ^ 2 * st.var + R) then Spec.kalman st.vpos st.var Hx ex R else (st.vpos, st.var)) ∧
       ((st'.vpos, st'.var) = if ey ^ 2 ≤ max x.flow.gate 1 ^ 2 * (Hy ^ 2 * mid.2 + R) then Spec.kalman mid.1 mid.2 Hy ey R else mid) ∧
       st'.flowInnov 0 = -ex ∧ st'.flowInnov 1 = -ey ∧ st'.flowInnovVar 0 = Hx ^ 2 * st.var + R ∧ st'.flowInnovVar 1 = Hy ^ 2 * mid.2 + R ∧
       (st'.tFlow = if ex ^ 2 ≤ max x.flow.gate 1 ^ 2 * (Hx ^ 2 * st.var + R) ∨ ey ^ 2 ≤ max x.flow.gate 1 ^ 2 * (Hy ^ 2 * mid.2 + R) then x.now else st.tFlow)) := by
  have hR := flowMeasVar_pos x.flow
  have hne : st.vpos - x.s 9 ≠ 0 := by linarith
  obtain ⟨q1, q2⟩ := e22_eq x.s
  have hmax : max st.vpos (x.flow.gndClearance + x.s 9) = st.vpos := max_eq_left (by linarith)
  have hvar : max st.var 0 = st.var := max_eq_left h0
  -- abbreviations
  obtain ⟨hx, ehx⟩ : ∃ hx, hx = flowVelBody x.flow x.s 1 * (x.s 0 * x.s 0 - x.s 1 * x.s 1 - x.s 2 * x.s 2 + x.s 3 * x.s 3) * (1 / (st.vpos - x.s 9)) * (1 / (st.vpos - x.s 9)) := ⟨_, rfl⟩
  obtain ⟨hy, ehy⟩ : ∃ hy, hy = -flowVelBody x.flow x.s 0 * (x.s 0 * x.s 0 - x.s 1 * x.s 1 - x.s 2 * x.s 2 + x.s 3 * x.s 3) * (1 / (st.vpos - x.s 9)) * (1 / (st.vpos - x.s 9)) := ⟨_, rfl⟩
  have hpx : flowVelBody x.flow x.s 1 * Utils.quatToInverseRotMat (attQuat x.s) 2 2 * (1 / (st.vpos - x.s 9)) = Spec.flowPred x 0 st.vpos := by
    unfold Spec.flowPred; rw [if_pos rfl, q1, q2, mul_one_div]
  have hpy : -flowVelBody x.flow x.s 0 * Utils.quatToInverseRotMat (attQuat x.s) 2 2 * (1 / (st.vpos - x.s 9)) = Spec.flowPred x 1 st.vpos := by
    unfold Spec.flowPred; rw [if_neg (by decide), q1, q2, mul_one_div]
  obtain ⟨m, em⟩ : ∃ m, m = flowAxis x 0 hx (Spec.flowPred x 0 st.vpos) st := ⟨_, rfl⟩
  have hst : fuseFlow x st = flowAxis x 1 hy (Spec.flowPred x 1 st.vpos) m := by
    unfold fuseFlow
    simp only []
    rw [hmax, hvar, ← ehx, ← ehy, hpx, hpy, em]
  have d0 := flowPred_deriv x 0 st.vpos hne
  have d1 := flowPred_deriv x 1 st.vpos hne
  rw [if_pos rfl, q2] at d0
  rw [if_neg (by decide), q2] at d1
  rw [show -(flowVelBody x.flow x.s 1 * (x.s 0 * x.s 0 - x.s 1 * x.s 1 - x.s 2 * x.s 2 + x.s 3 * x.s 3)) / (st.vpos - x.s 9) ^ 2 = -hx by rw [ehx]; field_simp] at d0
  rw [show -(-flowVelBody x.flow x.s 0 * (x.s 0 * x.s 0 - x.s 1 * x.s 1 - x.s 2 * x.s 2 + x.s 3 * x.s 3)) / (st.vpos - x.s 9) ^ 2 = -hy by rw [ehy]; field_simp] at d1
  have a := flowAxis_spec x 0 hx (Spec.flowPred x 0 st.vpos) st h0 hR
  simp only [] at a
  rw [← em] at a
  obtain ⟨a1, a2, a3, a4, -, -, -, -, a8, a9, -⟩ := a
  have b := flowAxis_spec x 1 hy (Spec.flowPred x 1 st.vpos) m a8 hR
  simp only [] at b
  rw [← hst] at b
  obtain ⟨b1, b2, b3, b4, -⟩ := b
  have keep : (fuseFlow x st).flowInnov 0 = m.flowInnov 0 ∧ (fuseFlow x st).flowInnovVar 0 = m.flowInnovVar 0 := by
    rw [hst]; unfold flowAxis; simp only []; split_ifs <;> simp [set2]
  refine ⟨-hx, -hy, (m.vpos, m.var), d0, d1, ?_, ?_, ?_, ?_, ?_, ?_, ?_⟩
  · rw [neg_sq]
    split_ifs with h
    · exact (a3 h).1
    · obtain ⟨u, v, -⟩ := a4 (not_le.mp h)
      rw [u, v]
  · simp only [neg_sq]
    split_ifs with h
    · exact (b3 h).1
    · obtain ⟨u, v, -⟩ := b4 (not_le.mp h)
      rw [u, v]
  · rw [keep.1, a1]
  · rw [b1]
  · rw [keep.2, a2, neg_sq]
  · rw [b2, neg_sq]
  · simp only [neg_sq]
    by_cases hy' : (flowRate x.flow 1 - Spec.flowPred x 1 st.vpos) ^ 2 ≤ max x.flow.gate 1 ^ 2 * (hy ^ 2 * m.var + flowMeasVar x.flow)
    · rw [if_pos (Or.inr hy'), (b3 hy').2.1]
    · rw [(b4 (not_le.mp hy')).2.2]
      by_cases hx' : (flowRate x.flow 0 - Spec.flowPred x 0 st.vpos) ^ 2 ≤ max x.flow.gate 1 ^ 2 * (hx ^ 2 * st.var + flowMeasVar x.flow)
      · rw [if_pos (Or.inl hx'), (a3 hx').2.1]
      · rw [if_neg (by push Not; exact ⟨not_le.mp hx', not_le.mp hy'⟩), (a4 (not_le.mp hx')).2.2]

/-- non-vacuity of `fuseFlow_spec`: 3 m above the terrain with a clearance of 0.1 m -/
example (x : In) (st : St) (h1 : st.var = 1) (h2 : x.flow.gndClearance = 1 / 10) (h3 : st.vpos = x.s 9 + 3) :
    0 ≤ st.var ∧ 0 < x.flow.gndClearance ∧ x.flow.gndClearance ≤ st.vpos - x.s 9 := by
  rw [h1, h2, h3]; refine ⟨?_, ?_, ?_⟩ <;> linarith

end Ecl.Terrain
