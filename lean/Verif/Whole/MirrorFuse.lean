import Verif.Whole.SignFuse
import Verif.Whole.MirrorGen
import Verif.Whole.MirrorPred
import Verif.Whole.Attitude

/-!
# The mirror image: covariance resets and fusion functions
-/

namespace Ecl.Whole

open Ecl.Cov Ecl.Fusion Ecl.Ekf
open scoped Matrix

noncomputable section

/-! ## Mirror images of the data -/

/-- A vector (velocity, position, acceleration, field) in the mirror: the component across the mirror plane changes sign. -/
def Spec.mirV (v : V3 ℝ) : V3 ℝ := ![v 0, -v 1, v 2]

/-- A rotation vector or rate in the mirror: the other two components change sign. -/
def Spec.mirR (v : V3 ℝ) : V3 ℝ := ![-v 0, v 1, -v 2]

/-- A rotation matrix in the mirror: the entries that mix the mirrored axis with another one change sign. -/
def Spec.mirM (R : M3 ℝ) : M3 ℝ := fun i j => if i = j then R i j else if i = 1 ∨ j = 1 then -R i j else R i j

/-- A horizontal pair (north, east) or (forward, right). -/
def Spec.mir2 (v : Fin 2 → ℝ) : Fin 2 → ℝ := ![v 0, -v 1]

/-- A pair of angular rates about the forward and the right axis. -/
def Spec.mir2R (v : Fin 2 → ℝ) : Fin 2 → ℝ := ![-v 0, v 1]

/-- An attitude quaternion. -/
def Spec.mirQ (q : Quat ℝ) : Quat ℝ := ⟨q.w, -q.x, q.y, -q.z⟩

open Spec (mirV mirR mirM mir2 mir2R mirQ)

local notation "μ" => Spec.mirSign

theorem mirM_tr (R : M3 ℝ) : (mirM R)ᵀ = mirM Rᵀ := by
  funext i j
  fin_cases i <;> fin_cases j <;> simp [mirM, Matrix.transpose_apply]

theorem mirM_mirV (R : M3 ℝ) (v : V3 ℝ) : mirM R *ᵥ mirV v = mirV (R *ᵥ v) := by
  funext i
  fin_cases i <;> simp [mirM, mirV, Matrix.mulVec, dotProduct, Fin.sum_univ_three] <;> ring

theorem mirM_mirR (R : M3 ℝ) (v : V3 ℝ) : mirM R *ᵥ mirR v = mirR (R *ᵥ v) := by
  funext i
  fin_cases i <;> simp [mirM, mirR, Matrix.mulVec, dotProduct, Fin.sum_univ_three] <;> ring

theorem mirQ_dcm (q : Quat ℝ) : (mirQ q).dcm = mirM q.dcm := by
  funext i j
  fin_cases i <;> fin_cases j <;> simp [mirQ, Quat.dcm, mirM] <;> ring

theorem mirQ_inv (q : Quat ℝ) : Utils.quatToInverseRotMat (mirQ q) = mirM (Utils.quatToInverseRotMat q) := by
  funext i j
  fin_cases i <;> fin_cases j <;> simp [mirQ, Utils.quatToInverseRotMat, mirM] <;> ring

theorem mir_att (s : Vec ℝ) : attQuat (sgV μ s) = mirQ (attQuat s) := by
  unfold attQuat mirQ sgV
  simp only [mir_0, mir_1, mir_2, mir_3, neg_mul, one_mul]

theorem m_0 (s : Vec ℝ) : sgV μ s 0 = s 0 := by unfold sgV; rw [mir_0, one_mul]
theorem m_4 (s : Vec ℝ) : sgV μ s 4 = s 4 := by unfold sgV; rw [mir_4, one_mul]
theorem m_5 (s : Vec ℝ) : sgV μ s 5 = -s 5 := by unfold sgV; rw [mir_5, neg_one_mul]
theorem m_6 (s : Vec ℝ) : sgV μ s 6 = s 6 := by unfold sgV; rw [mir_6, one_mul]
theorem m_9 (s : Vec ℝ) : sgV μ s 9 = s 9 := by unfold sgV; rw [mir_9, one_mul]
theorem m_22 (s : Vec ℝ) : sgV μ s 22 = s 22 := by unfold sgV; rw [mir_22, one_mul]
theorem m_23 (s : Vec ℝ) : sgV μ s 23 = -s 23 := by unfold sgV; rw [mir_23, neg_one_mul]

/-! ### covariance of a fresh attitude -/

theorem mirQ_rotVec (q : Quat ℝ) : rotVec (mirQ q) = (-(rotVec q).1, (rotVec q).2.1, -(rotVec q).2.2) := by
  unfold rotVec mirQ
  by_cases c : q.w ≥ 0
  · simp only [c, if_true]
    refine Prod.ext ?_ (Prod.ext ?_ ?_) <;> simp only <;> ring
  · simp only [c, if_false]
    refine Prod.ext ?_ (Prod.ext ?_ ?_) <;> simp only <;> ring

/-- signs of the quaternion and of the rotation vector -/
def sQ : Fin 4 → ℝ := ![1, -1, 1, -1]
def sR : Fin 3 → ℝ := ![-1, 1, -1]

theorem quatJac_mir (a b c : ℝ) (i : Fin 4) (k : Fin 3) : Spec.quatJac ![-a, b, -c] i k = sQ i * sR k * Spec.quatJac ![a, b, c] i k := by
  fin_cases i <;> fin_cases k <;> simp [Spec.quatJac, sQ, sR] <;> ring

theorem quatBlock_mir (a b c v0 v1 v2 : ℝ) (h : 0 < a ^ 2 + b ^ 2 + c ^ 2) (i j : Fin 4) :
    quatBlock (-a) b (-c) v0 v1 v2 i j = sQ i * sQ j * quatBlock a b c v0 v1 v2 i j := by
  rw [quatBlock_eq _ _ _ _ _ _ (by simpa using h), quatBlock_eq _ _ _ _ _ _ h, Finset.mul_sum]
  refine Finset.sum_congr rfl fun k _ => ?_
  rw [quatJac_mir, quatJac_mir]
  have hk : sR k * sR k = 1 := by fin_cases k <;> norm_num [sR]
  linear_combination (sQ i * sQ j * Spec.quatJac ![a, b, c] i k * ![v0, v1, v2] k * Spec.quatJac ![a, b, c] j k) * hk

theorem mir_q (i : Fin N) (h : i.val < 4) : μ i = sQ ⟨i.val, h⟩ := by
  revert h
  fin_cases i <;> first | (intro _; rfl) | (intro h; exact absurd h (by decide))

theorem m_resetQuatCov (q : Quat ℝ) (t : ℝ) (P : Mat ℝ) : resetQuatCov (mirQ q) t (sgM μ P) = sgM μ (resetQuatCov q t P) := by
  unfold resetQuatCov
  rw [sg_uncorrSet mir_isSign, sg_uncorrSet mir_isSign]
  generalize (uncorrSet 2 2 _ _ : Mat ℝ) = Q
  unfold initQuatCov
  rw [mirQ_rotVec]
  generalize rotVec q = r
  obtain ⟨a, b, c⟩ := r
  dsimp only
  have hc : -a * -a + b * b + -c * -c = a * a + b * b + c * c := by ring
  rw [hc]
  by_cases hr : a * a + b * b + c * c > 1 / 1000000000
  · rw [if_pos hr, if_pos hr]
    rw [sg_uncorrSet mir_isSign, sg_uncorrSet mir_isSign]
    generalize (uncorrSet 2 2 _ _ : Mat ℝ) = Q
    have hp : 0 < a ^ 2 + b ^ 2 + c ^ 2 := by nlinarith
    funext i j
    show _ = μ i * μ j * _
    beta_reduce
    by_cases d : i.val < 4 ∧ j.val < 4
    · rw [dif_pos d, dif_pos d, quatBlock_mir _ _ _ _ _ _ hp, mir_q i d.1, mir_q j d.2]
    · rw [dif_neg d, dif_neg d]; rfl
  · rw [if_neg hr, if_neg hr, sg_uncorrSet mir_isSign, sg_uncorrSet mir_isSign]

theorem m_initCov (x : InitIn) (f : Filt) : initCov x (sgF μ f) = sgF μ (initCov x f) := by
  refine sg_initCov mir_isSign x f ?_
  rw [mir_att, ← m_resetQuatCov, sgM_zero]

/-! ### yaw and wind -/

theorem atan2_neg_cos (y x : ℝ) : Real.cos (atan2 (-y) x) = Real.cos (atan2 y x) ∧ Real.sin (atan2 (-y) x) = -Real.sin (atan2 y x) := by
  by_cases h : x ^ 2 + y ^ 2 = 0
  · have hx : x = 0 := by nlinarith [sq_nonneg x, sq_nonneg y]
    have hy : y = 0 := by nlinarith [sq_nonneg x, sq_nonneg y]
    subst hx hy
    have e : atan2 0 0 = 0 := Complex.arg_zero
    rw [neg_zero, e]
    simp
  · have h' : x ^ 2 + (-y) ^ 2 ≠ 0 := by rwa [neg_sq]
    rw [cos_atan2 h, cos_atan2 h', sin_atan2, sin_atan2, neg_sq]
    exact ⟨rfl, by ring⟩

theorem mirQ_yaw (q : Quat ℝ) : Real.cos (Utils.getEuler321YawQ (mirQ q)) = Real.cos (Utils.getEuler321YawQ q) ∧
    Real.sin (Utils.getEuler321YawQ (mirQ q)) = -Real.sin (Utils.getEuler321YawQ q) := by
  have e : Utils.getEuler321YawQ (mirQ q) = atan2 (-(2 * (q.w * q.z + q.x * q.y))) (sq q.w + sq q.x - sq q.y - sq q.z) := by
    unfold Utils.getEuler321YawQ mirQ
    congr 1
    · ring
    · simp only [sq]; ring
  rw [e]
  exact atan2_neg_cos _ _

theorem m_windStates (x : WindResetIn) (s : Vec ℝ) : resetWindStates x (sgV μ s) = sgV μ (resetWindStates x s) := by
  obtain ⟨h1, h2⟩ := mirQ_yaw (attQuat s)
  funext i
  by_cases c : i = 22
  · subst c
    rw [m_22]
    simp only [resetWindStates, if_true, mir_att, m_4, h1]
    split <;> rfl
  by_cases d : i = 23
  · subst d
    rw [m_23]
    have hn : (23 : Fin N) ≠ 22 := by decide
    simp only [resetWindStates, hn, if_true, if_false, mir_att, m_5, h2]
    split
    · ring
    · ring
  · simp [resetWindStates, sgV, c, d]

theorem m_windCov (tr : Bool) (t1 t2 : UInt64) (y y' : ℝ) (hc : Real.cos y' = Real.cos y) (hs : Real.sin y' = -Real.sin y) (en e2 tas wn we u : ℝ) (P : Mat ℝ) :
    resetWindCov ⟨tr, t1, t2, y', en, e2, tas, wn, -we, u⟩ (sgM μ P) = sgM μ (resetWindCov ⟨tr, t1, t2, y, en, e2, tas, wn, we, u⟩ P) := by
  unfold resetWindCov
  dsimp only
  rw [hc, hs]
  split
  · rw [sg_uncorrSet mir_isSign]
    generalize (uncorrSet 22 2 _ _ : Mat ℝ) = Q
    rw [sgM_diag mir_isSign, sgM_diag mir_isSign]
    funext i j
    show _ = μ i * μ j * _
    beta_reduce
    by_cases c1 : i = 22 ∧ j = 22
    · rw [if_pos c1, if_pos c1, c1.1, c1.2, mir_22]; unfold sq; ring
    rw [if_neg c1, if_neg c1]
    by_cases c2 : i = 23 ∧ j = 23
    · rw [if_pos c2, if_pos c2, c2.1, c2.2, mir_23]; unfold sq; ring
    rw [if_neg c2, if_neg c2]
    by_cases c3 : (i = 22 ∧ j = 23) ∨ (i = 23 ∧ j = 22)
    · rw [if_pos c3, if_pos c3]
      rcases c3 with c | c <;> rw [c.1, c.2, mir_22, mir_23] <;> ring
    rw [if_neg c3, if_neg c3]
    rfl
  · exact sg_uncorrSet mir_isSign _ _ _ _

theorem m_resetWind (x : WindResetIn) (f : Filt) : resetWind x (sgF μ f) = sgF μ (resetWind x f) := by
  unfold resetWind
  dsimp only
  rw [sgF_s, m_windStates, mir_att, m_22, m_23]
  obtain ⟨h1, h2⟩ := mirQ_yaw (attQuat (resetWindStates x f.s))
  rw [sgF_M, show (sgMag μ f.M).P = sgM μ f.M.P from rfl, m_windCov _ _ _ _ _ h1 h2]
  rfl

theorem m_resetFull (x : InitIn) (f : Filt) : resetFull x (sgF μ f) = sgF μ (resetFull x f) := by
  unfold resetFull
  rw [m_initCov x f]
  generalize initCov x f = g
  unfold sgF
  dsimp only
  congr 1
  funext i
  by_cases h : i = 22 ∨ i = 23
  · simp [sgV, h]
  · simp [sgV, h]

theorem m_windFault (w : WindResetIn) (ini : InitIn) (b : Bool) (f : Filt) : windFault w ini b (sgF μ f) = sgF μ (windFault w ini b f) := by
  unfold windFault
  split
  · exact m_resetWind w f
  · exact m_resetFull ini f

/-! ### airspeed, sideslip, drag, flow -/

theorem m_update (x : FixIn ℝ) (k g : Vec ℝ) (v : ℝ) (f : Filt) :
    update x (fun i => 1 * (μ i * k i)) (fun i => 1 * (μ i * g i)) v (sgF μ f) = (sgF μ (update x k g v f).1, (update x k g v f).2) := by
  have := sg_update (e := 1) mir_isSign (by norm_num) x k g v f
  rwa [one_mul v] at this

theorem m_updateN (x : FixIn ℝ) (k g : Vec ℝ) (v : ℝ) (f : Filt) :
    update x (fun i => (-1) * (μ i * k i)) (fun i => (-1) * (μ i * g i)) (-v) (sgF μ f) = (sgF μ (update x k g v f).1, (update x k g v f).2) := by
  have := sg_update (e := -1) mir_isSign (by norm_num) x k g v f
  rwa [neg_one_mul v] at this

theorem m_airspeed (x : AspIn) (st : AspSt) : (fuseAirspeed x { st with f := sgF μ st.f }).f = sgF μ (fuseAirspeed x st).f := by
  unfold fuseAirspeed
  simp only [sgF_P, sgF_s, Mirror.Asp_HK2, Mirror.Asp_S, Mirror.Asp_hList, Mirror.Asp_gain, sg_sparse, m_update, m_windFault]
  split_ifs <;> rfl

theorem m_relWind (s : Vec ℝ) : relWindBody (sgV μ s) = mirV (relWindBody s) := by
  unfold relWindBody
  rw [mir_att, mirQ_inv, m_4, m_5, m_6, m_22, m_23, ← mirM_mirV]
  congr 1
  funext i
  fin_cases i
  · rfl
  · show -s 5 - -s 23 = -(s 5 - s 23); ring
  · rfl

theorem neg_sq' (a : ℝ) : sq (-a) = sq a := by unfold sq; ring

theorem m_sideslip (x : BetaIn) (st : BetaSt) : (fuseSideslip x { st with f := sgF μ st.f }).f = sgF μ (fuseSideslip x st).f := by
  have e0 : ∀ v : V3 ℝ, mirV v 0 = v 0 := fun _ => rfl
  have e1 : ∀ v : V3 ℝ, mirV v 1 = -v 1 := fun _ => rfl
  have e2 : ∀ v : V3 ℝ, mirV v 2 = v 2 := fun _ => rfl
  unfold fuseSideslip
  simp only [sgF_P, sgF_s, Mirror.Beta_S, Mirror.Beta_hList, Mirror.Beta_gain, sg_sparse, m_windFault, m_relWind, e0, e1, e2, neg_sq, neg_div, neg_sq', m_updateN]
  split_ifs <;> rfl

/-- the drag input in the mirror -/
def Spec.mirDrag (x : DragIn) : DragIn := { x with accel := mir2 x.accel }

theorem m_dragX (x : DragIn) (w : V3 ℝ) (st : DragSt) :
    dragAxis (Spec.mirDrag x) (mirV w) 0 { st with f := sgF μ st.f } = ({ (dragAxis x w 0 st).1 with f := sgF μ (dragAxis x w 0 st).1.f }, (dragAxis x w 0 st).2) := by
  have hb : dragMea (Spec.mirDrag x) 0 (sgV μ st.f.s) = dragMea x 0 st.f.s := by
    show mir2 x.accel 0 - sgV μ st.f.s 13 / x.dt = x.accel 0 - st.f.s 13 / x.dt
    unfold sgV; rw [mir_13, one_mul]; rfl
  have hk : dragK (Spec.mirDrag x) 0 (sgV μ st.f.s) = dragK x 0 st.f.s := by unfold dragK; rw [hb]; rfl
  rw [dragAxis_core, dragAxis_core]
  dsimp only
  rw [sgF_s, sgF_P, hb, hk]
  simp only [if_true, sgF_s, sgF_P, Mirror.DragX_S, Mirror.DragX_hList, Mirror.DragX_gain]
  rw [show (Spec.mirDrag x).noise = x.noise from rfl]
  generalize DragX.S st.f.P st.f.s (max x.noise (1 / 2)) (dragK x 0 st.f.s) 0 = S
  generalize DragX.hList st.f.P st.f.s (max x.noise (1 / 2)) (dragK x 0 st.f.s) 0 = l
  generalize DragX.gain st.f.P st.f.s (max x.noise (1 / 2)) (dragK x 0 st.f.s) 0 = k
  generalize dragMea x 0 st.f.s = m
  unfold dragCore
  rw [show (Spec.mirDrag x).noise = x.noise from rfl, show (Spec.mirDrag x).airDensity = x.airDensity from rfl,
    show (Spec.mirDrag x).bcoefX = x.bcoefX from rfl, show (Spec.mirDrag x).bcoefY = x.bcoefY from rfl, show (Spec.mirDrag x).fx = x.fx from rfl,
    show mirV w (Fin.castSucc 0) = w (Fin.castSucc 0) from rfl]
  dsimp only
  generalize w (Fin.castSucc 0) = u
  generalize (if (0 : Fin 2) = 0 then 1 / x.bcoefX else 1 / x.bcoefY) = bci
  generalize (if u ≥ 0 then (1 : ℝ) else -1) = sg
  by_cases h : S < max x.noise (1 / 2)
  · rw [if_pos h, if_pos h]
  rw [if_neg h, if_neg h]
  simp only [sg_sparse, m_update]
  split <;> rfl

theorem m_dragY (x : DragIn) (w : V3 ℝ) (st : DragSt) :
    (dragAxis (Spec.mirDrag x) (mirV w) 1 { st with f := sgF μ st.f }).1.f = sgF μ (dragAxis x w 1 st).1.f := by
  have hb : dragMea (Spec.mirDrag x) 1 (sgV μ st.f.s) = -dragMea x 1 st.f.s := by
    show mir2 x.accel 1 - sgV μ st.f.s 14 / x.dt = -(x.accel 1 - st.f.s 14 / x.dt)
    unfold sgV; rw [mir_14, show mir2 x.accel 1 = -x.accel 1 from rfl]; ring
  have hk : dragK (Spec.mirDrag x) 1 (sgV μ st.f.s) = dragK x 1 st.f.s := by unfold dragK; rw [hb, abs_neg]; rfl
  have hw : ∀ u : ℝ, sq (-u) * (if -u ≥ 0 then (1 : ℝ) else -1) = -(sq u * (if u ≥ 0 then (1 : ℝ) else -1)) := by
    intro u
    unfold sq
    split_ifs with h1 h2 h2
    · have : u = 0 := by linarith
      rw [this]; ring
    · ring
    · ring
    · linarith
  rw [dragAxis_core, dragAxis_core]
  dsimp only
  rw [sgF_s, sgF_P, hb, hk]
  simp only [one_ne_zero, if_false, sgF_s, sgF_P, Mirror.DragY_S, Mirror.DragY_hList, Mirror.DragY_gain]
  rw [show (Spec.mirDrag x).noise = x.noise from rfl]
  generalize DragY.S st.f.P st.f.s (max x.noise (1 / 2)) (dragK x 1 st.f.s) 0 = S
  generalize DragY.hList st.f.P st.f.s (max x.noise (1 / 2)) (dragK x 1 st.f.s) 0 = l
  generalize DragY.gain st.f.P st.f.s (max x.noise (1 / 2)) (dragK x 1 st.f.s) 0 = k
  generalize dragMea x 1 st.f.s = m
  unfold dragCore
  rw [show (Spec.mirDrag x).noise = x.noise from rfl, show (Spec.mirDrag x).airDensity = x.airDensity from rfl,
    show (Spec.mirDrag x).bcoefX = x.bcoefX from rfl, show (Spec.mirDrag x).bcoefY = x.bcoefY from rfl, show (Spec.mirDrag x).fx = x.fx from rfl,
    show mirV w (Fin.castSucc 1) = -w (Fin.castSucc 1) from rfl]
  dsimp only
  generalize w (Fin.castSucc 1) = u
  generalize (if (1 : Fin 2) = 0 then 1 / x.bcoefX else 1 / x.bcoefY) = bci
  generalize max x.airDensity (1 / 10) = rho
  have hv : -(1 / 2) * bci * rho * sq (-u) * (if -u ≥ 0 then (1 : ℝ) else -1) - -m = -(-(1 / 2) * bci * rho * sq u * (if u ≥ 0 then (1 : ℝ) else -1) - m) := by
    have := hw u
    linear_combination (-(1 / 2) * bci * rho) * this
  rw [hv, neg_sq']
  generalize -(1 / 2) * bci * rho * sq u * (if u ≥ 0 then (1 : ℝ) else -1) - m = v
  by_cases h : S < max x.noise (1 / 2)
  · rw [if_pos h, if_pos h]
  rw [if_neg h, if_neg h]
  simp only [sg_sparse, m_updateN]
  split <;> rfl

theorem m_drag (x : DragIn) (st : DragSt) : (fuseDrag (Spec.mirDrag x) { st with f := sgF μ st.f }).f = sgF μ (fuseDrag x st).f := by
  unfold fuseDrag
  rw [show (Spec.mirDrag x).bcoefX = x.bcoefX from rfl, show (Spec.mirDrag x).bcoefY = x.bcoefY from rfl]
  split
  · rfl
  · dsimp only
    rw [sgF_s, m_relWind, m_dragX]
    dsimp only
    split
    · exact m_dragY _ _ _
    · rfl

/-- the optical flow input in the mirror -/
def Spec.mirFlow (x : FlowIn) : FlowIn :=
  { x with flowPosBody := mirV x.flowPosBody, imuPosBody := mirV x.imuPosBody, gyro := mirR x.gyro, comp := mir2R x.comp, gyroBias := mirR x.gyroBias,
           rToEarth := mirM x.rToEarth }

theorem mirV_off (a b : V3 ℝ) : (fun i => mirV a i - mirV b i) = mirV (fun i => a i - b i) := by
  funext i
  fin_cases i
  · rfl
  · show -a 1 - -b 1 = -(a 1 - b 1); ring
  · rfl

theorem m_flowRange (x : FlowIn) (s : Vec ℝ) : flowRange (Spec.mirFlow x) (sgV μ s) = flowRange x s := by
  unfold flowRange
  dsimp only
  rw [show (Spec.mirFlow x).gndClearance = x.gndClearance from rfl, show (Spec.mirFlow x).terrain = x.terrain from rfl,
    show (Spec.mirFlow x).flowPosBody = mirV x.flowPosBody from rfl, show (Spec.mirFlow x).imuPosBody = mirV x.imuPosBody from rfl,
    show (Spec.mirFlow x).rToEarth = mirM x.rToEarth from rfl, mirV_off, mirM_mirV, mir_att, mirQ_inv, m_9]
  rfl

theorem cross_mir (a b : V3 ℝ) : cross3 (mirR a) (mirV b) = mirV (cross3 a b) := by
  funext i
  fin_cases i <;> simp [cross3, mirR, mirV] <;> ring

theorem m_flowVel (x : FlowIn) (s : Vec ℝ) : flowVelBody (Spec.mirFlow x) (sgV μ s) = mirV (flowVelBody x s) := by
  have hg : (fun i => -(Spec.mirFlow x).gyro i / (Spec.mirFlow x).dt) = mirR fun i => -x.gyro i / x.dt := by
    funext i
    show -mirR x.gyro i / x.dt = _
    fin_cases i
    · show - -x.gyro 0 / x.dt = -(-x.gyro 0 / x.dt); ring
    · rfl
    · show - -x.gyro 2 / x.dt = -(-x.gyro 2 / x.dt); ring
  unfold flowVelBody
  dsimp only
  rw [hg, show (Spec.mirFlow x).flowPosBody = mirV x.flowPosBody from rfl, show (Spec.mirFlow x).imuPosBody = mirV x.imuPosBody from rfl,
    show (Spec.mirFlow x).rToEarth = mirM x.rToEarth from rfl, mirV_off, cross_mir, mirM_mirV, mir_att, mirQ_inv]
  refine Eq.trans ?_ (mirM_mirV _ _)
  refine congrArg (mirM (Utils.quatToInverseRotMat (attQuat s)) *ᵥ ·) ?_
  funext i
  fin_cases i
  · show sgV μ s 4 + _ = s 4 + _; rw [m_4]; rfl
  · show sgV μ s 5 + -_ = -(s 5 + _); rw [m_5]; ring
  · show sgV μ s 6 + _ = s 6 + _; rw [m_6]; rfl

theorem m_flowRate0 (x : FlowIn) : flowRate (Spec.mirFlow x) 0 = -flowRate x 0 := by
  show -x.comp 0 / x.dt + -x.gyroBias 0 = -(x.comp 0 / x.dt + x.gyroBias 0)
  ring

theorem m_flowRate1 (x : FlowIn) : flowRate (Spec.mirFlow x) 1 = flowRate x 1 := rfl

theorem m_flowX (x : FlowIn) (k h : Vec ℝ) (st st' : FlowSt) (hf : st'.f = sgF μ st.f) (h0 : st'.innov 0 = -st.innov 0) (h1 : st'.innov 1 = st.innov 1) :
    (flowAxis (Spec.mirFlow x) 0 (fun i => (-1) * (μ i * k i)) (fun i => (-1) * (μ i * h i)) st').f = sgF μ (flowAxis x 0 k h st).f ∧
    (flowAxis (Spec.mirFlow x) 0 (fun i => (-1) * (μ i * k i)) (fun i => (-1) * (μ i * h i)) st').innov 1 = (flowAxis x 0 k h st).innov 1 := by
  unfold flowAxis
  simp only [hf, h0, show (Spec.mirFlow x).fx = x.fx from rfl, m_updateN]
  split <;> exact ⟨rfl, h1⟩

theorem m_flowY (x : FlowIn) (k h : Vec ℝ) (st st' : FlowSt) (hf : st'.f = sgF μ st.f) (h1 : st'.innov 1 = st.innov 1) :
    (flowAxis (Spec.mirFlow x) 1 (fun i => 1 * (μ i * k i)) (fun i => 1 * (μ i * h i)) st').f = sgF μ (flowAxis x 1 k h st).f := by
  unfold flowAxis
  simp only [hf, h1, show (Spec.mirFlow x).fx = x.fx from rfl, m_update]
  split <;> rfl

theorem m_flowPair (x : FlowIn) (P : Mat ℝ) (s kX hX hY : Vec ℝ) (R r : ℝ) (st st' : FlowSt) (hf : st'.f = sgF μ st.f) (h0 : st'.innov 0 = -st.innov 0)
    (h1 : st'.innov 1 = st.innov 1) :
    (flowAxis (Spec.mirFlow x) 1 (FlowY.gain (flowAxis (Spec.mirFlow x) 0 (fun i => (-1) * (μ i * kX i)) (fun i => (-1) * (μ i * hX i)) st').f.P (sgM μ P) (sgV μ s) R r 0)
      (fun i => 1 * (μ i * hY i)) (flowAxis (Spec.mirFlow x) 0 (fun i => (-1) * (μ i * kX i)) (fun i => (-1) * (μ i * hX i)) st')).f =
    sgF μ (flowAxis x 1 (FlowY.gain (flowAxis x 0 kX hX st).f.P P s R r 0) hY (flowAxis x 0 kX hX st)).f := by
  obtain ⟨g1, g2⟩ := m_flowX x kX hX st st' hf h0 h1
  rw [g1, sgF_P, Mirror.FlowY_gain]
  exact m_flowY x _ _ _ _ g1 g2

theorem m_flow (x : FlowIn) (st : FlowSt) : (fuseOptFlow (Spec.mirFlow x) { st with f := sgF μ st.f }).f = sgF μ (fuseOptFlow x st).f := by
  have hR : flowMeasVar (Spec.mirFlow x) = flowMeasVar x := rfl
  have e0 : ∀ v : V3 ℝ, mirV v 0 = v 0 := fun _ => rfl
  have e1 : ∀ v : V3 ℝ, mirV v 1 = -v 1 := fun _ => rfl
  have hi : ∀ a b c : ℝ, -a / b - -c = -(a / b - c) := by intros; ring
  unfold fuseOptFlow
  simp only [sgF_P, sgF_s, m_flowRange, m_flowVel, hR, m_flowRate0, m_flowRate1, e0, e1, hi, Mirror.FlowX_S, Mirror.FlowY_S, Mirror.FlowX_hList, Mirror.FlowY_hList,
    Mirror.FlowX_gain, sg_sparse, Matrix.cons_val_zero, Matrix.cons_val_one, neg_sq', show (Spec.mirFlow x).gate = x.gate from rfl,
    show (Spec.mirFlow x).ini = x.ini from rfl, m_initCov]
  split
  · rfl
  split
  · rfl
  generalize flowVelBody x st.f.s 1 / flowRange x st.f.s - flowRate x 0 = v0
  generalize -flowVelBody x st.f.s 0 / flowRange x st.f.s - flowRate x 1 = v1
  generalize FlowX.S st.f.P st.f.s (flowMeasVar x) (flowRange x st.f.s) 0 = S0
  generalize FlowY.S st.f.P st.f.s (flowMeasVar x) (flowRange x st.f.s) 0 = S1
  by_cases c : sq v0 / (sq (max x.gate 1) * S0) > 1 ∨ sq v1 / (sq (max x.gate 1) * S1) > 1
  · simp only [c, if_true]
  · simp only [c, if_false]
    exact m_flowPair x _ _ _ _ _ _ _ { st with velBody := _, velNE := _, innov := ![v0, v1], innovVar := _, testRatio := _, reject := _ } _ rfl rfl rfl

end

end Ecl.Whole
