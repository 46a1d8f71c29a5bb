import Verif.Whole.SignFuse
import Verif.Whole.CoverGen
import Verif.Whole.CoverPred
import Verif.Whole.Attitude

/-!
# The other quaternion of the same attitude: covariance resets and fusion functions
-/

namespace Ecl.Whole

open Ecl.Cov Ecl.Fusion Ecl.Ekf
open scoped Matrix

noncomputable section

/-- the other quaternion -/
def negQ (q : Quat ℝ) : Quat ℝ := ⟨-q.w, -q.x, -q.y, -q.z⟩

local notation "κ" => Spec.covSign

theorem cov_att (s : Vec ℝ) : attQuat (sgV κ s) = negQ (attQuat s) := by
  unfold attQuat negQ sgV
  simp only [cov_0, cov_1, cov_2, cov_3, neg_mul, one_mul]

theorem negQ_dcm (q : Quat ℝ) : (negQ q).dcm = q.dcm := by
  funext i j
  fin_cases i <;> fin_cases j <;> simp [negQ, Quat.dcm]

theorem negQ_inv (q : Quat ℝ) : Utils.quatToInverseRotMat (negQ q) = Utils.quatToInverseRotMat q := by
  funext i j
  fin_cases i <;> fin_cases j <;> simp [negQ, Utils.quatToInverseRotMat]

theorem negQ_yaw (q : Quat ℝ) : Utils.getEuler321YawQ (negQ q) = Utils.getEuler321YawQ q := by
  simp [negQ, Utils.getEuler321YawQ, sq]

theorem sg_high (s : Vec ℝ) (i : Fin N) (hi : 4 ≤ i.val) : sgV κ s i = s i := by
  have : κ i = 1 := by
    revert hi
    fin_cases i <;> first | (intro; rfl) | (intro h; exact absurd h (by decide))
  unfold sgV
  rw [this, one_mul]

theorem quatJac_neg0 (r : Fin 3 → ℝ) (k : Fin 3) : Spec.quatJac (-r) 0 k = -Spec.quatJac r 0 k := by
  simp only [Spec.quatJac, Pi.neg_apply, neg_sq, Matrix.cons_val_zero]
  ring

theorem quatJac_neg (r : Fin 3 → ℝ) (i : Fin 4) (hi : i ≠ 0) (k : Fin 3) : Spec.quatJac (-r) i k = Spec.quatJac r i k := by
  simp only [Spec.quatJac, Pi.neg_apply, neg_sq]
  fin_cases i
  · exact absurd rfl hi
  all_goals simp

/-- at a half turn the scalar part is uncorrelated with the vector part -/
theorem quatJac_half (r : Fin 3 → ℝ) (h : r 0 ^ 2 + r 1 ^ 2 + r 2 ^ 2 = Real.pi ^ 2) (i : Fin 4) (hi : i ≠ 0) (v : ℝ) :
    ∑ k, Spec.quatJac r 0 k * v * Spec.quatJac r i k = 0 := by
  have hp := Real.pi_pos
  have h1 : Real.sqrt (Real.pi ^ 2) = Real.pi := Real.sqrt_sq hp.le
  simp only [Spec.quatJac, h, h1, Real.sin_pi_div_two, Real.cos_pi_div_two, Fin.sum_univ_three]
  generalize Real.pi = p at *
  have hn : p ≠ 0 := hp.ne'
  fin_cases i
  · exact absurd rfl hi
  · simp
    field_simp
    linear_combination (v * r 0) * h
  · simp
    field_simp
    linear_combination (v * r 1) * h
  · simp
    field_simp
    linear_combination (v * r 2) * h

theorem halfTurn_block (r : Fin 3 → ℝ) (v : ℝ) (h : r 0 ^ 2 + r 1 ^ 2 + r 2 ^ 2 = Real.pi ^ 2) (i j : Fin 4) :
    quatBlock (-r 0) (-r 1) (-r 2) v v v i j = quatBlock (r 0) (r 1) (r 2) v v v i j := by
  have hp : 0 < r 0 ^ 2 + r 1 ^ 2 + r 2 ^ 2 := by rw [h]; exact pow_pos Real.pi_pos 2
  have e : ![r 0, r 1, r 2] = r := by funext i; fin_cases i <;> rfl
  have e' : ![-r 0, -r 1, -r 2] = -r := by funext i; fin_cases i <;> rfl
  rw [quatBlock_eq _ _ _ _ _ _ (by simpa using hp), quatBlock_eq _ _ _ _ _ _ hp, e, e']
  by_cases hi : i = 0
  · by_cases hj : j = 0
    · subst hi; subst hj
      refine Finset.sum_congr rfl fun k _ => ?_
      rw [quatJac_neg0]; ring
    · subst hi
      have h0 := quatJac_half r h j hj v
      have ev : ∀ k : Fin 3, (![v, v, v] : Fin 3 → ℝ) k = v := by intro k; fin_cases k <;> rfl
      simp only [quatJac_neg0, quatJac_neg r j hj, ev, neg_mul, Finset.sum_neg_distrib, h0, neg_zero]
  · by_cases hj : j = 0
    · subst hj
      have h0 := quatJac_half r h i hi v
      have ev : ∀ k : Fin 3, (![v, v, v] : Fin 3 → ℝ) k = v := by intro k; fin_cases k <;> rfl
      have h1 : ∑ k, Spec.quatJac r i k * v * Spec.quatJac r 0 k = 0 := by
        rw [← h0]; exact Finset.sum_congr rfl fun k _ => by ring
      simp only [quatJac_neg0, quatJac_neg r i hi, ev, mul_neg, Finset.sum_neg_distrib, h1, neg_zero]
    · simp only [quatJac_neg r i hi, quatJac_neg r j hj]

theorem rotVec_neg (q : Quat ℝ) (hw : q.w ≠ 0) : rotVec (negQ q) = rotVec q := by
  unfold rotVec negQ
  rcases lt_or_gt_of_ne hw with h | h
  · have h1 : ¬ q.w ≥ 0 := not_le.mpr h
    have h2 : -q.w ≥ 0 := by linarith
    simp only [h1, h2, if_true, if_false]
  · have h1 : q.w ≥ 0 := h.le
    have h2 : ¬ -q.w ≥ 0 := by linarith
    simp only [h1, h2, if_true, if_false, neg_neg]

/-- the covariance of the attitude does not depend on which of its two quaternions is stored -/
theorem negQ_resetQuatCov (q : Quat ℝ) (hq : q.normSq = 1 ∨ q.normSq = 0) (t : ℝ) (P : Mat ℝ) : resetQuatCov (negQ q) t P = resetQuatCov q t P := by
  unfold resetQuatCov initQuatCov
  by_cases hw : q.w = 0
  · rcases hq with hq | hq
    · have e : rotVec q = (Real.pi * q.x, Real.pi * q.y, Real.pi * q.z) := by
        unfold rotVec
        simp only [hw, ge_iff_le, le_refl, if_true, Real.arccos_zero]
        rw [show 2 * (Real.pi / 2) * (1 / 2) = Real.pi / 2 by ring, Real.sin_pi_div_two]
        refine Prod.ext ?_ (Prod.ext ?_ ?_) <;> simp only <;> ring
      have e' : rotVec (negQ q) = (-(Real.pi * q.x), -(Real.pi * q.y), -(Real.pi * q.z)) := by
        unfold rotVec negQ
        simp only [hw, neg_zero, ge_iff_le, le_refl, if_true, Real.arccos_zero]
        rw [show 2 * (Real.pi / 2) * (1 / 2) = Real.pi / 2 by ring, Real.sin_pi_div_two]
        refine Prod.ext ?_ (Prod.ext ?_ ?_) <;> simp only <;> ring
      have hn : (![Real.pi * q.x, Real.pi * q.y, Real.pi * q.z] : Fin 3 → ℝ) 0 ^ 2 + (![Real.pi * q.x, Real.pi * q.y, Real.pi * q.z] : Fin 3 → ℝ) 1 ^ 2 +
          (![Real.pi * q.x, Real.pi * q.y, Real.pi * q.z] : Fin 3 → ℝ) 2 ^ 2 = Real.pi ^ 2 := by
        have : q.x * q.x + q.y * q.y + q.z * q.z = 1 := by
          have := hq; unfold Quat.normSq at this; rw [hw] at this; linarith
        simp
        linear_combination (Real.pi ^ 2) * this
      have hb := halfTurn_block ![Real.pi * q.x, Real.pi * q.y, Real.pi * q.z] (sq t) hn
      simp only [Matrix.cons_val_zero, Matrix.cons_val_one, Matrix.cons_val] at hb
      simp only [e, e', neg_mul_neg, hb]
    · have e : negQ q = q := by
        unfold Quat.normSq at hq
        have h1 : q.x = 0 := by nlinarith [sq_nonneg q.x, sq_nonneg q.y, sq_nonneg q.z, sq_nonneg q.w]
        have h2 : q.y = 0 := by nlinarith [sq_nonneg q.x, sq_nonneg q.y, sq_nonneg q.z, sq_nonneg q.w]
        have h3 : q.z = 0 := by nlinarith [sq_nonneg q.x, sq_nonneg q.y, sq_nonneg q.z, sq_nonneg q.w]
        cases q
        simp only at hw h1 h2 h3
        subst hw h1 h2 h3
        simp [negQ]
      rw [e]
  · rw [rotVec_neg q hw]

theorem cov_low (i : Fin N) (hi : i.val < 4) : κ i = -1 := by
  revert hi
  fin_cases i <;> first | (intro; rfl) | (intro h; exact absurd h (by decide))

theorem cov_high (i : Fin N) (hi : ¬ i.val < 4) : κ i = 1 := by
  revert hi
  fin_cases i <;> first | (intro; rfl) | (intro h; exact absurd (by decide) h)

/-- setting the covariance of the attitude also removes its correlations, so that it commutes with the sign change -/
theorem c_resetQuatCov (q : Quat ℝ) (t : ℝ) (P : Mat ℝ) : resetQuatCov q t (sgM κ P) = sgM κ (resetQuatCov q t P) := by
  unfold resetQuatCov
  rw [sg_uncorrSet cov_isSign, sg_uncorrSet cov_isSign]
  generalize (uncorrSet 2 2 _ _ : Mat ℝ) = Q
  unfold initQuatCov
  dsimp only
  split
  · rw [sg_uncorrSet cov_isSign, sg_uncorrSet cov_isSign]
    generalize (uncorrSet 2 2 _ _ : Mat ℝ) = Q
    funext i j
    show _ = κ i * κ j * _
    beta_reduce
    by_cases c : i.val < 4 ∧ j.val < 4
    · rw [dif_pos c, dif_pos c, cov_low i c.1, cov_low j c.2]; ring
    · rw [dif_neg c, dif_neg c]; rfl
  · rw [sg_uncorrSet cov_isSign, sg_uncorrSet cov_isSign]

theorem c_initCov (x : InitIn) (f : Filt) (ha : Att f.s) : initCov x (sgF κ f) = sgF κ (initCov x f) := by
  refine sg_initCov cov_isSign x f ?_
  rw [cov_att, negQ_resetQuatCov _ ha, ← c_resetQuatCov, sgM_zero]

theorem c_magRelated (x : MagIn) (f : Filt) (ha : Att f.s) : resetMagRelated x (sgF κ f) = sgF κ (resetMagRelated x f) := by
  unfold resetMagRelated
  rw [sgF_s, cov_att, negQ_resetQuatCov _ ha, sgF_MP, c_resetQuatCov]
  rw [show ∀ Q : Mat ℝ, ({ (sgF κ f).M with P := sgM κ Q } : MagState ℝ) = sgMag κ { f.M with P := Q } from fun _ => rfl, sg_resetMagCov cov_isSign]
  rfl

theorem c_setMagNE (s : Vec ℝ) (n e : ℝ) : setMagNE (sgV κ s) n e = sgV κ (setMagNE s n e) := by
  funext i
  by_cases h : i.val = 16
  · rw [sg_high _ i (by omega)]; simp [setMagNE, h]
  by_cases h' : i.val = 17
  · rw [sg_high _ i (by omega)]; simp [setMagNE, h']
  · simp [setMagNE, sgV, h, h']

theorem c_16 (s : Vec ℝ) : sgV κ s 16 = s 16 := sg_high s 16 (by decide)
theorem c_17 (s : Vec ℝ) : sgV κ s 17 = s 17 := sg_high s 17 (by decide)

theorem c_declination (x : DeclIn) (s : Vec ℝ) : getMagDeclination x (sgV κ s) = getMagDeclination x s := by
  unfold getMagDeclination
  rw [c_16, c_17]

theorem c_limitDecl (x : DeclIn) (s : Vec ℝ) : limitDeclination x (sgV κ s) = sgV κ (limitDeclination x s) := by
  unfold limitDeclination
  simp only [c_16, c_17, c_declination, c_setMagNE]
  have hs : ∀ (c e : Prop) [Decidable c] [Decidable e] (p q r : Vec ℝ),
      (if c then sgV κ p else if e then sgV κ q else sgV κ r) = sgV κ (if c then p else if e then q else r) := by
    intros; split_ifs <;> rfl
  have h2 : ∀ (c e : Prop) [Decidable c] [Decidable e] (p q : Vec ℝ) (u v : ℝ),
      (if c then ((if e then sgV κ p else sgV κ q), u) else (sgV κ s, v)) =
        (sgV κ (if c then ((if e then p else q), u) else (s, v)).1, (if c then ((if e then p else q), u) else (s, v)).2) := by
    intros; split_ifs <;> rfl
  rw [h2]
  simp only [c_setMagNE, c_16, c_17, hs]

/-- the corrected states keep unit length -/
theorem att_limitDecl (x : DeclIn) (s : Vec ℝ) (h : Att s) : Att (limitDeclination x s) := by
  have hn : ∀ (t : Vec ℝ) (n e : ℝ), Att t → Att (setMagNE t n e) := fun t n e ht =>
    att_congr (fun i hi => by simp [setMagNE, show i.val ≠ 16 by omega, show i.val ≠ 17 by omega]) ht
  unfold limitDeclination
  dsimp only
  split_ifs <;> exact h

theorem att_update (x : FixIn ℝ) (k g : Vec ℝ) (v : ℝ) (f : Filt) (h : Att f.s) : Att (update x k g v f).1.s := by
  unfold update
  rcases measurementUpdate x k g f.timeCheck f.badAccBias f.P with ⟨P, t, b, _ | k'⟩
  · exact h
  · exact att_fuse _ _ _

theorem c_update (x : FixIn ℝ) (k g : Vec ℝ) (v : ℝ) (f : Filt) :
    update x (fun i => 1 * (κ i * k i)) (fun i => 1 * (κ i * g i)) v (sgF κ f) = (sgF κ (update x k g v f).1, (update x k g v f).2) := by
  have := sg_update (e := 1) cov_isSign (by norm_num) x k g v f
  rwa [one_mul v] at this

theorem c_magAxis (x : MagIn) (a : Fin 3) (st : MagSt) (ha : Att st.f.s) :
    magAxis x a { st with f := sgF κ st.f } = ({ (magAxis x a st).1 with f := sgF κ (magAxis x a st).1.f }, (magAxis x a st).2) := by
  have e1 : ∀ R, magS a (sgM κ st.f.P) (sgV κ st.f.s) R = magS a st.f.P st.f.s R := by
    intro R; unfold magS; simp only [Cover.MagX_S, Cover.MagY_S, Cover.MagZ_S]
  have e2 : ∀ R, sparse (magRow a (sgM κ st.f.P) (sgV κ st.f.s) R) = fun i => 1 * (κ i * sparse (magRow a st.f.P st.f.s R) i) := by
    intro R
    rw [← sg_sparse (σ := κ)]
    unfold magRow
    simp only [Cover.MagX_hList, Cover.MagY_hList, Cover.MagZ_hList]
    split_ifs <;> rfl
  have e3 : ∀ R b, magGain b a (sgM κ st.f.P) (sgV κ st.f.s) R = fun i => 1 * (κ i * magGain b a st.f.P st.f.s R i) := by
    intro R b; unfold magGain; simp only [Cover.MagX_gain, Cover.MagY_gain, Cover.MagZ_gain]
    split_ifs <;> rfl
  unfold magAxis
  simp only [sgF_P, sgF_s, e1, e2, e3, c_update, c_magRelated x st.f ha, c_limitDecl]
  split_ifs <;> rfl

theorem att_magAxis (x : MagIn) (a : Fin 3) (st : MagSt) (ha : Att st.f.s) : Att (magAxis x a st).1.f.s := by
  unfold magAxis
  dsimp only
  split_ifs
  · exact ha
  · exact att_limitDecl _ _ (att_update _ _ _ _ _ ha)
  · exact att_update _ _ _ _ _ ha

theorem c_magLoop (x : MagIn) (st : MagSt) (ha : Att st.f.s) : (magLoop x { st with f := sgF κ st.f }).f = sgF κ (magLoop x st).f := by
  unfold magLoop
  have h1 := att_magAxis x 0 st ha
  have h2 := att_magAxis x 1 _ h1
  simp only [c_magAxis x 0 st ha, c_magAxis x 1 _ h1, c_magAxis x 2 _ h2]
  split_ifs <;> rfl

theorem c_magLoop' (x : MagIn) (st : MagSt) (f : Filt) (h : st.f = sgF κ f) (ha : Att f.s) : (magLoop x st).f = sgF κ (magLoop x { st with f := f }).f := by
  rw [← c_magLoop x { st with f := f } ha]
  show (magLoop x st).f = (magLoop x { st with f := sgF κ f }).f
  rw [← h]

theorem c_magInnov (x : MagIn) (s : Vec ℝ) : magInnov3 x (sgV κ s) = magInnov3 x s := by
  unfold magInnov3
  rw [cov_att, negQ_inv, c_16, c_17, sg_high s 18 (by decide), sg_high s 19 (by decide), sg_high s 20 (by decide), sg_high s 21 (by decide)]

theorem c_fuseMag (x : MagIn) (st : MagSt) (ha : Att st.f.s) : (fuseMag x { st with f := sgF κ st.f }).f = sgF κ (fuseMag x st).f := by
  rw [fuseMag_core, fuseMag_core]
  dsimp only
  rw [sgF_s, sgF_P, Cover.MagX_S, Cover.MagIV_S1, Cover.MagIV_S2, c_magInnov]
  generalize MagX.S st.f.P st.f.s (magR x) 0 0 = S0
  generalize MagIV.S1 st.f.P st.f.s (magR x) 0 0 = S1
  generalize MagIV.S2 st.f.P st.f.s (magR x) 0 0 = S2
  generalize magInnov3 x st.f.s = v
  unfold magCore
  dsimp only
  split
  · exact c_magRelated x st.f ha
  split
  · exact c_magRelated x st.f ha
  split
  · exact c_magRelated x st.f ha
  generalize (if x.synthZ = true then set3 v 2 0 else v) = u
  split
  · rfl
  · exact c_magLoop' x _ st.f rfl ha

theorem c_fuseDecl (x : DeclIn) (fx : FixIn ℝ) (sg : ℝ) (st : DeclSt) :
    (fuseDeclination x fx sg { st with f := sgF κ st.f }).f = sgF κ (fuseDeclination x fx sg st).f := by
  unfold fuseDeclination
  simp only [sgF_P, sgF_s, Cover.Decl_S, Cover.Decl_hList, Cover.Decl_gain, c_16, c_17, c_declination, sg_sparse, c_update]
  split_ifs <;> first | rfl | (simp only [c_limitDecl]; rfl)

theorem c_4 (s : Vec ℝ) : sgV κ s 4 = s 4 := sg_high s 4 (by decide)
theorem c_5 (s : Vec ℝ) : sgV κ s 5 = s 5 := sg_high s 5 (by decide)
theorem c_6 (s : Vec ℝ) : sgV κ s 6 = s 6 := sg_high s 6 (by decide)
theorem c_9 (s : Vec ℝ) : sgV κ s 9 = s 9 := sg_high s 9 (by decide)
theorem c_22 (s : Vec ℝ) : sgV κ s 22 = s 22 := sg_high s 22 (by decide)
theorem c_23 (s : Vec ℝ) : sgV κ s 23 = s 23 := sg_high s 23 (by decide)

theorem c_windStates (x : WindResetIn) (s : Vec ℝ) : resetWindStates x (sgV κ s) = sgV κ (resetWindStates x s) := by
  funext i
  by_cases h : i.val < 4
  · have n22 : i ≠ 22 := fun e => by subst e; exact absurd h (by decide)
    have n23 : i ≠ 23 := fun e => by subst e; exact absurd h (by decide)
    simp [resetWindStates, sgV, n22, n23]
  · rw [sg_high _ i (by omega)]
    unfold resetWindStates
    simp only [cov_att, negQ_yaw, c_4, c_5, sg_high s i (by omega)]

theorem c_windCov (y : WindIn) (P : Mat ℝ) : resetWindCov y (sgM κ P) = sgM κ (resetWindCov y P) := by
  unfold resetWindCov
  dsimp only
  split
  · rw [sg_uncorrSet cov_isSign]
    generalize (uncorrSet 22 2 _ _ : Mat ℝ) = Q
    rw [sgM_diag cov_isSign, sgM_diag cov_isSign]
    funext i j
    show _ = κ i * κ j * _
    beta_reduce
    by_cases c1 : i = 22 ∧ j = 22
    · rw [if_pos c1, if_pos c1, c1.1, c1.2, cov_22]; ring
    rw [if_neg c1, if_neg c1]
    by_cases c2 : i = 23 ∧ j = 23
    · rw [if_pos c2, if_pos c2, c2.1, c2.2, cov_23]; ring
    rw [if_neg c2, if_neg c2]
    by_cases c3 : (i = 22 ∧ j = 23) ∨ (i = 23 ∧ j = 22)
    · rw [if_pos c3, if_pos c3]
      rcases c3 with c | c <;> rw [c.1, c.2, cov_22, cov_23] <;> ring
    rw [if_neg c3, if_neg c3]
    rfl
  · exact sg_uncorrSet cov_isSign _ _ _ _

theorem c_resetWind (x : WindResetIn) (f : Filt) : resetWind x (sgF κ f) = sgF κ (resetWind x f) := by
  unfold resetWind
  simp only [sgF_s, sgF_M, c_windStates, cov_att, negQ_yaw, c_22, c_23]
  have e : ∀ y, resetWindCov y (sgM κ f.M.P) = sgM κ (resetWindCov y f.M.P) := fun y => c_windCov y f.M.P
  rw [show (sgMag κ f.M).P = sgM κ f.M.P from rfl, e]
  rfl

theorem c_resetFull (x : InitIn) (f : Filt) (ha : Att f.s) : resetFull x (sgF κ f) = sgF κ (resetFull x f) := by
  unfold resetFull
  rw [c_initCov x f ha]
  generalize initCov x f = g
  unfold sgF
  dsimp only
  congr 1
  funext i
  by_cases h : i = 22 ∨ i = 23
  · simp [sgV, h]
  · simp [sgV, h]

theorem c_windFault (w : WindResetIn) (ini : InitIn) (b : Bool) (f : Filt) (ha : Att f.s) : windFault w ini b (sgF κ f) = sgF κ (windFault w ini b f) := by
  unfold windFault
  split
  · exact c_resetWind w f
  · exact c_resetFull ini f ha

theorem c_airspeed (x : AspIn) (st : AspSt) (ha : Att st.f.s) : (fuseAirspeed x { st with f := sgF κ st.f }).f = sgF κ (fuseAirspeed x st).f := by
  unfold fuseAirspeed
  simp only [sgF_P, sgF_s, Cover.Asp_HK2, Cover.Asp_S, Cover.Asp_hList, Cover.Asp_gain, sg_sparse, c_update, c_windFault _ _ _ st.f ha]
  split_ifs <;> rfl

theorem c_relWind (s : Vec ℝ) : relWindBody (sgV κ s) = relWindBody s := by
  unfold relWindBody
  rw [cov_att, negQ_inv, c_4, c_5, c_6, c_22, c_23]

theorem c_sideslip (x : BetaIn) (st : BetaSt) (ha : Att st.f.s) : (fuseSideslip x { st with f := sgF κ st.f }).f = sgF κ (fuseSideslip x st).f := by
  unfold fuseSideslip
  simp only [sgF_P, sgF_s, Cover.Beta_S, Cover.Beta_hList, Cover.Beta_gain, sg_sparse, c_update, c_windFault _ _ _ st.f ha, c_relWind]
  split_ifs <;> rfl

theorem c_dragAxis (x : DragIn) (w : V3 ℝ) (a : Fin 2) (st : DragSt) :
    dragAxis x w a { st with f := sgF κ st.f } = ({ (dragAxis x w a st).1 with f := sgF κ (dragAxis x w a st).1.f }, (dragAxis x w a st).2) := by
  have hb : dragMea x a (sgV κ st.f.s) = dragMea x a st.f.s := by
    unfold dragMea; rw [sg_high _ (biasIdx a) (by show 4 ≤ 13 + a.val; omega)]
  have hk : dragK x a (sgV κ st.f.s) = dragK x a st.f.s := by unfold dragK; rw [hb]
  have hl : ∀ R k, sparse (if a = 0 then DragX.hList (sgM κ st.f.P) (sgV κ st.f.s) R k 0 else DragY.hList (sgM κ st.f.P) (sgV κ st.f.s) R k 0) =
      fun i => 1 * (κ i * sparse (if a = 0 then DragX.hList st.f.P st.f.s R k 0 else DragY.hList st.f.P st.f.s R k 0) i) := by
    intro R k
    rw [← sg_sparse (σ := κ), Cover.DragX_hList, Cover.DragY_hList]
    split_ifs <;> rfl
  have hg : ∀ R k, (if a = 0 then DragX.gain (sgM κ st.f.P) (sgV κ st.f.s) R k 0 else DragY.gain (sgM κ st.f.P) (sgV κ st.f.s) R k 0) =
      fun i => 1 * (κ i * (if a = 0 then DragX.gain st.f.P st.f.s R k 0 else DragY.gain st.f.P st.f.s R k 0) i) := by
    intro R k
    rw [Cover.DragX_gain, Cover.DragY_gain]
    split_ifs <;> rfl
  rw [dragAxis_core, dragAxis_core]
  dsimp only
  rw [sgF_s, sgF_P, hb, hk, Cover.DragX_S, Cover.DragY_S]
  unfold dragCore
  simp only [hl, hg]
  generalize (if a = 0 then DragX.S st.f.P st.f.s (max x.noise (1 / 2)) (dragK x a st.f.s) 0 else DragY.S st.f.P st.f.s (max x.noise (1 / 2)) (dragK x a st.f.s) 0) = S
  generalize (if a = 0 then DragX.hList st.f.P st.f.s (max x.noise (1 / 2)) (dragK x a st.f.s) 0 else DragY.hList st.f.P st.f.s (max x.noise (1 / 2)) (dragK x a st.f.s) 0) = l
  generalize (if a = 0 then DragX.gain st.f.P st.f.s (max x.noise (1 / 2)) (dragK x a st.f.s) 0 else DragY.gain st.f.P st.f.s (max x.noise (1 / 2)) (dragK x a st.f.s) 0) = k
  generalize dragMea x a st.f.s = m
  generalize (if a = 0 then 1 / x.bcoefX else 1 / x.bcoefY) = bci
  generalize (if w a.castSucc ≥ 0 then (1 : ℝ) else -1) = sg
  by_cases h : S < max x.noise (1 / 2)
  · rw [if_pos h, if_pos h]
  rw [if_neg h, if_neg h]
  simp only [c_update]
  split <;> rfl

theorem c_drag (x : DragIn) (st : DragSt) : (fuseDrag x { st with f := sgF κ st.f }).f = sgF κ (fuseDrag x st).f := by
  unfold fuseDrag
  simp only [sgF_s, c_relWind, c_dragAxis]
  split
  · rfl
  split <;> rfl

theorem c_flowAxis (x : FlowIn) (a : Fin 2) (k h : Vec ℝ) (st : FlowSt) :
    flowAxis x a (fun i => 1 * (κ i * k i)) (fun i => 1 * (κ i * h i)) { st with f := sgF κ st.f } =
      { flowAxis x a k h st with f := sgF κ (flowAxis x a k h st).f } := by
  unfold flowAxis
  simp only [c_update]
  split <;> rfl

theorem c_flow (x : FlowIn) (st : FlowSt) (ha : Att st.f.s) : (fuseOptFlow x { st with f := sgF κ st.f }).f = sgF κ (fuseOptFlow x st).f := by
  have hr : flowRange x (sgV κ st.f.s) = flowRange x st.f.s := by
    unfold flowRange
    simp only [c_9, cov_att, negQ_inv]
  have hv : flowVelBody x (sgV κ st.f.s) = flowVelBody x st.f.s := by
    unfold flowVelBody
    simp only [c_4, c_5, c_6, cov_att, negQ_inv]
  unfold fuseOptFlow
  simp only [sgF_P, sgF_s, hr, hv, Cover.FlowX_S, Cover.FlowY_S, Cover.FlowX_hList, Cover.FlowY_hList, Cover.FlowX_gain, sg_sparse, c_initCov x.ini st.f ha]
  split
  · rfl
  split
  · rfl
  split
  · rfl
  · set st1 : FlowSt := { st with velBody := _, velNE := _, innov := _, innovVar := _, testRatio := _, reject := _ } with h1
    have h2 := c_flowAxis x 0 (FlowX.gain st.f.P st.f.s (flowMeasVar x) (flowRange x st.f.s) 0)
      (sparse (FlowX.hList st.f.P st.f.s (flowMeasVar x) (flowRange x st.f.s) 0)) st1
    dsimp only [st1] at h2 ⊢
    rw [h2]
    dsimp only
    rw [sgF_P, Cover.FlowY_gain, c_flowAxis]

theorem row321_neg (s : Vec ℝ) : yawRow321 (sgV κ s) = (yawRow321 s).map fun j c => 1 * (κ (qi c) * j c) := by
  have h0 : sgV κ s 0 = -s 0 := by unfold sgV; rw [cov_0]; ring
  have h1 : sgV κ s 1 = -s 1 := by unfold sgV; rw [cov_1]; ring
  have h2 : sgV κ s 2 = -s 2 := by unfold sgV; rw [cov_2]; ring
  have h3 : sgV κ s 3 = -s 3 := by unfold sgV; rw [cov_3]; ring
  have hk : ∀ c, κ (qi c) = -1 := fun c => cov_low _ c.isLt
  have e1 : ∀ a b c d : ℝ, 2 * -a * -b + 2 * -c * -d = 2 * a * b + 2 * c * d := by intros; ring
  have e2 : ∀ a : ℝ, sq (-a) = sq a := by intro a; unfold sq; ring
  unfold yawRow321
  simp only [h0, h1, h2, h3, e1, e2, hk]
  split_ifs
  · simp only [Option.map_some, Option.some.injEq]
    funext c
    fin_cases c <;> simp <;> ring
  · simp only [Option.map_some, Option.some.injEq]
    funext c
    fin_cases c <;> simp <;> ring
  · rfl

theorem row312_neg (s : Vec ℝ) : yawRow312 (sgV κ s) = (yawRow312 s).map fun j c => 1 * (κ (qi c) * j c) := by
  have h0 : sgV κ s 0 = -s 0 := by unfold sgV; rw [cov_0]; ring
  have h1 : sgV κ s 1 = -s 1 := by unfold sgV; rw [cov_1]; ring
  have h2 : sgV κ s 2 = -s 2 := by unfold sgV; rw [cov_2]; ring
  have h3 : sgV κ s 3 = -s 3 := by unfold sgV; rw [cov_3]; ring
  have hk : ∀ c, κ (qi c) = -1 := fun c => cov_low _ c.isLt
  have e1 : ∀ a b c d : ℝ, 2 * -a * -b - 2 * -c * -d = 2 * a * b - 2 * c * d := by intros; ring
  have e3 : ∀ a b c d : ℝ, -(2 * -a) * -b + 2 * -c * -d = -(2 * a) * b + 2 * c * d := by intros; ring
  have e2 : ∀ a : ℝ, sq (-a) = sq a := by intro a; unfold sq; ring
  unfold yawRow312
  simp only [h0, h1, h2, h3, e1, e2, e3, hk]
  split_ifs
  · simp only [Option.map_some, Option.some.injEq]
    funext c
    fin_cases c <;> simp <;> ring
  · simp only [Option.map_some, Option.some.injEq]
    funext c
    fin_cases c <;> simp <;> ring
  · rfl

theorem c_updateQuat (x : HdgIn) (v r g : ℝ) (j : Fin 4 → ℝ) (st : YawSt) (ha : Att st.f.s) :
    (updateQuaternion x v r g (fun c => 1 * (κ (qi c) * j c)) { st with f := sgF κ st.f }).f = sgF κ (updateQuaternion x v r g j st).f := by
  have := sg_updateQuat (e := 1) cov_isSign (by norm_num) x v r g j st (c_initCov x.ini st.f ha)
  rwa [one_mul v] at this

theorem c_yaw321 (x : HdgIn) (Rte : M3 ℝ) (y v : ℝ) (z : Bool) (st : YawSt) (ha : Att st.f.s) :
    (fuseYaw321 x Rte y v z { st with f := sgF κ st.f }).f = sgF κ (fuseYaw321 x Rte y v z st).f := by
  unfold fuseYaw321
  dsimp only
  rw [sgF_s, row321_neg]
  cases yawRow321 st.f.s with
  | none => rfl
  | some j => exact c_updateQuat x _ _ _ j st ha

theorem c_yaw312 (x : HdgIn) (Rte : M3 ℝ) (y v : ℝ) (z : Bool) (st : YawSt) (ha : Att st.f.s) :
    (fuseYaw312 x Rte y v z { st with f := sgF κ st.f }).f = sgF κ (fuseYaw312 x Rte y v z st).f := by
  unfold fuseYaw312
  dsimp only
  rw [sgF_s, row312_neg]
  cases yawRow312 st.f.s with
  | none => rfl
  | some j => exact c_updateQuat x _ _ _ j st ha

theorem c_heading (x : HeadIn) (st : HeadSt) (ha : Att st.y.f.s) :
    (fuseHeading x { st with y := { st.y with f := sgF κ st.y.f } }).y.f = sgF κ (fuseHeading x st).y.f ∧
    (fuseHeading x { st with y := { st.y with f := sgF κ st.y.f } }).Rte = (fuseHeading x st).Rte := by
  have hm : magCorr x (sgV κ st.y.f.s) = magCorr x st.y.f.s := by
    funext i; unfold magCorr; rw [sg_high _ _ (by show 4 ≤ 19 + i.val; omega)]
  rw [fuseHeading_core, fuseHeading_core]
  dsimp only
  rw [sgF_s, sgF_P, cov_att, negQ_dcm, hm, c_declination, sgM_diag cov_isSign, sgM_diag cov_isSign, sgM_diag cov_isSign, sgM_diag cov_isSign]
  generalize (attQuat st.y.f.s).dcm = Rte
  generalize magCorr x st.y.f.s = mc
  generalize getMagDeclination x.decl st.y.f.s = dec
  generalize st.y.f.P 0 0 + st.y.f.P 1 1 + st.y.f.P 2 2 + st.y.f.P 3 3 = tr
  unfold headCore
  dsimp only
  by_cases h : Utils.shouldUse321 Rte
  · rw [if_pos h, if_pos h]
    exact ⟨c_yaw321 _ _ _ _ _ _ ha, rfl⟩
  · rw [if_neg h, if_neg h]
    exact ⟨c_yaw312 _ _ _ _ _ _ ha, rfl⟩

theorem c_gpsYaw (x : GpsYawIn) (st : YawSt) (ha : Att st.f.s) : (fuseGpsYaw x { st with f := sgF κ st.f }).f = sgF κ (fuseGpsYaw x st).f := by
  rw [fuseGpsYaw_core, fuseGpsYaw_core]
  dsimp only
  rw [sgF_s, sgF_P, Cover.GpsYaw_HK9, Cover.GpsYaw_HK17, Cover.GpsYaw_HK19_inverse, Cover.GpsYaw_S, Cover.GpsYaw_hList, Cover.GpsYaw_gain]
  generalize GpsYaw.HK9 st.f.P st.f.s _ _ _ = h9
  generalize GpsYaw.HK17 st.f.P st.f.s _ _ _ = h17
  generalize GpsYaw.HK19_inverse st.f.P st.f.s _ _ _ = h19
  generalize GpsYaw.S st.f.P st.f.s _ _ _ = S
  generalize GpsYaw.hList st.f.P st.f.s _ _ _ = l
  generalize GpsYaw.gain st.f.P st.f.s _ _ _ = k
  unfold gpsYawCore
  by_cases c1 : |antVecEf x.Rte x.off 2| > Real.cos (30 * (Real.pi / 180))
  · simp only [c1, if_true]
  by_cases c2 : |h9| < 1 / 1000
  · simp only [c1, c2, if_true, if_false]
  by_cases c3 : |h17| < 1 / 1000
  · simp only [c1, c2, c3, if_true, if_false]
  by_cases c4 : |h19| < 1 / 1000000
  · simp only [c1, c2, c3, c4, if_true, if_false]
  by_cases c5 : S < sq (max x.noise (1 / 100))
  · simp only [c1, c2, c3, c4, c5, if_true, if_false, c_initCov _ st.f ha]
  simp only [c1, c2, c3, c4, c5, if_false, sg_sparse, c_update]
  split
  · split
    · rfl
    · split <;> rfl
  · split <;> rfl

end

end Ecl.Whole
