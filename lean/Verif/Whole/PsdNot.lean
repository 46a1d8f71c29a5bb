import Verif.Whole.PsdFuse
import Verif.Cov.PredictProps3

/-!
# Wind-only airspeed fusion can make a valid covariance indefinite (C140)
-/

namespace Ecl.Whole

open Ecl.Cov Ecl.Fusion

/-- with forced symmetry the limiter averages the two covariances of a kinematic and a wind state -/
theorem fix_cross (x : FixIn ℝ) (hw : x.wind = true) (t : UInt64) (fl : Bool) (A : Mat ℝ) (i j : Fin N) (hi : i.val < 13) (hj : 22 ≤ j.val) :
    (fixCovarianceErrors x true t fl A).1 i j = (A i j + A j i) / 2 := by
  have hne : i ≠ j := by rintro rfl; omega
  have key : ∀ i' j' : Fin N, (i' = i ∧ j' = j) ∨ (i' = j ∧ j' = i) → (fixMag x.mag3D true (if (!x.inhibit 0 || !x.inhibit 1 || !x.inhibit 2) = true then
      fixAcc x true t (fixKin true A) else (fixKin true A, t, fl)).1) i' j' = (A i j + A j i) / 2 := by
    intro i' j' h
    have hne' : i' ≠ j' := by rcases h with ⟨rfl, rfl⟩ | ⟨rfl, rfl⟩ <;> [exact hne; exact hne.symm]
    have no : ∀ k w : ℕ, 13 ≤ k → k + w ≤ 22 → ¬(inBlk k w i' ∨ inBlk k w j') := by
      intro k w h1 h2
      unfold inBlk
      rcases h with ⟨rfl, rfl⟩ | ⟨rfl, rfl⟩ <;> omega
    have k1 : fixKin true A i' j' = (A i j + A j i) / 2 := by
      unfold fixKin makeSym mapDiag
      simp only [if_true]
      have hin : inBlk 0 13 i' ∨ inBlk 0 13 j' := by
        unfold inBlk
        rcases h with ⟨rfl, rfl⟩ | ⟨rfl, rfl⟩ <;> omega
      rw [if_pos ⟨hne', hin⟩]
      simp only [hne', hne'.symm, false_and, if_false]
      rcases h with ⟨rfl, rfl⟩ | ⟨rfl, rfl⟩
      · rfl
      · rw [add_comm]
    have k2 : ∀ Q : Mat ℝ, uncorr 13 3 Q i' j' = Q i' j' := fun Q => by unfold uncorr uncorrSet; rw [if_neg (no 13 3 (by omega) (by omega))]
    have k3 : ∀ (Q : Mat ℝ) (k w : ℕ), 13 ≤ k → k + w ≤ 22 → makeSym k w Q i' j' = Q i' j' := fun Q k w h1 h2 => by
      unfold makeSym; rw [if_neg fun c => no k w h1 h2 c.2]
    have k4 : ∀ (lo hi : ℝ) (Q : Mat ℝ), accClamp x.inhibit lo hi Q i' j' = Q i' j' := fun lo hi Q => by
      unfold accClamp; rw [if_neg fun c => hne' c.1]
    have k5 : (if (!x.inhibit 0 || !x.inhibit 1 || !x.inhibit 2) = true then fixAcc x true t (fixKin true A) else (fixKin true A, t, fl)).1 i' j' = (A i j + A j i) / 2 := by
      split
      · unfold fixAcc
        simp only [if_true]
        have k6 : (if (accScan x.inhibit (fixKin true A)).2 = true then uncorr 13 3 (accClamp x.inhibit (accFloor (accScan x.inhibit (fixKin true A)).1) (accCap x.dtEkfAvg) (fixKin true A))
            else accClamp x.inhibit (accFloor (accScan x.inhibit (fixKin true A)).1) (accCap x.dtEkfAvg) (fixKin true A)) i' j' = (A i j + A j i) / 2 := by
          split
          · rw [k2, k4, k1]
          · rw [k4, k1]
        generalize (if (accScan x.inhibit (fixKin true A)).2 = true then _ else _ : Mat ℝ) = Q at k6 ⊢
        generalize (if x.badAccBias = true then t else x.now) = t'
        split
        · exact (k2 Q).trans k6
        · exact (k3 Q 13 3 (by omega) (by omega)).trans k6
      · exact k1
    generalize (if (!x.inhibit 0 || !x.inhibit 1 || !x.inhibit 2) = true then fixAcc x true t (fixKin true A) else (fixKin true A, t, fl)).1 = Q at k5 ⊢
    unfold fixMag
    split
    · unfold zeroMagCov uncorrSet
      rw [if_neg (no 19 3 (by omega) (by omega)), if_neg (no 16 3 (by omega) (by omega)), k5]
    · simp only [if_true]
      rw [k3 _ 19 3 (by omega) (by omega), k3 _ 16 3 (by omega) (by omega)]
      unfold mapDiag
      simp only [hne', false_and, if_false, k5]
  have k1 := key i j (Or.inl ⟨rfl, rfl⟩)
  have k2 := key j i (Or.inr ⟨rfl, rfl⟩)
  unfold fixCovarianceErrors
  simp only
  generalize (fixMag x.mag3D true (if (!x.inhibit 0 || !x.inhibit 1 || !x.inhibit 2) = true then fixAcc x true t (fixKin true A) else (fixKin true A, t, fl)).1 : Mat ℝ) = Q at k1 k2 ⊢
  unfold fixWind
  rw [hw]
  unfold makeSym mapDiag
  simp only [hne, hne.symm, false_and, if_false, k1, k2, Bool.not_true, Bool.false_eq_true, if_true]
  split
  · ring
  · rfl

/-- flying north at 10 m/s without wind -/
noncomputable def notS : Vec ℝ := fun i => if i = 0 then 1 else if i = 4 then 10 else 0

/-- north velocity and north wind uncertain by 1 m/s, errors of opposite sign; 0.1 m/s and 0.1 m for the other velocities and position -/
noncomputable def notP : Mat ℝ := fun i j =>
  (if i = 4 then (1 : ℝ) else if i = 22 then -1 else 0) * (if j = 4 then 1 else if j = 22 then -1 else 0) +
  if i = j then (if i.val < 5 ∨ 10 ≤ i.val then 0 else 1 / 100) else 0

theorem notP_psd : Spec.PSD notP := by
  have h1 := psd_outer (K := ℝ) (c := 1) (fun i : Fin N => if i = 4 then (1 : ℝ) else if i = 22 then -1 else 0) (by norm_num)
  refine psd_congr (fun i j => ?_) (psd_add h1 (psd_diag (d := fun i : Fin N => if i.val < 5 ∨ 10 ≤ i.val then (0 : ℝ) else 1 / 100) fun i => ?_))
  · unfold notP; ring
  · show (0 : ℝ) ≤ if _ then _ else _
    split <;> norm_num

/-- gradient of the airspeed there -/
noncomputable def notH : Vec ℝ := fun i => if i = 4 then 1 else if i = 22 then -1 else 0

theorem notH_sum (y : Vec ℝ) : ∑ j, y j * notH j = y 4 - y 22 := by
  have e4 : (4 : Fin N) ≠ 22 := by decide
  have : ∀ j : Fin N, y j * notH j = (if j = 4 then y 4 else 0) - if j = 22 then y 22 else 0 := by
    intro j
    unfold notH
    by_cases c4 : j = 4
    · subst c4; simp [e4]
    · by_cases c22 : j = 22
      · subst c22; simp [e4.symm]
      · simp [c4, c22]
  simp only [this, Finset.sum_sub_distrib, Finset.sum_ite_eq', Finset.mem_univ, if_true]

theorem notH_grad (s : Vec ℝ) (hs : s = notS) (H : Vec ℝ) (h : Spec.IsGradient Spec.airspeed s H) : H = notH := by
  have hv : Spec.airspeed s = 10 := by
    rw [hs]
    unfold Spec.airspeed notS
    simp
  have e4 : (4 : Fin N) ≠ 22 := by decide
  have hg2 := airspeed_gradient s (fun _ _ => 0) 1 (by rw [hv]; norm_num)
  rw [hv] at hg2
  funext i
  have u := (h (Pi.single i 1)).unique (hg2 (Pi.single i 1))
  simp only [Pi.single_apply, mul_ite, mul_one, mul_zero, Finset.sum_ite_eq', Finset.mem_univ, if_true] at u
  rw [u, hs]
  have : sparse (Asp.hList (fun _ _ => 0) notS 1 10 0) i = (if 4 = i then 1 else 0) + if 22 = i then -1 else 0 := by
    simp [sparse, Asp.hList, Asp.HK4, Asp.HK5, Asp.HK3, Asp.HK1, Asp.HK0, notS]
  rw [this]
  unfold notH
  by_cases c4 : i = 4
  · subst c4; rw [if_pos rfl, if_pos rfl, if_neg e4.symm, add_zero]
  · rw [if_neg (Ne.symm c4), if_neg c4, zero_add]
    by_cases c22 : i = 22
    · subst c22; rw [if_pos rfl]
    · rw [if_neg (Ne.symm c22), if_neg c22]

theorem notP_val : notP 4 4 = 1 ∧ notP 4 22 = -1 ∧ notP 22 4 = -1 ∧ notP 22 22 = 1 := by
  have e4 : (22 : Fin N) ≠ 4 := by decide
  unfold notP
  refine ⟨?_, ?_, ?_, ?_⟩ <;> simp [e4, e4.symm, N]

/-- airspeed fusion while other aiding is in use: airspeed noise 1 m/s, wind estimated, measured 10 m/s -/
noncomputable def notX (fx : FixIn ℝ) (ini : InitIn) (wr : WindResetIn) : AspIn := ⟨1, 1, 10, 3, 0, false, fx, ini, wr⟩

/-- **C140 (why airspeed needs wind dead reckoning).** While other aiding is in use airspeed fusion corrects only the wind states; the covariance is then corrected as if the gain were the optimal one.
From a valid covariance (north velocity and wind errors of opposite sign, 1 m/s each) an accepted measurement leaves a matrix with a negative variance:
that of north velocity plus twice the north wind is -0.6. -/
theorem wind_only_airspeed_indefinite (fx : FixIn ℝ) (hw : fx.wind = true) (ini : InitIn) (wr : WindResetIn) (st : AspSt) (hs : st.f.s = notS) (hP : st.f.P = notP) :
    Spec.PSD st.f.P ∧ (fuseAirspeed (notX fx ini wr) st).reject = false ∧ (fuseAirspeed (notX fx ini wr) st).bad = false ∧
    let P' := (fuseAirspeed (notX fx ini wr) st).f.P
    P' 4 4 + 2 * (2 * P' 4 22) + 2 * 2 * P' 22 22 = -3 / 5 ∧ ¬∀ v : Fin N → ℝ, 0 ≤ ∑ i, ∑ j, v i * P' i j * v j := by
  have hpsd : Spec.PSD st.f.P := hP ▸ notP_psd
  have hv : Spec.airspeed st.f.s = 10 := by
    rw [hs]
    unfold Spec.airspeed notS
    simp
  have e4 : (4 : Fin N) ≠ 22 := by decide
  obtain ⟨p1, p2, p3, p4⟩ := notP_val
  obtain ⟨H, hgr, -, -, h3⟩ := (airspeed_fusion (notX fx ini wr) st hpsd.symm).2 (by rw [hv]; norm_num)
  rw [notH_grad _ hs H hgr] at h3
  have hR' : Spec.airspeedVar (notX fx ini wr).easNoise (notX fx ini wr).eas2tas = 1 := by
    show Spec.airspeedVar 1 1 = 1
    unfold Spec.airspeedVar; norm_num
  rw [hR'] at h3
  have hmv : ∀ i, Spec.mulVec st.f.P notH i = st.f.P i 4 - st.f.P i 22 := fun i => notH_sum _
  have hS : Spec.innovVar st.f.P notH 1 = 5 := by
    unfold Spec.innovVar
    rw [form_eq_mulVec]
    simp only [hmv]
    rw [show ∑ i, notH i * (st.f.P i 4 - st.f.P i 22) = ∑ i, (st.f.P i 4 - st.f.P i 22) * notH i from Finset.sum_congr rfl fun i _ => mul_comm _ _, notH_sum, hP]
    norm_num [p1, p2, p3, p4]
  have h3 := h3 (by rw [hS]; norm_num) (by rw [hv, hS]; simp [notX])
  have ha := (update_applied fx notH 1 one_pos (fun i => (notX fx ini wr).windDR = true ∨ 22 ≤ i.val) (Spec.airspeed st.f.s - (notX fx ini wr).tas) st.f hpsd).1
  rw [h3]
  refine ⟨hpsd, rfl, by show (!_) = false; rw [show (notX fx ini wr).fx = fx from rfl, ha]; rfl, ?_⟩
  have hk : ∀ i : Fin N, Spec.gain st.f.P notH 1 (fun i => (notX fx ini wr).windDR = true ∨ 22 ≤ i.val) i = if 22 ≤ i.val then (st.f.P i 4 - st.f.P i 22) / 5 else 0 := by
    intro i
    unfold Spec.gain
    rw [hmv, hS]
    simp [notX]
  intro P'
  have hup : P' = (measurementUpdate fx (Spec.gain st.f.P notH 1 fun i => (notX fx ini wr).windDR = true ∨ 22 ≤ i.val) notH st.f.timeCheck st.f.badAccBias st.f.P).1 := by
    show (update fx _ _ _ _).1.P = _
    unfold update
    split <;> rename_i heq <;> rw [heq]
  have hacc := optimal_gain_accepted fx notH 1 one_pos st.f.P hpsd (Spec.gain st.f.P notH 1 fun i => (notX fx ini wr).windDR = true ∨ 22 ≤ i.val)
    (fun i => by unfold Spec.gain; split <;> simp) st.f.timeCheck st.f.badAccBias
  obtain ⟨m1, m2⟩ := measurementUpdate_spec fx (Spec.gain st.f.P notH 1 fun i => (notX fx ini wr).windDR = true ∨ 22 ≤ i.val) notH st.f.timeCheck st.f.badAccBias st.f.P
  have hfix := (m1 (by
    by_contra hc
    rw [m2 hc] at hacc
    exact absurd hacc (by simp))).2
  rw [← hup] at hfix
  have hcol : ∀ j, ∑ l, notH l * st.f.P l j = st.f.P 4 j - st.f.P 22 j := fun j => by
    rw [← notH_sum fun l => st.f.P l j]; exact Finset.sum_congr rfl fun l _ => mul_comm _ _
  have hno : ∀ i : Fin N, (i = 4 ∨ i = 22) → ¬∃ a : Fin 3, fx.inhibit a = true ∧ i.val = 13 + a.val := by
    rintro i hi ⟨a, -, ha⟩
    have : a.val < 3 := a.isLt
    rcases hi with rfl | rfl
    · have : (4 : ℕ) = 13 + a.val := ha
      omega
    · have : (22 : ℕ) = 13 + a.val := ha
      omega
  have q44 : P' 4 4 = 1 := by
    rw [hfix, (fix_variance_limits fx true _ _ _ 4).2.1 (by decide) (by decide)]
    beta_reduce
    rw [if_neg (hno 4 (Or.inl rfl)), hk, if_neg (by decide), zero_mul, sub_zero, hP, p1]
    norm_num
  have q22 : P' 22 22 = 1 / 5 := by
    rw [hfix, (fix_variance_limits fx true _ _ _ 22).2.2.2.2 (by decide), if_pos hw]
    beta_reduce
    rw [if_neg (hno 22 (Or.inr rfl)), hk, if_pos (by decide), hcol, hP, p2, p3, p4]
    norm_num
  have q42 : P' 4 22 = -3 / 5 := by
    rw [hfix, fix_cross fx hw _ _ _ 4 22 (by decide) (by decide)]
    beta_reduce
    rw [if_neg (hno 22 (Or.inr rfl)), if_neg (hno 4 (Or.inl rfl)), hk, hk, if_neg (by decide), if_pos (by decide), hcol, hcol,
      hP, p1, p2, p3, p4]
    norm_num
  have neg : P' 4 4 + 2 * (2 * P' 4 22) + 2 * 2 * P' 22 22 = -3 / 5 := by rw [q44, q22, q42]; norm_num
  refine ⟨neg, fun hall => ?_⟩
  have hsy : ∀ i j, P' i j = P' j i := fun i j => update_sym _ _ _ _ _ hpsd.symm i j
  have := psd_minor (P := P') ⟨hsy, hall⟩ 4 22 e4 1 2
  linarith

end Ecl.Whole
