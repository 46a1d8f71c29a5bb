import Verif.Cov.QuatCov
import Verif.Cov.BookkeepProps2

/-!
# Initial covariance and bias resets (C80, C81) — EKF/covariance.cpp:53-99, EKF/ekf_helper.cpp:875-918, 1286-1294
-/

namespace Ecl.Cov

noncomputable section

/-- parameters and flags read by `initialiseCovariance` -/
structure InitIn where
  quat : Quat ℝ
  tiltErr : ℝ
  gpsVelNoise : ℝ
  gpsPosNoise : ℝ
  posNoaidNoise : ℝ
  rangeNoise : ℝ
  baroNoise : ℝ
  gpsVacc : ℝ
  rngHgt : Bool
  gpsHgt : Bool
  switchOnGyroBias : ℝ
  switchOnAccelBias : ℝ
  magNoise : ℝ
  initialWindUnc : ℝ

/-- `getGpsHeightVariance`, EKF/ekf_helper.cpp:1286-1294 -/
def gpsHeightVariance (posNoise noaidNoise vacc : ℝ) : ℝ :=
  let lower := max (15 / 10 * posNoise) (1 / 100)
  let upper := max (15 / 10 * noaidNoise) lower
  sq (constrain vacc lower upper)

/-- assignment of one diagonal element -/
def setDiag (k : Fin N) (v : ℝ) (P : Mat ℝ) : Mat ℝ := fun i j => if i = k ∧ j = k then v else P i j

/-- `initialiseCovariance`, EKF/covariance.cpp:53-99: covariance and magnetometer bookkeeping; `_prev_dvel_bias_var` second -/
def initialiseCovariance (x : InitIn) (s : MagState ℝ) : MagState ℝ × (Fin 3 → ℝ) :=
  let P : Mat ℝ := resetQuatCov x.quat x.tiltErr (fun _ _ => 0)
  let P := setDiag 4 (sq (max x.gpsVelNoise (1 / 100))) P
  let P := setDiag 5 (P 4 4) P
  let P := setDiag 6 (sq (15 / 10) * P 4 4) P
  let P := setDiag 7 (sq (max x.gpsPosNoise (1 / 100))) P
  let P := setDiag 8 (P 7 7) P
  let P := setDiag 9 (if x.rngHgt then sq (max x.rangeNoise (1 / 100))
    else if x.gpsHgt then gpsHeightVariance x.gpsPosNoise x.posNoaidNoise x.gpsVacc
    else sq (max x.baroNoise (1 / 100))) P
  let P := setDiag 10 (sq (x.switchOnGyroBias * filterPeriod)) P
  let P := setDiag 11 (P 10 10) P
  let P := setDiag 12 (P 10 10) P
  let P := setDiag 13 (sq (x.switchOnAccelBias * filterPeriod)) P
  let P := setDiag 14 (P 13 13) P
  let P := setDiag 15 (P 13 13) P
  let prev : Fin 3 → ℝ := fun a => P (accIdx a) (accIdx a)
  let s := resetMagCov x.magNoise { s with P := P }
  let P := setDiag 22 (sq x.initialWindUnc) s.P
  let P := setDiag 23 (P 22 22) P
  ({ s with P := P }, prev)

/-- **C80 (GPS height variance).** The receiver accuracy limited below by 1.5 times the position noise (at least 1 cm) and
above by 1.5 times the no-aiding noise. -/
theorem gpsHeightVariance_spec (p n v : ℝ) :
    gpsHeightVariance p n v = (max (max (3 / 2 * p) (1 / 100)) (min v (max (3 / 2 * n) (max (3 / 2 * p) (1 / 100))))) ^ 2 ∧
    (1 / 100) ^ 2 ≤ gpsHeightVariance p n v := by
  have e : gpsHeightVariance p n v = (max (max (3 / 2 * p) (1 / 100)) (min v (max (3 / 2 * n) (max (3 / 2 * p) (1 / 100))))) ^ 2 := by
    unfold gpsHeightVariance
    simp only
    rw [show (15 / 10 : ℝ) = 3 / 2 by norm_num, constrain_eq (le_max_right _ _)]
    unfold sq; ring
  refine ⟨e, ?_⟩
  rw [e]
  have : (1 / 100 : ℝ) ≤ max (max (3 / 2 * p) (1 / 100)) (min v (max (3 / 2 * n) (max (3 / 2 * p) (1 / 100)))) :=
    le_trans (le_max_right _ _) (le_max_left _ _)
  exact pow_le_pow_left₀ (by norm_num) this 2

/-- documented initial standard deviations -/
def Spec.initialSd (x : InitIn) (i : Fin N) : ℝ :=
  if i.val < 6 then max x.gpsVelNoise (1 / 100)
  else if i.val = 6 then 3 / 2 * max x.gpsVelNoise (1 / 100)
  else if i.val < 9 then max x.gpsPosNoise (1 / 100)
  else if i.val = 9 then
    (if x.rngHgt then max x.rangeNoise (1 / 100)
     else if x.gpsHgt then max (max (3 / 2 * x.gpsPosNoise) (1 / 100))
       (min x.gpsVacc (max (3 / 2 * x.posNoaidNoise) (max (3 / 2 * x.gpsPosNoise) (1 / 100))))
     else max x.baroNoise (1 / 100))
  else if i.val < 13 then x.switchOnGyroBias / 100
  else if i.val < 16 then x.switchOnAccelBias / 100
  else if i.val < 22 then x.magNoise
  else x.initialWindUnc

theorem init_apply (x : InitIn) (s : MagState ℝ) (i j : Fin N) :
    (initialiseCovariance x s).1.P i j =
      if i.val < 4 ∨ j.val < 4 then resetQuatCov x.quat x.tiltErr (fun _ _ => 0) i j
      else if i = j then Spec.initialSd x i ^ 2 else 0 := by
  have hq : ∀ i j : Fin N, ¬ (i.val < 4 ∨ j.val < 4) → resetQuatCov x.quat x.tiltErr (fun _ _ => 0) i j = 0 := by
    intro i j h
    unfold resetQuatCov
    rw [(initQuatCov_spec _ _ _ i j).2.1 (by omega) (by omega)]
    simp [uncorrSet]
  have hmag : ∀ (s' : MagState ℝ) (i j : Fin N), (resetMagCov x.magNoise s').P i j =
      (if (16 ≤ i.val ∧ i.val < 22) ∨ (16 ≤ j.val ∧ j.val < 22) then (if i = j then x.magNoise ^ 2 else 0) else s'.P i j) :=
    fun s' i j => (resetMagCov_spec x.magNoise s' i j).1
  have hfin : ∀ (k : Fin N) (n : ℕ) (hn : n < 24), k = ⟨n, hn⟩ ↔ k.val = n := by
    intro k n hn; rw [Fin.ext_iff]
  have hgps : gpsHeightVariance x.gpsPosNoise x.posNoaidNoise x.gpsVacc = _ := (gpsHeightVariance_spec _ _ _).1
  have hii : i.val < 24 := i.isLt
  simp only [initialiseCovariance, setDiag, hmag]
  have lit : ∀ (k : Fin N), (k = 4 ↔ k.val = 4) ∧ (k = 5 ↔ k.val = 5) ∧ (k = 6 ↔ k.val = 6) ∧ (k = 7 ↔ k.val = 7) ∧
      (k = 8 ↔ k.val = 8) ∧ (k = 9 ↔ k.val = 9) ∧ (k = 10 ↔ k.val = 10) ∧ (k = 11 ↔ k.val = 11) ∧ (k = 12 ↔ k.val = 12) ∧
      (k = 13 ↔ k.val = 13) ∧ (k = 14 ↔ k.val = 14) ∧ (k = 15 ↔ k.val = 15) ∧ (k = 22 ↔ k.val = 22) ∧ (k = 23 ↔ k.val = 23) := by
    intro k
    refine ⟨?_, ?_, ?_, ?_, ?_, ?_, ?_, ?_, ?_, ?_, ?_, ?_, ?_, ?_⟩ <;> rw [Fin.ext_iff] <;> rfl
  by_cases h4 : i.val < 4 ∨ j.val < 4
  · rw [if_pos h4]
    by_cases hm : (16 ≤ i.val ∧ i.val < 22) ∨ (16 ≤ j.val ∧ j.val < 22)
    · have nij : i ≠ j := by rintro rfl; omega
      have hz : resetQuatCov x.quat x.tiltErr (fun _ _ => 0) i j = 0 := by
        unfold resetQuatCov
        rcases h4 with h | h
        · exact ((initQuatCov_spec _ _ _ i j).1 h (by omega)).1
        · exact ((initQuatCov_spec _ _ _ j i).1 h (by omega)).2
      simp only [lit, hz, hm, nij, if_true, if_false]
      rw [if_neg (by omega), if_neg (by omega)]
    · simp only [lit, hm, if_false]
      rw [if_neg (by omega), if_neg (by omega), if_neg (by omega), if_neg (by omega), if_neg (by omega), if_neg (by omega),
        if_neg (by omega), if_neg (by omega), if_neg (by omega), if_neg (by omega), if_neg (by omega), if_neg (by omega),
        if_neg (by omega), if_neg (by omega)]
  · rw [if_neg h4]
    by_cases e : i = j
    · subst e
      rw [if_pos rfl]
      have hz := hq i i h4
      have h4' : 4 ≤ i.val := by omega
      obtain ⟨i, hi⟩ := i
      have hi' : i < 24 := hi
      simp only at h4' hz
      interval_cases i <;>
        simp [Spec.initialSd, sq, filterPeriod, hgps, Fin.ext_iff, N, Fin.val_ofNat] <;> first | rfl | ring | (split_ifs <;> ring) | skip
    · rw [if_neg e]
      have hne : ∀ n : ℕ, ¬ (i.val = n ∧ j.val = n) := by
        rintro n ⟨a, b⟩; exact e (Fin.ext (a.trans b.symm))
      simp only [lit, hne, e, if_false, hq i j h4, ite_self]

/-- **C80.** Initial covariance: every state outside the attitude block has the documented variance and is uncorrelated
with every other state; the attitude block is that of `resetQuatCov` and is uncorrelated with the rest. -/
theorem init_spec (x : InitIn) (s : MagState ℝ) (i j : Fin N) :
    (4 ≤ i.val → 4 ≤ j.val → (initialiseCovariance x s).1.P i j = if i = j then Spec.initialSd x i ^ 2 else 0) ∧
    (i.val < 4 → 4 ≤ j.val → (initialiseCovariance x s).1.P i j = 0 ∧ (initialiseCovariance x s).1.P j i = 0) ∧
    (i.val < 4 → j.val < 4 → (initialiseCovariance x s).1.P i j = resetQuatCov x.quat x.tiltErr (fun _ _ => 0) i j) ∧
    (∀ a, (initialiseCovariance x s).2 a = (x.switchOnAccelBias / 100) ^ 2) := by
  refine ⟨fun h h' => ?_, fun h h' => ?_, fun h h' => ?_, fun a => ?_⟩
  · rw [init_apply, if_neg (by omega)]
  · rw [init_apply, if_pos (Or.inl h), init_apply, if_pos (Or.inr h)]
    unfold resetQuatCov
    exact (initQuatCov_spec _ _ _ i j).1 h h'
  · rw [init_apply, if_pos (Or.inl h)]
  · have e : sq (x.switchOnAccelBias * filterPeriod) = (x.switchOnAccelBias / 100) ^ 2 := by unfold sq filterPeriod; ring
    have a0 : (accIdx 0 : Fin N) = 13 := rfl
    have a1 : (accIdx 1 : Fin N) = 14 := rfl
    have a2 : (accIdx 2 : Fin N) = 15 := rfl
    have n1 : (13 : Fin N) ≠ 14 := by decide
    have n2 : (13 : Fin N) ≠ 15 := by decide
    have n3 : (14 : Fin N) ≠ 15 := by decide
    simp only [initialiseCovariance, e]
    generalize setDiag 12 _ _ = Q
    fin_cases a
    · show setDiag 15 _ (setDiag 14 _ (setDiag 13 _ Q)) (accIdx 0) (accIdx 0) = _
      simp only [setDiag, a0, n1, n2, and_self, if_true, if_false]
    · show setDiag 15 _ (setDiag 14 _ (setDiag 13 _ Q)) (accIdx 1) (accIdx 1) = _
      simp only [setDiag, a1, n3, and_self, if_true, if_false]
    · show setDiag 15 _ (setDiag 14 _ (setDiag 13 _ Q)) (accIdx 2) (accIdx 2) = _
      simp only [setDiag, a2, n1, and_self, if_true, if_false]

/-- **C80 (validity).** The initial covariance is valid. -/
theorem init_valid (x : InitIn) (s : MagState ℝ) : Spec.PSD (initialiseCovariance x s).1.P := by
  have h0 : Spec.PSD (fun _ _ : Fin N => (0 : ℝ)) := psd_congr (fun _ _ => by simp) (psd_diag (d := fun _ => (0 : ℝ)) fun _ => le_rfl)
  have hq : Spec.PSD (resetQuatCov x.quat x.tiltErr (fun _ _ => 0)) :=
    initQuatCov_valid _ _ (fun _ => mul_self_nonneg _) _ (psd_uncorrSet (psd_uncorrSet h0 fun _ _ => le_rfl) fun _ _ => le_rfl)
  have hd : Spec.PSD (fun i j : Fin N => if i = j then (if i.val < 4 then 0 else Spec.initialSd x i ^ 2) else 0) :=
    psd_diag fun i => by split; exacts [le_rfl, sq_nonneg _]
  refine psd_congr (fun i j => ?_) (psd_add (psd_mask hq fun i : Fin N => ¬ i.val < 4) hd)
  obtain ⟨k1, k2, k3, -⟩ := init_spec x s i j
  by_cases hi : i.val < 4 <;> by_cases hj : j.val < 4
  · rw [k3 hi hj, if_neg (by tauto)]; simp [hi]
  · rw [(k2 hi (by omega)).1, if_pos (by tauto)]; simp [hi]
  · rw [((init_spec x s j i).2.1 hj (by omega)).2, if_pos (by tauto), if_neg (by rintro rfl; exact hi hj)]; ring
  · rw [k1 (by omega) (by omega), if_pos (Or.inl hi), if_neg hi]; ring

/-! ### C81: bias resets -/

/-- `resetGyroBias`, EKF/ekf_helper.cpp:881-889: delta angle bias and covariance -/
def resetGyroBias (switchOn : ℝ) (P : Mat ℝ) : (Fin 3 → ℝ) × Mat ℝ :=
  (fun _ => 0, uncorrSet 10 3 (fun _ => sq (switchOn * filterPeriod)) P)

/-- `resetAccelBias`, EKF/ekf_helper.cpp:891-902: delta velocity bias, covariance, `_prev_dvel_bias_var` -/
def resetAccelBias (switchOn : ℝ) (P : Mat ℝ) : (Fin 3 → ℝ) × Mat ℝ × (Fin 3 → ℝ) :=
  let P := uncorrSet 13 3 (fun _ => sq (switchOn * filterPeriod)) P
  (fun _ => 0, P, fun a => P (accIdx a) (accIdx a))

/-- `resetMagBias`, EKF/ekf_helper.cpp:904-918: body field and state -/
def resetMagBias (magNoise : ℝ) (s : MagState ℝ) : (Fin 3 → ℝ) × MagState ℝ :=
  (fun _ => 0, { s with P := uncorrSet 19 3 (fun _ => sq magNoise) s.P,
                        saved := { s.saved with bf := fun i => if i.val = 0 then s.saved.bf i else 0 } })

/-- **C81.** A bias reset zeroes the three bias states, sets their variances to the initial-alignment value, removes
their correlations and changes nothing else; validity is kept. -/
theorem bias_reset_spec (sw : ℝ) (P : Mat ℝ) (i j : Fin N) :
    (∀ a, (resetGyroBias sw P).1 a = 0) ∧ (∀ a, (resetAccelBias sw P).1 a = 0) ∧
    (resetGyroBias sw P).2 i j = (if (10 ≤ i.val ∧ i.val < 13) ∨ (10 ≤ j.val ∧ j.val < 13) then (if i = j then (sw / 100) ^ 2 else 0)
      else P i j) ∧
    (resetAccelBias sw P).2.1 i j = (if (13 ≤ i.val ∧ i.val < 16) ∨ (13 ≤ j.val ∧ j.val < 16) then
      (if i = j then (sw / 100) ^ 2 else 0) else P i j) ∧
    (∀ a, (resetAccelBias sw P).2.2 a = (sw / 100) ^ 2) ∧
    (Spec.PSD P → Spec.PSD (resetGyroBias sw P).2 ∧ Spec.PSD (resetAccelBias sw P).2.1) := by
  have hs : sq (sw * filterPeriod) = (sw / 100) ^ 2 := by unfold sq filterPeriod; ring
  refine ⟨fun _ => rfl, fun _ => rfl, ?_, ?_, fun a => ?_, fun hP => ⟨?_, ?_⟩⟩
  · simp only [resetGyroBias, uncorrSet, hs]
  · simp only [resetAccelBias, uncorrSet, hs]
  · simp only [resetAccelBias]
    rw [uncorrSet_diag, if_pos (by have := a.isLt; simp only [inBlk, accIdx]; omega), hs]
  · exact psd_uncorrSet hP fun _ _ => mul_self_nonneg _
  · exact psd_uncorrSet hP fun _ _ => mul_self_nonneg _

/-- **C81 (finding).** A magnetometer bias reset in heading mode sets the body-field variances to the squared noise in the
current covariance, but zeroes the stored ones: the next 3-axis start uses zero variances for the body field, i.e. treats
the bias as perfectly known. -/
theorem resetMagBias_then_start (noise : ℝ) (s : MagState ℝ) (h : s.mag3D = false) (Q : Mat ℝ) (i : Fin N) (hi : 19 ≤ i.val)
    (hi' : i.val < 22) :
    (∀ a, (resetMagBias noise s).1 a = 0) ∧ (resetMagBias noise s).2.P i i = noise ^ 2 ∧
    (startMag3D { (resetMagBias noise s).2 with P := Q }).P i i = 0 := by
  refine ⟨fun _ => rfl, ?_, ?_⟩
  · simp only [resetMagBias]
    rw [uncorrSet_diag, if_pos (by unfold inBlk; omega)]; unfold sq; ring
  · simp only [startMag3D, resetMagBias, stopMagHdg, h, Bool.not_false, if_true, loadMagCov]
    rw [dif_neg (by omega), dif_pos ⟨trivial, by omega, hi'⟩, if_neg (by show ¬ (i.val - 18 = 0); omega)]

/-- Non-vacuity: default-like parameters. -/
example : ∃ x : InitIn, x.rngHgt = false ∧ x.gpsHgt = false ∧ Spec.initialSd x 9 = 2 :=
  ⟨⟨⟨1, 0, 0, 0⟩, 1 / 10, 1 / 2, 1 / 2, 10, 1 / 10, 2, 3, false, false, 1 / 10, 1 / 5, 1 / 20, 1⟩, rfl, rfl, by
    norm_num [Spec.initialSd, N, Fin.val_ofNat]⟩

end

end Ecl.Cov
