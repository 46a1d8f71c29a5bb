import Verif.Whole.PsdNot
import Verif.Fusion.Bounded

/-!
# Optical flow fusion can make a valid covariance indefinite (C140)

EKF/optflow_fusion.cpp:50-330: the gain of the second axis is computed from the covariance before the first axis was fused.
-/

namespace Ecl.Whole

open Ecl.Cov Ecl.Fusion

/-- with forced symmetry the limiter averages the two covariances of two kinematic states -/
theorem fix_kin_cross (x : FixIn ℝ) (t : UInt64) (fl : Bool) (A : Mat ℝ) (i j : Fin N) (hne : i ≠ j) (hi : i.val < 13) (hj : j.val < 13) :
    (fixCovarianceErrors x true t fl A).1 i j = (A i j + A j i) / 2 := by
  have no : ∀ k w : ℕ, 13 ≤ k → ¬(inBlk k w i ∨ inBlk k w j) := by
    intro k w h1
    unfold inBlk; omega
  have k1 : fixKin true A i j = (A i j + A j i) / 2 := by
    unfold fixKin makeSym mapDiag
    simp only [if_true]
    have hin : inBlk 0 13 i ∨ inBlk 0 13 j := by unfold inBlk; omega
    rw [if_pos ⟨hne, hin⟩]
    simp only [hne, hne.symm, false_and, if_false]
  have k2 : ∀ Q : Mat ℝ, uncorr 13 3 Q i j = Q i j := fun Q => by unfold uncorr uncorrSet; rw [if_neg (no 13 3 (by omega))]
  have k3 : ∀ (Q : Mat ℝ) (k w : ℕ), 13 ≤ k → makeSym k w Q i j = Q i j := fun Q k w h1 => by
    unfold makeSym; rw [if_neg fun c => no k w h1 c.2]
  have k4 : ∀ (lo hi : ℝ) (Q : Mat ℝ), accClamp x.inhibit lo hi Q i j = Q i j := fun lo hi Q => by
    unfold accClamp; rw [if_neg fun c => hne c.1]
  have k5 : (if (!x.inhibit 0 || !x.inhibit 1 || !x.inhibit 2) = true then fixAcc x true t (fixKin true A) else (fixKin true A, t, fl)).1 i j = (A i j + A j i) / 2 := by
    split
    · unfold fixAcc
      simp only [if_true]
      have k6 : (if (accScan x.inhibit (fixKin true A)).2 = true then uncorr 13 3 (accClamp x.inhibit (accFloor (accScan x.inhibit (fixKin true A)).1) (accCap x.dtEkfAvg) (fixKin true A))
          else accClamp x.inhibit (accFloor (accScan x.inhibit (fixKin true A)).1) (accCap x.dtEkfAvg) (fixKin true A)) i j = (A i j + A j i) / 2 := by
        split
        · rw [k2, k4, k1]
        · rw [k4, k1]
      generalize (if (accScan x.inhibit (fixKin true A)).2 = true then _ else _ : Mat ℝ) = Q at k6 ⊢
      generalize (if x.badAccBias = true then t else x.now) = t'
      split
      · exact (k2 Q).trans k6
      · exact (k3 Q 13 3 (by omega)).trans k6
    · exact k1
  show fixWind x.wind true (fixMag x.mag3D true (if (!x.inhibit 0 || !x.inhibit 1 || !x.inhibit 2) = true then fixAcc x true t (fixKin true A) else (fixKin true A, t, fl)).1) i j = _
  generalize (if (!x.inhibit 0 || !x.inhibit 1 || !x.inhibit 2) = true then fixAcc x true t (fixKin true A) else (fixKin true A, t, fl)) = Q at k5 ⊢
  have k7 : fixMag x.mag3D true Q.1 i j = (A i j + A j i) / 2 := by
    unfold fixMag
    split
    · unfold zeroMagCov uncorrSet
      rw [if_neg (no 19 3 (by omega)), if_neg (no 16 3 (by omega)), k5]
    · simp only [if_true]
      rw [k3 _ 19 3 (by omega), k3 _ 16 3 (by omega)]
      unfold mapDiag
      simp only [hne, false_and, if_false, k5]
  unfold fixWind
  split
  · unfold uncorrSet
    rw [if_neg (no 22 2 (by omega)), k7]
  · simp only [if_true]
    rw [k3 _ 22 2 (by omega)]
    unfold mapDiag
    rw [if_neg fun c => hne c.1, k7]

/-- level, at rest, one metre above the terrain; no flow measured; default noise 0.15 rad/s at full quality -/
noncomputable def flowX (fx : FixIn ℝ) (ini : InitIn) : FlowIn :=
  ⟨1 / 10, 0, 0, 0, 1 / 10, 255, 0, 0, 1, 1, 3, 15 / 100, 1 / 2, 1, 0, exFx fx, ini⟩

/-- **C140 (why optical flow is excluded).** The gain of the second flow axis is computed from the covariance before the first axis was fused.  From a valid
covariance (north and east velocity variances of 100, correlation 0.7, everything else uncorrelated), level and at rest one metre above the ground with perfect measurements, an accepted and
healthy fusion leaves a matrix in which the sum of north and east velocity has a variance below -35. -/
theorem flow_indefinite (fx : FixIn ℝ) (ini : InitIn) (st : FlowSt) (hf : st.f = (exAt (exCov 5 4)).f) :
    Spec.PSD st.f.P ∧ (∀ a, (fuseOptFlow (flowX fx ini) st).reject a = false) ∧ (∀ a, (fuseOptFlow (flowX fx ini) st).bad a = false) ∧
    let P' := (fuseOptFlow (flowX fx ini) st).f.P
    P' 4 4 + 2 * P' 4 5 + P' 5 5 < -35 ∧ ¬∀ v : Fin N → ℝ, 0 ≤ ∑ i, ∑ j, v i * P' i j * v j := by
  have hP : Spec.PSD st.f.P := by rw [hf]; exact exCov_psd 5 4
  have hPe : st.f.P = exCov 5 4 := by rw [hf]; rfl
  have hs : ∀ i : Fin N, st.f.s i = if i = 0 then 1 else 0 := fun i => by rw [hf]; rfl
  have s0 : st.f.s 0 = 1 := hs 0
  have sz : ∀ i : Fin N, i ≠ 0 → st.f.s i = 0 := fun i hi => by rw [hs]; exact if_neg hi
  have hr : Spec.flowRange (flowX fx ini) st.f.s = 1 := by
    unfold Spec.flowRange
    have : (attQuat st.f.s).dcm 2 2 = 1 := by simp [attQuat, hs, Quat.dcm]
    rw [this, sz 9 (by decide)]
    simp [flowX]
    norm_num
  have hR : flowMeasVar (flowX fx ini) = 9 / 400 := by
    rw [(flow_variance (flowX fx ini)).2.2.1 rfl (by show (1 : ℤ) ≤ 254; norm_num)]
    show (max (15 / 100 : ℝ) (1 / 20)) ^ 2 = _
    rw [max_eq_left (by norm_num)]; norm_num
  have hinn : ∀ a, Spec.flowInnov (flowX fx ini) st.f.s a = 0 := by
    intro a
    unfold Spec.flowInnov
    have : (![st.f.s 4, st.f.s 5, st.f.s 6] : V3 ℝ) = 0 := by
      rw [sz 4 (by decide), sz 5 (by decide), sz 6 (by decide)]; funext i; fin_cases i <;> rfl
    rw [this]
    have : (cross3 (-(1 / (flowX fx ini).dt) • (flowX fx ini).gyro) ((flowX fx ini).flowPosBody - (flowX fx ini).imuPosBody) : V3 ℝ) = 0 := by
      funext i; fin_cases i <;> simp [cross3, flowX]
    rw [this]
    simp [flowX]
  obtain ⟨H, hH, -, -, h⟩ := flow_fusion (flowX fx ini) st hP.symm
  have g0 : Spec.IsGradient (Spec.flowPred 1 0) st.f.s (Spec.pick 5) := by
    intro d
    simp only [Spec.flowPred, if_true, bodyVel_1]
    refine hasDerivAt_of_cubic (b := ∑ i, Spec.pick 5 i * d i) fun t => ?_
    have : ∑ i, Spec.pick 5 i * d i = d 5 := by unfold Spec.pick; simp
    rw [this, s0, sz 1 (by decide), sz 2 (by decide), sz 3 (by decide), sz 4 (by decide), sz 5 (by decide), sz 6 (by decide)]
    ring
  have g1 : Spec.IsGradient (Spec.flowPred 1 1) st.f.s (fun i => -Spec.pick 4 i) := by
    intro d
    simp only [Spec.flowPred, one_ne_zero, if_false, bodyVel_0]
    refine hasDerivAt_of_cubic (b := ∑ i, -Spec.pick 4 i * d i) fun t => ?_
    have : ∑ i, -Spec.pick 4 i * d i = -d 4 := by unfold Spec.pick; simp
    rw [this, s0, sz 1 (by decide), sz 2 (by decide), sz 3 (by decide), sz 4 (by decide), sz 5 (by decide), sz 6 (by decide)]
    ring
  rw [hr] at hH
  have hu : ∀ {f : Vec ℝ → ℝ} {G G' : Vec ℝ}, Spec.IsGradient f st.f.s G → Spec.IsGradient f st.f.s G' → G = G' := by
    intro f G G' a b
    funext j
    have := (a (Pi.single j 1)).unique (b (Pi.single j 1))
    simpa [Pi.single_apply] using this
  have H0 : H 0 = Spec.pick 5 := hu (hH 0) g0
  have H1 : H 1 = fun i => -Spec.pick 4 i := hu (hH 1) g1
  obtain ⟨rej, r1, -, h2⟩ := h (innovVar_ge hP _ _) (innovVar_ge hP _ _)
  rw [hR] at r1 h2
  have hnf : ∀ a, ¬ (max (flowX fx ini).gate 1) ^ 2 * Spec.innovVar st.f.P (H a) (9 / 400) < Spec.flowInnov (flowX fx ini) st.f.s a ^ 2 := by
    intro a
    rw [hinn a, not_lt]
    have := innovVar_ge hP (H a) (9 / 400)
    have : (0 : ℝ) ≤ Spec.innovVar st.f.P (H a) (9 / 400) := le_trans (by norm_num) this
    nlinarith [sq_nonneg (max (flowX fx ini).gate 1)]
  have hfu := h2 hnf
  dsimp only at hfu
  -- values of the covariance
  have d : ∀ i : Fin N, (i = 5 ∨ i = 4) → exCov 5 4 i i = 100 := by
    intro i h1
    have : ¬ (13 ≤ i.val ∧ i.val < 16) := by rcases h1 with h | h <;> subst h <;> decide
    unfold exCov exVar; rw [if_pos rfl, if_neg this, if_pos h1, if_pos h1]; norm_num
  have c45 : exCov 5 4 4 5 = 70 := by unfold exCov; rw [if_neg (by decide), if_pos (Or.inr rfl), if_pos (Or.inl rfl)]; norm_num
  have c54 : exCov 5 4 5 4 = 70 := by unfold exCov; rw [if_neg (by decide), if_pos (Or.inl rfl), if_pos (Or.inr rfl)]; norm_num
  have o0 : ∀ i j : Fin N, i ≠ j → ¬ (i = 5 ∨ i = 4) → exCov 5 4 i j = 0 := by
    intro i j h1 h2
    unfold exCov; rw [if_neg h1, if_neg h2]; norm_num
  -- first axis
  have hdir : Spec.afterRow st.f.P (H 0) (9 / 400) (fun _ => True) = Spec.afterDirect (exCov 5 4) 5 (exCov 5 4 5 5 + 9 / 400) := by
    funext i j
    unfold Spec.afterRow Spec.afterDirect Spec.innovVar
    rw [H0, pick_mul, pick_mul, pick_form, hPe, (exCov_psd 5 4).symm j 5]
    simp only [if_true]; ring
  have hq : Spec.Quiet (flowX fx ini).fx (Spec.afterRow st.f.P (H 0) (9 / 400) (fun _ => True)) := by
    rw [hdir]
    exact exQuiet fx 5 4 5 (by decide) (by decide) (by decide) (Or.inl rfl) (by norm_num)
  have hup0 := update_applied (flowX fx ini).fx (H 0) (9 / 400) (by norm_num) (fun _ => True) (Spec.flowInnov (flowX fx ini) st.f.s 0) st.f hP
  obtain ⟨-, q2⟩ := update_quiet (flowX fx ini).fx (H 0) (9 / 400) (by norm_num) (fun _ => True) (Spec.flowInnov (flowX fx ini) st.f.s 0) st.f hP hq
  rw [hdir] at q2
  generalize update (flowX fx ini).fx (Spec.gain st.f.P (H 0) (9 / 400) fun _ => True) (H 0) (Spec.flowInnov (flowX fx ini) st.f.s 0) st.f = u0 at *
  -- second axis
  generalize hk : (fun i : Fin N => Spec.mulVec (if i.val ≤ 6 then st.f.P else u0.1.P) (H 1) i / Spec.innovVar st.f.P (H 1) (9 / 400)) = k1 at hfu
  have hmv : ∀ (Q : Mat ℝ) (i : Fin N), Spec.mulVec Q (H 1) i = -Q i 4 := by
    intro Q i
    rw [H1]
    have := pick_mul Q 4 i
    unfold Spec.mulVec at this ⊢
    rw [← this, ← Finset.sum_neg_distrib]
    exact Finset.sum_congr rfl fun j _ => by ring
  have hS : Spec.innovVar st.f.P (H 1) (9 / 400) = 100 + 9 / 400 := by
    unfold Spec.innovVar
    rw [form_eq_mulVec]
    simp only [hmv]
    rw [H1]
    have : ∑ i, -Spec.pick 4 i * -st.f.P i 4 = st.f.P 4 4 := by unfold Spec.pick; simp
    rw [this, hPe, d 4 (Or.inr rfl)]
  have hd5 : exCov 5 4 5 5 = 100 := d 5 (Or.inl rfl)
  have hP1 : ∀ i j, u0.1.P i j = exCov 5 4 i j - exCov 5 4 i 5 * exCov 5 4 5 j / (100 + 9 / 400) := by
    intro i j; rw [q2]; unfold Spec.afterDirect; rw [hd5]
  have hk4 : k1 4 = -100 / (100 + 9 / 400) := by
    rw [← hk]
    show Spec.mulVec (if (4 : ℕ) ≤ 6 then st.f.P else u0.1.P) (H 1) 4 / _ = _
    rw [if_pos (by norm_num), hmv, hS, hPe, d 4 (Or.inr rfl)]
  have hk5 : k1 5 = -70 / (100 + 9 / 400) := by
    rw [← hk]
    show Spec.mulVec (if (5 : ℕ) ≤ 6 then st.f.P else u0.1.P) (H 1) 5 / _ = _
    rw [if_pos (by norm_num), hmv, hS, hPe, c54]
  have hk0 : ∀ i : Fin N, ¬ (i = 5 ∨ i = 4) → k1 i = 0 := by
    intro i hi
    have hz : (if i.val ≤ 6 then st.f.P else u0.1.P) i 4 = 0 := by
      split
      · rw [hPe, o0 i 4 (fun h => hi (Or.inr h)) hi]
      · rw [hP1, o0 i 4 (fun h => hi (Or.inr h)) hi, o0 i 5 (fun h => hi (Or.inl h)) hi]; ring
    rw [← hk]
    beta_reduce
    rw [hmv, hz]; simp
  have hrow : ∀ j, ∑ l, H 1 l * u0.1.P l j = -u0.1.P 4 j := by
    intro j
    rw [H1]; unfold Spec.pick; simp
  have p44 : u0.1.P 4 4 = 100 - 70 * 70 / (100 + 9 / 400) := by rw [hP1, d 4 (Or.inr rfl), c45, c54]
  have p45 : u0.1.P 4 5 = 70 - 70 * 100 / (100 + 9 / 400) := by rw [hP1, c45, hd5]
  have p54 : u0.1.P 5 4 = 70 - 100 * 70 / (100 + 9 / 400) := by rw [hP1, c54, hd5]
  have p55 : u0.1.P 5 5 = 100 - 100 * 100 / (100 + 9 / 400) := by rw [hP1, hd5]
  have p0 : ∀ i : Fin N, 0 ≤ u0.1.P i i := fun i => by
    have := (kalman_update_valid hP (H 0) (R := 9 / 400) (by norm_num)).2.1
    have h0 := diag_nonneg this i
    rw [q2, ← hdir]
    unfold Spec.afterRow
    simp only [if_true]
    calc (0 : ℝ) ≤ _ := h0
      _ = _ := by ring
  have hno : ∀ i : Fin N, ¬∃ a : Fin 3, (flowX fx ini).fx.inhibit a = true ∧ i.val = 13 + a.val := by
    rintro i ⟨a, ha, -⟩
    exact absurd ha (by simp [flowX, exFx])
  obtain ⟨m1, -⟩ := measurementUpdate_spec (flowX fx ini).fx k1 (H 1) u0.1.timeCheck u0.1.badAccBias u0.1.P
  simp only [hno, if_false, hrow] at m1
  obtain ⟨n1, n2⟩ := m1 (by
    intro i
    by_cases h5 : i = 5
    · subst h5; rw [hk5, p45, p55]; norm_num
    · by_cases h4 : i = 4
      · subst h4; rw [hk4, p44]; norm_num
      · rw [hk0 i (by rintro (h | h) <;> contradiction), zero_mul]; exact p0 i)
  have hu1 : (update (flowX fx ini).fx k1 (H 1) (Spec.flowInnov (flowX fx ini) st.f.s 1) u0.1).2 = true := by
    unfold update
    split
    · rfl
    · rename_i heq; rw [heq] at n1; cases n1
  have hu1P : (update (flowX fx ini).fx k1 (H 1) (Spec.flowInnov (flowX fx ini) st.f.s 1) u0.1).1.P =
      (fixCovarianceErrors (flowX fx ini).fx true u0.1.timeCheck u0.1.badAccBias fun i j => u0.1.P i j - k1 i * -u0.1.P 4 j).1 := by
    rw [← n2]
    unfold update
    split <;> rename_i heq <;> rw [heq]
  rw [hfu]
  refine ⟨hP, ?_, ?_, ?_⟩
  · intro a
    show rej a = false
    have := mt (r1 a).mp (hnf a)
    simpa using this
  · intro a
    rcases fin2_cases a with rfl | rfl
    · show (!u0.2) = false
      rw [hup0.1]; rfl
    · show (!(update (flowX fx ini).fx k1 (H 1) (Spec.flowInnov (flowX fx ini) st.f.s 1) u0.1).2) = false
      rw [hu1]; rfl
  · intro P'
    have hP' : P' = (fixCovarianceErrors (flowX fx ini).fx true u0.1.timeCheck u0.1.badAccBias fun i j => u0.1.P i j - k1 i * -u0.1.P 4 j).1 := hu1P
    have v44 : P' 4 4 = max (1 / 1000000) (min (u0.1.P 4 4 - k1 4 * -u0.1.P 4 4) 1000000) := by
      rw [hP']; exact (fix_variance_limits _ true _ _ _ 4).2.1 (by decide) (by decide)
    have v55 : P' 5 5 = max (1 / 1000000) (min (u0.1.P 5 5 - k1 5 * -u0.1.P 4 5) 1000000) := by
      rw [hP']; exact (fix_variance_limits _ true _ _ _ 5).2.1 (by decide) (by decide)
    have v45 : P' 4 5 = ((u0.1.P 4 5 - k1 4 * -u0.1.P 4 5) + (u0.1.P 5 4 - k1 5 * -u0.1.P 4 4)) / 2 := by
      rw [hP']; exact fix_kin_cross _ _ _ _ 4 5 (by decide) (by decide) (by decide)
    have v54 : P' 5 4 = P' 4 5 := by
      rw [v45, hP', fix_kin_cross _ _ _ _ 5 4 (by decide) (by decide) (by decide)]; ring
    rw [hk4, p44] at v44
    rw [hk5, p45, p55] at v55
    rw [hk4, hk5, p45, p54, p44] at v45
    have neg : P' 4 4 + 2 * P' 4 5 + P' 5 5 < -35 := by
      rw [v44, v55, v45]
      rw [min_eq_left (by norm_num), min_eq_left (by norm_num), max_eq_right (by norm_num), max_eq_right (by norm_num)]
      norm_num
    refine ⟨neg, fun hall => ?_⟩
    have := hall (fun i => (if i = 4 then 1 else 0) + if i = 5 then 1 else 0)
    have e : ∑ i : Fin N, ∑ j : Fin N, ((if i = 4 then (1 : ℝ) else 0) + if i = 5 then 1 else 0) * P' i j * ((if j = 4 then 1 else 0) + if j = 5 then 1 else 0) =
        P' 4 4 + P' 4 5 + (P' 5 4 + P' 5 5) := by
      simp only [mul_add, mul_ite, mul_one, mul_zero, add_mul, ite_mul, one_mul, zero_mul, Finset.sum_add_distrib, Finset.sum_ite_eq', Finset.mem_univ, if_true]
      ring
    rw [e, v54] at this
    linarith

end Ecl.Whole
