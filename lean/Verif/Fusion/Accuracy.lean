import Verif.Fusion.Honest

/-!
# Property C152 — what an accepted measurement does to the estimate and to its reported variance

EKF/vel_pos_fusion.cpp:48-229.
-/

namespace Ecl.Fusion
open Ecl.Cov

/-- average of two values with variances `P` and `R`, weighted by the inverse variances -/
noncomputable def Spec.weighted (s P z R : ℝ) : ℝ := (s * R + z * P) / (P + R)

/-- variance of that average -/
noncomputable def Spec.pooled (P R : ℝ) : ℝ := P * R / (P + R)

/-- limits of velocity and position variances -/
noncomputable def Spec.limited (v : ℝ) : ℝ := max (1 / 1000000) (min v 1000000)

theorem pooled_le {P R : ℝ} (hP : 0 ≤ P) (hR : 0 < R) : Spec.pooled P R ≤ R ∧ Spec.pooled P R ≤ P ∧ min P R / 2 ≤ Spec.pooled P R := by
  unfold Spec.pooled
  have h : 0 < P + R := by linarith
  refine ⟨?_, ?_, ?_⟩
  · rw [div_le_iff₀ h]; nlinarith
  · rw [div_le_iff₀ h]; nlinarith
  · rw [le_div_iff₀ h]
    rcases le_total P R with hl | hl
    · rw [min_eq_left hl]; nlinarith
    · rw [min_eq_right hl]; nlinarith

theorem limited_mono {a b : ℝ} (h : a ≤ b) : Spec.limited a ≤ Spec.limited b := max_le_max le_rfl (min_le_min h le_rfl)

theorem limited_le {a b : ℝ} (h : a ≤ b) (hb : 1 / 1000000 ≤ b) : Spec.limited a ≤ b := max_le hb ((min_le_left _ _).trans h)

/-- variance of state `i` after a direct observation of `m`, limits included -/
theorem direct_diag (x : FixIn ℝ) (m : Fin N) (S v : ℝ) (f : Filt) (hP : Spec.PSD f.P) (hS : f.P m m < S) (i : Fin N) (h4 : 4 ≤ i.val) (h10 : i.val < 10) :
    (Spec.directFusion x m S v f).1.P i i = Spec.limited (f.P i i - f.P i m ^ 2 / S) := by
  have hS0 : 0 < S := lt_of_le_of_lt (diag_nonneg hP m) hS
  have h1 := (directFusion_applied x m S v f hP hS0 hS).1
  have hc : ∀ j : Fin N, ∑ l, Spec.pick m l * f.P l j = f.P m j := by
    intro j; unfold Spec.pick; simp
  unfold Spec.directFusion Spec.applyGain at h1 ⊢
  simp only [hc] at h1 ⊢
  by_cases hh : ∀ i, f.P i m / S * f.P m i ≤ f.P i i
  · rw [if_pos hh]
    show (fixCovarianceErrors x true f.timeCheck f.badAccBias (fun i j => f.P i j - f.P i m / S * f.P m j)).1 i i = _
    rw [(fix_variance_limits x true _ _ _ i).2.1 h4 h10]
    unfold Spec.limited
    rw [hP.symm m i]
    congr 2
    ring
  · rw [if_neg hh] at h1; simp at h1

theorem direct_own (x : FixIn ℝ) (m : Fin N) (R z : ℝ) (hR : 0 < R) (f : Filt) (hP : Spec.PSD f.P) (h4 : 4 ≤ m.val) (h10 : m.val < 10) :
    let r := (Spec.directFusion x m (f.P m m + R) (f.s m - z) f).1
    r.s m = Spec.weighted (f.s m) (f.P m m) z R ∧ r.P m m = Spec.limited (Spec.pooled (f.P m m) R) := by
  intro r
  have hd := diag_nonneg hP m
  have hS : f.P m m < f.P m m + R := by linarith
  have hS0 : 0 < f.P m m + R := by linarith
  refine ⟨?_, ?_⟩
  · show (Spec.directFusion x m (f.P m m + R) (f.s m - z) f).1.s m = _
    rw [(directFusion_applied x m _ _ f hP hS0 hS).2, fuseState_lin h4]
    unfold Spec.weighted
    have := hS0.ne'
    field_simp
    ring
  · show (Spec.directFusion x m (f.P m m + R) (f.s m - z) f).1.P m m = _
    rw [direct_diag x m _ _ f hP hS m h4 h10]
    congr 1
    unfold Spec.pooled
    have := hS0.ne'
    field_simp
    ring

/-- **C152 (height).** An accepted height measurement `z` of variance `R` (vertical acceleration not flagged as bad), from every valid covariance: the new height is
the average of the old one and `z` weighted by inverse variances, its reported variance is that of the average, kept within its limits; it is no larger than the
measurement's (unless that is below the lower limit). -/
theorem height_accuracy (x : VPIn) (hx : x.badVertAccel = false) (g : ℝ) (hg : 0 < g) (st : VPSt) (hP : Spec.PSD st.f.P) (z R : ℝ) (hR : 0 < R)
    (ha : (fuseVerticalPosition x (st.f.s 9 - z) g R st).ret = true) :
    let st' := (fuseVerticalPosition x (st.f.s 9 - z) g R st).st
    st'.f.s 9 = Spec.weighted (st.f.s 9) (st.f.P 9 9) z R ∧ st'.f.P 9 9 = Spec.limited (Spec.pooled (st.f.P 9 9) R) ∧
    (1 / 1000000 ≤ R → st'.f.P 9 9 ≤ R) := by
  intro st'
  have h0 : 0 < st.f.P 9 9 + R := by have := diag_nonneg hP 9; linarith
  have h5 := (vpos_gate x st (st.f.s 9 - z) g R hg h0).2.2.2.2 ha
  simp only [hx] at h5
  have hf : st'.f = (Spec.directFusion x.fx 9 (st.f.P 9 9 + R) (st.f.s 9 - z) st.f).1 := by
    show (fuseVerticalPosition x (st.f.s 9 - z) g R st).st.f = _
    rw [h5]; rfl
  rw [hf]
  obtain ⟨h1, h2⟩ := direct_own x.fx 9 R z hR st.f hP (by decide) (by decide)
  refine ⟨h1, h2, fun hl => ?_⟩
  rw [h2]
  exact limited_le (pooled_le (diag_nonneg hP 9) hR).1 hl

/-- **C152 (vertical velocity).** The same for the vertical velocity. -/
theorem vertical_velocity_accuracy (x : VPIn) (hx : x.badVertAccel = false) (g : ℝ) (hg : 0 < g) (st : VPSt) (hP : Spec.PSD st.f.P) (z R : ℝ) (hR : 0 < R)
    (ha : (fuseVerticalVelocity x (st.f.s 6 - z) g R st).ret = true) :
    let st' := (fuseVerticalVelocity x (st.f.s 6 - z) g R st).st
    st'.f.s 6 = Spec.weighted (st.f.s 6) (st.f.P 6 6) z R ∧ st'.f.P 6 6 = Spec.limited (Spec.pooled (st.f.P 6 6) R) ∧
    (1 / 1000000 ≤ R → st'.f.P 6 6 ≤ R) := by
  intro st'
  have h0 : 0 < st.f.P 6 6 + R := by have := diag_nonneg hP 6; linarith
  have h5 := (vvel_gate x st (st.f.s 6 - z) g R hg h0).2.2.2.2 ha
  simp only [hx] at h5
  have hf : st'.f = (Spec.directFusion x.fx 6 (st.f.P 6 6 + R) (st.f.s 6 - z) st.f).1 := by
    show (fuseVerticalVelocity x (st.f.s 6 - z) g R st).st.f = _
    rw [h5]; rfl
  rw [hf]
  obtain ⟨h1, h2⟩ := direct_own x.fx 6 R z hR st.f hP (by decide) (by decide)
  refine ⟨h1, h2, fun hl => ?_⟩
  rw [h2]
  exact limited_le (pooled_le (diag_nonneg hP 6) hR).1 hl

theorem psd_afterDirect {P : Mat ℝ} (hP : Spec.PSD P) (m : Fin N) {R : ℝ} (hR : 0 < R) : Spec.PSD (Spec.afterDirect P m (P m m + R)) := by
  have := (kalman_update_valid hP (Spec.pick m) hR).2.1
  have f1 : ∀ l, Spec.mulVec P (Spec.pick m) l = P l m := by intro l; unfold Spec.mulVec Spec.pick; simp
  have f2 : Spec.innovVar P (Spec.pick m) R = P m m + R := by unfold Spec.innovVar Spec.form Spec.pick; simp
  simp only [f1, f2] at this
  have e : Spec.afterDirect P m (P m m + R) = fun i j => P i j - P i m / (P m m + R) * P j m := by
    funext i j; unfold Spec.afterDirect; rw [hP.symm m j]; ring
  rw [e]; exact this

/-- two direct observations of states `m` and `n`, the innovation variance of the second computed before the first is fused -/
theorem pair_accuracy (x : FixIn ℝ) (m n : Fin N) (hm4 : 4 ≤ m.val) (hm10 : m.val < 10) (hn4 : 4 ≤ n.val) (hn10 : n.val < 10) (v w R0 R1 : ℝ)
    (hR0 : 0 < R0) (hR1 : 0 < R1) (f : Filt) (hP : Spec.PSD f.P) (hq : Spec.Quiet x (Spec.afterDirect f.P m (f.P m m + R0))) :
    let r := (Spec.directFusion x n (f.P n n + R1) w (Spec.directFusion x m (f.P m m + R0) v f).1).1
    let q := f.P n n - f.P n m ^ 2 / (f.P m m + R0)
    r.P n n = Spec.limited (q - q ^ 2 / (f.P n n + R1)) ∧
    (1 / 1000000 ≤ R0 → r.P m m ≤ R0) ∧ (1 / 1000000 ≤ R1 → r.P n n ≤ max R1 ((f.P n n + R1) / 4)) ∧
    (f.P n n ≤ 3 * R1 → 1 / 1000000 ≤ R1 → r.P n n ≤ R1) := by
  intro r q
  have hm := diag_nonneg hP m
  have hn := diag_nonneg hP n
  have hS : f.P m m < f.P m m + R0 := by linarith
  have hS0 : 0 < f.P m m + R0 := by linarith
  have hT0 : 0 < f.P n n + R1 := by linarith
  have h1 := (direct_quiet x m (f.P m m + R0) v f hP hS hq).2
  have hP1 := psd_afterDirect hP m hR0
  rw [← h1] at hP1
  have hq' : (Spec.directFusion x m (f.P m m + R0) v f).1.P n n = q := by
    rw [h1]; unfold Spec.afterDirect
    show f.P n n - f.P n m * f.P m n / (f.P m m + R0) = f.P n n - f.P n m ^ 2 / (f.P m m + R0)
    rw [hP.symm m n]; ring
  have hqle : q ≤ f.P n n := by
    have : 0 ≤ f.P n m ^ 2 / (f.P m m + R0) := by positivity
    show f.P n n - _ ≤ _
    linarith
  have hq0 : 0 ≤ q := by rw [← hq']; exact diag_nonneg hP1 n
  have hlt : (Spec.directFusion x m (f.P m m + R0) v f).1.P n n < f.P n n + R1 := by rw [hq']; linarith
  have hnn : r.P n n = Spec.limited (q - q ^ 2 / (f.P n n + R1)) := by
    show (Spec.directFusion x n (f.P n n + R1) w (Spec.directFusion x m (f.P m m + R0) v f).1).1.P n n = _
    rw [direct_diag x n _ w _ hP1 hlt n hn4 hn10, hq']
  have hmm : r.P m m ≤ Spec.limited (Spec.pooled (f.P m m) R0) := by
    show (Spec.directFusion x n (f.P n n + R1) w (Spec.directFusion x m (f.P m m + R0) v f).1).1.P m m ≤ _
    rw [direct_diag x n _ w _ hP1 hlt m hm4 hm10]
    apply limited_mono
    have e : (Spec.directFusion x m (f.P m m + R0) v f).1.P m m = Spec.pooled (f.P m m) R0 := by
      rw [h1]; unfold Spec.afterDirect Spec.pooled
      have := hS0.ne'
      field_simp
      ring
    rw [e]
    have : 0 ≤ (Spec.directFusion x m (f.P m m + R0) v f).1.P m n ^ 2 / (f.P n n + R1) := by positivity
    linarith
  have hb : q - q ^ 2 / (f.P n n + R1) ≤ (f.P n n + R1) / 4 := by
    rw [sub_le_iff_le_add, ← sub_le_iff_le_add', le_div_iff₀ hT0]
    nlinarith [sq_nonneg (q - (f.P n n + R1) / 2)]
  refine ⟨hnn, fun hl => hmm.trans (limited_le (pooled_le hm hR0).1 hl), fun hl => ?_, fun h3 hl => ?_⟩
  · rw [hnn]
    exact limited_le (hb.trans (le_max_right _ _)) (hl.trans (le_max_left _ _))
  · rw [hnn]
    exact limited_le (hb.trans (by linarith)) hl

/-- **C152 (horizontal position).** An accepted horizontal position measurement with variances `R0` (north) and `R1` (east), no limit acting on the north update:
the reported north variance afterwards is at most `R0`; the reported east variance is at most the larger of `R1` and a quarter of its innovation variance, hence
at most `R1` if it was at most `3 R1` before. -/
theorem horizontal_position_accuracy (x : VPIn) (g : ℝ) (hg : 0 < g) (inh : Bool) (st : VPSt) (hP : Spec.PSD st.f.P) (i0 i1 R0 R1 : ℝ) (hR0 : 1 / 1000000 ≤ R0)
    (hR1 : 1 / 1000000 ≤ R1) (ha : (fuseHorizontalPosition x i0 i1 g R0 R1 inh st).ret = true)
    (hq : Spec.Quiet x.fx (Spec.afterDirect st.f.P 7 (st.f.P 7 7 + R0))) :
    let st' := (fuseHorizontalPosition x i0 i1 g R0 R1 inh st).st
    st'.f.P 7 7 ≤ R0 ∧ st'.f.P 8 8 ≤ max R1 ((st.f.P 8 8 + R1) / 4) ∧ (st.f.P 8 8 ≤ 3 * R1 → st'.f.P 8 8 ≤ R1) := by
  intro st'
  have p0 : 0 < R0 := by linarith
  have p1 : 0 < R1 := by linarith
  have h0 : 0 < st.f.P 7 7 + R0 := by have := diag_nonneg hP 7; linarith
  have h1 : 0 < st.f.P 8 8 + R1 := by have := diag_nonneg hP 8; linarith
  have h5 := (hpos_gate x st i0 i1 g R0 R1 inh hg h0 h1).2.2.2.2 ha
  have hf : st'.f = (Spec.directFusion x.fx 8 (st.f.P 8 8 + R1) i1 (Spec.directFusion x.fx 7 (st.f.P 7 7 + R0) i0 st.f).1).1 := by
    show (fuseHorizontalPosition x i0 i1 g R0 R1 inh st).st.f = _
    rw [h5]
  rw [hf]
  obtain ⟨-, a, b, c⟩ := pair_accuracy x.fx 7 8 (by decide) (by decide) (by decide) (by decide) i0 i1 R0 R1 p0 p1 st.f hP hq
  exact ⟨a hR0, b hR1, fun h => c h hR1⟩

/-- **C152 (horizontal velocity).** The same for the horizontal velocity. -/
theorem horizontal_velocity_accuracy (x : VPIn) (g : ℝ) (hg : 0 < g) (st : VPSt) (hP : Spec.PSD st.f.P) (i0 i1 R0 R1 : ℝ) (hR0 : 1 / 1000000 ≤ R0)
    (hR1 : 1 / 1000000 ≤ R1) (ha : (fuseHorizontalVelocity x i0 i1 g R0 R1 st).ret = true)
    (hq : Spec.Quiet x.fx (Spec.afterDirect st.f.P 4 (st.f.P 4 4 + R0))) :
    let st' := (fuseHorizontalVelocity x i0 i1 g R0 R1 st).st
    st'.f.P 4 4 ≤ R0 ∧ st'.f.P 5 5 ≤ max R1 ((st.f.P 5 5 + R1) / 4) ∧ (st.f.P 5 5 ≤ 3 * R1 → st'.f.P 5 5 ≤ R1) := by
  intro st'
  have p0 : 0 < R0 := by linarith
  have p1 : 0 < R1 := by linarith
  have h0 : 0 < st.f.P 4 4 + R0 := by have := diag_nonneg hP 4; linarith
  have h1 : 0 < st.f.P 5 5 + R1 := by have := diag_nonneg hP 5; linarith
  obtain ⟨-, -, -, -, h5⟩ := hvel_gate x st i0 i1 g R0 R1 hg h0 h1
  have hf : st'.f = (Spec.directFusion x.fx 5 (st.f.P 5 5 + R1) i1 (Spec.directFusion x.fx 4 (st.f.P 4 4 + R0) i0 st.f).1).1 := by
    show (fuseHorizontalVelocity x i0 i1 g R0 R1 st).st.f = _
    rw [h5 ha]
  rw [hf]
  obtain ⟨-, a, b, c⟩ := pair_accuracy x.fx 4 5 (by decide) (by decide) (by decide) (by decide) i0 i1 R0 R1 p0 p1 st.f hP hq
  exact ⟨a hR0, b hR1, fun h => c h hR1⟩

/-! ## Repeated measurements -/

/-- height measurements `(z, R)` fused one after the other -/
noncomputable def Spec.heights (x : VPIn) (g : ℝ) (st : VPSt) : List (ℝ × ℝ) → VPSt
  | [] => st
  | (z, R) :: t => Spec.heights x g (fuseVerticalPosition x (st.f.s 9 - z) g R st).st t

/-- each of them is accepted, and no limit acts -/
def Spec.AllTaken (x : VPIn) (g : ℝ) (st : VPSt) : List (ℝ × ℝ) → Prop
  | [] => True
  | (z, R) :: t => 0 < R ∧ (fuseVerticalPosition x (st.f.s 9 - z) g R st).ret = true ∧ Spec.Quiet x.fx (Spec.afterDirect st.f.P 9 (st.f.P 9 9 + R)) ∧
      Spec.AllTaken x g (fuseVerticalPosition x (st.f.s 9 - z) g R st).st t

/-- **C152 (repeated measurements).** Any number of accepted height measurements (no limit acting): the precision reported at the end is the sum of the initial
precision and the measurements' precisions, and the height is the precision-weighted mean of the initial height and the measurements. -/
theorem repeated_heights (x : VPIn) (hx : x.badVertAccel = false) (g : ℝ) (hg : 0 < g) (l : List (ℝ × ℝ)) (st : VPSt) (hP : Spec.PSD st.f.P)
    (hpos : 0 < st.f.P 9 9) (hl : Spec.AllTaken x g st l) :
    let st' := Spec.heights x g st l
    0 < st'.f.P 9 9 ∧ 1 / st'.f.P 9 9 = 1 / st.f.P 9 9 + (l.map fun e => 1 / e.2).sum ∧
    st'.f.s 9 / st'.f.P 9 9 = st.f.s 9 / st.f.P 9 9 + (l.map fun e => e.1 / e.2).sum := by
  induction l generalizing st with
  | nil => simp only [Spec.heights, List.map_nil, List.sum_nil, add_zero]; exact ⟨hpos, trivial, trivial⟩
  | cons e t ih =>
    obtain ⟨z, R⟩ := e
    obtain ⟨hR, ha, hq, hr⟩ := hl
    have h0 : 0 < st.f.P 9 9 + R := by linarith
    have h5 := (vpos_gate x st (st.f.s 9 - z) g R hg h0).2.2.2.2 ha
    simp only [hx] at h5
    have hf : (fuseVerticalPosition x (st.f.s 9 - z) g R st).st.f = (Spec.directFusion x.fx 9 (st.f.P 9 9 + R) (st.f.s 9 - z) st.f).1 := by
      rw [h5]; rfl
    have hs := (direct_own x.fx 9 R z hR st.f hP (by decide) (by decide)).1
    have hd := (direct_quiet x.fx 9 (st.f.P 9 9 + R) (st.f.s 9 - z) st.f hP (by linarith) hq).2
    have hP1 := psd_afterDirect hP 9 hR
    have hv : (fuseVerticalPosition x (st.f.s 9 - z) g R st).st.f.P 9 9 = Spec.pooled (st.f.P 9 9) R := by
      rw [hf, hd]; unfold Spec.afterDirect Spec.pooled
      have := h0.ne'
      field_simp
      ring
    have hs' : (fuseVerticalPosition x (st.f.s 9 - z) g R st).st.f.s 9 = Spec.weighted (st.f.s 9) (st.f.P 9 9) z R := by rw [hf]; exact hs
    have hp : 0 < (fuseVerticalPosition x (st.f.s 9 - z) g R st).st.f.P 9 9 := by
      rw [hv]; unfold Spec.pooled; positivity
    obtain ⟨i1, i2, i3⟩ := ih (fuseVerticalPosition x (st.f.s 9 - z) g R st).st (by rw [hf, hd]; exact hP1) hp hr
    refine ⟨i1, ?_, ?_⟩
    · show 1 / (Spec.heights x g _ t).f.P 9 9 = _
      rw [i2, hv, List.map_cons, List.sum_cons]
      unfold Spec.pooled
      have := h0.ne'
      have := hpos.ne'
      have := hR.ne'
      generalize (List.map (fun e : ℝ × ℝ => 1 / e.2) t).sum = u
      field_simp
      ring
    · show (Spec.heights x g _ t).f.s 9 / (Spec.heights x g _ t).f.P 9 9 = _
      rw [i3, hv, hs', List.map_cons, List.sum_cons]
      unfold Spec.pooled Spec.weighted
      have := h0.ne'
      have := hpos.ne'
      have := hR.ne'
      generalize (List.map (fun e : ℝ × ℝ => e.1 / e.2) t).sum = u
      field_simp
      ring

/-! ## Concrete cases -/

/-- variances: accelerometer bias 1e-6, states `m` and `n` 30, the others 1/10 -/
noncomputable def exVar (m n i : Fin N) : ℝ := if 13 ≤ i.val ∧ i.val < 16 then 1 / 1000000 else if i = m ∨ i = n then 30 else 1 / 10

/-- plus 70 times the square of the sum of the two: variances 100, correlation 0.7 -/
noncomputable def exCov (m n : Fin N) : Mat ℝ := fun i j =>
  (if i = j then exVar m n i else 0) + 70 * ((if i = m ∨ i = n then 1 else 0) * if j = m ∨ j = n then 1 else 0)

theorem exCov_psd (m n : Fin N) : Spec.PSD (exCov m n) := by
  refine psd_add (psd_diag fun i => ?_) (psd_outer (fun i : Fin N => if i = m ∨ i = n then (1 : ℝ) else 0) (by norm_num))
  unfold exVar; split_ifs <;> norm_num

/-- parameters at rest: every state used, 100 Hz -/
noncomputable def exFx (x : FixIn ℝ) : FixIn ℝ :=
  { x with mag3D := true, wind := true, inhibit := fun _ => false, badAccBias := false, now := 1000000, dtEkfAvg := 1 / 100 }

theorem exQuiet (x : FixIn ℝ) (m n a : Fin N) (hmn : m ≠ n) (hm : 4 ≤ m.val ∧ m.val < 10) (hn : 4 ≤ n.val ∧ n.val < 10) (ha : a = m ∨ 4 ≤ a.val ∧ a.val < 10 ∧ a ≠ m ∧ a ≠ n) {R : ℝ}
    (hR : 1 / 100 ≤ R) : Spec.Quiet (exFx x) (Spec.afterDirect (exCov m n) a (exCov m n a a + R)) := by
  have d0 : ∀ i : Fin N, ¬ (i = m ∨ i = n) → ¬ (13 ≤ i.val ∧ i.val < 16) → exCov m n i i = 1 / 10 := by
    intro i h1 h2; unfold exCov exVar; rw [if_pos rfl, if_neg h2, if_neg h1, if_neg h1]; norm_num
  have d1 : ∀ i : Fin N, (i = m ∨ i = n) → exCov m n i i = 100 := by
    intro i h1
    have : ¬ (13 ≤ i.val ∧ i.val < 16) := by rcases h1 with h | h <;> subst h <;> omega
    unfold exCov exVar; rw [if_pos rfl, if_neg this, if_pos h1, if_pos h1]; norm_num
  have d2 : ∀ i : Fin N, 13 ≤ i.val → i.val < 16 → exCov m n i i = 1 / 1000000 := by
    intro i h1 h2
    have : ¬ (i = m ∨ i = n) := by rintro (h | h) <;> subst h <;> omega
    unfold exCov exVar; rw [if_pos rfl, if_pos ⟨h1, h2⟩, if_neg this]; norm_num
  have o0 : ∀ i j : Fin N, i ≠ j → ¬ ((i = m ∨ i = n) ∧ (j = m ∨ j = n)) → exCov m n i j = 0 := by
    intro i j h1 h2
    unfold exCov; rw [if_neg h1]
    by_cases h : i = m ∨ i = n
    · rw [if_pos h, if_neg (fun h' => h2 ⟨h, h'⟩)]; norm_num
    · rw [if_neg h]; norm_num
  have o1 : ∀ i j : Fin N, i ≠ j → (i = m ∨ i = n) → (j = m ∨ j = n) → exCov m n i j = 70 := by
    intro i j h1 h2 h3
    unfold exCov; rw [if_neg h1, if_pos h2, if_pos h3]; norm_num
  -- the states other than the kinematic ones are untouched
  have far : ∀ i : Fin N, i.val < 4 ∨ 10 ≤ i.val → Spec.afterDirect (exCov m n) a (exCov m n a a + R) i i = exCov m n i i := by
    intro i hi
    have h1 : ¬ (i = m ∨ i = n) := by rintro (h | h) <;> subst h <;> omega
    have h2 : i ≠ a := by
      rintro rfl
      rcases ha with h | ⟨h, h', -⟩
      · exact h1 (Or.inl h)
      · omega
    unfold Spec.afterDirect
    rw [o0 i a h2 (fun h => h1 h.1)]; ring
  have far' : ∀ i : Fin N, i.val < 4 ∨ 10 ≤ i.val → ¬ (13 ≤ i.val ∧ i.val < 16) → Spec.afterDirect (exCov m n) a (exCov m n a a + R) i i = 1 / 10 := by
    intro i hi h
    rw [far i hi, d0 i (by rintro (h | h) <;> subst h <;> omega) h]
  refine ⟨rfl, rfl, fun _ => rfl, rfl, by show (1000000 : UInt64).toNat + 7000000 < 2 ^ 64; decide, fun i hi => ?_, fun i h1 h2 => ?_, fun i h1 h2 => ?_, fun i h1 h2 => ?_, fun i h1 h2 => ?_, fun i h1 => ?_⟩
  · rw [far' i (Or.inl hi) (by omega)]; norm_num
  · unfold Spec.afterDirect
    rcases ha with rfl | ⟨a4, a10, e1, e2⟩
    · rw [d1 a (Or.inl rfl)]
      have hR' : 0 < 100 + R := by linarith
      by_cases hi : i = a
      · subst hi
        rw [d1 i (Or.inl rfl)]
        have : 100 * 100 / (100 + R) ≤ 100 - 1 / 1000 := by rw [div_le_iff₀ hR']; linarith
        have : 0 ≤ 100 * 100 / (100 + R) := by positivity
        constructor <;> linarith
      · by_cases hi' : i = n
        · subst hi'
          rw [d1 i (Or.inr rfl), o1 i a hi (Or.inr rfl) (Or.inl rfl), o1 a i (Ne.symm hi) (Or.inl rfl) (Or.inr rfl)]
          have : 70 * 70 / (100 + R) ≤ 50 := by rw [div_le_iff₀ hR']; linarith
          have : 0 ≤ 70 * 70 / (100 + R) := by positivity
          constructor <;> linarith
        · have hni : ¬ (i = a ∨ i = n) := by rintro (h | h); exacts [hi h, hi' h]
          rw [d0 i hni (by omega), o0 i a hi (fun h => hni h.1)]
          norm_num
    · have hna : ¬ (a = m ∨ a = n) := by rintro (h | h); exacts [e1 h, e2 h]
      rw [d0 a hna (by omega)]
      have hR' : 0 < 1 / 10 + R := by linarith
      by_cases hi : i = a
      · subst hi
        rw [d0 i hna (by omega)]
        have : 1 / 10 * (1 / 10) / (1 / 10 + R) ≤ 1 / 10 - 1 / 1000 := by rw [div_le_iff₀ hR']; linarith
        have : 0 ≤ 1 / 10 * (1 / 10) / (1 / 10 + R) := by positivity
        constructor <;> linarith
      · rw [o0 i a hi (fun h => hna h.2)]
        by_cases h : i = m ∨ i = n
        · rw [d1 i h]; norm_num
        · rw [d0 i h (by omega)]; norm_num
  · rw [far' i (Or.inr h1) (by omega)]; norm_num
  · rw [far i (Or.inr (by omega)), d2 i h1 h2]
    refine ⟨by norm_num, by show _ ≤ (1 / 10 * (980665 / 100000) * (1 / 100 : ℝ)) ^ 2; norm_num, fun j h3 h4 => ?_⟩
    rw [far j (Or.inr (by omega)), d2 j h3 h4]; norm_num
  · rw [far' i (Or.inr (by omega)) (by omega)]; norm_num
  · rw [far' i (Or.inr (by omega)) (by omega)]; norm_num

/-- a filter with covariance `P` at the origin -/
noncomputable def exAt (P : Mat ℝ) : VPSt := exVP { exFilt with s := fun i => if i = 0 then 1 else 0, M := { exFilt.M with P := P } }

/-- parameters -/
noncomputable def exIn : VPIn := ⟨exFx ⟨fun _ => false, true, true, 1 / 100, 0, false⟩, false, false⟩

/-- **C152 (refutation on the east axis).** North and east position errors of 10 m, correlated with coefficient 0.7; an accepted position measurement with a
standard deviation of 1 m on both axes.  North is reported with at most 1 m² afterwards, east with more than 25 m². -/
theorem east_variance_above_measurement : ∃ (x : VPIn) (st : VPSt), Spec.PSD st.f.P ∧ st.f.P 8 8 = 100 ∧ Spec.Quiet x.fx (Spec.afterDirect st.f.P 7 (st.f.P 7 7 + 1)) ∧
    (fuseHorizontalPosition x 0 0 5 1 1 false st).ret = true ∧
    (fuseHorizontalPosition x 0 0 5 1 1 false st).st.f.P 7 7 ≤ 1 ∧ 25 < (fuseHorizontalPosition x 0 0 5 1 1 false st).st.f.P 8 8 := by
  have d7 : exCov 7 8 7 7 = 100 := by
    unfold exCov exVar; rw [if_pos rfl, if_neg (by decide), if_pos (by decide), if_pos (by decide)]; norm_num
  have d8 : exCov 7 8 8 8 = 100 := by
    unfold exCov exVar; rw [if_pos rfl, if_neg (by decide), if_pos (by decide), if_pos (by decide)]; norm_num
  have d87 : exCov 7 8 8 7 = 70 := by
    unfold exCov; rw [if_neg (by decide), if_pos (by decide), if_pos (by decide)]; norm_num
  have hP : Spec.PSD (exAt (exCov 7 8)).f.P := exCov_psd 7 8
  have e7 : (exAt (exCov 7 8)).f.P 7 7 = 100 := d7
  have e8 : (exAt (exCov 7 8)).f.P 8 8 = 100 := d8
  have e87 : (exAt (exCov 7 8)).f.P 8 7 = 70 := d87
  have hq : Spec.Quiet exIn.fx (Spec.afterDirect (exAt (exCov 7 8)).f.P 7 ((exAt (exCov 7 8)).f.P 7 7 + 1)) :=
    exQuiet ⟨fun _ => false, true, true, 1 / 100, 0, false⟩ 7 8 7 (by decide) (by decide) (by decide) (Or.inl rfl) (by norm_num)
  have hgate := hpos_gate exIn (exAt (exCov 7 8)) 0 0 5 1 1 false (by norm_num) (by rw [e7]; norm_num) (by rw [e8]; norm_num)
  have ha : (fuseHorizontalPosition exIn 0 0 5 1 1 false (exAt (exCov 7 8))).ret = true := by
    rw [hgate.1, e7, e8]; norm_num
  refine ⟨exIn, exAt (exCov 7 8), hP, d8, hq, ha,
    (horizontal_position_accuracy exIn 5 (by norm_num) false _ hP 0 0 1 1 (by norm_num) (by norm_num) ha hq).1, ?_⟩
  have h5 := hgate.2.2.2.2 ha
  have hf : (fuseHorizontalPosition exIn 0 0 5 1 1 false (exAt (exCov 7 8))).st.f = (Spec.directFusion exIn.fx 8 ((exAt (exCov 7 8)).f.P 8 8 + 1) 0
      (Spec.directFusion exIn.fx 7 ((exAt (exCov 7 8)).f.P 7 7 + 1) 0 (exAt (exCov 7 8)).f).1).1 := by rw [h5]
  rw [hf, (pair_accuracy exIn.fx 7 8 (by decide) (by decide) (by decide) (by decide) 0 0 1 1 one_pos one_pos _ hP hq).1, e7, e8, e87]
  unfold Spec.limited
  refine lt_of_lt_of_le ?_ (le_max_right _ _)
  norm_num

/-- uncorrelated errors, height variance `c` -/
noncomputable def exDiag (c : ℝ) : Mat ℝ := fun i j => if i = j then (if i = 9 then c else if 13 ≤ i.val ∧ i.val < 16 then 1 / 1000000 else 1 / 10) else 0

theorem exDiag_after (c R : ℝ) (h : 0 < c + R) : Spec.afterDirect (exDiag c) 9 (exDiag c 9 9 + R) = exDiag (c * R / (c + R)) := by
  have h9 : exDiag c 9 9 = c := by unfold exDiag; rw [if_pos rfl, if_pos rfl]
  rw [h9]
  funext i j
  unfold Spec.afterDirect exDiag
  by_cases hij : i = j
  · subst hij
    by_cases hi : i = 9
    · subst hi
      simp only [if_true]
      field_simp
      ring
    · simp only [if_true, if_neg hi]; simp
  · simp only [if_neg hij]
    by_cases hi : i = 9
    · subst hi; rw [if_neg hij]; simp
    · rw [if_neg hi]; simp

theorem exDiag_quiet (x : FixIn ℝ) {c : ℝ} (h0 : 1 / 1000000 ≤ c) (h1 : c ≤ 1000000) : Spec.Quiet (exFx x) (exDiag c) := by
  have d : ∀ i : Fin N, i.val ≠ 9 → ¬ (13 ≤ i.val ∧ i.val < 16) → exDiag c i i = 1 / 10 := by
    intro i h h'
    unfold exDiag; rw [if_pos rfl, if_neg (fun e => h (by rw [e]; rfl)), if_neg h']
  have a : ∀ i : Fin N, 13 ≤ i.val → i.val < 16 → exDiag c i i = 1 / 1000000 := by
    intro i h h'
    unfold exDiag; rw [if_pos rfl, if_neg (fun e => by rw [e] at h; exact absurd h (by decide)), if_pos ⟨h, h'⟩]
  refine ⟨rfl, rfl, fun _ => rfl, rfl, by show (1000000 : UInt64).toNat + 7000000 < 2 ^ 64; decide, fun i hi => ?_, fun i h1 h2 => ?_, fun i h1 h2 => ?_, fun i h1 h2 => ?_, fun i h1 h2 => ?_, fun i h1 => ?_⟩
  · rw [d i (by omega) (by omega)]; norm_num
  · by_cases hi : i = 9
    · subst hi
      have : exDiag c 9 9 = c := by unfold exDiag; rw [if_pos rfl, if_pos rfl]
      rw [this]; exact ⟨h0, by assumption⟩
    · rw [d i (fun e => hi (Fin.ext e)) (by omega)]; norm_num
  · rw [d i (by omega) (by omega)]; norm_num
  · rw [a i h1 h2]
    refine ⟨by norm_num, by show _ ≤ (1 / 10 * (980665 / 100000) * (1 / 100 : ℝ)) ^ 2; norm_num, fun j h3 h4 => ?_⟩
    rw [a j h3 h4]; norm_num
  · rw [d i (by omega) (by omega)]; norm_num
  · rw [d i (by omega) (by omega)]; norm_num

theorem exDiag_psd {c : ℝ} (h0 : 0 ≤ c) : Spec.PSD (exDiag c) := by
  refine psd_diag fun i => ?_
  split_ifs
  · exact h0
  · norm_num
  · norm_num

/-- non-vacuity of `repeated_heights`: from height 0 with variance 4, measurements 1 and 2 of variance 1, 5-sigma gate: the height becomes 4/3 with variance 4/9 -/
example : Spec.PSD (exAt (exDiag 4)).f.P ∧ Spec.AllTaken exIn 5 (exAt (exDiag 4)) [(1, 1), (2, 1)] ∧
    (Spec.heights exIn 5 (exAt (exDiag 4)) [(1, 1), (2, 1)]).f.P 9 9 = 4 / 9 ∧ (Spec.heights exIn 5 (exAt (exDiag 4)) [(1, 1), (2, 1)]).f.s 9 = 4 / 3 := by
  have hP : Spec.PSD (exAt (exDiag 4)).f.P := exDiag_psd (by norm_num)
  have p9 : (exAt (exDiag 4)).f.P 9 9 = 4 := by show exDiag 4 9 9 = 4; unfold exDiag; rw [if_pos rfl, if_pos rfl]
  have s9 : (exAt (exDiag 4)).f.s 9 = 0 := by show (if (9 : Fin N) = 0 then (1 : ℝ) else 0) = 0; rw [if_neg (by decide)]
  have a1 : (fuseVerticalPosition exIn ((exAt (exDiag 4)).f.s 9 - 1) 5 1 (exAt (exDiag 4))).ret = true := by
    rw [(vpos_gate exIn (exAt (exDiag 4)) ((exAt (exDiag 4)).f.s 9 - 1) 5 1 (by norm_num) (by rw [p9]; norm_num)).1, p9, s9]
    left; norm_num
  have q1 : Spec.Quiet exIn.fx (Spec.afterDirect (exAt (exDiag 4)).f.P 9 ((exAt (exDiag 4)).f.P 9 9 + 1)) := by
    show Spec.Quiet _ (Spec.afterDirect (exDiag 4) 9 (exDiag 4 9 9 + 1))
    rw [exDiag_after 4 1 (by norm_num)]
    exact exDiag_quiet ⟨fun _ => false, true, true, 1 / 100, 0, false⟩ (by norm_num) (by norm_num)
  obtain ⟨t, ht⟩ : ∃ t, (fuseVerticalPosition exIn ((exAt (exDiag 4)).f.s 9 - 1) 5 1 (exAt (exDiag 4))).st = t := ⟨_, rfl⟩
  have hs := (height_accuracy exIn rfl 5 (by norm_num) (exAt (exDiag 4)) hP 1 1 one_pos a1).1
  have h5 := (vpos_gate exIn (exAt (exDiag 4)) ((exAt (exDiag 4)).f.s 9 - 1) 5 1 (by norm_num) (by rw [p9]; norm_num)).2.2.2.2 a1
  have hx : exIn.badVertAccel = false := rfl
  simp only [hx] at h5
  have hd := (direct_quiet exIn.fx 9 ((exAt (exDiag 4)).f.P 9 9 + 1) ((exAt (exDiag 4)).f.s 9 - 1) (exAt (exDiag 4)).f hP (by linarith) q1).2
  have htP : t.f.P = exDiag (4 / 5) := by
    rw [← ht, h5]
    refine hd.trans ?_
    show Spec.afterDirect (exDiag 4) 9 (exDiag 4 9 9 + 1) = _
    rw [exDiag_after 4 1 (by norm_num)]; norm_num
  have hts : t.f.s 9 = 4 / 5 := by rw [← ht, hs, p9, s9]; unfold Spec.weighted; norm_num
  have t9 : t.f.P 9 9 = 4 / 5 := by rw [htP]; unfold exDiag; rw [if_pos rfl, if_pos rfl]
  have hall : Spec.AllTaken exIn 5 (exAt (exDiag 4)) [(1, 1), (2, 1)] := by
    refine ⟨one_pos, a1, q1, one_pos, ?_, ?_, trivial⟩
    · rw [ht, (vpos_gate exIn t (t.f.s 9 - 2) 5 1 (by norm_num) (by rw [t9]; norm_num)).1, t9, hts]
      left; norm_num
    · rw [ht, htP, exDiag_after (4 / 5) 1 (by norm_num)]
      exact exDiag_quiet ⟨fun _ => false, true, true, 1 / 100, 0, false⟩ (by norm_num) (by norm_num)
  obtain ⟨r1, r2, r3⟩ := repeated_heights exIn rfl 5 (by norm_num) [(1, 1), (2, 1)] (exAt (exDiag 4)) hP (by rw [p9]; norm_num) hall
  rw [p9] at r2 r3
  rw [s9] at r3
  have hv : (Spec.heights exIn 5 (exAt (exDiag 4)) [(1, 1), (2, 1)]).f.P 9 9 = 4 / 9 := by
    have : (1 : ℝ) / 4 + (List.map (fun e : ℝ × ℝ => 1 / e.2) [(1, 1), (2, 1)]).sum = 9 / 4 := by norm_num
    rw [this, div_eq_iff r1.ne'] at r2
    linarith
  refine ⟨hP, hall, hv, ?_⟩
  rw [hv] at r3
  norm_num at r3
  linarith

end Ecl.Fusion
