import Verif.Fusion.HonestEx
import Verif.Meas.GpsMeas

/-!
# One GPS sample: velocity and position errors are correlated — EKF/control.cpp:674-720

Velocity and position innovations are both taken before the velocity is fused; the variance of the position innovation is taken
after it.
-/

namespace Ecl.Fusion
open Ecl.Cov MeasureTheory Ecl.Meas

variable {Ω : Type*} [MeasurableSpace Ω] {μ : Measure Ω}

theorem afterDirect_psd {P : Mat ℝ} (hP : Spec.PSD P) (m : Fin N) {S : ℝ} (hS : P m m < S) : Spec.PSD (Spec.afterDirect P m S) := by
  have hR : 0 < S - P m m := by linarith
  have := (kalman_update_valid hP (Spec.pick m) hR).2.1
  have f1 : ∀ l, Spec.mulVec P (Spec.pick m) l = P l m := by intro l; unfold Spec.mulVec Spec.pick; simp
  have f2 : Spec.innovVar P (Spec.pick m) (S - P m m) = S := by
    unfold Spec.innovVar Spec.form Spec.pick; simp
  simp only [f1, f2] at this
  have e : Spec.afterDirect P m S = fun i j => P i j - P i m / S * P j m := by
    funext i j; unfold Spec.afterDirect; rw [hP.symm m j]; ring
  rw [e]; exact this

/-- one more direct observation of a chain -/
theorem direct_next (x : FixIn ℝ) (m : Fin N) (S v : ℝ) (f : Filt) (Q : Mat ℝ) (hf : f.P = Q) (hP : Spec.PSD Q) (hS : Q m m < S)
    (hq : Spec.Quiet x (Spec.afterDirect Q m S)) :
    (∀ i : Fin N, 4 ≤ i.val → (Spec.directFusion x m S v f).1.s i = f.s i - Q i m / S * v) ∧
    (Spec.directFusion x m S v f).1.P = Spec.afterDirect Q m S ∧ Spec.PSD (Spec.afterDirect Q m S) := by
  subst hf
  obtain ⟨h1, h2⟩ := direct_quiet x m S v f hP hS hq
  refine ⟨fun i hi => ?_, h2, afterDirect_psd hP m hS⟩
  rw [h1, fuseState_lin hi]

theorem afterDirect_le {P : Mat ℝ} (hP : Spec.PSD P) (m : Fin N) {S : ℝ} (hS : 0 < S) (i : Fin N) :
    Spec.afterDirect P m S i i ≤ P i i := by
  unfold Spec.afterDirect
  have : 0 ≤ P i m * P m i / S := by rw [hP.symm m i]; exact div_nonneg (mul_self_nonneg _) hS.le
  linarith

/-- a state uncorrelated with the observed one -/
theorem afterDirect_zero {P : Mat ℝ} (m : Fin N) (S : ℝ) {i : Fin N} (h : P i m = 0) (j : Fin N) :
    Spec.afterDirect P m S i j = P i j := by
  unfold Spec.afterDirect; rw [h]; ring

/-- **C145 (GPS velocity and position, counterexample in general form).** The antenna is at the IMU; north velocity and position
are measured as truth plus noise; the reported covariance is the second moment of the errors, the north components are uncorrelated
with the other velocity and position components, no limit acts and the innovations are inside
the gates.  Then all three observations are accepted, and after the sample the mean square
north position error exceeds the reported variance by `(K · c)² / S`: `c` the covariance of north velocity and position, `S` the
variance of the velocity innovation, `K` the position gain. -/
theorem gps_position_overconfident (x : VPIn) (hx : x.badVertAccel = false) (p : GpsPar) (hp : p.gpsBody = p.imuBody) (R : M3 ℝ)
    (w : V3 ℝ) (other : Bool) (st : VPSt) (s truth : Ω → Vec ℝ) (g : Ω → GpsData) (noise : Ω → Fin 2 → ℝ)
    (Rv Rp : ℝ) (hv0 : 0 < Rv) (hp0 : 0 < Rp) (hRv : ∀ ω, gpsVelVar p (g ω) = ![Rv, Rv, Rv * sq (3 / 2)])
    (hRp : ∀ ω, gpsPosVar p other (g ω) = Rp)
    (hgv : ∀ ω, (g ω).vel 0 = truth ω 4 + noise ω 0) (hgp : ∀ ω, (g ω).pos 0 = truth ω 7 + noise ω 1)
    (hz : ∀ j ∈ ({5, 6, 8} : Set (Fin N)), st.f.P 4 j = 0 ∧ st.f.P 7 j = 0)
    (hens : Spec.Ensemble μ st.f.P (fun ω i => s ω i - truth ω i) noise ![Rv, Rp]) :
    let Q1 := Spec.afterDirect st.f.P 4 (st.f.P 4 4 + Rv)
    let Q2 := Spec.afterDirect Q1 5 (st.f.P 5 5 + Rv)
    let Q3 := Spec.afterDirect Q2 6 (Q2 6 6 + Rv * sq (3 / 2))
    let Q4 := Spec.afterDirect Q3 7 (Q3 7 7 + Rp)
    let Q5 := Spec.afterDirect Q4 8 (Q3 8 8 + Rp)
    let run : Ω → GpsFused := fun ω => gpsFuse x p R w other (g ω) (Spec.withState st (s ω))
    (∀ ω, (s ω 4 - (g ω).vel 0) ^ 2 ≤ max p.velGate 1 ^ 2 * (st.f.P 4 4 + Rv) ∧ (s ω 5 - (g ω).vel 1) ^ 2 ≤ max p.velGate 1 ^ 2 * (st.f.P 5 5 + Rv) ∧
      (s ω 6 - (g ω).vel 2) ^ 2 ≤ max p.velGate 1 ^ 2 * (Q2 6 6 + Rv * sq (3 / 2)) ∧
      (s ω 7 - (g ω).pos 0) ^ 2 ≤ max p.posGate 1 ^ 2 * (Q3 7 7 + Rp) ∧ (s ω 8 - (g ω).pos 1) ^ 2 ≤ max p.posGate 1 ^ 2 * (Q3 8 8 + Rp)) →
    Spec.Quiet x.fx Q1 → Spec.Quiet x.fx Q2 → Spec.Quiet x.fx Q3 → Spec.Quiet x.fx Q4 → Spec.Quiet x.fx Q5 →
    let S := st.f.P 4 4 + Rv
    let c := st.f.P 4 7
    let V := st.f.P 7 7 - c ^ 2 / S
    let K := V / (V + Rp)
    (∀ ω, (run ω).hvel.ret = true ∧ (run ω).vvel.ret = true ∧ (run ω).hpos.ret = true) ∧
    ∃ P', (∀ ω, (run ω).hpos.st.f.P = P') ∧ P' 7 7 = V - V ^ 2 / (V + Rp) ∧
      ∫ ω, ((run ω).hpos.st.f.s 7 - truth ω 7) * ((run ω).hpos.st.f.s 7 - truth ω 7) ∂μ = P' 7 7 + (K * c) ^ 2 / S := by
  intro Q1 Q2 Q3 Q4 Q5 run hr q1 q2 q3 q4 q5 S c V K
  have hP := hens.psd
  have hsq : 0 < Rv * sq (3 / 2) := by unfold sq; positivity
  have d4 := diag_nonneg hP 4
  have d5 := diag_nonneg hP 5
  have hS : 0 < S := by show 0 < st.f.P 4 4 + Rv; linarith
  have p1 : Spec.PSD Q1 := afterDirect_psd hP 4 (by linarith)
  have l1 : Q1 5 5 < st.f.P 5 5 + Rv := lt_of_le_of_lt (afterDirect_le hP 4 hS 5) (by linarith)
  have p2 : Spec.PSD Q2 := afterDirect_psd p1 5 l1
  have l2 : Q2 6 6 < Q2 6 6 + Rv * sq (3 / 2) := by linarith
  have p3 : Spec.PSD Q3 := afterDirect_psd p2 6 l2
  have l3 : Q3 7 7 < Q3 7 7 + Rp := by linarith
  have p4 : Spec.PSD Q4 := afterDirect_psd p3 7 l3
  have d3 := diag_nonneg p3 7
  have d38 := diag_nonneg p3 8
  have l4 : Q4 8 8 < Q3 8 8 + Rp := lt_of_le_of_lt (afterDirect_le p3 7 (by linarith) 8) (by linarith)
  -- the north block is decoupled
  have z5 := hz 5 (by simp)
  have z6 := hz 6 (by simp)
  have z8 := hz 8 (by simp)
  have a1 : ∀ j, Q1 7 j = st.f.P 7 j - st.f.P 7 4 * st.f.P 4 j / S := fun j => rfl
  have b5 : Q1 7 5 = 0 := by rw [a1, z5.1, z5.2]; ring
  have b6 : Q1 7 6 = 0 := by rw [a1, z6.1, z6.2]; ring
  have b8 : Q1 7 8 = 0 := by rw [a1, z8.1, z8.2]; ring
  have c2 : ∀ j, Q2 7 j = Q1 7 j := fun j => afterDirect_zero 5 _ b5 j
  have c3 : ∀ j, Q3 7 j = Q1 7 j := fun j => by rw [← c2]; exact afterDirect_zero 6 _ (by rw [c2, b6]) j
  have c8 : Q4 7 8 = 0 := by
    show Q3 7 8 - Q3 7 7 * Q3 7 8 / _ = 0
    rw [c3 8, b8]; ring
  have hV : Q3 7 7 = V := by
    rw [c3, a1, hP.symm 7 4]; show _ = st.f.P 7 7 - st.f.P 4 7 ^ 2 / S; ring
  have c5 : Q5 7 7 = Q4 7 7 := afterDirect_zero 8 _ c8 7
  have c4 : Q4 7 7 = V - V ^ 2 / (V + Rp) := by
    show Q3 7 7 - Q3 7 7 * Q3 7 7 / (Q3 7 7 + Rp) = _
    rw [hV]; ring
  -- run the code
  have hcor : ∀ ω, gpsCorrect p R w (g ω) = g ω := by
    intro ω
    unfold gpsCorrect
    have h0 : p.gpsBody - p.imuBody = 0 := by rw [hp, sub_self]
    have hc0 : cross3 w (0 : V3 ℝ) = 0 := by funext k; fin_cases k <;> simp [cross3]
    simp only [h0, hc0, Matrix.mulVec_zero, Pi.zero_apply, sub_zero, add_zero]
  have hg1 : 0 < max p.velGate 1 := lt_of_lt_of_le one_pos (le_max_right _ _)
  have hg2 : 0 < max p.posGate 1 := lt_of_lt_of_le one_pos (le_max_right _ _)
  have hrun : ∀ ω, ((run ω).hvel.ret = true ∧ (run ω).vvel.ret = true ∧ (run ω).hpos.ret = true) ∧ (run ω).hpos.st.f.P = Q5 ∧ (run ω).hpos.st.f.s 7 =
      s ω 7 - st.f.P 7 4 / S * (s ω 4 - (truth ω 4 + noise ω 0)) - V / (V + Rp) * (s ω 7 - (truth ω 7 + noise ω 1)) := by
    intro ω
    obtain ⟨i0, i1, i2, i3, i4⟩ := hr ω
    rw [hgv ω] at i0
    rw [hgp ω] at i3
    have o1 : (run ω).hvel = fuseHorizontalVelocity x (s ω 4 - (truth ω 4 + noise ω 0)) (s ω 5 - (g ω).vel 1) (max p.velGate 1) Rv Rv
        (Spec.withState st (s ω)) := by
      show fuseHorizontalVelocity x ((gpsObs p R w (g ω) (s ω)).velInnov 0) ((gpsObs p R w (g ω) (s ω)).velInnov 1) _
        ((gpsObs p R w (g ω) (s ω)).lastVelVar 0) ((gpsObs p R w (g ω) (s ω)).lastVelVar 1) _ = _
      unfold gpsObs
      simp only [hcor, hRv, ← hgv]
      rfl
    have o2 : (run ω).vvel = fuseVerticalVelocity x (s ω 6 - (g ω).vel 2) (max p.velGate 1) (Rv * sq (3 / 2)) (run ω).hvel.st := by
      show fuseVerticalVelocity x ((gpsObs p R w (g ω) (s ω)).velInnov 2) _ ((gpsObs p R w (g ω) (s ω)).lastVelVar 2) (run ω).hvel.st = _
      generalize (run ω).hvel.st = q
      unfold gpsObs
      simp only [hcor, hRv]
      rfl
    have o3 : (run ω).hpos = fuseHorizontalPosition x (s ω 7 - (truth ω 7 + noise ω 1)) (s ω 8 - (g ω).pos 1) (max p.posGate 1) Rp Rp
        false (run ω).vvel.st := by
      show fuseHorizontalPosition x ((gpsObs p R w (g ω) (s ω)).posInnov 0) ((gpsObs p R w (g ω) (s ω)).posInnov 1) _
        (gpsPosVar p other (gpsObs p R w (g ω) (s ω)).data) (gpsPosVar p other (gpsObs p R w (g ω) (s ω)).data) false (run ω).vvel.st = _
      generalize (run ω).vvel.st = q
      unfold gpsObs
      simp only [hcor, hRp, ← hgp]
      rfl
    obtain ⟨t1, -, -, -, k1⟩ := hvel_gate x (Spec.withState st (s ω)) (s ω 4 - (truth ω 4 + noise ω 0)) (s ω 5 - (g ω).vel 1)
      (max p.velGate 1) Rv Rv hg1 (by show 0 < st.f.P 4 4 + Rv; linarith) (by show 0 < st.f.P 5 5 + Rv; linarith)
    have r1 := t1.mpr ⟨i0, i1⟩
    have k1 := k1 r1
    rw [← o1] at k1 r1
    obtain ⟨e1, m1, -⟩ := direct_next x.fx 4 (st.f.P 4 4 + Rv) (s ω 4 - (truth ω 4 + noise ω 0)) (Spec.withState st (s ω)).f st.f.P rfl hP
      (by linarith) q1
    obtain ⟨e2, m2, -⟩ := direct_next x.fx 5 (st.f.P 5 5 + Rv) (s ω 5 - (g ω).vel 1) _ Q1 m1 p1 l1 q2
    have hf1 : (run ω).hvel.st.f = (Spec.directFusion x.fx 5 (st.f.P 5 5 + Rv) (s ω 5 - (g ω).vel 1)
        (Spec.directFusion x.fx 4 (st.f.P 4 4 + Rv) (s ω 4 - (truth ω 4 + noise ω 0)) (Spec.withState st (s ω)).f).1).1 := by
      rw [k1]; rfl
    rw [← hf1] at e2 m2
    have hvv : (run ω).hvel.st.f.P 6 6 = Q2 6 6 := by rw [m2]
    obtain ⟨t2, -, -, -, k2⟩ := vvel_gate x (run ω).hvel.st (s ω 6 - (g ω).vel 2) (max p.velGate 1) (Rv * sq (3 / 2)) hg1
      (by rw [hvv]; have := diag_nonneg p2 6; linarith)
    have r2 := t2.mpr (Or.inl (by rw [hvv]; exact i2))
    have k2 := k2 r2
    rw [← o2] at k2 r2
    simp only [hx, hvv] at k2
    obtain ⟨e3, m3, -⟩ := direct_next x.fx 6 (Q2 6 6 + Rv * sq (3 / 2)) (s ω 6 - (g ω).vel 2) _ Q2 m2 p2 l2 q3
    have hf2 : (run ω).vvel.st.f = (Spec.directFusion x.fx 6 (Q2 6 6 + Rv * sq (3 / 2)) (s ω 6 - (g ω).vel 2) (run ω).hvel.st.f).1 := by
      rw [k2]; rfl
    rw [← hf2] at e3 m3
    have h77 : (run ω).vvel.st.f.P 7 7 = Q3 7 7 := by rw [m3]
    have h88 : (run ω).vvel.st.f.P 8 8 = Q3 8 8 := by rw [m3]
    obtain ⟨t3, -, -, -, k3⟩ := hpos_gate x (run ω).vvel.st (s ω 7 - (truth ω 7 + noise ω 1)) (s ω 8 - (g ω).pos 1) (max p.posGate 1) Rp Rp false hg2
      (by rw [h77]; linarith) (by rw [h88]; linarith)
    have r3 := t3.mpr (by rw [h77, h88]; exact ⟨i3, i4⟩)
    have k3 := k3 r3
    rw [← o3] at k3 r3
    simp only [h77, h88] at k3
    obtain ⟨e4, m4, -⟩ := direct_next x.fx 7 (Q3 7 7 + Rp) (s ω 7 - (truth ω 7 + noise ω 1)) _ Q3 m3 p3 l3 q4
    obtain ⟨e5, m5, -⟩ := direct_next x.fx 8 (Q3 8 8 + Rp) (s ω 8 - (g ω).pos 1) _ Q4 m4 p4 l4 q5
    have hf3 : (run ω).hpos.st.f = (Spec.directFusion x.fx 8 (Q3 8 8 + Rp) (s ω 8 - (g ω).pos 1)
        (Spec.directFusion x.fx 7 (Q3 7 7 + Rp) (s ω 7 - (truth ω 7 + noise ω 1)) (run ω).vvel.st.f).1).1 := by
      rw [k3]
    rw [← hf3] at e5 m5
    refine ⟨⟨r1, r2, r3⟩, m5, ?_⟩
    have h7 : 4 ≤ (7 : Fin N).val := by decide
    rw [e5 7 h7, e4 7 h7, e3 7 h7, e2 7 h7, e1 7 h7, b5, c2, b6, c8, hV]
    show s ω 7 - _ - _ - _ - _ - _ = _
    ring
  refine ⟨fun ω => (hrun ω).1, Q5, fun ω => (hrun ω).2.1, by rw [c5, c4], ?_⟩
  have hm := corrected_moments hens (![Spec.pick 4, Spec.pick 7]) (![fun _ => st.f.P 7 4 / S, fun _ => V / (V + Rp)]) 7 7
  have hpk : ∀ (m : Fin N) (ω : Ω), ∑ l, Spec.pick m l * (s ω l - truth ω l) = s ω m - truth ω m := by
    intro m ω; unfold Spec.pick; simp
  have he : ∀ ω, (run ω).hpos.st.f.s 7 - truth ω 7 = (s ω 7 - truth ω 7) - ∑ a : Fin 2,
      (![fun _ => st.f.P 7 4 / S, fun _ => V / (V + Rp)] : Fin 2 → Vec ℝ) a 7
        * ((∑ l, (![Spec.pick 4, Spec.pick 7] : Fin 2 → Vec ℝ) a l * (s ω l - truth ω l)) - noise ω a) := by
    intro ω
    rw [(hrun ω).2.2, Fin.sum_univ_two]
    simp only [Matrix.cons_val_zero, Matrix.cons_val_one, hpk]
    ring
  simp only [he]
  rw [hm]
  have f1 : ∀ m l, Spec.mulVec st.f.P (Spec.pick m) l = st.f.P l m := by intro m l; unfold Spec.mulVec Spec.pick; simp
  have f2 : ∀ m n, Spec.form st.f.P (Spec.pick m) (Spec.pick n) = st.f.P m n := by intro m n; unfold Spec.form Spec.pick; simp
  simp only [Fin.sum_univ_two, Matrix.cons_val_zero, Matrix.cons_val_one, f1, f2, if_true, zero_ne_one, one_ne_zero,
    if_false, add_zero]
  rw [c5, c4, hP.symm 7 4]
  have hVp : V + Rp ≠ 0 := by rw [← hV]; have := hp0; linarith
  have e77 : st.f.P 7 7 = V + st.f.P 4 7 ^ 2 / S := by show _ = st.f.P 7 7 - _ + _; ring
  have e44 : st.f.P 4 4 + Rv = S := rfl
  have ec : st.f.P 4 7 = c := rfl
  have eK : K = V / (V + Rp) := rfl
  rw [e77, e44, eK, ec]
  have hS' := hS.ne'
  generalize V = V at *
  generalize S = S at *
  generalize c = c at *
  field_simp
  ring


theorem ex_quiet_vp (Q : Mat ℝ) (hone : ∀ i : Fin N, 4 ≤ i.val → i.val < 10 → 1 / 1000000 ≤ Q i i ∧ Q i i ≤ 1)
    (h : ∀ i : Fin N, (i.val < 4 ∨ 10 ≤ i.val) → Q i i = exDev i ^ 2) : Spec.Quiet exFix Q := by
  have hacc : ∀ i : Fin N, 13 ≤ i.val → i.val < 16 → Q i i = 1 / 1000000 := by
    intro i h1 h2
    rw [h i (by omega)]
    unfold exDev
    rw [if_neg (by omega), if_neg (by omega), if_neg (by omega), if_pos h2]; norm_num
  have hlast : ∀ i : Fin N, 19 ≤ i.val → Q i i = 1 := by
    intro i h1
    rw [h i (by omega)]
    unfold exDev
    rw [if_neg (by omega), if_neg (by omega), if_neg (by omega), if_neg (by omega), if_neg (by omega)]; norm_num
  have hzero : ∀ i : Fin N, (i.val < 4 ∨ (10 ≤ i.val ∧ i.val < 13) ∨ (16 ≤ i.val ∧ i.val < 19)) → Q i i = 0 := by
    intro i hi
    rw [h i (by omega)]
    unfold exDev
    rcases hi with hi | hi | hi
    · rw [if_pos hi]; norm_num
    · rw [if_neg (by omega), if_neg (by omega), if_pos hi.2]; norm_num
    · rw [if_neg (by omega), if_neg (by omega), if_neg (by omega), if_neg (by omega), if_pos hi.2]; norm_num
  refine ⟨rfl, rfl, fun _ => rfl, rfl, by decide, fun i hi => ?_, fun i h1 h2 => ?_, fun i h1 h2 => ?_, fun i h1 h2 => ?_, fun i h1 h2 => ?_,
    fun i h1 => ?_⟩
  · rw [hzero i (Or.inl hi)]; norm_num
  · have := hone i h1 h2; exact ⟨this.1, by linarith [this.2]⟩
  · rw [hzero i (Or.inr (Or.inl ⟨h1, h2⟩))]; norm_num
  · rw [hacc i h1 h2]
    refine ⟨by norm_num, by unfold exFix; norm_num, fun j h3 h4 => by rw [hacc j h3 h4]; norm_num⟩
  · by_cases h3 : i.val < 19
    · rw [hzero i (Or.inr (Or.inr ⟨h1, h3⟩))]; norm_num
    · rw [hlast i (by omega)]; norm_num
  · rw [hlast i (by omega)]; norm_num

/-- the example's covariance: north velocity and position correlated -/
theorem exP47 (i j : Fin N) : exP 4 7 i j = if i = j then (if i = 7 then 1 else exDev i ^ 2) else
    if (i = 4 ∧ j = 7) ∨ (i = 7 ∧ j = 4) then 3 / 5 else 0 := by
  have hd : exDev 4 = 1 := by unfold exDev; rw [if_neg (by decide), if_pos (by decide)]
  unfold exP exL
  rw [sum_two]
  by_cases h : i = j
  · subst h
    by_cases h7 : i = 7
    · subst h7; simp only [if_true, if_neg (show ¬ (7 : Fin N) = 4 by decide)]; norm_num
    · by_cases h4 : i = 4
      · subst h4; simp [hd, h7]
      · simp [h7]; ring
  · by_cases h7 : i = 7
    · subst h7
      by_cases j4 : j = 4
      · subst j4; simp [hd]
      · have : j ≠ 7 := fun e => h e.symm
        simp [this, h, j4]
    · by_cases j7 : j = 7
      · subst j7
        by_cases i4 : i = 4
        · subst i4; simp [hd]
        · simp [h7, i4]
      · simp [h, h7, j7]

/-- diagonal `d`, covariance `e` between states 4 and 7 -/
def pat (d : Vec ℝ) (e : ℝ) : Mat ℝ := fun i j => if i = j then d i else if (i = 4 ∧ j = 7) ∨ (i = 7 ∧ j = 4) then e else 0

theorem pat_after (d : Vec ℝ) (e : ℝ) (m : Fin N) (S : ℝ) (h4 : m ≠ 4) (h7 : m ≠ 7) :
    Spec.afterDirect (pat d e) m S = pat (Function.update d m (d m - d m * d m / S)) e := by
  funext i j
  unfold Spec.afterDirect pat
  simp only [h4, h7, and_false, or_false, false_and, if_false, Function.update_apply]
  by_cases hi : i = m
  · subst hi
    by_cases hj : i = j
    · subst hj; simp
    · simp [hj, h4, h7]
  · simp [hi]

theorem pat_after4 (d : Vec ℝ) (e S : ℝ) :
    Spec.afterDirect (pat d e) 4 S = pat (Function.update (Function.update d 4 (d 4 - d 4 * d 4 / S)) 7 (d 7 - e * e / S)) (e - d 4 * e / S) := by
  have ne : (4 : Fin N) ≠ 7 := by decide
  have ne' : (7 : Fin N) ≠ 4 := by decide
  funext i j
  unfold Spec.afterDirect pat
  simp only [Function.update_apply]
  by_cases hi : i = 4
  · subst hi
    by_cases hj : j = 4
    · subst hj; simp [ne]
    · by_cases hj7 : j = 7
      · subst hj7; simp [ne]
      · simp [Ne.symm hj, hj7, ne]
  · by_cases hi7 : i = 7
    · subst hi7
      by_cases hj : j = 4
      · subst hj; simp [ne']; ring
      · by_cases hj7 : j = 7
        · subst hj7; simp [ne, ne']
        · simp [Ne.symm hj, Ne.symm hj7, hj, hj7, ne']
    · simp [hi, hi7]

theorem pat_after7 (d : Vec ℝ) (e S : ℝ) :
    Spec.afterDirect (pat d e) 7 S = pat (Function.update (Function.update d 7 (d 7 - d 7 * d 7 / S)) 4 (d 4 - e * e / S)) (e - d 7 * e / S) := by
  have ne : (4 : Fin N) ≠ 7 := by decide
  have ne' : (7 : Fin N) ≠ 4 := by decide
  funext i j
  unfold Spec.afterDirect pat
  simp only [Function.update_apply]
  by_cases hi : i = 4
  · subst hi
    by_cases hj : j = 4
    · subst hj; simp [ne, ne']
    · by_cases hj7 : j = 7
      · subst hj7; simp [ne, ne']; ring
      · simp [Ne.symm hj, Ne.symm hj7, hj, hj7, ne]
  · by_cases hi7 : i = 7
    · subst hi7
      by_cases hj : j = 4
      · subst hj; simp [ne, ne']
      · by_cases hj7 : j = 7
        · subst hj7; simp [ne']
        · simp [Ne.symm hj7, hj, hj7, ne']
    · simp [hi, hi7]

/-- GPS parameters of the example: antenna at the IMU, noise 0.1, gates 1000 -/
noncomputable def exGpsPar : GpsPar := ⟨0, 0, 1 / 10, 1 / 10, 1 / 10, 1000, 1000⟩

/-- **C145 (GPS, magnitude).** There is a situation in which everything else is right (the covariance is that of the errors, gates
pass, no limit acts) and after one GPS sample the filter reports a north position variance below 0.01 while the mean square error
is above 1/3. -/
theorem gps_variance_too_small : ∃ (x : VPIn) (p : GpsPar) (st : VPSt) (s truth : Out → Vec ℝ) (g : Out → GpsData)
    (noise : Out → Fin 2 → ℝ),
    IsProbabilityMeasure unif ∧ x.badVertAccel = false ∧ p.gpsBody = p.imuBody ∧
    Spec.Ensemble unif st.f.P (fun ω i => s ω i - truth ω i) noise (fun _ => 1 / 100) ∧
    (∀ ω, gpsVelVar p (g ω) 0 = 1 / 100 ∧ gpsPosVar p true (g ω) = 1 / 100 ∧
      (g ω).vel 0 = truth ω 4 + noise ω 0 ∧ (g ω).pos 0 = truth ω 7 + noise ω 1) ∧
    ∃ P', let run : Out → GpsFused := fun ω => gpsFuse x p 1 0 true (g ω) (Spec.withState st (s ω))
      (∀ ω, (run ω).hvel.ret = true ∧ (run ω).vvel.ret = true ∧ (run ω).hpos.ret = true) ∧
      (∀ ω, (run ω).hpos.st.f.P = P') ∧ P' 7 7 < 1 / 100 ∧
      1 / 3 < ∫ ω, ((run ω).hpos.st.f.s 7 - truth ω 7) * ((run ω).hpos.st.f.s 7 - truth ω 7) ∂unif := by
  obtain ⟨g, hg⟩ : ∃ g : Out → GpsData, g = fun ω => ⟨![exTruth 4 + exNoise (1 / 10) ω 0, 0, 0], ![exTruth 7 + exNoise (1 / 10) ω 1, 0], 0,
    1 / 10, 1 / 10⟩ := ⟨_, rfl⟩
  have hRv : ∀ ω, gpsVelVar exGpsPar (g ω) = ![1 / 100, 1 / 100, 1 / 100 * sq (3 / 2)] := by
    intro ω
    have : (sq (max (g ω).sacc exGpsPar.velNoise) : ℝ) = 1 / 100 := by
      rw [hg]; show sq (max (1 / 10) (1 / 10) : ℝ) = _
      rw [max_self]; unfold sq; norm_num
    unfold gpsVelVar
    rw [this]
  have hRp : ∀ ω, gpsPosVar exGpsPar true (g ω) = 1 / 100 := by
    intro ω
    unfold gpsPosVar
    rw [if_pos rfl, hg]
    show sq (max (1 / 10) (max (1 / 10) (1 / 100)) : ℝ) = _
    norm_num [sq]
  have hgv : ∀ ω, (g ω).vel 0 = exTruth 4 + exNoise (1 / 10) ω 0 := by intro ω; rw [hg]; rfl
  have hgp : ∀ ω, (g ω).pos 0 = exTruth 7 + exNoise (1 / 10) ω 1 := by intro ω; rw [hg]; rfl
  have herr : ∀ (ω : Out) (i : Fin N), exTruth i + exErr 4 7 ω i - exTruth i = exErr 4 7 ω i := fun ω i => by ring
  have hens0 := ex_ens 4 7 (1 / 10)
  have hP : (exVP (exHon 4 7)).f.P = pat (fun i => if i = 7 then 1 else exDev i ^ 2) (3 / 5) := by
    funext i j; exact exP47 i j
  have hens : Spec.Ensemble unif (exVP (exHon 4 7)).f.P (fun ω i => (exTruth i + exErr 4 7 ω i) - exTruth i) (exNoise (1 / 10))
      (fun _ => 1 / 100) := by
    simp only [herr]
    have : (fun _ : Fin 2 => (1 / 100 : ℝ)) = fun _ => (1 / 10) ^ 2 := by funext _; norm_num
    rw [this]; exact hens0
  have hens' : Spec.Ensemble unif (exVP (exHon 4 7)).f.P (fun ω i => (exTruth i + exErr 4 7 ω i) - exTruth i) (exNoise (1 / 10))
      ![1 / 100, 1 / 100] := by
    have : (![1 / 100, 1 / 100] : Fin 2 → ℝ) = fun _ => 1 / 100 := by funext a; fin_cases a <;> rfl
    rw [this]; exact hens
  obtain ⟨d, hd⟩ : ∃ d : Vec ℝ, d = fun i => if i = 7 then 1 else exDev i ^ 2 := ⟨_, rfl⟩
  rw [← hd] at hP
  have hdo : ∀ i : Fin N, (i.val < 4 ∨ 10 ≤ i.val) → d i = exDev i ^ 2 := by
    intro i hi
    rw [hd]
    show (if i = 7 then _ else _) = _
    rw [if_neg (by rintro rfl; revert hi; decide)]
  have hdi : ∀ i : Fin N, 4 ≤ i.val → i.val < 10 → d i = 1 := by
    intro i h1 h2
    rw [hd]
    show (if i = 7 then _ else _) = _
    unfold exDev
    rw [if_neg (by omega : ¬ i.val < 4), if_pos h2]; norm_num
  have d4 := hdi 4 (by decide) (by decide)
  have d5 := hdi 5 (by decide) (by decide)
  have d6 := hdi 6 (by decide) (by decide)
  have d7 := hdi 7 (by decide) (by decide)
  have d8 := hdi 8 (by decide) (by decide)
  have main := gps_position_overconfident (μ := unif) ⟨exFix, false, false⟩ rfl exGpsPar rfl 1 0 true (exVP (exHon 4 7))
    (fun ω i => exTruth i + exErr 4 7 ω i) (fun _ => exTruth) g (exNoise (1 / 10)) (1 / 100) (1 / 100) (by norm_num) (by norm_num)
    hRv hRp hgv hgp (by
      rw [hP]
      intro j hj
      rcases hj with rfl | rfl | rfl
      · exact ⟨by unfold pat; simp, by unfold pat; simp⟩
      · exact ⟨by unfold pat; simp, by unfold pat; simp⟩
      · exact ⟨by unfold pat; simp, by unfold pat; simp⟩) hens'
  have pd : ∀ (d : Vec ℝ) e i, pat d e i i = d i := by intro d e i; unfold pat; simp
  have p47 : pat d (3 / 5) 4 7 = 3 / 5 := by unfold pat; simp
  have hs32 : (1 / 100 * sq (3 / 2) : ℝ) = 9 / 400 := by unfold sq; norm_num
  have e1 : Spec.afterDirect (pat d (3 / 5)) 4 (1 + 1 / 100) = pat (Function.update (Function.update d 4 (1 / 101)) 7 (65 / 101)) (3 / 505) := by
    rw [pat_after4, d4, d7]
    norm_num
  obtain ⟨u1, hu1⟩ : ∃ u, u = Function.update (Function.update d 4 (1 / 101)) 7 (65 / 101) := ⟨_, rfl⟩
  have v1 : ∀ i, u1 i = if i = 7 then 65 / 101 else if i = 4 then 1 / 101 else d i := by
    intro i; rw [hu1]; simp only [Function.update_apply]
  have e2 : Spec.afterDirect (pat u1 (3 / 505)) 5 (1 + 1 / 100) = pat (Function.update u1 5 (1 / 101)) (3 / 505) := by
    rw [pat_after _ _ _ _ (by decide) (by decide), v1 5, if_neg (by decide), if_neg (by decide), d5]
    norm_num
  obtain ⟨u2, hu2⟩ : ∃ u, u = Function.update u1 5 (1 / 101) := ⟨_, rfl⟩
  have v2 : ∀ i, u2 i = if i = 5 then 1 / 101 else u1 i := by
    intro i; rw [hu2]; simp only [Function.update_apply]
  have u26 : u2 6 = 1 := by rw [v2, if_neg (by decide), v1, if_neg (by decide), if_neg (by decide), d6]
  have e3 : Spec.afterDirect (pat u2 (3 / 505)) 6 (1 + 9 / 400) = pat (Function.update u2 6 (9 / 409)) (3 / 505) := by
    rw [pat_after _ _ _ _ (by decide) (by decide), u26]
    norm_num
  obtain ⟨u3, hu3⟩ : ∃ u, u = Function.update u2 6 (9 / 409) := ⟨_, rfl⟩
  have v3 : ∀ i, u3 i = if i = 6 then 9 / 409 else u2 i := by
    intro i; rw [hu3]; simp only [Function.update_apply]
  have u37 : u3 7 = 65 / 101 := by
    rw [v3, if_neg (by decide), v2, if_neg (by decide), v1, if_pos rfl]
  have u34 : u3 4 = 1 / 101 := by
    rw [v3, if_neg (by decide), v2, if_neg (by decide), v1, if_neg (by decide), if_pos rfl]
  have u38 : u3 8 = 1 := by
    rw [v3, if_neg (by decide), v2, if_neg (by decide), v1, if_neg (by decide), if_neg (by decide), d8]
  obtain ⟨u4, E4, hu4, e4⟩ : ∃ (u : Vec ℝ) (E : ℝ), (∀ i, u i = if i = 4 then 1 / 101 - 3 / 505 * (3 / 505) / (65 / 101 + 1 / 100) else if i = 7 then 65 / 6601 else u3 i) ∧
      Spec.afterDirect (pat u3 (3 / 505)) 7 (65 / 101 + 1 / 100) = pat u E := by
    rw [pat_after7, u37, u34]
    refine ⟨_, _, fun i => ?_, rfl⟩
    simp only [Function.update_apply]
    norm_num
  have e5 : Spec.afterDirect (pat u4 E4) 8 (1 + 1 / 100) = pat (Function.update u4 8 (1 / 101)) E4 := by
    rw [pat_after _ _ _ _ (by decide) (by decide), hu4 8, if_neg (by decide), if_neg (by decide), u38]
    norm_num
  obtain ⟨u5, hu5⟩ : ∃ u, u = Function.update u4 8 (1 / 101) := ⟨_, rfl⟩
  have v5 : ∀ i, u5 i = if i = 8 then 1 / 101 else u4 i := by
    intro i; rw [hu5]; simp only [Function.update_apply]
  simp only [hP, pd, d4, d5, d7, p47, e1, ← hu1, e2, ← hu2, u26, hs32, e3, ← hu3, u37, u38, e4, e5, ← hu5] at main
  have o1 : ∀ i : Fin N, (i.val < 4 ∨ 10 ≤ i.val) → u1 i = exDev i ^ 2 := by
    intro i hi; rw [v1, if_neg (by rintro rfl; revert hi; decide), if_neg (by rintro rfl; revert hi; decide), hdo i hi]
  have o2 : ∀ i : Fin N, (i.val < 4 ∨ 10 ≤ i.val) → u2 i = exDev i ^ 2 := by
    intro i hi; rw [v2, if_neg (by rintro rfl; revert hi; decide), o1 i hi]
  have o3 : ∀ i : Fin N, (i.val < 4 ∨ 10 ≤ i.val) → u3 i = exDev i ^ 2 := by
    intro i hi; rw [v3, if_neg (by rintro rfl; revert hi; decide), o2 i hi]
  have o4 : ∀ i : Fin N, (i.val < 4 ∨ 10 ≤ i.val) → u4 i = exDev i ^ 2 := by
    intro i hi; rw [hu4, if_neg (by rintro rfl; revert hi; decide), if_neg (by rintro rfl; revert hi; decide), o3 i hi]
  have o5 : ∀ i : Fin N, (i.val < 4 ∨ 10 ≤ i.val) → u5 i = exDev i ^ 2 := by
    intro i hi; rw [v5, if_neg (by rintro rfl; revert hi; decide), o4 i hi]
  have n1 : ∀ i : Fin N, 4 ≤ i.val → i.val < 10 → 1 / 1000000 ≤ u1 i ∧ u1 i ≤ 1 := by
    intro i h1 h2; rw [v1, hdi i h1 h2]; split_ifs <;> norm_num
  have n2 : ∀ i : Fin N, 4 ≤ i.val → i.val < 10 → 1 / 1000000 ≤ u2 i ∧ u2 i ≤ 1 := by
    intro i h1 h2; rw [v2]; split_ifs
    · norm_num
    · exact n1 i h1 h2
  have n3 : ∀ i : Fin N, 4 ≤ i.val → i.val < 10 → 1 / 1000000 ≤ u3 i ∧ u3 i ≤ 1 := by
    intro i h1 h2; rw [v3]; split_ifs
    · norm_num
    · exact n2 i h1 h2
  have n4 : ∀ i : Fin N, 4 ≤ i.val → i.val < 10 → 1 / 1000000 ≤ u4 i ∧ u4 i ≤ 1 := by
    intro i h1 h2; rw [hu4]; split_ifs
    · norm_num
    · norm_num
    · exact n3 i h1 h2
  have n5 : ∀ i : Fin N, 4 ≤ i.val → i.val < 10 → 1 / 1000000 ≤ u5 i ∧ u5 i ≤ 1 := by
    intro i h1 h2; rw [v5]; split_ifs
    · norm_num
    · exact n4 i h1 h2
  have qt : ∀ u e, (∀ i : Fin N, 4 ≤ i.val → i.val < 10 → 1 / 1000000 ≤ u i ∧ u i ≤ 1) →
      (∀ i : Fin N, (i.val < 4 ∨ 10 ≤ i.val) → u i = exDev i ^ 2) → Spec.Quiet exFix (pat u e) := by
    intro u e h1 h2
    refine ex_quiet_vp _ (fun i => ?_) (fun i => ?_)
    · rw [pd]; exact h1 i
    · rw [pd]; exact h2 i
  have hb : ∀ (i : Fin N) ω, 4 ≤ i.val → i.val < 10 → -100 ≤ exTruth i + exErr 4 7 ω i ∧ exTruth i + exErr 4 7 ω i ≤ 90 := by
    intro i ω h1 h2
    have ht : exTruth i = 0 := by
      unfold exTruth; rw [if_neg (by rintro rfl; revert h1; decide)]
    have hdv : exDev i = 1 := by unfold exDev; rw [if_neg (by omega), if_pos h2]
    rw [ht, exErr_eq, hdv]
    have b1 := orth_bound (.inl i) ω
    have b2 := orth_bound (.inl 4) ω
    split_ifs <;> constructor <;> linarith
  have hn : ∀ ω (a : Fin 2), 0 ≤ exNoise (1 / 10) ω a ∧ exNoise (1 / 10) ω a ≤ 1 := by
    intro ω a
    unfold exNoise
    have b := orth_bound (.inr (Fin.castLE (by norm_num) a)) ω
    constructor <;> linarith
  have ht : ∀ i : Fin N, 4 ≤ i.val → exTruth i = 0 := by
    intro i hi; unfold exTruth; rw [if_neg (by rintro rfl; revert hi; decide)]
  have hvg : (max exGpsPar.velGate 1 : ℝ) = 1000 := by show max 1000 1 = (1000 : ℝ); norm_num
  have hpg : (max exGpsPar.posGate 1 : ℝ) = 1000 := by show max 1000 1 = (1000 : ℝ); norm_num
  have sqb : ∀ z : ℝ, -101 ≤ z → z ≤ 101 → z ^ 2 ≤ 10201 := fun z h1 h2 => by nlinarith
  obtain ⟨m0, P', m1, m2, m3⟩ := main (by
      intro ω
      have w1 : (g ω).vel 1 = 0 := by rw [hg]; rfl
      have w2 : (g ω).vel 2 = 0 := by rw [hg]; rfl
      have w3 : (g ω).pos 1 = 0 := by rw [hg]; rfl
      have b4 := hb 4 ω (by decide) (by decide)
      have b5 := hb 5 ω (by decide) (by decide)
      have b6 := hb 6 ω (by decide) (by decide)
      have b7 := hb 7 ω (by decide) (by decide)
      have b8 := hb 8 ω (by decide) (by decide)
      have c0 := hn ω 0
      have c1 := hn ω 1
      have t4 := ht 4 (by decide)
      have t7 := ht 7 (by decide)
      rw [hgv, hgp, w1, w2, w3, hvg, hpg]
      refine ⟨?_, ?_, ?_, ?_, ?_⟩
      · exact le_trans (sqb _ (by linarith) (by linarith)) (by norm_num)
      · exact le_trans (sqb _ (by linarith) (by linarith)) (by norm_num)
      · exact le_trans (sqb _ (by linarith) (by linarith)) (by norm_num)
      · exact le_trans (sqb _ (by linarith) (by linarith)) (by norm_num)
      · exact le_trans (sqb _ (by linarith) (by linarith)) (by norm_num))
    (qt _ _ n1 o1) (qt _ _ n2 o2) (qt _ _ n3 o3) (qt _ _ n4 o4) (qt _ _ n5 o5)
  have hv : P' 7 7 = 65 / 6601 := by rw [m2]; norm_num
  refine ⟨⟨exFix, false, false⟩, exGpsPar, exVP (exHon 4 7), fun ω i => exTruth i + exErr 4 7 ω i, fun _ => exTruth, g, exNoise (1 / 10),
    inferInstance, rfl, rfl, hens, fun ω => ⟨by rw [hRv]; rfl, hRp ω, hgv ω, hgp ω⟩, P', m0, m1, ?_, ?_⟩
  · rw [hv]; norm_num
  · show 1 / 3 < ∫ ω, _ ∂unif
    rw [m3, hv]; norm_num

end Ecl.Fusion
