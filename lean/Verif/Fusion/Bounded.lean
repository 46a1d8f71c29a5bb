import Verif.Fusion.Accuracy
import Verif.Fusion.Airspeed
import Verif.Fusion.Sideslip
import Verif.Fusion.YawProps
import Verif.Fusion.Drag
import Verif.Fusion.Declination
import Verif.Fusion.Flow
import Verif.Terrain.Props

/-!
# Property C155 — bounded influence of one measurement

Whatever a sensor delivers, one fusion moves no state further than the gate times the standard deviation the filter reported for that
state just before.
EKF/vel_pos_fusion.cpp:48-229, airspeed_fusion.cpp:47-200, sideslip_fusion.cpp:47-250, mag_fusion.cpp:462-700, gps_yaw_fusion.cpp:47-190,
drag_fusion.cpp:47-330, optflow_fusion.cpp:50-420, terrain_estimator.cpp:134-281.
-/

namespace Ecl.Fusion
open Ecl.Cov

/-- `s'` is `s`, or `s` with every component `i` moved by at most `b i` and the attitude quaternion then scaled to unit length -/
def Spec.MovedAtMost (b s s' : Vec ℝ) : Prop :=
  s' = s ∨ ∃ d : Vec ℝ, (∀ i, |d i| ≤ b i) ∧
    ∀ i, s' i = if i.val < 4 then
        (s i + d i) / Real.sqrt ((s 0 + d 0) ^ 2 + (s 1 + d 1) ^ 2 + (s 2 + d 2) ^ 2 + (s 3 + d 3) ^ 2)
      else s i + d i

/-- `g` times the reported standard deviation of every state -/
noncomputable def Spec.sigmas (g : ℝ) (P : Mat ℝ) : Vec ℝ := fun i => g * Real.sqrt (P i i)

/-- all states but the attitude move by at most the bound -/
theorem movedAtMost_linear {b s s' : Vec ℝ} (h : Spec.MovedAtMost b s s') (hb : ∀ i, 0 ≤ b i) (i : Fin N) (hi : 4 ≤ i.val) :
    |s' i - s i| ≤ b i := by
  rcases h with rfl | ⟨d, h1, h2⟩
  · simpa using hb i
  · rw [h2 i, if_neg (by omega)]
    simpa using h1 i

theorem sigmas_nonneg {g : ℝ} (hg : 0 ≤ g) (P : Mat ℝ) (i : Fin N) : 0 ≤ Spec.sigmas g P i := mul_nonneg hg (Real.sqrt_nonneg _)

/-- the correction of state `i` -/
theorem move_sq_le {P : Mat ℝ} (hP : Spec.PSD P) (h : Vec ℝ) {S g v : ℝ} (hS : Spec.form P h h < S) (hv : v ^ 2 ≤ g ^ 2 * S) (i : Fin N) :
    (Spec.mulVec P h i / S * v) ^ 2 ≤ g ^ 2 * (Spec.mulVec P h i ^ 2 / S) ∧ Spec.mulVec P h i ^ 2 / S ≤ P i i := by
  have hS0 : 0 < S := lt_of_le_of_lt (hP.nonneg h) hS
  have h1 := mulVec_sq_le hP h (sub_pos.mpr hS) i
  have e : Spec.innovVar P h (S - Spec.form P h h) = S := by unfold Spec.innovVar; ring
  rw [e] at h1
  refine ⟨?_, by rw [div_le_iff₀ hS0]; exact h1⟩
  have : (Spec.mulVec P h i / S * v) ^ 2 = Spec.mulVec P h i ^ 2 / S * (v ^ 2 / S) := by field_simp
  rw [this]
  have h2 : v ^ 2 / S ≤ g ^ 2 := by rw [div_le_iff₀ hS0]; exact hv
  have h3 : 0 ≤ Spec.mulVec P h i ^ 2 / S := by positivity
  calc _ ≤ Spec.mulVec P h i ^ 2 / S * g ^ 2 := mul_le_mul_of_nonneg_left h2 h3
    _ = _ := by ring

theorem move_le {P : Mat ℝ} (hP : Spec.PSD P) (h : Vec ℝ) {S g v : ℝ} (hg : 0 ≤ g) (hS : Spec.form P h h < S) (hv : v ^ 2 ≤ g ^ 2 * S) (i : Fin N) :
    |Spec.mulVec P h i / S * v| ≤ Spec.sigmas g P i := by
  obtain ⟨h1, h2⟩ := move_sq_le hP h hS hv i
  have h3 : (Spec.mulVec P h i / S * v) ^ 2 ≤ g ^ 2 * P i i := h1.trans (mul_le_mul_of_nonneg_left h2 (by positivity))
  have := Real.abs_le_sqrt h3
  rwa [Real.sqrt_mul (by positivity), Real.sqrt_sq hg] at this

theorem gain_le {P : Mat ℝ} (hP : Spec.PSD P) (h : Vec ℝ) {R g v : ℝ} (hg : 0 ≤ g) (hR : 0 < R) (sel : Fin N → Prop) [DecidablePred sel]
    (hv : v ^ 2 ≤ g ^ 2 * Spec.innovVar P h R) (i : Fin N) : |Spec.gain P h R sel i * v| ≤ Spec.sigmas g P i := by
  unfold Spec.gain
  split
  · exact move_le hP h hg (by unfold Spec.innovVar; linarith) hv i
  · simpa using sigmas_nonneg hg P i

theorem moved_fuseState {b s k : Vec ℝ} {v : ℝ} (hk : ∀ i, |k i * v| ≤ b i) : Spec.MovedAtMost b s (fuseState s k v) := by
  refine Or.inr ⟨fun i => -(k i * v), fun i => by rw [abs_neg]; exact hk i, fun i => ?_⟩
  unfold fuseState
  simp only [sub_eq_add_neg]

theorem moved_update {b k : Vec ℝ} {v : ℝ} (x : FixIn ℝ) (h : Vec ℝ) (f : Filt) (hk : ∀ i, |k i * v| ≤ b i) :
    Spec.MovedAtMost b f.s (update x k h v f).1.s := by
  rcases update_state x k h v f with ⟨-, e⟩ | ⟨-, e⟩
  · rw [e]
    refine moved_fuseState fun i => ?_
    split
    · rw [zero_mul, abs_zero]; exact (abs_nonneg _).trans (hk i)
    · exact hk i
  · exact Or.inl e

theorem moved_apply {b k : Vec ℝ} {v : ℝ} (x : FixIn ℝ) (h : Vec ℝ) (f : Filt) (hk : ∀ i, |k i * v| ≤ b i) :
    Spec.MovedAtMost b f.s (Spec.applyGain x k h f v).1.s := by
  unfold Spec.applyGain
  dsimp only
  split
  · exact moved_fuseState hk
  · exact Or.inl rfl

theorem pick_mul (P : Mat ℝ) (m l : Fin N) : Spec.mulVec P (Spec.pick m) l = P l m := by unfold Spec.mulVec Spec.pick; simp

theorem pick_form (P : Mat ℝ) (m n : Fin N) : Spec.form P (Spec.pick m) (Spec.pick n) = P m n := by unfold Spec.form Spec.pick; simp

/-- direct observation of one state -/
theorem moved_direct (x : FixIn ℝ) (m : Fin N) {S g v : ℝ} (f : Filt) (hP : Spec.PSD f.P) (hg : 0 ≤ g) (hS : f.P m m < S) (hv : v ^ 2 ≤ g ^ 2 * S) :
    Spec.MovedAtMost (Spec.sigmas g f.P) f.s (Spec.directFusion x m S v f).1.s := by
  refine moved_apply x _ f fun i => ?_
  have := move_le hP (Spec.pick m) hg (by rw [pick_form]; exact hS) hv i
  rwa [pick_mul] at this

theorem clip_sq {i L : ℝ} (hL : 0 ≤ L) : (max (-L) (min i L)) ^ 2 ≤ L ^ 2 := by
  have h1 : -L ≤ max (-L) (min i L) := le_max_left _ _
  have h2 : max (-L) (min i L) ≤ L := max_le (by linarith) (min_le_right _ _)
  exact sq_le_sq' h1 h2

/-! ### Single measurements -/

/-- **C155 (height).** Whatever the innovation, and whether or not the vertical acceleration is flagged as bad. -/
theorem height_bounded (x : VPIn) (i g r : ℝ) (hg : 0 < g) (hr : 0 < r) (st : VPSt) (hP : Spec.PSD st.f.P) :
    Spec.MovedAtMost (Spec.sigmas g st.f.P) st.f.s (fuseVerticalPosition x i g r st).st.f.s := by
  have h9 := diag_nonneg hP 9
  obtain ⟨h1, -, -, h2, h3⟩ := vpos_gate x st i g r hg (by linarith)
  rcases hb : (fuseVerticalPosition x i g r st).ret with _ | _
  · left; rw [h2 hb]
  · rw [h3 hb]
    refine moved_direct x.fx 9 st.f hP hg.le (by linarith) ?_
    have hS : (0 : ℝ) ≤ st.f.P 9 9 + r := by linarith
    split
    · refine (clip_sq (by positivity)).trans ?_
      rw [mul_pow, Real.sq_sqrt hS]
    · rename_i hbad
      rcases h1.mp hb with h | h
      · exact h
      · exact absurd h hbad

/-- **C155 (vertical velocity).** -/
theorem vertical_velocity_bounded (x : VPIn) (i g r : ℝ) (hg : 0 < g) (hr : 0 < r) (st : VPSt) (hP : Spec.PSD st.f.P) :
    Spec.MovedAtMost (Spec.sigmas g st.f.P) st.f.s (fuseVerticalVelocity x i g r st).st.f.s := by
  have h9 := diag_nonneg hP 6
  obtain ⟨h1, -, -, h2, h3⟩ := vvel_gate x st i g r hg (by linarith)
  rcases hb : (fuseVerticalVelocity x i g r st).ret with _ | _
  · left; rw [h2 hb]
  · rw [h3 hb]
    refine moved_direct x.fx 6 st.f hP hg.le (by linarith) ?_
    have hS : (0 : ℝ) ≤ st.f.P 6 6 + r := by linarith
    split
    · refine (clip_sq (by positivity)).trans ?_
      rw [mul_pow, Real.sq_sqrt hS]
    · rename_i hbad
      rcases h1.mp hb with h | h
      · exact h
      · exact absurd h hbad

/-- **C155 (airspeed).** -/
theorem airspeed_bounded (x : AspIn) (st : AspSt) (hP : Spec.PSD st.f.P) :
    Spec.MovedAtMost (Spec.sigmas (max x.gate 1) st.f.P) st.f.s (fuseAirspeed x st).f.s := by
  obtain ⟨h1, h2⟩ := airspeed_fusion x st hP.symm
  by_cases hv : Spec.airspeed st.f.s < 1
  · left; rw [h1 hv]
  · obtain ⟨H, -, -, h3, h4⟩ := h2 (not_lt.mp hv)
    have hR : 0 < Spec.airspeedVar x.easNoise x.eas2tas := lt_of_lt_of_le (by norm_num) (airspeedVar_range _ _).1
    have hS := innovVar_ge hP H (Spec.airspeedVar x.easNoise x.eas2tas)
    by_cases hgate : (Spec.airspeed st.f.s - x.tas) ^ 2 ≤ (max x.gate 1) ^ 2 * Spec.innovVar st.f.P H (Spec.airspeedVar x.easNoise x.eas2tas)
    · rw [h4 hS hgate]
      exact moved_update x.fx H st.f fun i => gain_le hP H (le_trans zero_le_one (le_max_right _ _)) hR _ hgate i
    · left; rw [h3 hS (not_le.mp hgate)]

/-- **C155 (synthetic sideslip).** -/
theorem sideslip_bounded (x : BetaIn) (st : BetaSt) (hP : Spec.PSD st.f.P) (hx : Spec.bodyAir st.f.s 0 ≠ 0) (hn : x.betaNoise ≠ 0) :
    Spec.MovedAtMost (Spec.sigmas (max x.gate 1) st.f.P) st.f.s (fuseSideslip x st).f.s := by
  obtain ⟨h1, h2⟩ := sideslip_fusion x st hP.symm
  by_cases hv : Real.sqrt (∑ i, Spec.bodyAir st.f.s i ^ 2) ≤ 7
  · left; rw [h1 hv]
  · have hR : 0 < x.betaNoise ^ 2 := by positivity
    obtain ⟨H, -, -, h3, h4⟩ := h2 (not_le.mp hv) hx hR
    have hS := innovVar_ge hP H (x.betaNoise ^ 2)
    by_cases hgate : Spec.sideslip st.f.s ^ 2 ≤ (max x.gate 1) ^ 2 * Spec.innovVar st.f.P H (x.betaNoise ^ 2)
    · rw [h4 hS hgate]
      exact moved_update x.fx H st.f fun i => gain_le hP H (le_trans zero_le_one (le_max_right _ _)) hR _ hgate i
    · left; rw [h3 hS (not_le.mp hgate)]

theorem headingUpdate_moved {fuse : ℝ → Filt × Bool} {S g v : ℝ} {c : Bool} {rj : ℝ} {now : UInt64} {st st' : YawSt} (hS : 0 < S) (b : Vec ℝ)
    (h : Spec.HeadingUpdate fuse S g v c rj now st st') (hf : ∀ w : ℝ, w ^ 2 ≤ g ^ 2 * S → Spec.MovedAtMost b st.f.s (fuse w).1.s) :
    Spec.MovedAtMost b st.f.s st'.f.s := by
  obtain ⟨-, -, -, h1, h2⟩ := h
  by_cases hv : v ^ 2 ≤ g ^ 2 * S
  · rw [(h1 hv).2.2.1]; exact hf v hv
  · obtain ⟨-, h3, h4⟩ := h2 (not_le.mp hv)
    cases c
    · left; rw [(h3 rfl).1]
    · rw [(h4 rfl).2.1]
      refine hf _ ?_
      rw [mul_pow, mul_pow, Real.sq_sqrt hS.le]
      have : ((SignType.sign v : SignType) : ℝ) ^ 2 ≤ 1 := by
        rcases lt_trichotomy v 0 with h | h | h
        · rw [sign_neg h]; norm_num
        · rw [h, sign_zero]; norm_num
        · rw [sign_pos h]; norm_num
      have h0 : 0 ≤ g ^ 2 * S := by positivity
      nlinarith

/-- **C155 (magnetic, vision or pseudo heading).** An innovation outside the gate is dropped or, on ground, clamped to the gate. -/
theorem heading_bounded (b : Bool) (x : HdgIn) (Rte : M3 ℝ) (yaw variance : ℝ) (zero : Bool) (st : YawSt) (hP : Spec.PSD st.f.P)
    (hb : let R := (attQuat st.f.s).dcm
      if b then 0 < R 0 0 ∨ R 1 0 ≠ 0 else 0 < R 1 1 ∨ R 0 1 ≠ 0) :
    Spec.MovedAtMost (Spec.sigmas (max x.gate 1) st.f.P) st.f.s (fuseYaw b x Rte yaw variance zero st).f.s := by
  obtain ⟨h1, h2⟩ := yaw_fusion b x Rte yaw variance zero st hb
  have hcases : ∀ p : Prop, p ∨ ¬ p := Classical.em
  rcases hcases _ with hs | hs
  · left; rw [h1 hs]
  · obtain ⟨H, -, -, h4⟩ := h2 hs
    have hR : 0 < max variance (1 / 10000) := lt_of_lt_of_le (by norm_num) (le_max_right _ _)
    have hS := innovVar_ge hP H (max variance (1 / 10000))
    refine headingUpdate_moved (lt_of_lt_of_le hR hS) _ (h4 hS) fun w hw => ?_
    exact moved_apply x.fx H st.f fun i => gain_le hP H (le_trans zero_le_one (le_max_right _ _)) hR _ hw i

/-- **C155 (GPS heading).** -/
theorem gps_heading_bounded (x : GpsYawIn) (st : YawSt) (hP : Spec.PSD st.f.P)
    (hb : 0 < Spec.antenna (attQuat st.f.s).dcm x.off 0 ∨ Spec.antenna (attQuat st.f.s).dcm x.off 1 ≠ 0) :
    Spec.MovedAtMost (Spec.sigmas (max x.gate 1) st.f.P) st.f.s (fuseGpsYaw x st).f.s := by
  obtain ⟨h1, h2, h3⟩ := gpsYaw_fusion x st hP.symm hb
  by_cases ha : Real.sqrt 3 / 2 < |Spec.antenna x.Rte x.off 2|
  · left; rw [h1 ha]
  by_cases hc : |Spec.antenna (attQuat st.f.s).dcm x.off 0| < 1 / 1000
  · left; rw [h2 hc]
  obtain ⟨H, -, -, h4⟩ := h3 (not_lt.mp ha) (not_lt.mp hc)
  have h5 : (0 : ℝ) < max x.noise (1 / 100) := lt_of_lt_of_le (by norm_num) (le_max_right _ _)
  have hR : 0 < max x.noise (1 / 100) ^ 2 := by positivity
  have hS := innovVar_ge hP H (max x.noise (1 / 100) ^ 2)
  refine headingUpdate_moved (lt_of_lt_of_le hR hS) _ (h4 hS) fun w hw => ?_
  exact moved_update x.fx H st.f fun i => gain_le hP H (le_trans zero_le_one (le_max_right _ _)) hR _ hw i

/-! ### Measurements with two components -/

/-- two corrections in a row -/
theorem two_moves {p q a b g : ℝ} (hg : 0 ≤ g) (hq : 0 ≤ q) (ha : a ^ 2 ≤ g ^ 2 * (p - q)) (hb : b ^ 2 ≤ g ^ 2 * q) : |a + b| ≤ g * Real.sqrt (2 * p) := by
  have h : (a + b) ^ 2 ≤ g ^ 2 * (2 * p) := by nlinarith [sq_nonneg (a - b)]
  have := Real.abs_le_sqrt h
  rwa [Real.sqrt_mul (by positivity), Real.sqrt_sq hg] at this

theorem moved_direct_pair (x : FixIn ℝ) (m n : Fin N) {v w g R0 R1 : ℝ} (hg : 0 ≤ g) (hR0 : 0 < R0) (hR1 : 0 < R1) (f : Filt) (hP : Spec.PSD f.P)
    (hq : Spec.Quiet x (Spec.afterDirect f.P m (f.P m m + R0))) (hv : v ^ 2 ≤ g ^ 2 * (f.P m m + R0)) (hw : w ^ 2 ≤ g ^ 2 * (f.P n n + R1))
    (i : Fin N) (hi : 4 ≤ i.val) :
    |(Spec.directFusion x n (f.P n n + R1) w (Spec.directFusion x m (f.P m m + R0) v f).1).1.s i - f.s i| ≤ g * Real.sqrt (2 * f.P i i) := by
  have hm := diag_nonneg hP m
  have hn := diag_nonneg hP n
  have hS : f.P m m < f.P m m + R0 := by linarith
  obtain ⟨h0, h1⟩ := direct_quiet x m (f.P m m + R0) v f hP hS hq
  have hP1 := psd_afterDirect hP m hR0
  have hn1 : Spec.afterDirect f.P m (f.P m m + R0) n n < f.P n n + R1 := by
    have : 0 ≤ f.P n m * f.P m n / (f.P m m + R0) := by
      rw [hP.symm m n]; exact div_nonneg (mul_self_nonneg _) (by linarith)
    show f.P n n - _ < _
    linarith
  generalize hf1 : (Spec.directFusion x m (f.P m m + R0) v f).1 = f1 at *
  rw [← h1] at hP1 hn1
  have h2 := (directFusion_applied x n (f.P n n + R1) w f1 hP1 (by linarith) hn1).2
  rw [h2, fuseState_lin hi, h0, fuseState_lin hi]
  have e : f.s i - f.P i m / (f.P m m + R0) * v - f1.P i n / (f.P n n + R1) * w - f.s i =
      -(f.P i m / (f.P m m + R0) * v) + -(f1.P i n / (f.P n n + R1) * w) := by ring
  rw [e]
  have a1 := move_sq_le hP (Spec.pick m) (by rw [pick_form]; exact hS) hv i
  have a2 := move_sq_le hP1 (Spec.pick n) (by rw [pick_form]; exact hn1) hw i
  simp only [pick_mul] at a1 a2
  refine two_moves (q := f1.P i i) hg (diag_nonneg hP1 i) ?_ ?_
  · rw [neg_sq]
    have : f.P i i - f1.P i i = f.P i m ^ 2 / (f.P m m + R0) := by
      rw [h1]; unfold Spec.afterDirect; rw [hP.symm m i]; ring
    rw [this]; exact a1.1
  · rw [neg_sq]
    exact a2.1.trans (mul_le_mul_of_nonneg_left a2.2 (by positivity))

/-- **C155 (horizontal velocity).** Both components together move no state other than the attitude by more than the gate times `√2` standard
deviations (no limit acting on the covariance between the two components). -/
theorem horizontal_velocity_bounded (x : VPIn) (i0 i1 g r0 r1 : ℝ) (hg : 0 < g) (h0 : 0 < r0) (h1 : 0 < r1) (st : VPSt) (hP : Spec.PSD st.f.P)
    (hq : Spec.Quiet x.fx (Spec.afterDirect st.f.P 4 (st.f.P 4 4 + r0))) (i : Fin N) (hi : 4 ≤ i.val) :
    |(fuseHorizontalVelocity x i0 i1 g r0 r1 st).st.f.s i - st.f.s i| ≤ g * Real.sqrt (2 * st.f.P i i) := by
  have p4 := diag_nonneg hP 4
  have p5 := diag_nonneg hP 5
  obtain ⟨a1, -, -, a2, a3⟩ := hvel_gate x st i0 i1 g r0 r1 hg (by linarith) (by linarith)
  rcases hb : (fuseHorizontalVelocity x i0 i1 g r0 r1 st).ret with _ | _
  · rw [a2 hb]; simp; positivity
  · rw [a3 hb]
    exact moved_direct_pair x.fx 4 5 hg.le h0 h1 st.f hP hq (a1.mp hb).1 (a1.mp hb).2 i hi

/-- **C155 (horizontal position).** As for velocity; with the gate inhibited by the caller the limit is 100 standard deviations. -/
theorem horizontal_position_bounded (x : VPIn) (i0 i1 g r0 r1 : ℝ) (inh : Bool) (hg : 0 < g) (h0 : 0 < r0) (h1 : 0 < r1) (st : VPSt) (hP : Spec.PSD st.f.P)
    (hq : Spec.Quiet x.fx (Spec.afterDirect st.f.P 7 (st.f.P 7 7 + r0))) (i : Fin N) (hi : 4 ≤ i.val) :
    |(fuseHorizontalPosition x i0 i1 g r0 r1 inh st).st.f.s i - st.f.s i| ≤ (if inh then 100 else g) * Real.sqrt (2 * st.f.P i i) := by
  have p4 := diag_nonneg hP 7
  have p5 := diag_nonneg hP 8
  obtain ⟨a1, -, -, a2, a3⟩ := hpos_gate x st i0 i1 g r0 r1 inh hg (by linarith) (by linarith)
  have hG : 0 ≤ (if inh then 100 else g) := by split <;> linarith
  rcases hb : (fuseHorizontalPosition x i0 i1 g r0 r1 inh st).ret with _ | _
  · have e : (fuseHorizontalPosition x i0 i1 g r0 r1 inh st).st.f = st.f := by
      rw [a2 hb]; split <;> rfl
    rw [e]
    simpa using mul_nonneg hG (Real.sqrt_nonneg (2 * st.f.P i i))
  · rw [a3 hb]
    exact moved_direct_pair x.fx 7 8 hG h0 h1 st.f hP hq (a1.mp hb).1 (a1.mp hb).2 i hi

/-- **C155 (drag).** Each of the two axes moves the wind estimate by at most five of its standard deviations just before that axis, and nothing else. -/
theorem drag_bounded (x : DragIn) (st : DragSt) (hP : Spec.PSD st.f.P) :
    ∃ mid : DragSt, Spec.MovedAtMost (fun i => if 22 ≤ i.val then Spec.sigmas 5 st.f.P i else 0) st.f.s mid.f.s ∧
      (Spec.PSD mid.f.P → Spec.MovedAtMost (fun i => if 22 ≤ i.val then Spec.sigmas 5 mid.f.P i else 0) mid.f.s (fuseDrag x st).f.s) := by
  have key : ∀ {u : ℝ} {a : Fin 2} {s s' : DragSt} {go : Bool}, Spec.PSD s.f.P → Spec.DragAxis x u a s s' go →
      Spec.MovedAtMost (fun i => if 22 ≤ i.val then Spec.sigmas 5 s.f.P i else 0) s.f.s s'.f.s := by
    intro u a s s' go hs h
    obtain ⟨H, -, h1, h2⟩ := h
    have hR : 0 < max x.noise (1 / 2) := lt_of_lt_of_le (by norm_num) (le_max_right _ _)
    have hS := innovVar_ge hs H (max x.noise (1 / 2))
    obtain ⟨-, -, -, -, h3⟩ := h2 hS
    rw [h3]
    split
    · rename_i hv
      refine moved_update x.fx H s.f fun i => ?_
      have := gain_le hs H (g := 5) (by norm_num) hR (fun i => 22 ≤ i.val) (by norm_num at hv ⊢; exact hv) i
      by_cases hi : 22 ≤ i.val
      · rw [if_pos hi]; exact this
      · rw [if_neg hi]; unfold Spec.gain; rw [if_neg hi]; simp
    · exact Or.inl rfl
  obtain ⟨h1, h2⟩ := drag_fusion x st hP.symm
  by_cases hb : x.bcoefX < 1 ∨ x.bcoefY < 1
  · exact ⟨st, Or.inl rfl, fun _ => Or.inl (by rw [h1 hb])⟩
  · push Not at hb
    obtain ⟨mid, go, h3, h4, h5⟩ := h2 hb.1 hb.2
    refine ⟨mid, key hP h3, fun hm => ?_⟩
    cases go
    · left; rw [h4 rfl]
    · obtain ⟨go', h6⟩ := h5 rfl
      exact key hm h6

/-- **C155 (declination).** The declination observation has no gate; its innovation is limited to half a radian, so it moves a state by at most
`1/2 / σ` standard deviations (the horizontal field is then limited as well). -/
theorem declination_bounded (x : DeclIn) (fx : FixIn ℝ) (sigma : ℝ) (hsg : 0 < sigma) (st : DeclSt) (hP : Spec.PSD st.f.P)
    (hb : 0 < st.f.s 16 ∨ st.f.s 17 ≠ 0) (i : Fin N) (hi : 4 ≤ i.val) (h16 : i.val ≠ 16) (h17 : i.val ≠ 17) :
    |(fuseDeclination x fx sigma st).f.s i - st.f.s i| ≤ 1 / 2 / sigma * Real.sqrt (st.f.P i i) := by
  have hB : 0 ≤ 1 / 2 / sigma * Real.sqrt (st.f.P i i) := by positivity
  obtain ⟨h1, h2⟩ := declination_fusion x fx sigma st hP.symm hb
  by_cases hn : |st.f.s 16| < 1 / 1000000
  · rw [h1 hn]; simpa using hB
  obtain ⟨H, -, h3, h4⟩ := h2 (not_lt.mp hn)
  by_cases hf : Spec.form st.f.P H H ≤ 0
  · rw [h3 hf]; simpa using hB
  · rw [h4 (not_le.mp hf)]
    dsimp only
    have hR : 0 < sigma ^ 2 := by positivity
    have hS := innovVar_ge hP H (sigma ^ 2)
    generalize hv : max (-(1 / 2)) (min (Spec.declOf st.f.s - if x.alignedInFlight then Spec.declOf st.f.s else Spec.declRef x) (1 / 2)) = v
    have hv2 : v ^ 2 ≤ (1 / 2 / sigma) ^ 2 * Spec.innovVar st.f.P H (sigma ^ 2) := by
      have h5 : v ^ 2 ≤ (1 / 2) ^ 2 := by rw [← hv]; exact clip_sq (by norm_num)
      have h6 : (1 / 2 / sigma) ^ 2 * sigma ^ 2 = (1 / 2) ^ 2 := by field_simp
      calc v ^ 2 ≤ (1 / 2) ^ 2 := h5
        _ = (1 / 2 / sigma) ^ 2 * sigma ^ 2 := h6.symm
        _ ≤ _ := mul_le_mul_of_nonneg_left hS (by positivity)
    have hm := moved_update fx H st.f fun j => gain_le hP H (g := 1 / 2 / sigma) (by positivity) hR (fun _ => True) hv2 j
    have := movedAtMost_linear hm (fun j => sigmas_nonneg (by positivity) _ j) i hi
    split
    · have e : ∀ s : Vec ℝ, limitDeclination x s i = s i := by
        intro s; exact (limitDeclination_spec x s).1 i ⟨h16, h17⟩
      rw [e]; exact this
    · exact this

/-- **C155 (optical flow).** Both axes together move no state other than the attitude by more than twice the gate times its standard deviation (no limit acting
on the covariance between the two axes), although the second axis mixes gains computed before and after the first. -/
theorem flow_bounded (x : FlowIn) (st : FlowSt) (hP : Spec.PSD st.f.P)
    (hq : ∀ H : Vec ℝ, Spec.IsGradient (Spec.flowPred (Spec.flowRange x st.f.s) 0) st.f.s H →
      Spec.Quiet x.fx (Spec.afterRow st.f.P H (flowMeasVar x) (fun _ => True))) (i : Fin N) (hi : 4 ≤ i.val) :
    |(fuseOptFlow x st).f.s i - st.f.s i| ≤ 2 * (max x.gate 1 * Real.sqrt (st.f.P i i)) := by
  have hg : (0 : ℝ) ≤ max x.gate 1 := le_trans zero_le_one (le_max_right _ _)
  have hB : 0 ≤ max x.gate 1 * Real.sqrt (st.f.P i i) := by positivity
  have hR := Terrain.flowMeasVar_pos x
  obtain ⟨H, hH, -, -, h⟩ := flow_fusion x st hP.symm
  obtain ⟨rej, -, h1, h2⟩ := h (innovVar_ge hP _ _) (innovVar_ge hP _ _)
  by_cases hf : ∀ a : Fin 2, ¬ (max x.gate 1) ^ 2 * Spec.innovVar st.f.P (H a) (flowMeasVar x) < Spec.flowInnov x st.f.s a ^ 2
  · rw [h2 hf]
    dsimp only
    have g0 := not_lt.mp (hf 0)
    have g1 := not_lt.mp (hf 1)
    obtain ⟨e1, e2⟩ := update_quiet x.fx (H 0) (flowMeasVar x) hR (fun _ => True) (Spec.flowInnov x st.f.s 0) st.f hP (hq _ (hH 0))
    have b0 : |(update x.fx (Spec.gain st.f.P (H 0) (flowMeasVar x) (fun _ => True)) (H 0) (Spec.flowInnov x st.f.s 0) st.f).1.s i - st.f.s i|
        ≤ max x.gate 1 * Real.sqrt (st.f.P i i) :=
      movedAtMost_linear (moved_update x.fx (H 0) st.f fun j => gain_le hP (H 0) hg hR _ g0 j) (fun j => sigmas_nonneg hg _ j) i hi
    generalize (update x.fx (Spec.gain st.f.P (H 0) (flowMeasVar x) (fun _ => True)) (H 0) (Spec.flowInnov x st.f.s 0) st.f).1 = f1 at *
    have hk := kalman_update_valid hP (H 0) hR
    have hPf : f1.P = fun a b => st.f.P a b - Spec.mulVec st.f.P (H 0) a / Spec.innovVar st.f.P (H 0) (flowMeasVar x) * Spec.mulVec st.f.P (H 0) b := by
      rw [e2]; funext a b; unfold Spec.afterRow; simp only [if_true]; ring
    have hP1 : Spec.PSD f1.P := by rw [hPf]; exact hk.2.1
    have hd1 : ∀ j, f1.P j j ≤ st.f.P j j := by intro j; rw [hPf]; exact (hk.2.2 j).2
    have hform : Spec.form f1.P (H 1) (H 1) ≤ Spec.form st.f.P (H 1) (H 1) := by
      rw [hPf]
      have : Spec.form (fun a b => st.f.P a b - Spec.mulVec st.f.P (H 0) a / Spec.innovVar st.f.P (H 0) (flowMeasVar x) * Spec.mulVec st.f.P (H 0) b) (H 1) (H 1)
          = Spec.form st.f.P (H 1) (H 1) - (∑ a, H 1 a * Spec.mulVec st.f.P (H 0) a) ^ 2 / Spec.innovVar st.f.P (H 0) (flowMeasVar x) := by
        rw [pow_two, Finset.sum_mul_sum, Finset.sum_div]
        unfold Spec.form
        rw [← Finset.sum_sub_distrib]
        refine Finset.sum_congr rfl fun a _ => ?_
        rw [Finset.sum_div, ← Finset.sum_sub_distrib]
        exact Finset.sum_congr rfl fun b _ => by ring
      rw [this]
      have : 0 ≤ (∑ a, H 1 a * Spec.mulVec st.f.P (H 0) a) ^ 2 / Spec.innovVar st.f.P (H 0) (flowMeasVar x) := div_nonneg (sq_nonneg _) hk.1.le
      linarith
    have hb1 : ∀ j : Fin N, |Spec.mulVec (if j.val ≤ 6 then st.f.P else f1.P) (H 1) j / Spec.innovVar st.f.P (H 1) (flowMeasVar x) * Spec.flowInnov x st.f.s 1|
        ≤ Spec.sigmas (max x.gate 1) st.f.P j := by
      intro j
      split
      · exact move_le hP (H 1) hg (by unfold Spec.innovVar; linarith) g1 j
      · refine (move_le hP1 (H 1) hg (by unfold Spec.innovVar; linarith) g1 j).trans ?_
        exact mul_le_mul_of_nonneg_left (Real.sqrt_le_sqrt (hd1 j)) hg
    have b1 := movedAtMost_linear (moved_update x.fx (H 1) f1 hb1) (fun j => sigmas_nonneg hg _ j) i hi
    have tri := abs_sub_le ((update x.fx (fun j => Spec.mulVec (if j.val ≤ 6 then st.f.P else f1.P) (H 1) j / Spec.innovVar st.f.P (H 1) (flowMeasVar x)) (H 1)
      (Spec.flowInnov x st.f.s 1) f1).1.s i) (f1.s i) (st.f.s i)
    have : Spec.sigmas (max x.gate 1) st.f.P i = max x.gate 1 * Real.sqrt (st.f.P i i) := rfl
    linarith
  · push Not at hf
    rw [h1 hf]
    simpa using hB

/-! ### Concrete cases -/

/-- height variance 4, measurement variance 1, gate 3: an innovation of 6 m is accepted and moves the height by 4.8 m; the bound is 6 m -/
example : Spec.PSD (exAt (exDiag 4)).f.P ∧ Spec.sigmas 3 (exAt (exDiag 4)).f.P 9 = 6 ∧
    (fuseVerticalPosition exIn 6 3 1 (exAt (exDiag 4))).st.f.s 9 - (exAt (exDiag 4)).f.s 9 = -24 / 5 := by
  have hP : Spec.PSD (exAt (exDiag 4)).f.P := exDiag_psd (by norm_num)
  have p9 : (exAt (exDiag 4)).f.P 9 9 = 4 := by show exDiag 4 9 9 = 4; unfold exDiag; rw [if_pos rfl, if_pos rfl]
  have s9 : (exAt (exDiag 4)).f.s 9 = 0 := by show (if (9 : Fin N) = 0 then (1 : ℝ) else 0) = 0; rw [if_neg (by decide)]
  refine ⟨hP, ?_, ?_⟩
  · unfold Spec.sigmas; rw [p9, show (4 : ℝ) = 2 ^ 2 by norm_num, Real.sqrt_sq (by norm_num)]; norm_num
  · obtain ⟨h1, -, -, -, h3⟩ := vpos_gate exIn (exAt (exDiag 4)) 6 3 1 (by norm_num) (by rw [p9]; norm_num)
    rw [h3 (h1.mpr (Or.inl (by rw [p9]; norm_num)))]
    show (Spec.directFusion exIn.fx 9 ((exAt (exDiag 4)).f.P 9 9 + 1) 6 (exAt (exDiag 4)).f).1.s 9 - _ = _
    rw [(directFusion_applied exIn.fx 9 _ 6 (exAt (exDiag 4)).f hP (by rw [p9]; norm_num) (by linarith)).2, fuseState_lin (by decide), p9, s9]
    norm_num

/-- non-vacuity of the horizontal theorems: two correlated variances of 100 m² -/
example : Spec.PSD (exAt (exCov 7 8)).f.P ∧ Spec.Quiet exIn.fx (Spec.afterDirect (exAt (exCov 7 8)).f.P 7 ((exAt (exCov 7 8)).f.P 7 7 + 1)) ∧
    Spec.PSD (exAt (exCov 4 5)).f.P ∧ Spec.Quiet exIn.fx (Spec.afterDirect (exAt (exCov 4 5)).f.P 4 ((exAt (exCov 4 5)).f.P 4 4 + 1)) :=
  ⟨exCov_psd 7 8, exQuiet ⟨fun _ => false, true, true, 1 / 100, 0, false⟩ 7 8 7 (by decide) (by decide) (by decide) (Or.inl rfl) (by norm_num),
    exCov_psd 4 5, exQuiet ⟨fun _ => false, true, true, 1 / 100, 0, false⟩ 4 5 4 (by decide) (by decide) (by decide) (Or.inl rfl) (by norm_num)⟩

/-- non-vacuity of the other theorems: unit attitude, flying north at 10 m/s, identity covariance -/
example : Spec.PSD exFilt.P ∧ 1 ≤ Spec.airspeed exFilt.s ∧ Spec.bodyAir exFilt.s 0 ≠ 0 ∧ 0 < (attQuat exFilt.s).dcm 0 0 ∧ 0 < (attQuat exFilt.s).dcm 1 1 ∧
    0 < Spec.antenna (attQuat exFilt.s).dcm 0 0 := by
  refine ⟨idCov_psd, ?_, ?_, ?_, ?_, ?_⟩
  · have : Spec.airspeed exFilt.s = 10 := by
      show Spec.airspeed exState = 10
      unfold Spec.airspeed exState
      rw [show (10 : ℝ) = Real.sqrt (10 ^ 2) by rw [Real.sqrt_sq]; norm_num]
      congr 1; simp
    rw [this]; norm_num
  · show Spec.bodyAir exState 0 ≠ 0
    rw [bodyAir_0]; simp [exState]
  · simp [attQuat, exFilt, exState, Quat.dcm]
  · simp [attQuat, exFilt, exState, Quat.dcm]
  · simp [Spec.antenna, attQuat, exFilt, exState, Quat.dcm]

/-- non-vacuity of `declination_bounded` -/
example : ∃ st : DeclSt, Spec.PSD st.f.P ∧ 0 < st.f.s 16 := by
  refine ⟨⟨{ exFilt with s := setMagNE exState (1 / 2) 0 }, false⟩, idCov_psd, ?_⟩
  show 0 < setMagNE exState (1 / 2) 0 16
  rw [setMagNE_16]; norm_num

/-- non-vacuity of `flow_bounded`: level, at rest, one metre above the terrain -/
example (x : FlowIn) (b r : Fin 2 → Bool) (hx : x.fx = exFx x.fx) (ht : x.terrain = 1) (hc : x.gndClearance = 1 / 10) (hR : x.rToEarth = 0) :
    let st : FlowSt := ⟨(exAt (exDiag 4)).f, b, r, 0, 0, 0, 0, 0, 0⟩
    Spec.PSD st.f.P ∧ ∀ H : Vec ℝ, Spec.IsGradient (Spec.flowPred (Spec.flowRange x st.f.s) 0) st.f.s H →
      Spec.Quiet x.fx (Spec.afterRow st.f.P H (flowMeasVar x) (fun _ => True)) := by
  intro st
  have hP : Spec.PSD st.f.P := exDiag_psd (by norm_num)
  have hs : ∀ i : Fin N, st.f.s i = if i = 0 then 1 else 0 := fun i => rfl
  refine ⟨hP, fun H hH => ?_⟩
  have hr : Spec.flowRange x st.f.s = 1 := by
    unfold Spec.flowRange
    rw [ht, hc, hR]
    have : (attQuat st.f.s).dcm 2 2 = 1 := by
      simp [attQuat, hs, Quat.dcm]
    rw [this, hs 9, if_neg (by decide)]
    simp
    norm_num
  rw [hr] at hH
  have hg : Spec.IsGradient (Spec.flowPred 1 0) st.f.s (Spec.pick 5) := by
    intro d
    simp only [Spec.flowPred, if_true, bodyVel_1]
    refine hasDerivAt_of_cubic (b := ∑ i, Spec.pick 5 i * d i) fun t => ?_
    have : ∑ i, Spec.pick 5 i * d i = d 5 := by unfold Spec.pick; simp
    rw [this]
    have e0 : st.f.s 0 = 1 := hs 0
    have e : ∀ i : Fin N, i ≠ 0 → st.f.s i = 0 := fun i hi => by rw [hs]; exact if_neg hi
    rw [e0, e 1 (by decide), e 2 (by decide), e 3 (by decide), e 4 (by decide), e 5 (by decide), e 6 (by decide)]
    ring
  have hH5 : H = Spec.pick 5 := by
    funext j
    have := (hH (Pi.single j 1)).unique (hg (Pi.single j 1))
    simpa [Pi.single_apply] using this
  have hV := (flow_variance x).2.1
  have hpos := Terrain.flowMeasVar_pos x
  generalize flowMeasVar x = R at *
  have hd : ∀ i j : Fin N, st.f.P i j = exDiag 4 i j := fun _ _ => rfl
  have hrow : ∀ i : Fin N, Spec.afterRow st.f.P H R (fun _ => True) i i = if i = 5 then 1 / 10 * R / (1 / 10 + R) else exDiag 4 i i := by
    intro i
    have h55 : exDiag 4 5 5 = 1 / 10 := by unfold exDiag; rw [if_pos rfl, if_neg (by decide), if_neg (by decide)]
    unfold Spec.afterRow Spec.innovVar
    rw [hH5, pick_mul, pick_form, hd, hd, hd, h55]
    simp only [if_true]
    by_cases hi : i = 5
    · subst hi
      have : 0 < 1 / 10 + R := by linarith
      rw [h55, if_pos rfl]; field_simp; ring
    · rw [if_neg hi]
      have : exDiag 4 i 5 = 0 := by unfold exDiag; rw [if_neg hi]
      rw [this]; ring
  have hq := exDiag_quiet x.fx (c := 4) (by norm_num) (by norm_num)
  have hlow : (1 : ℝ) / 1000000 ≤ 1 / 10 * R / (1 / 10 + R) ∧ 1 / 10 * R / (1 / 10 + R) ≤ 1 / 10 := by
    have h1 : 0 < 1 / 10 + R := by linarith
    rw [le_div_iff₀ h1, div_le_iff₀ h1]
    constructor <;> nlinarith
  rw [hx]
  have n5 : ∀ i : Fin N, i.val ≠ 5 → Spec.afterRow st.f.P H R (fun _ => True) i i = exDiag 4 i i := by
    intro i hi; rw [hrow, if_neg (fun h => hi (by rw [h]; rfl))]
  refine ⟨hq.mag, hq.wind, hq.inh, hq.bias, hq.clock, fun i hi => ?_, fun i h1 h2 => ?_, fun i h1 h2 => ?_, fun i h1 h2 => ?_, fun i h1 h2 => ?_, fun i h1 => ?_⟩
  · rw [n5 i (by omega)]; exact hq.quat i hi
  · by_cases h5 : i.val = 5
    · rw [hrow, if_pos (Fin.ext h5)]; constructor <;> linarith
    · rw [n5 i h5]; exact hq.kin i h1 h2
  · rw [n5 i (by omega)]; exact hq.gyro i h1 h2
  · rw [n5 i (by omega)]
    obtain ⟨a1, a2, a3⟩ := hq.acc i h1 h2
    exact ⟨a1, a2, fun j h3 h4 => by rw [n5 j (by omega)]; exact a3 j h3 h4⟩
  · rw [n5 i (by omega)]; exact hq.field i h1 h2
  · rw [n5 i (by omega)]; exact hq.windVar i h1

end Ecl.Fusion

namespace Ecl.Terrain
open Ecl.Fusion

/-- **C155 (terrain, range finder).** One range measurement moves the terrain estimate by at most the gate times its reported standard deviation, unless no
measurement was accepted for ten seconds: then the estimate is set to the measurement. -/
theorem range_bounded (x : In) (st : St) (h0 : 0 ≤ st.var) (hn : x.rngNoise ≠ 0) :
    |(fuseHagl x st).vpos - st.vpos| ≤ max x.rngGate 1 * Real.sqrt st.var ∨
    (isTimedOut x.now st.tHagl 10000000 = true ∧ (fuseHagl x st).vpos = x.s 9 + x.distBottom) := by
  have hR := obsVar_pos hn
  have hg : (0 : ℝ) < max x.rngGate 1 := lt_of_lt_of_le zero_lt_one (le_max_right _ _)
  have hB : 0 ≤ max x.rngGate 1 * Real.sqrt st.var := by positivity
  unfold fuseHagl
  dsimp only
  rw [max_eq_left (by linarith : obsVar x ≤ st.var + obsVar x)]
  split
  · rename_i hr
    left
    generalize st.vpos - x.s 9 - x.distBottom = v at *
    have hS : 0 < st.var + obsVar x := by linarith
    have hv : v ^ 2 ≤ (max x.rngGate 1) ^ 2 * (st.var + obsVar x) := by
      rw [div_le_one (by unfold sq; positivity)] at hr
      unfold sq at hr
      simpa [pow_two] using hr
    have h1 : (st.var / (st.var + obsVar x) * v) ^ 2 ≤ (max x.rngGate 1) ^ 2 * st.var := by
      have : (st.var / (st.var + obsVar x) * v) ^ 2 = st.var ^ 2 * v ^ 2 / (st.var + obsVar x) ^ 2 := by field_simp
      rw [this, div_le_iff₀ (by positivity)]
      have h2 : st.var ^ 2 * v ^ 2 ≤ st.var ^ 2 * ((max x.rngGate 1) ^ 2 * (st.var + obsVar x)) := mul_le_mul_of_nonneg_left hv (by positivity)
      have h3 : 0 ≤ (max x.rngGate 1) ^ 2 * st.var * (st.var + obsVar x) * obsVar x := by positivity
      nlinarith
    have := Real.abs_le_sqrt h1
    rw [Real.sqrt_mul (by positivity), Real.sqrt_sq hg.le] at this
    simpa [abs_sub_comm] using this
  · split
    · rename_i ht; right; exact ⟨ht, rfl⟩
    · left; simpa using hB

theorem flowAxis_moves (x : In) (a : Fin 2) (h pred : ℝ) (st : St) (h0 : 0 ≤ st.var) :
    0 ≤ (flowAxis x a h pred st).var ∧
    ((flowAxis x a h pred st).vpos - st.vpos) ^ 2 ≤ (max x.flow.gate 1) ^ 2 * (st.var - (flowAxis x a h pred st).var) := by
  have hR := flowMeasVar_pos x.flow
  have hg : (0 : ℝ) < max x.flow.gate 1 := lt_of_lt_of_le zero_lt_one (le_max_right _ _)
  unfold flowAxis
  dsimp only
  generalize flowMeasVar x.flow = R at *
  generalize pred - flowRate x.flow a = v at *
  have hS : 0 < h * h * st.var + R := by have := mul_nonneg (mul_self_nonneg h) h0; linarith
  split
  · rename_i hr
    dsimp only
    have hv : v ^ 2 ≤ (max x.flow.gate 1) ^ 2 * (h * h * st.var + R) := by
      rw [div_le_one (by unfold sq; positivity)] at hr
      unfold sq at hr
      simpa [pow_two] using hr
    have hk : st.var - st.var * h / (h * h * st.var + R) * h * st.var = st.var * R / (h * h * st.var + R) := by
      field_simp; ring
    have hk0 : 0 ≤ st.var * R / (h * h * st.var + R) := by positivity
    rw [hk, max_eq_left hk0]
    refine ⟨hk0, ?_⟩
    have e1 : st.var - st.var * R / (h * h * st.var + R) = (st.var * h) ^ 2 / (h * h * st.var + R) := by field_simp; ring
    have e2 : (st.vpos + st.var * h / (h * h * st.var + R) * v - st.vpos) ^ 2 = (st.var * h) ^ 2 / (h * h * st.var + R) * (v ^ 2 / (h * h * st.var + R)) := by
      field_simp; ring
    rw [e1, e2]
    have h2 : v ^ 2 / (h * h * st.var + R) ≤ (max x.flow.gate 1) ^ 2 := by rw [div_le_iff₀ hS]; exact hv
    have h3 : 0 ≤ (st.var * h) ^ 2 / (h * h * st.var + R) := by positivity
    have := mul_le_mul_of_nonneg_left h2 h3
    linarith
  · exact ⟨h0, by simp⟩

/-- **C155 (terrain, optical flow).** The terrain is first kept below the vehicle; from there both axes together move it by at most the gate times `√2` of its
reported standard deviations. -/
theorem terrain_flow_bounded (x : In) (st : St) (h0 : 0 ≤ st.var) :
    |(fuseFlow x st).vpos - max st.vpos (x.flow.gndClearance + x.s 9)| ≤ max x.flow.gate 1 * Real.sqrt (2 * st.var) := by
  have hg : (0 : ℝ) ≤ max x.flow.gate 1 := le_trans zero_le_one (le_max_right _ _)
  unfold fuseFlow
  dsimp only
  rw [max_eq_left h0]
  generalize hs : ({ st with vpos := max st.vpos (x.flow.gndClearance + x.s 9), var := st.var } : St) = s0
  have hv : s0.vpos = max st.vpos (x.flow.gndClearance + x.s 9) := by rw [← hs]
  have hv2 : s0.var = st.var := by rw [← hs]
  obtain ⟨a1, a2⟩ := flowAxis_moves x 0 (flowVelBody x.flow x.s 1 * (x.s 0 * x.s 0 - x.s 1 * x.s 1 - x.s 2 * x.s 2 + x.s 3 * x.s 3) *
    (1 / (max st.vpos (x.flow.gndClearance + x.s 9) - x.s 9)) * (1 / (max st.vpos (x.flow.gndClearance + x.s 9) - x.s 9)))
    (flowVelBody x.flow x.s 1 * Utils.quatToInverseRotMat (attQuat x.s) 2 2 * (1 / (max st.vpos (x.flow.gndClearance + x.s 9) - x.s 9))) s0 (by rw [hv2]; exact h0)
  generalize flowAxis x 0 _ _ s0 = s1 at *
  obtain ⟨b1, b2⟩ := flowAxis_moves x 1 (-flowVelBody x.flow x.s 0 * (x.s 0 * x.s 0 - x.s 1 * x.s 1 - x.s 2 * x.s 2 + x.s 3 * x.s 3) *
    (1 / (max st.vpos (x.flow.gndClearance + x.s 9) - x.s 9)) * (1 / (max st.vpos (x.flow.gndClearance + x.s 9) - x.s 9)))
    (-flowVelBody x.flow x.s 0 * Utils.quatToInverseRotMat (attQuat x.s) 2 2 * (1 / (max st.vpos (x.flow.gndClearance + x.s 9) - x.s 9))) s1 a1
  generalize flowAxis x 1 _ _ s1 = s2 at *
  rw [← hv, ← hv2]
  have e : s2.vpos - s0.vpos = (s1.vpos - s0.vpos) + (s2.vpos - s1.vpos) := by ring
  rw [e]
  refine two_moves hg a1 a2 (b2.trans (mul_le_mul_of_nonneg_left (by linarith) (by positivity)))

end Ecl.Terrain
