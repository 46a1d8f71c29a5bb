import Verif.Whole.PsdFix
import Verif.Whole.Closed

/-!
# Measurement updates with the optimal gain keep the covariance valid
-/

namespace Ecl.Whole

open Ecl.Cov Ecl.Fusion

/-- upper limit of the variance of a state: attitude and gyro bias 1, velocity, position and wind 1e6, accelerometer bias `(0.1 g dt)²`, magnetic field 1 -/
noncomputable def Spec.varLimit (dt : ℝ) (i : Fin N) : ℝ :=
  if i.val < 4 then 1 else if i.val < 10 then 1000000 else if i.val < 13 then 1 else if i.val < 16 then (980665 / 1000000 * dt) ^ 2
  else if i.val < 22 then 1 else 1000000

/-- every variance is below its upper limit -/
def Spec.BelowLimits (dt : ℝ) (P : Mat ℝ) : Prop := ∀ i, P i i < Spec.varLimit dt i

theorem below_within {dt : ℝ} {P : Mat ℝ} (h : ∀ i, P i i ≤ Spec.varLimit dt i) : Cov.Spec.WithinLimits dt P := by
  unfold Spec.varLimit at h
  refine ⟨fun i a => ?_, fun i a b => ?_, fun i a b => ?_, fun i a b => ?_, fun i a b => ?_, fun i a => ?_⟩
  · simpa [a] using h i
  · have := h i; rw [if_neg (by omega), if_pos b] at this; exact this
  · have := h i; rw [if_neg (by omega), if_neg (by omega), if_pos b] at this; exact this
  · have := h i; rw [if_neg (by omega), if_neg (by omega), if_neg (by omega), if_pos b] at this; exact this
  · have := h i; rw [if_neg (by omega), if_neg (by omega), if_neg (by omega), if_neg (by omega), if_pos b] at this; exact this
  · have := h i; rw [if_neg (by omega), if_neg (by omega), if_neg (by omega), if_neg (by omega), if_neg (by omega)] at this; exact this

theorem varLimit_pos {dt : ℝ} (hdt : 0 < dt) (i : Fin N) : 0 < Spec.varLimit dt i := by
  unfold Spec.varLimit
  split_ifs <;> positivity

/-- valid covariance with every variance below its limit -/
def Good (dt : ℝ) (f : Filt) : Prop := Spec.PSD f.P ∧ Spec.BelowLimits dt f.P

/-- the conditioning of the covariance at an update: no accelerometer bias axis inhibited, the averaged period is `dt`, at least 0.3 ms -/
def Cond (dt : ℝ) (x : FixIn ℝ) : Prop := (∀ a, x.inhibit a = false) ∧ x.dtEkfAvg = dt ∧ 3 / 10000 ≤ dt

theorem below_cut {dt : ℝ} (hdt : 0 < dt) {A : Mat ℝ} (m w : Bool) (h : Spec.BelowLimits dt A) : Spec.BelowLimits dt (cut m w A) := fun i => by
  unfold cut
  split
  · exact varLimit_pos hdt i
  · exact h i

/-- a matrix with variances below the limits in the states in use: so is the result of the limiter -/
theorem fix_keeps_below {dt : ℝ} {x : FixIn ℝ} (hx : Cond dt x) (force : Bool) (t : UInt64) (fl : Bool) {A : Mat ℝ} (hl : Spec.BelowLimits dt (cut x.mag3D x.wind A)) :
    Spec.BelowLimits dt (fixCovarianceErrors x force t fl A).1 := by
  obtain ⟨hx1, rfl, hx3⟩ := hx
  have hdt : 0 < x.dtEkfAvg := by linarith
  intro i
  have hi := hl i
  have hp := varLimit_pos hdt i
  obtain ⟨l1, l2, l3, l4, l5⟩ := fix_variance_limits x force t fl A i
  by_cases ho : Off x.mag3D x.wind i
  · rcases ho with ⟨a, b, c⟩ | ⟨a, c⟩
    · rw [l4 a b, c, if_neg (by decide)]; exact hp
    · rw [l5 a, c, if_neg (by decide)]; exact hp
  have ec : cut x.mag3D x.wind A i i = A i i := by unfold cut; rw [if_neg (by tauto)]
  rw [ec] at hi
  have fin : ∀ {v lo hi : ℝ}, lo < hi → v < hi → max lo (min v hi) < hi := fun h1 h2 => max_lt h1 (lt_of_le_of_lt (min_le_left _ _) h2)
  unfold Spec.varLimit at hi hp ⊢
  by_cases c1 : i.val < 4
  · rw [if_pos c1] at hi ⊢; rw [l1 c1]; exact fin (by norm_num) hi
  by_cases c2 : i.val < 10
  · rw [if_neg c1, if_pos c2] at hi ⊢; rw [l2 (by omega) c2]; exact fin (by norm_num) hi
  by_cases c3 : i.val < 13
  · rw [if_neg c1, if_neg c2, if_pos c3] at hi ⊢; rw [l3 (by omega) c3]; exact fin (by norm_num) hi
  by_cases c4 : i.val < 16
  · rw [if_neg c1, if_neg c2, if_neg c3, if_pos c4] at hi hp ⊢
    obtain ⟨m, -, hm1, hm, e⟩ := fix_accel_variance x force t fl A ⟨i.val - 13, by omega⟩
    have ei : accIdx ⟨i.val - 13, by omega⟩ = i := Fin.ext (by show 13 + (i.val - 13) = i.val; omega)
    rw [ei, if_neg (by rw [hx1]; decide)] at e
    have h58 : (5 / 100000000 : ℝ) < (980665 / 1000000 * x.dtEkfAvg) ^ 2 := by nlinarith
    have hm' : m / 100 < (980665 / 1000000 * x.dtEkfAvg) ^ 2 := by
      rcases hm with hm | ⟨b, -, hm⟩
      · rw [hm]; nlinarith
      · have hb := hl (accIdx b)
        have hv : (accIdx b).val = 13 + b.val := rfl
        have hno : ¬Off x.mag3D x.wind (accIdx b) := by unfold Off; rw [hv]; omega
        have e' : cut x.mag3D x.wind A (accIdx b) (accIdx b) = A (accIdx b) (accIdx b) := by unfold cut; rw [if_neg (by tauto)]
        rw [e', hm] at hb
        unfold Spec.varLimit at hb
        rw [if_neg (by omega), if_neg (by omega), if_neg (by omega), if_pos (by omega)] at hb
        linarith
    rw [e]
    split
    · exact max_lt hm' h58
    · exact lt_of_le_of_lt (min_le_left _ _) hi
  by_cases c5 : i.val < 22
  · rw [if_neg c1, if_neg c2, if_neg c3, if_neg c4, if_pos c5] at hi ⊢
    rw [l4 (by omega) c5]
    split
    · exact fin (by norm_num) hi
    · norm_num
  · rw [if_neg c1, if_neg c2, if_neg c3, if_neg c4, if_neg c5] at hi ⊢
    rw [l5 (by omega)]
    split
    · exact fin (by norm_num) hi
    · norm_num

theorem fix_good {dt : ℝ} {x : FixIn ℝ} (hx : Cond dt x) (force : Bool) (t : UInt64) (fl : Bool) {A : Mat ℝ} (hP : Spec.PSD (cut x.mag3D x.wind A))
    (hl : Spec.BelowLimits dt (cut x.mag3D x.wind A)) :
    Spec.PSD (fixCovarianceErrors x force t fl A).1 ∧ Spec.BelowLimits dt (fixCovarianceErrors x force t fl A).1 := by
  refine ⟨fix_valid_cut x force t fl hP ?_, fix_keeps_below hx force t fl hl⟩
  rw [hx.2.1]
  exact below_within fun i => (hl i).le

/-- the optimal gain for row `h` and measurement variance `R`, in every state that is in use; zero or optimal in the others -/
def Opt (m w : Bool) (P : Mat ℝ) (h : Vec ℝ) (R : ℝ) (k : Vec ℝ) : Prop :=
  ∀ i, k i = Spec.mulVec P h i / Spec.innovVar P h R ∨ (k i = 0 ∧ Off m w i)

/-- the corrected matrix: within the limits and valid in the states in use; the check accepts it -/
theorem opt_core {dt : ℝ} {P : Mat ℝ} (hP : Spec.PSD P) (hdt : 0 < dt) (hl : Spec.BelowLimits dt P) {m w : Bool} {h k : Vec ℝ} {R : ℝ} (hR : 0 < R) (hk : Opt m w P h R k) :
    (∀ i, k i * ∑ l, h l * P l i ≤ P i i) ∧ Spec.PSD (cut m w fun i j => P i j - k i * ∑ l, h l * P l j) ∧
      Spec.BelowLimits dt (cut m w fun i j => P i j - k i * ∑ l, h l * P l j) := by
  obtain ⟨hS, hpsd, hd⟩ := kalman_update_valid hP h hR
  have hsum : ∀ i, (∑ l, h l * P l i) = Spec.mulVec P h i := by
    intro i
    unfold Spec.mulVec
    exact Finset.sum_congr rfl fun l _ => by rw [hP.symm l i, mul_comm]
  have e : (cut m w fun i j => P i j - k i * ∑ l, h l * P l j) =
      cut m w fun i j => P i j - Spec.mulVec P h i / Spec.innovVar P h R * Spec.mulVec P h j := by
    funext i j
    unfold cut
    by_cases c : Off m w i ∨ Off m w j
    · rw [if_pos c, if_pos c]
    · rw [if_neg c, if_neg c]
      show P i j - k i * (∑ l, h l * P l j) = P i j - Spec.mulVec P h i / Spec.innovVar P h R * Spec.mulVec P h j
      rw [hsum]
      rcases hk i with hk | hk
      · rw [hk]
      · exact absurd (Or.inl hk.2) c
  refine ⟨fun i => ?_, ?_, ?_⟩
  · rw [hsum]
    rcases hk i with hk | hk
    · rw [hk]
      have := (hd i).1
      linarith
    · rw [hk.1, zero_mul]; exact diag_nonneg hP i
  · rw [e]; exact psd_cut m w hpsd
  · rw [e]; exact below_cut hdt m w fun i => lt_of_le_of_lt (hd i).2 (hl i)

/-- an update with the optimal gain -/
theorem good_update {dt : ℝ} {x : FixIn ℝ} (hx : Cond dt x) {h k : Vec ℝ} {R : ℝ} (hR : 0 < R) (v : ℝ) {f : Filt} (hf : Good dt f) (hk : Opt x.mag3D x.wind f.P h R k) :
    Good dt (update x k h v f).1 := by
  have hup : (update x k h v f).1.P = (measurementUpdate x k h f.timeCheck f.badAccBias f.P).1 := by
    unfold update
    split <;> rename_i heq <;> rw [heq]
  have hmask : (fun i : Fin N => if ∃ a : Fin 3, x.inhibit a = true ∧ i.val = 13 + a.val then 0 else k i) = k := by
    funext i
    rw [if_neg]
    rintro ⟨a, ha, -⟩
    rw [hx.1 a] at ha; exact absurd ha (by decide)
  obtain ⟨h1, -⟩ := measurementUpdate_spec x k h f.timeCheck f.badAccBias f.P
  obtain ⟨c1, c2, c3⟩ := opt_core hf.1 (by have := hx.2.2; linarith) hf.2 hR hk
  have h1' := (h1 (fun i => by
    have hm : (if ∃ a : Fin 3, x.inhibit a = true ∧ i.val = 13 + a.val then 0 else k i) = k i := congrFun hmask i
    beta_reduce
    rw [hm]; exact c1 i)).2
  have e : (fun i j => f.P i j - (if ∃ a : Fin 3, x.inhibit a = true ∧ i.val = 13 + a.val then 0 else k i) * ∑ l, h l * f.P l j) =
      fun i j => f.P i j - k i * ∑ l, h l * f.P l j := by
    funext i j
    have hm : (if ∃ a : Fin 3, x.inhibit a = true ∧ i.val = 13 + a.val then 0 else k i) = k i := congrFun hmask i
    rw [hm]
  rw [e] at h1'
  unfold Good
  rw [hup, h1']
  exact fix_good hx true _ _ c2 c3

theorem opt_of_eq {m w : Bool} {P : Mat ℝ} {h k : Vec ℝ} {R : ℝ} (hk : ∀ i, k i = Spec.mulVec P h i / Spec.innovVar P h R) : Opt m w P h R k := fun i => Or.inl (hk i)

/-- a direct observation of one state, with any innovation variance above the variance of the state -/
theorem good_direct {dt : ℝ} {x : VPIn} (hx : Cond dt x.fx) (v S : ℝ) (o : Fin 6) (st : VPSt) (hf : Good dt st.f) (hS : st.f.P (obsState o) (obsState o) < S) :
    Good dt (fuseVelPosHeight x v S o st).f := by
  rw [fuseVelPosHeight_spec]
  have hform : Spec.form st.f.P (Spec.pick (obsState o)) (Spec.pick (obsState o)) = st.f.P (obsState o) (obsState o) := by
    unfold Spec.form Spec.pick; simp
  have hmv : ∀ i, Spec.mulVec st.f.P (Spec.pick (obsState o)) i = st.f.P i (obsState o) := by
    intro i; unfold Spec.mulVec Spec.pick; simp
  have hk : Opt x.fx.mag3D x.fx.wind st.f.P (Spec.pick (obsState o)) (S - st.f.P (obsState o) (obsState o)) (fun j => st.f.P j (obsState o) / S) := by
    refine opt_of_eq fun i => ?_
    unfold Spec.innovVar
    rw [hform, hmv, add_sub_cancel]
  obtain ⟨c1, c2, c3⟩ := opt_core hf.1 (by have := hx.2.2; linarith) hf.2 (sub_pos.mpr hS) hk
  show Good dt (Spec.directFusion x.fx (obsState o) S v st.f).1
  unfold Spec.directFusion Spec.applyGain
  simp only
  rw [if_pos c1]
  exact fix_good hx true _ _ c2 c3

theorem good_setS {dt : ℝ} {f : Filt} (h : Good dt f) (s : Vec ℝ) : Good dt { f with s := s } := h

/-- velocity and position variances are at least 1e-6 after an update -/
theorem direct_floor (x : VPIn) (hx : ∀ a, x.fx.inhibit a = false) (v S : ℝ) (o : Fin 6) (st : VPSt) (hP : Spec.PSD st.f.P) (hS : st.f.P (obsState o) (obsState o) < S) (i : Fin N) (h4 : 4 ≤ i.val) (h10 : i.val < 10) :
    (fuseVelPosHeight x v S o st).f.P i i ≤ max (1 / 1000000) (st.f.P i i) := by
  rw [fuseVelPosHeight_spec]
  have hform : Spec.form st.f.P (Spec.pick (obsState o)) (Spec.pick (obsState o)) = st.f.P (obsState o) (obsState o) := by
    unfold Spec.form Spec.pick; simp
  have hmv : ∀ i, Spec.mulVec st.f.P (Spec.pick (obsState o)) i = st.f.P i (obsState o) := by
    intro i; unfold Spec.mulVec Spec.pick; simp
  have hsum : ∀ j, ∑ l, Spec.pick (obsState o) l * st.f.P l j = st.f.P (obsState o) j := by
    intro j; unfold Spec.pick; simp
  obtain ⟨hSp, hpsd, hd⟩ := kalman_update_valid hP (Spec.pick (obsState o)) (sub_pos.mpr hS)
  have hI : Spec.innovVar st.f.P (Spec.pick (obsState o)) (S - st.f.P (obsState o) (obsState o)) = S := by
    unfold Spec.innovVar; rw [hform, add_sub_cancel]
  simp only [hI, hmv] at hd
  show (Spec.directFusion x.fx (obsState o) S v st.f).1.P i i ≤ _
  unfold Spec.directFusion Spec.applyGain
  simp only [hsum]
  have c1 : ∀ i, st.f.P i (obsState o) / S * st.f.P (obsState o) i ≤ st.f.P i i := fun i => by
    have := (hd i).1
    rw [hP.symm (obsState o) i]; linarith
  rw [if_pos c1]
  show (fixCovarianceErrors x.fx true _ _ _).1 i i ≤ _
  rw [(fix_variance_limits x.fx true st.f.timeCheck st.f.badAccBias _ i).2.1 h4 h10]
  refine max_le_max le_rfl (le_trans (min_le_left _ _) ?_)
  rw [hP.symm (obsState o) i]
  exact (hd i).2

theorem good_velpos {dt : ℝ} {x : VPIn} (hx : Cond dt x.fx) (st : VPSt) (hf : Good dt st.f) (hfl : ∀ i : Fin N, 4 ≤ i.val → i.val < 10 → 0 ≤ st.f.P i i) :
    (∀ i0 i1 g r0 r1, 0 < r0 → 1 / 1000000 < r1 → Good dt (fuseHorizontalVelocity x i0 i1 g r0 r1 st).st.f) ∧
    (∀ i g r, 0 < r → Good dt (fuseVerticalVelocity x i g r st).st.f) ∧
    (∀ i0 i1 g r0 r1 b, 0 < r0 → 1 / 1000000 < r1 → Good dt (fuseHorizontalPosition x i0 i1 g r0 r1 b st).st.f) ∧
    (∀ i g r, 0 < r → Good dt (fuseVerticalPosition x i g r st).st.f) := by
  have one : ∀ (o : Fin 6) (s : VPSt) (v r : ℝ), s.f = st.f → 0 < r → Good dt (fuseVelPosHeight x v (st.f.P (obsState o) (obsState o) + r) o s).f := by
    intro o s v r e hr
    refine good_direct hx _ _ _ _ (e ▸ hf) ?_
    rw [e]; linarith
  have two : ∀ (o o' : Fin 6) (s : VPSt) (v v' r r' : ℝ), s.f = st.f → 0 < r → 1 / 1000000 < r' →
      Good dt (fuseVelPosHeight x v' (st.f.P (obsState o') (obsState o') + r') o' (fuseVelPosHeight x v (st.f.P (obsState o) (obsState o) + r) o s)).f := by
    intro o o' s v v' r r' e hr hr'
    refine good_direct hx _ _ _ _ (one o s v r e hr) ?_
    have hv := o'.isLt
    have hval : (obsState o').val = o'.val + 4 := rfl
    have := direct_floor x hx.1 v (st.f.P (obsState o) (obsState o) + r) o s (e ▸ hf.1) (by rw [e]; linarith) (obsState o') (by omega) (by omega)
    rw [e] at this
    have h0 := hfl (obsState o') (by omega) (by omega)
    refine lt_of_le_of_lt this (max_lt ?_ ?_) <;> linarith
  refine ⟨fun i0 i1 g r0 r1 h0 h1 => ?_, fun i g r h0 => ?_, fun i0 i1 g r0 r1 b h0 h1 => ?_, fun i g r h0 => ?_⟩
  · unfold fuseHorizontalVelocity
    simp only
    split
    · exact two 0 1 _ _ _ _ _ rfl h0 h1
    · exact hf
  · unfold fuseVerticalVelocity
    simp only
    split
    · exact one 2 _ _ _ rfl h0
    · split
      · exact one 2 _ _ _ rfl h0
      · exact hf
  · unfold fuseHorizontalPosition
    simp only
    split
    · split
      · exact hf
      · refine two 3 4 _ _ _ _ _ ?_ h0 h1
        cases x.asOdom <;> rfl
    · exact hf
  · unfold fuseVerticalPosition
    simp only
    split
    · exact one 5 _ _ _ rfl h0
    · split
      · exact one 5 _ _ _ rfl h0
      · exact hf

end Ecl.Whole
