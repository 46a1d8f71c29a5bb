import Verif.Cov.Quiet
import Verif.Fusion.VelPos
import Mathlib.MeasureTheory.Function.L2Space
import Mathlib.MeasureTheory.Integral.Bochner.Set

/-!
# Is the reported covariance the covariance of the error?  EKF/vel_pos_fusion.cpp:48-229, EKF/ekf.h:690-747

The estimate, the truth and the measurement noise are random variables on any measure space; the filter code is run in every
outcome.  The second moments of the estimation error before the fusion are the entries of the reported covariance; the question is
whether this is still true after the fusion.  (Quaternion entries are excluded: their renormalisation is not linear.)
-/

namespace Ecl.Fusion
open Ecl.Cov MeasureTheory

variable {Ω : Type*} [MeasurableSpace Ω] {κ : Type*} [Fintype κ] [DecidableEq κ]

/-- The errors `e` have the second moments `P`; the noises `v` are uncorrelated with the errors and with each other and have
variances `R`. -/
structure Spec.Ensemble (μ : Measure Ω) (P : Mat ℝ) (e : Ω → Vec ℝ) (v : Ω → κ → ℝ) (R : κ → ℝ) : Prop where
  e2 : ∀ i, MemLp (fun ω => e ω i) 2 μ
  v2 : ∀ a, MemLp (fun ω => v ω a) 2 μ
  cov : ∀ i j, ∫ ω, e ω i * e ω j ∂μ = P i j
  unc : ∀ i a, ∫ ω, e ω i * v ω a ∂μ = 0
  noise : ∀ a b, ∫ ω, v ω a * v ω b ∂μ = if a = b then R a else 0

variable {μ : Measure Ω}

theorem moment_form {ι : Type*} [Fintype ι] (X : Ω → ι → ℝ) (hX : ∀ a, MemLp (fun ω => X ω a) 2 μ) (c d : ι → ℝ) :
    ∫ ω, (∑ a, c a * X ω a) * (∑ b, d b * X ω b) ∂μ = ∑ a, ∑ b, c a * d b * ∫ ω, X ω a * X ω b ∂μ := by
  have hi : ∀ a b, Integrable (fun ω => c a * d b * (X ω a * X ω b)) μ := fun a b =>
    ((hX a).integrable_mul (hX b)).const_mul _
  have h1 : (fun ω => (∑ a, c a * X ω a) * (∑ b, d b * X ω b)) = fun ω => ∑ a, ∑ b, c a * d b * (X ω a * X ω b) := by
    funext ω
    rw [Finset.sum_mul_sum]
    exact Finset.sum_congr rfl fun a _ => Finset.sum_congr rfl fun b _ => by ring
  rw [h1, integral_finsetSum _ (fun a _ => integrable_finsetSum _ fun b _ => hi a b)]
  refine Finset.sum_congr rfl fun a _ => ?_
  rw [integral_finsetSum _ (fun b _ => hi a b)]
  exact Finset.sum_congr rfl fun b _ => integral_const_mul _ _

/-- second moments of linear combinations of errors and noises -/
theorem moment_split {P : Mat ℝ} {e : Ω → Vec ℝ} {v : Ω → κ → ℝ} {R : κ → ℝ} (h : Spec.Ensemble μ P e v R) (c d : Vec ℝ) (p q : κ → ℝ) :
    ∫ ω, ((∑ i, c i * e ω i) + ∑ a, p a * v ω a) * ((∑ i, d i * e ω i) + ∑ a, q a * v ω a) ∂μ =
      Spec.form P c d + ∑ a, p a * q a * R a := by
  have hX : ∀ z : Fin N ⊕ κ, MemLp (fun ω => Sum.elim (e ω) (v ω) z) 2 μ := by
    rintro (i | a)
    · exact h.e2 i
    · exact h.v2 a
  have := moment_form (fun ω => Sum.elim (e ω) (v ω)) hX (Sum.elim c p) (Sum.elim d q)
  simp only [Fintype.sum_sum_type, Sum.elim_inl, Sum.elim_inr] at this
  rw [this]
  have hc : ∀ i a, ∫ ω, v ω a * e ω i ∂μ = 0 := by
    intro i a; rw [← h.unc i a]; congr 1; funext ω; ring
  simp only [h.cov, h.unc, hc, h.noise, mul_zero, Finset.sum_const_zero, add_zero, zero_add, mul_ite]
  congr 1
  · unfold Spec.form
    exact Finset.sum_congr rfl fun i _ => Finset.sum_congr rfl fun j _ => by ring
  · exact Finset.sum_congr rfl fun a _ => by simp

/-- the second moments of an error are a valid covariance -/
theorem Spec.Ensemble.psd {P : Mat ℝ} {e : Ω → Vec ℝ} {v : Ω → κ → ℝ} {R : κ → ℝ} (h : Spec.Ensemble μ P e v R) : Spec.PSD P := by
  refine ⟨fun i j => ?_, fun c => ?_⟩
  · rw [← h.cov i j, ← h.cov j i]; congr 1; funext ω; ring
  · have := moment_split h c c 0 0
    simp only [Pi.zero_apply, zero_mul, Finset.sum_const_zero, add_zero] at this
    rw [← this]
    exact integral_nonneg fun ω => mul_self_nonneg _

/-- Second moments of the error after corrections with gains `k a` along the observation rows `h a`, all innovations taken from
the error before the first correction. -/
theorem corrected_moments {P : Mat ℝ} {e : Ω → Vec ℝ} {v : Ω → κ → ℝ} {R : κ → ℝ} (H : Spec.Ensemble μ P e v R) (h k : κ → Vec ℝ)
    (i j : Fin N) :
    ∫ ω, (e ω i - ∑ a, k a i * ((∑ l, h a l * e ω l) - v ω a)) * (e ω j - ∑ a, k a j * ((∑ l, h a l * e ω l) - v ω a)) ∂μ =
      P i j - (∑ a, k a j * Spec.mulVec P (h a) i) - (∑ a, k a i * Spec.mulVec P (h a) j)
        + ∑ a, ∑ b, k a i * k b j * (Spec.form P (h a) (h b) + if a = b then R a else 0) := by
  have hsym := H.psd.symm
  have hlin : ∀ (i : Fin N) ω, e ω i - ∑ a, k a i * ((∑ l, h a l * e ω l) - v ω a) =
      (∑ l, (Spec.pick i l - ∑ a, k a i * h a l) * e ω l) + ∑ a, k a i * v ω a := by
    intro i ω
    have h1 : ∑ l, (Spec.pick i l - ∑ a, k a i * h a l) * e ω l = e ω i - ∑ a, k a i * ∑ l, h a l * e ω l := by
      simp only [sub_mul, Finset.sum_sub_distrib, Finset.sum_mul, Finset.mul_sum]
      rw [Finset.sum_comm]
      congr 1
      · unfold Spec.pick; simp
      · exact Finset.sum_congr rfl fun a _ => Finset.sum_congr rfl fun l _ => by ring
    rw [h1]
    simp only [mul_sub, Finset.sum_sub_distrib]
    ring
  simp only [hlin]
  rw [moment_split H]
  have hf : ∀ c d : Vec ℝ, Spec.form P c d = ∑ l, c l * Spec.mulVec P d l := by
    intro c d
    unfold Spec.form Spec.mulVec
    exact Finset.sum_congr rfl fun l _ => by
      rw [Finset.mul_sum]; exact Finset.sum_congr rfl fun m _ => by ring
  have hm : ∀ l, Spec.mulVec P (fun l => Spec.pick j l - ∑ a, k a j * h a l) l = P l j - ∑ a, k a j * Spec.mulVec P (h a) l := by
    intro l
    unfold Spec.mulVec
    simp only [mul_sub, Finset.sum_sub_distrib, Finset.mul_sum]
    rw [Finset.sum_comm]
    congr 1
    · unfold Spec.pick; simp
    · exact Finset.sum_congr rfl fun a _ => Finset.sum_congr rfl fun l _ => by ring
  have hpick : ∀ z : Vec ℝ, ∑ l, Spec.pick i l * z l = z i := by intro z; unfold Spec.pick; simp
  have hP : ∀ a, ∑ l, h a l * P l j = Spec.mulVec P (h a) j := by
    intro a; unfold Spec.mulVec
    exact Finset.sum_congr rfl fun l _ => by rw [hsym l j]; ring
  rw [hf]
  simp only [hm, sub_mul, Finset.sum_sub_distrib, hpick]
  have h2 : ∑ l, (∑ a, k a i * h a l) * (P l j - ∑ a, k a j * Spec.mulVec P (h a) l) =
      (∑ a, k a i * Spec.mulVec P (h a) j) - ∑ a, ∑ b, k a i * k b j * Spec.form P (h a) (h b) := by
    simp only [mul_sub, Finset.sum_sub_distrib]
    congr 1
    · simp only [Finset.sum_mul]
      rw [Finset.sum_comm]
      refine Finset.sum_congr rfl fun a _ => ?_
      rw [← hP, Finset.mul_sum]
      exact Finset.sum_congr rfl fun l _ => by ring
    · simp only [hf, Finset.mul_sum, Finset.sum_mul]
      rw [Finset.sum_comm]
      rw [show (∑ a, ∑ b, ∑ l, k a i * k b j * (h a l * Spec.mulVec P (h b) l)) =
        ∑ b, ∑ a, ∑ l, k a i * k b j * (h a l * Spec.mulVec P (h b) l) from Finset.sum_comm]
      refine Finset.sum_congr rfl fun b _ => ?_
      rw [Finset.sum_comm]
      exact Finset.sum_congr rfl fun a _ => Finset.sum_congr rfl fun l _ => by ring
  rw [h2]
  have h3 : ∑ a, ∑ b, k a i * k b j * (Spec.form P (h a) (h b) + if a = b then R a else 0) =
      (∑ a, ∑ b, k a i * k b j * Spec.form P (h a) (h b)) + ∑ a, k a i * k a j * R a := by
    simp only [mul_add, Finset.sum_add_distrib, mul_ite, mul_zero, Finset.sum_ite_eq, Finset.mem_univ, if_true]
  rw [h3]
  ring

/-- covariance after the update with gain `P(·,m)/S` of a direct observation of state `m` -/
noncomputable def Spec.afterDirect (P : Mat ℝ) (m : Fin N) (S : ℝ) : Mat ℝ := fun i j => P i j - P i m * P m j / S

theorem direct_quiet (x : FixIn ℝ) (m : Fin N) (S v : ℝ) (f : Filt) (hP : Spec.PSD f.P) (hS : f.P m m < S)
    (hq : Spec.Quiet x (Spec.afterDirect f.P m S)) :
    (Spec.directFusion x m S v f).1.s = fuseState f.s (fun j => f.P j m / S) v ∧
    (Spec.directFusion x m S v f).1.P = Spec.afterDirect f.P m S := by
  have hS0 : 0 < S := lt_of_le_of_lt (diag_nonneg hP m) hS
  have ha := directFusion_applied x m S v f hP hS0 hS
  refine ⟨ha.2, ?_⟩
  have hc : ∀ j : Fin N, ∑ l, Spec.pick m l * f.P l j = f.P m j := by
    intro j; unfold Spec.pick; simp
  have hQ : (fun i j => f.P i j - f.P i m / S * f.P m j) = Spec.afterDirect f.P m S := by
    funext i j; unfold Spec.afterDirect; ring
  have h1 := ha.1
  unfold Spec.directFusion Spec.applyGain at h1 ⊢
  simp only [hc] at h1 ⊢
  by_cases hh : ∀ i, f.P i m / S * f.P m i ≤ f.P i i
  · rw [if_pos hh]
    show (fixCovarianceErrors x true f.timeCheck f.badAccBias (fun i j => f.P i j - f.P i m / S * f.P m j)).1 = _
    rw [hQ, fix_quiet x _ _ _ hq]
    funext i j
    unfold Spec.afterDirect
    rw [hP.symm j i, hP.symm j m, hP.symm m i]; ring
  · rw [if_neg hh] at h1; simp at h1

theorem fuseState_lin {s k : Vec ℝ} {v : ℝ} {i : Fin N} (hi : 4 ≤ i.val) : fuseState s k v i = s i - k i * v := by
  unfold fuseState
  simp only
  rw [if_neg (by omega)]

/-- the filter member with another state estimate -/
def Spec.withState (st : VPSt) (s : Vec ℝ) : VPSt := { st with f := { st.f with s := s } }

theorem direct_core (x : VPIn) (m : Fin N) (st : VPSt) (s truth : Ω → Vec ℝ) (noise : Ω → Fin 1 → ℝ) (R : ℝ) (hR : 0 < R)
    (hens : Spec.Ensemble μ st.f.P (fun ω i => s ω i - truth ω i) noise (fun _ => R)) (fin : Ω → Filt)
    (hq : Spec.Quiet x.fx (Spec.afterDirect st.f.P m (st.f.P m m + R)))
    (hf : ∀ ω, fin ω = (Spec.directFusion x.fx m (st.f.P m m + R) (s ω m - (truth ω m + noise ω 0)) { st.f with s := s ω }).1) :
    ∃ P', (∀ ω, (fin ω).P = P') ∧ ∀ i j : Fin N, 4 ≤ i.val → 4 ≤ j.val →
      ∫ ω, ((fin ω).s i - truth ω i) * ((fin ω).s j - truth ω j) ∂μ = P' i j := by
  have hP := hens.psd
  obtain ⟨S, eS⟩ : ∃ S, st.f.P m m + R = S := ⟨_, rfl⟩
  rw [eS] at hq
  simp only [eS] at hf
  have hS : st.f.P m m < S := by linarith
  have hS0 : 0 < S := lt_of_le_of_lt (diag_nonneg hP m) hS
  have ha : ∀ ω, (fin ω).s = fuseState (s ω) (fun j => st.f.P j m / S) (s ω m - (truth ω m + noise ω 0)) ∧
      (fin ω).P = Spec.afterDirect st.f.P m S := by
    intro ω
    rw [hf]
    exact direct_quiet x.fx m S (s ω m - (truth ω m + noise ω 0)) { st.f with s := s ω } hP hS hq
  refine ⟨_, fun ω => (ha ω).2, fun i j hi hj => ?_⟩
  have hm := corrected_moments hens (fun _ => Spec.pick m) (fun _ l => st.f.P l m / S) i j
  have he : ∀ (i : Fin N), 4 ≤ i.val → ∀ ω, (fin ω).s i - truth ω i = (s ω i - truth ω i) - ∑ a : Fin 1,
      st.f.P i m / S * ((∑ l, Spec.pick m l * (s ω l - truth ω l)) - noise ω a) := by
    intro i hi ω
    rw [(ha ω).1, fuseState_lin hi]
    have : ∑ l, Spec.pick m l * (s ω l - truth ω l) = s ω m - truth ω m := by unfold Spec.pick; simp
    rw [this, Fin.sum_univ_one]; ring
  simp only [he i hi, he j hj]
  rw [hm]
  have f1 : ∀ l, Spec.mulVec st.f.P (Spec.pick m) l = st.f.P l m := by intro l; unfold Spec.mulVec Spec.pick; simp
  have f2 : Spec.form st.f.P (Spec.pick m) (Spec.pick m) = st.f.P m m := by unfold Spec.form Spec.pick; simp
  simp only [Fin.sum_univ_one, f1, f2, if_true, eS]
  show _ = st.f.P i j - st.f.P i m * st.f.P m j / S
  rw [hP.symm m j]
  have := hS0.ne'
  field_simp
  ring

/-- **C145 (vertical velocity).** Vertical velocity is measured as truth plus noise.  If the reported covariance was the second
moment of the estimation error before, no limit acts and the gate accepts (vertical acceleration not flagged as bad), the
covariance reported afterwards is the second moment of the error afterwards. -/
theorem vertical_velocity_honest (x : VPIn) (hx : x.badVertAccel = false) (g : ℝ) (hg : 0 < g) (st : VPSt) (s truth : Ω → Vec ℝ)
    (noise : Ω → Fin 1 → ℝ) (R : ℝ) (hR : 0 < R)
    (hens : Spec.Ensemble μ st.f.P (fun ω i => s ω i - truth ω i) noise (fun _ => R)) :
    let run : Ω → VPOut := fun ω => fuseVerticalVelocity x (s ω 6 - (truth ω 6 + noise ω 0)) g R (Spec.withState st (s ω))
    (∀ ω, (run ω).ret = true) → Spec.Quiet x.fx (Spec.afterDirect st.f.P 6 (st.f.P 6 6 + R)) →
    ∃ P', (∀ ω, (run ω).st.f.P = P') ∧ ∀ i j : Fin N, 4 ≤ i.val → 4 ≤ j.val →
      ∫ ω, ((run ω).st.f.s i - truth ω i) * ((run ω).st.f.s j - truth ω j) ∂μ = P' i j := by
  intro run hr hq
  have h0 : 0 < st.f.P 6 6 + R := by have := diag_nonneg hens.psd 6; linarith
  refine direct_core x 6 st s truth noise R hR hens (fun ω => (run ω).st.f) hq (fun ω => ?_)
  have h5 := (vvel_gate x (Spec.withState st (s ω)) (s ω 6 - (truth ω 6 + noise ω 0)) g R hg h0).2.2.2.2
  show (fuseVerticalVelocity _ _ _ _ _).st.f = _
  rw [h5 (hr ω)]
  simp only [hx]
  rfl

/-- **C145 (height).** The same for the vertical position. -/
theorem vertical_position_honest (x : VPIn) (hx : x.badVertAccel = false) (g : ℝ) (hg : 0 < g) (st : VPSt) (s truth : Ω → Vec ℝ)
    (noise : Ω → Fin 1 → ℝ) (R : ℝ) (hR : 0 < R)
    (hens : Spec.Ensemble μ st.f.P (fun ω i => s ω i - truth ω i) noise (fun _ => R)) :
    let run : Ω → VPOut := fun ω => fuseVerticalPosition x (s ω 9 - (truth ω 9 + noise ω 0)) g R (Spec.withState st (s ω))
    (∀ ω, (run ω).ret = true) → Spec.Quiet x.fx (Spec.afterDirect st.f.P 9 (st.f.P 9 9 + R)) →
    ∃ P', (∀ ω, (run ω).st.f.P = P') ∧ ∀ i j : Fin N, 4 ≤ i.val → 4 ≤ j.val →
      ∫ ω, ((run ω).st.f.s i - truth ω i) * ((run ω).st.f.s j - truth ω j) ∂μ = P' i j := by
  intro run hr hq
  have h0 : 0 < st.f.P 9 9 + R := by have := diag_nonneg hens.psd 9; linarith
  refine direct_core x 9 st s truth noise R hR hens (fun ω => (run ω).st.f) hq (fun ω => ?_)
  have h5 := (vpos_gate x (Spec.withState st (s ω)) (s ω 9 - (truth ω 9 + noise ω 0)) g R hg h0).2.2.2.2
  show (fuseVerticalPosition _ _ _ _ _).st.f = _
  rw [h5 (hr ω)]
  simp only [hx]
  rfl

/-- second moments after two fused observations whose innovations and innovation variances were both computed before the first -/
theorem pair_core (x : VPIn) (o o' : Fin 6) (st : VPSt) (s truth : Ω → Vec ℝ) (noise : Ω → Fin 2 → ℝ) (R : Fin 2 → ℝ)
    (hR : ∀ a, 0 < R a) (hens : Spec.Ensemble μ st.f.P (fun ω i => s ω i - truth ω i) noise R) (fin : Ω → Filt)
    (hq1 : Spec.Quiet x.fx (Spec.afterDirect st.f.P (obsState o) (st.f.P (obsState o) (obsState o) + R 0)))
    (hq2 : Spec.Quiet x.fx (Spec.afterDirect (Spec.afterDirect st.f.P (obsState o) (st.f.P (obsState o) (obsState o) + R 0))
      (obsState o') (st.f.P (obsState o') (obsState o') + R 1)))
    (hf : ∀ ω, fin ω = (Spec.directFusion x.fx (obsState o') (st.f.P (obsState o') (obsState o') + R 1)
      (s ω (obsState o') - (truth ω (obsState o') + noise ω 1))
      (Spec.directFusion x.fx (obsState o) (st.f.P (obsState o) (obsState o) + R 0)
        (s ω (obsState o) - (truth ω (obsState o) + noise ω 0)) { st.f with s := s ω }).1).1) :
    ∃ P', (∀ ω, (fin ω).P = P') ∧ ∀ i j : Fin N, 4 ≤ i.val → 4 ≤ j.val →
      ∫ ω, ((fin ω).s i - truth ω i) * ((fin ω).s j - truth ω j) ∂μ = P' i j := by
  have hP := hens.psd
  generalize obsState o = m at *
  generalize obsState o' = n at *
  obtain ⟨S, eS⟩ : ∃ S, st.f.P m m + R 0 = S := ⟨_, rfl⟩
  obtain ⟨T, eT⟩ : ∃ T, st.f.P n n + R 1 = T := ⟨_, rfl⟩
  rw [eS] at hq1 hq2
  rw [eT] at hq2
  simp only [eS, eT] at hf
  have hS : st.f.P m m < S := by have := hR 0; linarith
  have hS0 : 0 < S := lt_of_le_of_lt (diag_nonneg hP m) hS
  have hT : st.f.P n n < T := by have := hR 1; linarith
  have hT0 : 0 < T := lt_of_le_of_lt (diag_nonneg hP n) hT
  have hP1 : Spec.PSD (Spec.afterDirect st.f.P m S) := by
    have := (kalman_update_valid hP (Spec.pick m) (hR 0)).2.1
    have f1 : ∀ l, Spec.mulVec st.f.P (Spec.pick m) l = st.f.P l m := by intro l; unfold Spec.mulVec Spec.pick; simp
    have f2 : Spec.innovVar st.f.P (Spec.pick m) (R 0) = S := by
      rw [← eS]; unfold Spec.innovVar Spec.form Spec.pick; simp
    simp only [f1, f2] at this
    have e : Spec.afterDirect st.f.P m S = fun i j => st.f.P i j - st.f.P i m / S * st.f.P j m := by
      funext i j; unfold Spec.afterDirect; rw [hP.symm m j]; ring
    rw [e]; exact this
  have hT' : Spec.afterDirect st.f.P m S n n < T := by
    unfold Spec.afterDirect
    have : 0 ≤ st.f.P n m * st.f.P m n / S := by
      rw [hP.symm m n]; exact div_nonneg (mul_self_nonneg _) hS0.le
    linarith
  have ha : ∀ ω, (fin ω).s = fuseState (fuseState (s ω) (fun j => st.f.P j m / S) (s ω m - (truth ω m + noise ω 0)))
      (fun j => Spec.afterDirect st.f.P m S j n / T) (s ω n - (truth ω n + noise ω 1)) ∧
      (fin ω).P = Spec.afterDirect (Spec.afterDirect st.f.P m S) n T := by
    intro ω
    have h1 := direct_quiet x.fx m S (s ω m - (truth ω m + noise ω 0)) { st.f with s := s ω } hP hS hq1
    rw [hf ω]
    generalize (Spec.directFusion x.fx m S (s ω m - (truth ω m + noise ω 0)) { st.f with s := s ω }).1 = g at h1 ⊢
    have hg : g.P = Spec.afterDirect st.f.P m S := h1.2
    have h2 := direct_quiet x.fx n T (s ω n - (truth ω n + noise ω 1)) g (by rw [hg]; exact hP1) (by rw [hg]; exact hT')
      (by rw [hg]; exact hq2)
    rw [hg, h1.1] at h2
    exact h2
  refine ⟨_, fun ω => (ha ω).2, fun i j hi hj => ?_⟩
  have hm := corrected_moments hens (![Spec.pick m, Spec.pick n])
    (![fun l => st.f.P l m / S, fun l => Spec.afterDirect st.f.P m S l n / T]) i j
  have hpk : ∀ (m : Fin N) (ω : Ω), ∑ l, Spec.pick m l * (s ω l - truth ω l) = s ω m - truth ω m := by
    intro m ω; unfold Spec.pick; simp
  have he : ∀ (i : Fin N), 4 ≤ i.val → ∀ ω, (fin ω).s i - truth ω i = (s ω i - truth ω i) - ∑ a : Fin 2,
      (![fun l => st.f.P l m / S, fun l => Spec.afterDirect st.f.P m S l n / T] : Fin 2 → Vec ℝ) a i
        * ((∑ l, (![Spec.pick m, Spec.pick n] : Fin 2 → Vec ℝ) a l * (s ω l - truth ω l)) - noise ω a) := by
    intro i hi ω
    rw [(ha ω).1, fuseState_lin hi, fuseState_lin hi, Fin.sum_univ_two]
    simp only [Matrix.cons_val_zero, Matrix.cons_val_one, hpk]
    ring
  simp only [he i hi, he j hj]
  rw [hm]
  have f1 : ∀ m l, Spec.mulVec st.f.P (Spec.pick m) l = st.f.P l m := by intro m l; unfold Spec.mulVec Spec.pick; simp
  have f2 : ∀ m n, Spec.form st.f.P (Spec.pick m) (Spec.pick n) = st.f.P m n := by intro m n; unfold Spec.form Spec.pick; simp
  simp only [Fin.sum_univ_two, Matrix.cons_val_zero, Matrix.cons_val_one, f1, f2, if_true, eS, eT, zero_ne_one, one_ne_zero,
    if_false, add_zero]
  unfold Spec.afterDirect
  rw [hP.symm m j, hP.symm n j, hP.symm n m]
  have := hS0.ne'
  have := hT0.ne'
  field_simp
  ring

/-- **C145 (horizontal velocity).** Horizontal velocity is measured as truth plus noise; both innovations and both innovation
variances are computed before the first axis is fused.  If the reported covariance was the second moment of the estimation error
before, no limit acts and the gate accepts, the covariance reported afterwards is the second moment of the error afterwards. -/
theorem horizontal_velocity_honest (x : VPIn) (g : ℝ) (hg : 0 < g) (st : VPSt) (s truth : Ω → Vec ℝ) (noise : Ω → Fin 2 → ℝ)
    (R : Fin 2 → ℝ) (hR : ∀ a, 0 < R a) (hens : Spec.Ensemble μ st.f.P (fun ω i => s ω i - truth ω i) noise R) :
    let S0 := st.f.P 4 4 + R 0
    let S1 := st.f.P 5 5 + R 1
    let run : Ω → VPOut := fun ω => fuseHorizontalVelocity x (s ω 4 - (truth ω 4 + noise ω 0)) (s ω 5 - (truth ω 5 + noise ω 1))
      g (R 0) (R 1) (Spec.withState st (s ω))
    (∀ ω, (run ω).ret = true) →
    Spec.Quiet x.fx (Spec.afterDirect st.f.P 4 S0) → Spec.Quiet x.fx (Spec.afterDirect (Spec.afterDirect st.f.P 4 S0) 5 S1) →
    ∃ P', (∀ ω, (run ω).st.f.P = P') ∧ ∀ i j : Fin N, 4 ≤ i.val → 4 ≤ j.val →
      ∫ ω, ((run ω).st.f.s i - truth ω i) * ((run ω).st.f.s j - truth ω j) ∂μ = P' i j := by
  intro S0 S1 run hr hq1 hq2
  have h0 : 0 < st.f.P 4 4 + R 0 := by have := diag_nonneg hens.psd 4; have := hR 0; linarith
  have h1 : 0 < st.f.P 5 5 + R 1 := by have := diag_nonneg hens.psd 5; have := hR 1; linarith
  refine pair_core x 0 1 st s truth noise R hR hens (fun ω => (run ω).st.f) hq1 hq2 (fun ω => ?_)
  obtain ⟨-, -, -, -, h5⟩ := hvel_gate x (Spec.withState st (s ω)) (s ω 4 - (truth ω 4 + noise ω 0))
    (s ω 5 - (truth ω 5 + noise ω 1)) g (R 0) (R 1) hg h0 h1
  show (fuseHorizontalVelocity _ _ _ _ _ _ _).st.f = _
  rw [h5 (hr ω)]
  rfl

/-- **C145 (horizontal position).** The same for horizontal position, gate inhibited or not. -/
theorem horizontal_position_honest (x : VPIn) (g : ℝ) (hg : 0 < g) (inh : Bool) (st : VPSt) (s truth : Ω → Vec ℝ)
    (noise : Ω → Fin 2 → ℝ)
    (R : Fin 2 → ℝ) (hR : ∀ a, 0 < R a) (hens : Spec.Ensemble μ st.f.P (fun ω i => s ω i - truth ω i) noise R) :
    let S0 := st.f.P 7 7 + R 0
    let S1 := st.f.P 8 8 + R 1
    let run : Ω → VPOut := fun ω => fuseHorizontalPosition x (s ω 7 - (truth ω 7 + noise ω 0)) (s ω 8 - (truth ω 8 + noise ω 1))
      g (R 0) (R 1) inh (Spec.withState st (s ω))
    (∀ ω, (run ω).ret = true) →
    Spec.Quiet x.fx (Spec.afterDirect st.f.P 7 S0) → Spec.Quiet x.fx (Spec.afterDirect (Spec.afterDirect st.f.P 7 S0) 8 S1) →
    ∃ P', (∀ ω, (run ω).st.f.P = P') ∧ ∀ i j : Fin N, 4 ≤ i.val → 4 ≤ j.val →
      ∫ ω, ((run ω).st.f.s i - truth ω i) * ((run ω).st.f.s j - truth ω j) ∂μ = P' i j := by
  intro S0 S1 run hr hq1 hq2
  have h0 : 0 < st.f.P 7 7 + R 0 := by have := diag_nonneg hens.psd 7; have := hR 0; linarith
  have h1 : 0 < st.f.P 8 8 + R 1 := by have := diag_nonneg hens.psd 8; have := hR 1; linarith
  refine pair_core x 3 4 st s truth noise R hR hens (fun ω => (run ω).st.f) hq1 hq2 (fun ω => ?_)
  have h5 := hpos_gate x (Spec.withState st (s ω)) (s ω 7 - (truth ω 7 + noise ω 0))
    (s ω 8 - (truth ω 8 + noise ω 1)) g (R 0) (R 1) inh hg h0 h1
  show (fuseHorizontalPosition _ _ _ _ _ _ _ _).st.f = _
  rw [h5.2.2.2.2 (hr ω)]
  rfl

/-- covariance after the update along row `h` with gain `P h / S`, `S = h P h + R`, of the states in `sel` (others not corrected);
mirrored elements averaged -/
noncomputable def Spec.afterRow (P : Mat ℝ) (h : Vec ℝ) (R : ℝ) (sel : Fin N → Prop) [DecidablePred sel] : Mat ℝ := fun i j =>
  P i j - ((if sel i then 1 else 0) + if sel j then 1 else 0) / 2 * (Spec.mulVec P h i * Spec.mulVec P h j / Spec.innovVar P h R)

theorem update_quiet (x : FixIn ℝ) (h : Vec ℝ) (R : ℝ) (hR : 0 < R) (sel : Fin N → Prop) [DecidablePred sel] (v : ℝ) (f : Filt)
    (hP : Spec.PSD f.P) (hq : Spec.Quiet x (Spec.afterRow f.P h R sel)) :
    (update x (Spec.gain f.P h R sel) h v f).1.s = fuseState f.s (Spec.gain f.P h R sel) v ∧
    (update x (Spec.gain f.P h R sel) h v f).1.P = Spec.afterRow f.P h R sel := by
  have hS : 0 < Spec.innovVar f.P h R := (kalman_update_valid hP h hR).1
  have hinh : ∀ i : Fin N, ¬ ∃ a : Fin 3, x.inhibit a = true ∧ i.val = 13 + a.val := by
    rintro i ⟨a, ha, -⟩; rw [hq.inh a] at ha; cases ha
  have hk : ∀ i, (if ∃ a : Fin 3, x.inhibit a = true ∧ i.val = 13 + a.val then (0 : ℝ) else Spec.gain f.P h R sel i) =
      Spec.gain f.P h R sel i := fun i => if_neg (hinh i)
  have h1 := update_applied x h R hR sel v f hP
  refine ⟨h1.2.trans (by simp only [hk]), ?_⟩
  have hup : (update x (Spec.gain f.P h R sel) h v f).1.P = (measurementUpdate x (Spec.gain f.P h R sel) h f.timeCheck f.badAccBias f.P).1 := by
    unfold update
    split <;> rename_i heq <;> rw [heq]
  rw [hup]
  obtain ⟨m1, m2⟩ := measurementUpdate_spec x (Spec.gain f.P h R sel) h f.timeCheck f.badAccBias f.P
  have hacc := optimal_gain_accepted x h R hR f.P hP (Spec.gain f.P h R sel)
    (fun i => by unfold Spec.gain; split <;> simp) f.timeCheck f.badAccBias
  simp only [hk] at m1 m2 hacc
  have hsum : ∀ j, ∑ l, h l * f.P l j = Spec.mulVec f.P h j := by
    intro j; unfold Spec.mulVec
    exact Finset.sum_congr rfl fun l _ => by rw [hP.symm j l]; ring
  simp only [hsum] at m1 m2
  by_cases hh : ∀ i : Fin N, Spec.gain f.P h R sel i * Spec.mulVec f.P h i ≤ f.P i i
  · rw [(m1 hh).2]
    have hd : Spec.Quiet x (fun i j => f.P i j - Spec.gain f.P h R sel i * Spec.mulVec f.P h j) := by
      have hdi : ∀ i, f.P i i - Spec.gain f.P h R sel i * Spec.mulVec f.P h i = Spec.afterRow f.P h R sel i i := by
        intro i; unfold Spec.afterRow Spec.gain
        split <;> ring
      refine ⟨hq.mag, hq.wind, hq.inh, hq.bias, hq.clock, ?_, ?_, ?_, ?_, ?_, ?_⟩ <;> beta_reduce <;> simp only [hdi]
      · exact hq.quat
      · exact hq.kin
      · exact hq.gyro
      · exact hq.acc
      · exact hq.field
      · exact hq.windVar
    rw [fix_quiet x _ _ _ hd]
    funext i j
    unfold Spec.afterRow Spec.gain
    rw [hP.symm j i]
    split <;> split <;> ring
  · have := m2 hh
    rw [this] at hacc
    simp at hacc

/-- **C145 (partial corrections).** A measurement with observation row `h` is fused with corrections of the states in `sel` only
(wind from airspeed or sideslip, field during alignment, heading without field states …).  If the reported covariance was the
second moment of the error before and no limit acts, afterwards it is right for two corrected and for two uncorrected states, but
between a corrected state `i` and an uncorrected `j` the reported covariance keeps half of `p i p j / S` that the error has lost. -/
theorem partial_update_crosscovariance (x : FixIn ℝ) (h : Vec ℝ) (R : ℝ) (hR : 0 < R) (sel : Fin N → Prop) [DecidablePred sel]
    (f : Filt) (s truth : Ω → Vec ℝ) (noise : Ω → Fin 1 → ℝ)
    (hens : Spec.Ensemble μ f.P (fun ω i => s ω i - truth ω i) noise (fun _ => R)) :
    let after : Ω → Filt := fun ω => (update x (Spec.gain f.P h R sel) h ((∑ l, h l * (s ω l - truth ω l)) - noise ω 0)
      { f with s := s ω }).1
    Spec.Quiet x (Spec.afterRow f.P h R sel) →
    ∃ P', (∀ ω, (after ω).P = P') ∧ ∀ i j : Fin N, 4 ≤ i.val → 4 ≤ j.val →
      ∫ ω, ((after ω).s i - truth ω i) * ((after ω).s j - truth ω j) ∂μ =
        if (sel i ↔ sel j) then P' i j else P' i j - Spec.mulVec f.P h i * Spec.mulVec f.P h j / (2 * Spec.innovVar f.P h R) := by
  intro after hq
  have hP := hens.psd
  have hS : 0 < Spec.innovVar f.P h R := (kalman_update_valid hP h hR).1
  have ha : ∀ ω, (after ω).s = fuseState (s ω) (Spec.gain f.P h R sel) ((∑ l, h l * (s ω l - truth ω l)) - noise ω 0) ∧
      (after ω).P = Spec.afterRow f.P h R sel := fun ω => update_quiet x h R hR sel _ { f with s := s ω } hP hq
  refine ⟨_, fun ω => (ha ω).2, fun i j hi hj => ?_⟩
  have hm := corrected_moments hens (fun _ => h) (fun _ => Spec.gain f.P h R sel) i j
  have he : ∀ (i : Fin N), 4 ≤ i.val → ∀ ω, (after ω).s i - truth ω i = (s ω i - truth ω i) - ∑ a : Fin 1,
      Spec.gain f.P h R sel i * ((∑ l, h l * (s ω l - truth ω l)) - noise ω a) := by
    intro i hi ω
    rw [(ha ω).1, fuseState_lin hi, Fin.sum_univ_one]; ring
  simp only [he i hi, he j hj]
  rw [hm]
  simp only [Fin.sum_univ_one, if_true]
  have e : Spec.form f.P h h + R = Spec.innovVar f.P h R := rfl
  rw [e]
  unfold Spec.afterRow Spec.gain
  have := hS.ne'
  by_cases h1 : sel i <;> by_cases h2 : sel j <;> simp only [h1, h2, if_true, if_false, iff_self, iff_true, iff_false, not_true] <;>
    field_simp <;> ring

/-- **C145 (stale innovation).** Two measurements with rows `h`, `h'` are fused one after the other, all states corrected, the
second with gain and variance recomputed after the first but with the innovation computed before it (as the second and third
magnetometer axes are).  If the reported covariance was the second moment of the error before and no limit acts, the error
afterwards has the second moment reported **plus** `(h P h')² / (S S'²) p' p'ᵀ`, where `p' = P' h'` and `S' = h' P' h' + R'` for
the covariance `P'` after the first: the filter is overconfident whenever the two predicted measurements are correlated. -/
theorem stale_innovation_overconfident (x : FixIn ℝ) (h h' : Vec ℝ) (R : Fin 2 → ℝ) (hR : ∀ a, 0 < R a)
    (f : Filt) (s truth : Ω → Vec ℝ) (noise : Ω → Fin 2 → ℝ)
    (hens : Spec.Ensemble μ f.P (fun ω i => s ω i - truth ω i) noise R) :
    let P1 := Spec.afterRow f.P h (R 0) (fun _ => True)
    let first : Ω → Filt := fun ω => (update x (Spec.gain f.P h (R 0) (fun _ => True)) h
      ((∑ l, h l * (s ω l - truth ω l)) - noise ω 0) { f with s := s ω }).1
    let after : Ω → Filt := fun ω => (update x (Spec.gain (first ω).P h' (R 1) (fun _ => True)) h'
      ((∑ l, h' l * (s ω l - truth ω l)) - noise ω 1) (first ω)).1
    Spec.Quiet x P1 → Spec.Quiet x (Spec.afterRow P1 h' (R 1) (fun _ => True)) →
    ∃ P', (∀ ω, (after ω).P = P') ∧ ∀ i j : Fin N, 4 ≤ i.val → 4 ≤ j.val →
      ∫ ω, ((after ω).s i - truth ω i) * ((after ω).s j - truth ω j) ∂μ =
        P' i j + (Spec.form f.P h h') ^ 2 / (Spec.innovVar f.P h (R 0) * (Spec.innovVar P1 h' (R 1)) ^ 2)
          * (Spec.mulVec P1 h' i * Spec.mulVec P1 h' j) := by
  intro P1 first after hq1 hq2
  have hP := hens.psd
  have hS : 0 < Spec.innovVar f.P h (R 0) := (kalman_update_valid hP h (hR 0)).1
  have eP1 : ∀ i j, P1 i j = f.P i j - Spec.mulVec f.P h i * Spec.mulVec f.P h j / Spec.innovVar f.P h (R 0) := by
    intro i j
    show Spec.afterRow f.P h (R 0) (fun _ => True) i j = _
    unfold Spec.afterRow; simp only [if_true]; ring
  have hP1 : Spec.PSD P1 := by
    have := (kalman_update_valid hP h (hR 0)).2.1
    have e : P1 = fun i j => f.P i j - Spec.mulVec f.P h i / Spec.innovVar f.P h (R 0) * Spec.mulVec f.P h j := by
      funext i j; rw [eP1]; ring
    rw [e]; exact this
  have hS' : 0 < Spec.innovVar P1 h' (R 1) := (kalman_update_valid hP1 h' (hR 1)).1
  have h1 : ∀ ω, (first ω).s = fuseState (s ω) (Spec.gain f.P h (R 0) (fun _ => True)) ((∑ l, h l * (s ω l - truth ω l)) - noise ω 0) ∧
      (first ω).P = P1 := fun ω => update_quiet x h (R 0) (hR 0) _ _ { f with s := s ω } hP hq1
  have ha : ∀ ω, (after ω).s = fuseState (first ω).s (Spec.gain P1 h' (R 1) (fun _ => True))
      ((∑ l, h' l * (s ω l - truth ω l)) - noise ω 1) ∧ (after ω).P = Spec.afterRow P1 h' (R 1) (fun _ => True) := by
    intro ω
    have := update_quiet x h' (R 1) (hR 1) (fun _ => True) ((∑ l, h' l * (s ω l - truth ω l)) - noise ω 1) (first ω)
      (by rw [(h1 ω).2]; exact hP1) (by rw [(h1 ω).2]; exact hq2)
    rw [← (h1 ω).2]; exact this
  refine ⟨_, fun ω => (ha ω).2, fun i j hi hj => ?_⟩
  have hm := corrected_moments hens (![h, h']) (![Spec.gain f.P h (R 0) (fun _ => True), Spec.gain P1 h' (R 1) (fun _ => True)]) i j
  have he : ∀ (i : Fin N), 4 ≤ i.val → ∀ ω, (after ω).s i - truth ω i = (s ω i - truth ω i) - ∑ a : Fin 2,
      (![Spec.gain f.P h (R 0) (fun _ => True), Spec.gain P1 h' (R 1) (fun _ => True)] : Fin 2 → Vec ℝ) a i *
        ((∑ l, (![h, h'] : Fin 2 → Vec ℝ) a l * (s ω l - truth ω l)) - noise ω a) := by
    intro i hi ω
    rw [(ha ω).1, fuseState_lin hi, (h1 ω).1, fuseState_lin hi, Fin.sum_univ_two]
    simp only [Matrix.cons_val_zero, Matrix.cons_val_one]
    ring
  simp only [he i hi, he j hj]
  rw [hm]
  simp only [Fin.sum_univ_two, Matrix.cons_val_zero, Matrix.cons_val_one, if_true, zero_ne_one, one_ne_zero, if_false, add_zero]
  obtain ⟨t, et⟩ : ∃ t, Spec.form f.P h h' = t := ⟨_, rfl⟩
  have et' : Spec.form f.P h' h = t := by
    rw [← et]; unfold Spec.form; rw [Finset.sum_comm]
    exact Finset.sum_congr rfl fun a _ => Finset.sum_congr rfl fun b _ => by rw [hP.symm b a]; ring
  have hdot : ∑ l, Spec.mulVec f.P h l * h' l = t := by
    rw [← et']; unfold Spec.form Spec.mulVec
    exact Finset.sum_congr rfl fun l _ => by
      rw [Finset.sum_mul]; exact Finset.sum_congr rfl fun b _ => by ring
  have hmv : ∀ l, Spec.mulVec P1 h' l = Spec.mulVec f.P h' l - Spec.mulVec f.P h l / Spec.innovVar f.P h (R 0) * t := by
    intro l
    rw [← hdot, Finset.mul_sum]
    unfold Spec.mulVec
    rw [← Finset.sum_sub_distrib]
    refine Finset.sum_congr rfl fun b _ => ?_
    rw [eP1]; unfold Spec.mulVec; ring
  have hform : Spec.innovVar P1 h' (R 1) = Spec.form f.P h' h' + R 1 - t ^ 2 / Spec.innovVar f.P h (R 0) := by
    have hf : ∀ (Q : Mat ℝ) (c d : Vec ℝ), Spec.form Q c d = ∑ l, c l * Spec.mulVec Q d l := by
      intro Q c d
      unfold Spec.form Spec.mulVec
      exact Finset.sum_congr rfl fun l _ => by
        rw [Finset.mul_sum]; exact Finset.sum_congr rfl fun m _ => by ring
    unfold Spec.innovVar
    rw [hf P1, hf f.P h' h']
    simp only [hmv, mul_sub, Finset.sum_sub_distrib]
    have : ∑ l, h' l * (Spec.mulVec f.P h l / Spec.innovVar f.P h (R 0) * t) = t / Spec.innovVar f.P h (R 0) * ∑ l, Spec.mulVec f.P h l * h' l := by
      rw [Finset.mul_sum]; exact Finset.sum_congr rfl fun l _ => by ring
    rw [this, hdot]
    unfold Spec.innovVar
    ring
  have hG0 : ∀ l, Spec.gain f.P h (R 0) (fun _ => True) l = Spec.mulVec f.P h l / Spec.innovVar f.P h (R 0) := by
    intro l; unfold Spec.gain; simp
  have hG1 : ∀ l, Spec.gain P1 h' (R 1) (fun _ => True) l = Spec.mulVec P1 h' l / Spec.innovVar P1 h' (R 1) := by
    intro l; unfold Spec.gain; simp
  have hA : Spec.afterRow P1 h' (R 1) (fun _ => True) i j = P1 i j - Spec.mulVec P1 h' i * Spec.mulVec P1 h' j / Spec.innovVar P1 h' (R 1) := by
    unfold Spec.afterRow; simp only [if_true]; ring
  have e : Spec.form f.P h h + R 0 = Spec.innovVar f.P h (R 0) := rfl
  have e2 : Spec.form f.P h' h' + R 1 = Spec.innovVar P1 h' (R 1) + t ^ 2 / Spec.innovVar f.P h (R 0) := by rw [hform]; ring
  rw [hA, eP1, e, e2, et, et']
  simp only [hG0, hG1]
  have hi' : Spec.mulVec f.P h' i = Spec.mulVec P1 h' i + Spec.mulVec f.P h i / Spec.innovVar f.P h (R 0) * t := by rw [hmv]; ring
  have hj' : Spec.mulVec f.P h' j = Spec.mulVec P1 h' j + Spec.mulVec f.P h j / Spec.innovVar f.P h (R 0) * t := by rw [hmv]; ring
  rw [hi', hj']
  generalize Spec.mulVec P1 h' i = a
  generalize Spec.mulVec P1 h' j = b
  generalize Spec.mulVec f.P h i = c
  generalize Spec.mulVec f.P h j = d
  generalize Spec.innovVar P1 h' (R 1) = S' at *
  generalize Spec.innovVar f.P h (R 0) = S at *
  have := hS.ne'
  have := hS'.ne'
  field_simp
  ring

end Ecl.Fusion
