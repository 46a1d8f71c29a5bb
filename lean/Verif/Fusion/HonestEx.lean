import Verif.Fusion.HonestMag

/-!
# Concrete ensembles for `Honest` and `HonestMag`
-/

namespace Ecl.Fusion
open Ecl.Cov MeasureTheory

/-- 36 equally likely outcomes -/
abbrev Out := Fin N ⊕ Fin 12

instance : MeasurableSpace Out := ⊤
instance : DiscreteMeasurableSpace Out := ⟨fun _ => trivial⟩

/-- the uniform distribution on them -/
noncomputable def unif : Measure Out := (36 : ENNReal)⁻¹ • Measure.count

instance : IsProbabilityMeasure unif := by
  refine ⟨?_⟩
  unfold unif
  rw [Measure.smul_apply, Measure.count_apply_finite _ Set.finite_univ]
  simp only [Set.Finite.toFinset_univ, Finset.card_univ, Fintype.card_sum, Fintype.card_fin, smul_eq_mul]
  have : ((24 + 12 : ℕ) : ENNReal) = 36 := by norm_num
  rw [show (N + 12 : ℕ) = 24 + 12 from rfl, this]
  exact ENNReal.inv_mul_cancel (by norm_num) (by norm_num)

theorem unif_integral (f : Out → ℝ) : ∫ ω, f ω ∂unif = (∑ ω, f ω) / 36 := by
  unfold unif
  rw [integral_smul_measure, integral_count]
  simp only [ENNReal.toReal_inv, ENNReal.toReal_ofNat, smul_eq_mul]
  ring

/-- orthonormal variables -/
def orth (z ω : Out) : ℝ := if ω = z then 6 else 0

theorem orth_moment (z w : Out) : ∫ ω, orth z ω * orth w ω ∂unif = if z = w then 1 else 0 := by
  rw [unif_integral]
  unfold orth
  by_cases h : z = w
  · subst h
    simp only [mul_ite, mul_zero, ite_mul, zero_mul, if_true]
    have : ∀ ω : Out, (if ω = z then (if ω = z then (6 : ℝ) * 6 else 0) else 0) = if ω = z then 36 else 0 := by
      intro ω; split <;> norm_num
    simp only [this, Finset.sum_ite_eq', Finset.mem_univ, if_true]; norm_num
  · rw [if_neg h]
    have : ∀ ω : Out, (if ω = z then (6 : ℝ) else 0) * (if ω = w then 6 else 0) = 0 := by
      intro ω
      by_cases h1 : ω = z
      · rw [if_neg (fun h2 : ω = w => h (h1.symm.trans h2)), mul_zero]
      · rw [if_neg h1, zero_mul]
    simp only [this, Finset.sum_const_zero, zero_div]

/-- errors with covariance `L Lᵀ` and independent noises of standard deviation `r` -/
theorem ex_ensemble {m : ℕ} (hm : m ≤ 12) (L : Mat ℝ) (r : Fin m → ℝ) :
    Spec.Ensemble unif (fun i j => ∑ k, L i k * L j k) (fun ω i => ∑ k, L i k * orth (.inl k) ω)
      (fun ω a => r a * orth (.inr (Fin.castLE hm a)) ω) (fun a => r a ^ 2) := by
  have hf : ∀ f : Out → ℝ, MemLp f 2 unif := fun f => MemLp.of_discrete
  refine ⟨fun i => hf _, fun a => hf _, fun i j => ?_, fun i a => ?_, fun a b => ?_⟩
  · rw [moment_form (fun ω k => orth (.inl k) ω) (fun k => hf _) (L i) (L j)]
    simp only [orth_moment, Sum.inl.injEq, mul_ite, mul_one, mul_zero, Finset.sum_ite_eq, Finset.mem_univ, if_true]
  · have : (fun ω => (∑ k, L i k * orth (.inl k) ω) * (r a * orth (.inr (Fin.castLE hm a)) ω)) = fun _ => 0 := by
      funext ω
      have : ∀ k, orth (.inl k) ω * orth (.inr (Fin.castLE hm a)) ω = 0 := by
        intro k; unfold orth
        rcases ω with w | w <;> simp
      rw [Finset.sum_mul]
      refine Finset.sum_eq_zero fun k _ => ?_
      rw [show L i k * orth (.inl k) ω * (r a * orth (.inr (Fin.castLE hm a)) ω) =
        L i k * r a * (orth (.inl k) ω * orth (.inr (Fin.castLE hm a)) ω) by ring, this, mul_zero]
    rw [this]; simp
  · have : (fun ω => r a * orth (.inr (Fin.castLE hm a)) ω * (r b * orth (.inr (Fin.castLE hm b)) ω)) =
        fun ω => r a * r b * (orth (.inr (Fin.castLE hm a)) ω * orth (.inr (Fin.castLE hm b)) ω) := by
      funext ω; ring
    rw [this, integral_const_mul, orth_moment]
    by_cases h : a = b
    · subst h; simp; ring
    · rw [if_neg h, if_neg, mul_zero]
      simp only [Sum.inr.injEq]
      intro h'; exact h (Fin.castLE_injective hm h')

/-- standard deviations: attitude, gyro bias and earth field known, accelerometer bias 1e-3, everything else 1 -/
noncomputable def exDev (i : Fin N) : ℝ :=
  if i.val < 4 then 0 else if i.val < 10 then 1 else if i.val < 13 then 0 else if i.val < 16 then 1 / 1000 else if i.val < 19 then 0 else 1

/-- states `a` and `b` correlated with coefficient 3/5 -/
noncomputable def exL (a b : Fin N) : Mat ℝ := fun i k =>
  (if k = i then (if i = b then 4 / 5 else exDev i) else 0) + if k = a then (if i = b then 3 / 5 else 0) else 0

/-- its covariance -/
noncomputable def exP (a b : Fin N) : Mat ℝ := fun i j => ∑ k, exL a b i k * exL a b j k

theorem sum_two (a i j : Fin N) (p q r t : ℝ) :
    ∑ k, ((if k = i then p else 0) + if k = a then q else 0) * ((if k = j then r else 0) + if k = a then t else 0) =
      (if i = j then p * r else 0) + (if i = a then p * t else 0) + (if j = a then q * r else 0) + q * t := by
  have h : ∀ k : Fin N, ((if k = i then p else 0) + if k = a then q else 0) * ((if k = j then r else 0) + if k = a then t else 0) =
      (if k = i then (if i = j then p * r else 0) + (if i = a then p * t else 0) else 0)
        + (if k = a then (if j = a then q * r else 0) + q * t else 0) := by
    intro k
    by_cases h1 : k = i
    · subst h1
      by_cases h2 : k = a
      · subst h2
        by_cases h3 : k = j
        · subst h3; simp; ring
        · simp [h3, Ne.symm h3]; ring
      · by_cases h3 : k = j
        · subst h3; simp [h2]
        · simp [h2, h3]
    · by_cases h2 : k = a
      · subst h2
        by_cases h3 : k = j
        · subst h3; simp [h1]; ring
        · simp [h1, h3, Ne.symm h3]
      · simp [h1, h2]
  rw [Finset.sum_congr rfl fun k _ => h k, Finset.sum_add_distrib]
  simp only [Finset.sum_ite_eq', Finset.mem_univ, if_true]
  ring

theorem exP_diag {a b : Fin N} (hab : a ≠ b) (i : Fin N) : exP a b i i = if i = b then 1 else exDev i ^ 2 := by
  unfold exP exL
  rw [sum_two]
  by_cases h : i = b
  · subst h; simp only [if_true, if_neg (Ne.symm hab)]; norm_num
  · simp only [if_neg h, if_true]; simp; ring

theorem exP_col_a {a b : Fin N} (hab : a ≠ b) (i : Fin N) :
    exP a b i a = if i = a then exDev a ^ 2 else if i = b then 3 / 5 * exDev a else 0 := by
  unfold exP exL
  rw [sum_two]
  by_cases h : i = a
  · subst h; simp only [if_neg hab, if_true]; simp; ring
  · by_cases h2 : i = b
    · subst h2; simp only [if_neg hab, if_neg h, if_true]; simp
    · simp [h, h2, hab]

theorem exP_col_b {a b : Fin N} (hab : a ≠ b) (i : Fin N) :
    exP a b i b = if i = b then 1 else if i = a then 3 / 5 * exDev a else 0 := by
  unfold exP exL
  rw [sum_two]
  by_cases h : i = a
  · subst h; simp only [if_neg hab, if_true]; simp; ring
  · by_cases h2 : i = b
    · subst h2; simp only [if_neg h, if_true]; norm_num
    · simp [h, h2]

/-- flags and time of the example: field and wind in use, nothing inhibited, 10 ms filter period -/
noncomputable def exFix : FixIn ℝ := ⟨fun _ => false, true, true, 1 / 100, 8000000, false⟩

theorem ex_quiet {a b : Fin N} (hr : (a = 4 ∧ b = 5) ∨ (a = 19 ∧ b = 20)) (Q : Mat ℝ)
    (h : ∀ i, i ≠ a → i ≠ b → Q i i = exDev i ^ 2) (ha : 1 / 1000000 ≤ Q a a ∧ Q a a ≤ 1) (hb : 1 / 1000000 ≤ Q b b ∧ Q b b ≤ 1) :
    Spec.Quiet exFix Q := by
  have hv : (a.val = 4 ∧ b.val = 5) ∨ (a.val = 19 ∧ b.val = 20) := by
    rcases hr with ⟨rfl, rfl⟩ | ⟨rfl, rfl⟩
    · exact Or.inl ⟨rfl, rfl⟩
    · exact Or.inr ⟨rfl, rfl⟩
  have ne : ∀ i : Fin N, i.val ≠ a.val → i.val ≠ b.val → Q i i = exDev i ^ 2 := fun i h1 h2 =>
    h i (fun e => h1 (by rw [e])) (fun e => h2 (by rw [e]))
  have hacc : ∀ i : Fin N, 13 ≤ i.val → i.val < 16 → Q i i = 1 / 1000000 := by
    intro i h1 h2
    rw [ne i (by omega) (by omega)]
    unfold exDev
    rw [if_neg (by omega), if_neg (by omega), if_neg (by omega), if_pos h2]; norm_num
  have hone : ∀ i : Fin N, ((4 ≤ i.val ∧ i.val < 10) ∨ 19 ≤ i.val) → 1 / 1000000 ≤ Q i i ∧ Q i i ≤ 1 := by
    intro i hi
    by_cases e1 : i = a
    · rw [e1]; exact ha
    by_cases e2 : i = b
    · rw [e2]; exact hb
    rw [h i e1 e2]
    have : exDev i = 1 := by
      unfold exDev
      rw [if_neg (by omega)]
      rcases hi with hi | hi
      · rw [if_pos hi.2]
      · rw [if_neg (by omega), if_neg (by omega), if_neg (by omega), if_neg (by omega)]
    rw [this]; norm_num
  have hzero : ∀ i : Fin N, (i.val < 4 ∨ (10 ≤ i.val ∧ i.val < 13) ∨ (16 ≤ i.val ∧ i.val < 19)) → Q i i = 0 := by
    intro i hi
    rw [ne i (by omega) (by omega)]
    unfold exDev
    rcases hi with hi | hi | hi
    · rw [if_pos hi]; norm_num
    · rw [if_neg (by omega), if_neg (by omega), if_pos hi.2]; norm_num
    · rw [if_neg (by omega), if_neg (by omega), if_neg (by omega), if_neg (by omega), if_pos hi.2]; norm_num
  refine ⟨rfl, rfl, fun _ => rfl, rfl, by decide, fun i hi => ?_, fun i h1 h2 => ?_, fun i h1 h2 => ?_, fun i h1 h2 => ?_, fun i h1 h2 => ?_,
    fun i h1 => ?_⟩
  · rw [hzero i (Or.inl hi)]; norm_num
  · have := hone i (Or.inl ⟨h1, h2⟩); exact ⟨this.1, by linarith [this.2]⟩
  · rw [hzero i (Or.inr (Or.inl ⟨h1, h2⟩))]; norm_num
  · rw [hacc i h1 h2]
    refine ⟨by norm_num, by unfold exFix; norm_num, fun j h3 h4 => by rw [hacc j h3 h4]; norm_num⟩
  · by_cases h3 : i.val < 19
    · rw [hzero i (Or.inr (Or.inr ⟨h1, h3⟩))]; norm_num
    · have := hone i (Or.inr (by omega)); exact ⟨by linarith [this.1], this.2⟩
  · have := hone i (Or.inr (by omega)); exact ⟨by linarith [this.1], by linarith [this.2]⟩

/-- the error of the example -/
noncomputable def exErr (a b : Fin N) (ω : Out) : Vec ℝ := fun i => ∑ k, exL a b i k * orth (.inl k) ω

/-- its noises of standard deviation `r` -/
noncomputable def exNoise (r : ℝ) (ω : Out) (c : Fin 2) : ℝ := r * orth (.inr (Fin.castLE (by norm_num) c)) ω

theorem ex_ens (a b : Fin N) (r : ℝ) : Spec.Ensemble unif (exP a b) (exErr a b) (exNoise r) (fun _ => r ^ 2) :=
  ex_ensemble (m := 2) (by norm_num) (exL a b) (fun _ => r)

theorem exErr_eq (a b i : Fin N) (ω : Out) : exErr a b ω i =
    (if i = b then 4 / 5 else exDev i) * orth (.inl i) ω + (if i = b then 3 / 5 else 0) * orth (.inl a) ω := by
  unfold exErr exL
  simp only [add_mul, Finset.sum_add_distrib, ite_mul, zero_mul, Finset.sum_ite_eq', Finset.mem_univ, if_true]

theorem orth_bound (z ω : Out) : 0 ≤ orth z ω ∧ orth z ω ≤ 6 := by unfold orth; split <;> norm_num

/-- the true state of the example: level, at rest -/
noncomputable def exTruth : Vec ℝ := fun i => if i = 0 then 1 else 0

/-- filter with the covariance of the example -/
noncomputable def exHon (a b : Fin N) : Filt := { exFilt with M := { exFilt.M with P := exP a b } }

theorem exAfter_diag {a b : Fin N} (hab : a ≠ b) (hd : exDev a = 1) (S : ℝ) (i : Fin N) :
    Spec.afterDirect (exP a b) a S i i = if i = b then 1 - 9 / 25 / S else if i = a then 1 - 1 / S else exDev i ^ 2 := by
  have hsym : exP a b a i = exP a b i a := (ex_ens a b 1).psd.symm a i
  unfold Spec.afterDirect
  rw [hsym, exP_diag hab, exP_col_a hab, hd]
  by_cases h1 : i = b
  · subst h1; simp only [if_true, if_neg (Ne.symm hab)]; ring
  · by_cases h2 : i = a
    · subst h2; simp only [if_neg h1, if_true, hd]; ring
    · simp only [if_neg h1, if_neg h2]; ring

theorem exAfter_b {a b : Fin N} (hab : a ≠ b) (hd : exDev a = 1) (S : ℝ) (i : Fin N) :
    Spec.afterDirect (exP a b) a S i b = if i = b then 1 - 9 / 25 / S else if i = a then 3 / 5 - 3 / 5 / S else 0 := by
  unfold Spec.afterDirect
  have hsym : exP a b a b = 3 / 5 := by rw [exP_col_b hab, if_neg hab, if_pos rfl, hd]; ring
  rw [hsym, exP_col_b hab, exP_col_a hab, hd]
  by_cases h1 : i = b
  · subst h1; simp only [if_true, if_neg (Ne.symm hab)]; ring
  · by_cases h2 : i = a
    · subst h2; simp only [if_neg h1, if_true]; ring
    · simp only [if_neg h1, if_neg h2]; ring

/-- The hypotheses of `horizontal_velocity_honest` are met: correlated velocity errors, noise 1 m/s, a wide gate. -/
example : ∃ (x : VPIn) (st : VPSt) (s truth : Out → Vec ℝ) (noise : Out → Fin 2 → ℝ) (R : Fin 2 → ℝ), (∀ a, 0 < R a) ∧
    IsProbabilityMeasure unif ∧
    Spec.Ensemble unif st.f.P (fun ω i => s ω i - truth ω i) noise R ∧ st.f.P 4 5 = 3 / 5 ∧
    (∀ ω, (fuseHorizontalVelocity x (s ω 4 - (truth ω 4 + noise ω 0)) (s ω 5 - (truth ω 5 + noise ω 1))
      1000 (R 0) (R 1) (Spec.withState st (s ω))).ret = true) ∧
    Spec.Quiet x.fx (Spec.afterDirect st.f.P 4 (st.f.P 4 4 + R 0)) ∧
    Spec.Quiet x.fx (Spec.afterDirect (Spec.afterDirect st.f.P 4 (st.f.P 4 4 + R 0)) 5 (st.f.P 5 5 + R 1)) := by
  have hab : (4 : Fin N) ≠ 5 := by decide
  have hd : exDev 4 = 1 := by unfold exDev; rw [if_neg (by decide), if_pos (by decide)]
  have h44 : exP 4 5 4 4 = 1 := by rw [exP_diag hab, if_neg hab, hd]; norm_num
  have h55 : exP 4 5 5 5 = 1 := by rw [exP_diag hab, if_pos rfl]
  have herr : ∀ (ω : Out) (i : Fin N), exTruth i + exErr 4 5 ω i - exTruth i = exErr 4 5 ω i := fun ω i => by ring
  refine ⟨⟨exFix, false, false⟩, exVP (exHon 4 5), fun ω i => exTruth i + exErr 4 5 ω i, fun _ => exTruth, exNoise 1, fun _ => 1 ^ 2,
    fun _ => by norm_num, inferInstance, ?_, ?_, ?_, ?_, ?_⟩
  · show Spec.Ensemble unif (exP 4 5) _ _ _
    simp only [herr]
    exact ex_ens 4 5 1
  · show exP 4 5 4 5 = _
    rw [exP_col_b hab, if_neg hab, if_pos rfl, hd]; norm_num
  · intro ω
    have g := hvel_gate ⟨exFix, false, false⟩ (Spec.withState (exVP (exHon 4 5)) (fun i => exTruth i + exErr 4 5 ω i))
      (exTruth 4 + exErr 4 5 ω 4 - (exTruth 4 + exNoise 1 ω 0)) (exTruth 5 + exErr 4 5 ω 5 - (exTruth 5 + exNoise 1 ω 1)) 1000 (1 ^ 2) (1 ^ 2)
      (by norm_num) (by show 0 < exP 4 5 4 4 + 1 ^ 2; rw [h44]; norm_num) (by show 0 < exP 4 5 5 5 + 1 ^ 2; rw [h55]; norm_num)
    refine g.1.mpr ?_
    show (exTruth 4 + exErr 4 5 ω 4 - (exTruth 4 + exNoise 1 ω 0)) ^ 2 ≤ 1000 ^ 2 * (exP 4 5 4 4 + 1 ^ 2) ∧
      (exTruth 5 + exErr 4 5 ω 5 - (exTruth 5 + exNoise 1 ω 1)) ^ 2 ≤ 1000 ^ 2 * (exP 4 5 5 5 + 1 ^ 2)
    rw [h44, h55, exErr_eq, exErr_eq, if_neg hab, if_neg hab, if_pos rfl, if_pos rfl, hd]
    unfold exNoise
    have b1 := orth_bound (.inl 4) ω
    have b2 := orth_bound (.inl 5) ω
    have b3 := orth_bound (.inr (Fin.castLE (by norm_num) (0 : Fin 2))) ω
    have b4 := orth_bound (.inr (Fin.castLE (by norm_num) (1 : Fin 2))) ω
    constructor
    · refine le_trans (sq_le_sq' (a := _) (b := 100) ?_ ?_) (by norm_num) <;> linarith
    · refine le_trans (sq_le_sq' (a := _) (b := 100) ?_ ?_) (by norm_num) <;> linarith
  · show Spec.Quiet exFix (Spec.afterDirect (exP 4 5) 4 (exP 4 5 4 4 + 1 ^ 2))
    rw [h44]
    refine ex_quiet (Or.inl ⟨rfl, rfl⟩) _ (fun i h1 h2 => ?_) ?_ ?_
    · rw [exAfter_diag hab hd, if_neg h2, if_neg h1]
    · rw [exAfter_diag hab hd, if_neg hab, if_pos rfl]; norm_num
    · rw [exAfter_diag hab hd, if_pos rfl]; norm_num
  · show Spec.Quiet exFix (Spec.afterDirect (Spec.afterDirect (exP 4 5) 4 (exP 4 5 4 4 + 1 ^ 2)) 5 (exP 4 5 5 5 + 1 ^ 2))
    rw [h44, h55]
    have hb := exAfter_b hab hd ((1 : ℝ) + 1 ^ 2)
    have hdg := exAfter_diag hab hd ((1 : ℝ) + 1 ^ 2)
    have hs : ∀ i, Spec.afterDirect (exP 4 5) 4 ((1 : ℝ) + 1 ^ 2) 5 i = Spec.afterDirect (exP 4 5) 4 ((1 : ℝ) + 1 ^ 2) i 5 := by
      intro i
      have hsym := (ex_ens 4 5 1).psd.symm
      unfold Spec.afterDirect
      rw [hsym 5 i, hsym 5 4, hsym 4 i]; ring
    generalize Spec.afterDirect (exP 4 5) 4 ((1 : ℝ) + 1 ^ 2) = Q at *
    have hdd : ∀ i, Spec.afterDirect Q 5 ((1 : ℝ) + 1 ^ 2) i i = Q i i - Q i 5 ^ 2 / 2 := by
      intro i; unfold Spec.afterDirect; rw [hs]; ring
    refine ex_quiet (Or.inl ⟨rfl, rfl⟩) _ (fun i h1 h2 => ?_) ?_ ?_
    · rw [hdd, hdg, hb, if_neg h2, if_neg h1, if_neg h2, if_neg h1]; norm_num
    · rw [hdd, hdg, hb, if_neg hab, if_pos rfl, if_neg hab, if_pos rfl]; norm_num
    · rw [hdd, hdg, if_pos rfl]; norm_num

/-- The hypotheses of `partial_update_crosscovariance` are met with only north velocity corrected; then the reported covariance of
the two velocity errors is not the true one. -/
example : Spec.Ensemble unif (exP 4 5) (exErr 4 5) (fun ω (_ : Fin 1) => exNoise 1 ω 0) (fun _ => 1 ^ 2) ∧
    Spec.Quiet exFix (Spec.afterRow (exP 4 5) (Spec.pick 4) (1 ^ 2) (fun i => i = 4)) ∧
    Spec.mulVec (exP 4 5) (Spec.pick 4) 4 * Spec.mulVec (exP 4 5) (Spec.pick 4) 5 ≠ 0 := by
  have hab : (4 : Fin N) ≠ 5 := by decide
  have hd : exDev 4 = 1 := by unfold exDev; rw [if_neg (by decide), if_pos (by decide)]
  have h44 : exP 4 5 4 4 = 1 := by rw [exP_diag hab, if_neg hab, hd]; norm_num
  have f1 : ∀ l, Spec.mulVec (exP 4 5) (Spec.pick 4) l = exP 4 5 l 4 := by intro l; unfold Spec.mulVec Spec.pick; simp
  have f2 : Spec.innovVar (exP 4 5) (Spec.pick 4) (1 ^ 2) = 2 := by
    unfold Spec.innovVar Spec.form Spec.pick; simp [h44]; norm_num
  have hens := ex_ens 4 5 1
  refine ⟨⟨hens.e2, fun _ => hens.v2 0, hens.cov, fun i _ => hens.unc i 0, fun a b => ?_⟩, ?_, ?_⟩
  · rw [hens.noise 0 0, if_pos rfl, if_pos (Subsingleton.elim a b)]
  · have hdg : ∀ i, Spec.afterRow (exP 4 5) (Spec.pick 4) (1 ^ 2) (fun i => i = 4) i i = if i = 4 then 1 / 2 else exP 4 5 i i := by
      intro i
      unfold Spec.afterRow
      rw [f1, f2]
      by_cases h : i = 4
      · subst h; simp only [if_true, h44]; norm_num
      · simp only [if_neg h]; ring
    refine ex_quiet (Or.inl ⟨rfl, rfl⟩) _ (fun i h1 h2 => ?_) ?_ ?_
    · rw [hdg, if_neg h1, exP_diag hab, if_neg h2]
    · rw [hdg, if_pos rfl]; norm_num
    · rw [hdg, if_neg (Ne.symm hab), exP_diag hab, if_pos rfl]; norm_num
  · rw [f1, f1, exP_col_a hab, exP_col_a hab, if_pos rfl, if_neg (Ne.symm hab), if_pos rfl, hd]; norm_num

/-- **C145 (horizontal pair, price).** Keeping the second innovation variance from before the first axis costs accuracy: every
variance after the pair is at least what the update with the recomputed variance gives, and more for every state still correlated
with the second component if the two components were correlated. -/
theorem pair_conservative (P : Mat ℝ) (hP : Spec.PSD P) (m n : Fin N) (R R' : ℝ) (hR : 0 < R) (hR' : 0 < R') (i : Fin N) :
    let P1 := Spec.afterDirect P m (P m m + R)
    Spec.afterDirect P1 n (P1 n n + R') i i ≤ Spec.afterDirect P1 n (P n n + R') i i ∧
    (P n m ≠ 0 → P1 i n ≠ 0 → Spec.afterDirect P1 n (P1 n n + R') i i < Spec.afterDirect P1 n (P n n + R') i i) := by
  intro P1
  have hS : 0 < P m m + R := by have := diag_nonneg hP m; linarith
  have e : ∀ i j, P1 i j = P i j - P i m * P m j / (P m m + R) := fun i j => rfl
  have hs : P1 n i = P1 i n := by rw [e, e, hP.symm n i, hP.symm n m, hP.symm m i]; ring
  have hnn : P1 n n = P n n - P n m ^ 2 / (P m m + R) := by rw [e, hP.symm m n]; ring
  have h1 : 0 ≤ P1 n n := by
    have := (kalman_update_valid hP (Spec.pick m) hR).2.2 n
    have f1 : ∀ l, Spec.mulVec P (Spec.pick m) l = P l m := by intro l; unfold Spec.mulVec Spec.pick; simp
    have f2 : Spec.innovVar P (Spec.pick m) R = P m m + R := by unfold Spec.innovVar Spec.form Spec.pick; simp
    simp only [f1, f2] at this
    rw [hnn]
    have h2 := this.1
    calc (0 : ℝ) ≤ _ := h2
      _ = _ := by ring
  have hle : P1 n n + R' ≤ P n n + R' := by
    rw [hnn]
    have : 0 ≤ P n m ^ 2 / (P m m + R) := by positivity
    linarith
  show P1 i i - P1 i n * P1 n i / (P1 n n + R') ≤ P1 i i - P1 i n * P1 n i / (P n n + R') ∧
    (_ → _ → P1 i i - P1 i n * P1 n i / (P1 n n + R') < P1 i i - P1 i n * P1 n i / (P n n + R'))
  rw [hs]
  have hpos : 0 < P1 n n + R' := by linarith
  constructor
  · have := div_le_div_of_nonneg_left (mul_self_nonneg (P1 i n)) hpos hle
    linarith
  · intro h2 h3
    have hlt : P1 n n + R' < P n n + R' := by
      rw [hnn]
      have : 0 < P n m ^ 2 / (P m m + R) := by positivity
      linarith
    have := div_lt_div_of_pos_left (mul_self_pos.mpr h3) hpos hlt
    linarith

/-- **C145 (magnetometer, magnitude).** There is a situation in which everything else is right (the covariance is that of the
errors, gates pass, no limit acts) and after fusing the X and Y axes the filter reports a variance of the body Y field below 0.01
while its mean square error is above 1/3. -/
theorem mag_variance_too_small : ∃ (x : MagIn) (st : MagSt) (s truth : Out → Vec ℝ) (noise : Out → Fin 2 → ℝ),
    IsProbabilityMeasure unif ∧
    Spec.Ensemble unif st.f.P (fun ω i => s ω i - truth ω i) noise (fun _ => x.noise ^ 2) ∧
    ∃ P', let fin : Out → Filt := fun ω => (fuseMag
        { x with mag := ![Spec.magPred 0 (truth ω) + noise ω 0, Spec.magPred 1 (truth ω) + noise ω 1, 0] }
        { st with f := { st.f with s := s ω } }).f
      (∀ ω, (fin ω).P = P') ∧ P' 20 20 < 1 / 100 ∧ 1 / 3 < ∫ ω, ((fin ω).s 20 - truth ω 20) * ((fin ω).s 20 - truth ω 20) ∂unif := by
  have hab : (19 : Fin N) ≠ 20 := by decide
  have hd : exDev 19 = 1 := by
    unfold exDev
    rw [if_neg (by decide), if_neg (by decide), if_neg (by decide), if_neg (by decide), if_neg (by decide)]
  have h44 : exP 19 20 19 19 = 1 := by rw [exP_diag hab, if_neg hab, hd]; norm_num
  have h55 : exP 19 20 20 20 = 1 := by rw [exP_diag hab, if_pos rfl]
  have h45 : exP 19 20 19 20 = 3 / 5 := by rw [exP_col_b hab, if_neg hab, if_pos rfl, hd]; norm_num
  have herr : ∀ (ω : Out) (i : Fin N), exTruth i + exErr 19 20 ω i - exTruth i = exErr 19 20 ω i := fun ω i => by ring
  obtain ⟨x, hx⟩ : ∃ x : MagIn, x = ⟨1 / 10, 1000, 0, true, 8000000, 0, 1, ⟨false, false, none, 0⟩, exFix⟩ := ⟨_, rfl⟩
  have hxn : x.noise = 1 / 10 := by rw [hx]
  have hxf : x.fx = exFix := by rw [hx]
  have hxg : max x.gate 1 = 1000 := by rw [hx]; norm_num
  obtain ⟨st, hst⟩ : ∃ st : MagSt, st = ⟨exHon 19 20, fun _ => false, fun _ => false, 0, 0, 0, 0⟩ := ⟨_, rfl⟩
  have hP : st.f.P = exP 19 20 := by rw [hst]; rfl
  have hens : Spec.Ensemble unif st.f.P (fun ω i => (exTruth i + exErr 19 20 ω i) - exTruth i) (exNoise (1 / 10)) (fun _ => x.noise ^ 2) := by
    rw [hP, hxn]; simp only [herr]; exact ex_ens 19 20 (1 / 10)
  have main := mag_overconfident (μ := unif) x (by rw [hxn]; norm_num) (by rw [hx]) (by rw [hx]; decide) st
    (fun ω i => exTruth i + exErr 19 20 ω i) (fun _ => exTruth) (exNoise (1 / 10)) hens
    (by
      intro ω i hi
      rw [exErr_eq, if_neg (by rintro rfl; revert hi; decide), if_neg (by rintro rfl; revert hi; decide)]
      have : exDev i = 0 := by
        unfold exDev
        rcases hi with hi | hi
        · rw [if_pos hi]
        · rw [if_neg (by omega), if_neg (by omega), if_neg (by omega), if_neg (by omega), if_pos hi.2]
      rw [this]; ring)
  simp only [hP, h44, h55, h45, hxn, hxf, hxg] at main
  have hb := exAfter_b hab hd ((1 : ℝ) + (1 / 10) ^ 2)
  have hdg := exAfter_diag hab hd ((1 : ℝ) + (1 / 10) ^ 2)
  have hs : ∀ i, Spec.afterDirect (exP 19 20) 19 ((1 : ℝ) + (1 / 10) ^ 2) 20 i = Spec.afterDirect (exP 19 20) 19 ((1 : ℝ) + (1 / 10) ^ 2) i 20 := by
    intro i
    have hsym := (ex_ens 19 20 1).psd.symm
    unfold Spec.afterDirect
    rw [hsym 20 i, hsym 20 19, hsym 19 i]; ring
  generalize Spec.afterDirect (exP 19 20) 19 ((1 : ℝ) + (1 / 10) ^ 2) = Q at main hb hdg hs
  have hQb : Q 20 20 = 65 / 101 := by rw [hb, if_pos rfl]; norm_num
  rw [hQb] at main
  have hdd : ∀ i, Spec.afterDirect Q 20 ((65 / 101 : ℝ) + (1 / 10) ^ 2) i i = Q i i - Q i 20 ^ 2 * (10100 / 6601) := by
    intro i; unfold Spec.afterDirect; rw [hs]; norm_num; ring
  obtain ⟨P', m1, m2, m3⟩ := main (by
      intro ω
      rw [show (fun i => exTruth i + exErr 19 20 ω i) 19 - exTruth 19 = exErr 19 20 ω 19 from herr ω 19,
        show (fun i => exTruth i + exErr 19 20 ω i) 20 - exTruth 20 = exErr 19 20 ω 20 from herr ω 20,
        exErr_eq, exErr_eq, if_neg hab, if_neg hab, if_pos rfl, if_pos rfl, hd]
      unfold exNoise
      have b1 := orth_bound (.inl 19) ω
      have b2 := orth_bound (.inl 20) ω
      have b3 := orth_bound (.inr (Fin.castLE (by norm_num) (0 : Fin 2))) ω
      have b4 := orth_bound (.inr (Fin.castLE (by norm_num) (1 : Fin 2))) ω
      constructor
      · refine le_trans (sq_le_sq' (a := _) (b := 100) ?_ ?_) (by norm_num) <;> linarith
      · refine le_trans (sq_le_sq' (a := _) (b := 100) ?_ ?_) (by norm_num) <;> linarith)
    (by
      refine ex_quiet (Or.inr ⟨rfl, rfl⟩) _ (fun i h1 h2 => ?_) ?_ ?_
      · rw [hdg, if_neg h2, if_neg h1]
      · rw [hdg, if_neg hab, if_pos rfl]; norm_num
      · rw [hdg, if_pos rfl]; norm_num)
    (by
      refine ex_quiet (Or.inr ⟨rfl, rfl⟩) _ (fun i h1 h2 => ?_) ?_ ?_
      · rw [hdd, hdg, hb, if_neg h2, if_neg h1, if_neg h2, if_neg h1]; norm_num
      · rw [hdd, hdg, hb, if_neg hab, if_pos rfl, if_neg hab, if_pos rfl]; norm_num
      · rw [hdd, hdg, if_pos rfl]; norm_num)
  have hv : P' 20 20 = 65 / 6601 := by rw [m2, hdd, hQb]; norm_num
  refine ⟨x, st, fun ω i => exTruth i + exErr 19 20 ω i, fun _ => exTruth, exNoise (1 / 10), inferInstance, hens, P', ?_, ?_, ?_⟩
  · simpa only [hxn, hxf] using m1
  · rw [hv]; norm_num
  · have := m3 20 20 (by decide) (by decide) (by decide) (by decide) (by decide) (by decide)
    simp only [hxn, hxf]
    rw [this, hv, hQb]; norm_num

end Ecl.Fusion
