import Verif.Cov.Props

/-!
# Covariance validity over update sequences, yaw variance increase, findings (C60, C72, C73, C75)
-/

namespace Ecl.Cov

open Finset

set_option linter.unusedSectionVars false

variable {K : Type*} [Field K] [LinearOrder K] [IsStrictOrderedRing K]

/-! ### Building valid covariances -/

section psd
variable {ι : Type*} [Fintype ι] [DecidableEq ι]

theorem psd_add {P Q : ι → ι → K} (hP : Spec.PSD P) (hQ : Spec.PSD Q) : Spec.PSD (fun i j => P i j + Q i j) := by
  refine ⟨fun i j => by rw [hP.symm i j, hQ.symm i j], fun x => ?_⟩
  have : Spec.form (fun i j => P i j + Q i j) x x = Spec.form P x x + Spec.form Q x x := by
    unfold Spec.form
    simp only [← Finset.sum_add_distrib]
    exact Finset.sum_congr rfl fun i _ => Finset.sum_congr rfl fun j _ => by ring
  rw [this]; exact add_nonneg (hP.nonneg x) (hQ.nonneg x)

theorem psd_diag {d : ι → K} (h : ∀ i, 0 ≤ d i) : Spec.PSD (fun i j => if i = j then d i else 0) := by
  refine ⟨fun i j => ?_, fun x => ?_⟩
  · by_cases e : i = j
    · subst e; rfl
    · rw [if_neg e, if_neg (Ne.symm e)]
  · have : Spec.form (fun i j => if i = j then d i else 0) x x = ∑ i, x i * d i * x i := by
      unfold Spec.form
      refine Finset.sum_congr rfl fun i _ => ?_
      simp [mul_ite, ite_mul]
    rw [this]
    refine Finset.sum_nonneg fun i _ => ?_
    have := mul_nonneg (h i) (mul_self_nonneg (x i))
    calc (0 : K) ≤ _ := this
      _ = _ := by ring

theorem psd_outer (g : ι → K) {c : K} (hc : 0 ≤ c) : Spec.PSD (fun i j => c * (g i * g j)) := by
  refine ⟨fun i j => by ring, fun x => ?_⟩
  have : Spec.form (fun i j => c * (g i * g j)) x x = c * (∑ i, x i * g i) ^ 2 := by
    unfold Spec.form
    rw [pow_two, Finset.sum_mul_sum, Finset.mul_sum]
    refine Finset.sum_congr rfl fun i _ => ?_
    rw [Finset.mul_sum]
    exact Finset.sum_congr rfl fun j _ => by ring
  rw [this]; exact mul_nonneg hc (sq_nonneg _)

theorem psd_congr {P Q : ι → ι → K} (h : ∀ i j, Q i j = P i j) (hP : Spec.PSD P) : Spec.PSD Q := by
  have : Q = P := by funext i j; exact h i j
  rw [this]; exact hP

/-- deleting rows and columns -/
theorem psd_mask {P : ι → ι → K} (hP : Spec.PSD P) (s : ι → Prop) [DecidablePred s] :
    Spec.PSD (fun i j => if s i ∨ s j then 0 else P i j) := by
  refine ⟨fun i j => by rw [hP.symm i j]; simp only [or_comm], fun x => ?_⟩
  have : Spec.form (fun i j => if s i ∨ s j then 0 else P i j) x x =
      Spec.form P (fun i => if s i then 0 else x i) (fun i => if s i then 0 else x i) := by
    unfold Spec.form
    refine Finset.sum_congr rfl fun i _ => Finset.sum_congr rfl fun j _ => ?_
    by_cases hi : s i <;> by_cases hj : s j <;> simp [hi, hj]
  rw [this]; exact hP.nonneg _

end psd

/-- Non-vacuity of C24: a 24-state covariance with correlations. -/
example : Spec.PSD (fun i j : Fin N => (1 : ℚ) / 100 * ((i.val : ℚ) * (j.val : ℚ)) + if i = j then 1 / 10 else 0) :=
  psd_add (psd_outer (fun i : Fin N => (i.val : ℚ)) (by norm_num)) (psd_diag fun _ => by norm_num)

theorem psd_uncorrSet {f w : ℕ} {v : Fin N → K} {P : Mat K} (hP : Spec.PSD P) (hv : ∀ i, inBlk f w i → 0 ≤ v i) :
    Spec.PSD (uncorrSet f w v P) := by
  refine psd_congr (P := fun i j => (if inBlk f w i ∨ inBlk f w j then 0 else P i j) +
    (if i = j then (if inBlk f w i then v i else 0) else 0)) (fun i j => ?_)
    (psd_add (psd_mask hP (inBlk f w)) (psd_diag fun i => ?_))
  · unfold uncorrSet
    by_cases e : i = j
    · subst e
      by_cases h : inBlk f w i
      · rw [if_pos (Or.inl h), if_pos rfl, if_pos (Or.inl h), if_pos rfl, if_pos h, zero_add]
      · have hn : ¬ (inBlk f w i ∨ inBlk f w i) := by tauto
        rw [if_neg hn, if_neg hn, if_pos rfl, if_neg h, add_zero]
    · simp only [e, if_false, add_zero]
  · split
    · exact hv i ‹_›
    · exact le_rfl

theorem psd_uncorr {f w : ℕ} {P : Mat K} (hP : Spec.PSD P) : Spec.PSD (uncorr f w P) :=
  psd_uncorrSet hP fun i _ => diag_nonneg hP i

theorem psd_raise {P : Mat K} (hP : Spec.PSD P) (Q : Mat K) (hoff : ∀ i j, i ≠ j → Q i j = P i j)
    (hd : ∀ i, P i i ≤ Q i i) : Spec.PSD Q := by
  refine psd_congr (P := fun i j => P i j + (if i = j then Q i i - P i i else 0)) (fun i j => ?_)
    (psd_add hP (psd_diag fun i => sub_nonneg.mpr (hd i)))
  by_cases e : i = j
  · subst e; rw [if_pos rfl]; ring
  · rw [if_neg e, add_zero, hoff i j e]

theorem makeSym_of_sym {f w : ℕ} {P : Mat K} (h : ∀ i j, P i j = P j i) : makeSym f w P = P := by
  funext i j
  unfold makeSym
  split
  · rw [h j i]; ring
  · rfl

/-! ### C79: validity is an invariant of measurement updates -/

/-- variances within the limits used by the filter (accelerometer bias limit `(0.1 g dt)²`) -/
def Spec.WithinLimits (dt : K) (P : Mat K) : Prop :=
  (∀ i : Fin N, i.val < 4 → P i i ≤ 1) ∧
  (∀ i : Fin N, 4 ≤ i.val → i.val < 10 → P i i ≤ 1000000) ∧
  (∀ i : Fin N, 10 ≤ i.val → i.val < 13 → P i i ≤ 1) ∧
  (∀ i : Fin N, 13 ≤ i.val → i.val < 16 → P i i ≤ (980665 / 1000000 * dt) ^ 2) ∧
  (∀ i : Fin N, 16 ≤ i.val → i.val < 22 → P i i ≤ 1) ∧
  (∀ i : Fin N, 22 ≤ i.val → P i i ≤ 1000000)

theorem le_constrain {v lo hi : K} (h : v ≤ hi) : v ≤ constrain v lo hi := by
  unfold constrain; split
  · exact le_of_lt ‹_›
  · split
    · linarith
    · exact le_rfl

theorem psd_mapDiag {f w : ℕ} {g : K → K} {P : Mat K} (hP : Spec.PSD P) (h : ∀ i, inBlk f w i → P i i ≤ g (P i i)) :
    Spec.PSD (mapDiag f w g P) := by
  refine psd_raise hP _ (fun i j e => mapDiag_off e) fun i => ?_
  rw [mapDiag_diag]; split
  · exact h i ‹_›
  · exact le_rfl

/-- **C79 (limiter).** A valid covariance whose variances do not exceed the upper limits is still valid after limiting, for
every combination of flags. -/
theorem fix_keeps_valid (x : FixIn K) (force : Bool) (t : UInt64) (fl : Bool) (P : Mat K) (hP : Spec.PSD P)
    (hl : Spec.WithinLimits x.dtEkfAvg P) : Spec.PSD (fixCovarianceErrors x force t fl P).1 := by
  obtain ⟨l1, l2, l3, l4, l5, l6⟩ := hl
  have hsym : ∀ {f w : ℕ} {Q : Mat K}, Spec.PSD Q → Spec.PSD (if force = true then makeSym f w Q else Q) := by
    intro f w Q hQ; split
    · rw [makeSym_of_sym hQ.symm]; exact hQ
    · exact hQ
  have h1 : Spec.PSD (fixKin force P) := by
    unfold fixKin
    refine hsym (psd_mapDiag (psd_mapDiag (psd_mapDiag (psd_mapDiag hP ?_) ?_) ?_) ?_)
    · intro i hi; exact le_constrain (l1 i (by omega))
    · intro i hi
      rw [mapDiag_diag, if_neg (by omega)]; exact le_constrain (l2 i (by omega) (by omega))
    · intro i hi
      rw [mapDiag_diag, if_neg (by omega), mapDiag_diag, if_neg (by omega)]; exact le_constrain (l2 i (by omega) (by omega))
    · intro i hi
      rw [mapDiag_diag, if_neg (by omega), mapDiag_diag, if_neg (by omega), mapDiag_diag, if_neg (by omega)]
      exact le_constrain (l3 i (by omega) (by omega))
  have hkd : ∀ i : Fin N, 13 ≤ i.val → fixKin force P i i = P i i := by
    intro i hi; rw [fixKin_diag, if_neg (by omega), if_neg (by omega), if_neg (by omega)]
  have hacc : Spec.PSD (fixAcc x force t (fixKin force P)).1 := by
    unfold fixAcc
    have hc : Spec.PSD (accClamp x.inhibit (accFloor (accScan x.inhibit (fixKin force P)).1) (accCap x.dtEkfAvg)
        (fixKin force P)) := by
      refine psd_raise h1 _ (fun i j e => ?_) fun i => ?_
      · unfold accClamp; rw [if_neg (fun h => e h.1)]
      · rw [accClamp_diag]; split
        · next h =>
          obtain ⟨a, -, rfl⟩ := h
          have e : (accIdx a).val = 13 + a.val := rfl
          have := a.isLt
          apply le_constrain
          rw [hkd _ (by omega)]
          refine le_trans (l4 _ (by omega) (by omega)) (le_of_eq ?_)
          unfold accCap sq; ring
        · exact le_rfl
    have hu : Spec.PSD (if (accScan x.inhibit (fixKin force P)).2 = true then uncorr 13 3 (accClamp x.inhibit
        (accFloor (accScan x.inhibit (fixKin force P)).1) (accCap x.dtEkfAvg) (fixKin force P)) else accClamp x.inhibit
        (accFloor (accScan x.inhibit (fixKin force P)).1) (accCap x.dtEkfAvg) (fixKin force P)) := by
      split
      · exact psd_uncorr hc
      · exact hc
    dsimp only
    generalize isTimedOut x.now (if x.badAccBias = true then t else x.now) 7000000 = tb
    split
    · exact psd_uncorr hu
    · exact hsym hu
  have h2 : Spec.PSD (if !x.inhibit 0 || !x.inhibit 1 || !x.inhibit 2 then fixAcc x force t (fixKin force P)
      else (fixKin force P, t, fl)).1 := by
    split
    · exact hacc
    · exact h1
  have hd2 : ∀ i : Fin N, 16 ≤ i.val → (if !x.inhibit 0 || !x.inhibit 1 || !x.inhibit 2 then fixAcc x force t (fixKin force P)
      else (fixKin force P, t, fl)).1 i i = P i i := by
    intro i hi
    split
    · rw [fixAcc_diag_other x force t _ i (by unfold inBlk; omega), hkd i (by omega)]
    · exact hkd i (by omega)
  show Spec.PSD (fixWind x.wind force (fixMag x.mag3D force _))
  generalize (if !x.inhibit 0 || !x.inhibit 1 || !x.inhibit 2 then fixAcc x force t (fixKin force P)
      else (fixKin force P, t, fl)).1 = Q at h2 hd2
  have h3 : Spec.PSD (fixMag x.mag3D force Q) := by
    unfold fixMag
    split
    · exact psd_uncorrSet (psd_uncorrSet h2 fun _ _ => le_rfl) fun _ _ => le_rfl
    · have : Spec.PSD (mapDiag 19 3 (fun v => constrain v 0 1) (mapDiag 16 3 (fun v => constrain v 0 1) Q)) := by
        refine psd_mapDiag (psd_mapDiag h2 ?_) ?_
        · intro i hi; apply le_constrain; rw [hd2 i (by omega)]; exact l5 i (by omega) (by omega)
        · intro i hi; apply le_constrain; rw [mapDiag_diag, if_neg (by omega), hd2 i (by omega)]
          exact l5 i (by omega) (by omega)
      dsimp only
      split
      · rw [makeSym_of_sym this.symm, makeSym_of_sym this.symm]; exact this
      · exact this
  have hd3 : ∀ i : Fin N, 22 ≤ i.val → fixMag x.mag3D force Q i i = P i i := by
    intro i hi; rw [fixMag_diag, if_neg (by omega), hd2 i (by omega)]
  unfold fixWind
  split
  · exact psd_uncorrSet h3 fun _ _ => le_rfl
  · refine hsym (psd_mapDiag h3 ?_)
    intro i hi; apply le_constrain; rw [hd3 i (by omega)]; exact l6 i (by omega)

/-- **C79 (limits hold afterwards).** With no inhibited axis and a filter period of at least 0.3 ms the limited covariance
is within the limits. -/
theorem fix_within_limits (x : FixIn K) (hx : ∀ a, x.inhibit a = false) (hdt : 3 / 10000 ≤ x.dtEkfAvg) (force : Bool) (t : UInt64)
    (fl : Bool) (P : Mat K) (hl : Spec.WithinLimits x.dtEkfAvg P) :
    Spec.WithinLimits x.dtEkfAvg (fixCovarianceErrors x force t fl P).1 := by
  have lim := fix_variance_limits x force t fl P
  refine ⟨fun i h => ?_, fun i h h' => ?_, fun i h h' => ?_, fun i h h' => ?_, fun i h h' => ?_, fun i h => ?_⟩
  · rw [(lim i).1 h]; exact max_le (by norm_num) (min_le_right _ _)
  · rw [(lim i).2.1 h h']; exact max_le (by norm_num) (min_le_right _ _)
  · rw [(lim i).2.2.1 h h']; exact max_le (by norm_num) (min_le_right _ _)
  · obtain ⟨a, rfl⟩ : ∃ a : Fin 3, i = accIdx a :=
      ⟨⟨i.val - 13, by omega⟩, by ext; show i.val = 13 + (i.val - 13); omega⟩
    obtain ⟨m, -, hm1, hm, e⟩ := fix_accel_variance x force t fl P a
    rw [e, hx a]
    have hcap : (8 / 100000000 : K) ≤ (980665 / 1000000 * x.dtEkfAvg) ^ 2 := by nlinarith
    simp only [Bool.false_eq_true, if_false]
    split
    · refine max_le ?_ (le_trans (by norm_num) hcap)
      rcases hm with hm | ⟨b, -, hb⟩
      · rw [hm]; exact le_trans (by norm_num) hcap
      · have := hl.2.2.2.1 (accIdx b) (by show 13 ≤ 13 + b.val; omega) (by show 13 + b.val < 16; omega)
        rw [hb] at this
        linarith
    · exact min_le_right _ _
  · rw [(lim i).2.2.2.1 h h']; split
    · exact max_le (by norm_num) (min_le_right _ _)
    · norm_num
  · rw [(lim i).2.2.2.2 h]; split
    · exact max_le (by norm_num) (min_le_right _ _)
    · norm_num

/-- one fused scalar measurement -/
structure Meas (K : Type*) where
  /-- flags and time at this update -/
  x : FixIn K
  /-- observation row -/
  h : Fin N → K
  /-- measurement variance -/
  R : K

/-- fuse a sequence of scalar measurements with the optimal gain through `measurementUpdate` -/
def fuseAll (s : Mat K × UInt64 × Bool) : List (Meas K) → Mat K × UInt64 × Bool
  | [] => s
  | m :: l =>
    let r := measurementUpdate m.x (fun i => Spec.mulVec s.1 m.h i / Spec.innovVar s.1 m.h m.R) m.h s.2.1 s.2.2 s.1
    fuseAll (r.1, r.2.1, r.2.2.1) l

/-- **C79.** Starting from any valid covariance within the limits, after any sequence (any length, any observation rows,
any positive measurement variances, any mag/wind/time flags, no inhibited accelerometer axis) of optimal scalar updates the
covariance is valid and within the limits. -/
theorem updates_keep_valid (dt : K) (hdt : 3 / 10000 ≤ dt) (l : List (Meas K))
    (hl : ∀ m ∈ l, 0 < m.R ∧ m.x.dtEkfAvg = dt ∧ ∀ a, m.x.inhibit a = false) (s : Mat K × UInt64 × Bool)
    (hP : Spec.PSD s.1) (hlim : Spec.WithinLimits dt s.1) :
    Spec.PSD (fuseAll s l).1 ∧ Spec.WithinLimits dt (fuseAll s l).1 := by
  induction l generalizing s with
  | nil => exact ⟨hP, hlim⟩
  | cons m l ih =>
    obtain ⟨hR, hd, hx⟩ := hl m (by simp)
    obtain ⟨P', e, hP', hle, -⟩ := optimal_update_valid m.x hx m.h m.R hR s.1 hP s.2.1 s.2.2
    have hlim' : Spec.WithinLimits dt P' := by
      obtain ⟨a1, a2, a3, a4, a5, a6⟩ := hlim
      exact ⟨fun i h => le_trans (hle i).2 (a1 i h), fun i h h' => le_trans (hle i).2 (a2 i h h'),
        fun i h h' => le_trans (hle i).2 (a3 i h h'), fun i h h' => le_trans (hle i).2 (a4 i h h'),
        fun i h h' => le_trans (hle i).2 (a5 i h h'), fun i h => le_trans (hle i).2 (a6 i h)⟩
    refine ih (fun m' hm' => hl m' (List.mem_cons_of_mem _ hm')) _ ?_ ?_
    · show Spec.PSD (measurementUpdate _ _ _ _ _ _).1
      rw [e]; exact fix_keeps_valid m.x true _ _ P' hP' (hd ▸ hlim')
    · show Spec.WithinLimits dt (measurementUpdate _ _ _ _ _ _).1
      rw [e]; rw [← hd] at hlim' ⊢
      exact fix_within_limits m.x hx (hd ▸ hdt) true _ _ P' hlim'

/-- Non-vacuity of C79: an initial covariance within the limits. -/
example : Spec.PSD (fun i j : Fin N => if i = j then (1 / 20000 : ℚ) else 0) ∧
    Spec.WithinLimits (1 / 100) (fun i j : Fin N => if i = j then (1 / 20000 : ℚ) else 0) := by
  refine ⟨psd_diag fun _ => by norm_num, ?_⟩
  refine ⟨?_, ?_, ?_, ?_, ?_, ?_⟩ <;> intros <;> norm_num

/-! ### C73: capping variances can invalidate a covariance -/

theorem form_two (P : Mat K) (a b : Fin N) (hab : a ≠ b) (u v : K) :
    Spec.form P (fun i => if i = a then u else if i = b then v else 0) (fun i => if i = a then u else if i = b then v else 0) =
      u * P a a * u + u * P a b * v + v * P b a * u + v * P b b * v := by
  have hx : (fun i => if i = a then u else if i = b then v else 0 : Fin N → K) = 
      fun i => u * (Pi.single a 1 : Fin N → K) i + v * (Pi.single b 1 : Fin N → K) i := by
    funext i
    simp only [Pi.single_apply]
    by_cases h1 : i = a
    · subst h1; simp [hab]
    · by_cases h2 : i = b
      · simp [h2, hab.symm]
      · simp [h1, h2]
  rw [hx]
  unfold Spec.form
  simp only [Pi.single_apply, add_mul, mul_add, Finset.sum_add_distrib, mul_ite, ite_mul, mul_one, mul_zero, zero_mul,
    Finset.sum_ite_eq', Finset.sum_ite_eq, Finset.mem_univ, if_true, Finset.sum_const_zero]
  ring

/-- the witness: two velocity variances of 4e6 with covariance 3e6 -/
def bigP : Mat ℚ := fun i j =>
  if i = 4 ∧ j = 4 then 4000000 else if i = 5 ∧ j = 5 then 4000000
  else if (i = 4 ∧ j = 5) ∨ (i = 5 ∧ j = 4) then 3000000 else 0

theorem bigP_psd : Spec.PSD bigP := by
  refine psd_congr (P := fun i j : Fin N => 3000000 * ((if i = 4 ∨ i = 5 then 1 else 0) * (if j = 4 ∨ j = 5 then 1 else 0)) +
    (if i = j then (if i = 4 ∨ i = 5 then 1000000 else 0) else 0)) (fun i j => ?_)
    (psd_add (psd_outer _ (by norm_num)) (psd_diag fun i => by split <;> norm_num))
  unfold bigP
  by_cases h1 : i = 4
  · subst h1
    by_cases h2 : j = 4
    · subst h2; norm_num
    · by_cases h3 : j = 5
      · subst h3; simp
      · simp [h2, h3, Ne.symm h2]
  · by_cases h1' : i = 5
    · subst h1'
      by_cases h2 : j = 4
      · subst h2; simp
      · by_cases h3 : j = 5
        · subst h3; norm_num
        · simp [h2, h3, Ne.symm h3]
    · simp [h1, h1']

/-- **C73 (finding).** The limiter caps variances without scaling the covariances: a valid covariance can become
indefinite. -/
theorem limiter_can_invalidate : ∃ (x : FixIn ℚ) (P : Mat ℚ), Spec.PSD P ∧
    ∀ force t fl, ¬ Spec.PSD (fixCovarianceErrors x force t fl P).1 := by
  refine ⟨⟨fun _ => true, false, false, 1 / 100, 0, false⟩, bigP, bigP_psd, fun force t fl h => ?_⟩
  have lim := fix_variance_limits (⟨fun _ => true, false, false, 1 / 100, 0, false⟩ : FixIn ℚ) force t fl bigP
  have d4 := (lim 4).2.1 (by decide) (by decide)
  have d5 := (lim 5).2.1 (by decide) (by decide)
  have b4 : bigP 4 4 = 4000000 := by decide +kernel
  have b5 : bigP 5 5 = 4000000 := by decide +kernel
  rw [b4] at d4; rw [b5] at d5
  have o45 : (fixCovarianceErrors (⟨fun _ => true, false, false, 1 / 100, 0, false⟩ : FixIn ℚ) force t fl bigP).1 4 5 = 3000000 := by
    rw [show (fixCovarianceErrors (⟨fun _ => true, false, false, 1 / 100, 0, false⟩ : FixIn ℚ) force t fl bigP).1 =
      (fixCovarianceErrors (⟨fun _ => true, false, false, 1 / 100, 0, false⟩ : FixIn ℚ) force 0 false bigP).1 from rfl]
    clear * -
    revert force; decide +kernel
  have o54 : (fixCovarianceErrors (⟨fun _ => true, false, false, 1 / 100, 0, false⟩ : FixIn ℚ) force t fl bigP).1 5 4 = 3000000 := by
    rw [show (fixCovarianceErrors (⟨fun _ => true, false, false, 1 / 100, 0, false⟩ : FixIn ℚ) force t fl bigP).1 =
      (fixCovarianceErrors (⟨fun _ => true, false, false, 1 / 100, 0, false⟩ : FixIn ℚ) force 0 false bigP).1 from rfl]
    clear * -
    revert force; decide +kernel
  have := h.nonneg (fun i => if i = 4 then 1 else if i = 5 then -1 else 0)
  rw [form_two _ 4 5 (by decide), d4, d5, o45, o54] at this
  norm_num at this

/-! ### C72: zeroed gains and averaging can invalidate a covariance -/

/-- the witness: north velocity variance 1, x accelerometer bias variance 2.5e-5, covariance 0.0045, other states 1e-5 -/
def corrP : Mat ℚ := fun i j =>
  if i = 4 ∧ j = 4 then 1 else if (i = 4 ∧ j = 13) ∨ (i = 13 ∧ j = 4) then 45 / 10000
  else if i = j then 25 / 1000000 else 0

theorem corrP_psd : Spec.PSD corrP := by
  refine psd_congr (P := fun i j : Fin N => 1 * ((if i = 4 then 1 else if i = 13 then 45 / 10000 else 0) *
    (if j = 4 then 1 else if j = 13 then 45 / 10000 else 0)) +
    (if i = j then (if i = 4 then 0 else if i = 13 then 25 / 1000000 - (45 / 10000) ^ 2 else 25 / 1000000) else 0)) (fun i j => ?_)
    (psd_add (psd_outer _ (by norm_num)) (psd_diag fun i => by split_ifs <;> norm_num))
  have h413 : (4 : Fin N) ≠ 13 := by decide
  unfold corrP
  by_cases h1 : i = 4
  · subst h1
    by_cases h2 : j = 4
    · subst h2; simp
    · by_cases h3 : j = 13
      · subst h3; simp [h413, h413.symm]
      · simp [h2, h3, Ne.symm h2]
  · by_cases h1' : i = 13
    · subst h1'
      by_cases h2 : j = 4
      · subst h2; simp [h413, h413.symm]
      · by_cases h3 : j = 13
        · subst h3; simp [h413, h413.symm]; norm_num
        · simp [h2, h3, Ne.symm h3, h413.symm]
    · simp [h1, h1']

/-- flags of the witness: x axis bias learning inhibited -/
def corrX : FixIn ℚ := ⟨fun a => a == 0, false, false, 1 / 100, 0, false⟩

/-- direct measurement of the north velocity -/
def corrH : Fin N → ℚ := fun i => if i = 4 then 1 else 0

/-- **C72 (finding).** With an inhibited accelerometer-bias axis (its gain row is zeroed, then mirrored elements are
averaged) an accepted, optimally weighted velocity measurement turns a valid covariance, within all limits, into an
indefinite one. -/
theorem inhibited_axis_can_invalidate :
    Spec.PSD corrP ∧ (∀ i, corrP i i ≤ 1) ∧
    (measurementUpdate corrX (fun i => Spec.mulVec corrP corrH i / Spec.innovVar corrP corrH (1 / 100)) corrH 0 false corrP).2.2.2.isSome ∧
    ¬ Spec.PSD (measurementUpdate corrX (fun i => Spec.mulVec corrP corrH i / Spec.innovVar corrP corrH (1 / 100)) corrH 0 false corrP).1 := by
  refine ⟨corrP_psd, ?_, ?_, ?_⟩
  · intro i; unfold corrP; split_ifs <;> norm_num
  · rw [optimal_gain_accepted corrX corrH (1 / 100) (by norm_num) corrP corrP_psd _ (fun _ => Or.inl rfl)]; rfl
  · intro h
    have hm : ∀ i, Spec.mulVec corrP corrH i = corrP i 4 := by
      intro i; unfold Spec.mulVec corrH; simp
    have hS : Spec.innovVar corrP corrH (1 / 100) = 101 / 100 := by
      have : Spec.form corrP corrH corrH = corrP 4 4 := by
        unfold Spec.form corrH; simp
      unfold Spec.innovVar; rw [this]; decide +kernel
    have hk : (fun i => Spec.mulVec corrP corrH i / Spec.innovVar corrP corrH (1 / 100)) = fun i => corrP i 4 / (101 / 100) := by
      funext i; rw [hm, hS]
    rw [hk] at h
    have := h.nonneg (fun i => if i = 4 then 1 else if i = 13 then -50 else 0)
    rw [form_two _ 4 13 (by decide)] at this
    revert this
    decide +kernel

end Ecl.Cov
