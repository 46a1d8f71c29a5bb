import Verif.Whole.Closed
import Verif.Cov.PredictProps3

/-!
# The covariance in every history of filter operations: symmetric, variances not negative (C137)
-/

namespace Ecl.Whole

open Ecl.Cov Ecl.Fusion

/-- symmetric, no negative variance -/
structure Spec.Sane (P : Mat ℝ) : Prop where
  sym : ∀ i j, P i j = P j i
  var : ∀ i, 0 ≤ P i i

/-- the covariance is sane, and so are the values stored for later use: accelerometer bias variances while inhibited, magnetic field covariances while not fused -/
structure SaneFilt (f : Filt) : Prop where
  P : Spec.Sane f.P
  prev : ∀ a, 0 ≤ f.prevVar a
  bf : ∀ i, 0 ≤ f.M.saved.bf i
  efSym : ∀ i j, f.M.saved.ef i j = f.M.saved.ef j i
  ef : ∀ i, 0 ≤ f.M.saved.ef i i

theorem sane_of_psd {P : Mat ℝ} (h : Spec.PSD P) : Spec.Sane P := ⟨h.symm, fun i => diag_nonneg h i⟩

theorem sane_uncorrSet {f w : ℕ} {v : Fin N → ℝ} {P : Mat ℝ} (h : Spec.Sane P) (hv : ∀ i, inBlk f w i → 0 ≤ v i) : Spec.Sane (uncorrSet f w v P) := by
  refine ⟨fun i j => ?_, fun i => ?_⟩
  · unfold uncorrSet
    by_cases hb : inBlk f w i ∨ inBlk f w j
    · rw [if_pos hb, if_pos hb.symm]
      by_cases e : i = j
      · subst e; rfl
      · rw [if_neg e, if_neg (Ne.symm e)]
    · rw [if_neg hb, if_neg (fun h => hb h.symm), h.sym]
  · unfold uncorrSet
    split
    · next hb => rw [if_pos rfl]; exact hv i (hb.elim id id)
    · exact h.var i

/-- the limiter leaves no negative variance, provided inhibited accelerometer axes (which it does not limit) have none -/
theorem fix_var_nonneg (x : FixIn ℝ) (force : Bool) (t : UInt64) (fl : Bool) (P : Mat ℝ) (hv : ∀ a, x.inhibit a = true → 0 ≤ P (accIdx a) (accIdx a)) (i : Fin N) :
    0 ≤ (fixCovarianceErrors x force t fl P).1 i i := by
  obtain ⟨l1, l2, l3, l4, l5⟩ := fix_variance_limits x force t fl P i
  by_cases c1 : i.val < 4
  · rw [l1 c1]; exact le_max_left _ _
  by_cases c2 : i.val < 10
  · rw [l2 (by omega) c2]; exact le_trans (by norm_num) (le_max_left _ _)
  by_cases c3 : i.val < 13
  · rw [l3 (by omega) c3]; exact le_max_left _ _
  by_cases c4 : i.val < 16
  · obtain ⟨a, rfl⟩ : ∃ a : Fin 3, i = accIdx a := ⟨⟨i.val - 13, by omega⟩, by ext; show i.val = 13 + (i.val - 13); omega⟩
    obtain ⟨m, -, -, -, e⟩ := fix_accel_variance x force t fl P a
    rw [e]
    split
    · next h => exact hv a h
    · have h0 : (0 : ℝ) < max (m / 100) (5 / 100000000) := lt_max_of_lt_right (by norm_num)
      split
      · exact h0.le
      · next h => exact le_min (le_trans h0.le (not_lt.mp h)) (sq_nonneg _)
  by_cases c5 : i.val < 22
  · rw [l4 (by omega) c5]
    split
    · exact le_max_left _ _
    · exact le_rfl
  · rw [l5 (by omega)]
    split
    · exact le_max_left _ _
    · exact le_rfl

/-- the limiter applied to any symmetric matrix whose variances of inhibited accelerometer axes are not negative -/
theorem sane_fix (x : FixIn ℝ) (force : Bool) (t : UInt64) (fl : Bool) (P : Mat ℝ) (hs : ∀ i j, P i j = P j i)
    (hv : ∀ a, x.inhibit a = true → 0 ≤ P (accIdx a) (accIdx a)) : Spec.Sane (fixCovarianceErrors x force t fl P).1 := by
  constructor
  · have full : SymAt (fun _ => True) P := fun i j _ => hs i j
    have ms : ∀ {f w : ℕ} {Q : Mat ℝ}, SymAt (fun _ => True) Q → SymAt (fun _ => True) (if force = true then makeSym f w Q else Q) := by
      intro f w Q h; split
      · exact symAt_makeSym h
      · exact h
    have h1 : SymAt (fun _ => True) (fixKin force P) := by
      unfold fixKin
      exact ms (symAt_mapDiag (symAt_mapDiag (symAt_mapDiag (symAt_mapDiag full))))
    have h2 : SymAt (fun _ => True) (if !x.inhibit 0 || !x.inhibit 1 || !x.inhibit 2 then fixAcc x force t (fixKin force P) else (fixKin force P, t, fl)).1 := by
      split
      · unfold fixAcc
        simp only
        have h3 : SymAt (fun _ => True) (if (accScan x.inhibit (fixKin force P)).2 then uncorr 13 3 (accClamp x.inhibit
            (accFloor (accScan x.inhibit (fixKin force P)).1) (accCap x.dtEkfAvg) (fixKin force P)) else (accClamp x.inhibit
            (accFloor (accScan x.inhibit (fixKin force P)).1) (accCap x.dtEkfAvg) (fixKin force P))) := by
          split
          · exact symAt_uncorrSet (symAt_accClamp h1)
          · exact symAt_accClamp h1
        generalize (if (accScan x.inhibit (fixKin force P)).2 then _ else _ : Mat ℝ) = Q at h3
        generalize (if x.badAccBias = true then t else x.now) = t'
        split
        · exact symAt_uncorrSet h3
        · exact ms h3
      · exact h1
    have h3 : ∀ Q : Mat ℝ, SymAt (fun _ => True) Q → SymAt (fun _ => True) (fixMag x.mag3D force Q) := by
      intro Q h
      unfold fixMag zeroMagCov
      split
      · exact symAt_uncorrSet (symAt_uncorrSet h)
      · simp only
        have hm := symAt_mapDiag (f := 19) (w := 3) (g := fun v => constrain v 0 1) (symAt_mapDiag (f := 16) (w := 3) (g := fun v => constrain v 0 1) h)
        split
        · exact symAt_makeSym (symAt_makeSym hm)
        · exact hm
    have h4 : ∀ Q : Mat ℝ, SymAt (fun _ => True) Q → SymAt (fun _ => True) (fixWind x.wind force Q) := by
      intro Q h
      unfold fixWind
      split
      · exact symAt_uncorrSet h
      · exact ms (symAt_mapDiag h)
    intro i j
    exact h4 _ (h3 _ h2) i j (Or.inl trivial)
  · exact fun i => fix_var_nonneg x force t fl P hv i

/-- after the check: rows and columns with a negative result are zeroed -/
theorem sane_check (KHP P : Mat ℝ) (h : Spec.Sane P) : Spec.Sane (checkAndFix KHP P).1 := by
  obtain ⟨-, hc⟩ := checkAndFix_spec KHP P
  refine ⟨fun i j => ?_, fun i => ?_⟩
  · rw [hc, hc, h.sym i j]
    by_cases hb : P i i < KHP i i ∨ P j j < KHP j j
    · rw [if_pos hb, if_pos hb.symm]
    · rw [if_neg hb, if_neg (fun h => hb h.symm)]
  · rw [hc]; split
    · exact le_rfl
    · exact h.var i

/-- an update with any gain and any observation row -/
theorem sane_update (x : FixIn ℝ) (k h : Vec ℝ) (v : ℝ) (f : Filt) (hf : Spec.Sane f.P) : Spec.Sane (update x k h v f).1.P := by
  refine ⟨fun i j => update_sym x k h v f hf.sym i j, fun i => ?_⟩
  have hup : (update x k h v f).1.P = (measurementUpdate x k h f.timeCheck f.badAccBias f.P).1 := by
    unfold update
    split <;> rename_i heq <;> rw [heq]
  rw [hup]
  obtain ⟨h1, h2⟩ := measurementUpdate_spec x k h f.timeCheck f.badAccBias f.P
  by_cases hh : ∀ i : Fin N, (if ∃ a : Fin 3, x.inhibit a = true ∧ i.val = 13 + a.val then 0 else k i) * (∑ l, h l * f.P l i) ≤ f.P i i
  · rw [(h1 hh).2]
    exact fix_var_nonneg x true _ _ _ (fun a _ => sub_nonneg.mpr (hh (accIdx a))) i
  · rw [h2 hh]
    simp only
    have this : ∀ (c : Prop) [Decidable c], 0 ≤ if c then (0 : ℝ) else f.P i i := fun c _ => by
      split
      · exact le_rfl
      · exact hf.var i
    exact this _

/-- correction by a symmetric rank-one term that passed the check -/
theorem sane_correct (x : FixIn ℝ) (t : UInt64) (fl : Bool) (KHP P : Mat ℝ) (hP : Spec.Sane P) (hs : ∀ i j : Fin N, 13 ≤ i.val ∧ i.val < 16 → 13 ≤ j.val ∧ j.val < 16 → KHP i j = KHP j i)
    (hk : (checkAndFix KHP P).2 = true) : Spec.Sane (fixCovarianceErrors x true t fl (fun i j => (checkAndFix KHP P).1 i j - KHP i j)).1 := by
  obtain ⟨k1, k2⟩ := checkAndFix_spec KHP P
  have hle := k1.mp hk
  have e : ∀ i j, (checkAndFix KHP P).1 i j = P i j := fun i j => by
    rw [k2, if_neg (by rw [not_or, not_lt, not_lt]; exact ⟨hle i, hle j⟩)]
  have e' : (fun i j => (checkAndFix KHP P).1 i j - KHP i j) = fun i j => P i j - KHP i j := by funext i j; rw [e]
  rw [e']
  constructor
  · intro i j
    by_cases hx : ∀ a, x.inhibit a = true
    · by_cases hi : 13 ≤ i.val ∧ i.val < 16
      · by_cases hj : 13 ≤ j.val ∧ j.val < 16
        · rw [fix_acc_block x hx _ _ _ _ i j hi hj, fix_acc_block x hx _ _ _ _ j i hj hi, hP.sym i j, hs i j hi hj]
        · exact fix_forces_symmetry x _ _ _ i j (Or.inr (Or.inr hj))
      · exact fix_forces_symmetry x _ _ _ i j (Or.inr (Or.inl hi))
    · push Not at hx
      obtain ⟨a, ha⟩ := hx
      exact fix_forces_symmetry x _ _ _ i j (Or.inl ⟨a, by simpa using ha⟩)
  · exact fun i => fix_var_nonneg x true t fl _ (fun a _ => sub_nonneg.mpr (hle (accIdx a))) i

theorem sane_save {P : Mat ℝ} (h : Spec.Sane P) : (∀ i, 0 ≤ (saveMagCov P).bf i) ∧ (∀ i j, (saveMagCov P).ef i j = (saveMagCov P).ef j i) ∧
    ∀ i, 0 ≤ (saveMagCov P).ef i i := ⟨fun _ => h.var _, fun _ _ => h.sym _ _, fun _ => h.var _⟩

theorem sane_resetMagCov (noise : ℝ) (f : Filt) (h : SaneFilt f) : SaneFilt { f with M := resetMagCov noise f.M } := by
  have hP : Spec.Sane (uncorrSet 19 3 (fun _ => sq noise) (uncorrSet 16 3 (fun _ => sq noise) (zeroMagCov f.M.P))) := by
    unfold zeroMagCov
    exact sane_uncorrSet (sane_uncorrSet (sane_uncorrSet (sane_uncorrSet h.P fun _ _ => le_rfl) fun _ _ => le_rfl) fun _ _ => mul_self_nonneg _) fun _ _ => mul_self_nonneg _
  unfold resetMagCov clearMagCov
  simp only
  split
  · obtain ⟨b, c, d⟩ := sane_save hP
    exact ⟨hP, h.prev, b, c, d⟩
  · exact ⟨hP, h.prev, h.bf, h.efSym, h.ef⟩

theorem sane_initCov (x : InitIn) (f : Filt) (h : SaneFilt f) : SaneFilt (initCov x f) := by
  have hP : Spec.Sane (initCov x f).P := sane_of_psd (init_valid _ _)
  have hprev : ∀ a, 0 ≤ (initCov x f).prevVar a := by
    intro a
    show 0 ≤ (initialiseCovariance { x with quat := attQuat f.s } f.M).2 a
    unfold initialiseCovariance
    simp only [setDiag]
    fin_cases a <;> simp [accIdx] <;> exact mul_self_nonneg _
  set P' := (initialiseCovariance { x with quat := attQuat f.s } f.M).1 with hM
  have hsv : (initCov x f).M.saved = f.M.saved ∨ ∃ Q : Mat ℝ, (initCov x f).M.saved = saveMagCov (uncorrSet 19 3 (fun _ => sq x.magNoise)
      (uncorrSet 16 3 (fun _ => sq x.magNoise) (zeroMagCov Q))) := by
    show (initialiseCovariance _ _).1.saved = _ ∨ ∃ Q, (initialiseCovariance _ _).1.saved = _
    unfold initialiseCovariance resetMagCov clearMagCov
    simp only
    split
    · exact Or.inr ⟨_, rfl⟩
    · exact Or.inl rfl
  rcases hsv with e | ⟨Q, e⟩
  · exact ⟨hP, hprev, by rw [e]; exact h.bf, by rw [e]; exact h.efSym, by rw [e]; exact h.ef⟩
  · have hz : ∀ i j : Fin N, 16 ≤ i.val → i.val < 22 → uncorrSet 19 3 (fun _ => sq x.magNoise) (uncorrSet 16 3 (fun _ => sq x.magNoise) (zeroMagCov Q)) i j =
        if i = j then sq x.magNoise else 0 := by
      intro i j h1 h2
      unfold uncorrSet
      by_cases h3 : inBlk 19 3 i ∨ inBlk 19 3 j
      · rw [if_pos h3]
      · rw [if_neg h3, if_pos (Or.inl (by unfold inBlk at *; omega))]
    have h0 : (0 : ℝ) ≤ sq x.magNoise := mul_self_nonneg _
    refine ⟨hP, hprev, fun i => ?_, fun i j => ?_, fun i => ?_⟩
    · rw [e]
      simp only [saveMagCov]
      rw [hz _ _ (by show 16 ≤ i.val + 18; omega) (by show i.val + 18 < 22; omega), if_pos rfl]
      exact h0
    · rw [e]
      simp only [saveMagCov]
      rw [hz _ _ (by show 16 ≤ 16 + i.val; omega) (by show 16 + i.val < 22; omega), hz _ _ (by show 16 ≤ 16 + j.val; omega) (by show 16 + j.val < 22; omega)]
      by_cases hij : i = j
      · subst hij; rfl
      · rw [if_neg (fun h => hij (by have := congrArg Fin.val h; simp at this; exact Fin.ext this)),
          if_neg (fun h => hij (by have := congrArg Fin.val h; simp at this; exact Fin.ext this.symm))]
    · rw [e]
      simp only [saveMagCov]
      rw [hz _ _ (by show 16 ≤ 16 + i.val; omega) (by show 16 + i.val < 22; omega), if_pos rfl]
      exact h0

/-- the attitude covariance set from rotation vector variances -/
theorem sane_initQuatCov (q : Quat ℝ) (v : Fin 3 → ℝ) (hv : ∀ k, 0 ≤ v k) (P : Mat ℝ) (h : Spec.Sane P) : Spec.Sane (initQuatCov q v P) := by
  have hz : Spec.PSD (initQuatCov q v fun _ _ => 0) := initQuatCov_valid q v hv _ ⟨fun _ _ => rfl, fun x => by simp [Cov.Spec.form]⟩
  have k := fun i j => initQuatCov_spec q v P i j
  have k0 := fun i j => initQuatCov_spec q v (fun _ _ => 0) i j
  have att : ∀ i j : Fin N, i.val < 4 → j.val < 4 → initQuatCov q v P i j = initQuatCov q v (fun _ _ => 0) i j := by
    intro i j hi hj
    by_cases hc : 1 / 1000000000 < (![(rotVec q).1, (rotVec q).2.1, (rotVec q).2.2] : Fin 3 → ℝ) 0 ^ 2 + (![(rotVec q).1, (rotVec q).2.1, (rotVec q).2.2] : Fin 3 → ℝ) 1 ^ 2 +
        (![(rotVec q).1, (rotVec q).2.1, (rotVec q).2.2] : Fin 3 → ℝ) 2 ^ 2
    · rw [(k i j).2.2.1 hi hj hc, (k0 i j).2.2.1 hi hj hc]
    · rw [(k i j).2.2.2 hi hj (not_lt.mp hc), (k0 i j).2.2.2 hi hj (not_lt.mp hc)]
  refine ⟨fun i j => ?_, fun i => ?_⟩
  · by_cases hi : i.val < 4 <;> by_cases hj : j.val < 4
    · rw [att i j hi hj, att j i hj hi, hz.symm]
    · rw [((k i j).1 hi (by omega)).1, ((k i j).1 hi (by omega)).2]
    · rw [((k j i).1 hj (by omega)).1, ((k j i).1 hj (by omega)).2]
    · rw [(k i j).2.1 (by omega) (by omega), (k j i).2.1 (by omega) (by omega), h.sym]
  · by_cases hi : i.val < 4
    · rw [att i i hi hi]; exact diag_nonneg hz i
    · rw [(k i i).2.1 (by omega) (by omega)]; exact h.var i

theorem sane_resetQuatCov (q : Quat ℝ) (e : ℝ) (P : Mat ℝ) (h : Spec.Sane P) : Spec.Sane (resetQuatCov q e P) := by
  unfold resetQuatCov
  exact sane_initQuatCov _ _ (fun _ => mul_self_nonneg _) _ (sane_uncorrSet (sane_uncorrSet h fun _ _ => le_rfl) fun _ _ => le_rfl)

theorem sane_resetWindCov (x : WindIn) (P : Mat ℝ) (hu : 0 ≤ x.initialWindUnc) (h : Spec.Sane P) : Spec.Sane (resetWindCov x P) := by
  unfold resetWindCov
  split
  · simp only
    have hQ : Spec.Sane (uncorrSet 22 2 (fun _ => 0) P) := sane_uncorrSet h fun _ _ => le_rfl
    generalize uncorrSet 22 2 (fun _ => 0) P = Q at hQ
    have sqn : ∀ a : ℝ, 0 ≤ sq a := fun a => mul_self_nonneg a
    refine ⟨fun i j => ?_, fun i => ?_⟩
    · by_cases h1 : i = 22 <;> by_cases h2 : j = 22 <;> by_cases h3 : i = 23 <;> by_cases h4 : j = 23 <;> simp [h1, h2, h3, h4, hQ.sym]
    · have c4 := hQ.var 4
      have c5 := hQ.var 5
      by_cases h1 : i = 22
      · subst h1
        simp only [and_self, if_true]
        have := mul_nonneg (sqn (constrain x.easNoise (1 / 2) 5 * constrain x.eas2tas (9 / 10) 10)) (sqn (Real.cos x.yaw))
        have := mul_nonneg (sqn (radians 10)) (sqn (-(x.windN * Real.cos x.yaw + x.windE * Real.sin x.yaw) * Real.sin x.yaw - (-x.windN * Real.sin x.yaw + x.windE * Real.cos x.yaw) * Real.cos x.yaw))
        have := mul_nonneg (sqn (x.tas * Real.sin (radians 15))) (sqn (Real.sin x.yaw))
        linarith
      · by_cases h2 : i = 23
        · subst h2
          rw [if_neg (by decide), if_pos ⟨rfl, rfl⟩]
          have := mul_nonneg (sqn (constrain x.easNoise (1 / 2) 5 * constrain x.eas2tas (9 / 10) 10)) (sqn (Real.sin x.yaw))
          have := mul_nonneg (sqn (radians 10)) (sqn ((x.windN * Real.cos x.yaw + x.windE * Real.sin x.yaw) * Real.cos x.yaw - (-x.windN * Real.sin x.yaw + x.windE * Real.cos x.yaw) * Real.sin x.yaw))
          have := mul_nonneg (sqn (x.tas * Real.sin (radians 15))) (sqn (Real.cos x.yaw))
          linarith
        · simp only [h1, h2, if_false, and_false, or_self]
          exact hQ.var i
  · exact sane_uncorrSet h fun _ _ => hu

theorem foldl4 (g : Fin 4 → ℝ) : (List.finRange 4).foldl (fun t c => t + g c) 0 = g 0 + g 1 + g 2 + g 3 := by
  have : List.finRange 4 = [0, 1, 2, 3] := by decide
  rw [this]; simp only [List.foldl]; ring

/-- all primitive corrections keep the covariance sane -/
theorem sane_closed : Closed SaneFilt where
  upd x k h v f hf := by
    have := sane_update x k h v f hf.P
    have e1 : (update x k h v f).1.prevVar = f.prevVar := by unfold update; split <;> rfl
    have e2 : (update x k h v f).1.M.saved = f.M.saved := by unfold update; split <;> rfl
    exact ⟨this, by rw [e1]; exact hf.prev, by rw [e2]; exact hf.bf, by rw [e2]; exact hf.efSym, by rw [e2]; exact hf.ef⟩
  ini x f hf := sane_initCov x f hf
  magRel x f hf := by
    unfold resetMagRelated
    exact sane_resetMagCov x.noise { f with M := { f.M with P := resetQuatCov (attQuat f.s) x.tiltErr f.M.P } }
      ⟨sane_resetQuatCov _ _ _ hf.P, hf.prev, hf.bf, hf.efSym, hf.ef⟩
  wind x f hu hf := by
    unfold resetWind
    exact ⟨sane_resetWindCov _ _ hu hf.P, hf.prev, hf.bf, hf.efSym, hf.ef⟩
  setS f s _ hf := ⟨hf.P, hf.prev, hf.bf, hf.efSym, hf.ef⟩
  yaw x sel _ c j v f hsel hf := by
    unfold applyYaw
    simp only
    split
    · next hk =>
      refine ⟨sane_correct x _ _ _ _ hf.P ?_ hk, hf.prev, hf.bf, hf.efSym, hf.ef⟩
      intro a b ha hb
      have s := hf.P.sym
      rw [if_pos (hsel a (by omega)), if_pos (hsel b (by omega)), foldl4 (fun c => f.P a (qi c) * j c), foldl4 (fun c => f.P b (qi c) * j c)]
      have e : ∀ l : Fin N, f.P l (qi 0) = f.P 0 l ∧ f.P l (qi 1) = f.P 1 l ∧ f.P l (qi 2) = f.P 2 l ∧ f.P l (qi 3) = f.P 3 l := fun l => ⟨s _ _, s _ _, s _ _, s _ _⟩
      obtain ⟨a0, a1, a2, a3⟩ := e a
      obtain ⟨b0, b1, b2, b3⟩ := e b
      rw [a0, a1, a2, a3, b0, b1, b2, b3]
      ring
    · exact ⟨sane_check _ _ hf.P, hf.prev, hf.bf, hf.efSym, hf.ef⟩
  direct x v S o st hf := by
    unfold fuseVelPosHeight
    simp only
    split
    · next hk =>
      refine ⟨sane_correct x.fx _ _ _ _ hf.P ?_ hk, hf.prev, hf.bf, hf.efSym, hf.ef⟩
      intro a b _ _
      rw [hf.P.sym a (obsState o), hf.P.sym b (obsState o)]
      ring
    · exact ⟨sane_check _ _ hf.P, hf.prev, hf.bf, hf.efSym, hf.ef⟩

end Ecl.Whole
