import Verif.Cov.Props2
import Mathlib.Data.Real.Basic

/-!
# The limiter does not read the rows and columns it deletes
-/

namespace Ecl.Whole

open Ecl.Cov

/-- the states not in use: magnetic field states when 3-axis fusion is off, wind states when wind estimation is off -/
def Off (mag3D wind : Bool) (i : Fin N) : Prop := (16 ≤ i.val ∧ i.val < 22 ∧ mag3D = false) ∨ (22 ≤ i.val ∧ wind = false)

instance (m w : Bool) : DecidablePred (Off m w) := fun i => by unfold Off; infer_instance

/-- a matrix without the rows and columns of unused states -/
def cut (m w : Bool) (A : Mat ℝ) : Mat ℝ := fun i j => if Off m w i ∨ Off m w j then 0 else A i j

/-- equal in the rows and columns in use -/
def Agr (s : Fin N → Prop) (A B : Mat ℝ) : Prop := ∀ i j, ¬s i → ¬s j → A i j = B i j

variable {s : Fin N → Prop} {A B : Mat ℝ}

theorem agr_mapDiag {f w : ℕ} {g : ℝ → ℝ} (h : Agr s A B) : Agr s (mapDiag f w g A) (mapDiag f w g B) := fun i j hi hj => by
  unfold mapDiag; rw [h i j hi hj]

theorem agr_makeSym {f w : ℕ} (h : Agr s A B) : Agr s (makeSym f w A) (makeSym f w B) := fun i j hi hj => by
  unfold makeSym; rw [h i j hi hj, h j i hj hi]

theorem agr_uncorrSet {f w : ℕ} {v v' : Fin N → ℝ} (hv : ∀ i, ¬s i → v i = v' i) (h : Agr s A B) : Agr s (uncorrSet f w v A) (uncorrSet f w v' B) := fun i j hi hj => by
  unfold uncorrSet; rw [h i j hi hj, hv i hi]

theorem agr_uncorr {f w : ℕ} (h : Agr s A B) : Agr s (uncorr f w A) (uncorr f w B) := agr_uncorrSet (fun i hi => h i i hi hi) h

theorem agr_accClamp {inh : Fin 3 → Bool} {lo hi : ℝ} (h : Agr s A B) : Agr s (accClamp inh lo hi A) (accClamp inh lo hi B) := fun i j hi hj => by
  unfold accClamp; rw [h i j hi hj]

theorem agr_ms {force : Bool} {f w : ℕ} (h : Agr s A B) : Agr s (if force = true then makeSym f w A else A) (if force = true then makeSym f w B else B) := by
  cases force
  · simpa using h
  · simpa using agr_makeSym h

theorem agr_accScan {inh : Fin 3 → Bool} (hs : ∀ a, ¬s (accIdx a)) (h : Agr s A B) : accScan inh A = accScan inh B := by
  unfold accScan
  have e : accScanStep inh A = accScanStep inh B := by
    funext acc a
    unfold accScanStep
    rw [h _ _ (hs a) (hs a)]
  rw [e]

theorem agr_fixKin {force : Bool} (h : Agr s A B) : Agr s (fixKin force A) (fixKin force B) := by
  unfold fixKin
  exact agr_ms (agr_mapDiag (agr_mapDiag (agr_mapDiag (agr_mapDiag h))))

theorem agr_fixAcc {x : FixIn ℝ} {force : Bool} {t : UInt64} (hs : ∀ a, ¬s (accIdx a)) (h : Agr s A B) : Agr s (fixAcc x force t A).1 (fixAcc x force t B).1 := by
  unfold fixAcc
  simp only
  rw [agr_accScan hs h]
  have h3 : Agr s (if (accScan x.inhibit B).2 then uncorr 13 3 (accClamp x.inhibit (accFloor (accScan x.inhibit B).1) (accCap x.dtEkfAvg) A)
      else (accClamp x.inhibit (accFloor (accScan x.inhibit B).1) (accCap x.dtEkfAvg) A)) (if (accScan x.inhibit B).2 then
      uncorr 13 3 (accClamp x.inhibit (accFloor (accScan x.inhibit B).1) (accCap x.dtEkfAvg) B)
      else (accClamp x.inhibit (accFloor (accScan x.inhibit B).1) (accCap x.dtEkfAvg) B)) := by
    split
    · exact agr_uncorr (agr_accClamp h)
    · exact agr_accClamp h
  generalize (if (accScan x.inhibit B).2 then uncorr 13 3 (accClamp x.inhibit (accFloor (accScan x.inhibit B).1) (accCap x.dtEkfAvg) A) else _ : Mat ℝ) = Q at h3
  generalize (if (accScan x.inhibit B).2 then _ else _ : Mat ℝ) = Q' at h3
  generalize (if x.badAccBias = true then t else x.now) = t'
  split
  · exact agr_uncorr h3
  · exact agr_ms h3

/-- the result of the limiter depends only on the rows and columns of states in use -/
theorem fix_agr (x : FixIn ℝ) (force : Bool) (t : UInt64) (fl : Bool) (h : Agr (Off x.mag3D x.wind) A B) :
    (fixCovarianceErrors x force t fl A).1 = (fixCovarianceErrors x force t fl B).1 := by
  have hs : ∀ a, ¬Off x.mag3D x.wind (accIdx a) := by
    intro a
    have : (accIdx a).val = 13 + a.val := rfl
    unfold Off
    rw [this]; omega
  have h1 : Agr (Off x.mag3D x.wind) (if !x.inhibit 0 || !x.inhibit 1 || !x.inhibit 2 then fixAcc x force t (fixKin force A) else (fixKin force A, t, fl)).1
      (if !x.inhibit 0 || !x.inhibit 1 || !x.inhibit 2 then fixAcc x force t (fixKin force B) else (fixKin force B, t, fl)).1 := by
    split
    · exact agr_fixAcc hs (agr_fixKin h)
    · exact agr_fixKin h
  show fixWind x.wind force (fixMag x.mag3D force _) = fixWind x.wind force (fixMag x.mag3D force _)
  generalize (if !x.inhibit 0 || !x.inhibit 1 || !x.inhibit 2 then fixAcc x force t (fixKin force A) else (fixKin force A, t, fl)).1 = A' at h1
  generalize (if !x.inhibit 0 || !x.inhibit 1 || !x.inhibit 2 then fixAcc x force t (fixKin force B) else (fixKin force B, t, fl)).1 = B' at h1
  have h2 : Agr (Off x.mag3D x.wind) (fixMag x.mag3D force A') (fixMag x.mag3D force B') := by
    unfold fixMag zeroMagCov
    split
    · exact agr_uncorrSet (fun _ _ => rfl) (agr_uncorrSet (fun _ _ => rfl) h1)
    · simp only
      have hm := agr_mapDiag (f := 19) (w := 3) (g := fun v => constrain v 0 1) (agr_mapDiag (f := 16) (w := 3) (g := fun v => constrain v 0 1) h1)
      split
      · exact agr_makeSym (agr_makeSym hm)
      · exact hm
  have h2z : ∀ (Q : Mat ℝ) (i j : Fin N), x.mag3D = false → inBlk 16 6 i ∨ inBlk 16 6 j → fixMag x.mag3D force Q i j = 0 := by
    intro Q i j hm hb
    unfold fixMag zeroMagCov
    rw [if_pos (by simp [hm])]
    unfold uncorrSet
    unfold inBlk at hb
    by_cases c1 : inBlk 19 3 i ∨ inBlk 19 3 j
    · rw [if_pos c1]; split <;> rfl
    · rw [if_neg c1, if_pos (by unfold inBlk at *; omega)]; split <;> rfl
  have h3 : ∀ i j, ¬(22 ≤ i.val ∧ x.wind = false) → ¬(22 ≤ j.val ∧ x.wind = false) → fixMag x.mag3D force A' i j = fixMag x.mag3D force B' i j := by
    intro i j hi hj
    by_cases hm : x.mag3D = false ∧ (inBlk 16 6 i ∨ inBlk 16 6 j)
    · rw [h2z _ _ _ hm.1 hm.2, h2z _ _ _ hm.1 hm.2]
    · refine h2 i j ?_ ?_
      · rintro (⟨a, b, c⟩ | c)
        · exact hm ⟨c, Or.inl ⟨a, b⟩⟩
        · exact hi c
      · rintro (⟨a, b, c⟩ | c)
        · exact hm ⟨c, Or.inr ⟨a, b⟩⟩
        · exact hj c
  generalize fixMag x.mag3D force A' = A'' at h3
  generalize fixMag x.mag3D force B' = B'' at h3
  cases hw : x.wind with
  | true =>
    have : A'' = B'' := by
      funext i j
      exact h3 i j (by simp [hw]) (by simp [hw])
    rw [this]
  | false =>
    funext i j
    unfold fixWind uncorrSet
    simp only [Bool.not_false, if_true]
    by_cases c : inBlk 22 2 i ∨ inBlk 22 2 j
    · rw [if_pos c, if_pos c]
    · rw [if_neg c, if_neg c]
      have hi := i.isLt
      have hj := j.isLt
      exact h3 i j (fun h => c (Or.inl ⟨h.1, by show i.val < 24; exact hi⟩)) (fun h => c (Or.inr ⟨h.1, by show j.val < 24; exact hj⟩))

/-- hence a matrix that is a valid covariance within the limits in the states in use becomes a valid covariance -/
theorem fix_valid_cut (x : FixIn ℝ) (force : Bool) (t : UInt64) (fl : Bool) (hP : Spec.PSD (cut x.mag3D x.wind A)) (hl : Cov.Spec.WithinLimits x.dtEkfAvg (cut x.mag3D x.wind A)) :
    Spec.PSD (fixCovarianceErrors x force t fl A).1 := by
  have : (fixCovarianceErrors x force t fl A).1 = (fixCovarianceErrors x force t fl (cut x.mag3D x.wind A)).1 :=
    fix_agr x force t fl fun i j hi hj => by unfold cut; rw [if_neg (by tauto)]
  rw [this]
  exact fix_keeps_valid x force t fl _ hP hl

theorem psd_cut (m w : Bool) {P : Mat ℝ} (h : Spec.PSD P) : Spec.PSD (cut m w P) := psd_mask h (Off m w)

/-- the limiter keeps the limits -/
theorem fix_limits_cut (x : FixIn ℝ) (hx : ∀ a, x.inhibit a = false) (hdt : 3 / 10000 ≤ x.dtEkfAvg) (force : Bool) (t : UInt64) (fl : Bool)
    (hl : Cov.Spec.WithinLimits x.dtEkfAvg (cut x.mag3D x.wind A)) : Cov.Spec.WithinLimits x.dtEkfAvg (fixCovarianceErrors x force t fl A).1 := by
  have : (fixCovarianceErrors x force t fl A).1 = (fixCovarianceErrors x force t fl (cut x.mag3D x.wind A)).1 :=
    fix_agr x force t fl fun i j hi hj => by unfold cut; rw [if_neg (by tauto)]
  rw [this]
  exact fix_within_limits x hx hdt force t fl _ hl

end Ecl.Whole
