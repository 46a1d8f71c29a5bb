import Verif.Whole.Model

/-!
# Changing the sign of some of the states

A sign vector `σ` (each entry 1 or -1) acts on the state vector and on the covariance.  The bookkeeping of the covariance, the measurement update and
the state correction commute with it.
-/

namespace Ecl.Whole

open Ecl.Cov Ecl.Fusion

noncomputable section

/-- the state vector with the signs `σ` -/
def sgV (σ : Fin N → ℝ) (s : Vec ℝ) : Vec ℝ := fun i => σ i * s i

/-- the covariance of the state vector with the signs `σ` -/
def sgM (σ : Fin N → ℝ) (P : Mat ℝ) : Mat ℝ := fun i j => σ i * σ j * P i j

/-- entries are 1 or -1 -/
def IsSign (σ : Fin N → ℝ) : Prop := ∀ i, σ i * σ i = 1

/-- the saved covariance of the magnetic field -/
def sgSave (σ : Fin N → ℝ) (s : MagSave ℝ) : MagSave ℝ :=
  ⟨s.bf, fun i j => σ ⟨16 + i.val, by show 16 + i.val < 24; omega⟩ * σ ⟨16 + j.val, by show 16 + j.val < 24; omega⟩ * s.ef i j⟩

def sgMag (σ : Fin N → ℝ) (m : MagState ℝ) : MagState ℝ := { m with P := sgM σ m.P, saved := sgSave σ m.saved }

def sgF (σ : Fin N → ℝ) (f : Filt) : Filt := { f with s := sgV σ f.s, M := sgMag σ f.M }

variable {σ : Fin N → ℝ}

theorem sgM_diag (h : IsSign σ) (P : Mat ℝ) (i : Fin N) : sgM σ P i i = P i i := by
  unfold sgM; rw [h i, one_mul]

theorem sgM_twice (h : IsSign σ) (P : Mat ℝ) : sgM σ (sgM σ P) = P := by
  funext i j
  unfold sgM
  calc σ i * σ j * (σ i * σ j * P i j) = (σ i * σ i) * (σ j * σ j) * P i j := by ring
    _ = P i j := by rw [h i, h j]; ring

theorem sgV_twice (h : IsSign σ) (s : Vec ℝ) : sgV σ (sgV σ s) = s := by
  funext i
  unfold sgV
  rw [← mul_assoc, h i, one_mul]

theorem sg_uncorrSet (h : IsSign σ) (f w : ℕ) (v : Fin N → ℝ) (P : Mat ℝ) : uncorrSet f w v (sgM σ P) = sgM σ (uncorrSet f w v P) := by
  funext i j
  unfold uncorrSet
  by_cases c : inBlk f w i ∨ inBlk f w j
  · simp only [sgM, c, if_true]
    by_cases e : i = j
    · subst e; simp [h i]
    · simp [e]
  · simp only [sgM, c, if_false]

theorem sg_uncorr (h : IsSign σ) (f w : ℕ) (P : Mat ℝ) : uncorr f w (sgM σ P) = sgM σ (uncorr f w P) := by
  unfold uncorr
  rw [show (fun i => sgM σ P i i) = fun i => P i i from funext fun i => sgM_diag h P i, sg_uncorrSet h]

theorem sg_makeSym (f w : ℕ) (P : Mat ℝ) : makeSym f w (sgM σ P) = sgM σ (makeSym f w P) := by
  funext i j
  simp only [makeSym, sgM]
  split <;> ring

theorem sg_mapDiag (h : IsSign σ) (f w : ℕ) (g : ℝ → ℝ) (P : Mat ℝ) : mapDiag f w g (sgM σ P) = sgM σ (mapDiag f w g P) := by
  funext i j
  unfold mapDiag
  by_cases c : i = j ∧ inBlk f w i
  · obtain ⟨rfl, c⟩ := c
    rw [if_pos ⟨rfl, c⟩, sgM_diag h, sgM_diag h, if_pos ⟨rfl, c⟩]
  · simp only [sgM, c, if_false]

theorem sg_accScan (h : IsSign σ) (b : Fin 3 → Bool) (P : Mat ℝ) : accScan b (sgM σ P) = accScan b P := by
  unfold accScan
  congr 1
  funext a k
  unfold accScanStep
  rw [sgM_diag h]

theorem sg_accClamp (h : IsSign σ) (b : Fin 3 → Bool) (lo hi : ℝ) (P : Mat ℝ) : accClamp b lo hi (sgM σ P) = sgM σ (accClamp b lo hi P) := by
  funext i j
  unfold accClamp
  by_cases c : i = j ∧ ∃ a, b a = false ∧ i = accIdx a
  · obtain ⟨rfl, c⟩ := c
    rw [if_pos ⟨rfl, c⟩, sgM_diag h, sgM_diag h, if_pos ⟨rfl, c⟩]
  · simp only [sgM, c, if_false]

theorem sg_fixAcc (h : IsSign σ) (x : FixIn ℝ) (fo : Bool) (t : UInt64) (P : Mat ℝ) :
    fixAcc x fo t (sgM σ P) = (sgM σ (fixAcc x fo t P).1, (fixAcc x fo t P).2) := by
  unfold fixAcc
  simp only [sg_accScan h, sg_accClamp h, sg_uncorr h, sg_makeSym]
  split_ifs <;> first | rfl | simp only [sg_uncorr h, sg_makeSym]

theorem sg_fixKin (h : IsSign σ) (fo : Bool) (P : Mat ℝ) : fixKin fo (sgM σ P) = sgM σ (fixKin fo P) := by
  unfold fixKin
  simp only [sg_mapDiag h, sg_makeSym]
  split <;> rfl

theorem sg_zeroMagCov (h : IsSign σ) (P : Mat ℝ) : zeroMagCov (sgM σ P) = sgM σ (zeroMagCov P) := by
  unfold zeroMagCov; rw [sg_uncorrSet h, sg_uncorrSet h]

theorem sg_fixMag (h : IsSign σ) (a b : Bool) (P : Mat ℝ) : fixMag a b (sgM σ P) = sgM σ (fixMag a b P) := by
  unfold fixMag
  simp only [sg_mapDiag h, sg_makeSym, sg_zeroMagCov h]
  split_ifs <;> rfl

theorem sg_fixWind (h : IsSign σ) (a b : Bool) (P : Mat ℝ) : fixWind a b (sgM σ P) = sgM σ (fixWind a b P) := by
  unfold fixWind
  simp only [sg_mapDiag h, sg_makeSym, sg_uncorrSet h]
  split_ifs <;> rfl

theorem sg_fixCov (h : IsSign σ) (x : FixIn ℝ) (fo : Bool) (t : UInt64) (fl : Bool) (P : Mat ℝ) :
    fixCovarianceErrors x fo t fl (sgM σ P) = (sgM σ (fixCovarianceErrors x fo t fl P).1, (fixCovarianceErrors x fo t fl P).2) := by
  unfold fixCovarianceErrors
  simp only [sg_fixKin h, sg_fixAcc h]
  split_ifs <;> simp only [sg_fixMag h, sg_fixWind h]

theorem sg_checkFold (h : IsSign σ) (KHP : Mat ℝ) (l : List (Fin N)) (P : Mat ℝ) (b : Bool) :
    l.foldl (checkStep (sgM σ KHP)) (sgM σ P, b) = (sgM σ (l.foldl (checkStep KHP) (P, b)).1, (l.foldl (checkStep KHP) (P, b)).2) := by
  induction l generalizing P b with
  | nil => rfl
  | cons i l ih =>
    have e : checkStep (sgM σ KHP) (sgM σ P, b) i = (sgM σ (checkStep KHP (P, b) i).1, (checkStep KHP (P, b) i).2) := by
      unfold checkStep
      have d1 := sgM_diag h P i
      have d2 := sgM_diag h KHP i
      by_cases c : P i i < KHP i i
      · have c' : sgM σ P i i < sgM σ KHP i i := by rw [d1, d2]; exact c
        simp only [c, c', if_true, sg_uncorrSet h]
      · have c' : ¬ sgM σ P i i < sgM σ KHP i i := by rw [d1, d2]; exact c
        simp only [c, c', if_false]
    show l.foldl _ (checkStep (sgM σ KHP) (sgM σ P, b) i) = _
    rw [e, ih]
    rfl

theorem sg_checkAndFix (h : IsSign σ) (KHP P : Mat ℝ) : checkAndFix (sgM σ KHP) (sgM σ P) = (sgM σ (checkAndFix KHP P).1, (checkAndFix KHP P).2) :=
  sg_checkFold h KHP _ P true

theorem sg_khp (h : IsSign σ) {e : ℝ} (he : e * e = 1) (k g : Vec ℝ) (P : Mat ℝ) :
    computeKHP (fun i => e * (σ i * k i)) (fun i => e * (σ i * g i)) (sgM σ P) = sgM σ (computeKHP k g P) := by
  funext r c
  unfold computeKHP sgM
  rw [Finset.mul_sum]
  refine Finset.sum_congr rfl fun i _ => ?_
  calc e * (σ r * k r) * (e * (σ i * g i)) * (σ i * σ c * P i c) = (e * e) * (σ i * σ i) * (σ r * σ c * (k r * g i * P i c)) := by ring
    _ = σ r * σ c * (k r * g i * P i c) := by rw [he, h i]; ring

theorem sg_maskGain (e : ℝ) (b : Fin 3 → Bool) (k : Vec ℝ) : maskGain b (fun i => e * (σ i * k i)) = fun i => e * (σ i * maskGain b k i) := by
  funext i
  unfold maskGain
  split <;> ring

theorem sg_measUpdate (h : IsSign σ) {e : ℝ} (he : e * e = 1) (x : FixIn ℝ) (k g : Vec ℝ) (t : UInt64) (fl : Bool) (P : Mat ℝ) :
    measurementUpdate x (fun i => e * (σ i * k i)) (fun i => e * (σ i * g i)) t fl (sgM σ P) =
      (sgM σ (measurementUpdate x k g t fl P).1, (measurementUpdate x k g t fl P).2.1, (measurementUpdate x k g t fl P).2.2.1,
        (measurementUpdate x k g t fl P).2.2.2.map fun k' i => e * (σ i * k' i)) := by
  unfold measurementUpdate
  simp only [sg_maskGain, sg_khp h he, sg_checkAndFix h]
  have e1 : ∀ Q R : Mat ℝ, (fun i j => sgM σ Q i j - sgM σ R i j) = sgM σ (fun i j => Q i j - R i j) := by
    intro Q R; funext i j; unfold sgM; ring
  rw [e1, sg_fixCov h]
  split_ifs <;> rfl

theorem sg_fuseState (h : IsSign σ) {e : ℝ} (he : e * e = 1) (s k : Vec ℝ) (v : ℝ) :
    fuseState (sgV σ s) (fun i => e * (σ i * k i)) (e * v) = sgV σ (fuseState s k v) := by
  have e1 : ∀ i, sgV σ s i - e * (σ i * k i) * (e * v) = σ i * (s i - k i * v) := by
    intro i
    unfold sgV
    calc σ i * s i - e * (σ i * k i) * (e * v) = σ i * s i - (e * e) * (σ i * k i * v) := by ring
      _ = _ := by rw [he]; ring
  have e2 : ∀ (i : Fin N) (t : ℝ), (σ i * t) ^ 2 = t ^ 2 := by
    intro i t
    rw [mul_pow, pow_two (σ i), h i, one_mul]
  funext i
  unfold fuseState
  simp only [e1, e2]
  by_cases c : i.val < 4
  · simp only [c, if_true, sgV]
    ring
  · simp only [c, if_false, sgV]

/-- a scalar measurement update commutes with the signs; the observation may change sign too (`e`) -/
theorem sg_update (h : IsSign σ) {e : ℝ} (he : e * e = 1) (x : FixIn ℝ) (k g : Vec ℝ) (v : ℝ) (f : Filt) :
    update x (fun i => e * (σ i * k i)) (fun i => e * (σ i * g i)) (e * v) (sgF σ f) = (sgF σ (update x k g v f).1, (update x k g v f).2) := by
  unfold update
  rw [show (sgF σ f).P = sgM σ f.P from rfl, show (sgF σ f).timeCheck = f.timeCheck from rfl, show (sgF σ f).badAccBias = f.badAccBias from rfl,
    sg_measUpdate h he]
  rcases measurementUpdate x k g f.timeCheck f.badAccBias f.P with ⟨P, t, b, _ | k'⟩
  · rfl
  · dsimp only [Option.map]
    rw [show (sgF σ f).s = sgV σ f.s from rfl, sg_fuseState h he]
    rfl

theorem sg_sparse (e : ℝ) (l : List (Fin N × ℝ)) : sparse (l.map fun p => (p.1, e * (σ p.1 * p.2))) = fun i => e * (σ i * sparse l i) := by
  funext i
  unfold sparse
  induction l with
  | nil => simp
  | cons p l ih =>
    simp only [List.map_cons, List.sum_cons]
    rw [ih]
    by_cases c : p.1 = i
    · subst c; simp only [if_true]; ring
    · simp only [c, if_false]; ring

theorem sg_setDiag (h : IsSign σ) (k : Fin N) (v : ℝ) (P : Mat ℝ) : setDiag k v (sgM σ P) = sgM σ (setDiag k v P) := by
  funext i j
  unfold setDiag sgM
  by_cases c : i = k ∧ j = k
  · simp only [c, and_self, if_true, h k, one_mul]
  · simp only [c, if_false]

theorem sg_uncorrelateQuat (P : Mat ℝ) : uncorrelateQuat (sgM σ P) = sgM σ (uncorrelateQuat P) := by
  funext i j
  simp only [uncorrelateQuat, sgM]
  split <;> ring

theorem sg_saveMag (h : IsSign σ) (P : Mat ℝ) : saveMagCov (sgM σ P) = sgSave σ (saveMagCov P) := by
  unfold saveMagCov sgSave
  dsimp only
  congr 1
  funext i
  exact sgM_diag h P _

theorem sg_loadMag (h : IsSign σ) (s : MagSave ℝ) (P : Mat ℝ) : loadMagCov (sgSave σ s) (sgM σ P) = sgM σ (loadMagCov s P) := by
  funext i j
  show _ = σ i * σ j * loadMagCov s P i j
  by_cases c : (16 ≤ i.val ∧ i.val < 18) ∧ (16 ≤ j.val ∧ j.val < 18)
  · have L : ∀ (s : MagSave ℝ) P, loadMagCov s P i j = s.ef ⟨i.val - 16, by omega⟩ ⟨j.val - 16, by omega⟩ := by
      intro s P; unfold loadMagCov; rw [dif_pos c]
    rw [L, L]
    unfold sgSave
    dsimp only
    have e1 : (⟨16 + (i.val - 16), by show 16 + (i.val - 16) < 24; omega⟩ : Fin N) = i := Fin.ext (by show 16 + (i.val - 16) = i.val; omega)
    have e2 : (⟨16 + (j.val - 16), by show 16 + (j.val - 16) < 24; omega⟩ : Fin N) = j := Fin.ext (by show 16 + (j.val - 16) = j.val; omega)
    rw [e1, e2]
  · by_cases c2 : i = j ∧ 18 ≤ i.val ∧ i.val < 22
    · have L : ∀ (s : MagSave ℝ) P, loadMagCov s P i j = s.bf ⟨i.val - 18, by omega⟩ := by
        intro s P; unfold loadMagCov; rw [dif_neg c, dif_pos c2]
      have e : σ i * σ j = 1 := by rw [← c2.1]; exact h i
      rw [L, L, e, one_mul]
      rfl
    · have L : ∀ (s : MagSave ℝ) P, loadMagCov s P i j = P i j := by
        intro s P; unfold loadMagCov; rw [dif_neg c, dif_neg c2]
      rw [L, L]
      rfl

theorem sg_stopMag3D (h : IsSign σ) (m : MagState ℝ) : stopMag3D (sgMag σ m) = sgMag σ (stopMag3D m) := by
  unfold stopMag3D
  show (if m.mag3D = true then _ else _) = _
  split
  · show ({ sgMag σ m with saved := saveMagCov (sgM σ m.P), mag3D := false } : MagState ℝ) = _
    rw [sg_saveMag h]; rfl
  · rfl

theorem sg_stopMagHdg (m : MagState ℝ) : stopMagHdg (sgMag σ m) = sgMag σ (stopMagHdg m) := rfl

theorem sg_startMagHdg (h : IsSign σ) (m : MagState ℝ) : startMagHdg (sgMag σ m) = sgMag σ (startMagHdg m) := by
  unfold startMagHdg; rw [sg_stopMag3D h]; rfl

theorem sg_startMag3D (h : IsSign σ) (m : MagState ℝ) : startMag3D (sgMag σ m) = sgMag σ (startMag3D m) := by
  unfold startMag3D
  show (if (!m.mag3D) = true then _ else _) = _
  split
  · dsimp only
    show ({ stopMagHdg (sgMag σ m) with P := loadMagCov (sgSave σ m.saved) (zeroMagCov (sgM σ m.P)), mag3D := true } : MagState ℝ) = _
    rw [sg_zeroMagCov h, sg_loadMag h]; rfl
  · rfl

theorem sg_clearMagCov (h : IsSign σ) (m : MagState ℝ) : clearMagCov (sgMag σ m) = sgMag σ (clearMagCov m) := by
  unfold clearMagCov
  show ({ sgMag σ m with P := zeroMagCov (sgM σ m.P), declReset := false } : MagState ℝ) = _
  rw [sg_zeroMagCov h]; rfl

theorem sg_stopMag (h : IsSign σ) (m : MagState ℝ) : stopMag (sgMag σ m) = sgMag σ (stopMag m) := by
  unfold stopMag; rw [sg_stopMag3D h, sg_stopMagHdg, sg_clearMagCov h]

theorem sg_resetMagCov (h : IsSign σ) (n : ℝ) (m : MagState ℝ) : resetMagCov n (sgMag σ m) = sgMag σ (resetMagCov n m) := by
  unfold resetMagCov
  rw [sg_clearMagCov h]
  dsimp only
  rw [show (sgMag σ (clearMagCov m)).P = sgM σ (clearMagCov m).P from rfl, sg_uncorrSet h, sg_uncorrSet h,
    show (sgMag σ (clearMagCov m)).mag3D = (clearMagCov m).mag3D from rfl, sg_saveMag h]
  split <;> rfl

end

end Ecl.Whole
