import Verif.Fp.Cov

/-!
# The floating-point model with exact arithmetic is the model of `Cov/Model`
-/

namespace Ecl.Fp

open Ecl.Cov (N Mat inBlk uncorrSet uncorr mapDiag accIdx)

noncomputable section

/-- no rounding -/
def exact : ℝ → EReal := fun x => (x : EReal)

theorem exact_rounding : Rounding exact := ⟨fun _ _ h => EReal.coe_le_coe_iff.mpr h, rfl⟩

/-- a real number as a float -/
def ofR (x : ℝ) : F := .val (x : EReal)

/-- a real matrix as a matrix of floats -/
def emb (P : Mat ℝ) : Mat F := fun i j => ofR (P i j)

theorem lt_ofR (a b : ℝ) : lt (ofR a) (ofR b) ↔ a < b := EReal.coe_lt_coe_iff

theorem rndE_ofR (a : ℝ) : rndE exact (a : EReal) = (a : EReal) := by
  unfold rndE; rw [if_neg (EReal.coe_ne_top a), if_neg (EReal.coe_ne_bot a)]; rfl

theorem add_ofR (a b : ℝ) : add exact (ofR a) (ofR b) = ofR (a + b) := by
  unfold add ofR
  simp only
  rw [if_neg (by rintro (⟨h, -⟩ | ⟨h, -⟩); exacts [EReal.coe_ne_top a h, EReal.coe_ne_bot a h]), ← EReal.coe_add, rndE_ofR]

theorem sub_ofR (a b : ℝ) : sub exact (ofR a) (ofR b) = ofR (a - b) := by
  have : sub exact (ofR a) (ofR b) = add exact (ofR a) (ofR (-b)) := by
    unfold sub ofR; simp only [EReal.coe_neg]
  rw [this, add_ofR, ← sub_eq_add_neg]

theorem mul_ofR (a b : ℝ) : mul exact (ofR a) (ofR b) = ofR (a * b) := by
  unfold mul ofR
  simp only
  rw [if_neg, ← EReal.coe_mul, rndE_ofR]
  rintro (⟨-, h | h⟩ | ⟨-, h | h⟩)
  exacts [EReal.coe_ne_top b h, EReal.coe_ne_bot b h, EReal.coe_ne_top a h, EReal.coe_ne_bot a h]

theorem half_ofR (a : ℝ) : half exact (ofR a) = ofR (a / 2) := by
  unfold half ofR
  simp only
  rw [← EReal.coe_mul, rndE_ofR]
  congr 2; ring

theorem lit_ofR (a : ℝ) : lit exact a = ofR a := rfl

theorem constrain_ofR (v lo hi : ℝ) : constrain (ofR v) (ofR lo) (ofR hi) = ofR (Ecl.constrain v lo hi) := by
  unfold constrain Ecl.constrain
  simp only [lt_ofR, gt_iff_lt]
  by_cases h1 : v < lo
  · rw [if_pos h1, if_pos h1]
  · rw [if_neg h1, if_neg h1]
    by_cases h2 : hi < v
    · rw [if_pos h2, if_pos h2]
    · rw [if_neg h2, if_neg h2]

theorem zero_ofR : (0 : F) = ofR 0 := rfl

theorem uncorrSet_emb (a w : ℕ) (v : Fin N → ℝ) (P : Mat ℝ) : uncorrSet a w (fun i => ofR (v i)) (emb P) = emb (uncorrSet a w v P) := by
  funext i j
  unfold uncorrSet emb
  beta_reduce
  by_cases h : inBlk a w i ∨ inBlk a w j
  · rw [if_pos h, if_pos h]
    by_cases e : i = j
    · rw [if_pos e, if_pos e]
    · rw [if_neg e, if_neg e]; rfl
  · rw [if_neg h, if_neg h]

theorem uncorrZero_emb (a w : ℕ) (P : Mat ℝ) : uncorrSet a w (fun _ => (0 : F)) (emb P) = emb (uncorrSet a w (fun _ => 0) P) :=
  uncorrSet_emb a w (fun _ => 0) P

theorem uncorr_emb (a w : ℕ) (P : Mat ℝ) : uncorr a w (emb P) = emb (uncorr a w P) := uncorrSet_emb a w (fun i => P i i) P

theorem mapDiag_emb (a w : ℕ) (f : F → F) (g : ℝ → ℝ) (h : ∀ v, f (ofR v) = ofR (g v)) (P : Mat ℝ) : mapDiag a w f (emb P) = emb (mapDiag a w g P) := by
  funext i j
  unfold mapDiag emb
  beta_reduce
  by_cases e : i = j ∧ inBlk a w i
  · rw [if_pos e, if_pos e, h]
  · rw [if_neg e, if_neg e]

theorem makeSym_emb (a w : ℕ) (P : Mat ℝ) : makeSym exact a w (emb P) = emb (Cov.makeSym a w P) := by
  funext i j
  unfold makeSym Cov.makeSym emb
  beta_reduce
  by_cases e : i ≠ j ∧ (inBlk a w i ∨ inBlk a w j)
  · rw [if_pos e, if_pos e, add_ofR, half_ofR]
  · rw [if_neg e, if_neg e]

theorem clampD_emb (a w : ℕ) (lo hi : ℝ) (P : Mat ℝ) : mapDiag a w (fun v => constrain v (lit exact lo) (lit exact hi)) (emb P) =
    emb (mapDiag a w (fun v => Ecl.constrain v lo hi) P) := mapDiag_emb a w _ _ (fun v => constrain_ofR v lo hi) P

theorem fixKin_emb (force : Bool) (P : Mat ℝ) : fixKin exact force (emb P) = emb (Cov.fixKin force P) := by
  unfold fixKin Cov.fixKin
  simp only [clampD_emb]
  cases force
  · rfl
  · exact makeSym_emb _ _ _

theorem fixMag_emb (m force : Bool) (P : Mat ℝ) : fixMag exact m force (emb P) = emb (Cov.fixMag m force P) := by
  unfold fixMag Cov.fixMag Cov.zeroMagCov
  simp only [clampD_emb, uncorrZero_emb, makeSym_emb]
  cases m <;> cases force <;> rfl

theorem fixWind_emb (m force : Bool) (P : Mat ℝ) : fixWind exact m force (emb P) = emb (Cov.fixWind m force P) := by
  unfold fixWind Cov.fixWind
  simp only [clampD_emb, uncorrZero_emb, makeSym_emb]
  cases m <;> cases force <;> rfl

theorem accScan_emb (inh : Fin 3 → Bool) (P : Mat ℝ) :
    accScan exact inh (emb P) = (ofR (Cov.accScan inh P).1, (Cov.accScan inh P).2) := by
  have step : ∀ (acc : ℝ × Bool) (a : Fin 3), accScanStep exact inh (emb P) (ofR acc.1, acc.2) a =
      (ofR (Cov.accScanStep inh P acc a).1, (Cov.accScanStep inh P acc a).2) := by
    intro acc a
    unfold accScanStep Cov.accScanStep
    cases inh a
    · simp only [Bool.false_eq_true, if_false, lit_ofR, emb, lt_ofR, gt_iff_lt]
      by_cases h1 : acc.1 < P (accIdx a) (accIdx a)
      · rw [if_pos h1, if_pos h1]
      · rw [if_neg h1, if_neg h1]
        by_cases h2 : P (accIdx a) (accIdx a) < 1 / 1000000000
        · rw [if_pos h2, if_pos h2]
        · rw [if_neg h2, if_neg h2]
    · rfl
  unfold accScan Cov.accScan
  simp only [List.foldl]
  rw [show ((lit exact (1 / 1000000000), false) : F × Bool) = (ofR ((1 / 1000000000 : ℝ), false).1, ((1 / 1000000000 : ℝ), false).2) from rfl, step, step, step]

theorem accCap_ofR (dt : ℝ) : accCap exact (ofR dt) = ofR (Cov.accCap dt) := by
  unfold accCap Cov.accCap
  simp only [lit_ofR, mul_ofR]
  rfl

theorem accFloor_ofR (m : ℝ) : accFloor exact (ofR m) = ofR (Cov.accFloor m) := by
  unfold accFloor Cov.accFloor
  rw [lit_ofR, lit_ofR, mul_ofR]
  show F.val (max _ _) = F.val _
  rw [(EReal.coe_strictMono.monotone).map_max]

theorem accClamp_emb (inh : Fin 3 → Bool) (lo hi : ℝ) (P : Mat ℝ) : accClamp inh (ofR lo) (ofR hi) (emb P) = emb (Cov.accClamp inh lo hi P) := by
  funext i j
  unfold accClamp Cov.accClamp emb
  beta_reduce
  by_cases e : i = j ∧ ∃ a, inh a = false ∧ i = accIdx a
  · rw [if_pos e, if_pos e, constrain_ofR]
  · rw [if_neg e, if_neg e]

/-- the flags and values of the exact model as those of the floating-point one -/
def FixIn.ofReal (x : Cov.FixIn ℝ) : FixIn := ⟨x.inhibit, x.mag3D, x.wind, ofR x.dtEkfAvg, x.now, x.badAccBias⟩

theorem fixAcc_emb (x : Cov.FixIn ℝ) (force : Bool) (t : UInt64) (P : Mat ℝ) :
    fixAcc exact (FixIn.ofReal x) force t (emb P) = (emb (Cov.fixAcc x force t P).1, (Cov.fixAcc x force t P).2) := by
  have e1 : ∀ b : Bool, b = x.badAccBias → (if b = true then t else x.now) = (if x.badAccBias = true then t else x.now) := by rintro b rfl; rfl
  unfold fixAcc Cov.fixAcc
  dsimp only
  rw [show (FixIn.ofReal x).now = x.now from rfl, e1 _ (show (FixIn.ofReal x).badAccBias = x.badAccBias from rfl), show (FixIn.ofReal x).inhibit = x.inhibit from rfl,
    show (FixIn.ofReal x).dtEkfAvg = ofR x.dtEkfAvg from rfl, show (FixIn.ofReal x).badAccBias = x.badAccBias from rfl]
  rw [accScan_emb]
  dsimp only
  rw [accFloor_ofR, accCap_ofR, accClamp_emb]
  generalize (if x.badAccBias = true then t else x.now) = t'
  have inner : ∀ (b : Bool) (Q : Mat ℝ), (if b = true then uncorr 13 3 (emb Q) else emb Q) = emb (if b = true then uncorr 13 3 Q else Q) := by
    intro b Q; cases b
    · rfl
    · exact uncorr_emb _ _ _
  rw [inner]
  generalize (if (Cov.accScan x.inhibit P).2 = true then _ else _ : Mat ℝ) = Q
  by_cases ht : isTimedOut x.now t' 7000000 = true
  · rw [if_pos ht, if_pos ht, uncorr_emb]
  · rw [if_neg ht, if_neg ht]
    cases force
    · rfl
    · simp only [if_true, makeSym_emb]

/-- **C141 (consistency).** Without rounding and on real matrices the floating-point model of the covariance limits is the exact model. -/
theorem fix_exact (x : Cov.FixIn ℝ) (force : Bool) (t : UInt64) (flag : Bool) (P : Mat ℝ) :
    fixCovarianceErrors exact (FixIn.ofReal x) force t flag (emb P) =
      (emb (Cov.fixCovarianceErrors x force t flag P).1, (Cov.fixCovarianceErrors x force t flag P).2) := by
  unfold fixCovarianceErrors Cov.fixCovarianceErrors
  dsimp only
  rw [fixKin_emb, fixAcc_emb]
  have : (FixIn.ofReal x).inhibit = x.inhibit := rfl
  rw [this]
  by_cases h : (!x.inhibit 0 || !x.inhibit 1 || !x.inhibit 2) = true
  · rw [if_pos h, if_pos h]
    simp only [fixMag_emb, fixWind_emb]
    rfl
  · rw [if_neg h, if_neg h]
    simp only [fixMag_emb, fixWind_emb]
    rfl

theorem check_exact (KHP P : Mat ℝ) : checkAndFix (emb KHP) (emb P) = (emb (Cov.checkAndFix KHP P).1, (Cov.checkAndFix KHP P).2) := by
  have key : ∀ (l : List (Fin N)) (Q : Mat ℝ) (b : Bool), l.foldl (checkStep (emb KHP)) (emb Q, b) =
      (emb (l.foldl (Cov.checkStep KHP) (Q, b)).1, (l.foldl (Cov.checkStep KHP) (Q, b)).2) := by
    intro l
    induction l with
    | nil => intro Q b; rfl
    | cons k l ih =>
      intro Q b
      simp only [List.foldl]
      have hs : checkStep (emb KHP) (emb Q, b) k = (emb (Cov.checkStep KHP (Q, b) k).1, (Cov.checkStep KHP (Q, b) k).2) := by
        unfold checkStep Cov.checkStep
        simp only [emb, lt_ofR]
        by_cases h : Q k k < KHP k k
        · rw [if_pos h, if_pos h]
          exact congrArg (fun z => (z, false)) (uncorrZero_emb _ _ _)
        · rw [if_neg h, if_neg h]
      rw [hs]
      exact ih _ _
  exact key _ P true

/-- **C141 (consistency).** The same for the measurement update with gain `k` and observation row `h`. -/
theorem update_exact (x : Cov.FixIn ℝ) (k h : Fin N → ℝ) (t : UInt64) (flag : Bool) (P : Mat ℝ) :
    let khp := Cov.computeKHP (Cov.maskGain x.inhibit k) h P
    let r := Cov.measurementUpdate x k h t flag P
    let f := measurementUpdate exact (FixIn.ofReal x) (emb khp) t flag (emb P)
    f.1 = emb r.1 ∧ f.2.1 = r.2.1 ∧ f.2.2.1 = r.2.2.1 ∧ (f.2.2.2 = true ↔ r.2.2.2.isSome = true) := by
  intro khp r f
  have hr : r = if (Cov.checkAndFix khp P).2 = true then
      ((Cov.fixCovarianceErrors x true t flag (fun i j => (Cov.checkAndFix khp P).1 i j - khp i j)).1,
        (Cov.fixCovarianceErrors x true t flag (fun i j => (Cov.checkAndFix khp P).1 i j - khp i j)).2.1,
        (Cov.fixCovarianceErrors x true t flag (fun i j => (Cov.checkAndFix khp P).1 i j - khp i j)).2.2, some (Cov.maskGain x.inhibit k))
      else ((Cov.checkAndFix khp P).1, t, flag, none) := rfl
  have hf : f = if (checkAndFix (emb khp) (emb P)).2 = true then
      ((fixCovarianceErrors exact (FixIn.ofReal x) true t flag (fun i j => sub exact ((checkAndFix (emb khp) (emb P)).1 i j) (emb khp i j))).1,
        (fixCovarianceErrors exact (FixIn.ofReal x) true t flag (fun i j => sub exact ((checkAndFix (emb khp) (emb P)).1 i j) (emb khp i j))).2.1,
        (fixCovarianceErrors exact (FixIn.ofReal x) true t flag (fun i j => sub exact ((checkAndFix (emb khp) (emb P)).1 i j) (emb khp i j))).2.2, true)
      else ((checkAndFix (emb khp) (emb P)).1, t, flag, false) := rfl
  rw [check_exact] at hf
  have hsub : (fun i j => sub exact ((emb (Cov.checkAndFix khp P).1) i j) (emb khp i j)) = emb (fun i j => (Cov.checkAndFix khp P).1 i j - khp i j) := by
    funext i j; exact sub_ofR _ _
  by_cases hh : (Cov.checkAndFix khp P).2 = true
  · rw [if_pos hh] at hf hr
    rw [hf, hr, hsub, fix_exact]
    exact ⟨rfl, rfl, rfl, by simp⟩
  · rw [if_neg hh] at hf hr
    rw [hf, hr]
    exact ⟨rfl, rfl, rfl, by simp⟩

end

end Ecl.Fp
