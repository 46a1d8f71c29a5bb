import Verif.Fp.Arith
import Verif.Cov.Model

/-!
# Covariance limits, health check and symmetry in floating point — EKF/covariance.cpp:841-1034, EKF/ekf.h:718-747

The same functions as in `Cov/Model`, with rounding, infinities and NaN.  The gains, observation rows and products that are computed before are arbitrary floats.
-/

namespace Ecl.Fp

open Ecl.Cov (N Mat inBlk uncorrSet uncorr mapDiag accIdx)

noncomputable section

variable (rnd : ℝ → EReal)

/-- library `makeRowColSymmetric<width>(first)`, see `Cov.makeSym` -/
def makeSym (first width : ℕ) (P : Mat F) : Mat F := fun i j =>
  if i ≠ j ∧ (inBlk first width i ∨ inBlk first width j) then half rnd (add rnd (P i j) (P j i)) else P i j

open Classical in
/-- EKF/covariance.cpp:911-922 -/
def accScanStep (inhibit : Fin 3 → Bool) (P : Mat F) (acc : F × Bool) (a : Fin 3) : F × Bool :=
  if inhibit a then acc
  else if lt acc.1 (P (accIdx a) (accIdx a)) then (P (accIdx a) (accIdx a), acc.2)
  else if lt (P (accIdx a) (accIdx a)) (lit rnd (1 / 1000000000)) then (acc.1, true)
  else acc

/-- EKF/covariance.cpp:907-923 -/
def accScan (inhibit : Fin 3 → Bool) (P : Mat F) : F × Bool :=
  [0, 1, 2].foldl (accScanStep rnd inhibit P) (lit rnd (1 / 1000000000), false)

/-- EKF/covariance.cpp:935 -/
def accCap (dt : F) : F :=
  let a := mul rnd (mul rnd (lit rnd (1 / 10)) (lit rnd (980665 / 100000))) dt
  mul rnd a a

/-- EKF/covariance.cpp:927-928 -/
def accFloor (maxVar : F) : F := fmax (mul rnd (lit rnd (1 / 100)) maxVar) (lit rnd (5 / 100000000))

/-- EKF/covariance.cpp:930-936 -/
def accClamp (inhibit : Fin 3 → Bool) (lo hi : F) (P : Mat F) : Mat F := fun i j =>
  if i = j ∧ ∃ a, inhibit a = false ∧ i = accIdx a then constrain (P i j) lo hi else P i j

/-- what `fixCovarianceErrors` reads: `_accel_bias_inhibit`, `mag_3D`, `wind`, `_dt_ekf_avg`, `_time_last_imu`, plausibility of the accelerometer bias -/
structure FixIn where
  inhibit : Fin 3 → Bool
  mag3D : Bool
  wind : Bool
  dtEkfAvg : F
  now : UInt64
  badAccBias : Bool

/-- EKF/covariance.cpp:904-982 -/
def fixAcc (x : FixIn) (force : Bool) (timeCheck : UInt64) (P : Mat F) : Mat F × UInt64 × Bool :=
  let s := accScan rnd x.inhibit P
  let P := accClamp x.inhibit (accFloor rnd s.1) (accCap rnd x.dtEkfAvg) P
  let P := if s.2 then uncorr 13 3 P else P
  let t := if x.badAccBias then timeCheck else x.now
  if isTimedOut x.now t 7000000 then (uncorr 13 3 P, x.now, false)
  else (if force then makeSym rnd 13 3 P else P, t, x.badAccBias)

/-- EKF/covariance.cpp:877-900 -/
def fixKin (force : Bool) (P : Mat F) : Mat F :=
  let P := mapDiag 0 4 (fun v => constrain v (lit rnd 0) (lit rnd 1)) P
  let P := mapDiag 4 3 (fun v => constrain v (lit rnd (1 / 1000000)) (lit rnd 1000000)) P
  let P := mapDiag 7 3 (fun v => constrain v (lit rnd (1 / 1000000)) (lit rnd 1000000)) P
  let P := mapDiag 10 3 (fun v => constrain v (lit rnd 0) (lit rnd 1)) P
  if force then makeSym rnd 0 13 P else P

/-- EKF/covariance.cpp:985-1005, 1081-1085 -/
def fixMag (mag3D force : Bool) (P : Mat F) : Mat F :=
  if !mag3D then uncorrSet 19 3 (fun _ => 0) (uncorrSet 16 3 (fun _ => 0) P)
  else
    let P := mapDiag 16 3 (fun v => constrain v (lit rnd 0) (lit rnd 1)) P
    let P := mapDiag 19 3 (fun v => constrain v (lit rnd 0) (lit rnd 1)) P
    if force then makeSym rnd 19 3 (makeSym rnd 16 3 P) else P

/-- EKF/covariance.cpp:1007-1020 -/
def fixWind (wind force : Bool) (P : Mat F) : Mat F :=
  if !wind then uncorrSet 22 2 (fun _ => 0) P
  else
    let P := mapDiag 22 2 (fun v => constrain v (lit rnd 0) (lit rnd 1000000)) P
    if force then makeSym rnd 22 2 P else P

/-- `fixCovarianceErrors`, EKF/covariance.cpp:859-1021 -/
def fixCovarianceErrors (x : FixIn) (force : Bool) (timeCheck : UInt64) (flag : Bool) (P : Mat F) : Mat F × UInt64 × Bool :=
  let P := fixKin rnd force P
  let r := if !x.inhibit 0 || !x.inhibit 1 || !x.inhibit 2 then fixAcc rnd x force timeCheck P else (P, timeCheck, flag)
  (fixWind rnd x.wind force (fixMag rnd x.mag3D force r.1), r.2)

open Classical in
/-- one iteration of `checkAndFixCovarianceUpdate` -/
def checkStep (KHP : Mat F) (acc : Mat F × Bool) (i : Fin N) : Mat F × Bool :=
  if lt (acc.1 i i) (KHP i i) then (uncorrSet i.val 1 (fun _ => 0) acc.1, false) else acc

/-- `checkAndFixCovarianceUpdate`, EKF/covariance.cpp:1025-1034 -/
def checkAndFix (KHP P : Mat F) : Mat F × Bool := (List.finRange N).foldl (checkStep KHP) (P, true)

/-- covariance part of `measurementUpdate`, EKF/ekf.h:721-747; `KHP` is whatever `computeKHP` (EKF/ekf.h:690-716) returned -/
def measurementUpdate (x : FixIn) (KHP : Mat F) (timeCheck : UInt64) (flag : Bool) (P : Mat F) : Mat F × UInt64 × Bool × Bool :=
  let r := checkAndFix KHP P
  if r.2 then
    let f := fixCovarianceErrors rnd x true timeCheck flag (fun i j => sub rnd (r.1 i j) (KHP i j))
    (f.1, f.2.1, f.2.2, true)
  else (r.1, timeCheck, flag, false)

/-- end of `predictCovariance`, EKF/covariance.cpp:841-857; `next` is whatever was computed for the upper triangle -/
def predictEnd (x : FixIn) (next : Mat F) (timeCheck : UInt64) (flag : Bool) : Mat F × UInt64 × Bool :=
  fixCovarianceErrors rnd x false timeCheck flag (fun i j => if i ≤ j then next i j else next j i)

/-! ## Variances -/

/-- the documented limits of the variances, as floats; accelerometer bias: not negative -/
def Spec.limits (x : FixIn) (i : Fin N) : EReal × EReal :=
  if i.val < 4 then (0, rnd 1)
  else if i.val < 10 then (rnd (1 / 1000000), rnd 1000000)
  else if i.val < 13 then (0, rnd 1)
  else if i.val < 16 then (0, ⊤)
  else if i.val < 22 then (0, if x.mag3D then rnd 1 else 0)
  else (0, if x.wind then rnd 1000000 else 0)

variable {rnd}

theorem mapDiag_diag (a w : ℕ) (f : F → F) (P : Mat F) (i : Fin N) : mapDiag a w f P i i = if inBlk a w i then f (P i i) else P i i := by
  unfold mapDiag; simp

theorem makeSym_diag (a w : ℕ) (P : Mat F) (i : Fin N) : makeSym rnd a w P i i = P i i := by
  unfold makeSym; simp

theorem uncorr_diag (a w : ℕ) (P : Mat F) (i : Fin N) : uncorr a w P i i = P i i := by
  unfold uncorr uncorrSet; simp

theorem uncorrSet_diag (a w : ℕ) (v : Fin N → F) (P : Mat F) (i : Fin N) : uncorrSet a w v P i i = if inBlk a w i then v i else P i i := by
  unfold uncorrSet; simp

theorem fixWind_diag (wind force : Bool) (P : Mat F) (i : Fin N) : fixWind rnd wind force P i i =
    if 22 ≤ i.val then (if wind then constrain (P i i) (lit rnd 0) (lit rnd 1000000) else 0) else P i i := by
  have hb : inBlk 22 2 i ↔ 22 ≤ i.val := by
    constructor
    · exact fun h => h.1
    · exact fun h => ⟨h, i.isLt⟩
  unfold fixWind
  cases wind <;> cases force <;>
    simp only [Bool.not_false, Bool.not_true, Bool.false_eq_true, if_true, if_false, makeSym_diag, uncorrSet_diag, mapDiag_diag, hb]

theorem fixMag_diag (mag force : Bool) (P : Mat F) (i : Fin N) : fixMag rnd mag force P i i =
    if 16 ≤ i.val ∧ i.val < 22 then (if mag then constrain (P i i) (lit rnd 0) (lit rnd 1) else 0) else P i i := by
  unfold fixMag
  cases mag <;> cases force <;>
    simp only [Bool.not_false, Bool.not_true, Bool.false_eq_true, if_true, if_false, makeSym_diag, uncorrSet_diag, mapDiag_diag] <;>
    by_cases h1 : i.val < 16 <;> by_cases h2 : i.val < 19 <;> by_cases h3 : i.val < 22 <;>
    simp only [inBlk] <;> repeat' split
  all_goals first | rfl | omega

theorem fixKin_diag (force : Bool) (P : Mat F) (i : Fin N) : fixKin rnd force P i i =
    if i.val < 4 then constrain (P i i) (lit rnd 0) (lit rnd 1)
    else if i.val < 10 then constrain (P i i) (lit rnd (1 / 1000000)) (lit rnd 1000000)
    else if i.val < 13 then constrain (P i i) (lit rnd 0) (lit rnd 1) else P i i := by
  unfold fixKin
  cases force <;> simp only [Bool.false_eq_true, if_true, if_false, makeSym_diag, mapDiag_diag] <;>
    simp only [inBlk] <;> repeat' split
  all_goals first | rfl | omega

theorem scan_nonneg (R : Rounding rnd) (inh : Fin 3 → Bool) (P : Mat F) : ∃ m : EReal, 0 ≤ m ∧ (accScan rnd inh P).1 = .val m := by
  have h0 : (0 : EReal) ≤ rnd (1 / 1000000000) := by rw [← R.zero]; exact R.mono (by norm_num)
  have step : ∀ (a : Fin 3) (acc : F × Bool), (∃ m : EReal, 0 ≤ m ∧ acc.1 = .val m) → ∃ m : EReal, 0 ≤ m ∧ (accScanStep rnd inh P acc a).1 = .val m := by
    rintro a acc ⟨m, hm, e⟩
    unfold accScanStep
    split
    · exact ⟨m, hm, e⟩
    · split
      · next hlt =>
        rw [e] at hlt
        cases hP : P (accIdx a) (accIdx a) with
        | nan => rw [hP] at hlt; exact absurd hlt (by simp [lt])
        | val p =>
          rw [hP] at hlt
          exact ⟨p, le_trans hm (le_of_lt hlt), rfl⟩
      · split
        · exact ⟨m, hm, e⟩
        · exact ⟨m, hm, e⟩
  unfold accScan
  simp only [List.foldl]
  exact step 2 _ (step 1 _ (step 0 _ ⟨_, h0, rfl⟩))

theorem floor_nonneg (R : Rounding rnd) {m : EReal} : ∃ l : EReal, 0 ≤ l ∧ accFloor rnd (.val m) = .val l := by
  have h1 : (0 : EReal) ≤ rnd (5 / 100000000) := by rw [← R.zero]; exact R.mono (by norm_num)
  unfold accFloor lit
  generalize mul rnd (F.val (rnd (1 / 100))) (F.val m) = a
  cases a with
  | nan => exact ⟨_, h1, rfl⟩
  | val a => exact ⟨_, le_trans h1 (le_max_right a _), rfl⟩

theorem constrain_nonneg {l : EReal} (hl : 0 ≤ l) (v : F) (c : F) (hc : Maybe (0 ≤ ·) c) : Maybe (0 ≤ ·) (constrain v (.val l) c) := by
  intro w hw
  unfold constrain at hw
  split at hw
  · simp only [F.val.injEq] at hw; subst hw; exact hl
  · next h1 =>
    split at hw
    · exact hc w hw
    · subst hw
      exact le_trans hl (not_lt.mp h1)

theorem fixAcc_diag (R : Rounding rnd) (x : FixIn) (force : Bool) (t : UInt64) (P : Mat F) (i : Fin N) :
    (¬ (13 ≤ i.val ∧ i.val < 16) → (fixAcc rnd x force t P).1 i i = P i i) ∧
    (13 ≤ i.val ∧ i.val < 16 → Maybe (0 ≤ ·) (P i i) → Maybe (0 ≤ ·) ((fixAcc rnd x force t P).1 i i)) ∧
    (∀ a : Fin 3, i = accIdx a → x.inhibit a = false → Maybe (0 ≤ ·) ((fixAcc rnd x force t P).1 i i)) := by
  have hd : (fixAcc rnd x force t P).1 i i =
      accClamp x.inhibit (accFloor rnd (accScan rnd x.inhibit P).1) (accCap rnd x.dtEkfAvg) P i i := by
    unfold fixAcc
    dsimp only
    have inner : ∀ (b : Bool) (Q : Mat F), (if b = true then uncorr 13 3 Q else Q) i i = Q i i := by
      intro b Q; cases b
      · rfl
      · exact uncorr_diag _ _ _ _
    generalize (if x.badAccBias = true then t else x.now) = t'
    by_cases ht : isTimedOut x.now t' 7000000 = true
    · rw [if_pos ht]
      show uncorr 13 3 _ i i = _
      rw [uncorr_diag, inner]
    · rw [if_neg ht]
      cases force
      · exact inner _ _
      · show makeSym rnd 13 3 _ i i = _
        rw [makeSym_diag, inner]
  obtain ⟨m, hm, e⟩ := scan_nonneg R x.inhibit P
  obtain ⟨l, hl, e'⟩ := floor_nonneg R (m := m)
  rw [hd, e, e']
  have hc : Maybe (0 ≤ ·) (accCap rnd x.dtEkfAvg) := mul_self_nonneg R _
  refine ⟨fun h => ?_, fun _ hP => ?_, fun a ha hi => ?_⟩
  · unfold accClamp
    rw [if_neg]
    rintro ⟨-, a, -, ha⟩
    apply h
    have : i.val = 13 + a.val := by rw [ha]; rfl
    have := a.isLt
    omega
  · unfold accClamp
    split
    · exact constrain_nonneg hl _ _ hc
    · exact hP
  · unfold accClamp
    rw [if_pos ⟨rfl, a, hi, ha⟩]
    exact constrain_nonneg hl _ _ hc

/-- limits after `fixCovarianceErrors`, whatever the covariance before -/
theorem fix_limits (R : Rounding rnd) (x : FixIn) (force : Bool) (t : UInt64) (flag : Bool) (P : Mat F) (i : Fin N)
    (hi : ∀ a : Fin 3, i = accIdx a → x.inhibit a = true → Maybe (0 ≤ ·) (P i i)) :
    Maybe (fun v => (Spec.limits rnd x i).1 ≤ v ∧ v ≤ (Spec.limits rnd x i).2) ((fixCovarianceErrors rnd x force t flag P).1 i i) := by
  have l01 : rnd 0 ≤ rnd 1 := R.mono (by norm_num)
  have l06 : rnd 0 ≤ rnd 1000000 := R.mono (by norm_num)
  have l66 : rnd (1 / 1000000) ≤ rnd 1000000 := R.mono (by norm_num)
  have c01 := fun v => constrain_limits l01 v
  have c06 := fun v => constrain_limits l06 v
  have c66 := fun v => constrain_limits l66 v
  rw [R.zero] at c01 c06
  have zero_ok : Maybe (fun v => (0 : EReal) ≤ v ∧ v ≤ 0) 0 := by
    intro v hv
    have : v = 0 := by
      have : F.val 0 = F.val v := hv
      simpa using this.symm
    subst this; exact ⟨le_refl _, le_refl _⟩
  unfold fixCovarianceErrors
  simp only
  rw [fixWind_diag, fixMag_diag]
  set Q : Mat F := (if (!x.inhibit 0 || !x.inhibit 1 || !x.inhibit 2) = true then fixAcc rnd x force t (fixKin rnd force P) else (fixKin rnd force P, t, flag)).1 with hQ
  have hQ1 : ¬ (13 ≤ i.val ∧ i.val < 16) → Q i i = fixKin rnd force P i i := by
    intro h
    rw [hQ]
    split
    · exact (fixAcc_diag R x force t _ i).1 h
    · rfl
  unfold Spec.limits lit
  rw [R.zero]
  by_cases h4 : i.val < 4
  · rw [if_pos h4, if_neg (by omega), if_neg (by omega), hQ1 (by omega), fixKin_diag, if_pos h4]
    unfold lit; rw [R.zero]; exact c01 _
  by_cases h10 : i.val < 10
  · rw [if_neg h4, if_pos h10, if_neg (by omega), if_neg (by omega), hQ1 (by omega), fixKin_diag, if_neg h4, if_pos h10]
    exact c66 _
  by_cases h13 : i.val < 13
  · rw [if_neg h4, if_neg h10, if_pos h13, if_neg (by omega), if_neg (by omega), hQ1 (by omega), fixKin_diag, if_neg h4, if_neg h10, if_pos h13]
    unfold lit; rw [R.zero]; exact c01 _
  by_cases h16 : i.val < 16
  · rw [if_neg h4, if_neg h10, if_neg h13, if_pos h16, if_neg (by omega), if_neg (by omega)]
    have key : Maybe (0 ≤ ·) (Q i i) := by
      have hkin : fixKin rnd force P i i = P i i := by rw [fixKin_diag, if_neg h4, if_neg h10, if_neg h13]
      obtain ⟨a, ha⟩ : ∃ a : Fin 3, i = accIdx a := ⟨⟨i.val - 13, by omega⟩, Fin.ext (by show i.val = 13 + (i.val - 13); omega)⟩
      cases hin : x.inhibit a
      · have hany : (!x.inhibit 0 || !x.inhibit 1 || !x.inhibit 2) = true := by
          fin_cases a <;> simp_all
        rw [hQ, if_pos hany]
        exact (fixAcc_diag R x force t _ i).2.2 a ha hin
      · have hP := hi a ha hin
        rw [hQ]
        split
        · refine (fixAcc_diag R x force t _ i).2.1 ⟨by omega, h16⟩ ?_
          rw [hkin]; exact hP
        · show Maybe _ (fixKin rnd force P i i)
          rw [hkin]; exact hP
    intro v hv
    exact ⟨key v hv, le_top⟩
  by_cases h22 : i.val < 22
  · rw [if_neg h4, if_neg h10, if_neg h13, if_neg h16, if_pos h22, if_neg (show ¬ 22 ≤ i.val by omega), if_pos (show 16 ≤ i.val ∧ i.val < 22 from ⟨by omega, h22⟩)]
    cases x.mag3D
    · exact zero_ok
    · exact c01 _
  · rw [if_neg h4, if_neg h10, if_neg h13, if_neg h16, if_neg h22, if_pos (show 22 ≤ i.val by omega)]
    cases x.wind
    · exact zero_ok
    · exact c06 _

/-- **C141.** In floating point arithmetic with any monotone rounding, and with any gains, observation rows and intermediate products (infinite or NaN included): after an applied
measurement update every variance is NaN or within its documented limits, whatever the covariance before. -/
theorem update_variances_float (R : Rounding rnd) (x : FixIn) (KHP : Mat F) (t : UInt64) (flag : Bool) (P : Mat F)
    (hok : (measurementUpdate rnd x KHP t flag P).2.2.2 = true) (i : Fin N) :
    Maybe (fun v => (Spec.limits rnd x i).1 ≤ v ∧ v ≤ (Spec.limits rnd x i).2) ((measurementUpdate rnd x KHP t flag P).1 i i) := by
  have hall : ∀ (l : List (Fin N)) (Q : Mat F) (b : Bool), (l.foldl (checkStep KHP) (Q, b)).2 = true →
      (l.foldl (checkStep KHP) (Q, b)).1 = Q ∧ b = true ∧ ∀ j ∈ l, ¬ lt (Q j j) (KHP j j) := by
    intro l
    induction l with
    | nil => intro Q b h; exact ⟨rfl, h, fun j hj => absurd hj (by simp)⟩
    | cons k l ih =>
      intro Q b h
      simp only [List.foldl] at h ⊢
      by_cases hk : lt (Q k k) (KHP k k)
      · have e : checkStep KHP (Q, b) k = (uncorrSet k.val 1 (fun _ => 0) Q, false) := if_pos hk
        rw [e] at h
        exact absurd (ih _ _ h).2.1 (by decide)
      · have e : checkStep KHP (Q, b) k = (Q, b) := if_neg hk
        rw [e] at h ⊢
        obtain ⟨i1, i2, i3⟩ := ih _ _ h
        refine ⟨i1, i2, fun j hj => ?_⟩
        rcases List.mem_cons.mp hj with rfl | hj
        · exact hk
        · exact i3 j hj
  unfold measurementUpdate at hok ⊢
  simp only at hok ⊢
  by_cases h : (checkAndFix KHP P).2 = true
  · rw [if_pos h]
    obtain ⟨h1, -, h3⟩ := hall _ P true h
    refine fix_limits R x true t flag _ i (fun a _ _ => ?_)
    have e : (checkAndFix KHP P).1 = P := h1
    rw [e]
    exact sub_nonneg R _ _ (h3 i (List.mem_finRange i))
  · rw [if_neg h] at hok
    exact absurd hok (by simp)

/-- **C141.** An update that is not applied leaves each variance as it was or zero. -/
theorem update_refused_float (x : FixIn) (KHP : Mat F) (t : UInt64) (flag : Bool) (P : Mat F)
    (hno : (measurementUpdate rnd x KHP t flag P).2.2.2 = false) (i : Fin N) :
    (measurementUpdate rnd x KHP t flag P).1 i i = P i i ∨ (measurementUpdate rnd x KHP t flag P).1 i i = 0 := by
  have hall : ∀ (l : List (Fin N)) (Q : Mat F) (b : Bool), (Q i i = P i i ∨ Q i i = 0) →
      ((l.foldl (checkStep KHP) (Q, b)).1 i i = P i i ∨ (l.foldl (checkStep KHP) (Q, b)).1 i i = 0) := by
    intro l
    induction l with
    | nil => intro Q b h; exact h
    | cons k l ih =>
      intro Q b h
      simp only [List.foldl]
      by_cases hk : lt (Q k k) (KHP k k)
      · have e : checkStep KHP (Q, b) k = (uncorrSet k.val 1 (fun _ => 0) Q, false) := if_pos hk
        rw [e]
        refine ih _ _ ?_
        rw [uncorrSet_diag]
        split
        · exact Or.inr rfl
        · exact h
      · have e : checkStep KHP (Q, b) k = (Q, b) := if_neg hk
        rw [e]
        exact ih _ _ h
  unfold measurementUpdate at hno ⊢
  simp only at hno ⊢
  by_cases h : (checkAndFix KHP P).2 = true
  · rw [if_pos h] at hno
    exact absurd hno (by simp)
  · rw [if_neg h]
    exact hall _ P true (Or.inl rfl)

/-- **C141.** A covariance prediction leaves a symmetric matrix whose variances are NaN or within the limits, whatever was computed for the upper triangle, if the variance of an
inhibited accelerometer bias axis (which is a stored variance) is not negative. -/
theorem predict_variances_float (R : Rounding rnd) (x : FixIn) (next : Mat F) (t : UInt64) (flag : Bool) (i : Fin N)
    (hi : ∀ a : Fin 3, i = accIdx a → x.inhibit a = true → Maybe (0 ≤ ·) (next i i)) :
    Maybe (fun v => (Spec.limits rnd x i).1 ≤ v ∧ v ≤ (Spec.limits rnd x i).2) ((predictEnd rnd x next t flag).1 i i) := by
  refine fix_limits R x false t flag _ i (fun a ha h => ?_)
  have : (if i ≤ i then next i i else next i i) = next i i := if_pos (le_refl i)
  rw [this]
  exact hi a ha h

/-! ## Symmetry -/

/-- `(i, j)` and `(j, i)` agree for every pair except those inside the block `E` -/
def SymOff (E : Fin N → Prop) (P : Mat F) : Prop := ∀ i j, ¬ (E i ∧ E j) → P i j = P j i

theorem sym_mapDiag {E : Fin N → Prop} (a w : ℕ) (f : F → F) {P : Mat F} (h : SymOff E P) : SymOff E (mapDiag a w f P) := by
  intro i j hij
  unfold mapDiag
  by_cases e : i = j
  · subst e; rfl
  · rw [if_neg (fun h => e h.1), if_neg (fun h => e h.1.symm)]; exact h i j hij

theorem sym_uncorrSet {E : Fin N → Prop} (a w : ℕ) (v : Fin N → F) {P : Mat F} (h : SymOff E P) : SymOff E (uncorrSet a w v P) := by
  intro i j hij
  unfold uncorrSet
  by_cases hb : inBlk a w i ∨ inBlk a w j
  · rw [if_pos hb, if_pos hb.symm]
    by_cases e : i = j
    · subst e; rfl
    · rw [if_neg e, if_neg (Ne.symm e)]
  · rw [if_neg hb, if_neg (fun h => hb h.symm)]; exact h i j hij

theorem sym_makeSym {E : Fin N → Prop} (a w : ℕ) {P : Mat F} (h : SymOff E P) : SymOff (fun i => E i ∧ ¬ inBlk a w i) (makeSym rnd a w P) := by
  intro i j hij
  unfold makeSym
  by_cases e : i = j
  · subst e; rfl
  by_cases hb : inBlk a w i ∨ inBlk a w j
  · rw [if_pos ⟨e, hb⟩, if_pos ⟨Ne.symm e, hb.symm⟩, add_comm]
  · rw [if_neg (fun h => hb h.2), if_neg (fun h => hb h.2.symm)]
    refine h i j (fun hE => hij ⟨⟨hE.1, ?_⟩, ⟨hE.2, ?_⟩⟩)
    · exact fun h => hb (Or.inl h)
    · exact fun h => hb (Or.inr h)

theorem sym_keep_makeSym {E : Fin N → Prop} (a w : ℕ) {P : Mat F} (h : SymOff E P) : SymOff E (makeSym rnd a w P) :=
  fun i j hij => sym_makeSym a w h i j (fun hh => hij ⟨hh.1.1, hh.2.1⟩)

theorem sym_uncorr {E : Fin N → Prop} (a w : ℕ) {P : Mat F} (h : SymOff E P) : SymOff (fun i => E i ∧ ¬ inBlk a w i) (uncorr a w P) := by
  intro i j hij
  unfold uncorr uncorrSet
  by_cases e : i = j
  · subst e; rfl
  by_cases hb : inBlk a w i ∨ inBlk a w j
  · rw [if_pos hb, if_pos hb.symm, if_neg e, if_neg (Ne.symm e)]
  · rw [if_neg hb, if_neg (fun h => hb h.symm)]
    exact h i j (fun hE => hij ⟨⟨hE.1, fun h => hb (Or.inl h)⟩, ⟨hE.2, fun h => hb (Or.inr h)⟩⟩)

theorem sym_weaken {E E' : Fin N → Prop} (hE : ∀ i, E' i → E i) {P : Mat F} (h : SymOff E' P) : SymOff E P :=
  fun i j hij => h i j (fun hh => hij ⟨hE i hh.1, hE j hh.2⟩)

theorem sym_accClamp {E : Fin N → Prop} (inh : Fin 3 → Bool) (lo hi : F) {P : Mat F} (h : SymOff E P) : SymOff E (accClamp inh lo hi P) := by
  intro i j hij
  unfold accClamp
  by_cases e : i = j
  · subst e; rfl
  · rw [if_neg (fun h => e h.1), if_neg (fun h => e h.1.symm)]; exact h i j hij

theorem sym_fixMag {E : Fin N → Prop} (m : Bool) {P : Mat F} (h : SymOff E P) :
    SymOff (fun i => E i ∧ ¬ (16 ≤ i.val ∧ i.val < 22)) (fixMag rnd m true P) := by
  unfold fixMag
  cases m
  · have h1 : SymOff (fun i => E i ∧ ¬ inBlk 16 3 i) (uncorrSet 16 3 (fun _ => 0) P) := by
      intro i j hij
      unfold uncorrSet
      by_cases hb : inBlk 16 3 i ∨ inBlk 16 3 j
      · rw [if_pos hb, if_pos hb.symm]
        by_cases e : i = j
        · subst e; rfl
        · rw [if_neg e, if_neg (Ne.symm e)]
      · rw [if_neg hb, if_neg (fun h => hb h.symm)]
        exact h i j (fun hE => hij ⟨⟨hE.1, fun h => hb (Or.inl h)⟩, ⟨hE.2, fun h => hb (Or.inr h)⟩⟩)
    intro i j hij
    show uncorrSet 19 3 (fun _ => 0) (uncorrSet 16 3 (fun _ => 0) P) i j = uncorrSet 19 3 (fun _ => 0) (uncorrSet 16 3 (fun _ => 0) P) j i
    rw [uncorrSet]
    conv_rhs => rw [uncorrSet]
    by_cases hb : inBlk 19 3 i ∨ inBlk 19 3 j
    · rw [if_pos hb, if_pos hb.symm]
      by_cases e : i = j
      · subst e; rfl
      · rw [if_neg e, if_neg (Ne.symm e)]
    · rw [if_neg hb, if_neg (fun h => hb h.symm)]
      refine h1 i j (fun hE => hij ⟨⟨hE.1.1, ?_⟩, ⟨hE.2.1, ?_⟩⟩)
      · intro h; have := hE.1.2; unfold inBlk at hb this; omega
      · intro h; have := hE.2.2; unfold inBlk at hb this; omega
  · have := sym_makeSym (rnd := rnd) 19 3 (sym_makeSym (rnd := rnd) 16 3 (sym_mapDiag 19 3 (fun v => constrain v (lit rnd 0) (lit rnd 1))
      (sym_mapDiag 16 3 (fun v => constrain v (lit rnd 0) (lit rnd 1)) h)))
    refine sym_weaken (fun i hi => ⟨hi.1.1, ?_⟩) this
    intro h; have h1 := hi.1.2; have h2 := hi.2; unfold inBlk at h1 h2; omega

theorem sym_fixWind {E : Fin N → Prop} (m : Bool) {P : Mat F} (h : SymOff E P) :
    SymOff (fun i => E i ∧ ¬ 22 ≤ i.val) (fixWind rnd m true P) := by
  have hb : ∀ i : Fin N, ¬ inBlk 22 2 i → ¬ 22 ≤ i.val := fun i h h' => h ⟨h', i.isLt⟩
  unfold fixWind
  cases m
  · intro i j hij
    show uncorrSet 22 2 (fun _ => 0) P i j = uncorrSet 22 2 (fun _ => 0) P j i
    unfold uncorrSet
    by_cases hB : inBlk 22 2 i ∨ inBlk 22 2 j
    · rw [if_pos hB, if_pos hB.symm]
      by_cases e : i = j
      · subst e; rfl
      · rw [if_neg e, if_neg (Ne.symm e)]
    · rw [if_neg hB, if_neg (fun h => hB h.symm)]
      exact h i j (fun hE => hij ⟨⟨hE.1, hb i fun h => hB (Or.inl h)⟩, ⟨hE.2, hb j fun h => hB (Or.inr h)⟩⟩)
  · exact sym_weaken (fun i hi => ⟨hi.1, hb i hi.2⟩) (sym_makeSym (rnd := rnd) 22 2 (sym_mapDiag 22 2 _ h))

/-- **C141.** An applied measurement update leaves an exactly symmetric covariance whatever was subtracted, up to the correlations among the accelerometer biases when all three are
inhibited. -/
theorem update_symmetric_float (x : FixIn) (KHP : Mat F) (t : UInt64) (flag : Bool) (P : Mat F)
    (hok : (measurementUpdate rnd x KHP t flag P).2.2.2 = true) (i j : Fin N)
    (hij : (x.inhibit 0 && x.inhibit 1 && x.inhibit 2) = true → ¬ ((13 ≤ i.val ∧ i.val < 16) ∧ 13 ≤ j.val ∧ j.val < 16)) :
    (measurementUpdate rnd x KHP t flag P).1 i j = (measurementUpdate rnd x KHP t flag P).1 j i := by
  unfold measurementUpdate at hok ⊢
  simp only at hok ⊢
  by_cases h : (checkAndFix KHP P).2 = true
  · rw [if_pos h]
    generalize (fun i j => sub rnd ((checkAndFix KHP P).1 i j) (KHP i j)) = Q
    have h0 : SymOff (fun _ => True) Q := fun i j hij => absurd ⟨trivial, trivial⟩ hij
    have h1 : SymOff (fun i => ¬ inBlk 0 13 i) (fixKin rnd true Q) := by
      unfold fixKin
      exact sym_weaken (fun i hi => hi.2) (sym_makeSym (rnd := rnd) 0 13 (sym_mapDiag 10 3 _ (sym_mapDiag 7 3 _ (sym_mapDiag 4 3 _ (sym_mapDiag 0 4 _ h0)))))
    show fixWind rnd x.wind true (fixMag rnd x.mag3D true _) i j = fixWind rnd x.wind true (fixMag rnd x.mag3D true _) j i
    by_cases ha : (!x.inhibit 0 || !x.inhibit 1 || !x.inhibit 2) = true
    · rw [if_pos ha]
      have h2 : SymOff (fun i => ¬ inBlk 0 13 i ∧ ¬ inBlk 13 3 i) (fixAcc rnd x true t (fixKin rnd true Q)).1 := by
        unfold fixAcc
        simp only
        have h3 := sym_accClamp x.inhibit (accFloor rnd (accScan rnd x.inhibit (fixKin rnd true Q)).1) (accCap rnd x.dtEkfAvg) h1
        have h4 : SymOff (fun i => ¬ inBlk 0 13 i) (if (accScan rnd x.inhibit (fixKin rnd true Q)).2 = true then
            uncorr 13 3 (accClamp x.inhibit (accFloor rnd (accScan rnd x.inhibit (fixKin rnd true Q)).1) (accCap rnd x.dtEkfAvg) (fixKin rnd true Q))
            else accClamp x.inhibit (accFloor rnd (accScan rnd x.inhibit (fixKin rnd true Q)).1) (accCap rnd x.dtEkfAvg) (fixKin rnd true Q)) := by
          split
          · exact sym_weaken (fun i hi => hi.1) (sym_uncorr 13 3 h3)
          · exact h3
        generalize (if x.badAccBias = true then t else x.now) = t'
        by_cases ht : isTimedOut x.now t' 7000000 = true
        · rw [if_pos ht]; exact sym_uncorr 13 3 h4
        · rw [if_neg ht]; exact sym_makeSym 13 3 h4
      refine sym_fixWind x.wind (sym_fixMag x.mag3D h2) i j ?_
      rintro ⟨hi, -⟩
      have b1 := hi.1.1.1; have b2 := hi.1.1.2; have b3 := hi.1.2; have b4 := hi.2
      unfold inBlk at b1 b2
      omega
    · rw [if_neg ha]
      refine sym_fixWind x.wind (sym_fixMag x.mag3D h1) i j ?_
      rintro ⟨hi, hj⟩
      have hall : (x.inhibit 0 && x.inhibit 1 && x.inhibit 2) = true := by
        revert ha
        cases x.inhibit 0 <;> cases x.inhibit 1 <;> cases x.inhibit 2 <;> decide
      apply hij hall
      have b1 := hi.1.1; have b2 := hi.1.2; have b3 := hi.2
      have c1 := hj.1.1; have c2 := hj.1.2; have c3 := hj.2
      unfold inBlk at b1 c1
      omega
  · rw [if_neg h] at hok
    exact absurd hok (by simp)

/-- **C141.** A covariance prediction leaves an exactly symmetric covariance. -/
theorem predict_symmetric_float (x : FixIn) (next : Mat F) (t : UInt64) (flag : Bool) (i j : Fin N) :
    (predictEnd rnd x next t flag).1 i j = (predictEnd rnd x next t flag).1 j i := by
  unfold predictEnd fixCovarianceErrors
  dsimp only
  set Q : Mat F := fun i j => if i ≤ j then next i j else next j i with hQ
  have h0 : SymOff (fun _ => False) Q := by
    intro i j _
    rw [hQ]
    dsimp only
    rcases lt_trichotomy i j with h | h | h
    · rw [if_pos h.le, if_neg (not_le.mpr h)]
    · subst h; rfl
    · rw [if_neg (not_le.mpr h), if_pos h.le]
  have h1 : SymOff (fun _ => False) (fixKin rnd false Q) := by
    unfold fixKin
    simp only [Bool.false_eq_true, if_false]
    exact sym_mapDiag 10 3 _ (sym_mapDiag 7 3 _ (sym_mapDiag 4 3 _ (sym_mapDiag 0 4 _ h0)))
  have hu : ∀ {P : Mat F}, SymOff (fun _ => False) P → SymOff (fun _ => False) (uncorr 13 3 P) := fun h => sym_weaken (fun i hi => hi.1) (sym_uncorr 13 3 h)
  have h2 : SymOff (fun _ => False) (if (!x.inhibit 0 || !x.inhibit 1 || !x.inhibit 2) = true then fixAcc rnd x false t (fixKin rnd false Q)
      else (fixKin rnd false Q, t, flag)).1 := by
    split
    · unfold fixAcc
      dsimp only
      have h3 := sym_accClamp x.inhibit (accFloor rnd (accScan rnd x.inhibit (fixKin rnd false Q)).1) (accCap rnd x.dtEkfAvg) h1
      generalize (if x.badAccBias = true then t else x.now) = t'
      have h4 : ∀ (b : Bool) (Q : Mat F), SymOff (fun _ => False) Q → SymOff (fun _ => False) (if b = true then uncorr 13 3 Q else Q) := by
        intro b Q h; cases b
        · exact h
        · exact hu h
      by_cases ht : isTimedOut x.now t' 7000000 = true
      · rw [if_pos ht]; exact hu (h4 _ _ h3)
      · rw [if_neg ht]; exact h4 _ _ h3
    · exact h1
  have h5 : SymOff (fun _ => False) (fixMag rnd x.mag3D false (if (!x.inhibit 0 || !x.inhibit 1 || !x.inhibit 2) = true then fixAcc rnd x false t (fixKin rnd false Q)
      else (fixKin rnd false Q, t, flag)).1) := by
    unfold fixMag
    cases x.mag3D
    · exact sym_uncorrSet 19 3 _ (sym_uncorrSet 16 3 _ h2)
    · simp only [Bool.not_true, Bool.false_eq_true, if_false]
      exact sym_mapDiag 19 3 _ (sym_mapDiag 16 3 _ h2)
  have h6 : ∀ P : Mat F, SymOff (fun _ => False) P → SymOff (fun _ => False) (fixWind rnd x.wind false P) := by
    intro P h
    unfold fixWind
    cases x.wind
    · exact sym_uncorrSet 22 2 _ h
    · simp only [Bool.not_true, Bool.false_eq_true, if_false]
      exact sym_mapDiag 22 2 _ h
  exact h6 _ h5 i j (fun h => h.1)

/-- Non-vacuity: single precision rounding, zero correction to the zero covariance: the update is applied. -/
example : ∃ rnd, Rounding rnd ∧ (measurementUpdate rnd ⟨fun _ => false, true, true, 0, 0, false⟩ (fun _ _ => 0) 0 false (fun _ _ => 0)).2.2.2 = true := by
  obtain ⟨rnd, -, R⟩ := binary32_rounding
  refine ⟨rnd, R, ?_⟩
  have hnl : ¬ lt 0 0 := by
    show ¬ ((0 : EReal) < 0)
    exact lt_irrefl _
  have hs : ∀ l : List (Fin N), (l.foldl (checkStep fun _ _ => (0 : F)) ((fun _ _ => (0 : F)), true)) = ((fun _ _ => (0 : F)), true) := by
    intro l
    induction l with
    | nil => rfl
    | cons k l ih =>
      simp only [List.foldl]
      have : checkStep (fun _ _ => (0 : F)) ((fun _ _ => (0 : F)), true) k = ((fun _ _ => (0 : F)), true) := if_neg hnl
      rw [this]; exact ih
  unfold measurementUpdate
  have : checkAndFix (fun _ _ => (0 : F)) (fun _ _ => (0 : F)) = ((fun _ _ => (0 : F)), true) := hs _
  rw [this]
  rfl

end

end Ecl.Fp
