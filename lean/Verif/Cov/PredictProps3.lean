import Verif.Cov.PredictProps2

/-!
# Covariance prediction: statements (C27, C82)
-/

set_option linter.unusedSectionVars false
set_option linter.unusedSimpArgs false
set_option linter.unusedVariables false

namespace Ecl.Cov

/-- state vector of the propagation model holding the attitude and the IMU biases of the filter (the remaining
components do not influence the Jacobians) -/
def stateVec (x : CovIn ℝ) (rest : Fin N → ℝ) : Fin N → ℝ := fun i =>
  match i with
  | 0 => x.quat.w | 1 => x.quat.x | 2 => x.quat.y | 3 => x.quat.z
  | 10 => x.dAngBias 0 | 11 => x.dAngBias 1 | 12 => x.dAngBias 2
  | 13 => x.dVelBias 0 | 14 => x.dVelBias 1 | 15 => x.dVelBias 2
  | i => rest i

/-- the IMU sample -/
def inputVec (x : CovIn ℝ) : Fin 6 → ℝ := ![x.dAng 0, x.dAng 1, x.dAng 2, x.dVel 0, x.dVel 1, x.dVel 2]

/-- variances of the IMU sample: gyro noise (limited to `[0,1]`) and accelerometer noise (limited to `[0,1]`, replaced by
4.9 m/s² when vertical acceleration is bad or the axis clips), times the 10 ms period, squared -/
noncomputable def Spec.imuVariance (x : CovIn ℝ) : Fin 6 → ℝ := fun k =>
  let g := max 0 (min x.nz.gyroNoise 1)
  let a := if x.nz.badAccVertical then 49 / 10 else max 0 (min x.nz.accelNoise 1)
  match k with
  | 0 => (g / 100) ^ 2 | 1 => (g / 100) ^ 2 | 2 => (g / 100) ^ 2
  | 3 => ((if x.nz.clipping 0 then 49 / 10 else a) / 100) ^ 2
  | 4 => ((if x.nz.clipping 1 then 49 / 10 else a) / 100) ^ 2
  | 5 => ((if x.nz.clipping 2 then 49 / 10 else a) / 100) ^ 2

theorem constrain01 (v : ℝ) : constrain v 0 1 = max 0 (min v 1) := by
  unfold constrain
  split
  · rw [max_eq_left]; exact (min_le_left _ _).trans (le_of_lt ‹_›)
  · split
    · rw [min_eq_right (le_of_lt ‹_›), max_eq_right zero_le_one]
    · rw [min_eq_left (not_lt.mp ‹_›), max_eq_right (not_lt.mp ‹_›)]

theorem imuVar_spec (x : CovIn ℝ) : imuVar x.predIn = Spec.imuVariance x := by
  funext k
  have h1 : (imuNoise x.nz).1 = (max 0 (min x.nz.gyroNoise 1) / 100) ^ 2 := by
    unfold imuNoise sq filterPeriod; simp only [constrain01]; ring
  have h2 : ∀ a, (imuNoise x.nz).2.1 a = ((if x.nz.clipping a then 49 / 10 else
      (if x.nz.badAccVertical then 49 / 10 else max 0 (min x.nz.accelNoise 1))) / 100) ^ 2 := by
    intro a
    unfold imuNoise sq filterPeriod; simp only [constrain01]
    split <;> ring
  fin_cases k
  · exact h1
  · exact h1
  · exact h1
  · exact h2 0
  · exact h2 1
  · exact h2 2

/-- **C27.** One covariance prediction.  `P` is the (symmetric) covariance after the accelerometer-bias inhibition
bookkeeping.  There are matrices `F` and `G` that are the derivatives of the state propagation over the 10 ms filter step with respect to the
state and to the IMU inputs, such that before limiting the new covariance is, in exact arithmetic:
`F P Fᵀ + G Q Gᵀ` plus process noise in every row and column of an active state; the frozen variance and no correlation with
earlier states for an inhibited bias axis; zero for unused field and wind states; and unchanged in the horizontal position
rows and columns while the horizontal position variance exceeds (100 m)². -/
theorem covariance_prediction (x : CovIn ℝ) (s : CovSt ℝ) (rest : Fin N → ℝ) (g : ℝ)
    (hs : ∀ i j, (inhibitUpdate x.inh s.ist).P i j = (inhibitUpdate x.inh s.ist).P j i) :
    let ist := inhibitUpdate x.inh s.ist
    let P := ist.P
    let noise := processNoise x.nz (heightRateLpf s.heightRate x.nz.velD) P
    ∃ (F : Mat ℝ) (G : Fin N → Fin 6 → ℝ) (R : Mat ℝ),
      Spec.IsJacobian (fun v => Spec.propagate (1 / 100) g v (inputVec x)) (stateVec x rest) F ∧
      Spec.IsJacobian (fun u => Spec.propagate (1 / 100) g (stateVec x rest) u) (inputVec x) G ∧
      (∃ fx : FixIn ℝ, fx.inhibit = ist.inhibit ∧ fx.mag3D = x.nz.mag3D ∧ fx.wind = x.nz.wind ∧ fx.dtEkfAvg = x.dtEkfAvg ∧
        fx.now = x.now ∧ fx.badAccBias = x.badAccBias ∧
        (predictCovariance x s).ist.P = (fixCovarianceErrors fx false s.timeCheck s.badAccBias R).1) ∧
      (∀ i j, R i j = R j i) ∧
      ∀ i j : Fin N, i ≤ j →
        let frozen := P 7 7 + P 8 8 > 100 ^ 2 ∧ (i = 7 ∨ i = 8 ∨ j = 7 ∨ j = 8)
        (frozen → R i j = P i j) ∧
        (¬ frozen → (j.val < 13 ∨ (∃ a : Fin 3, j.val = 13 + a.val ∧ ist.inhibit a = false) ∨
            (16 ≤ j.val ∧ j.val < 22 ∧ x.nz.mag3D = true) ∨ (22 ≤ j.val ∧ x.nz.wind = true)) →
          R i j = (∑ k, ∑ l, F i k * P k l * F j l) + (∑ k, G i k * Spec.imuVariance x k * G j k) +
            (if i = j ∧ 10 ≤ j.val then noise j -
              (if h : j.val < 13 ∧ 10 ≤ j.val then s.acc.ang ⟨j.val - 10, by omega⟩
               else if h : j.val < 16 ∧ 10 ≤ j.val then s.acc.vel ⟨j.val - 13, by omega⟩ else 0) else 0)) ∧
        (¬ frozen → ∀ a : Fin 3, j.val = 13 + a.val → ist.inhibit a = true →
          R i j = if i = j then ist.prevVar a else 0) ∧
        (¬ frozen → (16 ≤ j.val ∧ j.val < 22 ∧ x.nz.mag3D = false) ∨ (22 ≤ j.val ∧ x.nz.wind = false) → R i j = 0) := by
  intro ist P noise
  let c : PredCfg ℝ :=
    { x := x.predIn, noise := noise, inhibit := ist.inhibit, prevVar := ist.prevVar
      mag3D := x.nz.mag3D, wind := x.nz.wind }
  have hx : x.predIn = predIn (stateVec x rest) (inputVec x) (imuVar x.predIn) (1 / 100) := by
    unfold CovIn.predIn predIn filterPeriod; rfl
  refine ⟨matF x.predIn, matG x.predIn, predictRaw c s.acc P, ?_, ?_, ?_, predictRaw_symm c s.acc P, ?_⟩
  · rw [hx]; exact matF_jacobian _ _ _ _ _
  · rw [hx]; exact matG_jacobian _ _ _ _ _
  · exact ⟨{ inhibit := ist.inhibit, mag3D := x.nz.mag3D, wind := x.nz.wind, dtEkfAvg := x.dtEkfAvg, now := x.now
             badAccBias := x.badAccBias }, rfl, rfl, rfl, rfl, rfl, rfl, rfl⟩
  · intro i j hij frozen
    have hfr : frozen ↔ (P 7 7 + P 8 8 > 10000 ∧ ((7 ≤ i.val ∧ i.val ≤ 8) ∨ (7 ≤ j.val ∧ j.val ≤ 8))) := by
      show (P 7 7 + P 8 8 > 100 ^ 2 ∧ (i = 7 ∨ i = 8 ∨ j = 7 ∨ j = 8)) ↔ _
      have e : ∀ k : Fin N, (k = 7 ↔ k.val = 7) ∧ (k = 8 ↔ k.val = 8) := fun k => ⟨Fin.ext_iff, Fin.ext_iff⟩
      rw [(e i).1, (e i).2, (e j).1, (e j).2]
      have : (100 : ℝ) ^ 2 = 10000 := by norm_num
      rw [this]
      constructor
      · rintro ⟨h1, h2⟩; exact ⟨h1, by omega⟩
      · rintro ⟨h1, h2⟩; exact ⟨h1, by omega⟩
    have hent := predictRaw_entry c s.acc P hs i j hij
    refine ⟨fun h => hent.1 (hfr.mp h).1 (hfr.mp h).2, fun h hA => ?_, fun h a ha hb => ?_, fun h hz => ?_⟩
    · rw [(hent.2 (mt hfr.mpr h)).1 ?_]
      · unfold Spec.predicted
        congr 1
        · congr 1
          rw [← imuCov_sandwich]
          unfold imuCov
          rw [show imuVar c.x = Spec.imuVariance x from imuVar_spec x]
        · by_cases e : i = j
          · subst e
            simp only [true_and, if_true]
            unfold Spec.noise
            by_cases c1 : i.val < 10
            · rw [if_pos c1, if_neg (by omega)]
            · rw [if_neg c1, if_pos (by omega)]
              by_cases c2 : i.val < 13
              · rw [dif_pos c2, dif_pos ⟨c2, by omega⟩]
              · rw [dif_neg c2, dif_neg (show ¬ (i.val < 13 ∧ 10 ≤ i.val) by omega)]
                by_cases c3 : i.val < 16
                · rw [dif_pos c3, dif_pos ⟨c3, by omega⟩]
                · rw [dif_neg c3, dif_neg (show ¬ (i.val < 16 ∧ 10 ≤ i.val) by omega), sub_zero]
          · rw [if_neg e, if_neg (fun hh => e hh.1)]
      · have hj24 : j.val < 24 := j.isLt
        refine ⟨fun a ha => ?_, fun h1 h2 => ?_, fun h1 => ?_⟩
        · rcases hA with hA | ⟨b, hb, hb2⟩ | hA | hA
          · omega
          · have : a = b := Fin.ext (by omega)
            rw [this]; exact hb2
          · have := a.isLt; omega
          · have := a.isLt; omega
        · rcases hA with hA | ⟨b, hb, hb2⟩ | hA | hA
          · omega
          · have := b.isLt; omega
          · exact hA.2.2
          · omega
        · rcases hA with hA | ⟨b, hb, hb2⟩ | hA | hA
          · omega
          · have := b.isLt; omega
          · omega
          · exact hA.2
    · exact (hent.2 (mt hfr.mpr h)).2.1 a hb ha
    · rcases hz with hz | hz
      · exact (hent.2 (mt hfr.mpr h)).2.2.1 hz.2.2 hz.1 hz.2.1
      · exact (hent.2 (mt hfr.mpr h)).2.2.2 hz.2 hz.1

/-- In exact arithmetic the summation compensation is zero after every step. -/
theorem accumulators_zero (x : CovIn ℝ) (s : CovSt ℝ) (a : Fin 3) :
    (predictCovariance x s).acc.ang a = 0 ∧ (predictCovariance x s).acc.vel a = 0 := by
  constructor
  · show (Utils.kahanSummation id _ _ _).2 = 0
    unfold Utils.kahanSummation; simp
  · show (if _ then (0 : ℝ) else _) = 0
    split
    · rfl
    · unfold Utils.kahanSummation; simp

/-! ### C82: validity of the predicted covariance -/

section psd
variable {K : Type*} [Field K] [LinearOrder K] [IsStrictOrderedRing K]

theorem psd_sandwich {n m : Type*} [Fintype n] [Fintype m] (A : n → m → K) {M : m → m → K} (hM : Spec.PSD M) :
    Spec.PSD (Spec.sandwich A M) := by
  refine ⟨fun i j => ?_, fun x => ?_⟩
  · unfold Spec.sandwich
    rw [Finset.sum_comm]
    refine Finset.sum_congr rfl fun l _ => Finset.sum_congr rfl fun k _ => ?_
    rw [hM.symm k l]; ring
  · have : Spec.form (Spec.sandwich A M) x x = Spec.form M (fun k => ∑ i, x i * A i k) (fun k => ∑ i, x i * A i k) := by
      unfold Spec.form Spec.sandwich
      have l : ∀ i j, x i * (∑ k, ∑ l, A i k * M k l * A j l) * x j = ∑ k, ∑ l, (x i * A i k) * M k l * (x j * A j l) := by
        intro i j
        rw [Finset.mul_sum, Finset.sum_mul]
        refine Finset.sum_congr rfl fun k _ => ?_
        rw [Finset.mul_sum, Finset.sum_mul]
        exact Finset.sum_congr rfl fun l _ => by ring
      have r : ∀ k l, (∑ i, x i * A i k) * M k l * (∑ j, x j * A j l) = ∑ i, ∑ j, (x i * A i k) * M k l * (x j * A j l) := by
        intro k l
        rw [Finset.sum_mul, Finset.sum_mul]
        refine Finset.sum_congr rfl fun i _ => ?_
        rw [Finset.mul_sum]
      simp only [l, r]
      calc ∑ i, ∑ j, ∑ k, ∑ l, (x i * A i k) * M k l * (x j * A j l)
          = ∑ i, ∑ k, ∑ j, ∑ l, (x i * A i k) * M k l * (x j * A j l) :=
            Finset.sum_congr rfl fun i _ => Finset.sum_comm
        _ = ∑ k, ∑ i, ∑ j, ∑ l, (x i * A i k) * M k l * (x j * A j l) := Finset.sum_comm
        _ = ∑ k, ∑ i, ∑ l, ∑ j, (x i * A i k) * M k l * (x j * A j l) :=
            Finset.sum_congr rfl fun k _ => Finset.sum_congr rfl fun i _ => Finset.sum_comm
        _ = ∑ k, ∑ l, ∑ i, ∑ j, (x i * A i k) * M k l * (x j * A j l) :=
            Finset.sum_congr rfl fun k _ => Finset.sum_comm
    rw [this]; exact hM.nonneg _

/-- states that are not predicted have identity rows, so with a later active state the prediction is the old covariance -/
theorem predicted_frozen (c : PredCfg K) (acc : Accum K) (P : Mat K) (i j : Fin N) (hi : 10 ≤ i.val) (h : i < j) :
    Spec.predicted c acc P i j = P i j := by
  have hij : i.val < j.val := h
  unfold Spec.predicted
  rw [← imuCov_sandwich, ← rowF_rowF, rowF_ge _ i hi, rowF_ge _ j (by omega), imuCov_off _ _ _ (by omega),
    if_neg (ne_of_lt h)]
  ring

open Classical in
/-- **C82.** Prediction of a valid covariance is valid: if the covariance is symmetric positive semi-definite, noise
variances and the frozen bias variances are not negative, the states that are not predicted have no correlation with
later predicted states, and the position covariance growth stop is not active, then the predicted covariance is symmetric
positive semi-definite. -/
theorem prediction_valid (c : PredCfg K) (acc : Accum K) (P : Mat K) (hP : Spec.PSD P)
    (hv : ∀ k, 0 ≤ imuVar c.x k) (hn : ∀ j, 0 ≤ Spec.noise c acc j) (hp : ∀ a, 0 ≤ c.prevVar a)
    (hz : ∀ i j, ¬ Spec.Active c i → Spec.Active c j → i < j → P i j = 0)
    (hg : P 7 7 + P 8 8 ≤ 10000) : Spec.PSD (predictRaw c acc P) := by
  have h1 : Spec.PSD (Spec.predicted c acc P) := by
    refine psd_congr (P := fun i j => (Spec.sandwich (matF c.x) P i j +
        Spec.sandwich (matG c.x) (fun k l => if k = l then imuVar c.x k else 0) i j) +
        (if i = j then Spec.noise c acc i else 0)) (fun i j => ?_)
      (psd_add (psd_add (psd_sandwich _ hP) (psd_sandwich _ (psd_diag hv))) (psd_diag hn))
    unfold Spec.predicted
    by_cases e : i = j
    · subst e; rfl
    · rw [if_neg e, if_neg e]
  let d : Fin N → K := fun i => if h : ∃ a : Fin 3, c.inhibit a = true ∧ i.val = 13 + a.val then c.prevVar h.choose else 0
  have hd : ∀ i, 0 ≤ d i := by
    intro i; show 0 ≤ dite _ _ _; split
    · exact hp _
    · exact le_rfl
  have key : ∀ i j : Fin N, i ≤ j → predictRaw c acc P i j =
      (if ¬ Spec.Active c i ∨ ¬ Spec.Active c j then 0 else Spec.predicted c acc P i j) + (if i = j then d i else 0) := by
    intro i j hij
    have hent := (predictRaw_entry c acc P hP.symm i j hij).2 (fun hh => absurd hh.1 (not_lt.mpr hg))
    by_cases hj : Spec.Active c j
    · rw [hent.1 hj]
      have hdj : i = j → d i = 0 := by
        intro e
        show dite _ _ _ = 0
        rw [dif_neg]
        rintro ⟨a, ha, hb⟩
        rw [e] at hb
        rw [hj.1 a hb] at ha; exact absurd ha (by decide)
      by_cases hi : Spec.Active c i
      · rw [if_neg (by tauto)]
        by_cases e : i = j
        · rw [if_pos e, hdj e, add_zero]
        · rw [if_neg e, add_zero]
      · have e : i ≠ j := fun e => hi (by rw [e]; exact hj)
        rw [if_pos (Or.inl hi), if_neg e, add_zero]
        have hi10 : 10 ≤ i.val := by
          by_contra hlt
          apply hi
          exact ⟨fun a ha => by omega, fun h1 _ => by omega, fun h1 => by omega⟩
        rw [predicted_frozen c acc P i j hi10 (lt_of_le_of_ne hij e)]
        exact hz i j hi hj (lt_of_le_of_ne hij e)
    · rw [if_pos (Or.inr hj), zero_add]
      by_cases h3 : ∃ a : Fin 3, c.inhibit a = true ∧ j.val = 13 + a.val
      · obtain ⟨a, ha, hb⟩ := h3
        rw [hent.2.1 a ha hb]
        by_cases e : i = j
        · rw [if_pos e, if_pos e]
          have hex : ∃ a : Fin 3, c.inhibit a = true ∧ i.val = 13 + a.val := ⟨a, ha, by rw [e]; exact hb⟩
          show c.prevVar a = dite _ _ _
          rw [dif_pos hex]
          have := hex.choose_spec.2
          congr 1; apply Fin.ext
          have h5 : i.val = j.val := congrArg Fin.val e
          omega
        · rw [if_neg e, if_neg e]
      · have hd0 : (if i = j then d i else 0) = 0 := by
          by_cases e : i = j
          · rw [if_pos e]
            show dite _ _ _ = 0
            rw [dif_neg]; rw [e]; exact h3
          · rw [if_neg e]
        rw [hd0]
        unfold Spec.Active at hj
        rw [not_and_or, not_and_or] at hj
        rcases hj with hj | hj | hj
        · exfalso; apply hj; intro a ha
          by_contra hb
          exact h3 ⟨a, by simpa using hb, ha⟩
        · push Not at hj
          exact hent.2.2.1 (by simpa using hj.2.2) hj.1 hj.2.1
        · push Not at hj
          exact hent.2.2.2 (by simpa using hj.2) hj.1
  refine psd_congr (P := fun i j => (if ¬ Spec.Active c i ∨ ¬ Spec.Active c j then 0 else Spec.predicted c acc P i j) +
      (if i = j then d i else 0)) (fun i j => ?_) (psd_add (psd_mask h1 (fun i => ¬ Spec.Active c i)) (psd_diag hd))
  rcases le_total i j with h | h
  · exact key i j h
  · rw [predictRaw_symm, key j i h]
    congr 1
    · rw [h1.symm j i]; simp only [or_comm]
    · by_cases e : i = j
      · subst e; rfl
      · rw [if_neg e, if_neg (Ne.symm e)]

/-- variances and covariances of a valid matrix -/
theorem psd_minor {P : Mat K} (hP : Spec.PSD P) (i j : Fin N) (hij : i ≠ j) (a b : K) :
    0 ≤ a ^ 2 * P i i + 2 * a * b * P i j + b ^ 2 * P j j := by
  have h := hP.nonneg (fun k => a * (Pi.single i 1 : Fin N → K) k + b * (Pi.single j 1 : Fin N → K) k)
  rw [form_add_smul P hP.symm] at h
  have f : ∀ i j : Fin N, Spec.form P (Pi.single i 1) (Pi.single j 1) = P i j := by
    intro i j
    unfold Spec.form
    rw [Finset.sum_eq_single i, Finset.sum_eq_single j]
    · simp
    · intro k _ hk; simp [hk]
    · intro hh; exact absurd (Finset.mem_univ _) hh
    · intro k _ hk; simp [hk]
    · intro hh; exact absurd (Finset.mem_univ _) hh
  rw [f, f, f] at h
  exact h

end psd

/-- level attitude at rest, no noise, nothing inhibited -/
def growCfg : PredCfg ℚ :=
  { x := { q0 := 1, q1 := 0, q2 := 0, q3 := 0, dax := 0, day := 0, daz := 0, dvx := 0, dvy := 0, dvz := 0, dax_b := 0
           day_b := 0, daz_b := 0, dvx_b := 0, dvy_b := 0, dvz_b := 0, daxVar := 0, dayVar := 0, dazVar := 0
           dvxVar := 1 / 1000000, dvyVar := 1 / 1000000, dvzVar := 1 / 1000000, dt := 1 / 100 }
    noise := fun _ => 0, inhibit := fun _ => false, prevVar := fun _ => 0, mag3D := false, wind := false }

/-- position, velocity and accelerometer bias errors of the north axis fully correlated; position uncertainty 150 m -/
def growP : Mat ℚ := fun i j =>
  let v : Fin N → ℚ := fun k => if k = 4 then 1 / 2 else if k = 7 then 150 else if k = 13 then 1 / 200 else 0
  1 * (v i * v j)

/-- **C82 (negative part).** While the position covariance growth is stopped the predicted covariance of a valid
covariance need not be valid: the old position rows are combined with the new velocity rows. -/
theorem growth_stop_breaks_validity : Spec.PSD growP ∧ ¬ Spec.PSD (predictRaw growCfg ⟨fun _ => 0, fun _ => 0⟩ growP) := by
  refine ⟨psd_outer _ (by norm_num), fun h => ?_⟩
  have h47 : predictRaw growCfg ⟨fun _ => 0, fun _ => 0⟩ growP 4 7 = 75 := by decide +kernel
  have h44 : predictRaw growCfg ⟨fun _ => 0, fun _ => 0⟩ growP 4 4 = 245026 / 1000000 := by decide +kernel
  have h77 : predictRaw growCfg ⟨fun _ => 0, fun _ => 0⟩ growP 7 7 = 22500 := by decide +kernel
  have := psd_minor h 4 7 (by decide) (-303) 1
  rw [h47, h44, h77] at this
  norm_num at this

/-- Non-vacuity of C82 (positive part): the same configuration with 50 m of position uncertainty and a correlated,
valid covariance. -/
example : Spec.PSD (predictRaw growCfg ⟨fun _ => 0, fun _ => 0⟩ (fun i j =>
    let v : Fin N → ℚ := fun k => if k = 4 then 1 / 2 else if k = 7 then 50 else if k = 13 then 1 / 200 else 0
    1 * (v i * v j))) := by
  refine prediction_valid growCfg _ _ (psd_outer _ (by norm_num)) (by decide +kernel) (by decide +kernel)
    (by decide +kernel) ?_ (by decide +kernel)
  intro i j hi hj hij
  have : 16 ≤ i.val := by
    by_contra hlt
    apply hi
    exact ⟨fun _ _ => rfl, fun h1 => absurd h1 (by omega), fun h1 => absurd h1 (by omega)⟩
  have e : ∀ k : ℕ, k < 16 → ∀ hk : k < 24, i ≠ (⟨k, hk⟩ : Fin N) := fun k hk hk2 hh => by
    have := congrArg Fin.val hh; simp at this; omega
  have e4 : i ≠ 4 := e 4 (by omega) (by omega)
  have e7 : i ≠ 7 := e 7 (by omega) (by omega)
  have e13 : i ≠ 13 := e 13 (by omega) (by omega)
  simp [e4, e7, e13]

/-- Non-vacuity of C27: a symmetric covariance, a tilted attitude and non-zero IMU data. -/
example : ∃ (x : CovIn ℝ) (s : CovSt ℝ), (∀ i j, (inhibitUpdate x.inh s.ist).P i j = (inhibitUpdate x.inh s.ist).P j i) ∧
    x.quat = ⟨4 / 5, 3 / 5, 0, 0⟩ := by
  refine ⟨{ inh := { tc := 1, gyrLim := 3, accLim := 25, maskInhibit := false, badAccVertical := false, inAir := true
                     rot2 := ![0, 0, 1], clipping := fun _ => false, dAngNorm := 0, dVelNorm := 0 }
            nz := { gyroBiasPNoise := 0, accelBiasPNoise := 0, mageNoise := 0, magbNoise := 0, windNoise := 0, windScaler := 0
                    initialWindUnc := 1, gyroNoise := 1 / 100, accelNoise := 1 / 3, mag3D := true, wind := true
                    badAccVertical := false, clipping := fun _ => false, velD := 0 }
            quat := ⟨4 / 5, 3 / 5, 0, 0⟩, dAng := ![1 / 10, 0, 0], dVel := ![0, 0, -1 / 10], dAngBias := 0, dVelBias := 0
            dtEkfAvg := 1 / 100, now := 0, badAccBias := false },
          { ist := { angFilt := 0, accFilt := 0, inhibit := fun _ => false, prevVar := 0
                     P := fun i j => (i.val : ℝ) * j.val + if i = j then 1 else 0 }
            heightRate := 0, acc := ⟨0, 0⟩, timeCheck := 0, badAccBias := false, badAccClipping := false }, ?_, rfl⟩
  intro i j
  have : ∀ (s : InhibitState ℝ) (x : InhibitIn ℝ) (a b : ℝ) (l : List (Fin 3)), (∀ i j, s.P i j = s.P j i) →
      ∀ i j, (l.foldl (inhibitStep x a b) s).P i j = (l.foldl (inhibitStep x a b) s).P j i := by
    intro s x a b l
    induction l generalizing s with
    | nil => exact fun h => h
    | cons c l ih =>
      intro h
      refine ih _ ?_
      unfold inhibitStep
      intro i j
      split <;> split <;> first | exact h i j | (simp only [h i j, and_comm])
  apply this
  intro i j
  show (i.val : ℝ) * j.val + _ = (j.val : ℝ) * i.val + _
  by_cases e : i = j
  · subst e; rfl
  · rw [if_neg e, if_neg (Ne.symm e)]; ring

end Ecl.Cov
