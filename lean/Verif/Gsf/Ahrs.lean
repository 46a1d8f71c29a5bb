import Verif.Gsf.Update

/-!
# Yaw estimator: the attitude part of a model (C54, C104)
-/

namespace Ecl.Gsf

open Utils

/-- **C54.** The tilt correction gain lies in [0, 0.2], is 0.2 exactly at 1 g and vanishes outside (0.5 g, 1.5 g), with airspeed outside (0.5 g, 2 g);
with airspeed it is still positive between 1.5 g and 2 g. -/
theorem accelGain_range (tas n : ℝ) :
    (0 ≤ accelGain tas n ∧ accelGain tas n ≤ 0.2) ∧ accelGain tas 9.80665 = 0.2 ∧
    (n ≤ 9.80665 / 2 → accelGain tas n = 0) ∧
    (¬ tas > 0.00000011920929 → 1.5 * 9.80665 ≤ n → accelGain tas n = 0) ∧
    (2 * 9.80665 ≤ n → accelGain tas n = 0) ∧
    (9.80665 / 2 < n → n < 1.5 * 9.80665 → 0 < accelGain tas n) ∧
    (tas > 0.00000011920929 → 9.80665 / 2 < n → n < 2 * 9.80665 → 0 < accelGain tas n) := by
  unfold accelGain sq
  have hmn : ∀ a : ℝ, mmin a 1 = min a 1 := fun a => mmin_eq a 1
  have key : ∀ a : ℝ, 0 ≤ a → 0 ≤ 0.2 * ((1 - mmin a 1) * (1 - mmin a 1)) ∧ 0.2 * ((1 - mmin a 1) * (1 - mmin a 1)) ≤ 0.2 := by
    intro a ha
    rw [hmn]
    have h1 : 0 ≤ min a 1 := le_min ha zero_le_one
    have h2 := min_le_right a 1
    constructor
    · nlinarith [sq_nonneg (1 - min a 1)]
    · nlinarith
  have zero : ∀ a : ℝ, 1 ≤ a → 0.2 * ((1 - mmin a 1) * (1 - mmin a 1)) = 0 := by
    intro a ha
    rw [hmn, min_eq_right ha]
    norm_num
  have pos : ∀ a : ℝ, a < 1 → 0 < 0.2 * ((1 - mmin a 1) * (1 - mmin a 1)) := by
    intro a ha
    rw [hmn, min_eq_left ha.le]
    have : 0 < 1 - a := by linarith
    positivity
  have hab := abs_nonneg ((n - 9.80665) / 9.80665)
  have hle : 9.80665 / 2 ≥ n → (1 : ℝ) / 2 ≤ |(n - 9.80665) / 9.80665| := by
    intro h
    rw [abs_div, abs_of_pos (by norm_num : (0:ℝ) < 9.80665), le_div_iff₀ (by norm_num), abs_of_nonpos (by linarith)]
    linarith
  refine ⟨?_, ?_, ?_, ?_, ?_, ?_, ?_⟩
  · apply key
    split <;> positivity
  · simp only [sub_self, zero_div, abs_zero, mul_zero, hmn]
    norm_num
  · intro h
    apply zero
    rw [if_neg (by rintro ⟨-, h2⟩; linarith)]
    linarith [hle h]
  · intro ht h
    apply zero
    rw [if_neg (fun h' => ht h'.1), abs_div, abs_of_pos (by norm_num : (0:ℝ) < 9.80665), abs_of_nonneg (by linarith),
      mul_div_assoc', le_div_iff₀ (by norm_num)]
    linarith
  · intro h
    apply zero
    have : (1 : ℝ) ≤ |(n - 9.80665) / 9.80665| := by
      rw [abs_div, abs_of_pos (by norm_num : (0:ℝ) < 9.80665), abs_of_nonneg (by linarith), le_div_iff₀ (by norm_num)]
      linarith
    split <;> linarith
  · intro h1 h2
    apply pos
    have : |(n - 9.80665) / 9.80665| < 1 / 2 := by
      rw [abs_div, abs_of_pos (by norm_num : (0:ℝ) < 9.80665), div_lt_iff₀ (by norm_num), abs_lt]
      constructor <;> linarith
    split <;> linarith
  · intro ht h1 h2
    apply pos
    rw [abs_div, abs_of_pos (by norm_num : (0:ℝ) < 9.80665), mul_div_assoc', div_lt_iff₀ (by norm_num)]
    by_cases h : n > 9.80665
    · rw [if_pos ⟨ht, h⟩, abs_of_nonneg (by linarith)]
      linarith
    · rw [if_neg (fun h' => h h'.2), abs_of_nonpos (by linarith [not_lt.mp h])]
      linarith

theorem constrain_mem (v lo hi : ℝ) (h : lo ≤ hi) : lo ≤ constrain v lo hi ∧ constrain v lo hi ≤ hi := by
  unfold constrain
  split
  · exact ⟨le_rfl, h⟩
  · split
    · exact ⟨h, le_rfl⟩
    · rename_i h1 h2
      exact ⟨not_lt.mp h1, not_lt.mp h2⟩

/-- the bias after an attitude prediction: limited to ±0.05 rad/s if the body rate is below 0.175 rad/s, unchanged otherwise -/
theorem newBias_range (x : In) (acc : V3 ℝ) (m : Mdl) :
    (norm3 (angRate x m) < 0.175 → ∀ i, |newBias x acc m i| ≤ 0.05) ∧ (¬ norm3 (angRate x m) < 0.175 → newBias x acc m = m.bias) ∧
    ((∀ i, |m.bias i| ≤ 0.05) → ∀ i, |newBias x acc m i| ≤ 0.05) := by
  have h : norm3 (angRate x m) < 0.175 → ∀ i, |newBias x acc m i| ≤ 0.05 := by
    intro h i
    unfold newBias
    rw [if_pos h, abs_le]
    exact constrain_mem _ _ _ (by norm_num)
  have h' : ¬ norm3 (angRate x m) < 0.175 → newBias x acc m = m.bias := by
    intro hn
    unfold newBias
    rw [if_neg hn]
  refine ⟨h, h', fun hb => ?_⟩
  by_cases hc : norm3 (angRate x m) < 0.175
  · exact h hc
  · rw [h' hc]; exact hb

/-- the bias moves against the tilt correction, 0.04 per second, when it is not limited -/
theorem newBias_step (x : In) (acc : V3 ℝ) (m : Mdl) (h : norm3 (angRate x m) < 0.175) (i : Fin 3)
    (hi : |m.bias i - tiltCorr x acc m i * (0.04 * x.dAngDt)| ≤ 0.05) :
    newBias x acc m i = m.bias i - tiltCorr x acc m i * (0.04 * x.dAngDt) := by
  unfold newBias
  rw [if_pos h]
  rw [abs_le] at hi
  show constrain _ _ _ = _
  unfold constrain
  rw [if_neg (not_lt.mpr hi.1), if_neg (not_lt.mpr hi.2)]

/-! ## C104: tilt alignment and attitude propagation -/

theorem nsq_nonneg (v : V3 ℝ) : 0 ≤ nsq v := by
  unfold nsq; nlinarith [mul_self_nonneg (v 0), mul_self_nonneg (v 1), mul_self_nonneg (v 2)]

/-- **C104.** Tilt alignment: for every delta velocity that is not zero and not parallel to the body X axis the resulting attitude is a proper rotation that
maps the delta velocity to straight up, and the body X axis into the north-down plane, northwards (yaw zero). -/
theorem tiltMat_spec (v : V3 ℝ) (hv : v 1 ≠ 0 ∨ v 2 ≠ 0) :
    IsRotation (tiltMat v) ∧
    (∀ i, ∑ j, tiltMat v i j * v j = (![0, 0, -norm3 v] : V3 ℝ) i) ∧
    tiltMat v 1 0 = 0 ∧ 0 < tiltMat v 0 0 := by
  have hyz : 0 < v 1 * v 1 + v 2 * v 2 := by
    rcases hv with h | h
    · have := mul_self_pos.mpr h; nlinarith [mul_self_nonneg (v 2)]
    · have := mul_self_pos.mpr h; nlinarith [mul_self_nonneg (v 1)]
  have hn : 0 < nsq v := by unfold nsq; nlinarith [mul_self_nonneg (v 0)]
  have hN : 0 < norm3 v := Real.sqrt_pos.mpr hn
  have hN2 : norm3 v * norm3 v = nsq v := Real.mul_self_sqrt hn.le
  -- the down vector
  set d : V3 ℝ := fun i => -(v i / norm3 v) with hd
  have hd1 : d 0 * d 0 + d 1 * d 1 + d 2 * d 2 = 1 := by
    simp only [hd]
    field_simp
    unfold nsq at hN2
    nlinarith
  have hdyz : 0 < d 1 * d 1 + d 2 * d 2 := by
    have : d 1 * d 1 + d 2 * d 2 = (v 1 * v 1 + v 2 * v 2) / (norm3 v * norm3 v) := by
      simp only [hd]; field_simp
    rw [this]; positivity
  set n0 : V3 ℝ := ![1 - d 0 * d 0, 0 - d 1 * d 0, 0 - d 2 * d 0] with hn0
  have e0 : n0 0 = 1 - d 0 * d 0 := rfl
  have e1 : n0 1 = 0 - d 1 * d 0 := rfl
  have e2 : n0 2 = 0 - d 2 * d 0 := rfl
  have hq : nsq n0 = 1 - d 0 * d 0 := by
    unfold nsq
    rw [e0, e1, e2]
    linear_combination (d 0 * d 0) * hd1
  have hqp : 0 < nsq n0 := by rw [hq]; linarith
  have hL : 0 < norm3 n0 := Real.sqrt_pos.mpr hqp
  have hL2 : norm3 n0 * norm3 n0 = 1 - d 0 * d 0 := by rw [← hq]; exact Real.mul_self_sqrt hqp.le
  set u := 1 / norm3 n0 with hu
  have hup : 0 < u := by positivity
  have hu2 : u * u * (1 - d 0 * d 0) = 1 := by rw [← hL2, hu]; field_simp
  have hT : tiltMat v = ![fun i => n0 i * u, cross d (fun i => n0 i * u), d] := by
    show ![fun i => n0 i / norm3 n0, cross d (fun i => n0 i / norm3 n0), d] = _
    have : (fun i => n0 i / norm3 n0) = fun i => n0 i * u := by funext i; rw [hu]; ring
    rw [this]
  have hc0 : cross d (fun i => n0 i * u) 0 = d 1 * (n0 2 * u) - d 2 * (n0 1 * u) := rfl
  have hc1 : cross d (fun i => n0 i * u) 1 = d 2 * (n0 0 * u) - d 0 * (n0 2 * u) := rfl
  have hc2 : cross d (fun i => n0 i * u) 2 = d 0 * (n0 1 * u) - d 1 * (n0 0 * u) := rfl
  have hc1' : cross d (fun i => n0 i * u) 1 = d 2 * u := by rw [hc1, e0, e2]; ring
  have hc2' : cross d (fun i => n0 i * u) 2 = -(d 1 * u) := by rw [hc2, e0, e1]; ring
  have hc0' : cross d (fun i => n0 i * u) 0 = 0 := by rw [hc0, e1, e2]; ring
  have hvd : ∀ j, v j = -(d j * norm3 v) := by intro j; simp only [hd]; field_simp
  have r0 : ∀ j, tiltMat v 0 j = n0 j * u := fun j => by rw [hT]; rfl
  have r1 : ∀ j, tiltMat v 1 j = cross d (fun i => n0 i * u) j := fun j => by rw [hT]; rfl
  have r2 : ∀ j, tiltMat v 2 j = d j := fun j => by rw [hT]; rfl
  clear_value n0 u d
  refine ⟨?_, ?_, ?_, ?_⟩
  · refine isRotation_of_orth ?_ ?_
    · ext i j
      rw [Matrix.mul_apply, Fin.sum_univ_three]
      simp only [Matrix.transpose_apply]
      fin_cases i <;> fin_cases j <;>
        simp only [Fin.zero_eta, Fin.mk_one, Fin.reduceFinMk, r0, r1, r2, hc0', hc1', hc2', e0, e1, e2, Matrix.one_apply_eq, ne_eq, Fin.reduceEq,
          not_false_eq_true, Matrix.one_apply_ne]
      · linear_combination hu2 + (u * u * d 0 * d 0) * hd1
      · ring
      · linear_combination (-(u * d 0)) * hd1
      · ring
      · linear_combination hu2 + u * u * hd1
      · ring
      · linear_combination (-(u * d 0)) * hd1
      · ring
      · linear_combination hd1
    · rw [Matrix.det_fin_three]
      simp only [r0, r1, r2, hc0', hc1', hc2', e0, e1, e2]
      linear_combination hu2 + (u * u) * hd1
  · intro i
    rw [Fin.sum_univ_three, hvd 0, hvd 1, hvd 2]
    fin_cases i <;> simp only [Fin.zero_eta, Fin.mk_one, Fin.reduceFinMk, r0, r1, r2, hc0', hc1', hc2', e0, e1, e2, Matrix.cons_val_zero, Matrix.cons_val_one, Matrix.cons_val]
    · linear_combination (u * d 0 * norm3 v) * hd1
    · ring
    · linear_combination (-norm3 v) * hd1
  · rw [r1, hc0']
  · rw [r0, e0]
    have : 0 < 1 - d 0 * d 0 := by linarith
    positivity

/-- **C104.** A delta velocity along the body X axis cannot be normalised: the north vector before normalisation is zero, so that in the code its
normalisation divides zero by zero. -/
theorem tilt_degenerate (a : ℝ) (ha : a ≠ 0) :
    let d : ℝ := -(a / norm3 ![a, 0, 0])
    nsq ![1 - d * d, 0 - 0 * d, 0 - 0 * d] = 0 := by
  have hn : norm3 ![a, 0, 0] * norm3 ![a, 0, 0] = a * a := by
    unfold norm3
    rw [Real.mul_self_sqrt (nsq_nonneg _)]
    unfold nsq
    simp
  have h0 : norm3 ![a, 0, 0] ≠ 0 := by
    intro h; rw [h] at hn; exact ha (mul_self_eq_zero.mp (by linarith))
  intro d
  have : d * d = 1 := by
    show -(a / _) * -(a / _) = 1
    field_simp
    rw [pow_two, pow_two, hn]
  unfold nsq
  simp [this]

/-- **C104.** One attitude step multiplies the attitude with I + [g]× and then shortens or stretches each row. -/
theorem rotRow_spec (r g : V3 ℝ) (i : Fin 3) : rotRow r g i = r i + cross r g i := by
  unfold rotRow cross
  fin_cases i <;> rfl

/-- Lagrange: the first-order step lengthens a row by exactly the part of the rotation normal to it. -/
theorem rotRow_nsq (r g : V3 ℝ) : nsq (rotRow r g) = nsq r + nsq (cross r g) := by
  unfold nsq rotRow cross
  simp only [Matrix.cons_val_zero, Matrix.cons_val_one, Matrix.cons_val]
  ring

theorem cross_nsq_le (r g : V3 ℝ) : nsq (cross r g) ≤ nsq r * nsq g := by
  have : nsq r * nsq g - nsq (cross r g) = (r 0 * g 0 + r 1 * g 1 + r 2 * g 2) ^ 2 := by
    unfold nsq cross
    simp only [Matrix.cons_val_zero, Matrix.cons_val_one, Matrix.cons_val]
    ring
  nlinarith [sq_nonneg (r 0 * g 0 + r 1 * g 1 + r 2 * g 2)]

/-- the approximate normalisation: squared length n becomes 1 − (1 − n)²(4 − n)/4 -/
theorem renorm_nsq (r : V3 ℝ) (h : nsq r > 0.00000011920929) : nsq (renorm r) = 1 - (1 - nsq r) ^ 2 * (4 - nsq r) / 4 := by
  have e : nsq (renorm r) = nsq r * (1.5 - 0.5 * nsq r) ^ 2 := by
    unfold renorm
    rw [if_pos h]
    unfold nsq
    ring
  rw [e]
  ring

/-- **C104.** Attitude propagation keeps the rows of unit length up to the fourth power of the rotation angle: from a row of unit length, a step by
an angle of at most 1 rad yields a row of squared length in [1 − |g|⁴, 1].  Longer than one it never becomes, whatever it was before (up to 2, squared). -/
theorem predict_row_length (R : M3 ℝ) (g : V3 ℝ) (i : Fin 3) (hg : nsq g ≤ 1) :
    (nsq (R i) = 1 → 1 - nsq g ^ 2 ≤ nsq (predictRotMat R g i) ∧ nsq (predictRotMat R g i) ≤ 1) ∧
    (nsq (R i) ≤ 2 → nsq (predictRotMat R g i) ≤ 1) := by
  have h1 := rotRow_nsq (R i) g
  have h2 := cross_nsq_le (R i) g
  have h3 := nsq_nonneg (cross (R i) g)
  have h4 := nsq_nonneg g
  have h5 := nsq_nonneg (R i)
  show (_ → _ ≤ nsq (renorm (rotRow (R i) g)) ∧ nsq (renorm (rotRow (R i) g)) ≤ 1) ∧ (_ → nsq (renorm (rotRow (R i) g)) ≤ 1)
  constructor
  · intro hr
    have hpos : nsq (rotRow (R i) g) > 0.00000011920929 := by rw [h1, hr]; linarith
    rw [renorm_nsq _ hpos, h1, hr]
    rw [hr, one_mul] at h2
    constructor
    · have e : (1 - (1 + nsq (cross (R i) g))) ^ 2 * (4 - (1 + nsq (cross (R i) g))) / 4 = nsq (cross (R i) g) ^ 2 * (3 - nsq (cross (R i) g)) / 4 := by ring
      rw [e]
      have : nsq (cross (R i) g) ^ 2 ≤ nsq g ^ 2 := by nlinarith
      nlinarith [sq_nonneg (nsq (cross (R i) g)), mul_nonneg (sq_nonneg (nsq (cross (R i) g))) h3]
    · have : 0 ≤ (1 - (1 + nsq (cross (R i) g))) ^ 2 * (4 - (1 + nsq (cross (R i) g))) := mul_nonneg (sq_nonneg _) (by linarith)
      linarith
  · intro hr
    by_cases hpos : nsq (rotRow (R i) g) > 0.00000011920929
    · rw [renorm_nsq _ hpos]
      have hn4 : nsq (rotRow (R i) g) ≤ 4 := by rw [h1]; nlinarith
      have : 0 ≤ (1 - nsq (rotRow (R i) g)) ^ 2 * (4 - nsq (rotRow (R i) g)) := mul_nonneg (sq_nonneg _) (by linarith)
      linarith
    · have : renorm (rotRow (R i) g) = rotRow (R i) g := by unfold renorm; rw [if_neg hpos]
      rw [this]
      have := not_lt.mp hpos
      linarith

/-- **C104.** Without a rotation (delta angle and correction cancel the bias) the attitude of unit rows is kept exactly. -/
theorem predict_still (R : M3 ℝ) (h : ∀ i, nsq (R i) = 1) : predictRotMat R (fun _ => 0) = R := by
  funext i
  have e : rotRow (R i) (fun _ => 0) = R i := by
    funext j
    rw [rotRow_spec]
    unfold cross
    fin_cases j <;> simp
  show renorm (rotRow (R i) fun _ => 0) = R i
  rw [e]
  unfold renorm
  rw [if_pos (by rw [h i]; norm_num), h i]
  funext j
  norm_num

/-- **C104.** The tilt correction turns the estimated down direction towards the opposite of the specific force: for every positive step it does not decrease
the agreement, and strictly increases it unless the two are parallel. -/
theorem correction_direction (r a : V3 ℝ) (k : ℝ) (hk : 0 < k) :
    let r' := rotRow r fun i => cross r a i * k
    r 0 * -a 0 + r 1 * -a 1 + r 2 * -a 2 ≤ r' 0 * -a 0 + r' 1 * -a 1 + r' 2 * -a 2 ∧
    (cross r a ≠ (fun _ => 0) → r 0 * -a 0 + r 1 * -a 1 + r 2 * -a 2 < r' 0 * -a 0 + r' 1 * -a 1 + r' 2 * -a 2) := by
  intro r'
  have e : r' 0 * -a 0 + r' 1 * -a 1 + r' 2 * -a 2 = r 0 * -a 0 + r 1 * -a 1 + r 2 * -a 2 + k * nsq (cross r a) := by
    show rotRow r _ 0 * -a 0 + rotRow r _ 1 * -a 1 + rotRow r _ 2 * -a 2 = _
    unfold rotRow nsq cross
    simp only [Matrix.cons_val_zero, Matrix.cons_val_one, Matrix.cons_val]
    ring
  rw [e]
  have h0 := nsq_nonneg (cross r a)
  refine ⟨by nlinarith, fun hne => ?_⟩
  have : 0 < nsq (cross r a) := by
    rcases h0.lt_or_eq with h | h
    · exact h
    · exfalso
      apply hne
      unfold nsq at h
      have a0 := mul_self_nonneg (cross r a 0)
      have a1 := mul_self_nonneg (cross r a 1)
      have a2 := mul_self_nonneg (cross r a 2)
      funext i
      fin_cases i
      · exact mul_self_eq_zero.mp (show cross r a 0 * cross r a 0 = 0 by linarith)
      · exact mul_self_eq_zero.mp (show cross r a 1 * cross r a 1 = 0 by linarith)
      · exact mul_self_eq_zero.mp (show cross r a 2 * cross r a 2 = 0 by linarith)
  have := mul_pos hk this
  linarith

/-- **C104.** The correction rate: gain/|a| times the cross product of the estimated down axis and the specific force (less the centripetal acceleration V × ω
with airspeed); none when the gain is zero. -/
theorem tiltCorr_spec (x : In) (acc : V3 ℝ) (m : Mdl) (i : Fin 3) :
    tiltCorr x acc m i =
      if accelGain x.tas (norm3 acc) = 0 then 0
      else accelGain x.tas (norm3 acc) / norm3 acc *
        cross (m.R 2) (fun j => acc j - if x.tas > 0.00000011920929 then cross (fun k => x.dAng k / max x.dAngDt 0.001 - m.bias k) ![x.tas, 0, 0] j else 0) i := by
  have hg := (accelGain_range x.tas (norm3 acc)).1.1
  unfold tiltCorr
  by_cases h : accelGain x.tas (norm3 acc) = 0
  · simp only [h, lt_irrefl, if_false, if_true]
  · have hp : accelGain x.tas (norm3 acc) > 0 := lt_of_le_of_ne hg (Ne.symm h)
    simp only [hp, if_true, h, if_false]
    by_cases ht : x.tas > 0.00000011920929
    · simp only [ht, if_true]
      have e : (![acc 0 - 0, acc 1 - x.tas * angRate x m 2, acc 2 - -x.tas * angRate x m 1] : V3 ℝ) =
          fun j => acc j - cross (fun k => x.dAng k / max x.dAngDt 0.001 - m.bias k) ![x.tas, 0, 0] j := by
        funext j
        unfold cross angRate
        fin_cases j <;> simp <;> ring
      rw [e]
      ring
    · simp only [ht, if_false, sub_zero]
      ring

/-- non-vacuity: level flight aligns to the identity attitude -/
example : tiltMat ![0, 0, -9.8] = (1 : M3 ℝ) := by
  have hn : norm3 ![0, 0, -9.8] = 9.8 := by
    unfold norm3 nsq
    simp
    rw [Real.sqrt_mul_self (by norm_num)]
  have hn1 : norm3 ![1 - 0 * 0, 0 - 0 * 0, 0 - 1 * 0] = 1 := by
    unfold norm3 nsq
    simp
  have hd : (fun i => -((![0, 0, -9.8] : V3 ℝ) i / norm3 ![0, 0, -9.8])) = ![0, 0, 1] := by
    rw [hn]
    funext i
    fin_cases i <;> norm_num
  unfold tiltMat
  simp only [hd]
  ext i j
  simp only [Matrix.cons_val_zero, Matrix.cons_val_one, Matrix.cons_val]
  fin_cases i <;> fin_cases j <;> simp [cross, norm3, nsq]

end Ecl.Gsf
