import Verif.Fp.QuatUnit

/-!
# Averages and weights in single precision — EKF/ekf.cpp:295-300, EKF/EKFGSF_yaw.cpp:79-100, 420
-/

namespace Ecl.Fp

noncomputable section

variable {rnd : ℝ → ℝ}

/-! ## Average update interval -/

/-- `math::constrain` on finite numbers, mathlib/mathlib.h:74-77 -/
def clampR (v lo hi : ℝ) : ℝ := if v < lo then lo else if hi < v then hi else v

/-- EKF/ekf.cpp:295-300: one update of `_dt_ekf_avg`; `FILTER_UPDATE_PERIOD_S` is `10 * 1e-3f` (EKF/estimator_interface.h:246), `dtv`, `dta` the intervals of the sample -/
def dtStep (rnd : ℝ → ℝ) (dt : ℝ) (x : ℝ × ℝ) : ℝ :=
  let period := rnd (10 * rnd (1 / 1000))
  let input := rnd (rnd (1 / 2) * rnd (x.1 + x.2))
  let input := clampR input (rnd (rnd (1 / 2) * period)) (rnd (rnd 2 * period))
  rnd (rnd (rnd (99 / 100) * dt) + rnd (rnd (1 / 100) * input))

/-- **C144.** The average update interval stays between 4.9 and 20.1 ms over any history of samples, computed in single precision: it never vanishes and the roundings do not
accumulate. -/
theorem dt_average_float (R : Single rnd) (dt : ℝ) (h1 : 49 / 10000 ≤ dt) (h2 : dt ≤ 201 / 10000) (l : List (ℝ × ℝ)) :
    49 / 10000 ≤ l.foldl (dtStep rnd) dt ∧ l.foldl (dtStep rnd) dt ≤ 201 / 10000 := by
  have g : ∀ s : ℝ, 0 ≤ s → s ≤ 16 → s - s / 16777216 - 1 / 1152921504606846976 ≤ rnd s ∧ rnd s ≤ s + s / 16777216 + 1 / 1152921504606846976 := by
    intro s h0 hs
    have := abs_le.mp (err16 R s (by rw [abs_of_nonneg h0]; exact hs))
    rw [abs_of_nonneg h0] at this
    constructor <;> linarith [this.1, this.2]
  induction l generalizing dt with
  | nil => exact ⟨h1, h2⟩
  | cons x l ih =>
    rw [List.foldl_cons]
    have a1 := g (1 / 1000) (by norm_num) (by norm_num)
    have key : 49 / 10000 ≤ dtStep rnd dt x ∧ dtStep rnd dt x ≤ 201 / 10000 := by
      unfold dtStep
      dsimp only
      generalize rnd (rnd (1 / 2) * rnd (x.1 + x.2)) = inp
      generalize rnd (1 / 1000) = m at *
      have a2 := g (10 * m) (by linarith) (by linarith)
      generalize rnd (10 * m) = p at *
      have a3 := g (1 / 2) (by norm_num) (by norm_num)
      have a4 := g 2 (by norm_num) (by norm_num)
      have a5 := g (99 / 100) (by norm_num) (by norm_num)
      have a6 := g (1 / 100) (by norm_num) (by norm_num)
      generalize rnd (1 / 2) = ch at *
      generalize rnd 2 = c2 at *
      generalize rnd (99 / 100) = c99 at *
      generalize rnd (1 / 100) = c01 at *
      have p1 : 999 / 100000 ≤ p := by linarith
      have p2 : p ≤ 1001 / 100000 := by linarith
      have q1 : 499 / 100000 ≤ ch * p := by nlinarith
      have q2 : ch * p ≤ 501 / 100000 := by nlinarith
      have r1 : 1998 / 100000 - 1 / 100000 ≤ c2 * p := by nlinarith
      have r2 : c2 * p ≤ 2003 / 100000 := by nlinarith
      have lo := g (ch * p) (by linarith) (by linarith)
      have hi := g (c2 * p) (by linarith) (by linarith)
      have hin : 498 / 100000 ≤ clampR inp (rnd (ch * p)) (rnd (c2 * p)) ∧ clampR inp (rnd (ch * p)) (rnd (c2 * p)) ≤ 2004 / 100000 := by
        unfold clampR
        split
        · constructor <;> linarith
        · next h => 
          split
          · constructor <;> linarith
          · next h' => 
            push Not at h h'
            constructor <;> linarith
      generalize clampR inp (rnd (ch * p)) (rnd (c2 * p)) = y at *
      have s1 : c99 * dt ≤ 99 / 100 * dt + 1 / 100000000 := by nlinarith
      have s2 : 99 / 100 * dt - 1 / 100000000 ≤ c99 * dt := by nlinarith
      have t1 : c01 * y ≤ 1 / 100 * y + 1 / 100000000 := by nlinarith
      have t2 : 1 / 100 * y - 1 / 100000000 ≤ c01 * y := by nlinarith
      have u1 := g (c99 * dt) (by linarith) (by linarith)
      have u2 := g (c01 * y) (by linarith) (by linarith)
      have u3 := g (rnd (c99 * dt) + rnd (c01 * y)) (by linarith) (by linarith)
      constructor <;> linarith
    exact ih _ key.1 key.2

/-- the start value (EKF/ekf.cpp:85) is in the range -/
theorem dt_start (R : Single rnd) : 49 / 10000 ≤ rnd (10 * rnd (1 / 1000)) ∧ rnd (10 * rnd (1 / 1000)) ≤ 201 / 10000 := by
  have g : ∀ s : ℝ, 0 ≤ s → s ≤ 16 → s - s / 16777216 - 1 / 1152921504606846976 ≤ rnd s ∧ rnd s ≤ s + s / 16777216 + 1 / 1152921504606846976 := by
    intro s h0 hs
    have := abs_le.mp (err16 R s (by rw [abs_of_nonneg h0]; exact hs))
    rw [abs_of_nonneg h0] at this
    constructor <;> linarith [this.1, this.2]
  have a1 := g (1 / 1000) (by norm_num) (by norm_num)
  have a2 := g (10 * rnd (1 / 1000)) (by linarith) (by linarith)
  constructor <;> linarith

/-! ## Weights of the yaw estimator -/

/-- EKF/EKFGSF_yaw.cpp:85-89: weight of one model before normalisation, from the density and the old weight -/
def rawWeight (rnd : ℝ → ℝ) (d w : ℝ) : ℝ := if rnd (d * w) < rnd (1 / 100000) then rnd (1 / 100000) else rnd (d * w)

/-- EKF/EKFGSF_yaw.cpp:80, 90: accumulated weight -/
def totalWeight (rnd : ℝ → ℝ) (r : Fin 5 → ℝ) : ℝ := rnd (rnd (rnd (rnd (rnd (0 + r 0) + r 1) + r 2) + r 3) + r 4)

open Classical in
/-- EKF/EKFGSF_yaw.cpp:79-100, 420: one update of the weights with the densities `d`; `recip`: the division multiplies by the reciprocal -/
def weightStep (rnd : ℝ → ℝ) (recip : Bool) (w d : Fin 5 → ℝ) : Fin 5 → ℝ := fun i =>
  let r := fun i => rawWeight rnd (d i) (w i)
  if ∃ j, ¬ rnd (d j * w j) < rnd (1 / 100000) then
    if recip then rnd (r i * rnd (1 / totalWeight rnd r)) else rnd (r i / totalWeight rnd r)
  else rnd (1 / 5)

/-- weights in range and summing to one up to rounding -/
def GoodWeights (w : Fin 5 → ℝ) : Prop := (∀ i, 0 ≤ w i ∧ w i ≤ 1000001 / 1000000) ∧ |w 0 + w 1 + w 2 + w 3 + w 4 - 1| ≤ 1 / 1000000

theorem nonneg_err (R : Single rnd) (s : ℝ) (h0 : 0 ≤ s) (hs : s ≤ 2 ^ 20) :
    s - s / 16777216 - 1 / 1152921504606846976 ≤ rnd s ∧ rnd s ≤ s + s / 16777216 + 1 / 1152921504606846976 := by
  have h := R.err s (by rw [abs_of_nonneg h0]; exact hs)
  rw [abs_of_nonneg h0] at h
  have e := eta_small.2
  have n2 : (2 : ℝ) ^ 24 = 16777216 := by norm_num
  rw [n2] at h
  have := abs_le.mp h
  constructor <;> linarith [this.1, this.2]

/-- relative error of numbers that are not tiny -/
theorem rel_err (R : Single rnd) (s : ℝ) (h0 : 1 / 1000000000 ≤ s) (hs : s ≤ 2 ^ 20) :
    s * (1 - 105 / 100 / 16777216) ≤ rnd s ∧ rnd s ≤ s * (1 + 105 / 100 / 16777216) := by
  have := nonneg_err R s (by linarith) hs
  constructor <;> linarith [this.1, this.2]

/-- **C144.** Over any history of updates with densities between 0 and 1000 the weights of the five models are not negative and sum to one up to a millionth. -/
theorem weights_float (R : Single rnd) (recip : Bool) (w : Fin 5 → ℝ) (hw : GoodWeights w) (l : List (Fin 5 → ℝ)) (hl : ∀ d ∈ l, ∀ i, 0 ≤ d i ∧ d i ≤ 1000) :
    GoodWeights (l.foldl (weightStep rnd recip) w) := by
  induction l generalizing w with
  | nil => exact hw
  | cons d l ih =>
    rw [List.foldl_cons]
    refine ih _ ?_ (fun d' h => hl d' (List.mem_cons_of_mem _ h))
    have hd := hl d (List.mem_cons_self ..)
    have hn : (1000 : ℝ) ≤ 2 ^ 20 ∧ (10000 : ℝ) ≤ 2 ^ 20 ∧ (100000 : ℝ) ≤ 2 ^ 20 := by norm_num
    by_cases hex : ∃ j, ¬ rnd (d j * w j) < rnd (1 / 100000)
    · have e : ∀ i, weightStep rnd recip w d i = if recip then rnd (rawWeight rnd (d i) (w i) * rnd (1 / totalWeight rnd (fun i => rawWeight rnd (d i) (w i))))
          else rnd (rawWeight rnd (d i) (w i) / totalWeight rnd (fun i => rawWeight rnd (d i) (w i))) := fun i => if_pos hex
      have hr : ∀ i, 9 / 1000000 ≤ rawWeight rnd (d i) (w i) ∧ rawWeight rnd (d i) (w i) ≤ 1002 := by
        intro i
        have c := nonneg_err R (1 / 100000) (by norm_num) (by linarith)
        have hp : 0 ≤ d i * w i := mul_nonneg (hd i).1 (hw.1 i).1
        have hp2 : d i * w i ≤ 1001 := by nlinarith [hd i, hw.1 i]
        have c2 := nonneg_err R (d i * w i) hp (by linarith)
        unfold rawWeight
        split
        · constructor <;> linarith
        · next h => 
          push Not at h
          constructor <;> linarith
      generalize hR : (fun i => rawWeight rnd (d i) (w i)) = r at *
      have hr' : ∀ i, 9 / 1000000 ≤ r i ∧ r i ≤ 1002 := fun i => by rw [← hR]; exact hr i
      have e' : ∀ i, weightStep rnd recip w d i = if recip then rnd (r i * rnd (1 / totalWeight rnd r)) else rnd (r i / totalWeight rnd r) := fun i => by
        rw [e i, ← hR]
      -- total
      have ht : (r 0 + r 1 + r 2 + r 3 + r 4) * (1 - 53 / 10 / 16777216) ≤ totalWeight rnd r ∧
          totalWeight rnd r ≤ (r 0 + r 1 + r 2 + r 3 + r 4) * (1 + 53 / 10 / 16777216) := by
        have r0 := hr' 0; have r1 := hr' 1; have r2 := hr' 2; have r3 := hr' 3; have r4 := hr' 4
        unfold totalWeight
        generalize r 0 = x0 at *
        generalize r 1 = x1 at *
        generalize r 2 = x2 at *
        generalize r 3 = x3 at *
        generalize r 4 = x4 at *
        have s0 := rel_err R (0 + x0) (by linarith) (by linarith)
        generalize rnd (0 + x0) = y0 at *
        have s1 := rel_err R (y0 + x1) (by linarith) (by linarith)
        generalize rnd (y0 + x1) = y1 at *
        have s2 := rel_err R (y1 + x2) (by linarith) (by linarith)
        generalize rnd (y1 + x2) = y2 at *
        have s3 := rel_err R (y2 + x3) (by linarith) (by linarith)
        generalize rnd (y2 + x3) = y3 at *
        have s4 := rel_err R (y3 + x4) (by linarith) (by linarith)
        constructor <;> linarith
      have hS : 45 / 1000000 ≤ r 0 + r 1 + r 2 + r 3 + r 4 ∧ r 0 + r 1 + r 2 + r 3 + r 4 ≤ 5010 := by
        constructor <;> linarith [(hr' 0).1, (hr' 1).1, (hr' 2).1, (hr' 3).1, (hr' 4).1, (hr' 0).2, (hr' 1).2, (hr' 2).2, (hr' 3).2, (hr' 4).2]
      have hle : ∀ i, r i ≤ r 0 + r 1 + r 2 + r 3 + r 4 := by
        intro i
        fin_cases i <;> simp only [Fin.zero_eta, Fin.mk_one, Fin.reduceFinMk] <;> linarith [(hr' 0).1, (hr' 1).1, (hr' 2).1, (hr' 3).1, (hr' 4).1]
      generalize hSS : r 0 + r 1 + r 2 + r 3 + r 4 = S at *
      generalize totalWeight rnd r = T at *
      have hT : 44 / 1000000 ≤ T ∧ T ≤ 5020 := by constructor <;> linarith [hS.1, hS.2]
      have hT0 : 0 < T := by linarith [hT.1]
      have hST : 1 - 54 / 10 / 16777216 ≤ S / T ∧ S / T ≤ 1 + 54 / 10 / 16777216 := by
        constructor
        · rw [le_div_iff₀ hT0]; linarith [ht.2]
        · rw [div_le_iff₀ hT0]; linarith [ht.1]
      have hc : ∀ i, r i / T * (1 - 21 / 10 / 16777216) ≤ weightStep rnd recip w d i ∧ weightStep rnd recip w d i ≤ r i / T * (1 + 21 / 10 / 16777216) := by
        intro i
        rw [e' i]
        have q0 : 1 / 1000000000 ≤ r i / T := by rw [le_div_iff₀ hT0]; linarith [(hr' i).1, hT.2]
        have q1 : r i / T ≤ 2 := by
          rw [div_le_iff₀ hT0]; linarith [hle i, ht.1]
        cases recip with
        | false =>
          simp only [Bool.false_eq_true, if_false]
          have := rel_err R (r i / T) q0 (by linarith)
          constructor <;> linarith [this.1, this.2]
        | true =>
          simp only [if_true]
          have i1 : 1 / 1000000000 ≤ 1 / T := one_div_le_one_div_of_le hT0 (by linarith [hT.2])
          have i2 : 1 / T ≤ 100000 := by rw [div_le_iff₀ hT0]; linarith [hT.1]
          have k := rel_err R (1 / T) i1 (by linarith)
          have ee : r i / T = r i * (1 / T) := by ring
          have k1 : r i / T * (1 - 105 / 100 / 16777216) ≤ r i * rnd (1 / T) := by
            rw [ee]; have := mul_le_mul_of_nonneg_left k.1 (by linarith [(hr' i).1] : 0 ≤ r i); linarith
          have k2 : r i * rnd (1 / T) ≤ r i / T * (1 + 105 / 100 / 16777216) := by
            rw [ee]; have := mul_le_mul_of_nonneg_left k.2 (by linarith [(hr' i).1] : 0 ≤ r i); linarith
          have k3 := nonneg_err R (r i * rnd (1 / T)) (by linarith) (by linarith)
          constructor <;> linarith [k3.1, k3.2]
      have hq : ∀ i, 0 ≤ r i / T := fun i => div_nonneg (by linarith [(hr' i).1]) hT0.le
      have hsum : r 0 / T + r 1 / T + r 2 / T + r 3 / T + r 4 / T = S / T := by rw [← hSS]; ring
      refine ⟨fun i => ⟨?_, ?_⟩, abs_le.mpr ⟨?_, ?_⟩⟩
      · have := (hc i).1
        have := hq i
        linarith
      · have h1 := (hc i).2
        have h2 : r i / T ≤ S / T := div_le_div_of_nonneg_right (hle i) hT0.le
        have := hq i
        linarith
      · linarith [(hc 0).1, (hc 1).1, (hc 2).1, (hc 3).1, (hc 4).1]
      · linarith [(hc 0).2, (hc 1).2, (hc 2).2, (hc 3).2, (hc 4).2]
    · have e : ∀ i, weightStep rnd recip w d i = rnd (1 / 5) := fun i => if_neg hex
      have c := nonneg_err R (1 / 5) (by norm_num) (by linarith)
      refine ⟨fun i => ?_, ?_⟩
      · rw [e i]; constructor <;> linarith
      · rw [e, e, e, e, e]
        exact abs_le.mpr ⟨by linarith, by linarith⟩

/-- the start value (EKF/EKFGSF_yaw.cpp:420) satisfies the condition, and so does every later value -/
theorem weights_from_start (R : Single rnd) (recip : Bool) (l : List (Fin 5 → ℝ)) (hl : ∀ d ∈ l, ∀ i, 0 ≤ d i ∧ d i ≤ 1000) :
    GoodWeights (l.foldl (weightStep rnd recip) (fun _ => rnd (1 / 5))) := by
  have hn : (1000 : ℝ) ≤ 2 ^ 20 := by norm_num
  have c := nonneg_err R (1 / 5) (by norm_num) (by linarith)
  refine weights_float R recip _ ⟨fun i => ?_, ?_⟩ l hl
  · constructor <;> linarith
  · exact abs_le.mpr ⟨by linarith, by linarith⟩

/-- non-trivial histories in IEEE single precision -/
example : ∃ rnd : ℝ → EReal, Nearest binary32 big32 rnd ∧
    GoodWeights (([![1 / 2, 1 / 10, 0, 3 / 10, 1]] : List (Fin 5 → ℝ)).foldl (weightStep (fun x => (rnd x).toReal) true) (fun _ => (rnd (1 / 5)).toReal)) ∧
    49 / 10000 ≤ ([(8 / 1000, 8 / 1000), (0, 1)] : List (ℝ × ℝ)).foldl (dtStep (fun x => (rnd x).toReal)) (1 / 100) := by
  obtain ⟨rnd, n, _⟩ := binary32_rounding
  refine ⟨rnd, n, ?_, (dt_average_float (binary32_single n) _ (by norm_num) (by norm_num) _).1⟩
  refine weights_from_start (binary32_single n) true _ ?_
  intro d hd i
  rw [List.mem_singleton] at hd
  subst hd
  fin_cases i <;> norm_num

end

end Ecl.Fp
