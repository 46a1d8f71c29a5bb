import Mathlib.Algebra.Order.Field.Rat
import Mathlib.Data.List.Induction
import Mathlib.Tactic.Linarith
import Mathlib.Tactic.NormNum
import Mathlib.Tactic.Ring
import Mathlib.Tactic.FieldSimp

/-!
# Suitability of the range finder as height aid — EKF/control.cpp:1173-1200

Finite floats are rationals; rounding is not modelled and the coefficients `0.7f`, `0.01f` are taken as 7/10 and 1/100.
-/

namespace Ecl.RangeAid

/-- parameters `max_hagl_for_range_aid`, `max_vel_for_range_aid`, `range_aid_innov_gate` (EKF/common.h) -/
structure Params where
  maxHagl : ℚ := 5
  maxVel : ℚ := 1
  gate : ℚ := 1

/-- what one call reads: flags, terrain position, filter position and velocity, innovation of the terrain estimator -/
structure Frame where
  inAir : Bool
  healthy : Bool
  terrainValid : Bool
  horizAiding : Bool
  /-- `_terrain_vpos` (down) -/
  terrain : ℚ
  /-- `_state.pos(2)` (down) -/
  posD : ℚ
  velN : ℚ
  velE : ℚ
  innov : ℚ
  innovVar : ℚ
deriving DecidableEq

/-- `hagl_test_ratio < l`, EKF/control.cpp:1184-1185; a zero denominator gives an infinite or NaN quotient, for which the
comparison is false -/
def ratioBelow (p : Params) (f : Frame) (l : ℚ) : Bool :=
  let d := p.gate ^ 2 * f.innovVar
  if d = 0 then false else decide (f.innov * f.innov / d < l)

/-- `longerThan(testVal)` of the matrix library on the horizontal velocity: `norm_squared() > testVal * testVal` -/
def longer (f : Frame) (v : ℚ) : Bool := decide (v * v < f.velN * f.velN + f.velE * f.velE)

/-- `checkRangeAidSuitability`, EKF/control.cpp:1173-1200; `was` is `_is_range_aid_suitable` -/
def check (p : Params) (was : Bool) (f : Frame) : Bool :=
  if f.inAir && f.healthy && f.terrainValid then
    let hagl := f.terrain - f.posD
    let haglMax := if was then p.maxHagl else p.maxHagl * (7 / 10)
    let inRange := decide (hagl < haglMax)
    let stable := if was then ratioBelow p f 1 else ratioBelow p f (1 / 100)
    if f.horizAiding then
      let maxVel := if was then p.maxVel else p.maxVel * (7 / 10)
      let slow := !longer f maxVel
      inRange && stable && slow
    else inRange && stable
  else false

/-- consecutive filter updates -/
def run (p : Params) (was : Bool) (fs : List Frame) : Bool := fs.foldl (check p) was

namespace Spec

/-- all conditions with height limit `k·max`, speed limit `k·max` and innovation within `g` gates -/
def Within (p : Params) (k r : ℚ) (f : Frame) : Prop :=
  f.inAir = true ∧ f.healthy = true ∧ f.terrainValid = true ∧
  f.terrain - f.posD < k * p.maxHagl ∧
  f.innov ^ 2 < r * (p.gate ^ 2 * f.innovVar) ∧
  (f.horizAiding = true → f.velN ^ 2 + f.velE ^ 2 ≤ (k * p.maxVel) ^ 2)

/-- the conditions for starting: 70 % of the limits, innovation below a tenth of the gate -/
def Start (p : Params) (f : Frame) : Prop := Within p (7 / 10) (1 / 100) f
/-- the conditions for going on -/
def Stay (p : Params) (f : Frame) : Prop := Within p 1 1 f

end Spec

theorem ratioBelow_iff (p : Params) (f : Frame) (l : ℚ) (hg : p.gate ≠ 0) (hv : 0 ≤ f.innovVar) (hl : 0 < l) :
    ratioBelow p f l = true ↔ f.innov ^ 2 < l * (p.gate ^ 2 * f.innovVar) := by
  unfold ratioBelow
  by_cases h : p.gate ^ 2 * f.innovVar = 0
  · simp only [h, if_true]
    constructor
    · intro h; cases h
    · intro h; nlinarith [sq_nonneg f.innov]
  · simp only [h, if_false, decide_eq_true_eq]
    have hp : 0 < p.gate ^ 2 * f.innovVar := lt_of_le_of_ne (mul_nonneg (sq_nonneg _) hv) (Ne.symm h)
    rw [div_lt_iff₀ hp, sq f.innov]

/-- **C119 (one call).** With a nonzero gate and a non-negative innovation variance: the range finder becomes suitable exactly under
the start conditions and stays so exactly under the stay conditions. -/
theorem check_iff (p : Params) (was : Bool) (f : Frame) (hg : p.gate ≠ 0) (hv : 0 ≤ f.innovVar) :
    check p was f = true ↔ (was = true ∧ Spec.Stay p f) ∨ (was = false ∧ Spec.Start p f) := by
  unfold check Spec.Stay Spec.Start Spec.Within
  have e1 := ratioBelow_iff p f 1 hg hv (by norm_num)
  have e2 := ratioBelow_iff p f (1 / 100) hg hv (by norm_num)
  have v : ∀ k : ℚ, longer f (p.maxVel * k) = false ↔ f.velN ^ 2 + f.velE ^ 2 ≤ (k * p.maxVel) ^ 2 := by
    intro k
    unfold longer
    rw [decide_eq_false_iff_not, not_lt]
    constructor <;> intro h <;> nlinarith
  have v1 := v 1
  have v2 := v (7 / 10)
  rw [mul_one] at v1
  have main : ∀ k l m : ℚ, (longer f m = false ↔ f.velN ^ 2 + f.velE ^ 2 ≤ (k * p.maxVel) ^ 2) →
      (ratioBelow p f l = true ↔ f.innov ^ 2 < l * (p.gate ^ 2 * f.innovVar)) →
      ((if (f.inAir && f.healthy && f.terrainValid) = true then
        (if f.horizAiding = true then (decide (f.terrain - f.posD < k * p.maxHagl) && ratioBelow p f l && !longer f m)
         else (decide (f.terrain - f.posD < k * p.maxHagl) && ratioBelow p f l)) else false) = true ↔
        f.inAir = true ∧ f.healthy = true ∧ f.terrainValid = true ∧ f.terrain - f.posD < k * p.maxHagl ∧
        f.innov ^ 2 < l * (p.gate ^ 2 * f.innovVar) ∧ (f.horizAiding = true → f.velN ^ 2 + f.velE ^ 2 ≤ (k * p.maxVel) ^ 2)) := by
    intro k l m h1 h2
    rw [← h1, ← h2]
    by_cases hc : (f.inAir && f.healthy && f.terrainValid) = true
    · rw [if_pos hc]
      simp only [Bool.and_eq_true] at hc
      obtain ⟨⟨c1, c2⟩, c3⟩ := hc
      simp only [c1, c2, c3, true_and]
      by_cases hh : f.horizAiding = true
      · rw [if_pos hh]
        simp only [Bool.and_eq_true, decide_eq_true_eq, Bool.not_eq_true', hh, forall_const, and_assoc]
      · rw [if_neg hh]
        simp only [Bool.and_eq_true, decide_eq_true_eq, hh, false_implies, and_true, Bool.false_eq_true]
    · rw [if_neg hc]
      simp only [Bool.and_eq_true] at hc
      constructor
      · intro h; cases h
      · rintro ⟨a, b, c, -⟩; exact absurd ⟨⟨a, b⟩, c⟩ hc
  cases was with
  | true =>
    rw [← main 1 1 p.maxVel v1 e1]
    simp
  | false =>
    rw [← main (7 / 10) (1 / 100) (p.maxVel * (7 / 10)) v2 e2, mul_comm p.maxHagl]
    simp

/-- the start conditions imply the stay conditions, for non-negative limits -/
theorem start_stay (p : Params) (f : Frame) (h1 : 0 ≤ p.maxHagl) (h2 : 0 ≤ f.innovVar) (h : Spec.Start p f) : Spec.Stay p f := by
  obtain ⟨a, b, c, d, e, g⟩ := h
  refine ⟨a, b, c, by linarith, ?_, ?_⟩
  · have := mul_nonneg (sq_nonneg p.gate) h2
    linarith
  · intro hh
    have := g hh
    nlinarith [sq_nonneg p.maxVel]

theorem run_snoc (p : Params) (b : Bool) (a : List Frame) (f : Frame) : run p b (a ++ [f]) = check p (run p b a) f := by
  simp [run]

/-- **C119 (any history).** From a start as unsuitable, after any number of filter updates the range finder is suitable exactly when the
start conditions held at some update and the stay conditions at all later ones. -/
theorem suitable_iff (p : Params) (fs : List Frame) (hg : p.gate ≠ 0) (hm : 0 ≤ p.maxHagl) (hv : ∀ f ∈ fs, 0 ≤ f.innovVar) :
    run p false fs = true ↔ ∃ a f b, fs = a ++ f :: b ∧ Spec.Start p f ∧ ∀ g ∈ b, Spec.Stay p g := by
  induction fs using List.reverseRecOn with
  | nil => simp [run]
  | append_singleton l g ih =>
    have ih := ih (fun f hf => hv f (by simp [hf]))
    rw [run_snoc, check_iff p _ g hg (hv g (by simp)), ih]
    constructor
    · rintro (⟨⟨a, f, b, rfl, h1, h2⟩, h3⟩ | ⟨-, h⟩)
      · refine ⟨a, f, b ++ [g], by simp, h1, ?_⟩
        intro x hx
        rw [List.mem_append, List.mem_singleton] at hx
        rcases hx with hx | rfl
        · exact h2 x hx
        · exact h3
      · exact ⟨l, g, [], rfl, h, by simp⟩
    · rintro ⟨a, f, b, he, h1, h2⟩
      rcases List.eq_nil_or_concat b with rfl | ⟨b', x, rfl⟩
      · obtain ⟨e1, e2⟩ := List.append_inj' he rfl
        simp at e2
        subst e2
        cases hr : run p false l with
        | false => exact Or.inr ⟨rfl, h1⟩
        | true => exact Or.inl ⟨ih.1 hr, start_stay p g hm (hv g (by simp)) h1⟩
      · have h' : l ++ [g] = (a ++ f :: b') ++ [x] := by rw [he]; simp
        obtain ⟨e1, e2⟩ := List.append_inj' h' rfl
        simp at e2
        subst e2
        exact Or.inl ⟨⟨a, f, b', e1, h1, fun y hy => h2 y (by simp [hy])⟩, h2 g (by simp)⟩

/-- **C119 (no rapid switching).** While the conditions stay in the band between start and stay limits, the answer never changes. -/
theorem band_keeps (p : Params) (was : Bool) (fs : List Frame) (hg : p.gate ≠ 0) (hv : ∀ f ∈ fs, 0 ≤ f.innovVar)
    (hb : ∀ f ∈ fs, Spec.Stay p f ∧ ¬ Spec.Start p f) : run p was fs = was := by
  induction fs using List.reverseRecOn with
  | nil => rfl
  | append_singleton l g ih =>
    rw [run_snoc, ih (fun f hf => hv f (by simp [hf])) (fun f hf => hb f (by simp [hf]))]
    have h := check_iff p was g hg (hv g (by simp))
    obtain ⟨h1, h2⟩ := hb g (by simp)
    cases was with
    | true => exact h.2 (Or.inl ⟨rfl, h1⟩)
    | false =>
      rw [← Bool.not_eq_true, h]
      rintro (⟨h, -⟩ | ⟨-, h⟩)
      · cases h
      · exact h2 h

/-- **C119 (necessary conditions).** In every history, suitable at an update implies that at that update the vehicle was in the air, the
range finder healthy, the terrain estimate valid and the height over terrain below the configured maximum. -/
theorem suitable_now (p : Params) (fs : List Frame) (g : Frame) (was : Bool) (hm : 0 ≤ p.maxHagl) (h : run p was (fs ++ [g]) = true) :
    g.inAir = true ∧ g.healthy = true ∧ g.terrainValid = true ∧ g.terrain - g.posD < p.maxHagl := by
  rw [run_snoc] at h
  unfold check at h
  by_cases hc : (g.inAir && g.healthy && g.terrainValid) = true
  · rw [if_pos hc] at h
    simp only [Bool.and_eq_true] at hc
    refine ⟨hc.1.1, hc.1.2, hc.2, ?_⟩
    have hr : decide (g.terrain - g.posD < if run p was fs = true then p.maxHagl else p.maxHagl * (7 / 10)) = true := by
      by_cases hh : g.horizAiding = true
      · rw [if_pos hh] at h; simp only [Bool.and_eq_true] at h; exact h.1.1
      · rw [if_neg hh] at h; simp only [Bool.and_eq_true] at h; exact h.1
    rw [decide_eq_true_eq] at hr
    split_ifs at hr <;> linarith
  · rw [if_neg hc] at h; cases h

/-- **C119 (boundary).** With a zero innovation variance the range finder is never suitable; with a negative one (a negative terrain
variance) the innovation test always passes, however large the innovation. -/
theorem variance_boundary (p : Params) (was : Bool) (f : Frame) :
    (f.innovVar = 0 → check p was f = false) ∧
    (f.innovVar < 0 → p.gate ≠ 0 → ∀ l, 0 < l → ratioBelow p f l = true) := by
  constructor
  · intro h
    have e : ∀ l, ratioBelow p f l = false := by intro l; simp [ratioBelow, h]
    unfold check
    simp [e]
  · intro h hg l hl
    unfold ratioBelow
    have hd : p.gate ^ 2 * f.innovVar < 0 := mul_neg_of_pos_of_neg (by positivity) h
    simp only [ne_of_lt hd, if_false, decide_eq_true_eq]
    have : f.innov * f.innov / (p.gate ^ 2 * f.innovVar) ≤ 0 := div_nonpos_of_nonneg_of_nonpos (mul_self_nonneg _) hd.le
    linarith

/-- hovering at height `h` with speed `v` over a validly estimated ground -/
def hover (h v : ℚ) : Frame := ⟨true, true, true, true, 0, -h, v, 0, 1 / 20, 1⟩

/-- Non-vacuity: with the defaults 3 m starts the aid, 4 m keeps it, 5 m ends it, 4 m does not start it again; the same for the speed. -/
example : run {} false [hover 3 (1 / 2)] = true ∧ run {} false [hover 3 (1 / 2), hover 4 (9 / 10)] = true ∧
    run {} false [hover 3 (1 / 2), hover 5 0] = false ∧ run {} false [hover 3 (1 / 2), hover 5 0, hover 4 0] = false ∧
    run {} false [hover 3 (9 / 10)] = false ∧ run {} false [hover 3 (1 / 2), hover 3 (11 / 10)] = false := by decide +kernel

/-- Non-vacuity of the band: 4 m is within the stay limits and outside the start limits. -/
example : Spec.Stay {} (hover 4 0) ∧ ¬ Spec.Start {} (hover 4 0) := by
  constructor
  · refine ⟨rfl, rfl, rfl, ?_, ?_, ?_⟩ <;> norm_num [hover]
  · rintro ⟨-, -, -, h, -⟩; norm_num [hover] at h

end Ecl.RangeAid
