import Verif.Status.DeadReckoning
import Verif.Interface.Model
import Mathlib.Analysis.SpecialFunctions.Pow.Real

/-!
# Reported accuracies, control limits and innovation test ratios — EKF/ekf_helper.cpp:740-957

Exact reals; `NAN` as an output is `none`. `math::max(a,b)` and `fmaxf` are `max` (no NaN inputs).
-/

namespace Ecl.Status

noncomputable section

/-! ## Model -/

/-- inputs of the accuracy getters -/
structure AccIn where
  /-- diagonal of the covariance -/
  var : Fin 24 → ℝ
  /-- `_gps_origin_eph`, `_gps_origin_epv` -/
  originEph : ℝ
  originEpv : ℝ
  /-- `_is_dead_reckoning` -/
  dr : Bool
  /-- `_deadreckon_time_exceeded` -/
  exceeded : Bool
  aid : Interface.AidFlags
  /-- horizontal components of the innovations -/
  gpsPos : ℝ × ℝ
  evPos : ℝ × ℝ
  evVel : ℝ × ℝ
  flow : ℝ × ℝ
  rngGndClearance : ℝ
  terrainVpos : ℝ
  posD : ℝ

/-- norm of a horizontal vector -/
def hnorm (v : ℝ × ℝ) : ℝ := Real.sqrt (sq v.1 + sq v.2)

/-- `get_ekf_gpos_accuracy`, EKF/ekf_helper.cpp:754-775: (eph, epv) -/
def gposAccuracy (x : AccIn) : ℝ × ℝ :=
  let h := Real.sqrt (x.var 7 + x.var 8 + sq x.originEph)
  let h := if x.dr && x.aid.gps then mmax h (hnorm x.gpsPos)
    else if x.dr && x.aid.evPos then mmax h (hnorm x.evPos) else h
  (h, Real.sqrt (x.var 9 + sq x.originEpv))

/-- `get_ekf_lpos_accuracy`, EKF/ekf_helper.cpp:777-792 -/
def lposAccuracy (x : AccIn) : ℝ × ℝ :=
  let h := Real.sqrt (x.var 7 + x.var 8)
  let h := if x.exceeded && x.aid.gps then mmax h (hnorm x.gpsPos) else h
  (h, Real.sqrt (x.var 9))

/-- `get_ekf_vel_accuracy`, EKF/ekf_helper.cpp:794-827; `_flow_innov.norm()` is the Euclidean norm of two components -/
def velAccuracy (x : AccIn) : ℝ × ℝ :=
  let h := Real.sqrt (x.var 4 + x.var 5)
  let h :=
    if x.exceeded then
      let c : ℝ := 0
      let c := if x.aid.optFlow then mmax (x.terrainVpos - x.posD) (mmax x.rngGndClearance (1 / 10)) * hnorm x.flow else c
      let c := if x.aid.gps then mmax c (hnorm x.gpsPos) else if x.aid.evPos then mmax c (hnorm x.evPos) else c
      let c := if x.aid.evVel then mmax c (hnorm x.evVel) else c
      mmax h c
    else h
  (h, Real.sqrt (x.var 6))

/-- inputs of `get_ekf_ctrl_limits` -/
structure LimIn where
  /-- `_range_sensor.getValidMinVal()`, `getValidMaxVal()` -/
  rngMin : ℝ
  rngMax : ℝ
  /-- `_flow_max_rate`, `_flow_min_distance`, `_flow_max_distance` -/
  flowRate : ℝ
  flowMin : ℝ
  flowMax : ℝ
  /-- `_terrain_vpos - _state.pos(2)` -/
  hagl : ℝ
  rngHgt : Bool
  /-- `_params.range_aid` -/
  rangeAid : Bool
  aid : Interface.AidFlags

/-- limits; `none` is NaN: limiting not needed -/
structure Limits where
  vxyMax : Option ℝ
  vzMax : Option ℝ
  haglMin : Option ℝ
  haglMax : Option ℝ

/-- `get_ekf_ctrl_limits`, EKF/ekf_helper.cpp:836-874 -/
def ctrlLimits (x : LimIn) : Limits :=
  let rmin := x.rngMin
  let rmax := (3 / 4) * x.rngMax
  let vmax := max ((1 / 2) * x.flowRate * x.hagl) 0
  let relyRng := x.rngHgt && !x.rangeAid
  let relyFlow := x.aid.isOnly x.aid.optFlow
  let l : Limits := ⟨none, none, none, none⟩
  let l := if relyRng then ⟨none, none, some rmin, some rmax⟩ else l
  if relyFlow then ⟨some vmax, none, some (max rmin x.flowMin), some (min rmax x.flowMax)⟩ else l

/-- inputs of `get_innovation_test_status` -/
structure TestIn where
  status : BitVec 16
  yaw : ℝ
  mag : Fin 3 → ℝ
  gpsVel : ℝ × ℝ
  evVel : ℝ × ℝ
  gpsPos : ℝ × ℝ
  evPos : ℝ × ℝ
  /-- `_baro_hgt_test_ratio(1)`, `_rng_hgt_test_ratio(1)` -/
  baro : ℝ
  rng : ℝ
  tas : ℝ
  hagl : ℝ
  beta : ℝ
  baroHgt : Bool
  gpsHgt : Bool
  rngHgt : Bool
  evHgt : Bool

/-- outputs; `hgt = none`: the output argument is not written -/
structure TestOut where
  status : BitVec 16
  mag : ℝ
  vel : ℝ
  pos : ℝ
  hgt : Option ℝ
  tas : ℝ
  hagl : ℝ
  beta : ℝ

/-- `get_innovation_test_status`, EKF/ekf_helper.cpp:924-957 -/
def innovationTestStatus (x : TestIn) : TestOut where
  status := x.status
  mag := Real.sqrt (mmax x.yaw (max (max (x.mag 0) (x.mag 1)) (x.mag 2)))
  vel := mmax (Real.sqrt (mmax x.gpsVel.1 x.gpsVel.2)) (Real.sqrt (mmax x.evVel.1 x.evVel.2))
  pos := mmax (Real.sqrt x.gpsPos.1) (Real.sqrt x.evPos.1)
  hgt := if x.baroHgt then some (Real.sqrt x.baro) else if x.gpsHgt then some (Real.sqrt x.gpsPos.2)
    else if x.rngHgt then some (Real.sqrt x.rng) else if x.evHgt then some (Real.sqrt x.evPos.2) else none
  tas := Real.sqrt x.tas
  hagl := Real.sqrt x.hagl
  beta := Real.sqrt x.beta

/-! ## Theorems -/

theorem hnorm_nonneg (v : ℝ × ℝ) : 0 ≤ hnorm v := Real.sqrt_nonneg _

theorem hnorm_sq (v : ℝ × ℝ) : hnorm v ^ 2 = v.1 ^ 2 + v.2 ^ 2 := by
  unfold hnorm sq
  rw [Real.sq_sqrt (by nlinarith [sq_nonneg v.1, sq_nonneg v.2])]; ring

/-- **C89 (local position).** The reported horizontal error is the root sum of the two position variances, raised to the GPS
position innovation if the dead-reckoning time is exceeded while GPS is in use; the vertical one is the height standard
deviation. -/
theorem lpos_accuracy (x : AccIn) (h : ∀ i, 0 ≤ x.var i) :
    (x.exceeded = true ∧ x.aid.gps = true →
      (lposAccuracy x).1 = max (Real.sqrt (x.var 7 + x.var 8)) (Real.sqrt (x.gpsPos.1 ^ 2 + x.gpsPos.2 ^ 2))) ∧
    (¬ (x.exceeded = true ∧ x.aid.gps = true) → (lposAccuracy x).1 ^ 2 = x.var 7 + x.var 8 ∧ 0 ≤ (lposAccuracy x).1) ∧
    (lposAccuracy x).2 ^ 2 = x.var 9 ∧ 0 ≤ (lposAccuracy x).2 ∧ x.var 7 + x.var 8 ≤ (lposAccuracy x).1 ^ 2 := by
  have hs : ∀ y : ℝ, sq y = y ^ 2 := fun y => (pow_two y).symm
  have hb : 0 ≤ x.var 7 + x.var 8 := add_nonneg (h 7) (h 8)
  unfold lposAccuracy
  simp only [mmax_eq, hnorm, hs]
  by_cases hc : x.exceeded = true ∧ x.aid.gps = true
  · have hc' : (x.exceeded && x.aid.gps) = true := by simpa using hc
    rw [if_pos hc']
    refine ⟨fun _ => rfl, fun h' => absurd hc h', Real.sq_sqrt (h 9), Real.sqrt_nonneg _, ?_⟩
    calc x.var 7 + x.var 8 = Real.sqrt (x.var 7 + x.var 8) ^ 2 := (Real.sq_sqrt hb).symm
      _ ≤ _ := pow_le_pow_left₀ (Real.sqrt_nonneg _) (le_max_left _ _) 2
  · have hc' : ¬ (x.exceeded && x.aid.gps) = true := by simpa using hc
    rw [if_neg hc']
    exact ⟨fun h' => absurd h' hc, fun _ => ⟨Real.sq_sqrt hb, Real.sqrt_nonneg _⟩, Real.sq_sqrt (h 9), Real.sqrt_nonneg _,
      (Real.sq_sqrt hb).ge⟩

/-- **C89 (global position).** As for the local position with the origin uncertainty added in quadrature, raised to the GPS
(else the vision) position innovation while dead reckoning. -/
theorem gpos_accuracy (x : AccIn) (h : ∀ i, 0 ≤ x.var i) :
    let base := Real.sqrt (x.var 7 + x.var 8 + x.originEph ^ 2)
    (gposAccuracy x).1 =
      (if x.dr = true ∧ x.aid.gps = true then max base (Real.sqrt (x.gpsPos.1 ^ 2 + x.gpsPos.2 ^ 2))
       else if x.dr = true ∧ x.aid.evPos = true then max base (Real.sqrt (x.evPos.1 ^ 2 + x.evPos.2 ^ 2)) else base) ∧
    base ^ 2 = x.var 7 + x.var 8 + x.originEph ^ 2 ∧
    (gposAccuracy x).2 ^ 2 = x.var 9 + x.originEpv ^ 2 ∧ 0 ≤ (gposAccuracy x).2 := by
  have hs : ∀ y : ℝ, sq y = y ^ 2 := fun y => (pow_two y).symm
  intro base
  have hb : 0 ≤ x.var 7 + x.var 8 + x.originEph ^ 2 := by nlinarith [h 7, h 8, sq_nonneg x.originEph]
  refine ⟨?_, Real.sq_sqrt hb, ?_, Real.sqrt_nonneg _⟩
  · unfold gposAccuracy
    simp only [mmax_eq, hnorm, hs, Bool.and_eq_true]
    rfl
  · unfold gposAccuracy
    simp only [hs]
    exact Real.sq_sqrt (by nlinarith [h 9, sq_nonneg x.originEpv])

/-- **C89 (global is never better than local).** With the dead-reckoning flags produced by the status update (validity
timeout not shorter than the aiding window) the reported global accuracy is never better than the local one, provided the
filter has been aided at least once later than the aiding window, or is dead reckoning. -/
theorem global_not_better (x : AccIn) (hexc : x.exceeded = true → x.dr = true) :
    (lposAccuracy x).1 ≤ (gposAccuracy x).1 ∧ (lposAccuracy x).2 ≤ (gposAccuracy x).2 := by
  have hs : ∀ y : ℝ, sq y = y ^ 2 := fun y => (pow_two y).symm
  have hb : Real.sqrt (x.var 7 + x.var 8) ≤ Real.sqrt (x.var 7 + x.var 8 + sq x.originEph) :=
    Real.sqrt_le_sqrt (by rw [hs]; nlinarith [sq_nonneg x.originEph])
  refine ⟨?_, Real.sqrt_le_sqrt (by rw [hs]; nlinarith [sq_nonneg x.originEpv])⟩
  unfold lposAccuracy gposAccuracy
  simp only [mmax_eq]
  cases he : x.exceeded
  · simp only [Bool.false_and, Bool.false_eq_true, if_false]
    split
    · exact le_trans hb (le_max_left _ _)
    · split
      · exact le_trans hb (le_max_left _ _)
      · exact hb
  · rw [hexc he]
    cases x.aid.gps
    · simp only [Bool.and_false, Bool.false_eq_true, if_false]
      split
      · exact le_trans hb (le_max_left _ _)
      · exact hb
    · simp only [Bool.and_true, if_true]
      exact max_le_max hb le_rfl

/-- the side condition of `global_not_better` holds after every status update unless the time stamp coincidence of
`dr_zero_marker` occurs -/
theorem exceeded_implies_dr (p : DrParams) (s : DrSt) (a : DrIn) (hsa : Spec.Sane p a) (hv : p.noAid.toNat ≤ p.valid.toNat)
    (hne : a.now ≠ p.noAid) (h : (drStep p s a).exceeded = true) : (drStep p s a).dr = true := by
  rw [(dr_flags p s a hsa).2]
  intro ha
  rw [dr_aided_valid p s a hsa ha hv hne] at h
  cases h

/-- largest of the velocity error indicators of the sensors in use -/
def Spec.velIndicators (x : AccIn) : List ℝ :=
  (if x.aid.optFlow then [max (x.terrainVpos - x.posD) (max x.rngGndClearance (1 / 10)) * Real.sqrt (x.flow.1 ^ 2 + x.flow.2 ^ 2)] else []) ++
  (if x.aid.gps then [Real.sqrt (x.gpsPos.1 ^ 2 + x.gpsPos.2 ^ 2)] else
    if x.aid.evPos then [Real.sqrt (x.evPos.1 ^ 2 + x.evPos.2 ^ 2)] else []) ++
  (if x.aid.evVel then [Real.sqrt (x.evVel.1 ^ 2 + x.evVel.2 ^ 2)] else [])

/-- **C89 (velocity).** The horizontal error is at least the root sum of the velocity variances and equal to it unless the
dead-reckoning time is exceeded; then it is the maximum of that and the indicators of all sensors in use. -/
theorem vel_accuracy (x : AccIn) (h : ∀ i, 0 ≤ x.var i) :
    let base := Real.sqrt (x.var 4 + x.var 5)
    base ^ 2 = x.var 4 + x.var 5 ∧
    (x.exceeded = false → (velAccuracy x).1 = base) ∧
    (x.exceeded = true → base ≤ (velAccuracy x).1 ∧ (∀ y ∈ Spec.velIndicators x, y ≤ (velAccuracy x).1) ∧
      ((velAccuracy x).1 = base ∨ (velAccuracy x).1 ∈ Spec.velIndicators x)) ∧
    (velAccuracy x).2 ^ 2 = x.var 6 ∧ 0 ≤ (velAccuracy x).2 := by
  have hs : ∀ y : ℝ, sq y = y ^ 2 := fun y => (pow_two y).symm
  intro base
  have hbn : 0 ≤ base := Real.sqrt_nonneg _
  refine ⟨Real.sq_sqrt (add_nonneg (h 4) (h 5)), fun he => ?_, fun he => ?_, Real.sq_sqrt (h 6), Real.sqrt_nonneg _⟩
  · unfold velAccuracy; simp only [he, Bool.false_eq_true, if_false]; rfl
  · have hF : 0 ≤ max (x.terrainVpos - x.posD) (max x.rngGndClearance (1 / 10)) * Real.sqrt (x.flow.1 ^ 2 + x.flow.2 ^ 2) :=
      mul_nonneg (le_trans (by norm_num) (le_trans (le_max_right _ (1 / 10)) (le_max_right _ _))) (Real.sqrt_nonneg _)
    have hG : 0 ≤ Real.sqrt (x.gpsPos.1 ^ 2 + x.gpsPos.2 ^ 2) := Real.sqrt_nonneg _
    have hE : 0 ≤ Real.sqrt (x.evPos.1 ^ 2 + x.evPos.2 ^ 2) := Real.sqrt_nonneg _
    have hV : 0 ≤ Real.sqrt (x.evVel.1 ^ 2 + x.evVel.2 ^ 2) := Real.sqrt_nonneg _
    unfold velAccuracy Spec.velIndicators
    simp only [he, if_true, mmax_eq, hnorm, hs]
    generalize max (x.terrainVpos - x.posD) (max x.rngGndClearance (1 / 10)) * Real.sqrt (x.flow.1 ^ 2 + x.flow.2 ^ 2) = F at *
    generalize Real.sqrt (x.gpsPos.1 ^ 2 + x.gpsPos.2 ^ 2) = G at *
    generalize Real.sqrt (x.evPos.1 ^ 2 + x.evPos.2 ^ 2) = E at *
    generalize Real.sqrt (x.evVel.1 ^ 2 + x.evVel.2 ^ 2) = V at *
    change base ≤ max base _ ∧ _
    refine ⟨le_max_left _ _, ?_, ?_⟩
    · cases x.aid.optFlow <;> cases x.aid.gps <;> cases x.aid.evPos <;> cases x.aid.evVel <;>
        simp [or_imp, forall_and]
    · change max base _ = base ∨ max base _ ∈ _
      have key : ∀ c : ℝ, ∀ l : List ℝ, c = 0 ∨ c ∈ l → max base c = base ∨ max base c ∈ l := by
        intro c l hc
        rcases le_total c base with h1 | h1
        · left; exact max_eq_left h1
        · rw [max_eq_right h1]
          rcases hc with hc | hc
          · left; linarith
          · right; exact hc
      apply key
      have m2 : ∀ a b : ℝ, max a b = a ∨ max a b = b := fun a b => max_choice a b
      cases x.aid.optFlow <;> cases x.aid.gps <;> cases x.aid.evPos <;> cases x.aid.evVel <;>
        simp only [Bool.false_eq_true, if_false, if_true, List.nil_append, List.append_nil, List.cons_append, List.mem_cons, List.not_mem_nil, or_false,
          max_eq_right hG, max_eq_right hE, max_eq_right hV, max_eq_right hF, true_or, or_true]
      all_goals first
        | (rcases m2 G V with q | q <;> rw [q] <;> simp; done)
        | (rcases m2 E V with q | q <;> rw [q] <;> simp; done)
        | (rcases m2 F V with q | q <;> rw [q] <;> simp; done)
        | (rcases m2 F G with q | q <;> rw [q] <;> simp; done)
        | (rcases m2 F E with q | q <;> rw [q] <;> simp; done)
        | (rcases m2 F G with q | q <;> rw [q]
           · rcases m2 F V with q' | q' <;> rw [q'] <;> simp
           · rcases m2 G V with q' | q' <;> rw [q'] <;> simp
           done)
        | (rcases m2 F E with q | q <;> rw [q]
           · rcases m2 F V with q' | q' <;> rw [q'] <;> simp
           · rcases m2 E V with q' | q' <;> rw [q'] <;> simp
           done)

/-- **C90 (control limits).** No limits unless the filter relies on the range finder for height (then the sensor's minimum and
75 % of its maximum bound the height) or on optical flow as the only horizontal aiding (then the height is bounded by both
sensors and the speed by half the sensor rate times the height, never negative). A vertical speed limit is never given. -/
theorem ctrl_limits (x : LimIn) :
    let onlyFlow := x.aid.optFlow = true ∧ x.aid.gps = false ∧ x.aid.evPos = false ∧ x.aid.evVel = false ∧
      ¬ (x.aid.fuseAspd = true ∧ x.aid.fuseBeta = true)
    let l := ctrlLimits x
    l.vzMax = none ∧
    (onlyFlow → l.vxyMax = some (max (x.flowRate * x.hagl / 2) 0) ∧ l.haglMin = some (max x.rngMin x.flowMin) ∧
      l.haglMax = some (min (x.rngMax * (3 / 4)) x.flowMax)) ∧
    (¬ onlyFlow → l.vxyMax = none) ∧
    (¬ onlyFlow → x.rngHgt = true → x.rangeAid = false → l.haglMin = some x.rngMin ∧ l.haglMax = some (x.rngMax * (3 / 4))) ∧
    (¬ onlyFlow → ¬ (x.rngHgt = true ∧ x.rangeAid = false) → l.haglMin = none ∧ l.haglMax = none) := by
  intro onlyFlow l
  have hof : x.aid.isOnly x.aid.optFlow = true ↔ onlyFlow := by
    unfold Interface.AidFlags.isOnly Interface.AidFlags.isOther Interface.AidFlags.count onlyFlow
    cases x.aid.gps <;> cases x.aid.optFlow <;> cases x.aid.evPos <;> cases x.aid.evVel <;> cases x.aid.fuseAspd <;>
      cases x.aid.fuseBeta <;> simp
  have hl : l = ctrlLimits x := rfl
  unfold ctrlLimits at hl
  have e1 : (1 / 2) * x.flowRate * x.hagl = x.flowRate * x.hagl / 2 := by ring
  have e2 : (3 / 4) * x.rngMax = x.rngMax * (3 / 4) := by ring
  rw [e1, e2] at hl
  by_cases h : onlyFlow
  · simp only [hof.mpr h, if_true] at hl
    rw [hl]
    exact ⟨rfl, fun _ => ⟨rfl, rfl, rfl⟩, fun h' => absurd h h', fun h' => absurd h h', fun h' => absurd h h'⟩
  · have h2 : ¬ x.aid.isOnly x.aid.optFlow = true := fun h' => h (hof.mp h')
    simp only [h2, if_false] at hl
    by_cases h3 : x.rngHgt = true ∧ x.rangeAid = false
    · have h4 : (x.rngHgt && !x.rangeAid) = true := by simp [h3.1, h3.2]
      rw [if_pos h4] at hl
      rw [hl]
      exact ⟨rfl, fun h' => absurd h' h, fun _ => rfl, fun _ _ _ => ⟨rfl, rfl⟩, fun _ h' => absurd h3 h'⟩
    · have h4 : ¬ (x.rngHgt && !x.rangeAid) = true := by simpa using h3
      rw [if_neg h4] at hl
      rw [hl]
      exact ⟨rfl, fun h' => absurd h' h, fun _ => rfl, fun _ a b => absurd ⟨a, b⟩ h3, fun _ _ => ⟨rfl, rfl⟩⟩

theorem sqrt_gt_one (r : ℝ) : 1 < Real.sqrt r ↔ 1 < r := by
  rw [Real.lt_sqrt (by norm_num)]; norm_num

/-- **C91 (innovation test ratios).** For non-negative internal test ratios each reported value is the largest of the square
roots of its group, so a value above 1 means that some measurement of the group exceeded its gate. -/
theorem test_ratio_meaning (x : TestIn) :
    let o := innovationTestStatus x
    o.status = x.status ∧
    (1 < o.mag ↔ 1 < x.yaw ∨ ∃ i, 1 < x.mag i) ∧
    (1 < o.vel ↔ 1 < x.gpsVel.1 ∨ 1 < x.gpsVel.2 ∨ 1 < x.evVel.1 ∨ 1 < x.evVel.2) ∧
    (1 < o.pos ↔ 1 < x.gpsPos.1 ∨ 1 < x.evPos.1) ∧
    (1 < o.tas ↔ 1 < x.tas) ∧ (1 < o.hagl ↔ 1 < x.hagl) ∧ (1 < o.beta ↔ 1 < x.beta) := by
  intro o
  have ho : o = innovationTestStatus x := rfl
  unfold innovationTestStatus at ho
  rw [ho]
  simp only [mmax_eq, sqrt_gt_one, lt_max_iff, or_assoc, true_and, and_true]
  have : (∃ i, 1 < x.mag i) ↔ 1 < x.mag 0 ∨ 1 < x.mag 1 ∨ 1 < x.mag 2 := by
    constructor
    · rintro ⟨i, hi⟩; fin_cases i
      · exact Or.inl hi
      · exact Or.inr (Or.inl hi)
      · exact Or.inr (Or.inr hi)
    · rintro (h | h | h) <;> exact ⟨_, h⟩
  rw [this]

/-- **C91 (values).** -/
theorem test_ratio_values (x : TestIn) (h : 0 ≤ x.yaw) (hm : ∀ i, 0 ≤ x.mag i) :
    let o := innovationTestStatus x
    o.mag ^ 2 = max x.yaw (max (max (x.mag 0) (x.mag 1)) (x.mag 2)) ∧ 0 ≤ o.mag ∧
    o.vel = Real.sqrt (max (max x.gpsVel.1 x.gpsVel.2) (max x.evVel.1 x.evVel.2)) ∧
    o.pos = Real.sqrt (max x.gpsPos.1 x.evPos.1) ∧
    o.tas = Real.sqrt x.tas ∧ o.hagl = Real.sqrt x.hagl ∧ o.beta = Real.sqrt x.beta ∧
    (x.baroHgt = true → o.hgt = some (Real.sqrt x.baro)) ∧
    (x.baroHgt = false → x.gpsHgt = true → o.hgt = some (Real.sqrt x.gpsPos.2)) ∧
    (x.baroHgt = false → x.gpsHgt = false → x.rngHgt = true → o.hgt = some (Real.sqrt x.rng)) ∧
    (x.baroHgt = false → x.gpsHgt = false → x.rngHgt = false → x.evHgt = true → o.hgt = some (Real.sqrt x.evPos.2)) ∧
    (x.baroHgt = false → x.gpsHgt = false → x.rngHgt = false → x.evHgt = false → o.hgt = none) := by
  intro o
  have ho : o = innovationTestStatus x := rfl
  unfold innovationTestStatus at ho
  have hmono : Monotone Real.sqrt := Real.sqrt_monotone
  rw [ho]
  simp only [mmax_eq]
  refine ⟨Real.sq_sqrt (le_max_of_le_left h), Real.sqrt_nonneg _, (hmono.map_max).symm, (hmono.map_max).symm, trivial, trivial, trivial, ?_, ?_, ?_, ?_, ?_⟩
  · intro a; simp [a]
  · intro a b; simp [a, b]
  · intro a b c; simp [a, b, c]
  · intro a b c d; simp [a, b, c, d]
  · intro a b c d; simp [a, b, c, d]

end

/-- a filter relying on flow alone at 2 m height with a 5 rad/s sensor may fly at up to 5 m/s -/
example : (ctrlLimits ⟨1/10, 10, 5, 1/2, 6, 2, false, false, ⟨false, true, false, false, false, false⟩⟩).vxyMax = some 5 := by
  have := (ctrl_limits ⟨1/10, 10, 5, 1/2, 6, 2, false, false, ⟨false, true, false, false, false, false⟩⟩).2.1 (by simp)
  rw [this.1]; norm_num

end Ecl.Status
