import Verif.Fusion.FlowComp
import Mathlib.Data.List.Induction

/-!
# Admission of an optical flow sample (C121) — EKF/control.cpp:356-395, and the flow gyro bias in rotation (C84)
-/

namespace Ecl.Fusion

noncomputable section

/-- `flowSample` at the fusion time horizon, EKF/common.h:137-143.  `flow` is `none` if a component of `flow_xy_rad` is NaN, `gyro` is
`none` if a component of `gyro_xyz` is not finite. -/
structure FlowSample where
  flow : Option (Fin 2 → ℝ)
  gyro : Option (V3 ℝ)
  dt : ℝ
  quality : ℕ

/-- what else the tests read: `_params.flow_qual_min`, `_flow_max_rate` (set by the autopilot, EKF/estimator_interface.h:144),
`_params.range_cos_max_tilt`, `_R_to_earth(2,2)`, `_control_status.flags.in_air` -/
structure FlowGate where
  qualMin : ℕ
  maxRate : ℝ
  cosMaxTilt : ℝ
  r22 : ℝ
  inAir : Bool

/-- `flow_xy_rad.longerThan(l)` of the matrix library (`norm_squared() > l * l`); false with NaN -/
def flowLonger (f : Option (Fin 2 → ℝ)) (l : ℝ) : Bool :=
  open Classical in match f with | none => false | some v => decide (l * l < v 0 * v 0 + v 1 * v 1)

/-- result of the admission: accumulators and bias, the sample after modification, `_flow_compensated_XY_rad` (unchanged: outer `none`;
inner `none` is NaN) and `_flow_data_ready` -/
structure FlowOut where
  c : FlowComp
  sample : FlowSample
  comp : Option (Option (Fin 2 → ℝ))
  ready : Bool

open Classical in
/-- EKF/control.cpp:358-395 for a sample that has arrived -/
def flowAdmit (g : FlowGate) (s : FlowSample) (c : FlowComp) : FlowOut :=
  let qualityGood := decide (g.qualMin ≤ s.quality)
  let magnitudeGood := !flowLonger s.flow (s.dt * g.maxRate)
  let tiltGood := decide (g.cosMaxTilt < g.r22)
  let dtMin := max (8 / 10 * c.deltaTime) (1 / 1000)
  let dtMax := min (12 / 10 * c.deltaTime) (2 / 10)
  let dtGood := decide (dtMin ≤ s.dt ∧ s.dt ≤ dtMax)
  let r := flowBodyRateComp ⟨s.gyro, s.dt⟩ c
  let s1 : FlowSample := { s with gyro := r.2.1 }
  if qualityGood && magnitudeGood && tiltGood && r.2.2 && dtGood then
    { c := r.1, sample := s1, ready := true,
      comp := some (match s1.flow, s1.gyro with
        | some f, some w => some (fun i => f i - w i.castSucc)
        | _, _ => none) }
  else if !g.inAir && r.2.2 then
    { c := r.1, sample := if dtGood then s1 else { s1 with dt := dtMin }, comp := some (some fun _ => 0), ready := true }
  else { c := r.1, sample := s1, comp := none, ready := false }

/-- accumulation of the autopilot gyro data in every filter update, EKF/control.cpp:355-356 -/
def flowAccumulate (delAng bias : V3 ℝ) (dt : ℝ) (c : FlowComp) : FlowComp :=
  { c with delAng := fun i => c.delAng i + (delAng i - bias i), deltaTime := c.deltaTime + dt }

/-- one filter update: accumulate, then evaluate a sample if there is one -/
structure FlowFrame where
  delAng : V3 ℝ
  bias : V3 ℝ
  dt : ℝ
  sample : Option (FlowGate × FlowSample)

/-- EKF/control.cpp:345-395 for one filter update -/
def flowFrame (c : FlowComp) (f : FlowFrame) : FlowComp :=
  match f.sample with
  | none => flowAccumulate f.delAng f.bias f.dt c
  | some (g, s) => (flowAdmit g s (flowAccumulate f.delAng f.bias f.dt c)).c

namespace Spec

/-- the tests a sample has to pass when `T` seconds of gyro data have been accumulated since the last sample -/
def FlowGood (g : FlowGate) (s : FlowSample) (T : ℝ) : Prop :=
  g.qualMin ≤ s.quality ∧ (∀ f, s.flow = some f → f 0 ^ 2 + f 1 ^ 2 ≤ (s.dt * g.maxRate) ^ 2) ∧ g.cosMaxTilt < g.r22 ∧
  8 / 10 * T ≤ s.dt ∧ s.dt ≤ 12 / 10 * T ∧ 1 / 1000 ≤ s.dt ∧ s.dt ≤ 2 / 10

/-- the rotation subtracted from the flow: the sensor's gyro if finite, else minus the accumulated filter rotation -/
def bodyRotation (s : FlowSample) (acc : V3 ℝ) : V3 ℝ := match s.gyro with | some w => w | none => fun i => -acc i

end Spec

theorem flowGood_le_one {g : FlowGate} {s : FlowSample} {T : ℝ} (h : Spec.FlowGood g s T) : T ≤ 1 := by
  obtain ⟨-, -, -, h1, -, -, h2⟩ := h
  linarith

theorem comp_gyro (s : FlowSample) (c : FlowComp) (h : c.deltaTime ≤ 1) :
    (flowBodyRateComp ⟨s.gyro, s.dt⟩ c).2.1 = some (Spec.bodyRotation s c.delAng) ∧ (flowBodyRateComp ⟨s.gyro, s.dt⟩ c).2.2 = true := by
  obtain ⟨-, h1, -, h3, h4⟩ := flow_rate_comp ⟨s.gyro, s.dt⟩ c
  refine ⟨?_, h1.2 h⟩
  unfold Spec.bodyRotation
  cases hg : s.gyro with
  | none => rw [hg] at h3; rw [(h3 h rfl).2]; rfl
  | some w => rw [hg] at h4; rw [(h4 w h rfl).1]

/-- **C121 (one sample).** A sample that passes the tests is used with the body rotation subtracted; otherwise on the ground it is replaced
by "no motion" (its interval set to the lower limit if it was outside the window), unless more than 1 s was accumulated; otherwise it
is dropped, the compensated flow keeping its old value. -/
theorem flow_admission (g : FlowGate) (s : FlowSample) (c : FlowComp) :
    let o := flowAdmit g s c
    let T := c.deltaTime
    let window := 8 / 10 * T ≤ s.dt ∧ s.dt ≤ 12 / 10 * T ∧ 1 / 1000 ≤ s.dt ∧ s.dt ≤ 2 / 10
    (Spec.FlowGood g s T → o.ready = true ∧ o.sample.dt = s.dt ∧
      (∀ f, s.flow = some f → o.comp = some (some fun i => f i - Spec.bodyRotation s c.delAng i.castSucc)) ∧
      (s.flow = none → o.comp = some none)) ∧
    (¬ Spec.FlowGood g s T → g.inAir = false → T ≤ 1 → o.ready = true ∧ o.comp = some (some 0) ∧
      (window → o.sample.dt = s.dt) ∧ (¬ window → o.sample.dt = max (8 / 10 * T) (1 / 1000))) ∧
    (¬ Spec.FlowGood g s T → g.inAir = true ∨ 1 < T → o.ready = false ∧ o.comp = none ∧ o.sample.dt = s.dt) ∧
    (T ≤ 1 → o.sample.gyro = some (Spec.bodyRotation s c.delAng)) ∧
    (o.c.delAng = 0 ∧ o.c.deltaTime = 0) := by
  intro o T window
  have hacc := (flow_rate_comp ⟨s.gyro, s.dt⟩ c).1
  have hret := (flow_rate_comp ⟨s.gyro, s.dt⟩ c).2.1
  have hwin : (max (8 / 10 * c.deltaTime) (1 / 1000) ≤ s.dt ∧ s.dt ≤ min (12 / 10 * c.deltaTime) (2 / 10)) ↔ window := by
    rw [max_le_iff, le_min_iff]; simp only [window, T]; tauto
  have hmag : (!flowLonger s.flow (s.dt * g.maxRate)) = true ↔
      ∀ f, s.flow = some f → f 0 ^ 2 + f 1 ^ 2 ≤ (s.dt * g.maxRate) ^ 2 := by
    cases hf : s.flow with
    | none => simp [flowLonger]
    | some f =>
      simp only [flowLonger, Bool.not_eq_true', decide_eq_false_iff_not, not_lt, Option.some.injEq, forall_eq', ← pow_two]
  have hgood : (decide (g.qualMin ≤ s.quality) && !flowLonger s.flow (s.dt * g.maxRate) && decide (g.cosMaxTilt < g.r22) &&
      (flowBodyRateComp ⟨s.gyro, s.dt⟩ c).2.2 &&
      decide (max (8 / 10 * c.deltaTime) (1 / 1000) ≤ s.dt ∧ s.dt ≤ min (12 / 10 * c.deltaTime) (2 / 10))) = true ↔ Spec.FlowGood g s T := by
    simp only [Bool.and_eq_true, decide_eq_true_eq, hwin]
    rw [hmag, hret]
    constructor
    · rintro ⟨⟨⟨⟨a, b⟩, d⟩, _⟩, e⟩; exact ⟨a, b, d, e⟩
    · intro h; exact ⟨⟨⟨⟨h.1, h.2.1⟩, h.2.2.1⟩, flowGood_le_one h⟩, h.2.2.2⟩
  by_cases hG : Spec.FlowGood g s T
  · have ho : o = _ := if_pos (hgood.2 hG)
    have hT := flowGood_le_one hG
    obtain ⟨e1, e2⟩ := comp_gyro s c hT
    refine ⟨fun _ => ?_, fun h => absurd hG h, fun h => absurd hG h, fun _ => ?_, ?_⟩
    · rw [ho]
      refine ⟨rfl, rfl, ?_, ?_⟩
      · intro f hf
        simp only [hf, e1]
      · intro hf
        simp only [hf]
    · rw [ho]; exact e1
    · rw [ho]; exact hacc
  · have hng : ¬ _ := fun h => hG (hgood.1 h)
    have ho : o = _ := if_neg hng
    by_cases hA : g.inAir = false ∧ T ≤ 1
    · obtain ⟨e1, e2⟩ := comp_gyro s c hA.2
      have hc : (!g.inAir && (flowBodyRateComp ⟨s.gyro, s.dt⟩ c).2.2) = true := by rw [hA.1, e2]; rfl
      rw [if_pos hc] at ho
      refine ⟨fun h => absurd h hG, fun _ _ _ => ?_, ?_, fun _ => ?_, ?_⟩
      · rw [ho]
        refine ⟨rfl, rfl, ?_, ?_⟩
        · intro hw
          have : decide (max (8 / 10 * c.deltaTime) (1 / 1000) ≤ s.dt ∧ s.dt ≤ min (12 / 10 * c.deltaTime) (2 / 10)) = true :=
            decide_eq_true (hwin.2 hw)
          simp only [this, if_true]
        · intro hw
          have : decide (max (8 / 10 * c.deltaTime) (1 / 1000) ≤ s.dt ∧ s.dt ≤ min (12 / 10 * c.deltaTime) (2 / 10)) = false :=
            decide_eq_false (fun h => hw (hwin.1 h))
          simp only [this, Bool.false_eq_true, if_false, T]
      · rintro _ (h | h)
        · rw [hA.1] at h; cases h
        · exact absurd hA.2 (not_le.2 h)
      · rw [ho]
        simp only
        split_ifs <;> exact e1
      · rw [ho]; exact hacc
    · have hc : ¬ (!g.inAir && (flowBodyRateComp ⟨s.gyro, s.dt⟩ c).2.2) = true := by
        simp only [Bool.and_eq_true, Bool.not_eq_true']
        rw [hret]; exact hA
      rw [if_neg hc] at ho
      refine ⟨fun h => absurd h hG, fun _ h1 h2 => absurd ⟨h1, h2⟩ hA, fun _ _ => ?_, fun h => ?_, ?_⟩
      · rw [ho]; exact ⟨rfl, rfl, rfl⟩
      · rw [ho]; exact (comp_gyro s c h).1
      · rw [ho]; exact hacc

/-- **C121 (no division by a vanishing interval).** Whenever a sample is kept for fusion its integration interval is at least 1 ms and at most
0.8 s, whatever the sensor reported. -/
theorem flow_interval (g : FlowGate) (s : FlowSample) (c : FlowComp) (h : (flowAdmit g s c).ready = true) :
    1 / 1000 ≤ (flowAdmit g s c).sample.dt ∧ (flowAdmit g s c).sample.dt ≤ 8 / 10 := by
  obtain ⟨h1, h2, h3, -, -⟩ := flow_admission g s c
  by_cases hG : Spec.FlowGood g s c.deltaTime
  · rw [(h1 hG).2.1]
    obtain ⟨-, -, -, -, -, a, b⟩ := hG
    exact ⟨a, by linarith⟩
  · by_cases hA : g.inAir = false ∧ c.deltaTime ≤ 1
    · obtain ⟨-, -, k1, k2⟩ := h2 hG hA.1 hA.2
      by_cases hw : 8 / 10 * c.deltaTime ≤ s.dt ∧ s.dt ≤ 12 / 10 * c.deltaTime ∧ 1 / 1000 ≤ s.dt ∧ s.dt ≤ 2 / 10
      · rw [k1 hw]; exact ⟨hw.2.2.1, by linarith [hw.2.2.2]⟩
      · rw [k2 hw]
        refine ⟨le_max_right _ _, max_le (by linarith [hA.2]) (by norm_num)⟩
    · have := (h3 hG (by
        by_contra hc
        rw [not_or, not_lt, Bool.not_eq_true] at hc
        exact hA hc)).1
      rw [h] at this; cases this

/-- frames since (not including) the last one with a sample -/
def Spec.sinceSample (l : List FlowFrame) : List FlowFrame := l.reverse.takeWhile (fun f => f.sample.isNone)

/-- **C121 (accumulation).** After any number of filter updates the accumulated rotation and time are the sums over the updates since the
last flow sample, each rotation corrected for the gyro bias estimate of its update: rotation and flow refer to the same interval. -/
theorem flow_accumulators (c : FlowComp) (fs : List FlowFrame) (h0 : c.delAng = 0 ∧ c.deltaTime = 0) :
    let t := fs.foldl flowFrame c
    (∀ i, t.delAng i = ((Spec.sinceSample fs).map fun f => f.delAng i - f.bias i).sum) ∧
    t.deltaTime = ((Spec.sinceSample fs).map fun f => f.dt).sum := by
  induction fs using List.reverseRecOn with
  | nil => simp [Spec.sinceSample, h0.1, h0.2]
  | append_singleton l f ih =>
    simp only [List.foldl_append, List.foldl_cons, List.foldl_nil]
    simp only at ih
    generalize l.foldl flowFrame c = t at ih
    unfold Spec.sinceSample at ih ⊢
    rw [List.reverse_append, List.reverse_singleton, List.singleton_append, List.takeWhile_cons]
    cases hs : f.sample with
    | none =>
      simp only [Option.isNone_none, if_true, List.map_cons, List.sum_cons, ← ih.1, ← ih.2]
      unfold flowFrame
      rw [hs]
      simp only [flowAccumulate]
      exact ⟨fun i => by ring, by ring⟩
    | some p =>
      obtain ⟨g, s⟩ := p
      have hc := (flow_admission g s (flowAccumulate f.delAng f.bias f.dt t)).2.2.2.2
      simp only [Option.isNone_some, Bool.false_eq_true, if_false, List.map_nil, List.sum_nil]
      unfold flowFrame
      rw [hs]
      simp only
      rw [hc.1, hc.2]
      exact ⟨fun i => rfl, rfl⟩

/-! ## Findings -/

/-- **C121 (finding).** A sample whose flow is NaN passes the magnitude test and is used, with a NaN line of sight rate. -/
theorem nan_flow_admitted (g : FlowGate) (s : FlowSample) (c : FlowComp) (hf : s.flow = none) (hq : g.qualMin ≤ s.quality)
    (ht : g.cosMaxTilt < g.r22) (hd : s.dt = c.deltaTime) (h1 : 1 / 1000 ≤ s.dt) (h2 : s.dt ≤ 2 / 10) :
    (flowAdmit g s c).ready = true ∧ (flowAdmit g s c).comp = some none := by
  obtain ⟨k, -⟩ := flow_admission g s c
  have hG : Spec.FlowGood g s c.deltaTime :=
    ⟨hq, (fun f h => by rw [hf] at h; cases h), ht, by linarith, by linarith, h1, h2⟩
  obtain ⟨a, -, -, b⟩ := k hG
  exact ⟨a, b hf⟩

/-- **C121 (finding).** Before the autopilot has set the flow limits the maximum rate is zero and every sample with any flow is dropped in the
air. -/
theorem no_limit_no_flow (g : FlowGate) (s : FlowSample) (c : FlowComp) (hm : g.maxRate = 0) (ha : g.inAir = true) {f : Fin 2 → ℝ}
    (hf : s.flow = some f) (hne : f ≠ 0) : (flowAdmit g s c).ready = false := by
  obtain ⟨-, -, h3, -⟩ := flow_admission g s c
  refine (h3 ?_ (Or.inl ha)).1
  rintro ⟨-, h, -⟩
  have := h f hf
  rw [hm] at this
  apply hne
  have h0 : f 0 = 0 := by nlinarith [sq_nonneg (f 0), sq_nonneg (f 1)]
  have h1 : f 1 = 0 := by nlinarith [sq_nonneg (f 0), sq_nonneg (f 1)]
  funext i; fin_cases i <;> simp [h0, h1]

/-- samples of a perfect flow gyro: it measures the rotation of the inertial frame about the body, the negative of the body rotation
(EKF/common.h:140, EKF/optflow_fusion.cpp:362-363), over the same interval -/
def perfectGyro (c : FlowComp) (w : V3 ℝ) (dt : ℝ) : FlowComp :=
  (flowBodyRateComp ⟨some fun i => -(w i * dt), dt⟩ { c with delAng := fun i => w i * dt, deltaTime := dt }).1

/-- **C84 (finding).** The bias of a perfect flow gyro is estimated as minus twice the body rate (limited to 0.1 rad/s): the difference of measured
and reference rate is taken without regard to their opposite signs.  With a constant body rate the estimate approaches that value
geometrically. -/
theorem flow_bias_of_perfect_gyro (w b0 : V3 ℝ) (dt : ℝ) (h1 : fltEps < dt) (h2 : dt ≤ 1) (n : ℕ) (i : Fin 3) :
    (((fun c => perfectGyro c w dt)^[n]) ⟨0, 0, b0⟩).bias i =
      max (-(1 / 10)) (min (-2 * w i) (1 / 10)) + (99 / 100) ^ n * (b0 i - max (-(1 / 10)) (min (-2 * w i) (1 / 10))) := by
  have hpos : 0 < dt := lt_trans (by unfold fltEps; norm_num) h1
  induction n with
  | zero => simp
  | succ n ih =>
    rw [Function.iterate_succ_apply']
    generalize ((fun c => perfectGyro c w dt)^[n]) ⟨0, 0, b0⟩ = c at ih
    obtain ⟨-, -, -, -, h⟩ := flow_rate_comp ⟨some fun i => -(w i * dt), dt⟩ { c with delAng := fun i => w i * dt, deltaTime := dt }
    have := (h _ h2 rfl).2 i
    unfold perfectGyro
    rw [this]
    simp only
    rw [if_pos ⟨h1, h1, by rw [sub_self, abs_zero]; norm_num⟩]
    have e : -(w i * dt) / dt - w i * dt / dt = -2 * w i := by field_simp; ring
    rw [e, ih, pow_succ]
    ring

/-- **C84 (finding).** Consequence: a steady turn at 0.05 rad/s or more with a perfect gyro drives the bias to −0.1 rad/s, an error of the line
of sight rate, while without any sensor gyro (where the code uses the very same rotation) the bias is zero. -/
theorem flow_bias_wrong (w : V3 ℝ) (dt : ℝ) (h1 : fltEps < dt) (h2 : dt ≤ 1) (i : Fin 3) (hw : 1 / 20 ≤ w i) :
    (∀ n, (((fun c => perfectGyro c w dt)^[n]) ⟨0, 0, 0⟩).bias i = -(1 / 10) * (1 - (99 / 100) ^ n)) ∧
    (flowBodyRateComp ⟨none, dt⟩ ⟨fun i => w i * dt, dt, 0⟩).1.bias i = 0 ∧
    (flowBodyRateComp ⟨none, dt⟩ ⟨fun i => w i * dt, dt, 0⟩).2.1 =
      (flowBodyRateComp ⟨some fun i => -(w i * dt), dt⟩ ⟨fun i => w i * dt, dt, 0⟩).2.1 := by
  refine ⟨fun n => ?_, ?_, ?_⟩
  · rw [flow_bias_of_perfect_gyro w 0 dt h1 h2 n i]
    have : max (-(1 / 10)) (min (-2 * w i) (1 / 10)) = -(1 / 10 : ℝ) := by
      rw [min_eq_left (by linarith), max_eq_left (by linarith)]
    rw [this]
    simp only [Pi.zero_apply]
    ring
  · obtain ⟨-, -, -, h, -⟩ := flow_rate_comp ⟨none, dt⟩ ⟨fun i => w i * dt, dt, 0⟩
    rw [(h h2 rfl).1]; rfl
  · obtain ⟨-, -, -, h, -⟩ := flow_rate_comp ⟨none, dt⟩ ⟨fun i => w i * dt, dt, 0⟩
    obtain ⟨-, -, -, -, h'⟩ := flow_rate_comp ⟨some fun i => -(w i * dt), dt⟩ ⟨fun i => w i * dt, dt, 0⟩
    rw [(h h2 rfl).2, (h' _ h2 rfl).1]
    rfl

/-- **C84.** Without rotation the estimate is right: the bias of the sensor gyro (up to 0.1 rad/s) is approached geometrically. -/
theorem flow_bias_at_rest (b b0 : V3 ℝ) (dt : ℝ) (h1 : fltEps < dt) (h2 : dt ≤ 1) (i : Fin 3) (hb : |b i| ≤ 1 / 10) (n : ℕ) :
    (((fun c : FlowComp => (flowBodyRateComp ⟨some fun i => b i * dt, dt⟩ { c with delAng := 0, deltaTime := dt }).1)^[n]) ⟨0, 0, b0⟩).bias i =
      b i + (99 / 100) ^ n * (b0 i - b i) := by
  have hpos : 0 < dt := lt_trans (by unfold fltEps; norm_num) h1
  induction n with
  | zero => simp
  | succ n ih =>
    rw [Function.iterate_succ_apply']
    generalize ((fun c : FlowComp => (flowBodyRateComp ⟨some fun i => b i * dt, dt⟩ { c with delAng := 0, deltaTime := dt }).1)^[n]) ⟨0, 0, b0⟩ = c at ih
    obtain ⟨-, -, -, -, h⟩ := flow_rate_comp ⟨some fun i => b i * dt, dt⟩ { c with delAng := 0, deltaTime := dt }
    rw [(h _ h2 rfl).2 i]
    simp only
    rw [if_pos ⟨h1, h1, by rw [sub_self, abs_zero]; norm_num⟩]
    have e : b i * dt / dt - (0 : V3 ℝ) i / dt = b i := by simp; field_simp
    have hb' := abs_le.1 hb
    rw [e, min_eq_left hb'.2, max_eq_right hb'.1, ih, pow_succ]
    ring

/-- Non-vacuity: a good sample of 50 ms. -/
example : Spec.FlowGood ⟨1, 5, 7 / 10, 1, true⟩ ⟨some ![1 / 10, 0], none, 1 / 20, 100⟩ (1 / 20) := by
  refine ⟨by norm_num, ?_, by norm_num, by norm_num, by norm_num, by norm_num, by norm_num⟩
  intro f hf
  simp only [Option.some.injEq] at hf
  subst hf
  norm_num

/-- Non-vacuity: a sample with zero interval is kept on the ground, with an interval of 40 ms for 50 ms accumulated. -/
example : (flowAdmit ⟨1, 5, 7 / 10, 1, false⟩ ⟨some ![0, 0], none, 0, 0⟩ ⟨0, 1 / 20, 0⟩).sample.dt = 1 / 25 := by
  obtain ⟨-, h, -⟩ := flow_admission ⟨1, 5, 7 / 10, 1, false⟩ ⟨some ![0, 0], none, 0, 0⟩ ⟨0, 1 / 20, 0⟩
  have := (h (by rintro ⟨h, -⟩; simp at h) rfl (by norm_num)).2.2.2 (by norm_num)
  rw [this]; norm_num

end

end Ecl.Fusion
