import Verif.RangeFinder.Props2

/-!
# C172 — the range finder in one filter step: from the buffer to a height above ground

EKF/control.cpp:122-141, EKF/sensor_range_finder.hpp:71-98.  Parameters are set every step, the checks run with the attitude of the fusion horizon, and a healthy range is
corrected for the position of the sensor relative to the IMU, in place.
-/

namespace Ecl.RangeFinder

open scoped Matrix

noncomputable section

/-! ## Model -/

/-- parameters read, EKF/control.cpp:128-138 -/
structure RngPar where
  /-- `rng_sens_pitch`, `range_cos_max_tilt`, `range_valid_quality_s` -/
  pitch : ℝ
  cosMaxTilt : ℝ
  qualityS : ℝ
  /-- `rng_pos_body`, `imu_pos_body` -/
  rngBody : V3 ℝ
  imuBody : V3 ℝ

/-- `setQualityHysteresis`, EKF/sensor_range_finder.hpp:87-89; the conversion to `uint64_t` is the floor (only defined in C++ for values in its range) -/
def RF.setQualityHysteresis (s : RF ℝ) (q : ℝ) : RF ℝ := { s with qualityHyst := UInt64.ofNat ⌊q * 1000000⌋₊ }

/-- `setRange`, EKF/sensor_range_finder.hpp:93 -/
def RF.setRange (s : RF ℝ) (r : ℝ) : RF ℝ := { s with sample := { s.sample with rng := r } }

/-- the range finder part of `controlFusionModes`, EKF/control.cpp:122-141: the sample from the buffer (`popped`), parameters, checks at the delayed time `now` with the attitude `R`,
correction of the sensor position -/
def RF.step (p : RngPar) (now : UInt64) (R : M3 ℝ) (popped : Option (RangeSample ℝ)) (s : RF ℝ) : RF ℝ :=
  let s := s.deliver popped
  let s := ((s.setPitchOffset p.pitch).setCosMaxTilt p.cosMaxTilt).setQualityHysteresis p.qualityS
  let s := s.runChecks now (R 2 0) (R 2 2)
  if s.isDataHealthy then s.setRange (s.sample.rng + (R *ᵥ (p.rngBody - p.imuBody)) 2 / s.cosTilt) else s

/-! ## Specification -/

/-- down component of the direction in which the sensor looks, for the mounting pitch `p` -/
def Spec.lookDown (R : M3 ℝ) (p : ℝ) : ℝ := (R *ᵥ ![Real.sin p, 0, Real.cos p]) 2

/-- the stored sine and cosine belong to the stored pitch -/
def Spec.Configured (s : RF ℝ) : Prop := s.sinPitch = Real.sin s.pitchOffset ∧ s.cosPitch = Real.cos s.pitchOffset

/-! ## Theorems -/

theorem setPitch_frame (s : RF ℝ) (p : ℝ) :
    s.setPitchOffset p = { s with sinPitch := (s.setPitchOffset p).sinPitch, cosPitch := (s.setPitchOffset p).cosPitch, pitchOffset := (s.setPitchOffset p).pitchOffset } := by
  unfold RF.setPitchOffset
  split <;> rfl

theorem setPitch_configured (s : RF ℝ) (p : ℝ) (h : Spec.Configured s) : Spec.Configured (s.setPitchOffset p) ∧ |(s.setPitchOffset p).pitchOffset - p| ≤ 1 / 2 ^ 23 := by
  unfold RF.setPitchOffset
  split
  · exact ⟨⟨rfl, rfl⟩, by simp⟩
  · rename_i c
    exact ⟨h, not_lt.mp c⟩

/-- **C172 (when).** From any state of the sensor whose stored sine and cosine belong to its pitch: after the step the data are healthy exactly if a sample was delivered, is at most 0.4 s old,
samples arrive at intervals below 2 s on filtered average, its quality is not zero and no sample of zero quality was seen during the configured hysteresis, the direction of the sensor
— with the mounting pitch given, to float epsilon — is within the configured tilt, the measured range is within the limits, and the stuck detector releases it. -/
theorem range_step_healthy (p : RngPar) (now : UInt64) (R : M3 ℝ) (x : RangeSample ℝ) (s : RF ℝ) (hs : Spec.Configured s) (hq : p.qualityS * 1000000 < 2 ^ 64) :
    ∃ p', |p' - p.pitch| ≤ 1 / 2 ^ 23 ∧ (RF.step p now R (some x) s).cosTilt = Spec.lookDown R p' ∧
    ((RF.step p now R (some x) s).isDataHealthy = true ↔
      (now - x.timeUs).toNat ≤ 400000 ∧ min (s.dtLpf * (199 / 200) + (now - x.timeUs).toNat / 200) 4000000 < 2000000 ∧
      x.quality ≠ 0 ∧ ⌊p.qualityS * 1000000⌋₊ < (now - s.timeBadQuality).toNat ∧ p.cosMaxTilt < Spec.lookDown R p' ∧ s.minVal ≤ x.rng ∧ x.rng ≤ s.maxVal ∧
      (((x.timeUs - s.timeLastValid).toNat ≤ 10000000 ∧ s.stuck = false) ∨ (10000000 < (x.timeUs - s.timeLastValid).toNat ∧ 1 / 10 < s.stuckMax - s.stuckMin))) := by
  set d : RF ℝ := s.deliver (some x) with hd
  have hdc : Spec.Configured d := hs
  obtain ⟨⟨c1, c2⟩, c3⟩ := setPitch_configured d p.pitch hdc
  set t : RF ℝ := ((d.setPitchOffset p.pitch).setCosMaxTilt p.cosMaxTilt).setQualityHysteresis p.qualityS with ht
  set u := t.runChecks now (R 2 0) (R 2 2) with hu
  have hstep : RF.step p now R (some x) s = if u.isDataHealthy then u.setRange (u.sample.rng + (R *ᵥ (p.rngBody - p.imuBody)) 2 / u.cosTilt) else u := rfl
  have hh : (RF.step p now R (some x) s).isDataHealthy = u.isDataHealthy ∧ (RF.step p now R (some x) s).cosTilt = u.cosTilt := by
    rw [hstep]
    split <;> exact ⟨rfl, rfl⟩
  have e := setPitch_frame d p.pitch
  have f : t.ready = true ∧ t.sample = x ∧ t.dtLpf = s.dtLpf ∧ t.timeBadQuality = s.timeBadQuality ∧ t.minVal = s.minVal ∧ t.maxVal = s.maxVal ∧
      t.timeLastValid = s.timeLastValid ∧ t.stuck = s.stuck ∧ t.stuckMin = s.stuckMin ∧ t.stuckMax = s.stuckMax ∧ t.cosMaxTilt = p.cosMaxTilt ∧
      t.qualityHyst = UInt64.ofNat ⌊p.qualityS * 1000000⌋₊ ∧ t.sinPitch = (d.setPitchOffset p.pitch).sinPitch ∧ t.cosPitch = (d.setPitchOffset p.pitch).cosPitch := by
    rw [ht, e]
    exact ⟨rfl, rfl, rfl, rfl, rfl, rfl, rfl, rfl, rfl, rfl, rfl, rfl, rfl, rfl⟩
  obtain ⟨f1, f2, f3, f4, f5, f6, f7, f8, f9, f10, f11, f12, f13, f14⟩ := f
  have look : R 2 0 * t.sinPitch + R 2 2 * t.cosPitch = Spec.lookDown R (d.setPitchOffset p.pitch).pitchOffset := by
    rw [f13, f14, c1, c2]
    unfold Spec.lookDown
    simp [Matrix.mulVec, dotProduct, Fin.sum_univ_three]
  have hyst : t.qualityHyst.toNat = ⌊p.qualityS * 1000000⌋₊ := by
    rw [f12, UInt64.toNat_ofNat']
    refine Nat.mod_eq_of_lt ?_
    rcases le_total 0 (p.qualityS * 1000000) with h | h
    · rw [Nat.floor_lt h]
      exact_mod_cast hq
    · rw [Nat.floor_of_nonpos h]
      norm_num
  refine ⟨(d.setPitchOffset p.pitch).pitchOffset, c3, ?_, ?_⟩
  · rw [hh.2, hu, (runChecks_config t now (R 2 0) (R 2 2)).1, look]
  · rw [hh.1, hu, healthy_iff_all_checks]
    unfold Released
    rw [f2, f7, f8, f9, f10]
    constructor
    · rintro ⟨⟨-, a2, a3, a4, a5, a6, a7, a8⟩, b⟩
      unfold RF.nextLpf at a3
      unfold RF.age at a2 a3
      rw [f2] at a2 a3 a4 a7 a8
      rw [f3] at a3
      rw [hyst, f4] at a5
      rw [f11, look] at a6
      rw [f5] at a7
      rw [f6] at a8
      exact ⟨a2, a3, a4, a5, a6, a7, a8, b⟩
    · rintro ⟨a2, a3, a4, a5, a6, a7, a8, b⟩
      refine ⟨⟨f1, ?_, ?_, ?_, ?_, ?_, ?_, ?_⟩, b⟩
      · unfold RF.age; rw [f2]; exact a2
      · unfold RF.nextLpf RF.age; rw [f2, f3]; exact a3
      · rw [f2]; exact a4
      · rw [hyst, f4]; exact a5
      · rw [f11, look]; exact a6
      · rw [f5, f2]; exact a7
      · rw [f6, f2]; exact a8

/-- **C172 (no sample).** Without a new sample the data are not healthy and the stored range is not corrected again. -/
theorem range_step_none (p : RngPar) (now : UInt64) (R : M3 ℝ) (s : RF ℝ) :
    (RF.step p now R none s).isDataHealthy = false ∧ (RF.step p now R none s).sample = s.sample := by
  set t : RF ℝ := (((s.deliver none).setPitchOffset p.pitch).setCosMaxTilt p.cosMaxTilt).setQualityHysteresis p.qualityS with ht
  have f : t.ready = false ∧ t.sample = s.sample := by
    rw [ht, setPitch_frame]
    exact ⟨rfl, rfl⟩
  have h1 := runChecks_eval t now (R 2 0) (R 2 2)
  have hn : (t.runChecks now (R 2 0) (R 2 2)).isDataHealthy = false := by
    unfold RF.isDataHealthy
    rw [h1.2.1, f.1]
    rfl
  have hstep : RF.step p now R none s = if (t.runChecks now (R 2 0) (R 2 2)).isDataHealthy then
      (t.runChecks now (R 2 0) (R 2 2)).setRange ((t.runChecks now (R 2 0) (R 2 2)).sample.rng + (R *ᵥ (p.rngBody - p.imuBody)) 2 / (t.runChecks now (R 2 0) (R 2 2)).cosTilt)
      else t.runChecks now (R 2 0) (R 2 2) := rfl
  rw [hstep, hn]
  exact ⟨hn, h1.2.2.1.trans f.2⟩

/-- the sample after a step with data: corrected if healthy, unchanged otherwise -/
theorem range_step_sample (p : RngPar) (now : UInt64) (R : M3 ℝ) (x : RangeSample ℝ) (s : RF ℝ) :
    let o := RF.step p now R (some x) s
    o.sample.timeUs = x.timeUs ∧ o.sample.quality = x.quality ∧
    o.sample.rng = if o.isDataHealthy then x.rng + (R *ᵥ (p.rngBody - p.imuBody)) 2 / o.cosTilt else x.rng := by
  intro o
  set t : RF ℝ := (((s.deliver (some x)).setPitchOffset p.pitch).setCosMaxTilt p.cosMaxTilt).setQualityHysteresis p.qualityS with ht
  have f : t.sample = x := by
    rw [ht, setPitch_frame]
    rfl
  have h1 := (runChecks_eval t now (R 2 0) (R 2 2)).2.2.1
  set u := t.runChecks now (R 2 0) (R 2 2) with hu
  have hus : u.sample = x := h1.trans f
  have hstep : o = if u.isDataHealthy then u.setRange (u.sample.rng + (R *ᵥ (p.rngBody - p.imuBody)) 2 / u.cosTilt) else u := rfl
  clear_value o
  clear_value u
  rcases Bool.eq_false_or_eq_true u.isDataHealthy with h | h
  · rw [h, if_pos rfl] at hstep
    subst hstep
    refine ⟨(congrArg RangeSample.timeUs hus : u.sample.timeUs = x.timeUs), (congrArg RangeSample.quality hus : u.sample.quality = x.quality), ?_⟩
    rw [if_pos (show (u.setRange (u.sample.rng + (R *ᵥ (p.rngBody - p.imuBody)) 2 / u.cosTilt)).isDataHealthy = true from h), ← hus]
    rfl
  · rw [h, if_neg Bool.false_ne_true] at hstep
    subst hstep
    rw [h, if_neg Bool.false_ne_true, hus]
    exact ⟨rfl, rfl, rfl⟩

/-- **C172 (height).** Level ground, `H` below the IMU; the sensor sits at `rngBody − imuBody` from the IMU (body axes, attitude `R`) and measures the distance to the ground along its
direction.  If the data are healthy after the step (and the tilt limit is not beyond the horizon), the distance to the ground that the filter uses is `H`: the height of the IMU, whatever tilt, mounting pitch and
sensor position. -/
theorem range_step_height (p : RngPar) (now : UInt64) (R : M3 ℝ) (x : RangeSample ℝ) (s : RF ℝ) (H : ℝ) (hs : Spec.Configured s) (hq : p.qualityS * 1000000 < 2 ^ 64) (hc : 0 ≤ p.cosMaxTilt)
    (hh : (RF.step p now R (some x) s).isDataHealthy = true)
    (hg : x.rng * (RF.step p now R (some x) s).cosTilt = H - (R *ᵥ (p.rngBody - p.imuBody)) 2) : (RF.step p now R (some x) s).getDistBottom = H := by
  obtain ⟨p', -, e, h⟩ := range_step_healthy p now R x s hs hq
  have hpos : 0 < (RF.step p now R (some x) s).cosTilt := by
    rw [e]
    exact lt_of_le_of_lt hc (h.mp hh).2.2.2.2.1
  have hsm := (range_step_sample p now R x s).2.2
  rw [hh, if_pos rfl] at hsm
  unfold RF.getDistBottom
  rw [hsm, add_mul, hg, div_mul_cancel₀ _ hpos.ne']
  ring

/-- the configuration is kept, so that the theorems apply to every step of a history -/
theorem range_step_configured (p : RngPar) (now : UInt64) (R : M3 ℝ) (x : Option (RangeSample ℝ)) (s : RF ℝ) (hs : Spec.Configured s) : Spec.Configured (RF.step p now R x s) := by
  have hd : Spec.Configured (s.deliver x) := by cases x <;> exact hs
  have h1 := (setPitch_configured (s.deliver x) p.pitch hd).1
  set t : RF ℝ := (((s.deliver x).setPitchOffset p.pitch).setCosMaxTilt p.cosMaxTilt).setQualityHysteresis p.qualityS with ht
  have h2 : Spec.Configured t := h1
  have pf : ∀ u : RF ℝ, u.updateStuckCheck.pitchOffset = u.pitchOffset := by
    intro u
    unfold RF.updateStuckCheck
    split_ifs <;> rfl
  have pr : (t.runChecks now (R 2 0) (R 2 2)).pitchOffset = t.pitchOffset := by
    unfold RF.runChecks RF.updateValidity RF.checkReady
    dsimp only
    split_ifs <;> first | rfl | exact pf _
  obtain ⟨-, -, -, a, b, -⟩ := runChecks_config t now (R 2 0) (R 2 2)
  have h3 : Spec.Configured (t.runChecks now (R 2 0) (R 2 2)) := by
    unfold Spec.Configured
    rw [a, b, pr]
    exact h2
  show Spec.Configured (if (t.runChecks now (R 2 0) (R 2 2)).isDataHealthy then _ else _)
  split
  · exact h3
  · exact h3

/-- a sequence of steps, each with its own parameters, time, attitude and sample -/
def RF.steps (s : RF ℝ) (l : List (RngPar × UInt64 × M3 ℝ × Option (RangeSample ℝ))) : RF ℝ := l.foldl (fun s c => RF.step c.1 c.2.1 c.2.2.1 c.2.2.2 s) s

/-- **C172 (corrected once).** Over any history the stored range is the initial one or the one of a sample of the history, with at most one correction: the one of the step that delivered it. -/
theorem range_corrected_once (s : RF ℝ) (l : List (RngPar × UInt64 × M3 ℝ × Option (RangeSample ℝ))) :
    (s.steps l).sample = s.sample ∨ ∃ c ∈ l, ∃ x, c.2.2.2 = some x ∧ (s.steps l).sample.timeUs = x.timeUs ∧
      ((s.steps l).sample.rng = x.rng ∨ ∃ k, (s.steps l).sample.rng = x.rng + (c.2.2.1 *ᵥ (c.1.rngBody - c.1.imuBody)) 2 / k) := by
  induction l using List.reverseRecOn with
  | nil => exact Or.inl rfl
  | append_singleton l c ih =>
    have e : s.steps (l ++ [c]) = RF.step c.1 c.2.1 c.2.2.1 c.2.2.2 (s.steps l) := by
      unfold RF.steps
      rw [List.foldl_append]
      rfl
    rw [e]
    rcases hx : c.2.2.2 with _ | x
    · rw [(range_step_none c.1 c.2.1 c.2.2.1 (s.steps l)).2]
      rcases ih with h | ⟨d, hd, r⟩
      · exact Or.inl h
      · exact Or.inr ⟨d, List.mem_append_left _ hd, r⟩
    · obtain ⟨a, -, b⟩ := range_step_sample c.1 c.2.1 c.2.2.1 x (s.steps l)
      refine Or.inr ⟨c, by simp, x, hx, a, ?_⟩
      rw [b]
      split
      · exact Or.inr ⟨_, rfl⟩
      · exact Or.inl rfl

theorem setRange_cosTilt (s : RF ℝ) (r : ℝ) : (s.setRange r).cosTilt = s.cosTilt := rfl
theorem setRange_healthy (s : RF ℝ) (r : ℝ) : (s.setRange r).isDataHealthy = s.isDataHealthy := rfl

/-- looking straight down, sensor 0.5 m below the IMU -/
def exRngPar : RngPar := ⟨0, 7 / 10, 1 / 10, ![0, 0, 1 / 2], 0⟩

/-- range 2 m -/
def exRngSample : RangeSample ℝ := ⟨1000000, 2, 50⟩

/-- a configured sensor -/
def exRngSt : RF ℝ := { (RF.init : RF ℝ) with pitchOffset := 0, sinPitch := 0, cosPitch := 1, minVal := 1, maxVal := 10 }

/-- a configured sensor and one fresh sample: sensor 0.5 m below the IMU, range 2 m, level: the height used is 2.5 m -/
example : ∃ (p : RngPar) (x : RangeSample ℝ) (s : RF ℝ), Spec.Configured s ∧ p.qualityS * 1000000 < 2 ^ 64 ∧ 0 ≤ p.cosMaxTilt ∧
    (RF.step p 1000000 1 (some x) s).isDataHealthy = true ∧ (RF.step p 1000000 1 (some x) s).getDistBottom = 5 / 2 := by
  let p : RngPar := exRngPar
  let x : RangeSample ℝ := exRngSample
  let s : RF ℝ := exRngSt
  have hs : Spec.Configured s := ⟨Real.sin_zero.symm, Real.cos_zero.symm⟩
  have hq : p.qualityS * 1000000 < 2 ^ 64 := by norm_num [p, exRngPar]
  have hp : s.setPitchOffset p.pitch = s := by
    unfold RF.setPitchOffset
    rw [if_neg (by norm_num [s, p, exRngPar, exRngSt])]
  have hct : (RF.step p 1000000 1 (some x) s).cosTilt = 1 ∧ (RF.step p 1000000 1 (some x) s).isDataHealthy = true := by
    set d := s.deliver (some x)
    have hpd : d.setPitchOffset p.pitch = d := by
      unfold RF.setPitchOffset
      rw [if_neg (by norm_num [d, s, p, exRngPar, exRngSt, RF.deliver])]
    set t := (d.setCosMaxTilt p.cosMaxTilt).setQualityHysteresis p.qualityS with ht
    have hyst : t.qualityHyst.toNat = 100000 := by
      show (UInt64.ofNat ⌊(1 / 10 : ℝ) * 1000000⌋₊).toNat = 100000
      rw [show (1 / 10 : ℝ) * 1000000 = ((100000 : ℕ) : ℝ) by norm_num, Nat.floor_natCast]
      decide
    have hu : (t.runChecks 1000000 0 1).isDataHealthy = true := by
      rw [healthy_iff_all_checks]
      refine ⟨⟨rfl, by decide, ?_, by decide, by rw [hyst]; decide, ?_, ?_⟩, Or.inl ⟨by decide, rfl⟩⟩
      · simp [RF.nextLpf, RF.age, t, d, s, x, exRngSt, exRngSample, RF.deliver, RF.setCosMaxTilt, RF.setQualityHysteresis, RF.init]
      · norm_num [t, d, s, p, exRngPar, exRngSt, RF.deliver, RF.setCosMaxTilt, RF.setQualityHysteresis]
      · norm_num [t, d, s, x, exRngSample, exRngSt, RF.deliver, RF.setCosMaxTilt, RF.setQualityHysteresis]
    have hc : (t.runChecks 1000000 0 1).cosTilt = 1 := by
      rw [(runChecks_config t 1000000 0 1).1]
      show (0 : ℝ) * 0 + 1 * 1 = 1
      norm_num
    have hstep : RF.step p 1000000 1 (some x) s = (t.runChecks 1000000 0 1).setRange ((t.runChecks 1000000 0 1).sample.rng + ((1 : M3 ℝ) *ᵥ (p.rngBody - p.imuBody)) 2 / (t.runChecks 1000000 0 1).cosTilt) := by
      unfold RF.step
      dsimp only
      rw [hpd, show (1 : M3 ℝ) 2 0 = 0 from by simp, show (1 : M3 ℝ) 2 2 = 1 from by simp, if_pos hu]
    rw [hstep, setRange_cosTilt, setRange_healthy]
    exact ⟨hc, hu⟩
  refine ⟨p, x, s, hs, hq, by norm_num [p, exRngPar], hct.2, ?_⟩
  refine range_step_height p 1000000 1 x s (5 / 2) hs hq (by norm_num [p, exRngPar]) hct.2 ?_
  rw [hct.1, Matrix.one_mulVec]
  show (2 : ℝ) * 1 = 5 / 2 - (1 / 2 - 0)
  norm_num

end

end Ecl.RangeFinder
