import Verif.RangeFinder.Props

/-!
# C08, C62 — range finder: distance to ground, delivery of samples, unconfigured sensor

Theorems added after mutation testing: the reported distance, the two ways a sample is handed over and the state
of a freshly constructed object were not pinned down by `Verif.RangeFinder.Props`.
-/

namespace Ecl.RangeFinder

variable {K : Type*} [Field K] [LinearOrder K] [IsStrictOrderedRing K]

/-- the configuration is untouched by the checks, and the tilt cosine is that of the attitude just supplied -/
theorem runChecks_config (s : RF K) (now : UInt64) (R20 R22 : K) :
    (s.runChecks now R20 R22).cosTilt = R20 * s.sinPitch + R22 * s.cosPitch ∧
    (s.runChecks now R20 R22).minVal = s.minVal ∧ (s.runChecks now R20 R22).maxVal = s.maxVal ∧
    (s.runChecks now R20 R22).sinPitch = s.sinPitch ∧ (s.runChecks now R20 R22).cosPitch = s.cosPitch ∧
    (s.runChecks now R20 R22).cosMaxTilt = s.cosMaxTilt := by
  have hs : ∀ t : RF K, t.updateStuckCheck.cosTilt = t.cosTilt ∧ t.updateStuckCheck.minVal = t.minVal ∧
      t.updateStuckCheck.maxVal = t.maxVal ∧ t.updateStuckCheck.sinPitch = t.sinPitch ∧
      t.updateStuckCheck.cosPitch = t.cosPitch ∧ t.updateStuckCheck.cosMaxTilt = t.cosMaxTilt := by
    intro t; unfold RF.updateStuckCheck
    split
    · split <;> exact ⟨rfl, rfl, rfl, rfl, rfl, rfl⟩
    · exact ⟨rfl, rfl, rfl, rfl, rfl, rfl⟩
  have hc : ∀ t : RF K, (t.checkReady now).cosTilt = t.cosTilt ∧ (t.checkReady now).minVal = t.minVal ∧
      (t.checkReady now).maxVal = t.maxVal ∧ (t.checkReady now).sinPitch = t.sinPitch ∧
      (t.checkReady now).cosPitch = t.cosPitch ∧ (t.checkReady now).cosMaxTilt = t.cosMaxTilt := by
    intro t; unfold RF.checkReady
    split
    · exact ⟨rfl, rfl, rfl, rfl, rfl, rfl⟩
    · split
      · split
        · split <;> exact hs t
        · exact ⟨rfl, rfl, rfl, rfl, rfl, rfl⟩
      · exact ⟨rfl, rfl, rfl, rfl, rfl, rfl⟩
  rcases runChecks_cases s now R20 R22 with ⟨-, e⟩ | ⟨-, -, e⟩ | ⟨-, -, e⟩ <;> rw [e]
  · exact ⟨rfl, rfl, rfl, rfl, rfl, rfl⟩
  · exact hc (pre s now R20 R22)
  · exact ⟨rfl, rfl, rfl, rfl, rfl, rfl⟩

/-- **C62 (distance to ground).** After the checks the reported distance to ground is the vertical component of
the vector "measured range times sensor boresight" turned into the earth frame. -/
theorem distBottom_is_vertical_component (s : RF K) (now : UInt64) (R : M3 K) :
    (s.runChecks now (R 2 0) (R 2 2)).getDistBottom =
      (R.mulVec ![s.sample.rng * s.sinPitch, 0, s.sample.rng * s.cosPitch]) 2 := by
  unfold RF.getDistBottom
  rw [(runChecks_config s now _ _).1, (runChecks_eval s now _ _).2.2.1]
  simp [Matrix.mulVec, dotProduct, Fin.sum_univ_three]
  ring

/-- level vehicle, sensor looking straight down: the distance is the range itself -/
example : (exampleRF.runChecks 1000000 0 1).getDistBottom = 2 := by
  have := distBottom_is_vertical_component exampleRF 1000000 (1 : M3 ℚ)
  simpa [exampleRF, Matrix.mulVec, dotProduct, Fin.sum_univ_three] using this

/-- **C08 (hand-over).** A sample handed over directly is the one checked: the verdict on it is healthy exactly when
all documented checks pass for it, and it is the sample reported afterwards. -/
theorem handed_sample_is_checked (s : RF K) (x : RangeSample K) (now : UInt64) (R20 R22 : K) :
    ((s.setSample x).runChecks now R20 R22).sample = x ∧
    (((s.setSample x).runChecks now R20 R22).isDataHealthy = true ↔
      ((now - x.timeUs).toNat ≤ 400000 ∧
        min (s.dtLpf * (199 / 200) + ((now - x.timeUs).toNat : K) / 200) 4000000 < 2000000 ∧
        x.quality ≠ 0 ∧ s.qualityHyst.toNat < (now - s.timeBadQuality).toNat ∧
        s.cosMaxTilt < R20 * s.sinPitch + R22 * s.cosPitch ∧ s.minVal ≤ x.rng ∧ x.rng ≤ s.maxVal) ∧
      (((x.timeUs - s.timeLastValid).toNat ≤ 10000000 ∧ s.stuck = false) ∨
        (10000000 < (x.timeUs - s.timeLastValid).toNat ∧ 1 / 10 < s.stuckMax - s.stuckMin))) := by
  refine ⟨(runChecks_eval _ _ _ _).2.2.1, ?_⟩
  rw [healthy_iff_all_checks]
  constructor
  · rintro ⟨⟨-, b, c, d, e, f, g⟩, h⟩
    exact ⟨⟨b, c, d, e, f, g⟩, h⟩
  · rintro ⟨⟨b, c, d, e, f, g⟩, h⟩
    exact ⟨⟨rfl, b, c, d, e, f, g⟩, h⟩

/-- **C08 (hand-over).** Marking the data as not ready suppresses the healthy verdict, whatever the sample. -/
theorem not_ready_not_healthy (s : RF K) (now : UInt64) (R20 R22 : K) :
    ((s.setDataReadiness false).runChecks now R20 R22).isDataHealthy = false := by
  unfold RF.isDataHealthy
  rw [(runChecks_eval _ _ _ _).2.1]; rfl

example : ((({ exampleRF with ready := false } : RF ℚ).setSample ⟨1000000, 3, 50⟩).runChecks 1000000 0 1).isDataHealthy
    = true := by
  rw [(handed_sample_is_checked _ _ _ _ _).2]
  refine ⟨⟨by decide, ?_, by decide, by decide, ?_, ?_⟩, Or.inl ⟨by decide, rfl⟩⟩
  · simp [exampleRF, RF.init]
  · norm_num [exampleRF, RF.init]
  · norm_num [exampleRF]

theorem cycle_config (s : RF K) (c : Cycle K) :
    (s.cycle c).minVal = s.minVal ∧ (s.cycle c).maxVal = s.maxVal ∧ (s.cycle c).sinPitch = s.sinPitch ∧
    (s.cycle c).cosPitch = s.cosPitch ∧ (s.cycle c).cosMaxTilt = s.cosMaxTilt := by
  unfold RF.cycle
  obtain ⟨-, h⟩ := runChecks_config (s.deliver c.popped) c.now c.R20 c.R22
  cases hp : c.popped <;> rw [hp] at h <;> exact h

theorem cycles_config (s : RF K) (cs : List (Cycle K)) :
    (s.cycles cs).minVal = s.minVal ∧ (s.cycles cs).maxVal = s.maxVal ∧ (s.cycles cs).sinPitch = s.sinPitch ∧
    (s.cycles cs).cosPitch = s.cosPitch ∧ (s.cycles cs).cosMaxTilt = s.cosMaxTilt := by
  induction cs generalizing s with
  | nil => exact ⟨rfl, rfl, rfl, rfl, rfl⟩
  | cons c cs ih =>
    obtain ⟨a, b, d, e, f⟩ := ih (s.cycle c)
    obtain ⟨a', b', d', e', f'⟩ := cycle_config s c
    exact ⟨a.trans a', b.trans b', d.trans d', e.trans e', f.trans f'⟩

/-- **C08 (start-up).** A freshly constructed sensor object reports neither healthy nor regularly arriving data, and
distance zero. -/
theorem fresh_reports_nothing :
    (RF.init : RF K).isHealthy = false ∧ (RF.init : RF K).isDataHealthy = false ∧
    (RF.init : RF K).isRegularlySendingData = false ∧ (RF.init : RF K).getDistBottom = 0 :=
  ⟨rfl, rfl, rfl, zero_mul _⟩

/-- **C08 (unconfigured limits).** As long as no limits are set, no sample other than an exact zero range is ever
declared healthy, over any history of deliveries and attitudes. -/
theorem unconfigured_only_zero (cs : List (Cycle K)) (c : Cycle K)
    (h : (((RF.init : RF K).cycles cs).cycle c).isDataHealthy = true) :
    (((RF.init : RF K).cycles cs).cycle c).sample.rng = 0 := by
  obtain ⟨a, b, -⟩ := cycles_config (RF.init : RF K) cs
  unfold RF.cycle at h ⊢
  have hu := ((healthy_iff_all_checks _ _ _ _).mp h).1.inRange
  rw [(runChecks_eval _ _ _ _).2.2.1]
  have hd : (((RF.init : RF K).cycles cs).deliver c.popped).minVal = 0 ∧
      (((RF.init : RF K).cycles cs).deliver c.popped).maxVal = 0 := by
    cases c.popped <;> exact ⟨a, b⟩
  rw [hd.1, hd.2] at hu
  exact le_antisymm hu.2 hu.1

/-- **C08 (unconfigured mounting).** As long as no mounting pitch is set, the sensor is taken to look upwards along
the vehicle's vertical axis: in any history a verdict of healthy data requires a vehicle more than 45 degrees past
upside down (third diagonal element of the attitude matrix below -0.7071), whatever limits are configured. -/
theorem unconfigured_looks_up (mn mx : K) (cs : List (Cycle K)) (c : Cycle K)
    (h : ((((RF.init : RF K).setLimits mn mx).cycles cs).cycle c).isDataHealthy = true) :
    c.R22 < -(7071 / 10000) ∧
    mn ≤ ((((RF.init : RF K).setLimits mn mx).cycles cs).cycle c).sample.rng ∧
    ((((RF.init : RF K).setLimits mn mx).cycles cs).cycle c).sample.rng ≤ mx := by
  obtain ⟨a, b, d, e, f⟩ := cycles_config ((RF.init : RF K).setLimits mn mx) cs
  unfold RF.cycle at h ⊢
  have hu := ((healthy_iff_all_checks _ _ _ _).mp h).1
  rw [(runChecks_eval _ _ _ _).2.2.1]
  generalize ((RF.init : RF K).setLimits mn mx).cycles cs = t at *
  have hd : (t.deliver c.popped).minVal = mn ∧ (t.deliver c.popped).maxVal = mx ∧
      (t.deliver c.popped).sinPitch = 0 ∧ (t.deliver c.popped).cosPitch = -1 ∧
      (t.deliver c.popped).cosMaxTilt = 7071 / 10000 := by
    cases c.popped <;> exact ⟨a, b, d, e, f⟩
  obtain ⟨h1, h2, h3, h4, h5⟩ := hd
  have ht := hu.tilt
  have hr := hu.inRange
  rw [h3, h4, h5] at ht
  rw [h1, h2] at hr
  exact ⟨by linarith, hr⟩

/-- upside down the unconfigured sensor does deliver -/
example : ((((RF.init : RF ℚ).setLimits 1 10).cycles []).cycle ⟨1000000, some ⟨1000000, 2, 50⟩, 0, -1⟩).isDataHealthy
    = true := by
  show ((((RF.init : RF ℚ).setLimits 1 10).deliver (some ⟨1000000, 2, 50⟩)).runChecks 1000000 0 (-1)).isDataHealthy = true
  rw [healthy_iff_all_checks]
  refine ⟨⟨rfl, by decide, ?_, by decide, by decide, ?_, ?_⟩, Or.inl ⟨by decide, rfl⟩⟩
  · simp [RF.nextLpf, RF.age, RF.deliver, RF.setLimits, RF.init]
  · norm_num [RF.deliver, RF.setLimits, RF.init]
  · norm_num [RF.deliver, RF.setLimits, RF.init]

/-- **C62 (start-up).** The first mounting pitch given to a fresh sensor object is taken over exactly, unless it lies
within float epsilon of 3.14, which keeps the built-in upward-looking mounting. -/
theorem first_pitch_offset (p : ℝ) :
    (1 / 2 ^ 23 < |p - 314 / 100| →
      ((RF.init : RF ℝ).setPitchOffset p).sinPitch = Real.sin p ∧
      ((RF.init : RF ℝ).setPitchOffset p).cosPitch = Real.cos p ∧
      ((RF.init : RF ℝ).setPitchOffset p).pitchOffset = p) ∧
    (|p - 314 / 100| ≤ 1 / 2 ^ 23 →
      ((RF.init : RF ℝ).setPitchOffset p).sinPitch = 0 ∧ ((RF.init : RF ℝ).setPitchOffset p).cosPitch = -1) := by
  have hc : |(RF.init : RF ℝ).pitchOffset - p| = |p - 314 / 100| := abs_sub_comm _ _
  unfold RF.setPitchOffset
  rw [hc]
  constructor
  · intro h; rw [if_pos h]; exact ⟨rfl, rfl, rfl⟩
  · intro h; rw [if_neg (not_lt.mpr h)]; exact ⟨rfl, rfl⟩

end Ecl.RangeFinder
