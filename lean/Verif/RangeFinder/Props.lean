import Verif.RangeFinder.Model

/-!
# C08, C09, C10, C62 — range finder checks
-/

namespace Ecl.RangeFinder

variable {K : Type*} [Field K] [LinearOrder K] [IsStrictOrderedRing K]

/-- age of the current sample in µs, as the code computes it (modulo 2^64) -/
def RF.age (s : RF K) (now : UInt64) : ℕ := (now - s.sample.timeUs).toNat

/-- filtered data interval after accounting for the current sample's age -/
def RF.nextLpf (s : RF K) (now : UInt64) : K := min (s.dtLpf * (199 / 200) + s.age now / 200) 4000000

/-- the conditions documented for a usable sample, apart from the stuck detector -/
structure Usable (s : RF K) (now : UInt64) (R20 R22 : K) : Prop where
  ready : s.ready = true
  fresh : s.age now ≤ 400000
  continuous : s.nextLpf now < 2000000
  quality : s.sample.quality ≠ 0
  hysteresis : s.qualityHyst.toNat < (now - s.timeBadQuality).toNat
  tilt : s.cosMaxTilt < R20 * s.sinPitch + R22 * s.cosPitch
  inRange : s.minVal ≤ s.sample.rng ∧ s.sample.rng ≤ s.maxVal

/-- the stuck detector releases the sample: either a valid sample was seen at most 10 s ago and the detector
is not tripped, or the recorded spread exceeds 0.1 m -/
def Released (s : RF K) : Prop :=
  ((s.sample.timeUs - s.timeLastValid).toNat ≤ 10000000 ∧ s.stuck = false) ∨
  (10000000 < (s.sample.timeUs - s.timeLastValid).toNat ∧ 1 / 10 < s.stuckMax - s.stuckMin)

theorem lpf_eq (s : RF K) (now : UInt64) : (s.updateDtDataLpf now).dtLpf = s.nextLpf now := by
  unfold RF.updateDtDataLpf RF.nextLpf RF.age dtUpdate
  simp only [mmin_eq]
  congr 1; ring

theorem lt_u64 (a b : UInt64) : decide (a > b) = decide (b.toNat < a.toNat) := by
  congr 1

theorem stuckCheck_frame (t : RF K) :
    t.updateStuckCheck.regular = t.regular ∧ t.updateStuckCheck.ready = t.ready ∧
    t.updateStuckCheck.sample = t.sample ∧ t.updateStuckCheck.dtLpf = t.dtLpf ∧
    t.updateStuckCheck.timeBadQuality = t.timeBadQuality ∧ t.updateStuckCheck.qualityHyst = t.qualityHyst ∧
    t.updateStuckCheck.timeLastValid = t.timeLastValid := by
  unfold RF.updateStuckCheck
  split
  · split <;> exact ⟨rfl, rfl, rfl, rfl, rfl, rfl, rfl⟩
  · exact ⟨rfl, rfl, rfl, rfl, rfl, rfl, rfl⟩

theorem checkReady_frame (t : RF K) (now : UInt64) :
    (t.checkReady now).regular = t.regular ∧ (t.checkReady now).ready = t.ready ∧
    (t.checkReady now).sample = t.sample ∧ (t.checkReady now).dtLpf = t.dtLpf ∧
    (t.checkReady now).qualityHyst = t.qualityHyst ∧
    (t.checkReady now).timeBadQuality = (if t.sample.quality = 0 then now else t.timeBadQuality) := by
  have h := stuckCheck_frame t
  unfold RF.checkReady
  split
  · exact ⟨rfl, rfl, rfl, rfl, rfl, rfl⟩
  · split
    · split
      · split
        · exact ⟨h.1, h.2.1, h.2.2.1, h.2.2.2.1, h.2.2.2.2.2.1, h.2.2.2.2.1⟩
        · exact ⟨h.1, h.2.1, h.2.2.1, h.2.2.2.1, h.2.2.2.2.2.1, h.2.2.2.2.1⟩
      · exact ⟨rfl, rfl, rfl, rfl, rfl, rfl⟩
    · exact ⟨rfl, rfl, rfl, rfl, rfl, rfl⟩

/-- the checks applied to a ready sample, apart from the stuck detector -/
def Passes (t : RF K) (now : UInt64) : Prop :=
  t.sample.quality ≠ 0 ∧ t.qualityHyst.toNat < (now - t.timeBadQuality).toNat ∧
  t.cosMaxTilt < t.cosTilt ∧ t.minVal ≤ t.sample.rng ∧ t.sample.rng ≤ t.maxVal

theorem checkReady_fail (t : RF K) (now : UInt64) (h : ¬ Passes t now) :
    (t.checkReady now).valid = false ∧ (t.checkReady now).stuckMin = t.stuckMin ∧
    (t.checkReady now).stuckMax = t.stuckMax ∧ (t.checkReady now).stuck = t.stuck ∧
    (t.checkReady now).timeLastValid = t.timeLastValid := by
  unfold RF.checkReady
  split
  · exact ⟨rfl, rfl, rfl, rfl, rfl⟩
  · next hq =>
    split
    · next hh =>
      split
      · next ht =>
        exfalso; apply h
        simp only [RF.isTiltOk, RF.isDataInRange, Bool.and_eq_true, decide_eq_true_iff] at ht
        exact ⟨hq, u64_lt_iff.mp hh, ht.1, ht.2.1, ht.2.2⟩
      · exact ⟨rfl, rfl, rfl, rfl, rfl⟩
    · exact ⟨rfl, rfl, rfl, rfl, rfl⟩

theorem checkReady_pass (t : RF K) (now : UInt64) (h : Passes t now) :
    t.checkReady now = if !t.updateStuckCheck.stuck then
        { t.updateStuckCheck with valid := true, timeLastValid := t.sample.timeUs }
      else { t.updateStuckCheck with valid := false } := by
  obtain ⟨h1, h2, h3, h4, h5⟩ := h
  unfold RF.checkReady
  have ht : (t.isTiltOk && t.isDataInRange) = true := by
    simp only [RF.isTiltOk, RF.isDataInRange, Bool.and_eq_true, decide_eq_true_iff]
    exact ⟨h3, h4, h5⟩
  rw [if_neg h1, if_pos (show now - t.timeBadQuality > t.qualityHyst from u64_lt_iff.mpr h2), if_pos ht]

theorem stuckCheck_released (t : RF K) : t.updateStuckCheck.stuck = false ↔ Released t := by
  unfold RF.updateStuckCheck Released stuckThreshold
  by_cases h10 : 10000000 < (t.sample.timeUs - t.timeLastValid).toNat
  · rw [if_pos (show t.sample.timeUs - t.timeLastValid > 10000000 from u64_lt_iff.mpr h10)]
    have : ¬ (t.sample.timeUs - t.timeLastValid).toNat ≤ 10000000 := by omega
    by_cases hs : t.stuckMax - t.stuckMin > 1 / 10
    · rw [if_pos hs]; simp only [true_iff]; exact Or.inr ⟨h10, hs⟩
    · rw [if_neg hs]
      constructor
      · intro h; simp at h
      · rintro (⟨h, -⟩ | ⟨-, h⟩)
        · exact absurd h this
        · exact absurd h hs
  · rw [if_neg (show ¬ t.sample.timeUs - t.timeLastValid > 10000000 from fun h => h10 (u64_lt_iff.mp h))]
    constructor
    · intro h; exact Or.inl ⟨by omega, h⟩
    · rintro (⟨-, h⟩ | ⟨h, -⟩)
      · exact h
      · exact absurd h h10

theorem stuckCheck_record (t : RF K) (h : ¬ Released t) (h10 : 10000000 < (t.sample.timeUs - t.timeLastValid).toNat) :
    t.updateStuckCheck.stuckMax = max t.stuckMax t.sample.rng ∧
    t.updateStuckCheck.stuckMin = (if t.stuckMin < 1 / 10 then t.sample.rng else min t.stuckMin t.sample.rng) := by
  unfold RF.updateStuckCheck stuckThreshold
  rw [if_pos (show t.sample.timeUs - t.timeLastValid > 10000000 from u64_lt_iff.mpr h10)]
  have hs : ¬ t.stuckMax - t.stuckMin > 1 / 10 := fun hs => h (Or.inr ⟨h10, hs⟩)
  rw [if_neg hs]
  constructor
  · show (if t.sample.rng > t.stuckMax then t.sample.rng else t.stuckMax) = _
    split
    · next h => rw [max_eq_right h.le]
    · next h => rw [max_eq_left (not_lt.mp h)]
  · show (if t.stuckMin < 1 / 10 ∨ t.sample.rng < t.stuckMin then t.sample.rng else t.stuckMin) = _
    by_cases hm : t.stuckMin < 1 / 10
    · simp only [hm, true_or, if_true]
    · simp only [hm, false_or, if_false]
      split
      · next h => rw [min_eq_right h.le]
      · next h => rw [min_eq_left (not_lt.mp h)]

/-- state handed to the sample checks -/
def pre (s : RF K) (now : UInt64) (R20 R22 : K) : RF K :=
  { (s.updateSensorToEarthRotation R20 R22).updateDtDataLpf now with regular := true }

theorem pre_facts (s : RF K) (now : UInt64) (R20 R22 : K) :
    (pre s now R20 R22).dtLpf = s.nextLpf now ∧
    (Passes (pre s now R20 R22) now ↔ s.sample.quality ≠ 0 ∧
      s.qualityHyst.toNat < (now - s.timeBadQuality).toNat ∧
      s.cosMaxTilt < R20 * s.sinPitch + R22 * s.cosPitch ∧ s.minVal ≤ s.sample.rng ∧ s.sample.rng ≤ s.maxVal) ∧
    (Released (pre s now R20 R22) ↔ Released s) :=
  ⟨lpf_eq (s.updateSensorToEarthRotation R20 R22) now, Iff.rfl, Iff.rfl⟩

/-- the four possible courses of `runChecks` -/
theorem runChecks_cases (s : RF K) (now : UInt64) (R20 R22 : K) :
    (¬ (s.age now ≤ 400000 ∧ s.nextLpf now < 2000000) ∧
      s.runChecks now R20 R22 = { pre s now R20 R22 with valid := false, regular := false }) ∨
    ((s.age now ≤ 400000 ∧ s.nextLpf now < 2000000) ∧ s.ready = true ∧
      s.runChecks now R20 R22 = (pre s now R20 R22).checkReady now) ∨
    ((s.age now ≤ 400000 ∧ s.nextLpf now < 2000000) ∧ s.ready = false ∧
      s.runChecks now R20 R22 = pre s now R20 R22) := by
  have h1 : ((s.updateSensorToEarthRotation R20 R22).updateDtDataLpf now).isSampleOutOfDate now =
      decide (400000 < s.age now) := by
    unfold RF.isSampleOutOfDate; rw [lt_u64]; rfl
  have h2 : ((s.updateSensorToEarthRotation R20 R22).updateDtDataLpf now).isDataContinuous =
      decide (s.nextLpf now < 2000000) := by
    have e : ((s.updateSensorToEarthRotation R20 R22).updateDtDataLpf now).dtLpf = s.nextLpf now :=
      (pre_facts s now R20 R22).1
    unfold RF.isDataContinuous; rw [e]
  have hb : (((s.updateSensorToEarthRotation R20 R22).updateDtDataLpf now).isSampleOutOfDate now ||
      !((s.updateSensorToEarthRotation R20 R22).updateDtDataLpf now).isDataContinuous) = true ↔
      ¬ (s.age now ≤ 400000 ∧ s.nextLpf now < 2000000) := by
    rw [h1, h2]
    simp only [Bool.or_eq_true, decide_eq_true_iff, Bool.not_eq_true', decide_eq_false_iff_not, not_and_or, not_le]
  have hrd : ((s.updateSensorToEarthRotation R20 R22).updateDtDataLpf now).ready = s.ready := rfl
  unfold RF.runChecks RF.updateValidity
  by_cases hc : s.age now ≤ 400000 ∧ s.nextLpf now < 2000000
  · right
    have hb' := mt hb.mp (not_not.mpr hc)
    simp only [hb', if_false, hrd]
    by_cases hr : s.ready = true
    · left; exact ⟨hc, hr, by rw [if_pos hr]; rfl⟩
    · right; exact ⟨hc, by simpa using hr, by rw [if_neg hr]; rfl⟩
  · left
    have hb' := hb.mpr hc
    simp only [hb', if_true]
    exact ⟨hc, rfl⟩

/-- evaluation of the whole check -/
theorem runChecks_eval (s : RF K) (now : UInt64) (R20 R22 : K) :
    (s.runChecks now R20 R22).regular = decide (s.age now ≤ 400000 ∧ s.nextLpf now < 2000000) ∧
    ((s.runChecks now R20 R22).ready = s.ready) ∧
    ((s.runChecks now R20 R22).sample = s.sample) ∧
    ((s.runChecks now R20 R22).dtLpf = s.nextLpf now) := by
  have hp := (pre_facts s now R20 R22).1
  rcases runChecks_cases s now R20 R22 with ⟨h, e⟩ | ⟨h, -, e⟩ | ⟨h, -, e⟩ <;> rw [e]
  · exact ⟨by simp only [h, decide_false], rfl, rfl, hp⟩
  · obtain ⟨f1, f2, f3, f4, -⟩ := checkReady_frame (pre s now R20 R22) now
    exact ⟨f1.trans (by simp only [h, and_self, decide_true]; rfl), f2, f3, f4.trans hp⟩
  · exact ⟨by simp only [h, and_self, decide_true]; rfl, rfl, rfl, hp⟩

/-- validity flag and stuck bookkeeping of a ready sample -/
theorem runChecks_ready (s : RF K) (now : UInt64) (R20 R22 : K) (hr : s.ready = true) :
    ((s.runChecks now R20 R22).valid = true ↔ Usable s now R20 R22 ∧ Released s) ∧
    (¬ Usable s now R20 R22 → (s.runChecks now R20 R22).stuckMin = s.stuckMin ∧
      (s.runChecks now R20 R22).stuckMax = s.stuckMax ∧ (s.runChecks now R20 R22).stuck = s.stuck ∧
      (s.runChecks now R20 R22).timeLastValid = s.timeLastValid) ∧
    (Usable s now R20 R22 → ¬ Released s → (s.runChecks now R20 R22).timeLastValid = s.timeLastValid ∧
      (10000000 < (s.sample.timeUs - s.timeLastValid).toNat →
        (s.runChecks now R20 R22).stuckMax = max s.stuckMax s.sample.rng ∧
        (s.runChecks now R20 R22).stuckMin =
          (if s.stuckMin < 1 / 10 then s.sample.rng else min s.stuckMin s.sample.rng))) := by
  have hp := pre_facts s now R20 R22
  have hU : Usable s now R20 R22 ↔ (s.age now ≤ 400000 ∧ s.nextLpf now < 2000000) ∧ Passes (pre s now R20 R22) now := by
    rw [hp.2.1]
    exact ⟨fun ⟨_, b, c, d, e, f, g⟩ => ⟨⟨b, c⟩, d, e, f, g⟩, fun ⟨⟨b, c⟩, d, e, f, g⟩ => ⟨hr, b, c, d, e, f, g⟩⟩
  rcases runChecks_cases s now R20 R22 with ⟨h, e⟩ | ⟨h, -, e⟩ | ⟨h, h', -⟩
  · rw [e]
    refine ⟨⟨fun h' => absurd h' (by simp), fun h' => absurd (hU.mp h'.1).1 h⟩, fun _ => ⟨rfl, rfl, rfl, rfl⟩,
      fun h' => absurd (hU.mp h').1 h⟩
  · rw [e]
    by_cases hpass : Passes (pre s now R20 R22) now
    · have hu : Usable s now R20 R22 := hU.mpr ⟨h, hpass⟩
      rw [checkReady_pass _ _ hpass]
      have hfr := stuckCheck_frame (pre s now R20 R22)
      by_cases hrel : Released s
      · have hst := (stuckCheck_released (pre s now R20 R22)).mpr (hp.2.2.mpr hrel)
        simp only [hst, Bool.not_false, if_true]
        exact ⟨⟨fun _ => ⟨hu, hrel⟩, fun _ => trivial⟩, fun h' => absurd hu h', fun _ h' => absurd hrel h'⟩
      · have hst : (pre s now R20 R22).updateStuckCheck.stuck = true := by
          rw [← Bool.not_eq_false]; exact fun h' => hrel (hp.2.2.mp ((stuckCheck_released _).mp h'))
        simp only [hst, Bool.not_true, Bool.false_eq_true, if_false]
        exact ⟨⟨fun h' => h'.elim, fun h' => hrel h'.2⟩, fun h' => absurd hu h',
          fun _ _ => ⟨hfr.2.2.2.2.2.2, fun h10 => stuckCheck_record (pre s now R20 R22) (fun h' => hrel (hp.2.2.mp h')) h10⟩⟩
    · obtain ⟨g1, g2, g3, g4, g5⟩ := checkReady_fail _ _ hpass
      refine ⟨⟨fun h' => ?_, fun h' => absurd (hU.mp h'.1).2 hpass⟩, fun _ => ⟨g2, g3, g4, g5⟩,
        fun h' => absurd (hU.mp h').2 hpass⟩
      rw [g1] at h'; exact absurd h' (by simp)
  · rw [hr] at h'; exact absurd h' (by simp)

/-- **C08.** After `runChecks` the data are reported healthy exactly when every documented check passes and
the stuck detector releases the sample. -/
theorem healthy_iff_all_checks (s : RF K) (now : UInt64) (R20 R22 : K) :
    (s.runChecks now R20 R22).isDataHealthy = true ↔ Usable s now R20 R22 ∧ Released s := by
  unfold RF.isDataHealthy
  rw [(runChecks_eval s now R20 R22).2.1]
  by_cases hr : s.ready = true
  · rw [hr, Bool.true_and]; exact (runChecks_ready s now R20 R22 hr).1
  · simp only [Bool.and_eq_true]
    exact ⟨fun h => absurd h.1 hr, fun h => absurd h.1.ready hr⟩

/-- **C08.** A healthy verdict refreshes the last-valid time with the sample's time. -/
theorem healthy_refreshes (s : RF K) (now : UInt64) (R20 R22 : K) (hr : s.ready = true)
    (h : (s.runChecks now R20 R22).valid = true) :
    (s.runChecks now R20 R22).timeLastValid = s.sample.timeUs := by
  have hp := pre_facts s now R20 R22
  rcases runChecks_cases s now R20 R22 with ⟨h', e⟩ | ⟨h', -, e⟩ | ⟨-, h', -⟩
  · rw [e] at h; simp at h
  · rw [e] at h ⊢
    by_cases hpass : Passes (pre s now R20 R22) now
    · rw [checkReady_pass _ _ hpass] at h ⊢
      split at h
      · next hs => rw [if_pos hs]; rfl
      · simp at h
    · rw [(checkReady_fail _ _ hpass).1] at h; simp at h
  · rw [hr] at h'; simp at h'

/-- **C10.** `isRegularlySendingData` after `runChecks`: exactly age at most 400 ms and filtered interval below
2 s. -/
theorem regular_iff (s : RF K) (now : UInt64) (R20 R22 : K) :
    (s.runChecks now R20 R22).isRegularlySendingData = true ↔
      s.age now ≤ 400000 ∧ s.nextLpf now < 2000000 := by
  unfold RF.isRegularlySendingData
  rw [(runChecks_eval s now R20 R22).1, decide_eq_true_iff]

theorem cycle_lpf (s : RF K) (c : Cycle K) (h : 0 ≤ s.dtLpf) :
    0 ≤ (s.cycle c).dtLpf ∧ (s.cycle c).dtLpf ≤ 4000000 := by
  unfold RF.cycle
  rw [(runChecks_eval _ _ _ _).2.2.2]
  have h' : (s.deliver c.popped).dtLpf = s.dtLpf := by cases c.popped <;> rfl
  unfold RF.nextLpf
  rw [h']
  refine ⟨le_min ?_ (by norm_num), min_le_right _ _⟩
  positivity

/-- **C10.** Whatever is delivered at whatever times (including samples from the future, whose age wraps
around), the filtered interval stays within [0, 4 s]. -/
theorem lpf_bounded (cs : List (Cycle K)) :
    0 ≤ ((RF.init : RF K).cycles cs).dtLpf ∧ ((RF.init : RF K).cycles cs).dtLpf ≤ 4000000 := by
  have : ∀ (cs : List (Cycle K)) (s : RF K), 0 ≤ s.dtLpf ∧ s.dtLpf ≤ 4000000 →
      0 ≤ (s.cycles cs).dtLpf ∧ (s.cycles cs).dtLpf ≤ 4000000 := by
    intro cs
    induction cs with
    | nil => intro s h; exact h
    | cons c cs ih => intro s h; exact ih _ (cycle_lpf s c h.1)
  exact this cs _ ⟨le_rfl, by simp [RF.init]⟩

/-- A sample with a future time stamp is treated as out of date (its age wraps around), unless the clock is
within 400 ms below 2^64. -/
theorem future_sample_rejected (s : RF K) (now : UInt64) (R20 R22 : K) (h : now < s.sample.timeUs)
    (h2 : s.sample.timeUs.toNat - now.toNat < 2 ^ 64 - 400000) :
    (s.runChecks now R20 R22).isDataHealthy = false := by
  rw [Bool.eq_false_iff]
  intro hh
  have hu := ((healthy_iff_all_checks s now R20 R22).mp hh).1.fresh
  unfold RF.age at hu
  rw [UInt64.toNat_sub] at hu
  have := u64_lt_iff.mp h
  have := now.toNat_lt
  have := s.sample.timeUs.toNat_lt
  omega

/-! ### C08: quality hysteresis over histories -/

/-- the cycle processes a zero-quality sample (fresh and continuous data stream) -/
def BadQualityCycle (s : RF K) (c : Cycle K) : Prop :=
  ∃ x, c.popped = some x ∧ x.quality = 0 ∧ (s.deliver c.popped).age c.now ≤ 400000 ∧
    (s.deliver c.popped).nextLpf c.now < 2000000

theorem cycle_timeBad (s : RF K) (c : Cycle K) :
    ((s.cycle c).timeBadQuality = c.now ∨ (s.cycle c).timeBadQuality = s.timeBadQuality) ∧
    (BadQualityCycle s c → (s.cycle c).timeBadQuality = c.now) ∧ (s.cycle c).qualityHyst = s.qualityHyst := by
  have hd : (s.deliver c.popped).timeBadQuality = s.timeBadQuality ∧
      (s.deliver c.popped).qualityHyst = s.qualityHyst := by cases c.popped <;> exact ⟨rfl, rfl⟩
  rw [← hd.1, ← hd.2]
  unfold RF.cycle
  generalize hs : s.deliver c.popped = t
  rcases runChecks_cases t c.now c.R20 c.R22 with ⟨h, e⟩ | ⟨h, hr, e⟩ | ⟨h, hr, e⟩ <;> rw [e]
  · refine ⟨Or.inr rfl, ?_, rfl⟩
    rintro ⟨x, -, -, ha, hb'⟩
    rw [hs] at ha hb'
    exact absurd ⟨ha, hb'⟩ h
  · obtain ⟨-, -, -, -, f5, f6⟩ := checkReady_frame (pre t c.now c.R20 c.R22) c.now
    rw [f5, f6]
    refine ⟨?_, ?_, rfl⟩
    · split
      · exact Or.inl rfl
      · exact Or.inr rfl
    · rintro ⟨x, hx, hq0, -, -⟩
      rw [if_pos]
      show t.sample.quality = 0
      rw [← hs, hx]; exact hq0
  · refine ⟨Or.inr rfl, ?_, rfl⟩
    rintro ⟨x, hx, -⟩
    rw [← hs, hx] at hr
    exact absurd hr (by simp [RF.deliver])

/-- **C08 (hysteresis).** After a zero-quality sample has been processed at time `t0`, no later check up to
`t0 + hysteresis` reports healthy data, whatever samples arrive in between (check times do not decrease). -/
theorem bad_quality_blocks (s : RF K) (c0 : Cycle K) (hbad : BadQualityCycle s c0) (cs : List (Cycle K)) (c : Cycle K)
    (hmono : (c0.now :: (cs ++ [c]).map Cycle.now).Pairwise (· ≤ ·))
    (hwin : c.now.toNat - c0.now.toNat ≤ s.qualityHyst.toNat) :
    (((s.cycle c0).cycles cs).cycle c).isDataHealthy = false := by
  obtain ⟨-, h0, hh0⟩ := cycle_timeBad s c0
  have key : ∀ (cs : List (Cycle K)) (t : RF K), c0.now ≤ t.timeBadQuality → t.timeBadQuality ≤ c.now →
      (∀ d ∈ cs, c0.now ≤ d.now ∧ d.now ≤ c.now) →
      c0.now ≤ (t.cycles cs).timeBadQuality ∧ (t.cycles cs).timeBadQuality ≤ c.now ∧
      (t.cycles cs).qualityHyst = t.qualityHyst := by
    intro cs
    induction cs with
    | nil => intro t a b _; exact ⟨a, b, rfl⟩
    | cons d cs ih =>
      intro t a b hd
      obtain ⟨h1, -, h3⟩ := cycle_timeBad t d
      have hdd := hd d (by simp)
      have : c0.now ≤ (t.cycle d).timeBadQuality ∧ (t.cycle d).timeBadQuality ≤ c.now := by
        rcases h1 with h | h <;> rw [h]
        · exact hdd
        · exact ⟨a, b⟩
      obtain ⟨i1, i2, i3⟩ := ih (t.cycle d) this.1 this.2 (fun e he => hd e (List.mem_cons_of_mem _ he))
      exact ⟨i1, i2, i3.trans h3⟩
  rw [List.map_append, ← List.cons_append, List.pairwise_append] at hmono
  obtain ⟨hm1, -, hm3⟩ := hmono
  rw [List.pairwise_cons] at hm1
  have hle : ∀ d ∈ cs, c0.now ≤ d.now ∧ d.now ≤ c.now := fun d hd =>
    ⟨hm1.1 _ (List.mem_map_of_mem hd), hm3 _ (List.mem_cons_of_mem _ (List.mem_map_of_mem hd)) _ (by simp)⟩
  have hc : c0.now ≤ c.now := hm3 _ (by simp) _ (by simp)
  obtain ⟨k1, k2, k3⟩ := key cs (s.cycle c0) (by rw [h0 hbad]; exact u64_le_iff.mpr le_rfl) (by rw [h0 hbad]; exact hc) hle
  rw [Bool.eq_false_iff]
  intro hh
  change (((((s.cycle c0).cycles cs).deliver c.popped).runChecks c.now c.R20 c.R22)).isDataHealthy = true at hh
  have hu := ((healthy_iff_all_checks _ _ _ _).mp hh).1.hysteresis
  have hd : (((s.cycle c0).cycles cs).deliver c.popped).timeBadQuality = ((s.cycle c0).cycles cs).timeBadQuality ∧
      (((s.cycle c0).cycles cs).deliver c.popped).qualityHyst = ((s.cycle c0).cycles cs).qualityHyst := by
    cases c.popped <;> exact ⟨rfl, rfl⟩
  rw [hd.1, hd.2, k3, hh0, u64_sub_toNat_of_le k2] at hu
  have := u64_le_iff.mp k1
  omega

/-! ### C09: stuck detection -/

theorem not_ready_stuck (s : RF K) (now : UInt64) (R20 R22 : K) (hr : s.ready = false) :
    (s.runChecks now R20 R22).stuckMin = s.stuckMin ∧ (s.runChecks now R20 R22).stuckMax = s.stuckMax ∧
    (s.runChecks now R20 R22).timeLastValid = s.timeLastValid := by
  rcases runChecks_cases s now R20 R22 with ⟨h, e⟩ | ⟨h, hr', e⟩ | ⟨h, hr', e⟩
  · rw [e]; exact ⟨rfl, rfl, rfl⟩
  · rw [hr] at hr'; simp at hr'
  · rw [e]; exact ⟨rfl, rfl, rfl⟩

/-- **C09.** Suppose the detector's record is empty and no sample stamped within 10 s of the last valid one
arrives any more.  Then a sequence of samples whose ranges are non-negative and never spread by more than
0.1 m is never declared healthy, however long it is. -/
theorem stuck_never_healthy (s : RF K) (hmin : s.stuckMin = 0) (hmax : s.stuckMax = 0) (lo : K) (hlo : 0 ≤ lo)
    (cs : List (Cycle K)) (c : Cycle K)
    (hrng : ∀ d ∈ cs ++ [c], ∀ x, d.popped = some x → lo ≤ x.rng ∧ x.rng ≤ lo + 1 / 10)
    (hold : ∀ d ∈ cs ++ [c], ∀ x, d.popped = some x → 10000000 < (x.timeUs - s.timeLastValid).toNat) :
    ((s.cycles cs).cycle c).isDataHealthy = false := by
  -- invariant: recorded max/min are empty or within the band
  have step : ∀ (t : RF K) (d : Cycle K), t.timeLastValid = s.timeLastValid →
      ((t.stuckMin = 0 ∧ t.stuckMax = 0) ∨ (lo ≤ t.stuckMin ∧ t.stuckMax ≤ lo + 1 / 10)) →
      (∀ x, d.popped = some x → lo ≤ x.rng ∧ x.rng ≤ lo + 1 / 10) →
      (∀ x, d.popped = some x → 10000000 < (x.timeUs - s.timeLastValid).toNat) →
      (t.cycle d).isDataHealthy = false ∧ (t.cycle d).timeLastValid = s.timeLastValid ∧
      (((t.cycle d).stuckMin = 0 ∧ (t.cycle d).stuckMax = 0) ∨
        (lo ≤ (t.cycle d).stuckMin ∧ (t.cycle d).stuckMax ≤ lo + 1 / 10)) := by
    intro t d ht hinv hr ho
    unfold RF.cycle
    cases hp : d.popped with
    | none =>
      have hrd : (t.deliver none).ready = false := rfl
      obtain ⟨a, b, e⟩ := not_ready_stuck (t.deliver none) d.now d.R20 d.R22 hrd
      refine ⟨?_, e.trans ht, by rw [a, b]; exact hinv⟩
      unfold RF.isDataHealthy
      rw [(runChecks_eval _ _ _ _).2.1, hrd, Bool.false_and]
    | some x =>
      have hx := hr x hp
      have hxo := ho x hp
      have hrd : (t.deliver (some x)).ready = true := rfl
      obtain ⟨h1, h2, h3⟩ := runChecks_ready (t.deliver (some x)) d.now d.R20 d.R22 hrd
      have hnr : ¬ Released (t.deliver (some x)) := by
        rintro (⟨h, -⟩ | ⟨-, h⟩)
        · have : (x.timeUs - t.timeLastValid).toNat ≤ 10000000 := h
          rw [ht] at this; omega
        · have : (1 : K) / 10 < t.stuckMax - t.stuckMin := h
          rcases hinv with ⟨a, b⟩ | ⟨a, b⟩
          · rw [a, b] at this; linarith [show (0 : K) < 1 / 10 by norm_num]
          · linarith
      refine ⟨?_, ?_, ?_⟩
      · rw [Bool.eq_false_iff]; intro hh
        exact hnr ((healthy_iff_all_checks _ _ _ _).mp hh).2
      · by_cases hu : Usable (t.deliver (some x)) d.now d.R20 d.R22
        · exact (h3 hu hnr).1.trans ht
        · exact (h2 hu).2.2.2.trans ht
      · by_cases hu : Usable (t.deliver (some x)) d.now d.R20 d.R22
        · obtain ⟨a, b⟩ := (h3 hu hnr).2 (by
            show 10000000 < (x.timeUs - t.timeLastValid).toNat
            rw [ht]; exact hxo)
          · right
            rw [a, b]
            have hmn : (t.deliver (some x)).stuckMin = t.stuckMin := rfl
            have hmx : (t.deliver (some x)).stuckMax = t.stuckMax := rfl
            have hsr : (t.deliver (some x)).sample.rng = x.rng := rfl
            rw [hmn, hmx, hsr]
            constructor
            · split
              · exact hx.1
              · next hge =>
                rcases hinv with ⟨a', b'⟩ | ⟨a', b'⟩
                · rw [a'] at hge; exact absurd (show (0 : K) < 1 / 10 by norm_num) hge
                · exact le_min a' hx.1
            · rcases hinv with ⟨a', b'⟩ | ⟨a', b'⟩
              · rw [b']; refine max_le ?_ hx.2
                linarith [show (0 : K) < 1 / 10 by norm_num]
              · exact max_le b' hx.2
        · obtain ⟨a, b, -, -⟩ := h2 hu
          rw [a, b]; exact hinv
  have run : ∀ (cs : List (Cycle K)) (t : RF K), t.timeLastValid = s.timeLastValid →
      ((t.stuckMin = 0 ∧ t.stuckMax = 0) ∨ (lo ≤ t.stuckMin ∧ t.stuckMax ≤ lo + 1 / 10)) →
      (∀ d ∈ cs, ∀ x, d.popped = some x → lo ≤ x.rng ∧ x.rng ≤ lo + 1 / 10) →
      (∀ d ∈ cs, ∀ x, d.popped = some x → 10000000 < (x.timeUs - s.timeLastValid).toNat) →
      (t.cycles cs).timeLastValid = s.timeLastValid ∧
      (((t.cycles cs).stuckMin = 0 ∧ (t.cycles cs).stuckMax = 0) ∨
        (lo ≤ (t.cycles cs).stuckMin ∧ (t.cycles cs).stuckMax ≤ lo + 1 / 10)) := by
    intro cs
    induction cs with
    | nil => intro t a b _ _; exact ⟨a, b⟩
    | cons d cs ih =>
      intro t a b hr ho
      obtain ⟨-, i2, i3⟩ := step t d a b (hr d (by simp)) (ho d (by simp))
      exact ih _ i2 i3 (fun e he => hr e (List.mem_cons_of_mem _ he)) (fun e he => ho e (List.mem_cons_of_mem _ he))
  obtain ⟨j1, j2⟩ := run cs s rfl (Or.inl ⟨hmin, hmax⟩) (fun d hd => hrng d (by simp [hd]))
    (fun d hd => hold d (by simp [hd]))
  exact (step _ c j1 j2 (hrng c (by simp)) (hold c (by simp))).1

/-- **C09 (release).** Once the recorded spread exceeds 0.1 m, the next usable sample is healthy, and the record
is cleared. -/
theorem spread_releases (s : RF K) (now : UInt64) (R20 R22 : K) (hu : Usable s now R20 R22)
    (h10 : 10000000 < (s.sample.timeUs - s.timeLastValid).toNat) (hs : 1 / 10 < s.stuckMax - s.stuckMin) :
    (s.runChecks now R20 R22).isDataHealthy = true :=
  (healthy_iff_all_checks s now R20 R22).mpr ⟨hu, Or.inr ⟨h10, hs⟩⟩

/-- **C09 (start-up).** The very first usable sample of a fresh estimator whose clock is past 10 s is always
withheld by the stuck detector. -/
theorem first_sample_withheld (s : RF K) (hinit : s.stuckMin = 0 ∧ s.stuckMax = 0 ∧ s.timeLastValid = 0)
    (now : UInt64) (R20 R22 : K) (h : 10000000 < s.sample.timeUs.toNat) :
    (s.runChecks now R20 R22).isDataHealthy = false := by
  rw [Bool.eq_false_iff]
  intro hh
  rcases ((healthy_iff_all_checks s now R20 R22).mp hh).2 with ⟨h', -⟩ | ⟨-, h'⟩
  · rw [hinit.2.2] at h'; simp at h'; omega
  · rw [hinit.1, hinit.2.1] at h'; linarith [show (0 : K) < 1 / 10 by norm_num]

/-! ### C62: geometry -/

/-- **C62.** After `setPitchOffset p` from any configuration in which sine and cosine belong to the stored
offset, the tilt cosine computed by `runChecks` is the down component of the sensor boresight
`(sin p', 0, cos p')` with an offset `p'` within float epsilon of the requested one, and the reported distance to
ground is the measured range projected on the vertical. -/
theorem boresight_down_component (s : RF ℝ) (hs : s.sinPitch = Real.sin s.pitchOffset)
    (hc : s.cosPitch = Real.cos s.pitchOffset) (p : ℝ) (R : M3 ℝ) :
    ∃ p', |p' - p| ≤ 1 / 2 ^ 23 ∧
      (((s.setPitchOffset p).updateSensorToEarthRotation (R 2 0) (R 2 2)).cosTilt =
        (R.mulVec ![Real.sin p', 0, Real.cos p']) 2) := by
  unfold RF.setPitchOffset
  split
  · refine ⟨p, by simp, ?_⟩
    simp [RF.updateSensorToEarthRotation, Matrix.mulVec, dotProduct, Fin.sum_univ_three]
  · next h =>
    refine ⟨s.pitchOffset, not_lt.mp h, ?_⟩
    simp [RF.updateSensorToEarthRotation, Matrix.mulVec, dotProduct, Fin.sum_univ_three, hs, hc]

/-! ### Non-vacuity -/

/-- a configured sensor with one fresh sample -/
def exampleRF : RF ℚ :=
  { (RF.init : RF ℚ) with
    sample := ⟨1000000, 2, 50⟩, ready := true, sinPitch := 0, cosPitch := 1, minVal := 1, maxVal := 10 }

example : (exampleRF.runChecks 1000000 0 1).isDataHealthy = true := by
  rw [healthy_iff_all_checks]
  refine ⟨⟨rfl, by decide, ?_, by decide, by decide, ?_, ?_⟩, Or.inl ⟨by decide, rfl⟩⟩
  · simp [RF.nextLpf, RF.age, exampleRF, RF.init]
  · norm_num [exampleRF, RF.init]
  · norm_num [exampleRF]

/-- hypotheses of `bad_quality_blocks` are satisfiable -/
example : BadQualityCycle (RF.init : RF ℚ) ⟨1000000, some ⟨1000000, 2, 0⟩, 0, 1⟩ := by
  refine ⟨_, rfl, rfl, by decide, ?_⟩
  simp [RF.nextLpf, RF.age, RF.deliver, RF.init]

end Ecl.RangeFinder
