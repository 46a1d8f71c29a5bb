import Verif.ImuDownSampler.Model

/-!
# C06, C07 — IMU down-sampling

Specification: the samples of a group combine into one sample that spans their total time, carries the time
stamp of the last one, the ordered product of their rotations, the union of their clipping flags, and the
sum of their velocity increments (each averaged over its own rotation) expressed in the end frame.
-/

noncomputable section

namespace Ecl.ImuDownSampler

open scoped Matrix

/-- ordered product `q₁ q₂ ⋯ qₙ` of the increments of a group -/
def groupRot (L : AxisAngleLib) (g : List ImuSample) : Quat ℝ :=
  g.foldl (fun q x => q.mul (L.exp x.deltaAng)) Quat.one

/-- total velocity increment of a group expressed in the body frame at the start of the group; each increment
is taken half in the frame before and half in the frame after its own rotation -/
def groupVelStart (L : AxisAngleLib) : List ImuSample → V3 ℝ
  | [] => 0
  | x :: xs =>
    (1 / 2 : ℝ) • ((L.exp x.deltaAng).dcm *ᵥ x.deltaVel + x.deltaVel) +
      (L.exp x.deltaAng).dcm *ᵥ groupVelStart L xs

/-- the sample a group should be reduced to -/
def groupSummary (L : AxisAngleLib) (g : List ImuSample) (hg : g ≠ []) : ImuSample where
  timeUs := (g.getLast hg).timeUs
  deltaAng := L.log (groupRot L g)
  deltaVel := (groupRot L g).dcmᵀ *ᵥ groupVelStart L g
  deltaAngDt := (g.map ImuSample.deltaAngDt).sum
  deltaVelDt := (g.map ImuSample.deltaVelDt).sum
  clip := fun i => g.any fun x => x.clip i

/-! ### helper lemmas -/

theorem groupRot_append (L : AxisAngleLib) (g : List ImuSample) (x : ImuSample) :
    groupRot L (g ++ [x]) = (groupRot L g).mul (L.exp x.deltaAng) := by
  simp [groupRot]

theorem groupRot_cons (L : AxisAngleLib) (g : List ImuSample) (x : ImuSample) :
    groupRot L (x :: g) = (L.exp x.deltaAng).mul (groupRot L g) := by
  induction g using List.reverseRecOn with
  | nil => simp [groupRot, Quat.one_mul, Quat.mul_one]
  | append_singleton g y ih =>
    rw [← List.cons_append, groupRot_append, ih, groupRot_append, Quat.mul_assoc]

theorem groupRot_unit (L : AxisAngleLib) (g : List ImuSample) : (groupRot L g).normSq = 1 := by
  induction g with
  | nil => simp [groupRot, Quat.one, Quat.normSq]
  | cons x g ih => rw [groupRot_cons, Quat.normSq_mul, ih, L.exp_unit]; simp

theorem groupVelStart_append (L : AxisAngleLib) (g : List ImuSample) (x : ImuSample) :
    groupVelStart L (g ++ [x]) = groupVelStart L g + (groupRot L g).dcm *ᵥ
      ((1 / 2 : ℝ) • ((L.exp x.deltaAng).dcm *ᵥ x.deltaVel + x.deltaVel)) := by
  induction g with
  | nil => simp [groupVelStart, groupRot, Quat.dcm_one]
  | cons y g ih =>
    simp only [List.cons_append, groupVelStart]
    rw [ih, groupRot_cons, Quat.dcm_mul, Matrix.mulVec_add, Matrix.mulVec_mulVec, add_assoc]

theorem normalize_unit {q : Quat ℝ} (h : q.normSq = 1) : normalize q = q := by
  simp [normalize, h]

/-- the accumulator represents the pending samples `p` -/
structure Rel (L : AxisAngleLib) (s : Sampler) (p : List ImuSample) : Prop where
  q : s.q = groupRot L p
  vel : s.acc.deltaVel = (groupRot L p).dcmᵀ *ᵥ groupVelStart L p
  adt : s.acc.deltaAngDt = (p.map ImuSample.deltaAngDt).sum
  vdt : s.acc.deltaVelDt = (p.map ImuSample.deltaVelDt).sum
  clip : ∀ i, s.acc.clip i = p.any fun x => x.clip i

/-- the state the next `update` starts from -/
def view (s : Sampler) : Sampler := if s.doReset then s.reset else s

theorem rel_reset (L : AxisAngleLib) (s : Sampler) : Rel L s.reset [] := by
  constructor <;> simp [Sampler.reset, groupRot, groupVelStart]

theorem rel_accumulate (L : AxisAngleLib) (s : Sampler) (p : List ImuSample) (x : ImuSample)
    (h : Rel L (view s) p) : Rel L (s.accumulate L x) (p ++ [x]) := by
  have hu := L.exp_unit x.deltaAng
  constructor
  · show normalize ((view s).q.mul _) = _
    rw [h.q, ← groupRot_append, normalize_unit (groupRot_unit L _)]
  · show _ *ᵥ (view s).acc.deltaVel + _ = _
    rw [h.vel, groupRot_append, groupVelStart_append, Quat.dcm_mul, Quat.dcm_inversed _ hu,
      Matrix.transpose_mul, Matrix.mulVec_add, Matrix.mulVec_mulVec, Matrix.mulVec_mulVec]
    congr 1
    rw [Matrix.mul_assoc, Quat.dcm_transpose_mul _ (groupRot_unit L p), Matrix.mul_one,
      Matrix.mulVec_smul, Matrix.mulVec_add, Matrix.mulVec_mulVec, Quat.dcm_transpose_mul _ hu, Matrix.one_mulVec]
  · show (view s).acc.deltaAngDt + _ = _
    rw [h.adt]; simp
  · show (view s).acc.deltaVelDt + _ = _
    rw [h.vdt]; simp
  · intro i
    show ((view s).acc.clip i || x.clip i) = _
    rw [h.clip]; simp

theorem view_target (s : Sampler) : (view s).target = s.target ∧ (view s).adj = s.adj := by
  unfold view; split <;> simp [Sampler.reset]

theorem accumulate_fields (L : AxisAngleLib) (s : Sampler) (x : ImuSample) :
    (s.accumulate L x).target = s.target ∧ (s.accumulate L x).adj = s.adj ∧
    (s.accumulate L x).doReset = false ∧ (s.accumulate L x).acc.timeUs = x.timeUs := by
  have h := view_target s
  refine ⟨h.1, h.2, ?_, rfl⟩
  show (view s).doReset = false
  unfold view; split
  · rfl
  · next h => simpa using h

/-- one `feed`: either the sample joins the pending ones, or the group is emitted -/
theorem feed_cases (L : AxisAngleLib) (s : Sampler) (p : List ImuSample) (x : ImuSample) (h : Rel L (view s) p) :
    let dt := ((p ++ [x]).map ImuSample.deltaAngDt).sum
    (s.target - s.adj ≤ dt ∧ (s.feed L x).2 = [groupSummary L (p ++ [x]) (by simp)] ∧
      Rel L (view (s.feed L x).1) [] ∧ (s.feed L x).1.target = s.target ∧
      (s.feed L x).1.adj = constrain (s.adj + (1 / 100) * (dt - s.target)) (-(1 / 2) * s.target)
        ((1 / 2) * s.target)) ∨
    (dt < s.target - s.adj ∧ (s.feed L x).2 = [] ∧ Rel L (view (s.feed L x).1) (p ++ [x]) ∧
      (s.feed L x).1.target = s.target ∧ (s.feed L x).1.adj = s.adj) := by
  intro dt
  have ha := rel_accumulate L s p x h
  obtain ⟨f1, f2, f3, f4⟩ := accumulate_fields L s x
  have hdt : (s.accumulate L x).acc.deltaAngDt = dt := ha.adt
  unfold Sampler.feed Sampler.update
  simp only [hdt, f1, f2, ge_iff_le]
  by_cases hc : s.target - s.adj ≤ dt
  · left
    simp only [if_pos hc, if_true]
    refine ⟨hc, ?_, rel_reset L _, rfl, rfl⟩
    simp only [Sampler.take]
    congr 1
    have e1 := ha.q; have e2 := ha.vel; have e4 := ha.vdt; have e5 := ha.clip
    unfold groupSummary
    congr 1
    · simpa using f4
    · rw [e1]
    · exact funext e5
  · right
    simp only [if_neg hc]
    refine ⟨not_le.mp hc, rfl, ?_, f1, f2⟩
    have hv : view (s.accumulate L x) = s.accumulate L x := by simp [view, f3]
    simpa [hv] using ha

/-- a list of groups with the outputs they must produce -/
def OutputsOf (L : AxisAngleLib) (groups : List (List ImuSample)) (outs : List ImuSample) : Prop :=
  List.Forall₂ (fun g o => ∃ hg : g ≠ [], o = groupSummary L g hg) groups outs

theorem run_grouping_aux (L : AxisAngleLib) (xs : List ImuSample) : ∀ (s : Sampler) (p : List ImuSample),
    Rel L (view s) p → ∃ groups pending, p ++ xs = groups.flatten ++ pending ∧
      OutputsOf L groups (s.run L xs).2 ∧ Rel L (view (s.run L xs).1) pending := by
  induction xs with
  | nil => intro s p h; exact ⟨[], p, by simp, List.Forall₂.nil, h⟩
  | cons x xs ih =>
    intro s p h
    simp only [Sampler.run]
    rcases feed_cases L s p x h with ⟨_, ho, hr, _, _⟩ | ⟨_, ho, hr, _, _⟩
    · obtain ⟨gs, pe, e1, e2, e3⟩ := ih _ [] hr
      refine ⟨(p ++ [x]) :: gs, pe, ?_, ?_, e3⟩
      · simp only [List.nil_append] at e1
        simp [e1]
      · rw [ho]; exact List.Forall₂.cons ⟨by simp, rfl⟩ e2
    · obtain ⟨gs, pe, e1, e2, e3⟩ := ih _ (p ++ [x]) hr
      refine ⟨gs, pe, by simpa using e1, ?_, e3⟩
      rw [ho]; exact e2

theorem rel_init (L : AxisAngleLib) (T : ℝ) : Rel L (view (Sampler.init T)) [] := by
  have : view (Sampler.init T) = (Sampler.init T) := by simp [view, Sampler.init, Sampler.reset]
  rw [this]; exact rel_reset L _

/-- **C06.** For every target interval and every sequence of IMU samples, the input splits into consecutive
non-empty groups plus a pending rest, and the emitted samples are exactly the groups' summaries: total times,
last time stamp, ordered rotation product, rotated velocity sum and clipping union.  The pending rest is
exactly what the accumulator holds. -/
theorem run_loses_nothing (L : AxisAngleLib) (T : ℝ) (xs : List ImuSample) :
    ∃ groups pending, xs = groups.flatten ++ pending ∧
      OutputsOf L groups ((Sampler.init T).run L xs).2 ∧
      (view ((Sampler.init T).run L xs).1).acc.deltaAngDt = (pending.map ImuSample.deltaAngDt).sum ∧
      (view ((Sampler.init T).run L xs).1).acc.deltaVelDt = (pending.map ImuSample.deltaVelDt).sum ∧
      (view ((Sampler.init T).run L xs).1).q = groupRot L pending ∧
      (view ((Sampler.init T).run L xs).1).acc.deltaVel = (groupRot L pending).dcmᵀ *ᵥ groupVelStart L pending ∧
      ∀ i, (view ((Sampler.init T).run L xs).1).acc.clip i = pending.any fun x => x.clip i := by
  obtain ⟨gs, pe, e1, e2, e3⟩ := run_grouping_aux L xs (Sampler.init T) [] (rel_init L T)
  exact ⟨gs, pe, by simpa using e1, e2, e3.adt, e3.vdt, e3.q, e3.vel, e3.clip⟩

/-- **C06 (time conservation).** Emitted time plus the time in the accumulator equals the input time. -/
theorem run_time_conserved (L : AxisAngleLib) (T : ℝ) (xs : List ImuSample) :
    (((Sampler.init T).run L xs).2.map ImuSample.deltaAngDt).sum +
      (view ((Sampler.init T).run L xs).1).acc.deltaAngDt = (xs.map ImuSample.deltaAngDt).sum ∧
    (((Sampler.init T).run L xs).2.map ImuSample.deltaVelDt).sum +
      (view ((Sampler.init T).run L xs).1).acc.deltaVelDt = (xs.map ImuSample.deltaVelDt).sum := by
  obtain ⟨gs, pe, e1, e2, e3, e4, -⟩ := run_loses_nothing L T xs
  rw [e3, e4]
  generalize ((Sampler.init T).run L xs).2 = outs at *
  clear e3 e4
  subst e1
  induction e2 with
  | nil => simp
  | cons h _ ih =>
    obtain ⟨hg, rfl⟩ := h
    obtain ⟨i1, i2⟩ := ih
    constructor
    · simp only [List.map_cons, List.sum_cons, List.flatten_cons, List.map_append, List.sum_append, groupSummary] at *
      rw [add_assoc, i1, add_assoc]
    · simp only [List.map_cons, List.sum_cons, List.flatten_cons, List.map_append, List.sum_append, groupSummary] at *
      rw [add_assoc, i2, add_assoc]

/-- the emitted rotation is the ordered product of the increments whenever the library's two axis-angle
conversions are inverse to each other on it -/
theorem emitted_rotation (L : AxisAngleLib) (g : List ImuSample) (hg : g ≠ [])
    (hlib : L.exp (L.log (groupRot L g)) = groupRot L g) :
    L.exp (groupSummary L g hg).deltaAng = groupRot L g := hlib

theorem run_bounds_aux (L : AxisAngleLib) (T d : ℝ) (hT : 0 < T) (xs : List ImuSample)
    (hx : ∀ x ∈ xs, 0 ≤ x.deltaAngDt ∧ x.deltaAngDt ≤ d) : ∀ (s : Sampler) (p : List ImuSample),
    Rel L (view s) p → s.target = T → |s.adj| ≤ T / 2 → (p.map ImuSample.deltaAngDt).sum < 3 * T / 2 →
    (∀ o ∈ (s.run L xs).2, T / 2 ≤ o.deltaAngDt ∧ o.deltaAngDt < 3 * T / 2 + d) ∧
    |(s.run L xs).1.adj| ≤ T / 2 ∧ (view (s.run L xs).1).acc.deltaAngDt < 3 * T / 2 := by
  induction xs with
  | nil =>
    intro s p h ht ha hp
    refine ⟨by simp [Sampler.run], ha, ?_⟩
    show (view s).acc.deltaAngDt < _
    rw [h.adt]; exact hp
  | cons x xs ih =>
    intro s p h ht ha hp
    have hx0 := hx x (by simp)
    have ih := ih fun y hy => hx y (List.mem_cons_of_mem _ hy)
    rw [abs_le] at ha
    simp only [Sampler.run]
    have hs : ((p ++ [x]).map ImuSample.deltaAngDt).sum = (p.map ImuSample.deltaAngDt).sum + x.deltaAngDt := by simp
    rcases feed_cases L s p x h with ⟨hc, ho, hr, h4, h5⟩ | ⟨hc, ho, hr, h4, h5⟩
    · rw [hs] at hc h5
      have hadj : |(s.feed L x).1.adj| ≤ T / 2 := by
        rw [h5, ht, abs_le]
        have hle : -(1 / 2) * T ≤ (1 / 2) * T := by linarith
        have g1 := constrain_ge (v := s.adj + (1 / 100) * ((p.map ImuSample.deltaAngDt).sum + x.deltaAngDt - T)) hle
        have g2 := constrain_le (v := s.adj + (1 / 100) * ((p.map ImuSample.deltaAngDt).sum + x.deltaAngDt - T)) hle
        constructor <;> linarith
      obtain ⟨i1, i2, i3⟩ := ih _ [] hr (h4.trans ht) hadj (by simp; linarith)
      refine ⟨?_, i2, i3⟩
      intro o ho'
      rw [ho, List.singleton_append, List.mem_cons] at ho'
      rcases ho' with rfl | ho'
      · simp only [groupSummary, hs]
        rw [ht] at hc
        constructor <;> linarith
      · exact i1 o ho'
    · rw [hs, ht] at hc
      obtain ⟨i1, i2, i3⟩ := ih _ (p ++ [x]) hr (h4.trans ht) (by rw [h5, abs_le]; exact ha) (by rw [hs]; linarith)
      exact ⟨by rw [ho]; exact i1, i2, i3⟩

/-- **C07.** With target `T > 0` and input intervals in `[0,d]`: every emitted sample spans at least `T/2` and
less than `3T/2 + d`, the timing correction stays within `±T/2`, and less than `3T/2` is ever held back. -/
theorem run_output_interval (L : AxisAngleLib) (T d : ℝ) (hT : 0 < T) (xs : List ImuSample)
    (hx : ∀ x ∈ xs, 0 ≤ x.deltaAngDt ∧ x.deltaAngDt ≤ d) :
    (∀ o ∈ ((Sampler.init T).run L xs).2, T / 2 ≤ o.deltaAngDt ∧ o.deltaAngDt < 3 * T / 2 + d) ∧
    |((Sampler.init T).run L xs).1.adj| ≤ T / 2 ∧
    (xs.map ImuSample.deltaAngDt).sum - (((Sampler.init T).run L xs).2.map ImuSample.deltaAngDt).sum < 3 * T / 2 := by
  have h := run_bounds_aux L T d hT xs hx (Sampler.init T) [] (rel_init L T) rfl
    (by simp [Sampler.init, Sampler.reset]; linarith) (by simp; linarith)
  refine ⟨h.1, h.2.1, ?_⟩
  have := (run_time_conserved L T xs).1
  linarith [h.2.2]

/-- **C07 (when a sample is emitted).** In the first group (correction still zero) a sample is emitted exactly
when the accumulated angle-integration time reaches the target; the correction then moves by 1 % of the
overshoot, limited to half the target. -/
theorem first_emission (L : AxisAngleLib) (T : ℝ) (s : Sampler) (p : List ImuSample) (x : ImuSample)
    (h : Rel L (view s) p) (ht : s.target = T) (ha : s.adj = 0) :
    ((s.feed L x).2 ≠ [] ↔ T ≤ ((p ++ [x]).map ImuSample.deltaAngDt).sum) ∧
    ((s.feed L x).2 ≠ [] → 0 < T → ((p ++ [x]).map ImuSample.deltaAngDt).sum ≤ 2 * T →
      (s.feed L x).1.adj = (((p ++ [x]).map ImuSample.deltaAngDt).sum - T) / 100) := by
  rcases feed_cases L s p x h with ⟨hc, ho, hr, h4, h5⟩ | ⟨hc, ho, hr, h4, h5⟩
  · rw [ht, ha] at hc h5
    refine ⟨⟨fun _ => by linarith, fun _ => by rw [ho]; simp⟩, fun _ hT h2 => ?_⟩
    rw [h5, constrain_of_mem] <;> linarith
  · rw [ht, ha] at hc
    refine ⟨⟨fun h' => absurd ho h', fun h' => by linarith⟩, fun h' => absurd ho h'⟩

/-! ### The concrete axis-angle conversions -/

open Real in
/-- `Quatf(AxisAnglef(v))` of the matrix library -/
def axisAngleExp (v : V3 ℝ) : Quat ℝ :=
  let n := sqrt (v 0 ^ 2 + v 1 ^ 2 + v 2 ^ 2)
  if n < 1 / 10 ^ 10 then Quat.one
  else ⟨cos (n / 2), v 0 / n * sin (n / 2), v 1 / n * sin (n / 2), v 2 / n * sin (n / 2)⟩

open Real in
/-- `AxisAnglef(q)` of the matrix library -/
def axisAngleLog (q : Quat ℝ) : V3 ℝ :=
  let ang := 2 * arccos q.w
  let mag := sin (ang / 2)
  if 0 < |mag| then ![ang * q.x / mag, ang * q.y / mag, ang * q.z / mag] else 0

theorem axisAngleExp_unit (v : V3 ℝ) : (axisAngleExp v).normSq = 1 := by
  unfold axisAngleExp
  simp only
  split
  · simp [Quat.one, Quat.normSq]
  · next h =>
    have hn : 0 < Real.sqrt (v 0 ^ 2 + v 1 ^ 2 + v 2 ^ 2) :=
      lt_of_lt_of_le (by positivity) (not_lt.mp h)
    have h2 : Real.sqrt (v 0 ^ 2 + v 1 ^ 2 + v 2 ^ 2) ^ 2 = v 0 ^ 2 + v 1 ^ 2 + v 2 ^ 2 :=
      Real.sq_sqrt (by positivity)
    generalize Real.sqrt (v 0 ^ 2 + v 1 ^ 2 + v 2 ^ 2) = n at *
    have hsc := Real.sin_sq_add_cos_sq (n / 2)
    simp only [Quat.normSq]
    have e : (v 0 / n * Real.sin (n / 2)) * (v 0 / n * Real.sin (n / 2)) +
        (v 1 / n * Real.sin (n / 2)) * (v 1 / n * Real.sin (n / 2)) +
        (v 2 / n * Real.sin (n / 2)) * (v 2 / n * Real.sin (n / 2)) =
        (v 0 ^ 2 + v 1 ^ 2 + v 2 ^ 2) / n ^ 2 * Real.sin (n / 2) ^ 2 := by ring
    rw [← h2, div_self (by positivity)] at e
    linarith [e, hsc]

/-- the library used by the code -/
def matrixLib : AxisAngleLib := ⟨axisAngleExp, axisAngleLog, axisAngleExp_unit⟩

/-- The conversions are inverse to each other on every unit quaternion whose rotation angle is at least
1e-10 rad, so `emitted_rotation` applies to all of them. -/
theorem matrixLib_exp_log (q : Quat ℝ) (hq : q.normSq = 1) (hang : 1 / 10 ^ 10 ≤ 2 * Real.arccos q.w)
    (hw : q.w ≠ -1) : matrixLib.exp (matrixLib.log q) = q := by
  show axisAngleExp (axisAngleLog q) = q
  have hq' : q.w ^ 2 + (q.x ^ 2 + q.y ^ 2 + q.z ^ 2) = 1 := by simp only [Quat.normSq] at hq; linarith
  have hw1 : q.w ≤ 1 := by nlinarith [sq_nonneg q.x, sq_nonneg q.y, sq_nonneg q.z]
  have hw2 : -1 ≤ q.w := by nlinarith [sq_nonneg q.x, sq_nonneg q.y, sq_nonneg q.z]
  have hpos : 0 < Real.arccos q.w := by
    have : (0 : ℝ) < 1 / 10 ^ 10 := by positivity
    linarith
  have hlt : Real.arccos q.w < Real.pi := by
    rcases lt_or_eq_of_le (Real.arccos_le_pi q.w) with h | h
    · exact h
    · exact absurd (le_antisymm (Real.arccos_eq_pi.mp h) hw2) hw
  have hsin : 0 < Real.sin (Real.arccos q.w) := Real.sin_pos_of_pos_of_lt_pi hpos hlt
  have hcos : Real.cos (Real.arccos q.w) = q.w := Real.cos_arccos hw2 hw1
  have hs2 : Real.sin (Real.arccos q.w) ^ 2 = q.x ^ 2 + q.y ^ 2 + q.z ^ 2 := by
    have := Real.sin_sq_add_cos_sq (Real.arccos q.w); rw [hcos] at this; linarith
  generalize ha : Real.arccos q.w = a at *
  generalize hs : Real.sin a = s at *
  have hlog : axisAngleLog q = ![2 * a * q.x / s, 2 * a * q.y / s, 2 * a * q.z / s] := by
    unfold axisAngleLog
    simp only [ha]
    have : 2 * a / 2 = a := by ring
    rw [this, hs, if_pos (abs_pos.mpr hsin.ne')]
  have hn : Real.sqrt ((2 * a * q.x / s) ^ 2 + (2 * a * q.y / s) ^ 2 + (2 * a * q.z / s) ^ 2) = 2 * a := by
    have : (2 * a * q.x / s) ^ 2 + (2 * a * q.y / s) ^ 2 + (2 * a * q.z / s) ^ 2 = (2 * a) ^ 2 := by
      have hne := hsin.ne'
      field_simp
      rw [hs2]
    rw [this, Real.sqrt_sq (by linarith)]
  unfold axisAngleExp
  simp only [hlog, Matrix.cons_val, hn]
  rw [if_neg (not_lt.mpr hang)]
  have h2a : 2 * a / 2 = a := by ring
  rw [h2a, hs, hcos]
  have hne := hsin.ne'
  have hane := hpos.ne'
  ext <;> simp <;> field_simp

/-- Non-vacuity: with target 10 ms and 4 ms samples the third one triggers the emission. -/
example : let x : ImuSample := ⟨1000, 0, fun _ => 1, 4/1000, 4/1000, fun i => i == 1⟩
    (((Sampler.init (10/1000)).run matrixLib [x, x]).2 = []) ∧
    ((Sampler.init (10/1000)).run matrixLib [x, x, x]).2.map ImuSample.deltaAngDt = [12/1000] := by
  intro x
  have h0 := rel_init matrixLib (10/1000)
  have e1 : (Sampler.init (10/1000)).feed matrixLib x =
      (((Sampler.init (10/1000)).feed matrixLib x).1, []) ∧
      Rel matrixLib (view ((Sampler.init (10/1000)).feed matrixLib x).1) [x] ∧
      ((Sampler.init (10/1000)).feed matrixLib x).1.target = 10/1000 ∧
      ((Sampler.init (10/1000)).feed matrixLib x).1.adj = 0 := by
    rcases feed_cases matrixLib _ [] x h0 with ⟨hc, ho, hr, h4, h5⟩ | ⟨hc, ho, hr, h4, h5⟩
    · norm_num [Sampler.init, Sampler.reset, x] at hc
    · exact ⟨Prod.ext rfl ho, hr, h4, h5⟩
  obtain ⟨f1, r1, t1, a1⟩ := e1
  generalize ((Sampler.init (10/1000)).feed matrixLib x).1 = s1 at *
  have e2 : (s1.feed matrixLib x) = ((s1.feed matrixLib x).1, []) ∧
      Rel matrixLib (view (s1.feed matrixLib x).1) [x, x] ∧
      (s1.feed matrixLib x).1.target = 10/1000 ∧ (s1.feed matrixLib x).1.adj = 0 := by
    rcases feed_cases matrixLib _ [x] x r1 with ⟨hc, ho, hr, h4, h5⟩ | ⟨hc, ho, hr, h4, h5⟩
    · rw [t1, a1] at hc; norm_num [x] at hc
    · exact ⟨Prod.ext rfl ho, hr, h4.trans t1, h5.trans a1⟩
  obtain ⟨f2, r2, t2, a2⟩ := e2
  generalize (s1.feed matrixLib x).1 = s2 at *
  constructor
  · simp only [Sampler.run, f1, f2]; rfl
  · simp only [Sampler.run, f1, f2]
    rcases feed_cases matrixLib _ [x, x] x r2 with ⟨hc, ho, hr, h4, h5⟩ | ⟨hc, ho, hr, h4, h5⟩
    · rw [ho]; norm_num [groupSummary, x]
    · rw [t2, a2] at hc; norm_num [x] at hc

end Ecl.ImuDownSampler
