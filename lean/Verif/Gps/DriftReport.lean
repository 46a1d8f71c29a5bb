import Verif.Gps.Checks

/-!
# C113 — drift metrics report, EKF/ekf_helper.cpp:740-751
-/

namespace Ecl.Gps

/-- what `get_gps_drift_metrics` hands out -/
structure DriftReport where
  horDrift : ℝ
  verDrift : ℝ
  horSpeed : ℝ
  blocked : Bool
  fresh : Bool

/-- `get_gps_drift_metrics`, EKF/ekf_helper.cpp:740-751; the at-rest flag is the one at the time of the call -/
def driftReport (atRest : Bool) (s : St) : St × DriftReport :=
  ({ s with driftUpdated := false }, ⟨s.m0, s.m1, s.m2, !atRest, s.driftUpdated⟩)

/-- a GPS message processed, or the report read -/
inductive DriftEv
  | msg (x : In)
  | report (atRest : Bool)

/-- history of messages and reports: final state and the reports handed out -/
noncomputable def driftRun (g : GeoLib) (p : Params) (s : St) : List DriftEv → St × List DriftReport
  | [] => (s, [])
  | .msg x :: es => driftRun g p (isGood g p x s).1 es
  | .report r :: es =>
    let q := driftRun g p (driftReport r s).1 es
    (q.1, (driftReport r s).2 :: q.2)

/-- the message was received on the ground with the vehicle at rest -/
def Spec.AtRest (x : In) : Prop := x.inAir = false ∧ x.atRest = true

theorem drift_record_frame (p : Params) (now : UInt64) (s : St) :
    (record p now s).driftUpdated = s.driftUpdated ∧ (record p now s).m0 = s.m0 ∧ (record p now s).m1 = s.m1 ∧
    (record p now s).m2 = s.m2 ∧ (record p now s).derN = s.derN ∧ (record p now s).derE = s.derE ∧ (record p now s).derD = s.derD ∧
    (record p now s).velN = s.velN ∧ (record p now s).velE = s.velE := by
  unfold record
  simp only []
  split_ifs <;> exact ⟨rfl, rfl, rfl, rfl, rfl, rfl, rfl, rfl, rfl⟩

/-- one message: the "updated" marker is set exactly by messages received on the ground; the metrics are recomputed only at rest,
where they are the filtered drift speeds; away from rest the filters restart from zero -/
theorem isGood_drift (g : GeoLib) (p : Params) (x : In) (s : St) :
    ((isGood g p x s).1.driftUpdated = !x.inAir) ∧
    (¬ Spec.AtRest x → (isGood g p x s).1.m0 = s.m0 ∧ (isGood g p x s).1.m1 = s.m1 ∧ (isGood g p x s).1.m2 = s.m2 ∧
      (isGood g p x s).1.derN = 0 ∧ (isGood g p x s).1.derE = 0 ∧ (isGood g p x s).1.derD = 0 ∧
      (isGood g p x s).1.velN = 0 ∧ (isGood g p x s).1.velE = 0) ∧
    (Spec.AtRest x →
      (isGood g p x s).1.m0 = Real.sqrt ((isGood g p x s).1.derN ^ 2 + (isGood g p x s).1.derE ^ 2) ∧
      (isGood g p x s).1.m1 = |(isGood g p x s).1.derD| ∧
      (isGood g p x s).1.m2 = Real.sqrt ((isGood g p x s).1.velN ^ 2 + (isGood g p x s).1.velE ^ 2)) := by
  unfold isGood
  simp only []
  generalize hdt : dtOf x.now (quality p x.msg s).prevT = dt
  obtain ⟨r1, r2, r3, r4, r5, r6, r7, r8, r9⟩ := drift_record_frame p x.now (vspeed p x (dt / 10) (motion g p x dt (dt / 10) (quality p x.msg s)))
  rw [r1, r2, r3, r4, r5, r6, r7, r8, r9]
  unfold vspeed motion Spec.AtRest
  simp only []
  cases ha : x.inAir <;> cases hr : x.atRest <;>
    simp only [Bool.not_false, Bool.not_true, Bool.and_self, Bool.and_true, Bool.and_false, Bool.true_and, Bool.false_and,
      Bool.false_eq_true, if_true, if_false, ↓reduceIte, true_and, and_true, not_true_eq_false, and_self, not_false_eq_true,
      reduceCtorEq, false_and, and_false, true_implies, false_implies, implies_true]
  · exact ⟨rfl, rfl, rfl, rfl, rfl, rfl, rfl, rfl, rfl⟩
  · refine ⟨rfl, ?_, rfl, ?_⟩
    · unfold restChecks; simp only [pow_two]
    · unfold restChecks; simp only [pow_two]
  · exact ⟨rfl, rfl, rfl, rfl, rfl, rfl, rfl, rfl, rfl⟩
  · exact ⟨rfl, rfl, rfl, rfl, rfl, rfl, rfl, rfl, rfl⟩

theorem driftRun_append (g : GeoLib) (p : Params) (s : St) (a b : List DriftEv) :
    driftRun g p s (a ++ b) = ((driftRun g p (driftRun g p s a).1 b).1, (driftRun g p s a).2 ++ (driftRun g p (driftRun g p s a).1 b).2) := by
  induction a generalizing s with
  | nil => rfl
  | cons e es ih =>
    cases e with
    | msg x => exact ih _
    | report r =>
      show ((driftRun g p (driftReport r s).1 (es ++ b)).1, _ :: (driftRun g p (driftReport r s).1 (es ++ b)).2) = _
      rw [ih]; rfl

/-- **C113 (freshness).** In every history a report is marked fresh exactly when the event just before it is a message received on the ground:
never for the first call before any message, never twice for one message, never for a message received in flight. -/
theorem report_fresh_iff (g : GeoLib) (p : Params) (hist : List DriftEv) (atRest : Bool) :
    ((driftReport atRest (driftRun g p St.init hist).1).2.fresh = true ↔
      ∃ pre x, hist = pre ++ [.msg x] ∧ x.inAir = false) ∧
    (driftReport atRest (driftRun g p St.init hist).1).2.blocked = !atRest := by
  refine ⟨?_, rfl⟩
  rcases List.eq_nil_or_concat hist with rfl | ⟨pre, e, rfl⟩
  · simp [driftRun, driftReport, St.init]
  · rw [List.concat_eq_append, driftRun_append]
    cases e with
    | msg x =>
      show (isGood g p x _).1.driftUpdated = true ↔ _
      rw [(isGood_drift g p x _).1]
      constructor
      · intro h; exact ⟨pre, x, rfl, by simpa using h⟩
      · rintro ⟨pre', x', h, hx⟩
        have := List.append_inj' h rfl
        simp only [List.cons.injEq, DriftEv.msg.injEq, and_true] at this
        rw [this.2, hx]; rfl
    | report r =>
      constructor
      · intro h; exact absurd h (by simp [driftRun, driftReport])
      · rintro ⟨pre', x', h, -⟩
        have := List.append_inj' h rfl
        simp at this

/-- the metrics after a history without at-rest messages are those before it -/
theorem driftRun_metrics (g : GeoLib) (p : Params) (s : St) (es : List DriftEv) (h : ∀ x, .msg x ∈ es → ¬ Spec.AtRest x) :
    (driftRun g p s es).1.m0 = s.m0 ∧ (driftRun g p s es).1.m1 = s.m1 ∧ (driftRun g p s es).1.m2 = s.m2 := by
  induction es generalizing s with
  | nil => exact ⟨rfl, rfl, rfl⟩
  | cons e es ih =>
    cases e with
    | msg x =>
      obtain ⟨a, b, c⟩ := ih (isGood g p x s).1 (fun y hy => h y (List.mem_cons_of_mem _ hy))
      obtain ⟨a', b', c', -⟩ := (isGood_drift g p x s).2.1 (h x (by simp))
      exact ⟨a.trans a', b.trans b', c.trans c'⟩
    | report r => exact ih (driftReport r s).1 (fun y hy => h y (List.mem_cons_of_mem _ hy))

/-- **C113 (values).** The values reported are those computed by the most recent message received at rest on the ground, however many reports and
messages in motion or in flight came since; they are non-negative; before any such message they are zero. -/
theorem report_values (g : GeoLib) (p : Params) (atRest : Bool) :
    (∀ hist, (∀ x, .msg x ∈ hist → ¬ Spec.AtRest x) →
      let r := (driftReport atRest (driftRun g p St.init hist).1).2
      r.horDrift = 0 ∧ r.verDrift = 0 ∧ r.horSpeed = 0) ∧
    (∀ pre x post, Spec.AtRest x → (∀ y, .msg y ∈ post → ¬ Spec.AtRest y) →
      let s := (isGood g p x (driftRun g p St.init pre).1).1
      let r := (driftReport atRest (driftRun g p St.init (pre ++ .msg x :: post)).1).2
      r.horDrift = Real.sqrt (s.derN ^ 2 + s.derE ^ 2) ∧ r.verDrift = |s.derD| ∧ r.horSpeed = Real.sqrt (s.velN ^ 2 + s.velE ^ 2) ∧
      0 ≤ r.horDrift ∧ 0 ≤ r.verDrift ∧ 0 ≤ r.horSpeed) := by
  constructor
  · intro hist h
    exact driftRun_metrics g p St.init hist h
  · intro pre x post hx h s r
    have hm := driftRun_metrics g p s post h
    have hr : r.horDrift = s.m0 ∧ r.verDrift = s.m1 ∧ r.horSpeed = s.m2 := by
      simp only [r]
      rw [driftRun_append]
      exact hm
    obtain ⟨a, b, c⟩ := (isGood_drift g p x (driftRun g p St.init pre).1).2.2 hx
    refine ⟨hr.1.trans a, hr.2.1.trans b, hr.2.2.trans c, ?_, ?_, ?_⟩
    · rw [hr.1.trans a]; exact Real.sqrt_nonneg _
    · rw [hr.2.1.trans b]; exact abs_nonneg _
    · rw [hr.2.2.trans c]; exact Real.sqrt_nonneg _

/-- **C113, finding.** On the ground in motion a report is marked fresh although the values are old: they are exactly the values of the previous
report. -/
theorem report_fresh_but_old (g : GeoLib) (p : Params) (hist : List DriftEv) (x : In) (r1 r2 : Bool) (h1 : x.inAir = false) (h2 : x.atRest = false) :
    let a := (driftReport r1 (driftRun g p St.init hist).1).2
    let b := (driftReport r2 (driftRun g p St.init (hist ++ [.report r1, .msg x])).1).2
    b.fresh = true ∧ b.horDrift = a.horDrift ∧ b.verDrift = a.verDrift ∧ b.horSpeed = a.horSpeed := by
  intro a b
  refine ⟨(report_fresh_iff g p _ r2).1.mpr ⟨hist ++ [.report r1], x, by simp, h1⟩, ?_⟩
  have hm := driftRun_metrics g p (driftRun g p St.init hist).1 [.report r1, .msg x] (by
    intro y hy
    simp only [List.mem_cons, reduceCtorEq, DriftEv.msg.injEq, List.not_mem_nil, or_false, false_or] at hy
    rw [hy]
    intro hc; rw [hc.2] at h2; simp at h2)
  simp only [a, b]
  rw [driftRun_append]
  exact hm

/-- **C113 (start-up).** Before the first message no check is flagged as failed and nothing is marked as updated. -/
theorem fresh_checks : (∀ p, ¬ Spec.Failed p St.init.fail) ∧ St.init.driftUpdated = false ∧
    St.init.fail = ⟨false, false, false, false, false, false, false, false, false, false⟩ :=
  ⟨fun p => by simp [Spec.Failed, St.init], rfl, rfl⟩

/-- non-vacuity: a message at rest on the ground exists, and one in motion -/
example (m : Msg) : Spec.AtRest ⟨m, 1000000, false, true, 0⟩ ∧ ¬ Spec.AtRest ⟨m, 1000000, false, false, 0⟩ :=
  ⟨⟨rfl, rfl⟩, fun h => by simp [Spec.AtRest] at h⟩

end Ecl.Gps
