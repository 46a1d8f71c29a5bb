import Verif.Aid.Sources2
import Verif.Utils.Props
import Mathlib.Analysis.InnerProductSpace.PiL2
import Mathlib.Analysis.SpecialFunctions.Trigonometric.Inverse
import Mathlib.Data.List.Induction

/-!
# Motion on ground that forbids optical flow — EKF/control.cpp:343-352, 412-414, 481-506
-/

namespace Ecl.Meas

noncomputable section
open Classical

/-- `motion_is_excessive`, EKF/control.cpp:484-489: `a` = `_accel_vec_filt`, `rate` = `_ang_rate_magnitude_filt`, `maxRate` = `_flow_max_rate`,
`r22` = `_R_to_earth(2,2)` -/
def motionExcessive (a : V3 ℝ) (rate maxRate r22 : ℝ) : Bool :=
  let n := Real.sqrt (a 0 * a 0 + a 1 * a 1 + a 2 * a 2)
  decide (n > 9.80665 * 1.5) || decide (n < 9.80665 * 0.5) || decide (rate > maxRate) || decide (r22 < Real.cos (30 * (Real.pi / 180)))

end

/-- one filter frame as seen by this test: time, in air, motion excessive -/
structure MFrame where
  t : UInt64
  inAir : Bool
  bad : Bool

/-- `_time_good_motion_us`, `_time_bad_motion_us` -/
structure MMem where
  good : UInt64 := 0
  bad : UInt64 := 0

/-- one frame, EKF/control.cpp:346-351, 491-506 -/
def mStep (m : MMem) (f : MFrame) : MMem :=
  if !f.inAir then (if f.bad then { m with bad := f.t } else { m with good := f.t })
  else { bad := 0, good := f.t }

/-- `preflight_motion_not_ok`, EKF/control.cpp:412-414 -/
def motionNotOk (f : MFrame) (m : MMem) : Bool :=
  !f.inAir && (decide (m.good + 100000 < f.t) || decide (f.t < m.bad + 5000000))

/-- the memory after a history (oldest frame first) -/
def mRun (l : List MFrame) : MMem := l.foldl mStep {}

/-- **C128 (motion).** Motion counts as excessive exactly if the filtered acceleration is outside 0.5 g to 1.5 g, the filtered rotation rate exceeds
the sensor's maximum, or the body is tilted more than 30°. -/
theorem motion_excessive_iff (a : V3 ℝ) (rate maxRate r22 : ℝ) (h1 : -1 ≤ r22) (h2 : r22 ≤ 1) :
    let g : ℝ := 9.80665
    motionExcessive a rate maxRate r22 = true ↔
      (1.5 * g < ‖(WithLp.toLp 2 a : EuclideanSpace ℝ (Fin 3))‖ ∨ ‖(WithLp.toLp 2 a : EuclideanSpace ℝ (Fin 3))‖ < 0.5 * g) ∨ maxRate < rate ∨
      Real.pi / 6 < Real.arccos r22 := by
  intro g
  have hpi := Real.pi_pos
  have hn : ‖(WithLp.toLp 2 a : EuclideanSpace ℝ (Fin 3))‖ = Real.sqrt (a 0 * a 0 + a 1 * a 1 + a 2 * a 2) := by
    rw [EuclideanSpace.norm_eq]
    simp [Fin.sum_univ_three, pow_two]
  have hc : Real.pi / 6 < Real.arccos r22 ↔ r22 < Real.cos (30 * (Real.pi / 180)) := by
    have e : (30 * (Real.pi / 180)) = Real.pi / 6 := by ring
    rw [e]
    constructor
    · intro h
      have := Real.strictAntiOn_cos ⟨by linarith, by linarith⟩ ⟨Real.arccos_nonneg _, Real.arccos_le_pi _⟩ h
      rwa [Real.cos_arccos h1 h2] at this
    · intro h
      by_contra hn
      have := Real.strictAntiOn_cos.antitoneOn ⟨Real.arccos_nonneg r22, Real.arccos_le_pi _⟩
        (show Real.pi / 6 ∈ Set.Icc 0 Real.pi from ⟨by linarith, by linarith⟩) (not_lt.1 hn)
      rw [Real.cos_arccos h1 h2] at this
      linarith
  rw [hn, hc]
  unfold motionExcessive
  simp only [Bool.or_eq_true, decide_eq_true_eq, gt_iff_lt]
  rw [mul_comm 1.5, mul_comm 0.5]
  tauto

/-- the frames since the last one in the air -/
def Spec.sinceAir (l : List MFrame) : List MFrame := (l.reverse.takeWhile fun f => !f.inAir).reverse

/-- latest excessive time of a history, 0 if none since the last frame in the air -/
theorem mRun_spec (l : List MFrame) : ∀ f ∈ l.getLast?, f.inAir = false →
    ((f.bad = false → (mRun l).good = f.t) ∧
     (mRun l).bad = ((Spec.sinceAir l).filter (·.bad)).getLast?.elim 0 (·.t)) := by
  have hbad : (mRun l).bad = ((Spec.sinceAir l).filter (·.bad)).getLast?.elim 0 (·.t) := by
    induction l using List.reverseRecOn with
    | nil => rfl
    | append_singleton l f ih =>
      have hr : mRun (l ++ [f]) = mStep (mRun l) f := by unfold mRun; rw [List.foldl_append]; rfl
      have hs : Spec.sinceAir (l ++ [f]) = if f.inAir then [] else Spec.sinceAir l ++ [f] := by
        unfold Spec.sinceAir
        rw [List.reverse_append, List.reverse_singleton, List.singleton_append, List.takeWhile_cons]
        cases f.inAir <;> simp
      rw [hr, hs]
      unfold mStep
      cases hi : f.inAir
      · cases hb : f.bad
        · simp [List.filter_append, hb, ih]
        · simp [List.filter_append, hb]
      · simp
  intro f hf hi
  refine ⟨fun hb => ?_, hbad⟩
  rw [Option.mem_def, List.getLast?_eq_some_iff] at hf
  obtain ⟨l', rfl⟩ := hf
  unfold mRun
  rw [List.foldl_append]
  show (mStep _ f).good = _
  unfold mStep
  rw [hi, hb]; rfl

/-- **C128 (memory).** After every history of frames at non-decreasing times (not within 5 s of the end of the clock) whose last frame is on ground:
optical flow is blocked for motion exactly if the motion was excessive in some frame on ground since the vehicle was last in the air, less
than 5 s ago — or fewer than 5 s passed since the clock was zero. -/
theorem motion_memory (l : List MFrame) (f : MFrame) (hl : l.getLast? = some f) (hi : f.inAir = false)
    (hs : l.Pairwise fun a b => a.t ≤ b.t) (hb : ∀ g ∈ l, g.t.toNat + 5000000 < 2 ^ 64) :
    motionNotOk f (mRun l) = true ↔ (∃ g ∈ Spec.sinceAir l, g.bad = true ∧ f.t.toNat < g.t.toNat + 5000000) ∨ f.t.toNat < 5000000 := by
  obtain ⟨h1, h2⟩ := mRun_spec l f (by rw [hl]; rfl) hi
  have hmem : ∀ g ∈ Spec.sinceAir l, g ∈ l := by
    intro g hg
    unfold Spec.sinceAir at hg
    rw [List.mem_reverse] at hg
    exact List.mem_reverse.1 ((List.takeWhile_sublist _).subset hg)
  have hfl : f ∈ l := List.mem_of_getLast? hl
  have hfin : f ∈ Spec.sinceAir l := by
    rw [List.getLast?_eq_some_iff] at hl
    obtain ⟨l', rfl⟩ := hl
    unfold Spec.sinceAir
    simp [List.takeWhile_cons, hi]
  have hsub : (Spec.sinceAir l).Pairwise fun a b => a.t ≤ b.t := by
    have : List.Sublist (Spec.sinceAir l) l := by
      unfold Spec.sinceAir
      have := (List.takeWhile_sublist (l := l.reverse) fun f => !f.inAir).reverse
      rwa [List.reverse_reverse] at this
    exact hs.sublist this
  unfold motionNotOk
  rw [hi]
  simp only [Bool.not_false, Bool.true_and, Bool.or_eq_true, decide_eq_true_eq]
  have hadd : ∀ t : UInt64, t.toNat + 5000000 < 2 ^ 64 → (t + 5000000).toNat = t.toNat + 5000000 := by
    intro t ht
    rw [UInt64.toNat_add, Nat.mod_eq_of_lt]
    · rfl
    · exact ht
  -- the latest excessive frame
  cases hlast : ((Spec.sinceAir l).filter (·.bad)).getLast? with
  | none =>
    rw [List.getLast?_eq_none_iff] at hlast
    have hnob : ∀ g ∈ Spec.sinceAir l, g.bad = false := by
      intro g hg
      have := List.filter_eq_nil_iff.1 hlast g hg
      simpa using this
    have hfb := hnob f hfin
    rw [h1 hfb, h2, hlast]
    simp only [List.getLast?_nil, Option.elim_none]
    have e1 : ¬ (f.t + 100000 < f.t) := by
      rw [UInt64.lt_iff_toNat_lt, UInt64.toNat_add, Nat.mod_eq_of_lt]
      · omega
      · have := hb f hfl
        have e : (100000 : UInt64).toNat = 100000 := rfl
        omega
    have e2 : f.t < 0 + 5000000 ↔ f.t.toNat < 5000000 := by
      rw [UInt64.lt_iff_toNat_lt]; rfl
    rw [e2]
    constructor
    · rintro (h | h)
      · exact absurd h e1
      · exact Or.inr h
    · rintro (⟨g, hg, hgb, -⟩ | h)
      · rw [hnob g hg] at hgb; cases hgb
      · exact Or.inr h
  | some g =>
    have hg : g ∈ (Spec.sinceAir l).filter (·.bad) := List.mem_of_getLast? hlast
    have hgs := (List.mem_filter.1 hg).1
    have hgb : g.bad = true := by simpa using (List.mem_filter.1 hg).2
    rw [h2, hlast]
    simp only [Option.elim_some]
    have hge : ∀ k ∈ Spec.sinceAir l, k.bad = true → k.t ≤ g.t := by
      intro k hk hkb
      have hkm : k ∈ (Spec.sinceAir l).filter (·.bad) := List.mem_filter.2 ⟨hk, by simpa using hkb⟩
      rw [List.getLast?_eq_some_iff] at hlast
      obtain ⟨l', hl'⟩ := hlast
      have hp := hsub.filter (·.bad)
      rw [hl'] at hp hkm
      rcases List.mem_append.1 hkm with h | h
      · exact (List.pairwise_append.1 hp).2.2 k h g (List.mem_singleton.2 rfl)
      · rw [List.mem_singleton.1 h]; exact UInt64.le_refl _
    have e2 : f.t < g.t + 5000000 ↔ f.t.toNat < g.t.toNat + 5000000 := by
      rw [UInt64.lt_iff_toNat_lt, hadd _ (hb g (hmem g hgs))]
    rw [e2]
    have hgood : f.t.toNat ≥ g.t.toNat + 5000000 → ¬ ((mRun l).good + 100000 < f.t) := by
      intro hlt
      have hfb : f.bad = false := by
        cases h : f.bad
        · rfl
        · have := UInt64.le_iff_toNat_le.1 (hge f hfin h)
          omega
      rw [h1 hfb, UInt64.lt_iff_toNat_lt, UInt64.toNat_add, Nat.mod_eq_of_lt]
      · omega
      · have := hb f hfl
        have e : (100000 : UInt64).toNat = 100000 := rfl
        omega
    constructor
    · rintro (h | h)
      · left
        refine ⟨g, hgs, hgb, ?_⟩
        by_contra hc
        exact hgood (not_lt.1 hc) h
      · exact Or.inl ⟨g, hgs, hgb, h⟩
    · rintro (⟨k, hk, hkb, hkt⟩ | h)
      · right
        have := UInt64.le_iff_toNat_le.1 (hge k hk hkb)
        omega
      · right; omega

/-- **C128 (use).** This memory and this test are the ones that decide about flow aiding in the mode control (C111). -/
theorem motion_in_control (x : Aid.In) (s : Aid.St) :
    let f : MFrame := ⟨x.tDel, x.inAir, x.motionExcessive⟩
    let s' := Aid.flowMotion x s
    mStep ⟨s.tGood, s.tBad⟩ f = ⟨s'.tGood, s'.tBad⟩ ∧
    (x.inAir = false → s'.tilt = true → (Aid.flowInhibit x s' = true ↔ motionNotOk f ⟨s'.tGood, s'.tBad⟩ = true)) := by
  intro f s'
  constructor
  · show mStep ⟨s.tGood, s.tBad⟩ ⟨x.tDel, x.inAir, x.motionExcessive⟩ = ⟨(Aid.flowMotion x s).tGood, (Aid.flowMotion x s).tBad⟩
    unfold mStep Aid.flowMotion
    cases x.inAir <;> cases x.motionExcessive <;> rfl
  · intro h1 h2
    rw [Aid.flowInhibit_iff]
    unfold Aid.Inhibited motionNotOk
    simp [h1, h2, f]

/-- Non-vacuity: on ground at 10 s after excessive motion at 7 s: blocked; a short hop in between clears the memory. -/
example : motionNotOk ⟨10000000, false, false⟩ (mRun [⟨7000000, false, true⟩, ⟨10000000, false, false⟩]) = true ∧
    motionNotOk ⟨10000000, false, false⟩ (mRun [⟨7000000, false, true⟩, ⟨8000000, true, false⟩, ⟨10000000, false, false⟩]) = false := by
  decide +kernel

end Ecl.Meas
