import Verif.Whole.PsdHist
import Verif.Whole.PsdEx
import Verif.Fusion.Bounded

/-!
# Property C155 — bounded influence of one measurement, after any regular history

The bounds of `Fusion/Bounded.lean` with their assumption on the covariance discharged by C140.
-/

namespace Ecl.Whole
open Ecl.Cov Ecl.Fusion Ecl.Ekf

/-- **C155.** After any regular history (see C140), the next measurement of height, vertical velocity, airspeed, sideslip, heading or GPS heading, whatever its
value, moves no state further than the gate times the standard deviation the filter then reports for it. -/
theorem influence_bounded (l : List Op) (hok : ∀ op ∈ l, op.Ok ∧ op.LibOk) (hz : ∀ p, p <+: l → (attQuat (run powerOn p).f.s).normSq ≠ 0)
    (hb : ∀ p, p <+: l → Spec.BelowLimits (run powerOn p).dtEkfAvg (run powerOn p).f.P ∧ ∀ a, (run powerOn p).inhibit a = false)
    (hr : ∀ p op, p ++ [op] <+: l → Spec.Regular (run powerOn p) op) :
    let moved (g : ℝ) (op : Op) := Spec.MovedAtMost (fun i => g * Real.sqrt ((run powerOn l).f.P i i)) (run powerOn l).f.s (run powerOn (l ++ [op])).f.s
    let R := (attQuat (run powerOn l).f.s).dcm
    (∀ x i g r a, 0 < g → 0 < r → moved g (.vpos x i g r a)) ∧
    (∀ x i g r a, 0 < g → 0 < r → moved g (.vvel x i g r a)) ∧
    (∀ x a, moved (max x.gate 1) (.airspeed x a)) ∧
    (∀ x a, x.betaNoise ≠ 0 → Spec.bodyAir (run powerOn l).f.s 0 ≠ 0 → moved (max x.gate 1) (.sideslip x a)) ∧
    (∀ x a, (0 < R 0 0 ∨ R 1 0 ≠ 0) → (0 < R 1 1 ∨ R 0 1 ≠ 0) → moved (max x.h.gate 1) (.heading x a)) ∧
    (∀ x a, (0 < Spec.antenna R x.off 0 ∨ Spec.antenna R x.off 1 ≠ 0) → moved (max x.gate 1) (.gpsYaw x a)) := by
  have hv := covariance_valid l hok hz hb hr
  have hP : Spec.PSD (run powerOn l).f.P := ⟨hv.1, hv.2⟩
  have e : ∀ op, run powerOn (l ++ [op]) = step (run powerOn l) op := fun op => by rw [run_append]; rfl
  intro moved R
  refine ⟨fun x i g r a hg hr => ?_, fun x i g r a hg hr => ?_, fun x a => ?_, fun x a hn hx => ?_, fun x a h1 h2 => ?_, fun x a h => ?_⟩ <;>
    show Spec.MovedAtMost _ _ _ <;> rw [e]
  · exact height_bounded x i g r hg hr { a with f := (run powerOn l).f } hP
  · exact vertical_velocity_bounded x i g r hg hr { a with f := (run powerOn l).f } hP
  · exact airspeed_bounded x { a with f := (run powerOn l).f } hP
  · exact sideslip_bounded x { a with f := (run powerOn l).f } hP hx hn
  · show Spec.MovedAtMost _ _ (fuseHeading x { a with y := { a.y with f := (run powerOn l).f }, Rte := (run powerOn l).R }).y.f.s
    unfold fuseHeading
    dsimp only
    split
    · exact heading_bounded true x.h _ _ _ _ { a.y with f := (run powerOn l).f } hP h1
    · exact heading_bounded false x.h _ _ _ _ { a.y with f := (run powerOn l).f } hP h2
  · exact gps_heading_bounded x { a with f := (run powerOn l).f } hP h

/-- non-vacuity: the history of C140's example, then a height measurement with an arbitrary innovation -/
example (L : ImuDownSampler.AxisAngleLib) (a : Est ℝ) (x : VPIn) (i : ℝ) (b : VPSt) :
    |(run powerOn (exReg L a ++ [.vpos x i 3 1 b])).f.s 9 - (run powerOn (exReg L a)).f.s 9| ≤ 3 * Real.sqrt ((run powerOn (exReg L a)).f.P 9 9) :=
  movedAtMost_linear ((influence_bounded _ (exReg_ok L a).1 (exReg_ok L a).2.1 (exReg_ok L a).2.2.1 (exReg_ok L a).2.2.2.1).1 x i 3 1 b (by norm_num) (by norm_num))
    (fun j => mul_nonneg (by norm_num) (Real.sqrt_nonneg _)) 9 (by decide)

end Ecl.Whole
