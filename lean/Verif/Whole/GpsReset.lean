import Verif.Whole.VisionReset
import Verif.Meas.GpsMeas

/-!
# What a reset to GPS leaves behind (C169)

EKF/control.cpp:540, 661-662 (resets), 674-720 (fusion of the same sample).  The reset takes the sample as it is, the motion of the antenna; the fusion that
follows takes the same sample corrected to the motion of the IMU.
-/

namespace Ecl.Whole

open Ecl.Cov Ecl.Fusion Ecl.Ekf Ecl.Meas
open scoped Matrix

noncomputable section

/-! ## Model -/

/-- `startGpsFusion`, EKF/ekf_helper.cpp:1416-1424, on the filter -/
def gpsStart (rx : RIn) (aux : Est ℝ) (f : Filt) : Filt :=
  let f := onEst (posToGps rx) aux f
  if !rx.optFlow then onEst (velToGps rx) aux f else f

/-- one GPS sample with which GPS aiding starts (`start`, EKF/control.cpp:540) or is reset after a timeout (EKF/control.cpp:661-662): the resets read the
uncorrected sample, then EKF/control.cpp:674-720 corrects and fuses it.  A realignment of the yaw before the resets (EKF/control.cpp:526-537, 655-659) is not part of
this step: `R` is the attitude used afterwards -/
def gpsResetStep (start : Bool) (x : VPIn) (p : GpsPar) (R : M3 ℝ) (w : V3 ℝ) (other : Bool) (g : GpsData) (rx : RIn) (aux : Est ℝ) (st : VPSt) : GpsFused :=
  let f := if start then gpsStart rx aux st.f else onEst (Meas.resetHorizontalPosition rx) aux (onEst (Meas.resetVelocity rx) aux st.f)
  gpsFuse x p R w other g { st with f := f }

/-! ## Proof -/

theorem gate_lt (i g P r : ℝ) (hg : 0 < g) (hr : 0 < P + r) : sq i / (sq g * (P + r)) ≤ 1 ↔ i ^ 2 ≤ g ^ 2 * (P + r) := by
  unfold sq
  rw [div_le_one (by positivity)]
  constructor <;> intro h <;> nlinarith

/-- variances within the limits of `fixCovarianceErrors` -/
def InLim (v : ℝ) : Prop := 1 / 1000000 ≤ v ∧ v ≤ 1000000

/-- what the fusions keep about the uncorrelated states -/
structure Kept (a b : Filt) (S : Fin N → Prop) : Prop where
  lone : ∀ q, Lone a.P q → Lone b.P q
  nonneg : ∀ i, 0 ≤ b.P i i
  var : ∀ q : Fin N, 4 ≤ q.val → q.val < 10 → ¬ S q → InLim (a.P q q) → b.P q q = a.P q q
  state : ∀ q : Fin N, 4 ≤ q.val → ¬ S q → b.s q = a.s q

theorem hvel_lone_gps (x : VPIn) (i0 i1 g r0 r1 : ℝ) (st : VPSt) (hg : 0 < g) (h0 : 0 < r0) (h1 : 0 < r1) (l4 : Lone st.f.P 4) (l5 : Lone st.f.P 5)
    (hd : ∀ i, 0 ≤ st.f.P i i) (b5 : InLim (st.f.P 5 5)) :
    let o := fuseHorizontalVelocity x i0 i1 g r0 r1 st
    let H := i0 ^ 2 ≤ g ^ 2 * (st.f.P 4 4 + r0) ∧ i1 ^ 2 ≤ g ^ 2 * (st.f.P 5 5 + r1)
    (H → o.ret = true ∧ o.st.f.s 4 = st.f.s 4 - st.f.P 4 4 / (st.f.P 4 4 + r0) * i0 ∧ o.st.f.s 5 = st.f.s 5 - st.f.P 5 5 / (st.f.P 5 5 + r1) * i1) ∧
    (¬ H → o.ret = false ∧ o.st.f = st.f) ∧ Kept st.f o.st.f (fun q => q = 4 ∨ q = 5) := by
  intro o H
  have hgi : (max (sq i0 / (sq g * (st.f.P 4 4 + r0))) (sq i1 / (sq g * (st.f.P 5 5 + r1))) ≤ 1) ↔ H := by
    rw [max_le_iff, gate_lt _ _ _ _ hg (by have := hd 4; linarith), gate_lt _ _ _ _ hg (by have := hd 5; linarith)]
  by_cases c : H
  · have ho : o = ⟨fuseVelPosHeight x i1 (st.f.P 5 5 + r1) 1 (fuseVelPosHeight x i0 (st.f.P 4 4 + r0) 0 { st with tHvel := x.fx.now, rejHvel := false }),
        (st.f.P 4 4 + r0, st.f.P 5 5 + r1), max (sq i0 / (sq g * (st.f.P 4 4 + r0))) (sq i1 / (sq g * (st.f.P 5 5 + r1))), true⟩ := by
      show fuseHorizontalVelocity x i0 i1 g r0 r1 st = _
      unfold fuseHorizontalVelocity
      dsimp only
      rw [if_pos (hgi.mpr c)]
    set s1 : VPSt := { st with tHvel := x.fx.now, rejHvel := false } with hs1
    have e4 : (obsState 0 : Fin N) = 4 := rfl
    have e5 : (obsState 1 : Fin N) = 5 := rfl
    have A := fuse_lone x i0 r0 h0 0 s1 (by rw [e4]; exact l4) hd
    rw [e4] at A
    obtain ⟨A1, A2, A3, A4, A5⟩ := A
    set s2 := fuseVelPosHeight x i0 (st.f.P 4 4 + r0) 0 s1 with hs2
    have B5 : s2.f.P 5 5 = st.f.P 5 5 := A5 5 (by decide) (by decide) (by decide) b5.1 b5.2
    have B := fuse_lone x i1 r1 h1 1 s2 (by rw [e5]; exact A3 5 l5) A4
    rw [e5, B5] at B
    obtain ⟨B1, B2, B3, B4, BP⟩ := B
    rw [ho]
    refine ⟨fun _ => ⟨rfl, ?_, ?_⟩, fun c' => absurd c c', ⟨fun q h => B3 q (A3 q h), B4, ?_, ?_⟩⟩
    · exact (B2 4 (by decide) (by decide)).trans A1
    · refine B1.trans ?_
      rw [A2 5 (by decide) (by decide)]
    · intro q h4 h10 hS hb
      push Not at hS
      have := A5 q h4 h10 hS.1 hb.1 hb.2
      rw [← this] at hb
      exact (BP q h4 h10 hS.2 hb.1 hb.2).trans this
    · intro q h4 hS
      push Not at hS
      exact (B2 q h4 hS.2).trans (A2 q h4 hS.1)
  · have ho : o.ret = false ∧ o.st.f = st.f := by
      show (fuseHorizontalVelocity x i0 i1 g r0 r1 st).ret = false ∧ (fuseHorizontalVelocity x i0 i1 g r0 r1 st).st.f = st.f
      unfold fuseHorizontalVelocity
      dsimp only
      rw [if_neg (fun h => c (hgi.mp h))]
      exact ⟨rfl, rfl⟩
    refine ⟨fun c' => absurd c' c, fun _ => ho, ?_⟩
    rw [ho.2]
    exact ⟨fun _ h => h, hd, fun _ _ _ _ _ => rfl, fun _ _ _ => rfl⟩

theorem vvel_lone_gps (x : VPIn) (i g r : ℝ) (st : VPSt) (hb : x.badVertAccel = false) (hg : 0 < g) (h0 : 0 < r) (l6 : Lone st.f.P 6) (hd : ∀ i, 0 ≤ st.f.P i i) :
    let o := fuseVerticalVelocity x i g r st
    let H := i ^ 2 ≤ g ^ 2 * (st.f.P 6 6 + r)
    (H → o.ret = true ∧ o.st.f.s 6 = st.f.s 6 - st.f.P 6 6 / (st.f.P 6 6 + r) * i) ∧ (¬ H → o.ret = false ∧ o.st.f = st.f) ∧
    Kept st.f o.st.f (fun q => q = 6) := by
  intro o H
  have hgi : (sq i / (sq g * (st.f.P 6 6 + r)) ≤ 1) ↔ H := gate_lt _ _ _ _ hg (by have := hd 6; linarith)
  by_cases c : H
  · have ho : o = ⟨fuseVelPosHeight x i (st.f.P 6 6 + r) 2 { st with vvelRatio := i / Real.sqrt (st.f.P 6 6 + r), tVvelTry := x.fx.now, tVvel := x.fx.now, rejVvel := false },
        (st.f.P 6 6 + r, st.f.P 6 6 + r), sq i / (sq g * (st.f.P 6 6 + r)), true⟩ := by
      show fuseVerticalVelocity x i g r st = _
      unfold fuseVerticalVelocity
      dsimp only
      rw [hb, Bool.false_and]
      simp only [Bool.false_eq_true, if_false, decide_eq_true_eq]
      rw [if_pos (hgi.mpr c)]
    set s1 : VPSt := { st with vvelRatio := i / Real.sqrt (st.f.P 6 6 + r), tVvelTry := x.fx.now, tVvel := x.fx.now, rejVvel := false } with hs1
    have e6 : (obsState 2 : Fin N) = 6 := rfl
    have A := fuse_lone x i r h0 2 s1 (by rw [e6]; exact l6) hd
    rw [e6] at A
    obtain ⟨A1, A2, A3, A4, A5⟩ := A
    rw [ho]
    exact ⟨fun _ => ⟨rfl, A1⟩, fun c' => absurd c c', ⟨A3, A4, fun q h4 h10 hS hb => A5 q h4 h10 hS hb.1 hb.2, fun q h4 hS => A2 q h4 hS⟩⟩
  · have ho : o.ret = false ∧ o.st.f = st.f := by
      show (fuseVerticalVelocity x i g r st).ret = false ∧ (fuseVerticalVelocity x i g r st).st.f = st.f
      unfold fuseVerticalVelocity
      dsimp only
      rw [hb, Bool.false_and]
      simp only [Bool.false_eq_true, if_false, decide_eq_true_eq]
      rw [if_neg (fun h => c (hgi.mp h))]
      exact ⟨rfl, rfl⟩
    refine ⟨fun c' => absurd c' c, fun _ => ho, ?_⟩
    rw [ho.2]
    exact ⟨fun _ h => h, hd, fun _ _ _ _ _ => rfl, fun _ _ _ => rfl⟩

theorem hpos_lone_gps (x : VPIn) (i0 i1 g r0 r1 : ℝ) (st : VPSt) (hg : 0 < g) (h0 : 0 < r0) (h1 : 0 < r1) (l7 : Lone st.f.P 7) (l8 : Lone st.f.P 8)
    (hd : ∀ i, 0 ≤ st.f.P i i) (b8 : InLim (st.f.P 8 8)) :
    let o := fuseHorizontalPosition x i0 i1 g r0 r1 false st
    let H := i0 ^ 2 ≤ g ^ 2 * (st.f.P 7 7 + r0) ∧ i1 ^ 2 ≤ g ^ 2 * (st.f.P 8 8 + r1)
    (H → o.ret = true ∧ o.st.f.s 7 = st.f.s 7 - st.f.P 7 7 / (st.f.P 7 7 + r0) * i0 ∧ o.st.f.s 8 = st.f.s 8 - st.f.P 8 8 / (st.f.P 8 8 + r1) * i1) ∧
    (¬ H → o.ret = false ∧ o.st.f = st.f) ∧ Kept st.f o.st.f (fun q => q = 7 ∨ q = 8) := by
  intro o H
  have hgi : (max (sq i0 / (sq g * (st.f.P 7 7 + r0))) (sq i1 / (sq g * (st.f.P 8 8 + r1))) ≤ 1) ↔ H := by
    rw [max_le_iff, gate_lt _ _ _ _ hg (by have := hd 7; linarith), gate_lt _ _ _ _ hg (by have := hd 8; linarith)]
  by_cases c : H
  · obtain ⟨s1, hs1, hf⟩ : ∃ s1 : VPSt, o = ⟨fuseVelPosHeight x i1 (st.f.P 8 8 + r1) 4 (fuseVelPosHeight x i0 (st.f.P 7 7 + r0) 3 s1),
        (st.f.P 7 7 + r0, st.f.P 8 8 + r1), max (sq i0 / (sq g * (st.f.P 7 7 + r0))) (sq i1 / (sq g * (st.f.P 8 8 + r1))), true⟩ ∧ s1.f = st.f := by
      refine ⟨{ (if !x.asOdom then { st with tHpos := x.fx.now } else { st with tDelpos := x.fx.now }) with rejHpos := false }, ?_, ?_⟩
      · show fuseHorizontalPosition x i0 i1 g r0 r1 false st = _
        unfold fuseHorizontalPosition
        dsimp only
        rw [if_pos (Or.inl (hgi.mpr c)), if_neg (by simp)]
      · dsimp only
        split <;> rfl
    have e7 : (obsState 3 : Fin N) = 7 := rfl
    have e8 : (obsState 4 : Fin N) = 8 := rfl
    have A := fuse_lone x i0 r0 h0 3 s1 (by rw [e7, hf]; exact l7) (by rw [hf]; exact hd)
    rw [e7, hf] at A
    obtain ⟨A1, A2, A3, A4, A5⟩ := A
    set s2 := fuseVelPosHeight x i0 (st.f.P 7 7 + r0) 3 s1 with hs2
    have B8 : s2.f.P 8 8 = st.f.P 8 8 := A5 8 (by decide) (by decide) (by decide) b8.1 b8.2
    have B := fuse_lone x i1 r1 h1 4 s2 (by rw [e8]; exact A3 8 l8) A4
    rw [e8, B8] at B
    obtain ⟨B1, B2, B3, B4, BP⟩ := B
    rw [hs1]
    refine ⟨fun _ => ⟨rfl, ?_, ?_⟩, fun c' => absurd c c', ⟨fun q h => B3 q (A3 q h), B4, ?_, ?_⟩⟩
    · exact (B2 7 (by decide) (by decide)).trans A1
    · refine B1.trans ?_
      rw [A2 8 (by decide) (by decide)]
    · intro q h4 h10 hS hb
      push Not at hS
      have := A5 q h4 h10 hS.1 hb.1 hb.2
      rw [← this] at hb
      exact (BP q h4 h10 hS.2 hb.1 hb.2).trans this
    · intro q h4 hS
      push Not at hS
      exact (B2 q h4 hS.2).trans (A2 q h4 hS.1)
  · have ho : o.ret = false ∧ o.st.f = st.f := by
      show (fuseHorizontalPosition x i0 i1 g r0 r1 false st).ret = false ∧ (fuseHorizontalPosition x i0 i1 g r0 r1 false st).st.f = st.f
      unfold fuseHorizontalPosition
      dsimp only
      rw [if_neg (by rw [hgi]; rintro (h | h); exact c h; exact absurd h (by decide))]
      exact ⟨rfl, rfl⟩
    refine ⟨fun c' => absurd c' c, fun _ => ho, ?_⟩
    rw [ho.2]
    exact ⟨fun _ h => h, hd, fun _ _ _ _ _ => rfl, fun _ _ _ => rfl⟩

/-- setting one block keeps the variances and the lack of correlation of another -/
theorem uncorrSet_other (k n : ℕ) (var : Fin N → ℝ) (P : Mat ℝ) (q : Fin N) (hl : Lone P q) (hn : ¬ inBlk k n q) :
    uncorrSet k n var P q q = P q q ∧ Lone (uncorrSet k n var P) q := by
  constructor
  · unfold uncorrSet
    rw [if_neg (by rintro (h | h) <;> exact hn h)]
  · intro r hr
    unfold uncorrSet
    rw [if_neg hr, if_neg (Ne.symm hr), (hl r hr).1, (hl r hr).2, ite_self, ite_self]
    exact ⟨rfl, rfl⟩

theorem posToGps_filt (rx : RIn) (aux : Est ℝ) (f : Filt) (g : Meas.Flt → Meas.Flt) (hg : ∀ e, (g e).est = (posToGps rx e).est ∧ (g e).P = (posToGps rx e).P) :
    (onEst g aux f).P = uncorrSet 7 2 (fun _ => sq rx.gpsHacc) f.P ∧ (onEst g aux f).s 4 = f.s 4 ∧ (onEst g aux f).s 5 = f.s 5 ∧ (onEst g aux f).s 6 = f.s 6 ∧
      (onEst g aux f).s 7 = rx.gpsPos 0 ∧ (onEst g aux f).s 8 = rx.gpsPos 1 := by
  obtain ⟨he, hP⟩ := hg ⟨{ aux with state := toState f.s }, f.P, true⟩
  have hs : (onEst g aux f).s = ofState (posToGps rx ⟨{ aux with state := toState f.s }, f.P, true⟩).est.state := by rw [← he]; rfl
  rw [hs]
  exact ⟨hP, rfl, rfl, rfl, rfl, rfl⟩

theorem velToGps_filt (rx : RIn) (aux : Est ℝ) (f : Filt) (g : Meas.Flt → Meas.Flt) (hg : ∀ e, (g e).est = (velToGps rx e).est ∧ (g e).P = (velToGps rx e).P) :
    (onEst g aux f).P = uncorrSet 4 3 (fun _ => sq rx.gpsSacc) f.P ∧ (onEst g aux f).s 4 = rx.gpsVel 0 ∧ (onEst g aux f).s 5 = rx.gpsVel 1 ∧
      (onEst g aux f).s 6 = rx.gpsVel 2 ∧ (onEst g aux f).s 7 = f.s 7 ∧ (onEst g aux f).s 8 = f.s 8 := by
  obtain ⟨he, hP⟩ := hg ⟨{ aux with state := toState f.s }, f.P, true⟩
  have hs : (onEst g aux f).s = ofState (velToGps rx ⟨{ aux with state := toState f.s }, f.P, true⟩).est.state := by rw [← he]; rfl
  rw [hs]
  exact ⟨hP, rfl, rfl, rfl, rfl, rfl⟩

/-- after the resets: the states are the sample, uncorrelated, with its variances -/
theorem at_sample (start : Bool) (g : GpsData) (rx : RIn) (aux : Est ℝ) (f0 : Filt) (h1 : start = false → rx.gps = true ∧ rx.gpsHealthy = true)
    (h2 : start = true → rx.optFlow = false) (h3 : rx.gpsVel = g.vel) (h4 : rx.gpsSacc = g.sacc) (h5 : rx.gpsPos = g.pos) (h6 : rx.gpsHacc = g.hacc)
    (hd : ∀ i, 0 ≤ f0.P i i) :
    let f := if start then gpsStart rx aux f0 else onEst (Meas.resetHorizontalPosition rx) aux (onEst (Meas.resetVelocity rx) aux f0)
    f.s 4 = g.vel 0 ∧ f.s 5 = g.vel 1 ∧ f.s 6 = g.vel 2 ∧ f.s 7 = g.pos 0 ∧ f.s 8 = g.pos 1 ∧
    f.P 4 4 = g.sacc ^ 2 ∧ f.P 5 5 = g.sacc ^ 2 ∧ f.P 6 6 = g.sacc ^ 2 ∧ f.P 7 7 = g.hacc ^ 2 ∧ f.P 8 8 = g.hacc ^ 2 ∧
    Lone f.P 4 ∧ Lone f.P 5 ∧ Lone f.P 6 ∧ Lone f.P 7 ∧ Lone f.P 8 ∧ ∀ i, 0 ≤ f.P i i := by
  intro f
  have i4 : inBlk 4 3 (4 : Fin N) := by unfold inBlk; decide
  have i5 : inBlk 4 3 (5 : Fin N) := by unfold inBlk; decide
  have i6 : inBlk 4 3 (6 : Fin N) := by unfold inBlk; decide
  have i7 : inBlk 7 2 (7 : Fin N) := by unfold inBlk; decide
  have i8 : inBlk 7 2 (8 : Fin N) := by unfold inBlk; decide
  have n4 : ¬ inBlk 7 2 (4 : Fin N) := by unfold inBlk; decide
  have n5 : ¬ inBlk 7 2 (5 : Fin N) := by unfold inBlk; decide
  have n6 : ¬ inBlk 7 2 (6 : Fin N) := by unfold inBlk; decide
  have n7 : ¬ inBlk 4 3 (7 : Fin N) := by unfold inBlk; decide
  have n8 : ¬ inBlk 4 3 (8 : Fin N) := by unfold inBlk; decide
  have es : sq rx.gpsSacc = g.sacc ^ 2 := by rw [h4, pow_two]; rfl
  have ep : sq rx.gpsHacc = g.hacc ^ 2 := by rw [h6, pow_two]; rfl
  have ns : ∀ q : Fin N, 0 ≤ sq rx.gpsSacc := fun _ => mul_self_nonneg _
  have np : ∀ q : Fin N, 0 ≤ sq rx.gpsHacc := fun _ => mul_self_nonneg _
  have hf0 : f = if start then gpsStart rx aux f0 else onEst (Meas.resetHorizontalPosition rx) aux (onEst (Meas.resetVelocity rx) aux f0) := rfl
  clear_value f
  cases start
  · obtain ⟨a1, a2⟩ := h1 rfl
    obtain ⟨v, v4, v5, v6, -, -⟩ := velToGps_filt rx aux f0 (Meas.resetVelocity rx) fun e => by unfold Meas.resetVelocity; rw [a1, a2]; exact ⟨rfl, rfl⟩
    obtain ⟨p, p4, p5, p6, p7, p8⟩ := posToGps_filt rx aux (onEst (Meas.resetVelocity rx) aux f0) (Meas.resetHorizontalPosition rx)
      fun e => by unfold Meas.resetHorizontalPosition; rw [a1]; exact ⟨rfl, rfl⟩
    have hf : f = onEst (Meas.resetHorizontalPosition rx) aux (onEst (Meas.resetVelocity rx) aux f0) := hf0.trans (if_neg Bool.false_ne_true)
    rw [← hf] at p p4 p5 p6 p7 p8
    rw [v] at p
    have kv : ∀ q : Fin N, inBlk 4 3 q → ¬ inBlk 7 2 q → f.P q q = g.sacc ^ 2 ∧ Lone f.P q := fun q hq hn => by
      have := uncorrSet_other 7 2 (fun _ => sq rx.gpsHacc) _ q (uncorrSet_lone 4 3 (fun _ => sq rx.gpsSacc) f0.P q hq) hn
      rw [p, ← es]
      exact ⟨this.1.trans (uncorrSet_in 4 3 _ _ q hq), this.2⟩
    have kp : ∀ q : Fin N, inBlk 7 2 q → f.P q q = g.hacc ^ 2 ∧ Lone f.P q := fun q hq => by
      rw [p, ← ep]
      exact ⟨uncorrSet_in 7 2 _ _ q hq, uncorrSet_lone 7 2 _ _ q hq⟩
    refine ⟨?_, ?_, ?_, ?_, ?_, (kv 4 i4 n4).1, (kv 5 i5 n5).1, (kv 6 i6 n6).1, (kp 7 i7).1, (kp 8 i8).1, (kv 4 i4 n4).2, (kv 5 i5 n5).2, (kv 6 i6 n6).2, (kp 7 i7).2, (kp 8 i8).2, ?_⟩
    · rw [p4, v4, h3]
    · rw [p5, v5, h3]
    · rw [p6, v6, h3]
    · rw [p7, h5]
    · rw [p8, h5]
    · intro i
      rw [p]
      exact uncorrSet_nonneg _ _ _ _ (fun q _ => np q) (uncorrSet_nonneg _ _ _ _ (fun q _ => ns q) hd) i
  · have a := h2 rfl
    obtain ⟨p, -, -, -, p7, p8⟩ := posToGps_filt rx aux f0 (posToGps rx) fun _ => ⟨rfl, rfl⟩
    obtain ⟨v, v4, v5, v6, v7, v8⟩ := velToGps_filt rx aux (onEst (posToGps rx) aux f0) (velToGps rx) fun _ => ⟨rfl, rfl⟩
    have hf : f = onEst (velToGps rx) aux (onEst (posToGps rx) aux f0) := by
      rw [hf0, if_pos rfl]
      unfold gpsStart
      rw [a]
      rfl
    rw [← hf] at v v4 v5 v6 v7 v8
    rw [p] at v
    have kp : ∀ q : Fin N, inBlk 7 2 q → ¬ inBlk 4 3 q → f.P q q = g.hacc ^ 2 ∧ Lone f.P q := fun q hq hn => by
      have := uncorrSet_other 4 3 (fun _ => sq rx.gpsSacc) _ q (uncorrSet_lone 7 2 (fun _ => sq rx.gpsHacc) f0.P q hq) hn
      rw [v, ← ep]
      exact ⟨this.1.trans (uncorrSet_in 7 2 _ _ q hq), this.2⟩
    have kv : ∀ q : Fin N, inBlk 4 3 q → f.P q q = g.sacc ^ 2 ∧ Lone f.P q := fun q hq => by
      rw [v, ← es]
      exact ⟨uncorrSet_in 4 3 _ _ q hq, uncorrSet_lone 4 3 _ _ q hq⟩
    refine ⟨?_, ?_, ?_, ?_, ?_, (kv 4 i4).1, (kv 5 i5).1, (kv 6 i6).1, (kp 7 i7 n7).1, (kp 8 i8 n8).1, (kv 4 i4).2, (kv 5 i5).2, (kv 6 i6).2, (kp 7 i7 n7).2, (kp 8 i8 n8).2, ?_⟩
    · rw [v4, h3]
    · rw [v5, h3]
    · rw [v6, h3]
    · rw [v7, p7, h5]
    · rw [v8, p8, h5]
    · intro i
      rw [v]
      exact uncorrSet_nonneg _ _ _ _ (fun q _ => ns q) (uncorrSet_nonneg _ _ _ _ (fun q _ => np q) hd) i

/-! ## Theorems -/

/-- the state after reset and fusion on one axis: the sample `z` (of the antenna), its offset `a` from the IMU's motion, variances of the reset and of the
observation -/
def Spec.afterReset (z a P r : ℝ) : ℝ := z - P / (P + r) * a

set_option maxHeartbeats 800000 in
/-- **C169 (exactly).** GPS aiding starts or is reset, GPS in use and healthy, the sample's accuracies between 1 mm and 1 km.  With `a` the velocity of the antenna relative to the IMU and
`b` the position of the antenna relative to the IMU, in earth axes: the velocity and position are set to those of the antenna, and the same sample is then fused as an
observation of the IMU's motion.  Each of the three fusions takes place iff the lever arm is within the gate for the new variances, and then moves the estimate towards
the IMU's motion by the share `reset variance / (reset variance + observation variance)`; otherwise the estimate stays with the antenna. -/
theorem gps_reset_then_fused (start : Bool) (x : VPIn) (p : GpsPar) (R : M3 ℝ) (w : V3 ℝ) (other : Bool) (g : GpsData) (rx : RIn) (aux : Est ℝ) (st : VPSt)
    (hb : x.badVertAccel = false) (h1 : start = false → rx.gps = true ∧ rx.gpsHealthy = true) (h2 : start = true → rx.optFlow = false) (h3 : rx.gpsVel = g.vel) (h4 : rx.gpsSacc = g.sacc) (h5 : rx.gpsPos = g.pos)
    (h6 : rx.gpsHacc = g.hacc) (hs : 1 / 1000 ≤ g.sacc ∧ g.sacc ≤ 1000) (hh : 1 / 1000 ≤ g.hacc ∧ g.hacc ≤ 1000) (hd : ∀ i, 0 ≤ st.f.P i i) :
    let a := R *ᵥ Fusion.cross3 w (p.gpsBody - p.imuBody)
    let b := R *ᵥ (p.gpsBody - p.imuBody)
    let rv := max g.sacc p.velNoise ^ 2
    let rp := gpsPosVar p other g
    let G := max p.velGate 1
    let K := max p.posGate 1
    let out := gpsResetStep start x p R w other g rx aux st
    let s := out.hpos.st.f.s
    let H := a 0 ^ 2 ≤ G ^ 2 * (g.sacc ^ 2 + rv) ∧ a 1 ^ 2 ≤ G ^ 2 * (g.sacc ^ 2 + rv)
    let V := a 2 ^ 2 ≤ G ^ 2 * (g.sacc ^ 2 + 9 / 4 * rv)
    let Q := b 0 ^ 2 ≤ K ^ 2 * (g.hacc ^ 2 + rp) ∧ b 1 ^ 2 ≤ K ^ 2 * (g.hacc ^ 2 + rp)
    (H → out.hvel.ret = true ∧ s 4 = Spec.afterReset (g.vel 0) (a 0) (g.sacc ^ 2) rv ∧ s 5 = Spec.afterReset (g.vel 1) (a 1) (g.sacc ^ 2) rv) ∧
    (¬ H → out.hvel.ret = false ∧ s 4 = g.vel 0 ∧ s 5 = g.vel 1) ∧
    (V → out.vvel.ret = true ∧ s 6 = Spec.afterReset (g.vel 2) (a 2) (g.sacc ^ 2) (9 / 4 * rv)) ∧ (¬ V → out.vvel.ret = false ∧ s 6 = g.vel 2) ∧
    (Q → out.hpos.ret = true ∧ s 7 = Spec.afterReset (g.pos 0) (b 0) (g.hacc ^ 2) rp ∧ s 8 = Spec.afterReset (g.pos 1) (b 1) (g.hacc ^ 2) rp) ∧
    (¬ Q → out.hpos.ret = false ∧ s 7 = g.pos 0 ∧ s 8 = g.pos 1) := by
  intro a b rv rp G K out s H V Q
  have hG : 0 < G := lt_of_lt_of_le one_pos (le_max_right _ _)
  have hK : 0 < K := lt_of_lt_of_le one_pos (le_max_right _ _)
  have sp : 0 < g.sacc := lt_of_lt_of_le (by norm_num) hs.1
  have hp : 0 < g.hacc := lt_of_lt_of_le (by norm_num) hh.1
  have hrv : 0 < rv := pow_pos (lt_of_lt_of_le sp (le_max_left _ _)) 2
  have hrp : 0 < rp := lt_of_lt_of_le (by norm_num) (gps_noise p other g).2.1
  have e0 : (gpsVelVar p g) 0 = rv := (gps_noise p other g).2.2.2.1
  have e1 : (gpsVelVar p g) 1 = rv := (gps_noise p other g).2.2.2.2.1
  have e2 : (gpsVelVar p g) 2 = 9 / 4 * rv := by
    rw [(gps_noise p other g).2.2.2.2.2]
    show _ = 9 / 4 * max g.sacc p.velNoise ^ 2
    ring
  have hsl : InLim (g.sacc ^ 2) := ⟨by nlinarith [hs.1], by nlinarith [hs.2]⟩
  have hhl : InLim (g.hacc ^ 2) := ⟨by nlinarith [hh.1], by nlinarith [hh.2]⟩
  set f := if start then gpsStart rx aux st.f else onEst (Meas.resetHorizontalPosition rx) aux (onEst (Meas.resetVelocity rx) aux st.f) with hf
  obtain ⟨f4, f5, f6, f7, f8, q4, q5, q6, q7, q8, l4, l5, l6, l7, l8, hdf⟩ := at_sample start g rx aux st.f h1 h2 h3 h4 h5 h6 hd
  rw [← hf] at f4 f5 f6 f7 f8 q4 q5 q6 q7 q8 l4 l5 l6 l7 l8 hdf
  -- the fusions
  obtain ⟨ov, op⟩ := gps_reset_offset p R w g f.s f4 f5 f6 f7 f8
  set st1 : VPSt := { st with f := f } with hst1
  set A := fuseHorizontalVelocity x (a 0) (a 1) G rv rv st1 with hA
  set B := fuseVerticalVelocity x (a 2) G (9 / 4 * rv) A.st with hB
  set C := fuseHorizontalPosition x (b 0) (b 1) K rp rp false B.st with hC
  have hout : out = ⟨A, B, C⟩ := by
    show gpsFuse x p R w other g st1 = _
    unfold gpsFuse
    dsimp only
    rw [show st1.f.s = f.s from rfl, ov, ov, ov, op, op]
    rw [show (gpsObs p R w g f.s).lastVelVar = gpsVelVar p g from rfl, show gpsPosVar p other (gpsObs p R w g f.s).data = gpsPosVar p other g from rfl, e0, e1, e2]
    rfl
  have HA := hvel_lone_gps x (a 0) (a 1) G rv rv st1 hG hrv hrv l4 l5 hdf (by rw [show st1.f.P 5 5 = _ from q5]; exact hsl)
  rw [show st1.f.P 4 4 = _ from q4, show st1.f.P 5 5 = _ from q5, show st1.f.s 4 = _ from f4, show st1.f.s 5 = _ from f5] at HA
  obtain ⟨A1, A2, KA⟩ := HA
  have a6 : A.st.f.P 6 6 = g.sacc ^ 2 := (KA.var 6 (by decide) (by decide) (by decide) (by rw [show st1.f.P 6 6 = _ from q6]; exact hsl)).trans q6
  have HB := vvel_lone_gps x (a 2) G (9 / 4 * rv) A.st hb hG (by linarith) (KA.lone 6 l6) KA.nonneg
  rw [a6, (KA.state 6 (by decide) (by decide)).trans f6] at HB
  obtain ⟨B1, B2, KB⟩ := HB
  have c7 : B.st.f.P 7 7 = g.hacc ^ 2 := by
    have h := KA.var 7 (by decide) (by decide) (by decide) (by rw [show st1.f.P 7 7 = _ from q7]; exact hhl)
    have h' := h.trans q7
    exact (KB.var 7 (by decide) (by decide) (by decide) (by rw [h']; exact hhl)).trans h'
  have c8 : B.st.f.P 8 8 = g.hacc ^ 2 := by
    have h := KA.var 8 (by decide) (by decide) (by decide) (by rw [show st1.f.P 8 8 = _ from q8]; exact hhl)
    have h' := h.trans q8
    exact (KB.var 8 (by decide) (by decide) (by decide) (by rw [h']; exact hhl)).trans h'
  have HC := hpos_lone_gps x (b 0) (b 1) K rp rp B.st hK hrp hrp (KB.lone 7 (KA.lone 7 l7)) (KB.lone 8 (KA.lone 8 l8)) KB.nonneg (by rw [c8]; exact hhl)
  rw [c7, c8, ((KB.state 7 (by decide) (by decide)).trans (KA.state 7 (by decide) (by decide))).trans f7,
    ((KB.state 8 (by decide) (by decide)).trans (KA.state 8 (by decide) (by decide))).trans f8] at HC
  obtain ⟨C1, C2, KC⟩ := HC
  have hsC : s = C.st.f.s := by show out.hpos.st.f.s = _; rw [hout]
  have s4 : s 4 = A.st.f.s 4 := by rw [hsC, KC.state 4 (by decide) (by decide), KB.state 4 (by decide) (by decide)]
  have s5 : s 5 = A.st.f.s 5 := by rw [hsC, KC.state 5 (by decide) (by decide), KB.state 5 (by decide) (by decide)]
  have s6 : s 6 = B.st.f.s 6 := by rw [hsC, KC.state 6 (by decide) (by decide)]
  rw [s4, s5, s6, hsC, hout]
  have sA : A.st.f = st1.f → A.st.f.s 4 = g.vel 0 ∧ A.st.f.s 5 = g.vel 1 := fun h => by rw [h]; exact ⟨f4, f5⟩
  have sB : B.st.f = A.st.f → B.st.f.s 6 = g.vel 2 := fun h => by rw [h, KA.state 6 (by decide) (by decide)]; exact f6
  have sC : C.st.f = B.st.f → C.st.f.s 7 = g.pos 0 ∧ C.st.f.s 8 = g.pos 1 := fun h => by
    rw [h, KB.state 7 (by decide) (by decide), KA.state 7 (by decide) (by decide), KB.state 8 (by decide) (by decide), KA.state 8 (by decide) (by decide)]
    exact ⟨f7, f8⟩
  exact ⟨A1, fun c => ⟨(A2 c).1, sA (A2 c).2⟩, B1, fun c => ⟨(B2 c).1, sB (B2 c).2⟩, C1, fun c => ⟨(C2 c).1, sC (C2 c).2⟩⟩

/-- **C169 (no lever arm).** With the antenna at the IMU the sample just used for the reset is always accepted and changes nothing. -/
theorem gps_reset_no_lever_arm (start : Bool) (x : VPIn) (p : GpsPar) (R : M3 ℝ) (w : V3 ℝ) (other : Bool) (g : GpsData) (rx : RIn) (aux : Est ℝ) (st : VPSt)
    (hb : x.badVertAccel = false) (h1 : start = false → rx.gps = true ∧ rx.gpsHealthy = true) (h2 : start = true → rx.optFlow = false) (h3 : rx.gpsVel = g.vel) (h4 : rx.gpsSacc = g.sacc) (h5 : rx.gpsPos = g.pos)
    (h6 : rx.gpsHacc = g.hacc) (hs : 1 / 1000 ≤ g.sacc ∧ g.sacc ≤ 1000) (hh : 1 / 1000 ≤ g.hacc ∧ g.hacc ≤ 1000) (hd : ∀ i, 0 ≤ st.f.P i i)
    (ho : p.gpsBody = p.imuBody) :
    let out := gpsResetStep start x p R w other g rx aux st
    out.hvel.ret = true ∧ out.vvel.ret = true ∧ out.hpos.ret = true ∧ out.hpos.st.f.s 4 = g.vel 0 ∧ out.hpos.st.f.s 5 = g.vel 1 ∧
      out.hpos.st.f.s 6 = g.vel 2 ∧ out.hpos.st.f.s 7 = g.pos 0 ∧ out.hpos.st.f.s 8 = g.pos 1 := by
  intro out
  have h := gps_reset_then_fused start x p R w other g rx aux st hb h1 h2 h3 h4 h5 h6 hs hh hd
  have z : p.gpsBody - p.imuBody = 0 := by rw [ho, sub_self]
  have za : Fusion.cross3 w (0 : V3 ℝ) = 0 := by funext k; fin_cases k <;> simp [Fusion.cross3]
  rw [z, za, Matrix.mulVec_zero] at h
  obtain ⟨A, -, B, -, C, -⟩ := h
  have sp : 0 ≤ g.sacc ^ 2 := sq_nonneg _
  have hp : 0 ≤ g.hacc ^ 2 := sq_nonneg _
  have hrp : 0 < gpsPosVar p other g := lt_of_lt_of_le (by norm_num) (gps_noise p other g).2.1
  have hrv : 0 ≤ max g.sacc p.velNoise ^ 2 := sq_nonneg _
  have nn : ∀ u v : ℝ, 0 ≤ v → (0 : V3 ℝ) 0 ^ 2 ≤ u ^ 2 * v := fun u v hv => by
    show (0 : ℝ) ^ 2 ≤ _
    have := mul_nonneg (sq_nonneg u) hv
    linarith
  obtain ⟨a1, a2, a3⟩ := A ⟨nn _ _ (by linarith), nn _ _ (by linarith)⟩
  obtain ⟨b1, b2⟩ := B (nn _ _ (by linarith))
  obtain ⟨c1, c2, c3⟩ := C ⟨nn _ _ (by linarith), nn _ _ (by linarith)⟩
  have ar : ∀ z P r, Spec.afterReset z 0 P r = z := fun z P r => by unfold Spec.afterReset; rw [mul_zero, sub_zero]
  exact ⟨a1, b1, c1, a2.trans (ar _ _ _), a3.trans (ar _ _ _), b2.trans (ar _ _ _), c2.trans (ar _ _ _), c3.trans (ar _ _ _)⟩

/-- **C169 (finding).** When the reported accuracies are not reduced by the limits of the parameters (`hacc² ≤` observation variance), at least half of the lever
arm is left in the horizontal position and velocity after reset and fusion, whatever the sample, the covariance before, and the gates: an exact sample makes an estimate that is wrong. -/
theorem gps_reset_leaves_half_lever_arm (start : Bool) (x : VPIn) (p : GpsPar) (R : M3 ℝ) (w : V3 ℝ) (other : Bool) (g : GpsData) (rx : RIn) (aux : Est ℝ) (st : VPSt)
    (hb : x.badVertAccel = false) (h1 : start = false → rx.gps = true ∧ rx.gpsHealthy = true) (h2 : start = true → rx.optFlow = false) (h3 : rx.gpsVel = g.vel) (h4 : rx.gpsSacc = g.sacc) (h5 : rx.gpsPos = g.pos)
    (h6 : rx.gpsHacc = g.hacc) (hs : 1 / 1000 ≤ g.sacc ∧ g.sacc ≤ 1000) (hh : 1 / 1000 ≤ g.hacc ∧ g.hacc ≤ 1000) (hd : ∀ i, 0 ≤ st.f.P i i)
    (hl : g.hacc ≤ max p.noaid (max p.posNoise (1 / 100))) :
    let a := R *ᵥ Fusion.cross3 w (p.gpsBody - p.imuBody)
    let b := R *ᵥ (p.gpsBody - p.imuBody)
    let s := (gpsResetStep start x p R w other g rx aux st).hpos.st.f.s
    -- velocity and position of the IMU according to the sample
    let v : Fin 3 → ℝ := fun i => g.vel i - a i
    let q : Fin 2 → ℝ := fun i => g.pos i - b i.castSucc
    |a 0| / 2 ≤ |s 4 - v 0| ∧ |a 1| / 2 ≤ |s 5 - v 1| ∧ |a 2| / 2 ≤ |s 6 - v 2| ∧ |b 0| / 2 ≤ |s 7 - q 0| ∧ |b 1| / 2 ≤ |s 8 - q 1| := by
  intro a b s v q
  have sp : 0 < g.sacc := lt_of_lt_of_le (by norm_num) hs.1
  have hp : 0 < g.hacc := lt_of_lt_of_le (by norm_num) hh.1
  have hrv : g.sacc ^ 2 ≤ max g.sacc p.velNoise ^ 2 := pow_le_pow_left₀ sp.le (le_max_left _ _) 2
  have hrp : g.hacc ^ 2 ≤ gpsPosVar p other g := by
    rw [(gps_noise p other g).1]
    refine pow_le_pow_left₀ hp.le ?_ 2
    split
    · exact le_max_left _ _
    · exact le_max_of_le_right (le_min le_rfl hl)
  have s0 : 0 < g.sacc ^ 2 := pow_pos sp 2
  have p0 : 0 < g.hacc ^ 2 := pow_pos hp 2
  have key : ∀ z c P r y : ℝ, 0 < P → P ≤ r → (y = Spec.afterReset z c P r ∨ y = z) → |c| / 2 ≤ |y - (z - c)| := by
    intro z c P r y hP hr hy
    have hk : 0 < P + r := by linarith
    have hk1 : P / (P + r) ≤ 1 / 2 := by rw [div_le_div_iff₀ hk (by norm_num)]; linarith
    have hk0 : 0 ≤ P / (P + r) := by positivity
    rcases hy with rfl | rfl
    · unfold Spec.afterReset
      rw [show z - P / (P + r) * c - (z - c) = (1 - P / (P + r)) * c by ring, abs_mul, abs_of_nonneg (show 0 ≤ 1 - P / (P + r) by linarith)]
      have := abs_nonneg c
      nlinarith
    · rw [show y - (y - c) = c by ring]
      have := abs_nonneg c
      linarith
  obtain ⟨A, A', B, B', C, C'⟩ := gps_reset_then_fused start x p R w other g rx aux st hb h1 h2 h3 h4 h5 h6 hs hh hd
  refine ⟨key _ _ (g.sacc ^ 2) (max g.sacc p.velNoise ^ 2) _ s0 hrv ?_, key _ _ (g.sacc ^ 2) (max g.sacc p.velNoise ^ 2) _ s0 hrv ?_,
    key _ _ (g.sacc ^ 2) (9 / 4 * max g.sacc p.velNoise ^ 2) _ s0 (by linarith [sq_nonneg (max g.sacc p.velNoise)]) ?_, key _ _ (g.hacc ^ 2) (gpsPosVar p other g) _ p0 hrp ?_, key _ _ (g.hacc ^ 2) (gpsPosVar p other g) _ p0 hrp ?_⟩
  · by_cases c : a 0 ^ 2 ≤ max p.velGate 1 ^ 2 * (g.sacc ^ 2 + max g.sacc p.velNoise ^ 2) ∧ a 1 ^ 2 ≤ max p.velGate 1 ^ 2 * (g.sacc ^ 2 + max g.sacc p.velNoise ^ 2)
    · exact Or.inl (A c).2.1
    · exact Or.inr (A' c).2.1
  · by_cases c : a 0 ^ 2 ≤ max p.velGate 1 ^ 2 * (g.sacc ^ 2 + max g.sacc p.velNoise ^ 2) ∧ a 1 ^ 2 ≤ max p.velGate 1 ^ 2 * (g.sacc ^ 2 + max g.sacc p.velNoise ^ 2)
    · exact Or.inl (A c).2.2
    · exact Or.inr (A' c).2.2
  · by_cases c : a 2 ^ 2 ≤ max p.velGate 1 ^ 2 * (g.sacc ^ 2 + 9 / 4 * max g.sacc p.velNoise ^ 2)
    · exact Or.inl (B c).2
    · exact Or.inr (B' c).2
  · by_cases c : b 0 ^ 2 ≤ max p.posGate 1 ^ 2 * (g.hacc ^ 2 + gpsPosVar p other g) ∧ b 1 ^ 2 ≤ max p.posGate 1 ^ 2 * (g.hacc ^ 2 + gpsPosVar p other g)
    · exact Or.inl (C c).2.1
    · exact Or.inr (C' c).2.1
  · by_cases c : b 0 ^ 2 ≤ max p.posGate 1 ^ 2 * (g.hacc ^ 2 + gpsPosVar p other g) ∧ b 1 ^ 2 ≤ max p.posGate 1 ^ 2 * (g.hacc ^ 2 + gpsPosVar p other g)
    · exact Or.inl (C c).2.2
    · exact Or.inr (C' c).2.2

/-- a GPS sample at the origin, all accuracies 1 -/
def exGpsRIn : RIn := ⟨true, false, false, false, true, true, 0, 1, 0, 1, 0, 1, 1, 0, 1, 1, 1, 0, fun _ => 1, 0, fun _ => 10, false, 1, 0, 10⟩

/-- the situation exists, and the error is half the lever arm: antenna 2 m north of the IMU, level and not turning; the sample says the antenna is at the origin, the
IMU 2 m south of it; after reset and fusion the estimate is 1 m south of it. -/
example (aux : Est ℝ) : ∃ (x : VPIn) (p : GpsPar) (g : GpsData) (st : VPSt),
    (gpsResetStep false x p 1 0 false g exGpsRIn aux st).hpos.ret = true ∧ (gpsResetStep false x p 1 0 false g exGpsRIn aux st).hpos.st.f.s 7 = -1 := by
  let p : GpsPar := ⟨![2, 0, 0], 0, 1 / 2, 10, 3 / 10, 5, 5⟩
  let g : GpsData := ⟨0, 0, 0, 1, 1⟩
  let st : VPSt := exVP exFilt
  let x : VPIn := ⟨⟨fun _ => false, true, true, 1 / 100, 0, false⟩, false, false⟩
  have h := gps_reset_then_fused false x p 1 0 false g exGpsRIn aux st rfl (fun _ => ⟨rfl, rfl⟩) (fun h => absurd h (by decide)) rfl rfl rfl rfl (by norm_num [g]) (by norm_num [g])
    (fun i => show (0 : ℝ) ≤ (if i = i then (1 : ℝ) else 0) by rw [if_pos rfl]; norm_num)
  have hrp : gpsPosVar p false g = 1 := by
    rw [(gps_noise p false g).1]
    norm_num [p, g]
  obtain ⟨-, -, -, -, C, -⟩ := h
  rw [hrp, Matrix.one_mulVec] at C
  obtain ⟨c1, c2, -⟩ := C ⟨by norm_num [p, g], by norm_num [p, g]⟩
  refine ⟨x, p, g, st, c1, c2.trans ?_⟩
  unfold Spec.afterReset
  norm_num [p, g]

end

end Ecl.Whole
