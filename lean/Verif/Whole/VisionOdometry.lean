import Verif.Whole.VisionReset
import Verif.Aid.Sources

/-!
# Vision position as odometry and position resets (C166)

EKF/control.cpp:237-271, EKF/ekf_helper.cpp:162-203, 1417-1430.  When GPS is selected as well, vision positions are fused as changes since the previous vision
sample.  The first sample has no previous one, but something is fused all the same: an observation of variance zero with the innovation left over from before.
The position reset at the start of GPS does not forget the previous sample, so that the reset counts as a movement that vision has not seen.
-/

namespace Ecl.Whole

open Ecl.Cov Ecl.Fusion Ecl.Ekf Ecl.Meas

noncomputable section

theorem gate_iff' (i g S : ℝ) (hg : 0 < g) (hS : 0 < S) : sq i / (sq g * S) ≤ 1 ↔ i ^ 2 ≤ g ^ 2 * S := by
  unfold sq
  rw [div_le_one (by positivity)]
  constructor <;> intro h <;> nlinarith

/-- fusion of a horizontal position that is not correlated with any other state -/
theorem hpos_lone (x : VPIn) (i0 i1 g r0 r1 : ℝ) (st : VPSt) (hg : 0 < g) (h0 : 0 ≤ r0) (h1 : 0 ≤ r1) (l7 : Lone st.f.P 7) (l8 : Lone st.f.P 8)
    (hd : ∀ i, 0 ≤ st.f.P i i) (b7 : 0 < st.f.P 7 7) (b8 : 1 / 1000000 ≤ st.f.P 8 8 ∧ st.f.P 8 8 ≤ 1000000) :
    let S0 := st.f.P 7 7 + r0
    let S1 := st.f.P 8 8 + r1
    let out := fuseHorizontalPosition x i0 i1 g r0 r1 false st
    (out.ret = true ↔ i0 ^ 2 ≤ g ^ 2 * S0 ∧ i1 ^ 2 ≤ g ^ 2 * S1) ∧
      (out.ret = true → out.st.f.s 7 = st.f.s 7 - st.f.P 7 7 / S0 * i0 ∧ out.st.f.s 8 = st.f.s 8 - st.f.P 8 8 / S1 * i1 ∧
        out.st.f.P 7 7 = max (1 / 1000000) (min (st.f.P 7 7 * r0 / S0) 1000000) ∧ out.st.f.P 8 8 = max (1 / 1000000) (min (st.f.P 8 8 * r1 / S1) 1000000) ∧
        Lone out.st.f.P 7 ∧ Lone out.st.f.P 8 ∧ (∀ i, 0 ≤ out.st.f.P i i)) ∧
      (out.ret = false → out.st.f = st.f) := by
  intro S0 S1 out
  have p0 : 0 < S0 := by show 0 < st.f.P 7 7 + r0; linarith
  have p1 : 0 < S1 := by show 0 < st.f.P 8 8 + r1; have := b8.1; linarith [show (0 : ℝ) < 1 / 1000000 by norm_num]
  have hgi : (max (sq i0 / (sq g * S0)) (sq i1 / (sq g * S1)) ≤ 1) ↔ (i0 ^ 2 ≤ g ^ 2 * S0 ∧ i1 ^ 2 ≤ g ^ 2 * S1) := by
    rw [max_le_iff, gate_iff' _ _ _ hg p0, gate_iff' _ _ _ hg p1]
  by_cases c : i0 ^ 2 ≤ g ^ 2 * S0 ∧ i1 ^ 2 ≤ g ^ 2 * S1
  · have ho : out = ⟨fuseVelPosHeight x i1 S1 4 (fuseVelPosHeight x i0 S0 3
        { (if !x.asOdom then { st with tHpos := x.fx.now } else { st with tDelpos := x.fx.now } : VPSt) with rejHpos := false }),
        (S0, S1), max (sq i0 / (sq g * S0)) (sq i1 / (sq g * S1)), true⟩ := by
      show fuseHorizontalPosition x i0 i1 g r0 r1 false st = _
      unfold fuseHorizontalPosition
      dsimp only
      rw [if_pos (Or.inl (hgi.mpr c)), if_neg (by simp)]
    rw [ho]
    refine ⟨⟨fun _ => c, fun _ => rfl⟩, fun _ => ?_, fun h => absurd h (by simp)⟩
    obtain ⟨s1, hs1⟩ : ∃ s1 : VPSt, s1 = { (if !x.asOdom then { st with tHpos := x.fx.now } else { st with tDelpos := x.fx.now } : VPSt) with rejHpos := false } := ⟨_, rfl⟩
    have hf : s1.f = st.f := by rw [hs1]; dsimp only; split <;> rfl
    rw [← hs1]
    dsimp only
    have e7 : (obsState 3 : Fin N) = 7 := rfl
    have e8 : (obsState 4 : Fin N) = 8 := rfl
    have A := fuse_alone x i0 r0 h0 3 s1 (by rw [e7, hf]; exact l7) (by rw [hf]; exact hd) (by rw [e7, hf]; exact p0)
    rw [e7, hf] at A
    obtain ⟨A1, A2, A3, A4, A5, A6⟩ := A
    set s2 := fuseVelPosHeight x i0 (st.f.P 7 7 + r0) 3 s1 with hs2
    have B8 : s2.f.P 8 8 = st.f.P 8 8 := A5 8 (by decide) (by decide) (by decide) b8.1 b8.2
    have B := fuse_alone x i1 r1 h1 4 s2 (by rw [e8]; exact A3 8 l8) A4 (by rw [e8, B8]; exact p1)
    rw [e8, B8] at B
    obtain ⟨B1, B2, B3, B4, B5, B6⟩ := B
    have hlo : 1 / 1000000 ≤ s2.f.P 7 7 := by rw [A6]; exact le_max_left _ _
    have hhi : s2.f.P 7 7 ≤ 1000000 := by rw [A6]; exact max_le (by norm_num) (min_le_right _ _)
    refine ⟨?_, ?_, ?_, B6, B3 7 (A3 7 l7), B3 8 (A3 8 l8), B4⟩
    · exact (B2 7 (by decide) (by decide)).trans A1
    · refine B1.trans ?_
      rw [A2 8 (by decide) (by decide)]
    · exact (B5 7 (by decide) (by decide) (by decide) hlo hhi).trans A6
  · have ho : out = ⟨{ st with rejHpos := true }, (S0, S1), max (sq i0 / (sq g * S0)) (sq i1 / (sq g * S1)), false⟩ := by
      show fuseHorizontalPosition x i0 i1 g r0 r1 false st = _
      unfold fuseHorizontalPosition
      dsimp only
      rw [if_neg (by rintro (h | h); exact c (hgi.mp h); exact absurd h (by decide))]
    rw [ho]
    exact ⟨⟨fun h => absurd h (by simp), fun h => absurd h c⟩, fun h => absurd h (by simp), fun _ => rfl⟩

/-! ## The first sample -/

/-- **C166 (first sample).** GPS and vision position selected, no previous vision sample, horizontal position not correlated with other states (as after a
reset).  Whatever the vision sample `d` says: the innovation left over from before is fused if it is within the gate of the state variances alone; then the
whole of it is subtracted from the position, and both position variances become the lower limit of 10⁻⁶ m². -/
theorem first_vision_sample (x : FixIn ℝ) (p : EvPar) (R : M3 ℝ) (d : EvData) (rx : RIn) (aux : Est ℝ) (posLost velLost : Bool) (m : EvMem) (st : VPSt)
    (hm : p.modeGps = true) (hp : m.prevOk = false) (l7 : Lone st.f.P 7) (l8 : Lone st.f.P 8) (hd : ∀ i, 0 ≤ st.f.P i i) (b7 : 0 < st.f.P 7 7)
    (b8 : 1 / 1000000 ≤ st.f.P 8 8 ∧ st.f.P 8 8 ≤ 1000000) :
    let g := max p.posGate 1
    let out := (evPosStep x p R d rx aux posLost velLost m st).2
    (out.ret = true ↔ m.innov 0 ^ 2 ≤ g ^ 2 * st.f.P 7 7 ∧ m.innov 1 ^ 2 ≤ g ^ 2 * st.f.P 8 8) ∧
      (out.ret = true → out.st.f.s 7 = st.f.s 7 - m.innov 0 ∧ out.st.f.s 8 = st.f.s 8 - m.innov 1 ∧
        out.st.f.P 7 7 = 1 / 1000000 ∧ out.st.f.P 8 8 = 1 / 1000000) ∧
      (out.ret = false → out.st.f = st.f) := by
  intro g out
  have hg : 0 < g := lt_of_lt_of_le one_pos (le_max_right _ _)
  have ho : evPosObs p (evCorrect p R d) ![st.f.s 7, st.f.s 8] m =
      ({ m with prevOk := true, asOdom := true, measPrev := (evCorrect p R d).pos, predPrev := ![st.f.s 7, st.f.s 8] }, fun _ => 0) := by
    unfold evPosObs
    rw [hm, hp]
    rfl
  have hout : out = fuseHorizontalPosition ⟨x, false, true⟩ (m.innov 0) (m.innov 1) g 0 0 false st := by
    show (evPosStep x p R d rx aux posLost velLost m st).2 = _
    unfold evPosStep
    rw [ho, hm]
    rfl
  rw [hout]
  have q8 : st.f.P 8 8 ≠ 0 := fun h => by rw [h] at b8; linarith [b8.1, show (0 : ℝ) < 1 / 1000000 by norm_num]
  have h := hpos_lone ⟨x, false, true⟩ (m.innov 0) (m.innov 1) g 0 0 st hg le_rfl le_rfl l7 l8 hd b7 b8
  dsimp only at h
  rw [add_zero, add_zero, mul_zero, zero_div, mul_zero, zero_div, div_self b7.ne', div_self q8] at h
  obtain ⟨h1, h2, h3⟩ := h
  refine ⟨h1, fun k => ?_, h3⟩
  obtain ⟨a, b, c, e, -⟩ := h2 k
  rw [one_mul] at a b
  refine ⟨a, b, c.trans ?_, e.trans ?_⟩ <;> norm_num

/-- variance the horizontal position reset leaves, `none` where it is zero (optical flow) -/
def resetVar (rx : RIn) : Option (Fin 2 → ℝ) :=
  if rx.gps then some fun _ => rx.gpsHacc ^ 2
  else if rx.evPos then some ![rx.evPosVar 0, rx.evPosVar 1]
  else if rx.optFlow then none
  else some fun _ => rx.noaid ^ 2

/-- **C166 (start of vision).** Vision position starts while GPS is selected: the position is reset - to GPS, to the vision sample or to the last known position, with
the variance `v` of that source -, and then this same sample is fused.  With no innovation left over the position stays where the reset put it; its variance
becomes 10⁻⁶ m² whatever the accuracy of the source. -/
theorem vision_start_certain (x : FixIn ℝ) (p : EvPar) (R : M3 ℝ) (d : EvData) (rx : RIn) (aux : Est ℝ) (posLost velLost : Bool) (m : EvMem) (st : VPSt)
    (v : Fin 2 → ℝ) (hm : p.modeGps = true) (hp : m.prevOk = false) (hi : m.innov = 0) (hsrc : resetVar rx = some v)
    (hv : ∀ i, 1 / 1000000 ≤ v i ∧ v i ≤ 1000000) (hd : ∀ i, 0 ≤ st.f.P i i) :
    let f := onEst (Meas.resetHorizontalPosition rx) aux st.f
    let out := (evPosStep x p R d rx aux posLost velLost m { st with f := f }).2
    f.P 7 7 = v 0 ∧ f.P 8 8 = v 1 ∧ out.ret = true ∧ out.st.f.s 7 = f.s 7 ∧ out.st.f.s 8 = f.s 8 ∧ out.st.f.P 7 7 = 1 / 1000000 ∧ out.st.f.P 8 8 = 1 / 1000000 := by
  intro f out
  have b7 : inBlk 7 2 (7 : Fin N) := by unfold inBlk; decide
  have b8 : inBlk 7 2 (8 : Fin N) := by unfold inBlk; decide
  have hP : f.P = uncorrSet 7 2 (blkVar 7 fun k => if k = 0 then v 0 else v 1) st.f.P := by
    show (Meas.resetHorizontalPosition rx ⟨{ aux with state := toState st.f.s }, st.f.P, true⟩).P = _
    unfold resetVar at hsrc
    unfold Meas.resetHorizontalPosition posToGps posToVision
    dsimp only
    have hc : ∀ c : ℝ, (fun _ => c) = v → uncorrSet 7 2 (fun _ => c) st.f.P = uncorrSet 7 2 (blkVar 7 fun k => if k = 0 then v 0 else v 1) st.f.P := by
      intro c hc
      rw [← hc]
      congr 1
      funext q
      unfold blkVar
      dsimp only
      split_ifs <;> rfl
    by_cases h1 : rx.gps = true
    · rw [if_pos h1] at hsrc
      rw [if_pos h1]
      refine hc _ ?_
      have := Option.some.inj hsrc
      rw [← this]
      funext i
      unfold sq
      ring
    rw [if_neg h1] at hsrc ⊢
    by_cases h2 : rx.evPos = true
    · rw [if_pos h2] at hsrc
      rw [if_pos h2, ← Option.some.inj hsrc]
      rfl
    rw [if_neg h2] at hsrc ⊢
    by_cases h3 : rx.optFlow = true
    · rw [if_pos h3] at hsrc; cases hsrc
    rw [if_neg h3] at hsrc ⊢
    refine hc _ ?_
    have := Option.some.inj hsrc
    rw [← this]
    funext i
    unfold sq
    ring
  have q7 : f.P 7 7 = v 0 := by rw [hP, uncorrSet_in 7 2 _ _ 7 b7]; rfl
  have q8 : f.P 8 8 = v 1 := by rw [hP, uncorrSet_in 7 2 _ _ 8 b8]; rfl
  have l7 : Lone f.P 7 := by rw [hP]; exact uncorrSet_lone 7 2 _ _ 7 b7
  have l8 : Lone f.P 8 := by rw [hP]; exact uncorrSet_lone 7 2 _ _ 8 b8
  have hpos : (0 : ℝ) < 1 / 1000000 := by norm_num
  have hdf : ∀ i, 0 ≤ f.P i i := by
    intro i
    rw [hP]
    refine uncorrSet_nonneg _ _ _ _ (fun q _ => ?_) hd i
    unfold blkVar
    beta_reduce
    split
    · linarith [(hv 0).1]
    · linarith [(hv 1).1]
  have h := first_vision_sample x p R d rx aux posLost velLost m { st with f := f } hm hp l7 l8 hdf (by rw [show ({ st with f := f } : VPSt).f.P 7 7 = v 0 from q7]; linarith [(hv 0).1])
    (by rw [show ({ st with f := f } : VPSt).f.P 8 8 = v 1 from q8]; exact hv 1)
  rw [hi] at h
  obtain ⟨h1, h2, -⟩ := h
  have hr : out.ret = true := by
    refine h1.mpr ⟨?_, ?_⟩
    · rw [show ({ st with f := f } : VPSt).f.P 7 7 = v 0 from q7]
      have := (hv 0).1
      show (0 : ℝ) ^ 2 ≤ _
      rw [zero_pow two_ne_zero]
      exact mul_nonneg (sq_nonneg _) (by linarith)
    · rw [show ({ st with f := f } : VPSt).f.P 8 8 = v 1 from q8]
      have := (hv 1).1
      show (0 : ℝ) ^ 2 ≤ _
      rw [zero_pow two_ne_zero]
      exact mul_nonneg (sq_nonneg _) (by linarith)
  obtain ⟨a, b, c, e⟩ := h2 hr
  refine ⟨q7, q8, hr, a.trans ?_, b.trans ?_, c, e⟩
  · show f.s 7 - (0 : ℝ) = _
    ring
  · show f.s 8 - (0 : ℝ) = _
    ring

/-- **C166 (GPS has no weight afterwards).** With the variances such a first sample leaves, an accepted GPS position of standard deviation at least 0.1 m moves the
position by less than one part in ten thousand of its innovation. -/
theorem gps_has_no_weight (x : VPIn) (i0 i1 g r0 r1 : ℝ) (st : VPSt) (hg : 0 < g) (h0 : 1 / 100 ≤ r0) (h1 : 1 / 100 ≤ r1) (l7 : Lone st.f.P 7) (l8 : Lone st.f.P 8)
    (hd : ∀ i, 0 ≤ st.f.P i i) (b7 : st.f.P 7 7 = 1 / 1000000) (b8 : st.f.P 8 8 = 1 / 1000000) :
    let out := fuseHorizontalPosition x i0 i1 g r0 r1 false st
    |out.st.f.s 7 - st.f.s 7| ≤ |i0| / 10000 ∧ |out.st.f.s 8 - st.f.s 8| ≤ |i1| / 10000 := by
  intro out
  obtain ⟨-, h, h'⟩ := hpos_lone x i0 i1 g r0 r1 st hg (by linarith) (by linarith) l7 l8 hd (by rw [b7]; norm_num) (by rw [b8]; norm_num)
  have key : ∀ i r : ℝ, 1 / 100 ≤ r → |1 / 1000000 / (1 / 1000000 + r) * i| ≤ |i| / 10000 := by
    intro i r hr
    rw [abs_mul, abs_of_nonneg (by positivity)]
    have : (1 / 1000000 : ℝ) / (1 / 1000000 + r) ≤ 1 / 10000 := by
      rw [div_le_iff₀ (by linarith)]
      linarith
    calc (1 / 1000000 : ℝ) / (1 / 1000000 + r) * |i| ≤ 1 / 10000 * |i| := mul_le_mul_of_nonneg_right this (abs_nonneg _)
      _ = |i| / 10000 := by ring
  cases hr : out.ret
  · have e : out.st.f = st.f := h' hr
    rw [e]
    simp only [sub_self, abs_zero]
    exact ⟨by positivity, by positivity⟩
  · obtain ⟨a, b, -⟩ := h hr
    have a' : out.st.f.s 7 = _ := a
    have b' : out.st.f.s 8 = _ := b
    rw [a', b', b7, b8]
    constructor
    · rw [sub_sub_cancel_left, abs_neg]; exact key _ _ h0
    · rw [sub_sub_cancel_left, abs_neg]; exact key _ _ h1

/-! ## The start of GPS -/

/-- **C166 (start of GPS).** Vision position in use as odometry, the vision sample confirms the movement of the estimate since the previous sample, and in between GPS
has started and reset the position to its own, of accuracy `a`.  If the jump is within the gate, this one vision sample takes back the fraction a²/(a² + r) of it, with `r` the
variance of the vision sample. -/
theorem vision_takes_back_gps_start (x : FixIn ℝ) (p : EvPar) (R : M3 ℝ) (d : EvData) (rx : RIn) (aux : Est ℝ) (posLost velLost : Bool) (m : EvMem) (st : VPSt)
    (hm : p.modeGps = true) (hp : m.prevOk = true) (hd : ∀ i, 0 ≤ st.f.P i i) (ha : 1 / 1000000 ≤ rx.gpsHacc ^ 2 ∧ rx.gpsHacc ^ 2 ≤ 1000000)
    (hc : ∀ i : Fin 2, ![st.f.s 7, st.f.s 8] i = m.predPrev i + (m.REv.mulVec ((evCorrect p R d).pos - m.measPrev)) i.castSucc) :
    let f := onEst (fun e => posToGps rx e) aux st.f
    let r := (evPosObs p (evCorrect p R d) ![f.s 7, f.s 8] m).2
    let J : Fin 2 → ℝ := ![rx.gpsPos 0 - st.f.s 7, rx.gpsPos 1 - st.f.s 8]
    let v := rx.gpsHacc ^ 2
    let g := max p.posGate 1
    let out := (evPosStep x p R d rx aux posLost velLost m { st with f := f }).2
    f.s 7 = rx.gpsPos 0 ∧ f.s 8 = rx.gpsPos 1 ∧ (∀ i, 1 / 4 ≤ r i) ∧
      (out.ret = true ↔ ∀ i, J i ^ 2 ≤ g ^ 2 * (v + r i)) ∧
      (out.ret = true → out.st.f.s 7 = rx.gpsPos 0 - v / (v + r 0) * J 0 ∧ out.st.f.s 8 = rx.gpsPos 1 - v / (v + r 1) * J 1) := by
  intro f r J v g out
  have hg : 0 < g := lt_of_lt_of_le one_pos (le_max_right _ _)
  have hpos : (0 : ℝ) < 1 / 1000000 := by norm_num
  have b7 : inBlk 7 2 (7 : Fin N) := by unfold inBlk; decide
  have b8 : inBlk 7 2 (8 : Fin N) := by unfold inBlk; decide
  have hP : f.P = uncorrSet 7 2 (fun _ => sq rx.gpsHacc) st.f.P := rfl
  have hv : sq rx.gpsHacc = v := by show sq rx.gpsHacc = rx.gpsHacc ^ 2; unfold sq; ring
  have q7 : f.P 7 7 = v := by rw [hP, uncorrSet_in 7 2 _ _ 7 b7, hv]
  have q8 : f.P 8 8 = v := by rw [hP, uncorrSet_in 7 2 _ _ 8 b8, hv]
  have l7 : Lone f.P 7 := by rw [hP]; exact uncorrSet_lone 7 2 _ _ 7 b7
  have l8 : Lone f.P 8 := by rw [hP]; exact uncorrSet_lone 7 2 _ _ 8 b8
  have hdf : ∀ i, 0 ≤ f.P i i := by
    intro i
    rw [hP]
    exact uncorrSet_nonneg _ _ _ _ (fun q _ => mul_self_nonneg _) hd i
  have s7 : f.s 7 = rx.gpsPos 0 := rfl
  have s8 : f.s 8 = rx.gpsPos 1 := rfl
  have hr4 : ∀ i, 1 / 4 ≤ r i := by
    intro i
    have e : r i = max ((m.REv * Matrix.diagonal (evCorrect p R d).posVar * m.REv.transpose) i.castSucc i.castSucc) (sq (1 / 2)) := by
      show (evPosObs p (evCorrect p R d) ![f.s 7, f.s 8] m).2 i = _
      unfold evPosObs
      rw [hm, hp]
      rfl
    rw [e]
    refine le_trans ?_ (le_max_right _ _)
    unfold sq
    norm_num
  have hinn : ∀ i : Fin 2, (evPosObs p (evCorrect p R d) ![f.s 7, f.s 8] m).1.innov i = J i := by
    intro i
    have e : (evPosObs p (evCorrect p R d) ![f.s 7, f.s 8] m).1.innov i =
        ![f.s 7, f.s 8] i - m.predPrev i - (m.REv.mulVec ((evCorrect p R d).pos - m.measPrev)) i.castSucc := by
      unfold evPosObs
      rw [hm, hp]
      rfl
    rw [e, s7, s8]
    have := hc i
    fin_cases i
    · show rx.gpsPos 0 - m.predPrev 0 - _ = rx.gpsPos 0 - st.f.s 7
      have h0 : st.f.s 7 = m.predPrev 0 + (m.REv.mulVec ((evCorrect p R d).pos - m.measPrev)) (Fin.castSucc 0) := this
      rw [h0]
      show _ - _ - (m.REv.mulVec ((evCorrect p R d).pos - m.measPrev)) (Fin.castSucc 0) = _
      ring
    · show rx.gpsPos 1 - m.predPrev 1 - _ = rx.gpsPos 1 - st.f.s 8
      have h0 : st.f.s 8 = m.predPrev 1 + (m.REv.mulVec ((evCorrect p R d).pos - m.measPrev)) (Fin.castSucc 1) := this
      rw [h0]
      show _ - _ - (m.REv.mulVec ((evCorrect p R d).pos - m.measPrev)) (Fin.castSucc 1) = _
      ring
  have hout : out = fuseHorizontalPosition ⟨x, false, (evPosObs p (evCorrect p R d) ![f.s 7, f.s 8] m).1.asOdom⟩ (J 0) (J 1) g (r 0) (r 1) false { st with f := f } := by
    rw [← hinn 0, ← hinn 1]
    show (evPosStep x p R d rx aux posLost velLost m { st with f := f }).2 = _
    unfold evPosStep
    rw [hm]
    rfl
  refine ⟨s7, s8, hr4, ?_⟩
  rw [hout]
  generalize (evPosObs p (evCorrect p R d) ![f.s 7, f.s 8] m).1.asOdom = odom
  have h := hpos_lone ⟨x, false, odom⟩ (J 0) (J 1) g (r 0) (r 1) { st with f := f } hg
    (by linarith [hr4 0]) (by linarith [hr4 1]) l7 l8 hdf (by rw [show ({ st with f := f } : VPSt).f.P 7 7 = v from q7]; linarith [ha.1])
    (by rw [show ({ st with f := f } : VPSt).f.P 8 8 = v from q8]; exact ha)
  dsimp only at h
  rw [q7, q8, s7, s8] at h
  obtain ⟨h1, h2, -⟩ := h
  refine ⟨?_, fun k => ?_⟩
  · rw [h1, Fin.forall_fin_two]
  · obtain ⟨a, b, -⟩ := h2 k
    exact ⟨a, b⟩

/-! ## Concrete cases -/

def exOdomPar : EvPar := ⟨0, 0, false, true, true, 5, 3⟩
def exOdomData : EvData := ⟨0, fun _ => 1 / 4, 0, 0, .local, ⟨1, 0, 0, 0⟩⟩
/-- GPS not in use, vision starts with a sample of 10 m standard deviation -/
def exVisStart : RIn :=
  ⟨false, false, false, true, true, false, 0, 1, 0, 1, 0, 1, 1, 0, 1, 1, 1, 0, fun _ => 1, 0, fun _ => 100, false, 1, 0, 10⟩
/-- GPS of 2 m standard deviation, 5 m north of the estimate -/
def exGpsStart : RIn :=
  ⟨false, false, false, true, true, false, 0, 1, ![5, 0], 2, 0, 1, 1, 0, 1, 1, 1, 0, fun _ => 1, 0, fun _ => 100, false, 1, 0, 10⟩

/-- Non-vacuity of `vision_start_certain`: the reset leaves 100 m², the same sample makes it 10⁻⁶ m². -/
example (x : FixIn ℝ) (aux : Est ℝ) :
    let st := exVP { exFilt with s := fun _ => 0 }
    let f := onEst (Meas.resetHorizontalPosition exVisStart) aux st.f
    let out := (evPosStep x exOdomPar 1 exOdomData exVisStart aux false false ⟨1, 0, 0, false, 0, true⟩ { st with f := f }).2
    f.P 7 7 = 100 ∧ out.st.f.P 7 7 = 1 / 1000000 := by
  intro st f out
  have hd : ∀ i, 0 ≤ st.f.P i i := fun i => by
    show 0 ≤ (if i = i then (1 : ℝ) else 0)
    rw [if_pos rfl]; norm_num
  obtain ⟨a, -, -, -, -, b, -⟩ := vision_start_certain x exOdomPar 1 exOdomData exVisStart aux false false ⟨1, 0, 0, false, 0, true⟩ st ![100, 100] rfl rfl rfl rfl
    (fun i => by fin_cases i <;> norm_num) hd
  exact ⟨a, b⟩

/-- Non-vacuity of `first_vision_sample`: with an innovation of 3 m left over and 1 m² of variance, the sample moves the estimate by 3 m. -/
example (x : FixIn ℝ) (aux : Est ℝ) (d : EvData) :
    (evPosStep x exOdomPar 1 d exVisStart aux false false ⟨1, 0, 0, false, ![3, 0], true⟩ (exVP { exFilt with s := fun _ => 0 })).2.st.f.s 7 = -3 := by
  have hl : ∀ q, Lone (exVP { exFilt with s := fun _ => 0 }).f.P q := fun q r hr => ⟨if_neg hr, if_neg (Ne.symm hr)⟩
  have hd : ∀ i, (exVP { exFilt with s := fun _ => 0 }).f.P i i = 1 := fun i => if_pos rfl
  obtain ⟨a, b, -⟩ := first_vision_sample x exOdomPar 1 d exVisStart aux false false ⟨1, 0, 0, false, ![3, 0], true⟩ (exVP { exFilt with s := fun _ => 0 }) rfl rfl (hl 7) (hl 8)
    (fun i => by rw [hd]; norm_num) (by rw [hd]; norm_num) (by rw [hd]; norm_num)
  have h := (b (a.mpr (by rw [hd, hd]; show (3 : ℝ) ^ 2 ≤ max 5 1 ^ 2 * 1 ∧ (0 : ℝ) ^ 2 ≤ max 5 1 ^ 2 * 1; norm_num))).1
  rw [h]
  show (0 : ℝ) - 3 = -3
  norm_num

/-- Non-vacuity of `vision_takes_back_gps_start`: GPS puts the estimate 5 m north, the next vision sample puts it back to 0.3 m. -/
example (x : FixIn ℝ) (aux : Est ℝ) :
    let st := exVP { exFilt with s := fun _ => 0 }
    let f := onEst (fun e => posToGps exGpsStart e) aux st.f
    let out := (evPosStep x exOdomPar 1 exOdomData exGpsStart aux false false ⟨1, 0, 0, true, 0, true⟩ { st with f := f }).2
    f.s 7 = 5 ∧ out.ret = true ∧ out.st.f.s 7 = 5 - 80 / 17 := by
  intro st f out
  have hd : ∀ i, 0 ≤ st.f.P i i := fun i => by
    show 0 ≤ (if i = i then (1 : ℝ) else 0)
    rw [if_pos rfl]; norm_num
  have hz : (evCorrect exOdomPar 1 exOdomData).pos = 0 := by
    show (0 : V3 ℝ) - (1 : M3 ℝ).mulVec (0 - 0) = 0
    simp
  obtain ⟨a, -, c, e, g⟩ := vision_takes_back_gps_start x exOdomPar 1 exOdomData exGpsStart aux false false ⟨1, 0, 0, true, 0, true⟩ st rfl rfl hd
    (by show (1 / 1000000 : ℝ) ≤ 2 ^ 2 ∧ (2 : ℝ) ^ 2 ≤ 1000000; norm_num)
    (fun i => by rw [hz]; fin_cases i <;> simp [st, exVP])
  have hr : ∀ i, (evPosObs exOdomPar (evCorrect exOdomPar 1 exOdomData) ![f.s 7, f.s 8] ⟨1, 0, 0, true, 0, true⟩).2 i = 1 / 4 := by
    intro i
    show max (((1 : M3 ℝ) * (Matrix.diagonal (fun _ => (1 / 4 : ℝ)) : M3 ℝ) * (1 : M3 ℝ).transpose : M3 ℝ) i.castSucc i.castSucc) (sq (1 / 2)) = 1 / 4
    rw [one_mul, Matrix.transpose_one, mul_one, Matrix.diagonal_apply_eq]
    unfold sq
    norm_num
  have hret : out.ret = true := by
    refine e.mpr fun i => ?_
    rw [hr]
    fin_cases i
    · show ((5 : ℝ) - 0) ^ 2 ≤ max 5 1 ^ 2 * (2 ^ 2 + 1 / 4)
      norm_num
    · show ((0 : ℝ) - 0) ^ 2 ≤ max 5 1 ^ 2 * (2 ^ 2 + 1 / 4)
      norm_num
  refine ⟨a, hret, ?_⟩
  rw [(g hret).1, hr]
  show (5 : ℝ) - 2 ^ 2 / (2 ^ 2 + 1 / 4) * (5 - 0) = _
  norm_num

end

end Ecl.Whole

/-! ## When these cases occur -/

namespace Ecl.Aid

/-- the vision position of a sample is fused without a variance exactly if there is no previous sample -/
theorem evPosUse_kind (x : In) (s : St) (hp : s.evPos = true) (hg : x.useGps = true) :
    Act.fusePos (if s.hposPrev then .visionDelta else .unset) ∈ (evPosUse x s).log := by
  unfold evPosUse
  rw [if_pos hp]
  dsimp only
  rw [if_pos hg]
  cases h : s.hposPrev
  · rw [if_pos (show (!false) = true from rfl), if_neg (by simp)]
    unfold fusePos
    dsimp only
    split_ifs <;> simp [St.act]
  · rw [if_neg (show ¬ (!true) = true by decide), if_pos rfl]
    unfold fusePos
    dsimp only
    split_ifs <;> simp [St.act]

theorem controlEv_kind (x : In) (s : St) (he : x.evReady = true) (hg : x.useGps = true) (hp : (evStart x s).evPos = true) :
    Act.fusePos (if (evStart x s).hposPrev then .visionDelta else .unset) ∈ (controlEv x s).log := by
  unfold controlEv
  rw [if_pos he]
  have e3 := evPosUse_kind x (evYawStart x (evStart x s)) (by simpa using hp) hg
  have e : (evYawStart x (evStart x s)).hposPrev = (evStart x s).hposPrev := by simp
  rw [e] at e3
  generalize (if (evStart x s).hposPrev = true then PosVar.visionDelta else PosVar.unset) = v at e3 ⊢
  have e4 := evVelUse_log_mem x _ _ e3
  dsimp only
  split_ifs
  · exact act_mem _ _ _ e4
  · exact e4

/-- **C166 (every start of vision).** Whenever vision position starts while GPS is selected, the very sample that starts it is fused as a position change without a previous
sample, that is, with an observation variance of zero. -/
theorem vision_start_unset (x : In) (s : St) (hg : x.useGps = true) (h0 : s.evPos = false) (h1 : (controlEv x s).evPos = true) :
    Act.fusePos .unset ∈ (controlEv x s).log := by
  obtain ⟨he, hu, ht, hy, hr⟩ := (ev_pos_start x s h0).mp h1
  have hs : (evStart x s).evPos = true ∧ (evStart x s).hposPrev = false := by
    unfold evStart
    rw [if_pos (by rw [ht, hy]; rfl), if_pos hr]
    dsimp only
    rw [if_pos (show (x.useEvPos && !s.evPos) = true by rw [hu, h0]; rfl)]
    split_ifs <;> exact ⟨rfl, rfl⟩
  have h := controlEv_kind x s he hg hs.1
  rw [hs.2] at h
  exact h

/-- **C166 (GPS start forgets nothing).** The start of GPS resets the position but keeps the previous vision sample: if vision position is in use as odometry, the next vision
sample is fused as a change from before the reset. -/
theorem gps_start_remembers (x : In) (s : St) :
    (startGps s).hposPrev = s.hposPrev ∧ Act.posReset .gps ∈ (startGps s).log ∧
    (s.evPos = true → s.hposPrev = true → s.evVel = true ∨ x.useEvVel = false → x.evReady = true → x.useGps = true →
      Act.fusePos .visionDelta ∈ (controlEv x (startGps s)).log) := by
  have h1 : (startGps s).hposPrev = s.hposPrev := by
    unfold startGps
    dsimp only
    split_ifs <;> rfl
  refine ⟨h1, ?_, fun hp hh hv he hg => ?_⟩
  · unfold startGps
    dsimp only
    split_ifs <;> simp [St.act, St.evt]
  · have h2 : (startGps s).evPos = true := by
      rw [← hp]
      unfold startGps
      dsimp only
      split_ifs <;> rfl
    have h3 : (startGps s).evVel = s.evVel := by
      unfold startGps
      dsimp only
      split_ifs <;> rfl
    have e1 : evStart x (startGps s) = startGps s := by
      have c1 : ¬ (x.useEvPos && !(startGps s).evPos) = true := by rw [h2]; simp
      have c2 : ¬ (x.useEvVel && !(startGps s).evVel) = true := by
        rw [h3]
        rcases hv with k | k <;> rw [k] <;> simp
      unfold evStart
      dsimp only
      rw [if_neg c1, if_neg c2, ite_self, ite_self]
    have h := controlEv_kind x (startGps s) he hg (by rw [e1]; exact h2)
    rw [e1, h1, hh] at h
    exact h

/-- Both cases are reached from power-up: the first step starts vision and fuses its first sample, the second fuses a change; the third
starts GPS and fuses the next sample as a change. -/
example : let x : UInt64 → In := fun t =>
      { tiltConverged := true, magReady := true, useEvPos := true, useGps := true, evReady := true, tEv := t, now := t, tDel := t, evPosOk := true }
    let s1 := step (x 6000000) {}
    let s2 := step (x 6050000) s1
    let s3 := step { x 6100000 with gpsReady := true, nedInit := true, lastPass := 6100000, gpsVelOk := true, gpsPosOk := true } s2
    s1.evPos = true ∧ Act.fusePos .unset ∈ s1.log ∧ Act.fusePos .visionDelta ∈ s2.log ∧ s2.gps = false ∧ s3.gps = true ∧ Act.posReset .gps ∈ s3.log ∧
      Act.fusePos .visionDelta ∈ s3.log ∧ Act.fusePos .unset ∉ s3.log := by decide +kernel

end Ecl.Aid
