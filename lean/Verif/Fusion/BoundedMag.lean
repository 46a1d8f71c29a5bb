import Verif.Fusion.Bounded
import Verif.Fusion.HonestEx

/-!
# Property C155 — the three magnetometer axes

All three innovations are tested against the variances predicted from the state before the fusion, and fused one after the other
with variances computed anew but the innovations of the first state: the bound holds for the first axis and can fail for the others.
EKF/mag_fusion.cpp:47-460.
-/

namespace Ecl.Fusion
open Ecl.Cov

/-- one axis, its innovation within `c` standard deviations of its current innovation variance -/
theorem magAxis_moves {x : MagIn} {v c : ℝ} {a : Fin 3} {st st' : MagSt} {go : Bool} (h : Spec.MagAxis x v a st st' go) (hn : 0 < x.noise) (hc : 0 ≤ c)
    (hP : Spec.PSD st.f.P) (hv : ∀ H : Vec ℝ, Spec.IsGradient (Spec.magPred a) st.f.s H → v ^ 2 ≤ c ^ 2 * Spec.innovVar st.f.P H (x.noise ^ 2))
    (i : Fin N) (hi : 4 ≤ i.val) (h16 : i.val ≠ 16) (h17 : i.val ≠ 17) : |st'.f.s i - st.f.s i| ≤ c * Real.sqrt (st.f.P i i) := by
  obtain ⟨H, hH, -, h2⟩ := h
  have hmax : max x.noise 0 = x.noise := max_eq_left hn.le
  rw [hmax] at h2
  have hR : 0 < x.noise ^ 2 := by positivity
  obtain ⟨-, h4⟩ := h2 (innovVar_ge hP H (x.noise ^ 2))
  have hm := moved_update x.fx H st.f fun j => gain_le hP H hc hR (Spec.magSel x) (hv H hH) j
  have := movedAtMost_linear hm (fun j => sigmas_nonneg hc _ j) i hi
  rw [h4]
  dsimp only
  split
  · rw [(limitDeclination_spec x.decl _).1 i ⟨h16, h17⟩]; exact this
  · exact this

/-- **C155 (magnetometer).** Seen through the filter after the X and after the Y axis: the X axis moves a state by at most the gate times its standard
deviation, a later axis by at most that times the ratio of the innovation deviation it was tested with to the measurement noise.  (Attitude and horizontal earth field,
which are rescaled and limited afterwards, excepted.) -/
theorem mag_bounded (x : MagIn) (hn : 0 < x.noise) (st : MagSt) (hP : Spec.PSD st.f.P) :
    ∃ fx fy : Filt, ∀ i : Fin N, 4 ≤ i.val → i.val ≠ 16 → i.val ≠ 17 →
      |fx.s i - st.f.s i| ≤ max x.gate 1 * Real.sqrt (st.f.P i i) ∧
      (Spec.PSD fx.P → ∀ H, Spec.IsGradient (Spec.magPred 1) st.f.s H →
        |fy.s i - fx.s i| ≤ max x.gate 1 * (Real.sqrt (Spec.innovVar st.f.P H (x.noise ^ 2)) / x.noise) * Real.sqrt (fx.P i i)) ∧
      (Spec.PSD fy.P → ∀ H, Spec.IsGradient (Spec.magPred 2) st.f.s H →
        |(fuseMag x st).f.s i - fy.s i| ≤ max x.gate 1 * (Real.sqrt (Spec.innovVar st.f.P H (x.noise ^ 2)) / x.noise) * Real.sqrt (fy.P i i)) := by
  have hg : (0 : ℝ) < max x.gate 1 := lt_of_lt_of_le zero_lt_one (le_max_right _ _)
  have hmax : max x.noise 0 = x.noise := max_eq_left hn.le
  have huniq : ∀ {f : Vec ℝ → ℝ} {s H H' : Vec ℝ}, Spec.IsGradient f s H → Spec.IsGradient f s H' → H = H' := by
    intro f s H H' a b
    funext j
    have := (a (Pi.single j 1)).unique (b (Pi.single j 1))
    simpa [Pi.single_apply] using this
  obtain ⟨H, hH, -, -, -, h4⟩ := mag_fusion x st hP.symm hn
  rw [hmax] at h4
  obtain ⟨rej, -, h5, h6⟩ := h4 (fun a => innovVar_ge hP (H a) _)
  by_cases hf : ∃ a, (max x.gate 1) ^ 2 * Spec.innovVar st.f.P (H a) (x.noise ^ 2) < (Spec.magInnov x st.f.s a) ^ 2
  · refine ⟨st.f, st.f, fun i _ _ _ => ?_⟩
    rw [h5 hf]
    dsimp only
    rw [sub_self, abs_zero]
    exact ⟨by positivity, fun _ _ _ => by positivity, fun _ _ _ => by positivity⟩
  · push Not at hf
    obtain ⟨st2, go2, m2, f2, t2⟩ := h6 (fun a => not_lt.mpr (hf a))
    have hl : ∀ (a : Fin 3) (s : MagSt) (H' : Vec ℝ), Spec.PSD s.f.P →
        (Spec.magInnov x st.f.s a) ^ 2 ≤ (max x.gate 1 * (Real.sqrt (Spec.innovVar st.f.P (H a) (x.noise ^ 2)) / x.noise)) ^ 2 * Spec.innovVar s.f.P H' (x.noise ^ 2) := by
      intro a s H' hs
      have h1 : x.noise ^ 2 ≤ Spec.innovVar s.f.P H' (x.noise ^ 2) := innovVar_ge hs H' _
      have h0 : 0 ≤ Spec.innovVar st.f.P (H a) (x.noise ^ 2) := le_trans (by positivity) (innovVar_ge hP (H a) (x.noise ^ 2))
      calc _ ≤ (max x.gate 1) ^ 2 * Spec.innovVar st.f.P (H a) (x.noise ^ 2) := hf a
        _ = (max x.gate 1 * (Real.sqrt (Spec.innovVar st.f.P (H a) (x.noise ^ 2)) / x.noise)) ^ 2 * x.noise ^ 2 := by
            rw [mul_pow, div_pow, Real.sq_sqrt h0]; field_simp
        _ ≤ _ := mul_le_mul_of_nonneg_left h1 (by positivity)
    have hx : ∀ i : Fin N, 4 ≤ i.val → i.val ≠ 16 → i.val ≠ 17 → |st2.f.s i - st.f.s i| ≤ max x.gate 1 * Real.sqrt (st.f.P i i) := by
      intro i hi h16 h17
      exact magAxis_moves m2 hn hg.le hP (fun H' hH' => by rw [← huniq (hH 0) hH']; exact hf 0) i hi h16 h17
    cases go2
    · refine ⟨st2.f, st2.f, fun i hi h16 h17 => ⟨hx i hi h16 h17, fun _ _ _ => ?_, fun _ _ _ => ?_⟩⟩
      · rw [sub_self, abs_zero]; positivity
      · rw [f2 rfl, sub_self, abs_zero]; positivity
    · obtain ⟨st3, go3, m3, f3, t3⟩ := t2 rfl
      refine ⟨st2.f, st3.f, fun i hi h16 h17 => ⟨hx i hi h16 h17, fun hp H' hH' => ?_, fun hp H' hH' => ?_⟩⟩
      · rw [← huniq (hH 1) hH']
        exact magAxis_moves m3 hn (by positivity) hp (fun H'' _ => hl 1 st2 H'' hp) i hi h16 h17
      · rw [← huniq (hH 2) hH']
        by_cases hend : go3 = false ∨ x.synthZ = true
        · rw [f3 hend, sub_self, abs_zero]; positivity
        · push Not at hend
          obtain ⟨go4, m4⟩ := t3 (by simpa using hend.1) (by simpa using hend.2)
          exact magAxis_moves m4 hn (by positivity) hp (fun H'' _ => hl 2 st3 H'' hp) i hi h16 h17

/-! ### The bound fails for the second axis -/

/-- independent part of the variances -/
noncomputable def exMD (i : Fin N) : ℝ := if 13 ≤ i.val ∧ i.val < 16 then 1 / 1000000 else if 4 ≤ i.val ∧ i.val < 10 then 1 / 10 else 0

/-- common to the body X and Y field -/
def exMU (i : Fin N) : ℝ := if i = 19 ∨ i = 20 then 1 else 0

/-- common to the body Y and Z field -/
def exMW (i : Fin N) : ℝ := if i = 20 ∨ i = 21 then 1 else 0

/-- the covariance -/
noncomputable def exMQ : Mat ℝ := fun i j => ((if i = j then exMD i else 0) + 1 / 4 * (exMU i * exMU j)) + 1 / 400 * (exMW i * exMW j)

theorem exMQ_psd : Spec.PSD exMQ := by
  refine psd_add (psd_add (psd_diag fun i => ?_) (psd_outer exMU (by norm_num))) (psd_outer exMW (by norm_num))
  unfold exMD; split_ifs <;> norm_num

theorem exMQ_row (i : Fin N) : (i.val < 19 ∨ 22 ≤ i.val → ∀ j, j ≠ i → exMQ i j = 0 ∧ exMQ j i = 0) ∧ (i.val < 19 ∨ 22 ≤ i.val → exMQ i i = exMD i) := by
  have h : i.val < 19 ∨ 22 ≤ i.val → exMU i = 0 ∧ exMW i = 0 := by
    intro h
    unfold exMU exMW
    rw [if_neg (by rintro (h | h) <;> subst h <;> revert h <;> decide), if_neg (by rintro (h | h) <;> subst h <;> revert h <;> decide)]
    exact ⟨rfl, rfl⟩
  constructor
  · intro hi j hj
    obtain ⟨h1, h2⟩ := h hi
    unfold exMQ; rw [h1, h2, if_neg hj.symm, if_neg hj]; constructor <;> ring
  · intro hi
    obtain ⟨h1, h2⟩ := h hi
    unfold exMQ; rw [h1, h2, if_pos rfl]; ring

theorem exMQ_vals : exMQ 19 19 = 1 / 4 ∧ exMQ 20 20 = 101 / 400 ∧ exMQ 21 21 = 1 / 400 ∧ exMQ 19 20 = 1 / 4 ∧ exMQ 20 19 = 1 / 4 ∧ exMQ 21 20 = 1 / 400 ∧
    exMQ 20 21 = 1 / 400 ∧ exMQ 21 19 = 0 ∧ exMQ 19 21 = 0 := by
  have hD : exMD 19 = 0 ∧ exMD 20 = 0 ∧ exMD 21 = 0 := by
    unfold exMD
    refine ⟨?_, ?_, ?_⟩ <;> rw [if_neg (by decide), if_neg (by decide)]
  have hU : exMU 19 = 1 ∧ exMU 20 = 1 ∧ exMU 21 = 0 := by
    unfold exMU
    exact ⟨if_pos (by decide), if_pos (by decide), if_neg (by decide)⟩
  have hW : exMW 19 = 0 ∧ exMW 20 = 1 ∧ exMW 21 = 1 := by
    unfold exMW
    exact ⟨if_neg (by decide), if_pos (by decide), if_pos (by decide)⟩
  unfold exMQ
  rw [hD.1, hD.2.1, hD.2.2, hU.1, hU.2.1, hU.2.2, hW.1, hW.2.1, hW.2.2]
  refine ⟨?_, ?_, ?_, ?_, ?_, ?_, ?_, ?_, ?_⟩ <;> norm_num <;> (try decide)

/-- a valid covariance no larger than the example's one, equal outside the body field -/
theorem exM_quiet (x : FixIn ℝ) (Q : Mat ℝ) (hQ : Spec.PSD Q) (hle : ∀ i, Q i i ≤ exMQ i i) (heq : ∀ i : Fin N, i.val < 19 → Q i i = exMD i) :
    Spec.Quiet (exFx x) Q := by
  have hub : ∀ i, exMQ i i ≤ 1 := by
    intro i
    by_cases h : i.val < 19 ∨ 22 ≤ i.val
    · rw [(exMQ_row i).2 h]; unfold exMD; split_ifs <;> norm_num
    · have : i = 19 ∨ i = 20 ∨ i = 21 := by
        have h19 : (19 : Fin N).val = 19 := rfl
        have h20 : (20 : Fin N).val = 20 := rfl
        have h21 : (21 : Fin N).val = 21 := rfl
        rw [Fin.ext_iff, Fin.ext_iff, Fin.ext_iff, h19, h20, h21]; omega
      obtain ⟨a, b, c, -⟩ := exMQ_vals
      rcases this with rfl | rfl | rfl
      · rw [a]; norm_num
      · rw [b]; norm_num
      · rw [c]; norm_num
  have h01 : ∀ i, 0 ≤ Q i i ∧ Q i i ≤ 1 := fun i => ⟨diag_nonneg hQ i, (hle i).trans (hub i)⟩
  refine ⟨rfl, rfl, fun _ => rfl, rfl, by show (1000000 : UInt64).toNat + 7000000 < 2 ^ 64; decide, fun i _ => h01 i, fun i h1 h2 => ?_, fun i _ _ => h01 i,
    fun i h1 h2 => ?_, fun i _ _ => h01 i, fun i _ => ⟨(h01 i).1, (h01 i).2.trans (by norm_num)⟩⟩
  · rw [heq i (by omega)]; unfold exMD; rw [if_neg (by omega), if_pos ⟨h1, h2⟩]; norm_num
  · have e : ∀ j : Fin N, 13 ≤ j.val → j.val < 16 → Q j j = 1 / 1000000 := by
      intro j h3 h4; rw [heq j (by omega)]; unfold exMD; rw [if_pos ⟨h3, h4⟩]
    rw [e i h1 h2]
    refine ⟨by norm_num, by show _ ≤ (1 / 10 * (980665 / 100000) * (1 / 100 : ℝ)) ^ 2; norm_num, fun j h3 h4 => ?_⟩
    rw [e j h3 h4]; norm_num

/-- **C155 (magnetometer, refuted).** Gate of three standard deviations, every axis accepted, valid covariance, no limit acting: the fusion moves the estimate of
the body Z field by more than half a gauss although its reported standard deviation was 0.05 gauss, ten deviations. -/
theorem mag_moves_beyond_gate : ∃ (x : MagIn) (st : MagSt), max x.gate 1 = 3 ∧ Spec.PSD st.f.P ∧ (attQuat st.f.s).normSq = 1 ∧
    (∀ a, (fuseMag x st).reject a = false) ∧
    Real.sqrt (st.f.P 21 21) = 1 / 20 ∧ 1 / 2 < |(fuseMag x st).f.s 21 - st.f.s 21| := by
  obtain ⟨v1, v2, v3, v4, v5, v6, v7, v8, v9⟩ := exMQ_vals
  obtain ⟨x, hx⟩ : ∃ x : MagIn, x = ⟨1 / 20, 3, ![0, -3 / 2, 0], true, 8000000, 0, 1, ⟨false, false, none, 0⟩, exFx exFix⟩ := ⟨_, rfl⟩
  have hxn : x.noise = 1 / 20 := by rw [hx]
  have hxf : x.fx = exFx exFix := by rw [hx]
  have hxg : max x.gate 1 = 3 := by rw [hx]; norm_num
  have hxz : x.synthZ = true := by rw [hx]
  have hxm : x.mag = ![0, -3 / 2, 0] := by rw [hx]
  have hall : 5000000 < (x.imuTime - x.alignStart).toNat := by rw [hx]; decide
  obtain ⟨st, hst⟩ : ∃ st : MagSt, st = ⟨{ exFilt with s := fun i => if i = 0 then 1 else 0, M := { exFilt.M with P := exMQ } }, fun _ => false, fun _ => false, 0, 0, 0, 0⟩ := ⟨_, rfl⟩
  have hsP : st.f.P = exMQ := by rw [hst]
  have hss : st.f.s = fun i => if i = 0 then 1 else 0 := by rw [hst]
  have hP : Spec.PSD st.f.P := by rw [hsP]; exact exMQ_psd
  have hs0 : ∀ i : Fin N, i ≠ 0 → st.f.s i = 0 := by intro i hi; rw [hss]; exact if_neg hi
  have hR : (0 : ℝ) < (1 / 20) ^ 2 := by norm_num
  have hk : KnownAtt st.f.P := by
    intro i l hl
    rw [hsP]
    by_cases h : i = l
    · subst h; rw [(exMQ_row i).2 (by omega)]; unfold exMD; rw [if_neg (by omega), if_neg (by omega)]
    · exact ((exMQ_row l).1 (by omega) i h).2
  have b0 : Spec.bodyField 0 = 19 := rfl
  have b1 : Spec.bodyField 1 = 20 := rfl
  have b2 : Spec.bodyField 2 = 21 := rfl
  have i0 : Spec.magInnov x st.f.s 0 = 0 := by
    unfold Spec.magInnov
    rw [if_neg (by simp), magPred_0, hxm, hs0 16 (by decide), hs0 17 (by decide), hs0 18 (by decide), hs0 19 (by decide)]
    simp
  have i1 : Spec.magInnov x st.f.s 1 = 3 / 2 := by
    unfold Spec.magInnov
    rw [if_neg (by simp), magPred_1, hxm, hs0 16 (by decide), hs0 17 (by decide), hs0 18 (by decide), hs0 20 (by decide)]
    norm_num
  have i2 : Spec.magInnov x st.f.s 2 = 0 := by
    unfold Spec.magInnov; rw [if_pos ⟨rfl, hxz⟩]
  obtain ⟨P1, hP1⟩ : ∃ P1, P1 = Spec.afterDirect exMQ 19 (exMQ 19 19 + (1 / 20) ^ 2) := ⟨_, rfl⟩
  have psd1 : Spec.PSD P1 := by rw [hP1]; exact psd_afterDirect exMQ_psd 19 hR
  have row1 : ∀ i j, P1 i j = exMQ i j - exMQ i 19 * exMQ 19 j / (101 / 400) := by
    intro i j; rw [hP1]; unfold Spec.afterDirect; rw [v1]; norm_num
  have far1 : ∀ i j : Fin N, i.val < 19 → P1 i j = exMQ i j := by
    intro i j hi
    have : (19 : Fin N) ≠ i := by intro h; subst h; revert hi; decide
    rw [row1, ((exMQ_row i).1 (Or.inl hi) 19 this).1]; ring
  have d2020 : P1 20 20 = 201 / 40400 := by rw [row1, v2, v4, v5]; norm_num
  have d2120 : P1 21 20 = 1 / 400 := by rw [row1, v6, v8, v4]; norm_num
  have le1 : ∀ i, P1 i i ≤ exMQ i i := by
    intro i; rw [row1, exMQ_psd.symm 19 i]
    have : 0 ≤ exMQ i 19 * exMQ i 19 / (101 / 400) := div_nonneg (mul_self_nonneg _) (by norm_num)
    linarith
  have hq1 : Spec.Quiet (exFx exFix) P1 := exM_quiet _ _ psd1 le1 (fun i hi => by rw [far1 i i hi, (exMQ_row i).2 (Or.inl hi)])
  obtain ⟨P2, hP2⟩ : ∃ P2, P2 = Spec.afterDirect P1 20 (P1 20 20 + (1 / 20) ^ 2) := ⟨_, rfl⟩
  have psd2 : Spec.PSD P2 := by rw [hP2]; exact psd_afterDirect psd1 20 hR
  have row2 : ∀ i j, P2 i j = P1 i j - P1 i 20 * P1 20 j / (P1 20 20 + (1 / 20) ^ 2) := by intro i j; rw [hP2]; rfl
  have hq2 : Spec.Quiet (exFx exFix) P2 := by
    refine exM_quiet _ _ psd2 (fun i => ?_) (fun i hi => ?_)
    · refine le_trans ?_ (le1 i)
      rw [row2, psd1.symm 20 i]
      have : 0 ≤ P1 i 20 * P1 i 20 / (P1 20 20 + (1 / 20) ^ 2) := div_nonneg (mul_self_nonneg _) (by rw [d2020]; norm_num)
      linarith
    · have : (20 : Fin N) ≠ i := by intro h; subst h; revert hi; decide
      rw [row2, far1 i 20 hi, ((exMQ_row i).1 (Or.inl hi) 20 this).1, far1 i i hi, (exMQ_row i).2 (Or.inl hi)]; ring
  obtain ⟨H, hH, -, -, -, h4⟩ := mag_fusion x st hP.symm (by rw [hxn]; norm_num)
  have hmax : max x.noise 0 = 1 / 20 := by rw [hxn]; norm_num
  rw [hmax] at h4
  have hiv : ∀ a, Spec.innovVar st.f.P (H a) ((1 / 20) ^ 2) = st.f.P (Spec.bodyField a) (Spec.bodyField a) + (1 / 20) ^ 2 :=
    fun a => known_innovVar hP hk (hH a) _
  have hpass : ∀ a, ¬ (max x.gate 1) ^ 2 * Spec.innovVar st.f.P (H a) ((1 / 20) ^ 2) < (Spec.magInnov x st.f.s a) ^ 2 := by
    intro a
    rw [hiv, hxg, not_lt, hsP]
    have ha : a = 0 ∨ a = 1 ∨ a = 2 := by omega
    rcases ha with rfl | rfl | rfl
    · rw [i0, b0, v1]; norm_num
    · rw [i1, b1, v2]; norm_num
    · rw [i2, b2, v3]; norm_num
  obtain ⟨rej, hrej, -, h5⟩ := h4 (fun a => innovVar_ge hP (H a) _)
  have hrej0 : ∀ a, rej a = false := fun a => Bool.eq_false_iff.mpr (fun h => hpass a ((hrej a).mp h))
  obtain ⟨st2, go2, m2, -, t2⟩ := h5 hpass
  obtain ⟨g2, p2, k2⟩ := known_axis m2 (by rw [hxn]; norm_num) hall (by exact hP) (by exact hk) (by
    show Spec.Quiet x.fx (Spec.afterDirect st.f.P (Spec.bodyField 0) (st.f.P (Spec.bodyField 0) (Spec.bodyField 0) + x.noise ^ 2))
    rw [hsP, hxf, hxn, b0, ← hP1]; exact hq1)
  have p2' : st2.f.P = P1 := by
    rw [p2]
    show Spec.afterDirect st.f.P (Spec.bodyField 0) (st.f.P (Spec.bodyField 0) (Spec.bodyField 0) + x.noise ^ 2) = P1
    rw [hsP, hxn, b0, ← hP1]
  obtain ⟨st3, go3, m3, f3, -⟩ := t2 g2
  have hk1 : KnownAtt st2.f.P := by
    intro i l hl
    rw [p2', row1]
    have h1 := hk i l hl
    have h2 := hk 19 l hl
    rw [hsP] at h1 h2
    rw [h1, h2]; ring
  obtain ⟨g3, -, k3⟩ := known_axis m3 (by rw [hxn]; norm_num) hall (by rw [p2']; exact psd1) hk1 (by rw [p2', hxf, hxn, b1, ← hP2]; exact hq2)
  have hfin := f3 (Or.inr hxz)
  have hrej2 : ∀ a, st2.reject a = false := by
    obtain ⟨H', -, -, q2⟩ := m2
    have := (q2 (by rw [hmax]; exact innovVar_ge (by exact hP) H' _)).2
    intro a; rw [this]; exact hrej0 a
  have hrej3 : ∀ a, st3.reject a = false := by
    obtain ⟨H', -, -, q2⟩ := m3
    have := (q2 (by rw [hmax]; exact innovVar_ge (by rw [p2']; exact psd1) H' _)).2
    intro a; rw [this]; exact hrej2 a
  refine ⟨x, st, hxg, hP, ?_, ?_, ?_, ?_⟩
  · unfold attQuat Quat.normSq
    rw [hs0 1 (by decide), hs0 2 (by decide), hs0 3 (by decide), hss]; norm_num
  · rw [hfin]; exact hrej3
  · rw [hsP, v3, show (1 / 400 : ℝ) = (1 / 20) ^ 2 by norm_num, Real.sqrt_sq (by norm_num)]
  · rw [hfin, k3 21 (by decide) (by decide) (by decide), k2 21 (by decide) (by decide) (by decide), p2', i0, i1, b1, d2020, d2120, hxn]
    show 1 / 2 < |st.f.s 21 - _ * 0 - _ - st.f.s 21|
    rw [lt_abs]; right
    norm_num

end Ecl.Fusion
