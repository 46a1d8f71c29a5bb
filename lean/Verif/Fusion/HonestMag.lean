import Verif.Fusion.Honest
import Verif.Fusion.Mag

/-!
# Overconfidence after magnetometer fusion — EKF/mag_fusion.cpp:43-424

The innovations of all three axes are computed before the first axis is fused (mag_fusion.cpp:164-190); the covariance, the rows
and the innovation variances of the later axes are recomputed, the innovations are not (mag_fusion.cpp:402).
-/

namespace Ecl.Fusion
open Ecl.Cov MeasureTheory
open scoped Matrix

variable {Ω : Type*} [MeasurableSpace Ω] {μ : Measure Ω}

/-- state index of the body field along axis `a` -/
def Spec.bodyField (a : Fin 3) : Fin N := ⟨19 + a.val, by have := a.isLt; unfold N; omega⟩

/-- derivative of the predicted field with respect to states other than attitude and earth field -/
theorem mag_row_body {a : Fin 3} {s H : Vec ℝ} (h : Spec.IsGradient (Spec.magPred a) s H) (l : Fin N) (hl : 4 ≤ l.val)
    (hl' : l.val < 16 ∨ 19 ≤ l.val) : H l = Spec.pick (Spec.bodyField a) l := by
  have h1 := h (Spec.pick l)
  have h2 : ∑ j, H j * Spec.pick l j = H l := by unfold Spec.pick; simp
  rw [h2] at h1
  have hne : ∀ j : Fin N, (j.val < 4 ∨ (16 ≤ j.val ∧ j.val < 19)) → Spec.pick l j = 0 := by
    intro j hj; unfold Spec.pick; rw [if_neg]; rintro rfl; omega
  have hp : ∀ t : ℝ, Spec.magPred a (fun j => s j + t * Spec.pick l j) = Spec.magPred a s + t * Spec.pick (Spec.bodyField a) l := by
    intro t
    have hb : ∀ b : Fin 3, Spec.pick l (Spec.bodyField b) = Spec.pick (Spec.bodyField b) l := by
      intro b; unfold Spec.pick; simp only [eq_comm]
    have h19 : Spec.pick l 19 = Spec.pick (Spec.bodyField 0) l := hb 0
    have h20 : Spec.pick l 20 = Spec.pick (Spec.bodyField 1) l := hb 1
    have h21 : Spec.pick l 21 = Spec.pick (Spec.bodyField 2) l := hb 2
    have ha : a = 0 ∨ a = 1 ∨ a = 2 := by omega
    have e0 := hne 0 (by decide)
    have e1 := hne 1 (by decide)
    have e2 := hne 2 (by decide)
    have e3 := hne 3 (by decide)
    have e4 := hne 16 (by decide)
    have e5 := hne 17 (by decide)
    have e6 := hne 18 (by decide)
    rcases ha with rfl | rfl | rfl
    · simp only [magPred_0, e0, e1, e2, e3, e4, e5, e6, h19, mul_zero, add_zero]; ring
    · simp only [magPred_1, e0, e1, e2, e3, e4, e5, e6, h20, mul_zero, add_zero]; ring
    · simp only [magPred_2, e0, e1, e2, e3, e4, e5, e6, h21, mul_zero, add_zero]; ring
  have h3 : HasDerivAt (fun t : ℝ => Spec.magPred a (fun j => s j + t * Spec.pick l j)) (Spec.pick (Spec.bodyField a) l) 0 := by
    have : (fun t : ℝ => Spec.magPred a (fun j => s j + t * Spec.pick l j)) = fun t => Spec.magPred a s + t * Spec.pick (Spec.bodyField a) l :=
      funext hp
    rw [this]
    have := ((hasDerivAt_id (0 : ℝ)).mul_const (Spec.pick (Spec.bodyField a) l)).const_add (Spec.magPred a s)
    simpa using this
  exact h1.unique h3

/-- rows and columns of attitude and earth field are zero -/
def KnownAtt (P : Mat ℝ) : Prop := ∀ i l : Fin N, (l.val < 4 ∨ (16 ≤ l.val ∧ l.val < 19)) → P i l = 0

theorem known_mulVec {P : Mat ℝ} (hk : KnownAtt P) {a : Fin 3} {s H : Vec ℝ} (h : Spec.IsGradient (Spec.magPred a) s H) (i : Fin N) :
    Spec.mulVec P H i = P i (Spec.bodyField a) := by
  have : ∀ l, P i l * H l = P i l * Spec.pick (Spec.bodyField a) l := by
    intro l
    by_cases hl : l.val < 4 ∨ (16 ≤ l.val ∧ l.val < 19)
    · rw [hk i l hl]; ring
    · rw [mag_row_body h l (by omega) (by omega)]
  unfold Spec.mulVec
  rw [Finset.sum_congr rfl fun l _ => this l]
  unfold Spec.pick; simp

theorem known_innovVar {P : Mat ℝ} (hP : Spec.PSD P) (hk : KnownAtt P) {a : Fin 3} {s H : Vec ℝ}
    (h : Spec.IsGradient (Spec.magPred a) s H) (R : ℝ) :
    Spec.innovVar P H R = P (Spec.bodyField a) (Spec.bodyField a) + R := by
  unfold Spec.innovVar
  congr 1
  have hf : Spec.form P H H = ∑ l, H l * Spec.mulVec P H l := by
    unfold Spec.form Spec.mulVec
    exact Finset.sum_congr rfl fun l _ => by
      rw [Finset.mul_sum]; exact Finset.sum_congr rfl fun m _ => by ring
  rw [hf]
  simp only [known_mulVec hk h]
  have : ∀ l, H l * P l (Spec.bodyField a) = Spec.pick (Spec.bodyField a) l * P l (Spec.bodyField a) := by
    intro l
    by_cases hl : l.val < 4 ∨ (16 ≤ l.val ∧ l.val < 19)
    · rw [hP.symm, hk _ l hl]; ring
    · rw [mag_row_body h l (by omega) (by omega)]
  rw [Finset.sum_congr rfl fun l _ => this l]
  unfold Spec.pick; simp

theorem known_afterRow {P : Mat ℝ} (hP : Spec.PSD P) (hk : KnownAtt P) {a : Fin 3} {s H : Vec ℝ}
    (h : Spec.IsGradient (Spec.magPred a) s H) (R : ℝ) (sel : Fin N → Prop) [DecidablePred sel] (hsel : ∀ i, sel i) :
    Spec.afterRow P H R sel = Spec.afterDirect P (Spec.bodyField a) (P (Spec.bodyField a) (Spec.bodyField a) + R) := by
  funext i j
  unfold Spec.afterRow Spec.afterDirect
  rw [if_pos (hsel i), if_pos (hsel j), known_mulVec hk h, known_mulVec hk h, known_innovVar hP hk h, hP.symm (Spec.bodyField a) j]
  ring

/-- one accepted magnetometer axis when attitude and earth field have no uncertainty, all states selected and no limit acting -/
theorem known_axis {x : MagIn} {v : ℝ} {a : Fin 3} {st st' : MagSt} {go : Bool} (h : Spec.MagAxis x v a st st' go) (hn : 0 < x.noise)
    (hall : 5000000 < (x.imuTime - x.alignStart).toNat) (hP : Spec.PSD st.f.P) (hk : KnownAtt st.f.P)
    (hq : Spec.Quiet x.fx (Spec.afterDirect st.f.P (Spec.bodyField a) (st.f.P (Spec.bodyField a) (Spec.bodyField a) + x.noise ^ 2))) :
    go = true ∧ st'.f.P = Spec.afterDirect st.f.P (Spec.bodyField a) (st.f.P (Spec.bodyField a) (Spec.bodyField a) + x.noise ^ 2) ∧
    ∀ i : Fin N, 4 ≤ i.val → i.val ≠ 16 → i.val ≠ 17 → st'.f.s i =
      st.f.s i - st.f.P i (Spec.bodyField a) / (st.f.P (Spec.bodyField a) (Spec.bodyField a) + x.noise ^ 2) * v := by
  obtain ⟨H, hH, -, h2⟩ := h
  have hmax : max x.noise 0 = x.noise := max_eq_left hn.le
  rw [hmax] at h2
  have hR : 0 < x.noise ^ 2 := by positivity
  have hsel : ∀ i, Spec.magSel x i := fun i => Or.inl hall
  have hS := innovVar_ge hP H (x.noise ^ 2)
  obtain ⟨h3, h4⟩ := h2 hS
  have hu := update_quiet x.fx H (x.noise ^ 2) hR (Spec.magSel x) v st.f hP
    (by rw [known_afterRow hP hk hH _ _ hsel]; exact hq)
  rw [known_afterRow hP hk hH _ _ hsel] at hu
  have hlim : ∀ (t : Vec ℝ) (i : Fin N), i.val ≠ 16 → i.val ≠ 17 → limitDeclination x.decl t i = t i := by
    intro t i h1 h2
    have hset : ∀ (t : Vec ℝ) (n e : ℝ), setMagNE t n e i = t i := by
      intro t n e; unfold setMagNE; rw [if_neg h1, if_neg h2]
    unfold limitDeclination
    simp only
    split_ifs <;> simp only [hset]
  refine ⟨h3, ?_, ?_⟩
  · rw [h4]; exact hu.2
  · intro i hi h16 h17
    rw [h4]
    show (if _ then limitDeclination _ _ else _) i = _
    have hl : (if (update x.fx (Spec.gain st.f.P H (x.noise ^ 2) (Spec.magSel x)) H v st.f).2 = true
        then limitDeclination x.decl (update x.fx (Spec.gain st.f.P H (x.noise ^ 2) (Spec.magSel x)) H v st.f).1.s
        else (update x.fx (Spec.gain st.f.P H (x.noise ^ 2) (Spec.magSel x)) H v st.f).1.s) i =
        (update x.fx (Spec.gain st.f.P H (x.noise ^ 2) (Spec.magSel x)) H v st.f).1.s i := by
      split
      · exact hlim _ i h16 h17
      · rfl
    rw [hl, hu.1, fuseState_lin hi]
    unfold Spec.gain
    rw [if_pos (hsel i), known_mulVec hk hH, known_innovVar hP hk hH]

/-- **C145 (magnetometer).** Attitude and earth field are known, the other errors have the reported covariance, the field along
the body X and Y axes is measured as predicted from the truth plus noise (Z synthesised), both pass the gate, all states are being
corrected and no limit acts.  After the fusion the error has the reported second moments **plus**
`P(X,Y)² / (S S'²) · P'(i,Y) P'(j,Y)`, with `P'` and `S'` the covariance and innovation variance after the X axis. -/
theorem mag_overconfident (x : MagIn) (hn : 0 < x.noise) (hz : x.synthZ = true)
    (hall : 5000000 < (x.imuTime - x.alignStart).toNat) (st : MagSt) (s truth : Ω → Vec ℝ) (noise : Ω → Fin 2 → ℝ)
    (hens : Spec.Ensemble μ st.f.P (fun ω i => s ω i - truth ω i) noise (fun _ => x.noise ^ 2))
    (hknown : ∀ ω (i : Fin N), (i.val < 4 ∨ (16 ≤ i.val ∧ i.val < 19)) → s ω i = truth ω i) :
    let R := x.noise ^ 2
    let S := st.f.P 19 19 + R
    let P1 := Spec.afterDirect st.f.P 19 S
    let S' := P1 20 20 + R
    let fin : Ω → Filt := fun ω => (fuseMag
      { x with mag := ![Spec.magPred 0 (truth ω) + noise ω 0, Spec.magPred 1 (truth ω) + noise ω 1, 0] }
      { st with f := { st.f with s := s ω } }).f
    (∀ ω, (s ω 19 - truth ω 19 - noise ω 0) ^ 2 ≤ (max x.gate 1) ^ 2 * S ∧
      (s ω 20 - truth ω 20 - noise ω 1) ^ 2 ≤ (max x.gate 1) ^ 2 * (st.f.P 20 20 + R)) →
    Spec.Quiet x.fx P1 → Spec.Quiet x.fx (Spec.afterDirect P1 20 S') →
    ∃ P', (∀ ω, (fin ω).P = P') ∧ P' = Spec.afterDirect P1 20 S' ∧
      ∀ i j : Fin N, 4 ≤ i.val → i.val ≠ 16 → i.val ≠ 17 → 4 ≤ j.val → j.val ≠ 16 → j.val ≠ 17 →
        ∫ ω, ((fin ω).s i - truth ω i) * ((fin ω).s j - truth ω j) ∂μ =
          P' i j + st.f.P 19 20 ^ 2 / (S * S' ^ 2) * (P1 i 20 * P1 j 20) := by
  intro R S P1 S' fin hgate hq1 hq2
  have hP := hens.psd
  have hR : 0 < R := by show 0 < x.noise ^ 2; positivity
  have hk : KnownAtt st.f.P := by
    intro i l hl
    rw [← hens.cov i l]
    have : (fun ω => (s ω i - truth ω i) * (s ω l - truth ω l)) = fun _ => 0 := by
      funext ω; rw [hknown ω l hl]; ring
    rw [this]; simp
  have hS : 0 < S := by have := diag_nonneg hP 19; show 0 < st.f.P 19 19 + R; linarith
  have b0 : Spec.bodyField 0 = 19 := rfl
  have b1 : Spec.bodyField 1 = 20 := rfl
  have hP1 : Spec.PSD P1 := by
    have := (kalman_update_valid hP (Spec.pick 19) hR).2.1
    have f1 : ∀ l, Spec.mulVec st.f.P (Spec.pick 19) l = st.f.P l 19 := by intro l; unfold Spec.mulVec Spec.pick; simp
    have f2 : Spec.innovVar st.f.P (Spec.pick 19) R = S := by
      show _ = st.f.P 19 19 + R; unfold Spec.innovVar Spec.form Spec.pick; simp
    simp only [f1, f2] at this
    have e : P1 = fun i j => st.f.P i j - st.f.P i 19 / S * st.f.P j 19 := by
      funext i j; show st.f.P i j - st.f.P i 19 * st.f.P 19 j / S = _; rw [hP.symm 19 j]; ring
    rw [e]; exact this
  have hk1 : KnownAtt P1 := by
    intro i l hl
    show st.f.P i l - st.f.P i 19 * st.f.P 19 l / S = 0
    rw [hk i l hl, hk 19 l hl]; ring
  have hS' : 0 < S' := by have := diag_nonneg hP1 20; show 0 < P1 20 20 + R; linarith
  have hmax : max x.noise 0 = x.noise := max_eq_left hn.le
  have hpred : ∀ ω (a : Fin 3), Spec.magPred a (s ω) = Spec.magPred a (truth ω) + (s ω (Spec.bodyField a) - truth ω (Spec.bodyField a)) := by
    intro ω a
    have e0 := hknown ω 0 (by decide)
    have e1 := hknown ω 1 (by decide)
    have e2 := hknown ω 2 (by decide)
    have e3 := hknown ω 3 (by decide)
    have e4 := hknown ω 16 (by decide)
    have e5 := hknown ω 17 (by decide)
    have e6 := hknown ω 18 (by decide)
    have b2 : Spec.bodyField 2 = 21 := rfl
    have ha : a = 0 ∨ a = 1 ∨ a = 2 := by omega
    rcases ha with rfl | rfl | rfl
    · simp only [magPred_0, e0, e1, e2, e3, e4, e5, e6, b0]; ring
    · simp only [magPred_1, e0, e1, e2, e3, e4, e5, e6, b1]; ring
    · simp only [magPred_2, e0, e1, e2, e3, e4, e5, e6, b2]; ring
  have hfin : ∀ ω, (fin ω).P = Spec.afterDirect P1 20 S' ∧ ∀ i : Fin N, 4 ≤ i.val → i.val ≠ 16 → i.val ≠ 17 → (fin ω).s i =
      s ω i - st.f.P i 19 / S * (s ω 19 - truth ω 19 - noise ω 0) - P1 i 20 / S' * (s ω 20 - truth ω 20 - noise ω 1) := by
    intro ω
    obtain ⟨xw, hxw⟩ : ∃ xw : MagIn, { x with mag := ![Spec.magPred 0 (truth ω) + noise ω 0, Spec.magPred 1 (truth ω) + noise ω 1, 0] } = xw :=
      ⟨_, rfl⟩
    obtain ⟨sw, hsw⟩ : ∃ sw : MagSt, { st with f := { st.f with s := s ω } } = sw := ⟨_, rfl⟩
    have hfe : fin ω = (fuseMag xw sw).f := by rw [← hxw, ← hsw]
    have x1 : xw.noise = x.noise := by rw [← hxw]
    have x2 : xw.synthZ = true := by rw [← hxw]; exact hz
    have x3 : 5000000 < (xw.imuTime - xw.alignStart).toNat := by rw [← hxw]; exact hall
    have x4 : xw.fx = x.fx := by rw [← hxw]
    have x5 : xw.gate = x.gate := by rw [← hxw]
    have s1 : sw.f.P = st.f.P := by rw [← hsw]
    have s2 : sw.f.s = s ω := by rw [← hsw]
    have i0 : Spec.magInnov xw (s ω) 0 = s ω 19 - truth ω 19 - noise ω 0 := by
      unfold Spec.magInnov
      rw [if_neg (by simp), hpred ω 0, ← hxw]
      show _ + _ - (Spec.magPred 0 (truth ω) + noise ω 0) = _
      rw [b0]; ring
    have i1 : Spec.magInnov xw (s ω) 1 = s ω 20 - truth ω 20 - noise ω 1 := by
      unfold Spec.magInnov
      rw [if_neg (by simp), hpred ω 1, ← hxw]
      show _ + _ - (Spec.magPred 1 (truth ω) + noise ω 1) = _
      rw [b1]; ring
    have i2 : Spec.magInnov xw (s ω) 2 = 0 := by
      unfold Spec.magInnov; rw [if_pos ⟨rfl, x2⟩]
    obtain ⟨H, hH, -, -, -, h4⟩ := mag_fusion xw sw (by rw [s1]; exact hP.symm) (by rw [x1]; exact hn)
    rw [x1, hmax] at h4
    simp only [s1, s2] at h4
    rw [s2] at hH
    have hiv : ∀ a, Spec.innovVar st.f.P (H a) (x.noise ^ 2) = st.f.P (Spec.bodyField a) (Spec.bodyField a) + x.noise ^ 2 :=
      fun a => known_innovVar hP hk (hH a) _
    obtain ⟨rej, -, -, h5⟩ := h4 (fun a => innovVar_ge hP (H a) _)
    obtain ⟨st2, go2, m2, -, t2⟩ := h5 (by
      intro a
      rw [hiv, x5, not_lt]
      have ha : a = 0 ∨ a = 1 ∨ a = 2 := by omega
      rcases ha with rfl | rfl | rfl
      · rw [i0]; exact (hgate ω).1
      · rw [i1]; exact (hgate ω).2
      · rw [i2]
        have := diag_nonneg hP (Spec.bodyField 2)
        have : 0 < x.noise ^ 2 := hR
        have : 0 ≤ (max x.gate 1) ^ 2 * (st.f.P (Spec.bodyField 2) (Spec.bodyField 2) + x.noise ^ 2) := by positivity
        simpa using this)
    obtain ⟨g2, p2, k2⟩ := known_axis m2 (by rw [x1]; exact hn) x3 (by show Spec.PSD sw.f.P; rw [s1]; exact hP)
      (by show KnownAtt sw.f.P; rw [s1]; exact hk) (by
        show Spec.Quiet xw.fx (Spec.afterDirect sw.f.P _ (sw.f.P _ _ + xw.noise ^ 2)); rw [s1, x4, x1]; exact hq1)
    have p2' : st2.f.P = P1 := by
      rw [p2]
      show Spec.afterDirect sw.f.P (Spec.bodyField 0) (sw.f.P (Spec.bodyField 0) (Spec.bodyField 0) + xw.noise ^ 2) = P1
      rw [s1, x1]; rfl
    obtain ⟨st3, go3, m3, f3, -⟩ := t2 g2
    obtain ⟨g3, p3, k3⟩ := known_axis m3 (by rw [x1]; exact hn) x3 (by rw [p2']; exact hP1)
      (by rw [p2']; exact hk1) (by rw [p2', x4, x1]; exact hq2)
    rw [hfe, f3 (Or.inr x2)]
    refine ⟨by rw [p3, p2', x1]; rfl, fun i hi h16 h17 => ?_⟩
    rw [k3 i hi h16 h17, k2 i hi h16 h17, p2', i0, i1]
    show sw.f.s i - sw.f.P i (Spec.bodyField 0) / (sw.f.P (Spec.bodyField 0) (Spec.bodyField 0) + xw.noise ^ 2) * _
      - P1 i (Spec.bodyField 1) / (P1 (Spec.bodyField 1) (Spec.bodyField 1) + xw.noise ^ 2) * _ = _
    rw [s1, s2, x1]; rfl
  refine ⟨_, fun ω => (hfin ω).1, rfl, fun i j hi i16 i17 hj j16 j17 => ?_⟩
  have hm := corrected_moments hens (![Spec.pick 19, Spec.pick 20]) (![fun l => st.f.P l 19 / S, fun l => P1 l 20 / S']) i j
  have hpk : ∀ (m : Fin N) (ω : Ω), ∑ l, Spec.pick m l * (s ω l - truth ω l) = s ω m - truth ω m := by
    intro m ω; unfold Spec.pick; simp
  have he : ∀ (i : Fin N), 4 ≤ i.val → i.val ≠ 16 → i.val ≠ 17 → ∀ ω, (fin ω).s i - truth ω i = (s ω i - truth ω i) - ∑ a : Fin 2,
      (![fun l => st.f.P l 19 / S, fun l => P1 l 20 / S'] : Fin 2 → Vec ℝ) a i
        * ((∑ l, (![Spec.pick 19, Spec.pick 20] : Fin 2 → Vec ℝ) a l * (s ω l - truth ω l)) - noise ω a) := by
    intro i hi h16 h17 ω
    rw [(hfin ω).2 i hi h16 h17, Fin.sum_univ_two]
    simp only [Matrix.cons_val_zero, Matrix.cons_val_one, hpk]
    ring
  simp only [he i hi i16 i17, he j hj j16 j17]
  rw [hm]
  have f1 : ∀ m l, Spec.mulVec st.f.P (Spec.pick m) l = st.f.P l m := by intro m l; unfold Spec.mulVec Spec.pick; simp
  have f2 : ∀ m n, Spec.form st.f.P (Spec.pick m) (Spec.pick n) = st.f.P m n := by intro m n; unfold Spec.form Spec.pick; simp
  simp only [Fin.sum_univ_two, Matrix.cons_val_zero, Matrix.cons_val_one, f1, f2, if_true, zero_ne_one, one_ne_zero,
    if_false, add_zero]
  have eP1 : ∀ i j, P1 i j = st.f.P i j - st.f.P i 19 * st.f.P 19 j / S := fun i j => rfl
  have e19 : st.f.P 19 19 + x.noise ^ 2 = S := rfl
  have e20 : st.f.P 20 20 + x.noise ^ 2 = S' + st.f.P 20 19 * st.f.P 19 20 / S := by
    show _ = P1 20 20 + x.noise ^ 2 + _
    rw [eP1]; ring
  show _ = P1 i j - P1 i 20 * P1 20 j / S' + _
  rw [e19, e20, hP1.symm 20 j]
  have ei : st.f.P i 20 = P1 i 20 + st.f.P i 19 * st.f.P 19 20 / S := by rw [eP1]; ring
  have ej : st.f.P j 20 = P1 j 20 + st.f.P j 19 * st.f.P 19 20 / S := by rw [eP1]; ring
  have eij : P1 i j = st.f.P i j - st.f.P i 19 * st.f.P j 19 / S := by rw [eP1, hP.symm 19 j]
  rw [ei, ej, eij, hP.symm 20 19]
  generalize P1 i 20 = A
  generalize P1 j 20 = B
  generalize S' = T at *
  generalize S = U at *
  have := hS.ne'
  have := hS'.ne'
  field_simp
  ring

end Ecl.Fusion
