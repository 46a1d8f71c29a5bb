import Verif.Fusion.GenDecl
import Verif.Fusion.Airspeed
import Mathlib.Analysis.Real.Pi.Bounds

/-!
# Declination fusion and limiting (C34) — EKF/mag_fusion.cpp:830-946, EKF/ekf_helper.cpp:527-548
-/

set_option linter.unusedVariables false

namespace Ecl.Fusion

open Ecl.Cov

noncomputable section

/-- values returned by the geo library for the last valid GPS position (radians, radians, gauss) -/
structure GeoMag where
  decl : ℝ
  incl : ℝ
  strength : ℝ

/-- data read by `getMagDeclination` and `limitDeclination` -/
structure DeclIn where
  /-- `_control_status.flags.mag_aligned_in_flight` -/
  alignedInFlight : Bool
  /-- `_params.mag_declination_source & MASK_USE_GEO_DECL` -/
  useGeo : Bool
  /-- `_mag_declination_gps`, `_mag_inclination_gps`, `_mag_strength_gps`; `none` while not finite.  They are set, together, before
  or when `_NED_origin_initialised` becomes true (EKF/gps_checks.cpp:87-92,122-131), so the code's test
  `_NED_origin_initialised || ISFINITE(_mag_declination_gps)` is "is some". -/
  geo : Option GeoMag
  /-- `math::radians(_params.mag_declination_deg)` -/
  param : ℝ

/-- `getMagDeclination`, EKF/ekf_helper.cpp:527-548 -/
def getMagDeclination (x : DeclIn) (s : Vec ℝ) : ℝ :=
  if x.alignedInFlight then atan2 (s 17) (s 16)
  else if x.useGeo then
    match x.geo with
    | some g => g.decl
    | none => x.param
  else x.param

/-- `decl_reference` and `h_field_min` of `limitDeclination`, EKF/mag_fusion.cpp:900-915 -/
def declRefMin (x : DeclIn) : ℝ × ℝ :=
  if x.useGeo then
    match x.geo with
    | some g => (g.decl, max (1 / 1000) (1 / 2 * g.strength * Real.cos g.incl))
    | none => (x.param, 1 / 1000)
  else (x.param, 1 / 1000)

/-- assignment of the horizontal earth field states -/
def setMagNE (s : Vec ℝ) (n e : ℝ) : Vec ℝ := fun i => if i.val = 16 then n else if i.val = 17 then e else s i

/-- `limitDeclination`, EKF/mag_fusion.cpp:896-946 -/
def limitDeclination (x : DeclIn) (s : Vec ℝ) : Vec ℝ :=
  let ref := (declRefMin x).1
  let hmin := (declRefMin x).2
  let h := Real.sqrt (s 16 * s 16 + s 17 * s 17)
  let r : Vec ℝ × ℝ :=
    if h < hmin then
      let s :=
        if h > 1 / 1000 * hmin then
          let sc := hmin / h
          setMagNE s (s 16 * sc) (s 17 * sc)
        else
          let d := getMagDeclination x s
          setMagNE s (2 * hmin * Real.cos d) (2 * hmin * Real.sin d)
      (s, hmin)
    else (s, h)
  let s := r.1
  let h := r.2
  let dmax := ref + 1 / 2
  let dmin := ref - 1 / 2
  let est := atan2 (s 17) (s 16)
  if est > dmax then setMagNE s (h * Real.cos dmax) (h * Real.sin dmax)
  else if est < dmin then setMagNE s (h * Real.cos dmin) (h * Real.sin dmin)
  else s

/-- state of `fuseDeclination` -/
structure DeclSt where
  f : Filt
  /-- `_fault_status.flags.bad_mag_decl` -/
  bad : Bool

/-- `fuseDeclination`, EKF/mag_fusion.cpp:830-894 -/
def fuseDeclination (x : DeclIn) (fx : FixIn ℝ) (sigma : ℝ) (st : DeclSt) : DeclSt :=
  let s := st.f.s
  let P := st.f.P
  let R := sq sigma
  if |s 16| < sq (1 / 1000) then st
  else
    let S := Decl.S P s R 0 0
    if S > R then
      let H := sparse (Decl.hList P s R 0 0)
      let k := Decl.gain P s R 0 0
      let innov := constrain (atan2 (s 17) (s 16) - getMagDeclination x s) (-(1 / 2)) (1 / 2)
      let r := update fx k H innov st.f
      let st := { f := r.1, bad := !r.2 }
      if r.2 then { st with f := { st.f with s := limitDeclination x st.f.s } } else st
    else st

/-! ### specification -/

/-- horizontal strength and declination of the earth field estimate -/
def Spec.horizField (s : Vec ℝ) : ℝ := Real.sqrt (s 16 ^ 2 + s 17 ^ 2)
def Spec.declOf (s : Vec ℝ) : ℝ := atan2 (s 17) (s 16)

/-- reference declination: the geo library's when selected and known, else the parameter -/
def Spec.declRef (x : DeclIn) : ℝ :=
  match x.useGeo, x.geo with
  | true, some g => g.decl
  | _, _ => x.param

/-- least plausible horizontal field: half the geo library's horizontal component, at least 0.001 -/
def Spec.hMin (x : DeclIn) : ℝ :=
  match x.useGeo, x.geo with
  | true, some g => max (1 / 1000) (g.strength * Real.cos g.incl / 2)
  | _, _ => 1 / 1000

end

theorem declRefMin_eq (x : DeclIn) : declRefMin x = (Spec.declRef x, Spec.hMin x) := by
  unfold declRefMin Spec.declRef Spec.hMin
  cases x.useGeo
  · rfl
  · cases x.geo with
    | none => rfl
    | some g =>
      simp only [if_true]
      congr 2
      ring

theorem hMin_pos (x : DeclIn) : 1 / 1000 ≤ Spec.hMin x := by
  unfold Spec.hMin
  split
  · exact le_max_left _ _
  · exact le_refl _

/-- the declination in use: the field estimate's own once aligned in flight, else the reference -/
theorem magDeclination_spec (x : DeclIn) (s : Vec ℝ) :
    getMagDeclination x s = if x.alignedInFlight then Spec.declOf s else Spec.declRef x := by
  unfold getMagDeclination Spec.declRef Spec.declOf
  cases x.alignedInFlight
  · cases x.useGeo
    · rfl
    · cases x.geo <;> rfl
  · rfl

theorem setMagNE_16 (s : Vec ℝ) (n e : ℝ) : setMagNE s n e 16 = n := by
  unfold setMagNE; rw [if_pos (by decide)]

theorem setMagNE_17 (s : Vec ℝ) (n e : ℝ) : setMagNE s n e 17 = e := by
  unfold setMagNE; rw [if_neg (by decide), if_pos (by decide)]

theorem setMagNE_other (s : Vec ℝ) (n e : ℝ) (i : Fin N) (h : i.val ≠ 16 ∧ i.val ≠ 17) : setMagNE s n e i = s i := by
  unfold setMagNE; rw [if_neg h.1, if_neg h.2]

theorem horiz_polar (s : Vec ℝ) {h : ℝ} (t : ℝ) (hh : 0 ≤ h) : Spec.horizField (setMagNE s (h * Real.cos t) (h * Real.sin t)) = h := by
  unfold Spec.horizField
  rw [setMagNE_16, setMagNE_17]
  rw [show (h * Real.cos t) ^ 2 + (h * Real.sin t) ^ 2 = h ^ 2 * (Real.cos t ^ 2 + Real.sin t ^ 2) by ring, Real.cos_sq_add_sin_sq, mul_one,
    Real.sqrt_sq hh]

/-- first stage of `limitDeclination`: the field before the declination is clamped -/
theorem limit_stage1 (x : DeclIn) (s : Vec ℝ) :
    ∃ s1 : Vec ℝ, ∃ h : ℝ, limitDeclination x s =
      (if Spec.declOf s1 > Spec.declRef x + 1 / 2 then
        setMagNE s1 (h * Real.cos (Spec.declRef x + 1 / 2)) (h * Real.sin (Spec.declRef x + 1 / 2))
      else if Spec.declOf s1 < Spec.declRef x - 1 / 2 then
        setMagNE s1 (h * Real.cos (Spec.declRef x - 1 / 2)) (h * Real.sin (Spec.declRef x - 1 / 2))
      else s1) ∧
      (∀ i : Fin N, i.val ≠ 16 ∧ i.val ≠ 17 → s1 i = s i) ∧
      h = max (Spec.horizField s) (Spec.hMin x) ∧
      (Spec.hMin x ≤ Spec.horizField s → s1 = s) ∧
      (Spec.hMin x / 1000 < Spec.horizField s → Spec.horizField s1 = h ∧ Spec.declOf s1 = Spec.declOf s) ∧
      (Spec.horizField s ≤ Spec.hMin x / 1000 → Spec.horizField s1 = 2 * h ∧
        s1 = setMagNE s (2 * h * Real.cos (getMagDeclination x s)) (2 * h * Real.sin (getMagDeclination x s))) := by
  have hh : Real.sqrt (s 16 * s 16 + s 17 * s 17) = Spec.horizField s := by
    unfold Spec.horizField; rw [pow_two, pow_two]
  have hp := hMin_pos x
  have h0 : 0 < Spec.hMin x := by linarith
  unfold limitDeclination
  simp only [declRefMin_eq, hh]
  by_cases c1 : Spec.horizField s < Spec.hMin x
  · have hm : max (Spec.horizField s) (Spec.hMin x) = Spec.hMin x := max_eq_right c1.le
    by_cases c2 : Spec.horizField s > 1 / 1000 * Spec.hMin x
    · rw [if_pos c1, if_pos c2]
      refine ⟨_, _, rfl, fun i hi => setMagNE_other _ _ _ i hi, hm.symm, fun h => absurd h (not_le.mpr c1), ?_,
        fun h => absurd h (by linarith)⟩
      intro _
      have hpos : 0 < Spec.horizField s := by nlinarith
      have hsq : s 16 ^ 2 + s 17 ^ 2 = Spec.horizField s ^ 2 := by
        unfold Spec.horizField; rw [Real.sq_sqrt (by positivity)]
      constructor
      · show Real.sqrt (setMagNE s (s 16 * (Spec.hMin x / Spec.horizField s)) (s 17 * (Spec.hMin x / Spec.horizField s)) 16 ^ 2
          + setMagNE s (s 16 * (Spec.hMin x / Spec.horizField s)) (s 17 * (Spec.hMin x / Spec.horizField s)) 17 ^ 2) = Spec.hMin x
        rw [setMagNE_16, setMagNE_17]
        have : (s 16 * (Spec.hMin x / Spec.horizField s)) ^ 2 + (s 17 * (Spec.hMin x / Spec.horizField s)) ^ 2 = Spec.hMin x ^ 2 := by
          rw [show (s 16 * (Spec.hMin x / Spec.horizField s)) ^ 2 + (s 17 * (Spec.hMin x / Spec.horizField s)) ^ 2
            = (s 16 ^ 2 + s 17 ^ 2) * (Spec.hMin x / Spec.horizField s) ^ 2 by ring, hsq, div_pow]
          field_simp
        rw [this, Real.sqrt_sq h0.le]
      · unfold Spec.declOf atan2
        simp only
        rw [setMagNE_16, setMagNE_17]
        have e : (⟨s 16 * (Spec.hMin x / Spec.horizField s), s 17 * (Spec.hMin x / Spec.horizField s)⟩ : ℂ)
            = ((Spec.hMin x / Spec.horizField s : ℝ) : ℂ) * ⟨s 16, s 17⟩ := by
          apply Complex.ext <;> simp <;> ring
        rw [e, Complex.arg_real_mul _ (div_pos h0 hpos)]
    · rw [if_pos c1, if_neg c2]
      refine ⟨_, _, rfl, fun i hi => setMagNE_other _ _ _ i hi, hm.symm, fun h => absurd h (not_le.mpr c1),
        fun h => absurd h (by linarith), ?_⟩
      intro _
      exact ⟨horiz_polar s _ (by linarith), rfl⟩
  · rw [if_neg c1]
    have c1' := not_lt.mp c1
    refine ⟨s, Spec.horizField s, rfl, fun i _ => rfl, (max_eq_left c1').symm, fun _ => rfl,
      fun _ => ⟨rfl, rfl⟩, fun h => absurd h (by linarith)⟩

/-- **C34 (limiting).** After limiting, the horizontal earth field is at least the minimum; if the allowed declination interval
lies inside the principal range, the declination is within 0.5 rad of the reference; a field that already satisfies both is left
alone; the strength of a field above the minimum is kept, and a weak (not collapsed) field is set to the minimum, its
declination moved only as far as needed; no other state changes. -/
theorem limitDeclination_spec (x : DeclIn) (s : Vec ℝ) :
    let s' := limitDeclination x s
    let ref := Spec.declRef x
    (∀ i : Fin N, i.val ≠ 16 ∧ i.val ≠ 17 → s' i = s i) ∧
    Spec.hMin x ≤ Spec.horizField s' ∧
    (Spec.hMin x ≤ Spec.horizField s → ref - 1 / 2 ≤ Spec.declOf s → Spec.declOf s ≤ ref + 1 / 2 → s' = s) ∧
    (Spec.hMin x / 1000 < Spec.horizField s → Spec.horizField s' = max (Spec.horizField s) (Spec.hMin x)) ∧
    (-Real.pi < ref - 1 / 2 → ref + 1 / 2 ≤ Real.pi →
      (ref - 1 / 2 ≤ Spec.declOf s' ∧ Spec.declOf s' ≤ ref + 1 / 2) ∧
      (Spec.hMin x / 1000 < Spec.horizField s → Spec.declOf s' = max (ref - 1 / 2) (min (Spec.declOf s) (ref + 1 / 2)))) := by
  intro s' ref
  have h0 : 0 < Spec.hMin x := by have := hMin_pos x; linarith
  obtain ⟨s1, h, e, h1, h2, h3, h4, h5⟩ := limit_stage1 x s
  have hpos : 0 < h := by rw [h2]; exact lt_of_lt_of_le h0 (le_max_right _ _)
  have hge : Spec.hMin x ≤ h := by rw [h2]; exact le_max_right _ _
  have e' : s' = _ := e
  have hs1 : h ≤ Spec.horizField s1 := by
    rcases lt_or_ge (Spec.hMin x / 1000) (Spec.horizField s) with hc | hc
    · rw [(h4 hc).1]
    · rw [(h5 hc).1]; linarith
  rw [e']
  refine ⟨?_, ?_, ?_, ?_, ?_⟩
  · intro i hi
    split
    · rw [setMagNE_other _ _ _ i hi, h1 i hi]
    · split
      · rw [setMagNE_other _ _ _ i hi, h1 i hi]
      · exact h1 i hi
  · split
    · rw [horiz_polar _ _ hpos.le]; exact hge
    · split
      · rw [horiz_polar _ _ hpos.le]; exact hge
      · linarith
  · intro ha hb hc
    have := h3 ha
    subst this
    rw [if_neg (not_lt.mpr hc), if_neg (not_lt.mpr hb)]
  · intro ha
    rw [← h2]
    split
    · exact horiz_polar _ _ hpos.le
    · split
      · exact horiz_polar _ _ hpos.le
      · exact (h4 ha).1
  · intro ha hb
    have pol : ∀ t, -Real.pi < t → t ≤ Real.pi → Spec.declOf (setMagNE s1 (h * Real.cos t) (h * Real.sin t)) = t := by
      intro t ht1 ht2
      unfold Spec.declOf
      rw [setMagNE_16, setMagNE_17]
      exact atan2_polar hpos ⟨ht1, ht2⟩
    constructor
    · split
      · rw [pol _ (by linarith) hb]; constructor <;> linarith
      · split
        · rw [pol _ ha (by linarith)]; constructor <;> linarith
        · rename_i c1 c2
          exact ⟨not_lt.mp c2, not_lt.mp c1⟩
    · intro hc
      have hd := (h4 hc).2
      rw [← hd]
      split
      · rename_i c1
        rw [pol _ (by linarith) hb, min_eq_right (le_of_lt c1), max_eq_right (by linarith)]
      · rename_i c1
        split
        · rename_i c2
          rw [pol _ ha (by linarith), min_eq_left (not_lt.mp c1), max_eq_left (le_of_lt c2)]
        · rename_i c2
          rw [min_eq_left (not_lt.mp c1), max_eq_right (not_lt.mp c2)]

/-- a reference of 10 degrees with geo data satisfies the interval hypotheses -/
example : let x : DeclIn := ⟨false, true, some ⟨1 / 6, 1, 1 / 2⟩, 0⟩;
    (-Real.pi < Spec.declRef x - 1 / 2) ∧ Spec.declRef x + 1 / 2 ≤ Real.pi := by
  show -Real.pi < 1 / 6 - 1 / 2 ∧ (1 / 6 : ℝ) + 1 / 2 ≤ Real.pi
  have := Real.pi_gt_three
  constructor <;> linarith

/-- **C34 (negative part).** The clamp works on the number, not on the angle: a field 0.4 rad from a reference of 180 degrees is
moved to the opposite side (0.5 rad the other way). -/
theorem limitDeclination_no_wrap : ∃ (x : DeclIn) (s : Vec ℝ), Spec.hMin x ≤ Spec.horizField s ∧
    (s 16 = Real.cos (Spec.declRef x + 2 / 5) ∧ s 17 = Real.sin (Spec.declRef x + 2 / 5)) ∧
    limitDeclination x s 16 = Real.cos (Spec.declRef x - 1 / 2) ∧ limitDeclination x s 17 = Real.sin (Spec.declRef x - 1 / 2) := by
  refine ⟨⟨false, false, none, Real.pi⟩, setMagNE (fun _ => 0) (Real.cos (Real.pi + 2 / 5)) (Real.sin (Real.pi + 2 / 5)), ?_, ?_, ?_⟩
  · show 1 / 1000 ≤ _
    have := horiz_polar (fun _ => 0) (h := 1) (Real.pi + 2 / 5) zero_le_one
    rw [one_mul, one_mul] at this
    rw [this]; norm_num
  · exact ⟨setMagNE_16 _ _ _, setMagNE_17 _ _ _⟩
  · have hp := Real.pi_gt_three
    have hh := horiz_polar (fun _ => 0) (h := 1) (Real.pi + 2 / 5) zero_le_one
    rw [one_mul, one_mul] at hh
    obtain ⟨s1, h, e, h1, h2, h3, h4, h5⟩ := limit_stage1 ⟨false, false, none, Real.pi⟩
      (setMagNE (fun _ => 0) (Real.cos (Real.pi + 2 / 5)) (Real.sin (Real.pi + 2 / 5)))
    have hm : Spec.hMin ⟨false, false, none, Real.pi⟩ = 1 / 1000 := rfl
    have hr : Spec.declRef ⟨false, false, none, Real.pi⟩ = Real.pi := rfl
    have hs1 := h3 (by rw [hh, hm]; norm_num)
    rw [hh, hm, max_eq_left (by norm_num)] at h2
    subst hs1
    subst h2
    have hd : Spec.declOf (setMagNE (fun _ => 0) (Real.cos (Real.pi + 2 / 5)) (Real.sin (Real.pi + 2 / 5))) = 2 / 5 - Real.pi := by
      unfold Spec.declOf
      rw [setMagNE_16, setMagNE_17]
      have e1 : Real.sin (Real.pi + 2 / 5) = 1 * Real.sin (2 / 5 - Real.pi) := by rw [Real.sin_sub_pi, add_comm, Real.sin_add_pi, one_mul]
      have e2 : Real.cos (Real.pi + 2 / 5) = 1 * Real.cos (2 / 5 - Real.pi) := by rw [Real.cos_sub_pi, add_comm, Real.cos_add_pi, one_mul]
      rw [e1, e2]
      exact atan2_polar zero_lt_one ⟨by linarith, by linarith⟩
    rw [e, hd, hr, if_neg (by linarith), if_pos (by linarith), one_mul, one_mul]
    exact ⟨setMagNE_16 _ _ _, setMagNE_17 _ _ _⟩

/-- the observation row is the gradient of the declination (off the branch cut) -/
theorem declination_gradient (s : Vec ℝ) (P : Mat ℝ) (R : ℝ) (h0 : s 16 ≠ 0) (h : 0 < s 16 ∨ s 17 ≠ 0) :
    Spec.IsGradient Spec.declOf s (sparse (Decl.hList P s R 0 0)) := by
  intro d
  rw [sum_sparse_mul]
  have hf : HasDerivAt (fun t : ℝ => s 16 + t * d 16) (d 16) 0 := hasDerivAt_of_cubic fun t => by ring
  have hg : HasDerivAt (fun t : ℝ => s 17 + t * d 17) (d 17) 0 := hasDerivAt_of_cubic fun t => by ring
  have := hasDerivAt_atan2 hf hg (by simpa using h)
  refine this.congr_deriv ?_
  simp only [Decl.hList, List.map_cons, List.map_nil, List.sum_cons, List.sum_nil, Decl.HK0, Decl.HK1, Decl.HK2, Decl.HK3, Decl.HK4]
  have hn : s 16 ^ 2 + s 17 ^ 2 ≠ 0 := by positivity
  have hn' : 1 / s 16 ^ 2 * s 17 ^ 2 + 1 ≠ 0 := by positivity
  have hn'' : s 17 ^ 2 + s 16 ^ 2 ≠ 0 := by positivity
  rw [zero_mul, zero_mul, add_zero, add_zero, add_zero]
  rw [div_eq_iff hn]
  have e : (1 : ℝ) / (1 / s 16 ^ 2 * s 17 ^ 2 + 1) = s 16 ^ 2 / (s 16 ^ 2 + s 17 ^ 2) := by
    rw [div_eq_div_iff hn' hn]; field_simp; ring
  rw [e]
  field_simp
  ring

/-- **C34 (fusion).** Declination fusion does nothing while the north field is below 1e-6 or the variance of the predicted
declination is not positive; otherwise the update is the Kalman update of all states with the gradient `H` of the declination,
`S = H P Hᵀ + σ²` and the innovation limited to ±0.5 rad; the fault flag tells whether it failed; after success the field is
limited. -/
theorem declination_fusion (x : DeclIn) (fx : FixIn ℝ) (sigma : ℝ) (st : DeclSt) (hs : ∀ i j, st.f.P i j = st.f.P j i)
    (hb : 0 < st.f.s 16 ∨ st.f.s 17 ≠ 0) :
    (|st.f.s 16| < 1 / 1000000 → fuseDeclination x fx sigma st = st) ∧
    (1 / 1000000 ≤ |st.f.s 16| → ∃ H : Vec ℝ, Spec.IsGradient Spec.declOf st.f.s H ∧
      (Spec.form st.f.P H H ≤ 0 → fuseDeclination x fx sigma st = st) ∧
      (0 < Spec.form st.f.P H H →
        let innov := max (-(1 / 2)) (min (Spec.declOf st.f.s - if x.alignedInFlight then Spec.declOf st.f.s else Spec.declRef x) (1 / 2))
        let r := update fx (Spec.gain st.f.P H (sigma ^ 2) (fun _ => True)) H innov st.f
        fuseDeclination x fx sigma st =
          ⟨{ r.1 with s := if r.2 then limitDeclination x r.1.s else r.1.s }, !r.2⟩)) := by
  have hg : sq (1 / 1000 : ℝ) = 1 / 1000000 := by unfold sq; norm_num
  have hsq : sq sigma = sigma ^ 2 := (pow_two sigma).symm
  unfold fuseDeclination
  simp only [hg, hsq]
  constructor
  · intro h; rw [if_pos h]
  · intro h
    have hn : st.f.s 16 ≠ 0 := by
      intro h0; rw [h0, abs_zero] at h; norm_num at h
    refine ⟨_, declination_gradient st.f.s st.f.P (sigma ^ 2) hn hb, ?_, ?_⟩
    · intro h1
      rw [if_neg (not_lt.mpr h), if_neg]
      rw [Decl.S_eq _ _ _ _ _ hs]; unfold Spec.innovVar; linarith
    · intro h1
      rw [if_neg (not_lt.mpr h), if_pos]
      · have hk : Decl.gain st.f.P st.f.s (sigma ^ 2) 0 0 = Spec.gain st.f.P (sparse (Decl.hList st.f.P st.f.s (sigma ^ 2) 0 0)) (sigma ^ 2) (fun _ => True) := by
          funext i; rw [Decl.gain_eq _ _ _ _ _ hs]; rfl
        rw [hk, constrain_eq (by norm_num), magDeclination_spec]
        rw [show atan2 (st.f.s 17) (st.f.s 16) = Spec.declOf st.f.s from rfl]
        generalize update fx _ _ _ st.f = r
        obtain ⟨r1, r2⟩ := r
        cases r2 <;> rfl
      · rw [Decl.S_eq _ _ _ _ _ hs]; unfold Spec.innovVar; linarith

/-- **C34 (aligned in flight).** Once the field has been aligned in flight the declination in use is the estimate's own: the
fusion then changes no state except through the limiter. -/
theorem declination_aligned (x : DeclIn) (fx : FixIn ℝ) (sigma : ℝ) (st : DeclSt) (ha : x.alignedInFlight = true)
    (hq : (attQuat st.f.s).normSq = 1) :
    (fuseDeclination x fx sigma st).f.s = st.f.s ∨ (fuseDeclination x fx sigma st).f.s = limitDeclination x st.f.s := by
  unfold fuseDeclination
  simp only
  have hi : constrain (atan2 (st.f.s 17) (st.f.s 16) - getMagDeclination x st.f.s) (-(1 / 2)) (1 / 2) = 0 := by
    rw [magDeclination_spec, if_pos ha, constrain_eq (by norm_num)]
    unfold Spec.declOf
    rw [sub_self]
    norm_num
  rw [hi]
  split
  · left; rfl
  · split
    · have hu : ∀ k h, (update fx k h 0 st.f).1.s = st.f.s := by
        intro k h
        rcases update_state fx k h 0 st.f with ⟨-, h1⟩ | ⟨-, h1⟩
        · rw [h1]
          funext i
          unfold fuseState
          simp only [mul_zero, sub_zero]
          have hn : st.f.s 0 ^ 2 + st.f.s 1 ^ 2 + st.f.s 2 ^ 2 + st.f.s 3 ^ 2 = 1 := by
            unfold attQuat Quat.normSq at hq
            simp only at hq
            rw [← hq]; ring
          rw [hn, Real.sqrt_one, div_one]
          split <;> rfl
        · exact h1
      split
      · right; simp only [hu]
      · left; simp only [hu]
    · left; rfl

/-- **C34 (negative part).** The innovation is not wrapped: with a declination of 180 degrees and an estimate only 0.4 rad away
the innovation is the full -0.5 rad, of the wrong sign. -/
theorem declination_innovation_no_wrap : ∃ (x : DeclIn) (s : Vec ℝ), x.alignedInFlight = false ∧
    (s 16 = Real.cos (Spec.declRef x + 2 / 5) ∧ s 17 = Real.sin (Spec.declRef x + 2 / 5)) ∧
    constrain (atan2 (s 17) (s 16) - getMagDeclination x s) (-(1 / 2)) (1 / 2) = -(1 / 2) := by
  refine ⟨⟨false, false, none, Real.pi⟩, setMagNE (fun _ => 0) (Real.cos (Real.pi + 2 / 5)) (Real.sin (Real.pi + 2 / 5)), rfl,
    ⟨setMagNE_16 _ _ _, setMagNE_17 _ _ _⟩, ?_⟩
  have hp := Real.pi_gt_three
  have e1 : Real.sin (Real.pi + 2 / 5) = 1 * Real.sin (2 / 5 - Real.pi) := by rw [Real.sin_sub_pi, add_comm, Real.sin_add_pi, one_mul]
  have e2 : Real.cos (Real.pi + 2 / 5) = 1 * Real.cos (2 / 5 - Real.pi) := by rw [Real.cos_sub_pi, add_comm, Real.cos_add_pi, one_mul]
  rw [setMagNE_16, setMagNE_17, e1, e2, atan2_polar zero_lt_one ⟨by linarith, by linarith⟩, constrain_eq (by norm_num)]
  change max _ (min (2 / 5 - Real.pi - Real.pi) (1 / 2)) = _
  rw [min_eq_left (by linarith), max_eq_left (by linarith)]

/-- a level vehicle with a field of declination 0 and identity covariance meets the hypotheses of `declination_fusion` -/
example : ∃ st : DeclSt, (∀ i j, st.f.P i j = st.f.P j i) ∧ 0 < st.f.s 16 ∧ 1 / 1000000 ≤ |st.f.s 16| ∧
    0 < Spec.form st.f.P (sparse (Decl.hList st.f.P st.f.s 1 0 0)) (sparse (Decl.hList st.f.P st.f.s 1 0 0)) := by
  refine ⟨⟨{ exFilt with s := setMagNE exState (1 / 2) 0 }, false⟩, idCov_psd.symm, ?_, ?_, ?_⟩
  · show 0 < setMagNE exState (1 / 2) 0 16
    rw [setMagNE_16]; norm_num
  · show _ ≤ |setMagNE exState (1 / 2) 0 16|
    rw [setMagNE_16, abs_of_pos] <;> norm_num
  · have := innovVar_sparse exFilt.P (Decl.hList exFilt.P (setMagNE exState (1 / 2) 0) 1 0 0) 0
    unfold Spec.innovVar at this
    rw [add_zero, add_zero] at this
    change 0 < Spec.form exFilt.P _ _
    rw [this]
    simp only [Decl.hList, mulVec_sparse, List.map_cons, List.map_nil, List.sum_cons, List.sum_nil, Decl.HK0, Decl.HK1, Decl.HK2,
      Decl.HK3, Decl.HK4, setMagNE_16, setMagNE_17, exFilt, Filt.P]
    norm_num

end Ecl.Fusion
