import Verif.Geo.Sphere
import Mathlib.Analysis.SpecialFunctions.Trigonometric.Bounds

/-!
# Geographic helper functions: theorems (C41-C45, C99, C100)
-/

namespace Ecl.Geo

open Real

theorem angle_range (lat1 lon1 lat2 lon2 : ℝ) : 0 ≤ Spec.angle lat1 lon1 lat2 lon2 ∧ Spec.angle lat1 lon1 lat2 lon2 ≤ π :=
  ⟨arccos_nonneg _, arccos_le_pi _⟩

theorem cU_range (lat1 lon1 lat2 lon2 : ℝ) : -1 ≤ cU lat1 lon1 lat2 lon2 ∧ cU lat1 lon1 lat2 lon2 ≤ 1 := by
  have := comb_norm lat1 lon1 lat2 lon2
  constructor <;> nlinarith [sq_nonneg (cN lat1 lon1 lat2 lon2), sq_nonneg (cE lat2 lon1 lon2)]

theorem cos_angle (lat1 lon1 lat2 lon2 : ℝ) : cos (Spec.angle lat1 lon1 lat2 lon2) = cU lat1 lon1 lat2 lon2 := by
  unfold Spec.angle
  rw [dot_eq_cU, cos_arccos (cU_range _ _ _ _).1 (cU_range _ _ _ _).2]

theorem sin_angle_sq (lat1 lon1 lat2 lon2 : ℝ) :
    sin (Spec.angle lat1 lon1 lat2 lon2) ^ 2 = cN lat1 lon1 lat2 lon2 ^ 2 + cE lat2 lon1 lon2 ^ 2 := by
  have h := sin_sq_add_cos_sq (Spec.angle lat1 lon1 lat2 lon2)
  rw [cos_angle] at h
  have := comb_norm lat1 lon1 lat2 lon2
  linarith

theorem sin_angle_nonneg (lat1 lon1 lat2 lon2 : ℝ) : 0 ≤ sin (Spec.angle lat1 lon1 lat2 lon2) :=
  sin_nonneg_of_nonneg_of_le_pi (angle_range _ _ _ _).1 (angle_range _ _ _ _).2

theorem sin_angle_eq (lat1 lon1 lat2 lon2 : ℝ) :
    sin (Spec.angle lat1 lon1 lat2 lon2) = sqrt (cN lat1 lon1 lat2 lon2 ^ 2 + cE lat2 lon1 lon2 ^ 2) := by
  rw [← sin_angle_sq, sqrt_sq (sin_angle_nonneg _ _ _ _)]

/-- reference set up by the library -/
noncomputable def mkRef (lat lon : ℝ) : Ref := (projInit ⟨0, 0, 0, 0, 0, false⟩ lat lon 0).1

/-- closed form of the projection -/
theorem project_closed (r0 : Ref) (lat0 lon0 lat lon : ℝ) (t : UInt64) :
    let th := Spec.angle lat0 lon0 lat lon
    let k := if 0 < th then th / sin th else 1
    project (projInit r0 lat0 lon0 t).1 lat lon = (some (k * cN lat0 lon0 lat lon * earthR, k * cE lat lon0 lon * earthR), 0) := by
  intro th k
  have harg : constrain (sin (rad lat0) * sin (rad lat) + cos (rad lat0) * cos (rad lat) * cos (rad lon - rad lon0)) (-1) 1 = cU lat0 lon0 lat lon :=
    constrain_of_mem (cU_range lat0 lon0 lat lon).1 (cU_range lat0 lon0 lat lon).2
  have hth : arccos (cU lat0 lon0 lat lon) = th := by
    show _ = Spec.angle lat0 lon0 lat lon
    unfold Spec.angle; rw [dot_eq_cU]
  have h0 : 0 ≤ th := (angle_range lat0 lon0 lat lon).1
  unfold project projInit projInitialized
  simp only [Bool.not_true, Bool.false_eq_true, if_false]
  rw [harg, hth, abs_of_nonneg h0]
  show (some ((if th > 0 then th / sin th else 1) * _ * earthR, (if th > 0 then th / sin th else 1) * cos (rad lat) * sin (rad lon - rad lon0) * earthR), (0 : ℤ)) = _
  unfold cN cE
  congr 2
  ext
  · rfl
  · simp only [k, gt_iff_lt]; ring

/-- **C41 (projection).** The projection is the azimuthal equidistant one: every point that is not the antipode of the reference is
mapped to (d cos b, d sin b) where d is the great circle distance and the point is reached from the reference by travelling
this distance in direction b. -/
theorem project_spec (r0 : Ref) (lat0 lon0 lat lon : ℝ) (t : UInt64) (h : Spec.angle lat0 lon0 lat lon ≠ π) :
    let d := earthR * Spec.angle lat0 lon0 lat lon
    ∃ b, project (projInit r0 lat0 lon0 t).1 lat lon = (some (d * cos b, d * sin b), 0) ∧
      Spec.point lat lon = Spec.travel lat0 lon0 b (Spec.angle lat0 lon0 lat lon) := by
  intro d
  have hr := angle_range lat0 lon0 lat lon
  have hc := project_closed r0 lat0 lon0 lat lon t
  simp only [] at hc
  have h1 := cos_atan2_mul (cE lat lon0 lon) (cN lat0 lon0 lat lon)
  have h2 := sin_atan2_mul (cE lat lon0 lon) (cN lat0 lon0 lat lon)
  rw [← sin_angle_eq] at h1 h2
  refine ⟨atan2 (cE lat lon0 lon) (cN lat0 lon0 lat lon), ?_, ?_⟩
  · rw [hc]
    by_cases hz : 0 < Spec.angle lat0 lon0 lat lon
    · rw [if_pos hz]
      have hs : sin (Spec.angle lat0 lon0 lat lon) ≠ 0 := (sin_pos_of_pos_of_lt_pi hz (lt_of_le_of_ne hr.2 h)).ne'
      simp only [d]
      congr 2
      ext
      · simp only []
        generalize cos (atan2 _ _) = C at h1 ⊢
        generalize cN lat0 lon0 lat lon = N at h1 ⊢
        subst h1; field_simp
      · simp only []
        generalize sin (atan2 _ _) = C at h2 ⊢
        generalize cE lat lon0 lon = N at h2 ⊢
        subst h2; field_simp
    · have h0 : Spec.angle lat0 lon0 lat lon = 0 := le_antisymm (not_lt.mp hz) hr.1
      rw [if_neg hz]
      rw [h0, sin_zero, zero_mul] at h1 h2
      simp only [d, h0, ← h1, ← h2]
      simp
  · rw [travel_eq_comb, cos_angle, h1, h2]
    exact point_eq_comb lat0 lon0 lat lon

/-- **C41 (inverse projection).** The point returned for local coordinates (x, y) is reached from the reference by travelling the
distance sqrt(x² + y²) in the direction of (x, y). Valid for all x, y. -/
theorem reproject_spec (r0 : Ref) (lat0 lon0 x y : ℝ) (t : UInt64) :
    ∃ lat lon b, reproject (projInit r0 lat0 lon0 t).1 x y = (some (lat, lon), 0) ∧
      (x, y) = (sqrt (x ^ 2 + y ^ 2) * cos b, sqrt (x ^ 2 + y ^ 2) * sin b) ∧
      Spec.point lat lon = Spec.travel lat0 lon0 b (sqrt (x ^ 2 + y ^ 2) / earthR) := by
  have hR := earthR_pos
  have hsq : sqrt (x / earthR * (x / earthR) + y / earthR * (y / earthR)) = sqrt (x ^ 2 + y ^ 2) / earthR := by
    rw [show x / earthR * (x / earthR) + y / earthR * (y / earthR) = (x ^ 2 + y ^ 2) / earthR ^ 2 by field_simp,
      sqrt_div (by positivity), sqrt_sq hR.le]
  have h1 := cos_atan2_mul y x
  have h2 := sin_atan2_mul y x
  obtain ⟨c, hcdef⟩ : ∃ c, c = sqrt (x ^ 2 + y ^ 2) / earthR := ⟨_, rfl⟩
  have hs : sqrt (x ^ 2 + y ^ 2) = c * earthR := by rw [hcdef]; field_simp
  have hc0 : 0 ≤ c := by rw [hcdef]; positivity
  unfold reproject projInit projInitialized
  simp only [Bool.not_true, Bool.false_eq_true, if_false]
  rw [hsq, ← hcdef, abs_of_nonneg hc0]
  by_cases hc : c > 0
  · rw [if_pos hc]
    refine ⟨_, _, atan2 y x, rfl, by rw [h1, h2], ?_⟩
    rw [travel_eq_comb]
    have e1 : x / earthR = c * cos (atan2 y x) := by
      rw [div_eq_iff hR.ne']; rw [hs] at h1; linarith
    have e2 : y / earthR = c * sin (atan2 y x) := by
      rw [div_eq_iff hR.ne']; rw [hs] at h2; linarith
    rw [e1, e2]
    have hu : cos c ^ 2 + (sin c * cos (atan2 y x)) ^ 2 + (sin c * sin (atan2 y x)) ^ 2 = 1 := by
      have a := sin_sq_add_cos_sq (atan2 y x)
      have b := sin_sq_add_cos_sq c
      linear_combination (sin c ^ 2) * a + b
    rw [← point_of_comb (lat := lat0) (lon := lon0) hu c hc]
    have f1 : c * cos (atan2 y x) * sin c * cos (rad lat0) / c = sin c * cos (atan2 y x) * cos (rad lat0) := by field_simp
    have f2 : c * sin (atan2 y x) * sin c = c * (sin c * sin (atan2 y x)) := by ring
    have f3 : c * cos (rad lat0) * cos c - c * cos (atan2 y x) * sin (rad lat0) * sin c =
        c * (cos c * cos (rad lat0) - sin c * cos (atan2 y x) * sin (rad lat0)) := by ring
    rw [f1, f2, f3]
  · have h0 : c = 0 := le_antisymm (not_lt.mp hc) hc0
    rw [if_neg hc]
    refine ⟨_, _, atan2 y x, rfl, by rw [h1, h2], ?_⟩
    rw [deg_rad, deg_rad, h0]
    unfold Spec.travel
    simp

/-- **C41 (round trip).** Projecting what was reprojected gives back (x, y), for every point closer than half the circumference. -/
theorem project_reproject (r0 : Ref) (lat0 lon0 x y : ℝ) (t : UInt64) (h : sqrt (x ^ 2 + y ^ 2) < π * earthR) :
    ∃ lat lon, reproject (projInit r0 lat0 lon0 t).1 x y = (some (lat, lon), 0) ∧
      project (projInit r0 lat0 lon0 t).1 lat lon = (some (x, y), 0) := by
  have hR := earthR_pos
  obtain ⟨lat, lon, b, e1, e2, e3⟩ := reproject_spec r0 lat0 lon0 x y t
  refine ⟨lat, lon, e1, ?_⟩
  obtain ⟨c, hc⟩ : ∃ c, c = sqrt (x ^ 2 + y ^ 2) / earthR := ⟨_, rfl⟩
  have hs : sqrt (x ^ 2 + y ^ 2) = c * earthR := by rw [hc]; field_simp
  have hc0 : 0 ≤ c := by rw [hc]; positivity
  have hc1 : c < π := by rw [hs] at h; exact lt_of_mul_lt_mul_right h hR.le
  have hang : Spec.angle lat0 lon0 lat lon = c := by
    unfold Spec.angle
    rw [e3, travel_eq_comb, dot_comb, ← hc, arccos_cos hc0 hc1.le]
  obtain ⟨b', p1, p2⟩ := project_spec r0 lat0 lon0 lat lon t (by rw [hang]; exact hc1.ne)
  rw [p1]
  rw [hang] at p2 ⊢
  rw [hs] at e2
  rw [e3, travel_eq_comb, travel_eq_comb, ← hc] at p2
  obtain ⟨-, q2, q3⟩ := comb_inj p2
  rw [e2]
  rcases eq_or_lt_of_le hc0 with h0 | h0
  · rw [← h0]; simp
  · have hsin : sin c ≠ 0 := (sin_pos_of_pos_of_lt_pi h0 hc1).ne'
    rw [← mul_left_cancel₀ hsin q2, ← mul_left_cancel₀ hsin q3, mul_comm earthR c]

/-- **C41 (round trip).** Reprojecting what was projected gives back the same point of the sphere, for every point except the
antipode; the same latitude if it is within ±90 degrees; and the same longitude if that differs by less than half a turn from
the reference and the point is not a pole. -/
theorem reproject_project (r0 : Ref) (lat0 lon0 lat lon : ℝ) (t : UInt64) (h : Spec.angle lat0 lon0 lat lon ≠ π) :
    ∃ x y lat' lon', project (projInit r0 lat0 lon0 t).1 lat lon = (some (x, y), 0) ∧
      reproject (projInit r0 lat0 lon0 t).1 x y = (some (lat', lon'), 0) ∧ Spec.point lat' lon' = Spec.point lat lon ∧
      (|lat0| ≤ 90 → |lat| ≤ 90 → lat' = lat ∧ (cos (rad lat) ≠ 0 → -180 < lon - lon0 → lon - lon0 ≤ 180 → lon' = lon)) := by
  have hR := earthR_pos
  obtain ⟨b, p1, p2⟩ := project_spec r0 lat0 lon0 lat lon t h
  have hr := angle_range lat0 lon0 lat lon
  obtain ⟨th, hth⟩ : ∃ th, th = Spec.angle lat0 lon0 lat lon := ⟨_, rfl⟩
  rw [← hth] at p1 p2 hr h
  obtain ⟨lat', lon', b', e1, e2, e3⟩ := reproject_spec r0 lat0 lon0 (earthR * th * cos b) (earthR * th * sin b) t
  have hs : sqrt ((earthR * th * cos b) ^ 2 + (earthR * th * sin b) ^ 2) = earthR * th := by
    rw [show (earthR * th * cos b) ^ 2 + (earthR * th * sin b) ^ 2 = (earthR * th) ^ 2 by
      linear_combination (earthR * th) ^ 2 * sin_sq_add_cos_sq b, sqrt_sq (mul_nonneg hR.le hr.1)]
  rw [hs] at e2 e3
  rw [mul_div_cancel_left₀ _ hR.ne'] at e3
  have hpt : Spec.point lat' lon' = Spec.point lat lon := by
    rw [e3, p2]
    rcases eq_or_lt_of_le hr.1 with h0 | h0
    · rw [← h0]; unfold Spec.travel; simp
    · have hne : earthR * th ≠ 0 := (mul_pos hR h0).ne'
      have a := congrArg Prod.fst e2
      have c := congrArg Prod.snd e2
      simp only [] at a c
      rw [travel_eq_comb, travel_eq_comb, mul_left_cancel₀ hne a, mul_left_cancel₀ hne c]
  refine ⟨_, _, lat', lon', p1, e1, hpt, fun h0 hl => ?_⟩
  -- ranges of the returned values
  have hrange : |lat'| ≤ 90 ∧ -180 < lon' - lon0 ∧ lon' - lon0 ≤ 180 := by
    have hp := pi_pos
    unfold reproject projInit projInitialized at e1
    simp only [Bool.not_true, Bool.false_eq_true, if_false] at e1
    split_ifs at e1 with hc
    · simp only [Prod.mk.injEq, Option.some.injEq, and_true] at e1
      obtain ⟨rfl, rfl⟩ := e1
      have hd : ∀ z, deg z = z * (180 / π) := fun z => by unfold deg; ring
      have hpos : 0 < 180 / π := by positivity
      have hhalf : π / 2 * (180 / π) = 90 := by field_simp; norm_num
      have hfull : π * (180 / π) = 180 := by field_simp
      refine ⟨?_, ?_, ?_⟩
      · rw [hd, abs_mul, abs_of_pos hpos, ← hhalf]
        apply mul_le_mul_of_nonneg_right _ hpos.le
        rw [abs_le]; exact ⟨neg_pi_div_two_le_arcsin _, arcsin_le_pi_div_two _⟩
      · have hm := atan2_mem (earthR * th * sin b / earthR * sin (sqrt (earthR * th * cos b / earthR * (earthR * th * cos b / earthR) +
          earthR * th * sin b / earthR * (earthR * th * sin b / earthR)))) (sqrt (earthR * th * cos b / earthR * (earthR * th * cos b / earthR) +
          earthR * th * sin b / earthR * (earthR * th * sin b / earthR)) * cos (rad lat0) * cos (sqrt (earthR * th * cos b / earthR * (earthR * th * cos b / earthR) +
          earthR * th * sin b / earthR * (earthR * th * sin b / earthR))) - earthR * th * cos b / earthR * sin (rad lat0) * sin (sqrt (earthR * th * cos b / earthR * (earthR * th * cos b / earthR) +
          earthR * th * sin b / earthR * (earthR * th * sin b / earthR))))
        generalize atan2 _ _ = A at hm ⊢
        rw [hd, add_mul, ← hd, deg_rad]
        have := mul_lt_mul_of_pos_right hm.1 hpos
        linarith
      · have hm := atan2_mem (earthR * th * sin b / earthR * sin (sqrt (earthR * th * cos b / earthR * (earthR * th * cos b / earthR) +
          earthR * th * sin b / earthR * (earthR * th * sin b / earthR)))) (sqrt (earthR * th * cos b / earthR * (earthR * th * cos b / earthR) +
          earthR * th * sin b / earthR * (earthR * th * sin b / earthR)) * cos (rad lat0) * cos (sqrt (earthR * th * cos b / earthR * (earthR * th * cos b / earthR) +
          earthR * th * sin b / earthR * (earthR * th * sin b / earthR))) - earthR * th * cos b / earthR * sin (rad lat0) * sin (sqrt (earthR * th * cos b / earthR * (earthR * th * cos b / earthR) +
          earthR * th * sin b / earthR * (earthR * th * sin b / earthR))))
        generalize atan2 _ _ = A at hm ⊢
        rw [hd, add_mul, ← hd, deg_rad]
        have := mul_le_mul_of_nonneg_right hm.2 hpos.le
        linarith
    · simp only [Prod.mk.injEq, Option.some.injEq, and_true] at e1
      obtain ⟨rfl, rfl⟩ := e1
      rw [deg_rad, deg_rad]
      refine ⟨h0, ?_, ?_⟩ <;> norm_num
  have hlat : lat' = lat := lat_of_point hpt hrange.1 hl
  refine ⟨hlat, fun hc g1 g2 => ?_⟩
  rw [hlat] at hpt
  exact lon_of_point hpt hc hrange.2 ⟨g1, g2⟩

/-- **C41.** The reference itself is mapped to the origin. -/
theorem project_self (r0 : Ref) (lat0 lon0 : ℝ) (t : UInt64) : project (projInit r0 lat0 lon0 t).1 lat0 lon0 = (some (0, 0), 0) := by
  have hN : cN lat0 lon0 lat0 lon0 = 0 := by unfold cN; rw [sub_self, cos_zero]; ring
  have hE : cE lat0 lon0 lon0 = 0 := by unfold cE; rw [sub_self, sin_zero]; ring
  have := project_closed r0 lat0 lon0 lat0 lon0 t
  simp only [hN, hE, mul_zero, zero_mul] at this
  exact this

/-- **C42.** Without an initialised reference all functions return −1 and write nothing; initialisation always succeeds and stores
the coordinates in radians with their sine and cosine. -/
theorem projection_needs_init (r : Ref) (h : r.init = false) (a b : ℝ) :
    projInitialized r = false ∧ project r a b = (none, -1) ∧ reproject r a b = (none, -1) ∧ projReference r = (none, -1) := by
  unfold project reproject projReference projInitialized
  rw [h]
  exact ⟨rfl, rfl, rfl, rfl⟩

theorem projection_init (r : Ref) (lat lon : ℝ) (t : UInt64) :
    let r' := (projInit r lat lon t).1
    (projInit r lat lon t).2 = 0 ∧ projInitialized r' = true ∧ projTimestamp r' = t ∧
    projReference r' = (some (lat * π / 180, lon * π / 180), 0) ∧ r'.sinLat = sin (lat * π / 180) ∧ r'.cosLat = cos (lat * π / 180) ∧
    (∀ a b, (project r' a b).2 = 0 ∧ (project r' a b).1 ≠ none ∧ (reproject r' a b).2 = 0 ∧ (reproject r' a b).1 ≠ none) := by
  intro r'
  have hr : ∀ x : ℝ, rad x = x * π / 180 := fun x => by unfold rad; ring
  refine ⟨rfl, rfl, rfl, ?_, ?_, ?_, ?_⟩
  · show (some (rad lat, rad lon), (0 : ℤ)) = _
    rw [hr, hr]
  · show sin (rad lat) = _
    rw [hr]
  · show cos (rad lat) = _
    rw [hr]
  · intro a b
    have h : r'.init = true := rfl
    unfold project reproject projInitialized
    rw [h]
    simp only [Bool.not_true, Bool.false_eq_true, if_false]
    refine ⟨trivial, by simp, ?_, ?_⟩
    · split_ifs <;> rfl
    · split_ifs <;> simp

/-! ## C43: distance -/

theorem cos_sq_half (x : ℝ) : cos (x / 2) ^ 2 = 1 / 2 + cos x / 2 := by
  rw [cos_sq, mul_div_cancel₀ x two_ne_zero]

/-- haversine of the central angle -/
theorem haversine (lat1 lon1 lat2 lon2 : ℝ) :
    sin ((rad lat2 - rad lat1) / 2) * sin ((rad lat2 - rad lat1) / 2) +
      sin ((rad lon2 - rad lon1) / 2) * sin ((rad lon2 - rad lon1) / 2) * cos (rad lat1) * cos (rad lat2) = (1 - cU lat1 lon1 lat2 lon2) / 2 := by
  have hh : ∀ x : ℝ, sin (x / 2) * sin (x / 2) = (1 - cos x) / 2 := by
    intro x
    have := cos_sq_half x
    have h2 := sin_sq_add_cos_sq (x / 2)
    nlinarith
  rw [hh, hh]
  unfold cU
  rw [cos_sub (rad lat2) (rad lat1)]
  ring

/-- half angle form -/
theorem haversine_atan (u : ℝ) (h1 : -1 ≤ u) (h2 : u ≤ 1) : 2 * atan2 (sqrt ((1 - u) / 2)) (sqrt (1 - (1 - u) / 2)) = arccos u := by
  obtain ⟨θ, hθ⟩ : ∃ θ, θ = arccos u := ⟨_, rfl⟩
  have h0 : 0 ≤ θ := by rw [hθ]; exact arccos_nonneg u
  have hpi : θ ≤ π := by rw [hθ]; exact arccos_le_pi u
  have hu : u = cos θ := by rw [hθ, cos_arccos h1 h2]
  have hp := pi_pos
  rw [← hθ, hu]
  have a := cos_sq_half θ
  have b := sin_sq_add_cos_sq (θ / 2)
  have s0 : 0 ≤ sin (θ / 2) := sin_nonneg_of_nonneg_of_le_pi (by linarith) (by linarith)
  have c0 : 0 ≤ cos (θ / 2) := cos_nonneg_of_neg_pi_div_two_le_of_le (by linarith) (by linarith)
  rw [show (1 - cos θ) / 2 = sin (θ / 2) ^ 2 by linarith, show 1 - sin (θ / 2) ^ 2 = cos (θ / 2) ^ 2 by linarith,
    sqrt_sq s0, sqrt_sq c0]
  have := atan2_polar (r := 1) (t := θ / 2) one_pos ⟨by linarith, by linarith⟩
  rw [one_mul, one_mul] at this
  rw [this]; ring

/-- **C43.** The computed distance is the earth radius times the central angle. -/
theorem distance_eq (lat1 lon1 lat2 lon2 : ℝ) : distance lat1 lon1 lat2 lon2 = 6371000 * Spec.angle lat1 lon1 lat2 lon2 := by
  unfold distance
  simp only []
  rw [haversine, mul_assoc, haversine_atan _ (cU_range _ _ _ _).1 (cU_range _ _ _ _).2]
  unfold Spec.angle earthR
  rw [dot_eq_cU]

theorem angle_comm (lat1 lon1 lat2 lon2 : ℝ) : Spec.angle lat1 lon1 lat2 lon2 = Spec.angle lat2 lon2 lat1 lon1 := by
  unfold Spec.angle Spec.dot
  congr 1; ring

/-- points as vectors of a Euclidean space -/
noncomputable def vec (a : ℝ × ℝ × ℝ) : EuclideanSpace ℝ (Fin 3) := !₂[a.1, a.2.1, a.2.2]

theorem vec_inner (a b : ℝ × ℝ × ℝ) : inner ℝ (vec a) (vec b) = Spec.dot a b := by
  unfold vec Spec.dot
  simp [PiLp.inner_apply, Fin.sum_univ_three]
  ring

theorem point_self (lat lon : ℝ) : Spec.dot (Spec.point lat lon) (Spec.point lat lon) = 1 := by
  rw [dot_eq_cU]; unfold cU; rw [sub_self, cos_zero]
  have := sin_sq_add_cos_sq (rad lat)
  linarith

theorem vec_norm (lat lon : ℝ) : ‖vec (Spec.point lat lon)‖ = 1 := by
  have h := real_inner_self_eq_norm_sq (vec (Spec.point lat lon))
  rw [vec_inner, point_self] at h
  nlinarith [norm_nonneg (vec (Spec.point lat lon))]

theorem angle_eq_vec (lat1 lon1 lat2 lon2 : ℝ) :
    Spec.angle lat1 lon1 lat2 lon2 = InnerProductGeometry.angle (vec (Spec.point lat1 lon1)) (vec (Spec.point lat2 lon2)) := by
  unfold Spec.angle InnerProductGeometry.angle
  rw [vec_inner, vec_norm, vec_norm, mul_one, div_one]

/-- **C43.** The distance is a metric on the points of the sphere: symmetric, non-negative, at most half the circumference, zero exactly
for the same point, and satisfies the triangle inequality. -/
theorem distance_metric (lat1 lon1 lat2 lon2 lat3 lon3 : ℝ) :
    distance lat1 lon1 lat2 lon2 = distance lat2 lon2 lat1 lon1 ∧ 0 ≤ distance lat1 lon1 lat2 lon2 ∧
    distance lat1 lon1 lat2 lon2 ≤ π * 6371000 ∧ (distance lat1 lon1 lat2 lon2 = 0 ↔ Spec.point lat1 lon1 = Spec.point lat2 lon2) ∧
    distance lat1 lon1 lat3 lon3 ≤ distance lat1 lon1 lat2 lon2 + distance lat2 lon2 lat3 lon3 := by
  simp only [distance_eq]
  have hr := angle_range lat1 lon1 lat2 lon2
  refine ⟨by rw [angle_comm], by linarith, by linarith, ⟨fun h => ?_, fun h => ?_⟩, ?_⟩
  · have h0 : Spec.angle lat1 lon1 lat2 lon2 = 0 := by linarith
    have hc := cos_angle lat1 lon1 lat2 lon2
    have hs := sin_angle_sq lat1 lon1 lat2 lon2
    rw [h0, cos_zero] at hc
    rw [h0, sin_zero] at hs
    have hN : cN lat1 lon1 lat2 lon2 = 0 := by nlinarith [sq_nonneg (cN lat1 lon1 lat2 lon2), sq_nonneg (cE lat2 lon1 lon2)]
    have hE : cE lat2 lon1 lon2 = 0 := by nlinarith [sq_nonneg (cN lat1 lon1 lat2 lon2), sq_nonneg (cE lat2 lon1 lon2)]
    rw [point_eq_comb lat1 lon1 lat2 lon2, ← hc, hN, hE]
    unfold comb; simp
  · unfold Spec.angle
    rw [h, point_self, arccos_one, mul_zero]
  · have := InnerProductGeometry.angle_le_angle_add_angle (vec (Spec.point lat1 lon1)) (vec (Spec.point lat2 lon2)) (vec (Spec.point lat3 lon3))
    rw [← angle_eq_vec, ← angle_eq_vec, ← angle_eq_vec] at this
    linarith

/-- **C43.** The projected distance is the great circle distance. -/
theorem projected_distance (r0 : Ref) (lat0 lon0 lat lon : ℝ) (t : UInt64) (h : Spec.angle lat0 lon0 lat lon ≠ π) :
    ∃ x y, project (projInit r0 lat0 lon0 t).1 lat lon = (some (x, y), 0) ∧ sqrt (x ^ 2 + y ^ 2) = distance lat0 lon0 lat lon := by
  obtain ⟨b, p1, -⟩ := project_spec r0 lat0 lon0 lat lon t h
  refine ⟨_, _, p1, ?_⟩
  have hr := (angle_range lat0 lon0 lat lon).1
  rw [distance_eq]
  show _ = earthR * _
  rw [show (earthR * Spec.angle lat0 lon0 lat lon * cos b) ^ 2 + (earthR * Spec.angle lat0 lon0 lat lon * sin b) ^ 2 =
    (earthR * Spec.angle lat0 lon0 lat lon) ^ 2 by linear_combination (earthR * Spec.angle lat0 lon0 lat lon) ^ 2 * sin_sq_add_cos_sq b,
    sqrt_sq (mul_nonneg earthR_pos.le hr)]

/-- **C99 (three-dimensional distances).** -/
theorem distance3_spec (lat1 lon1 alt1 lat2 lon2 alt2 : ℝ) :
    distance3 lat1 lon1 alt1 lat2 lon2 alt2 =
      (sqrt (distance lat1 lon1 lat2 lon2 ^ 2 + (alt1 - alt2) ^ 2), distance lat1 lon1 lat2 lon2, |alt1 - alt2|) := by
  have h : earthR * (2 * atan2 (sqrt ((1 - cU lat2 lon2 lat1 lon1) / 2)) (sqrt (1 - (1 - cU lat2 lon2 lat1 lon1) / 2))) = distance lat1 lon1 lat2 lon2 := by
    rw [haversine_atan _ (cU_range _ _ _ _).1 (cU_range _ _ _ _).2, distance_eq, angle_comm]
    unfold Spec.angle earthR; rw [dot_eq_cU]
  unfold distance3
  simp only []
  rw [haversine, h, abs_of_nonneg (distance_metric lat1 lon1 lat2 lon2 0 0).2.1, pow_two, pow_two]

theorem distanceLocal_spec (x1 y1 z1 x2 y2 z2 : ℝ) :
    distanceLocal x1 y1 z1 x2 y2 z2 = (sqrt ((x1 - x2) ^ 2 + (y1 - y2) ^ 2 + (z1 - z2) ^ 2), sqrt ((x1 - x2) ^ 2 + (y1 - y2) ^ 2), |z1 - z2|) := by
  unfold distanceLocal; simp only [pow_two]

/-! ## C44: bearing and waypoints -/

theorem wrap2Pi_spec (x : ℝ) : (0 ≤ wrap2Pi x ∧ wrap2Pi x < 2 * π) ∧ ∃ k : ℤ, wrap2Pi x = x - k * (2 * π) := by
  have hp := pi_pos
  unfold wrap2Pi
  split
  · rename_i h; exact ⟨h, 0, by simp⟩
  · have h1 := Int.floor_le (x * (1 / (2 * π)))
    have h2 := Int.lt_floor_add_one (x * (1 / (2 * π)))
    set k := ⌊x * (1 / (2 * π))⌋
    rw [mul_one_div] at h1 h2
    rw [le_div_iff₀ (by linarith)] at h1
    rw [div_lt_iff₀ (by linarith)] at h2
    exact ⟨⟨by nlinarith, by nlinarith⟩, k, by ring⟩

theorem cos_wrap2Pi (x : ℝ) : cos (wrap2Pi x) = cos x := by
  obtain ⟨-, k, hk⟩ := wrap2Pi_spec x
  rw [hk]; exact cos_sub_int_mul_two_pi x k

theorem sin_wrap2Pi (x : ℝ) : sin (wrap2Pi x) = sin x := by
  obtain ⟨-, k, hk⟩ := wrap2Pi_spec x
  rw [hk]; exact sin_sub_int_mul_two_pi x k

/-- **C44 (bearing).** The bearing is in [−π, π) and is the direction in which the great circle to the second point starts. -/
theorem bearing_spec (lat1 lon1 lat2 lon2 : ℝ) :
    (-π ≤ bearing lat1 lon1 lat2 lon2 ∧ bearing lat1 lon1 lat2 lon2 < π) ∧
    Spec.point lat2 lon2 = Spec.travel lat1 lon1 (bearing lat1 lon1 lat2 lon2) (Spec.angle lat1 lon1 lat2 lon2) := by
  have hb : bearing lat1 lon1 lat2 lon2 = wrapPi (atan2 (cE lat2 lon1 lon2) (cN lat1 lon1 lat2 lon2)) := by
    unfold bearing cE cN; simp only [rad_sub]; rw [mul_comm (sin _)]
  rw [hb]
  refine ⟨(wrapPi_spec _).1, ?_⟩
  rw [travel_eq_comb, cos_angle, cos_wrapPi, sin_wrapPi, sin_angle_eq, cos_atan2_mul, sin_atan2_mul]
  exact point_eq_comb lat1 lon1 lat2 lon2

/-- **C44 (waypoint).** From a start point off the poles the computed waypoint is the point reached by travelling the distance `d` in
direction `b`, for all (also negative or very large) `d`. -/
theorem waypoint_spec (lat lon b d : ℝ) (h : 0 < cos (rad lat)) :
    Spec.point (waypoint lat lon b d).1 (waypoint lat lon b d).2 = Spec.travel lat lon b (d / earthR) := by
  unfold waypoint
  simp only [cos_wrap2Pi, sin_wrap2Pi]
  obtain ⟨r, hr⟩ : ∃ r, r = d / earthR := ⟨_, rfl⟩
  rw [← hr, travel_eq_comb]
  have hu : cos r ^ 2 + (sin r * cos b) ^ 2 + (sin r * sin b) ^ 2 = 1 := by
    linear_combination (sin r ^ 2) * sin_sq_add_cos_sq b + sin_sq_add_cos_sq r
  rw [← point_of_comb (lat := lat) (lon := lon) hu (cos (rad lat)) h]
  have hz : sin (rad lat) * cos r + cos (rad lat) * sin r * cos b = cos r * sin (rad lat) + sin r * cos b * cos (rad lat) := by ring
  rw [hz]
  have hsq : (cos r * sin (rad lat) + sin r * cos b * cos (rad lat)) ^ 2 + (cos r * cos (rad lat) - sin r * cos b * sin (rad lat)) ^ 2 + (sin r * sin b) ^ 2 = 1 := by
    linear_combination (cos r ^ 2 + (sin r * cos b) ^ 2) * sin_sq_add_cos_sq (rad lat) + hu
  have hzr : -1 ≤ cos r * sin (rad lat) + sin r * cos b * cos (rad lat) ∧ cos r * sin (rad lat) + sin r * cos b * cos (rad lat) ≤ 1 := by
    constructor <;> nlinarith [sq_nonneg (cos r * cos (rad lat) - sin r * cos b * sin (rad lat)), sq_nonneg (sin r * sin b)]
  rw [sin_arcsin hzr.1 hzr.2]
  congr 3
  congr 1
  · ring
  · linear_combination (-(cos r)) * sin_sq_add_cos_sq (rad lat)

/-- **C44 (distance).** Its distance from the start is |d| if that is at most half the circumference (poles included). -/
theorem waypoint_distance (lat lon b d : ℝ) (h : 0 ≤ cos (rad lat)) (hd : |d| ≤ π * 6371000) :
    distance lat lon (waypoint lat lon b d).1 (waypoint lat lon b d).2 = |d| := by
  have hR : (0 : ℝ) < 6371000 := by norm_num
  have hdot : Spec.dot (Spec.point lat lon) (Spec.point (waypoint lat lon b d).1 (waypoint lat lon b d).2) = cos (d / 6371000) := by
    rcases eq_or_lt_of_le h with h0 | h0
    · -- at a pole
      have hs : sin (rad lat) ^ 2 = 1 := by have := sin_sq_add_cos_sq (rad lat); rw [← h0] at this; linarith
      unfold Spec.dot Spec.point waypoint
      simp only [rad_deg]
      rw [← h0]
      have hz : -1 ≤ sin (rad lat) * cos (d / earthR) ∧ sin (rad lat) * cos (d / earthR) ≤ 1 := by
        have := cos_sq_le_one (d / earthR)
        have hq : (sin (rad lat) * cos (d / earthR)) ^ 2 ≤ 1 := by rw [mul_pow, hs, one_mul]; exact this
        constructor <;> nlinarith
      simp only [zero_mul, add_zero, zero_add]
      rw [sin_arcsin hz.1 hz.2]
      unfold earthR
      linear_combination (cos (d / 6371000)) * hs
    · rw [waypoint_spec lat lon b d h0, travel_eq_comb, dot_comb]; rfl
  rw [distance_eq]
  unfold Spec.angle
  rw [hdot]
  have e : d / 6371000 = d / 6371000 := rfl
  rw [← cos_abs, abs_div, abs_of_pos hR, arccos_cos (by positivity) (by rw [div_le_iff₀ hR]; exact hd)]
  field_simp

/-- **C44 (line).** The waypoint on the line from A to B lies on the great circle from A towards B at distance `d` from A; distances
below 2⁻²³ m give A itself. -/
theorem waypointFromLine_spec (latA lonA latB lonB d : ℝ) (h : 0 < cos (rad latA)) :
    (|d| < 1 / 8388608 → waypointFromLine latA lonA latB lonB d = (latA, lonA)) ∧
    (1 / 8388608 ≤ |d| → ∃ b, Spec.point latB lonB = Spec.travel latA lonA b (Spec.angle latA lonA latB lonB) ∧
      Spec.point (waypointFromLine latA lonA latB lonB d).1 (waypointFromLine latA lonA latB lonB d).2 = Spec.travel latA lonA b (d / 6371000)) := by
  unfold waypointFromLine fltEps
  constructor
  · intro hd; rw [if_pos hd]
  · intro hd
    rw [if_neg (not_lt.mpr hd)]
    exact ⟨_, (bearing_spec latA lonA latB lonB).2, waypoint_spec latA lonA _ d h⟩

/-! ## C45, C99: vectors -/

/-- **C45.** The fast vector helpers are inverse to each other off the poles. -/
theorem fast_inverse (lat lon vn ve : ℝ) (h : cos (rad lat) ≠ 0) :
    vectorToFast lat lon (addVector lat lon vn ve).1 (addVector lat lon vn ve).2 = (vn, ve) := by
  have hR := earthR_pos.ne'
  unfold vectorToFast addVector
  simp only [rad_deg]
  ext
  · simp only []; field_simp; ring
  · simp only []; field_simp; ring

theorem fast_inverse' (lat1 lon1 lat2 lon2 : ℝ) (h : cos (rad lat1) ≠ 0) :
    addVector lat1 lon1 (vectorToFast lat1 lon1 lat2 lon2).1 (vectorToFast lat1 lon1 lat2 lon2).2 = (lat2, lon2) := by
  have hR := earthR_pos.ne'
  unfold vectorToFast addVector
  simp only []
  ext
  · simp only []
    rw [mul_div_cancel_left₀ _ hR, add_sub_cancel, deg_rad]
  · simp only []
    rw [show earthR * (rad lon2 - rad lon1) * cos (rad lat1) / (earthR * cos (rad lat1)) = rad lon2 - rad lon1 by field_simp,
      add_sub_cancel, deg_rad]

/-- **C99 (vector).** The vector to a waypoint points in the direction of the bearing and has length R sin(angle) — shorter than the
distance. -/
theorem vectorTo_spec (lat1 lon1 lat2 lon2 : ℝ) :
    vectorTo lat1 lon1 lat2 lon2 =
      (6371000 * sin (Spec.angle lat1 lon1 lat2 lon2) * cos (bearing lat1 lon1 lat2 lon2),
       6371000 * sin (Spec.angle lat1 lon1 lat2 lon2) * sin (bearing lat1 lon1 lat2 lon2)) ∧
    sqrt ((vectorTo lat1 lon1 lat2 lon2).1 ^ 2 + (vectorTo lat1 lon1 lat2 lon2).2 ^ 2) ≤ distance lat1 lon1 lat2 lon2 := by
  have hb : bearing lat1 lon1 lat2 lon2 = wrapPi (atan2 (cE lat2 lon1 lon2) (cN lat1 lon1 lat2 lon2)) := by
    unfold bearing cE cN; simp only [rad_sub]; rw [mul_comm (sin _)]
  have h1 := cos_atan2_mul (cE lat2 lon1 lon2) (cN lat1 lon1 lat2 lon2)
  have h2 := sin_atan2_mul (cE lat2 lon1 lon2) (cN lat1 lon1 lat2 lon2)
  rw [← sin_angle_eq] at h1 h2
  have e : vectorTo lat1 lon1 lat2 lon2 = (6371000 * cN lat1 lon1 lat2 lon2, 6371000 * cE lat2 lon1 lon2) := by
    unfold vectorTo cN cE earthR; simp only []; ext <;> simp <;> ring
  constructor
  · rw [e, hb, cos_wrapPi, sin_wrapPi]
    ext
    · simp only []; rw [mul_assoc, h1]
    · simp only []; rw [mul_assoc, h2]
  · rw [e, distance_eq]
    simp only []
    rw [show (6371000 * cN lat1 lon1 lat2 lon2) ^ 2 + (6371000 * cE lat2 lon1 lon2) ^ 2 = (6371000 * sin (Spec.angle lat1 lon1 lat2 lon2)) ^ 2 by
      rw [mul_pow 6371000 (sin _), sin_angle_sq]; ring,
      sqrt_sq (mul_nonneg (by norm_num) (sin_angle_nonneg _ _ _ _))]
    exact mul_le_mul_of_nonneg_left (sin_le (angle_range _ _ _ _).1) (by norm_num)

end Ecl.Geo
