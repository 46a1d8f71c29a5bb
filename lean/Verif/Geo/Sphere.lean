import Verif.Geo.Model
import Mathlib.Geometry.Euclidean.Angle.Unoriented.TriangleInequality
import Mathlib.Analysis.InnerProductSpace.PiL2

/-!
# Geographic helper functions: lemmas on the sphere
-/

namespace Ecl.Geo

open Real

theorem earthR_pos : 0 < earthR := by unfold earthR; norm_num

theorem rad_deg (x : ℝ) : rad (deg x) = x := by
  unfold rad deg; have := pi_ne_zero; field_simp

theorem deg_rad (x : ℝ) : deg (rad x) = x := by
  unfold rad deg; have := pi_ne_zero; field_simp

theorem rad_sub (a b : ℝ) : rad (a - b) = rad a - rad b := by unfold rad; ring

/-- combination of the local basis at a point -/
noncomputable def comb (lat lon u n e : ℝ) : ℝ × ℝ × ℝ :=
  let p := Spec.point lat lon
  let no := Spec.north lat lon
  let ea := Spec.east lon
  (u * p.1 + n * no.1 + e * ea.1, u * p.2.1 + n * no.2.1 + e * ea.2.1, u * p.2.2 + n * no.2.2 + e * ea.2.2)

theorem travel_eq_comb (lat lon b c : ℝ) : Spec.travel lat lon b c = comb lat lon (cos c) (sin c * cos b) (sin c * sin b) := by
  unfold Spec.travel comb; simp only []; ext <;> simp <;> ring

theorem comb_explicit (lat lon u n e : ℝ) : comb lat lon u n e =
    ((u * cos (rad lat) - n * sin (rad lat)) * cos (rad lon) - e * sin (rad lon),
     (u * cos (rad lat) - n * sin (rad lat)) * sin (rad lon) + e * cos (rad lon),
     u * sin (rad lat) + n * cos (rad lat)) := by
  unfold comb Spec.point Spec.north Spec.east; simp only []; ext <;> simp <;> ring

/-- up, north and east components of point 2 seen from point 1 -/
noncomputable def cU (lat1 lon1 lat2 lon2 : ℝ) : ℝ := sin (rad lat1) * sin (rad lat2) + cos (rad lat1) * cos (rad lat2) * cos (rad lon2 - rad lon1)
noncomputable def cN (lat1 lon1 lat2 lon2 : ℝ) : ℝ := cos (rad lat1) * sin (rad lat2) - sin (rad lat1) * cos (rad lat2) * cos (rad lon2 - rad lon1)
noncomputable def cE (lat2 lon1 lon2 : ℝ) : ℝ := cos (rad lat2) * sin (rad lon2 - rad lon1)

theorem comb_norm (lat1 lon1 lat2 lon2 : ℝ) : cU lat1 lon1 lat2 lon2 ^ 2 + cN lat1 lon1 lat2 lon2 ^ 2 + cE lat2 lon1 lon2 ^ 2 = 1 := by
  unfold cU cN cE
  have h1 := sin_sq_add_cos_sq (rad lat1)
  have h2 := sin_sq_add_cos_sq (rad lat2)
  have h3 := sin_sq_add_cos_sq (rad lon2 - rad lon1)
  generalize sin (rad lat1) = s1 at *; generalize cos (rad lat1) = c1 at *
  generalize sin (rad lat2) = s2 at *; generalize cos (rad lat2) = c2 at *
  generalize sin (rad lon2 - rad lon1) = s3 at *; generalize cos (rad lon2 - rad lon1) = c3 at *
  linear_combination (s2 ^ 2 + c2 ^ 2 * c3 ^ 2) * h1 + c2 ^ 2 * h3 + h2

theorem point_eq_comb (lat1 lon1 lat2 lon2 : ℝ) :
    Spec.point lat2 lon2 = comb lat1 lon1 (cU lat1 lon1 lat2 lon2) (cN lat1 lon1 lat2 lon2) (cE lat2 lon1 lon2) := by
  rw [comb_explicit]
  unfold cU cN cE Spec.point
  have h1 := sin_sq_add_cos_sq (rad lat1)
  have h3 := sin_sq_add_cos_sq (rad lon1)
  simp only [sin_sub, cos_sub]
  generalize sin (rad lat1) = s1 at *; generalize cos (rad lat1) = c1 at *
  generalize sin (rad lat2) = s2 at *; generalize cos (rad lat2) = c2 at *
  generalize sin (rad lon1) = s3 at *; generalize cos (rad lon1) = c3 at *
  generalize sin (rad lon2) = s4 at *; generalize cos (rad lon2) = c4 at *
  ext
  · simp only []
    linear_combination (-(c2 * (c4 * c3 + s4 * s3) * c3)) * h1 + (-(c2 * c4)) * h3
  · simp only []
    linear_combination (-(c2 * (c4 * c3 + s4 * s3) * s3)) * h1 + (-(c2 * s4)) * h3
  · simp only []
    linear_combination (-s2) * h1

theorem dot_comb (lat lon u n e : ℝ) : Spec.dot (Spec.point lat lon) (comb lat lon u n e) = u := by
  rw [comb_explicit]
  unfold Spec.dot Spec.point
  have h1 := sin_sq_add_cos_sq (rad lat)
  have h3 := sin_sq_add_cos_sq (rad lon)
  simp only []
  generalize sin (rad lat) = s1 at *; generalize cos (rad lat) = c1 at *
  generalize sin (rad lon) = s3 at *; generalize cos (rad lon) = c3 at *
  linear_combination (u * c1 ^ 2 - n * s1 * c1) * h3 + u * h1

theorem comb_inj {lat lon u n e u' n' e' : ℝ} (h : comb lat lon u n e = comb lat lon u' n' e') : u = u' ∧ n = n' ∧ e = e' := by
  rw [comb_explicit, comb_explicit] at h
  have a := congrArg Prod.fst h
  have b := congrArg (fun t : ℝ × ℝ × ℝ => t.2.1) h
  have c := congrArg (fun t : ℝ × ℝ × ℝ => t.2.2) h
  simp only [] at a b c
  have h1 := sin_sq_add_cos_sq (rad lat)
  have h3 := sin_sq_add_cos_sq (rad lon)
  generalize sin (rad lat) = s1 at *; generalize cos (rad lat) = c1 at *
  generalize sin (rad lon) = s3 at *; generalize cos (rad lon) = c3 at *
  have he : e = e' := by linear_combination c3 * b - s3 * a + (e' - e) * h3
  have hh : u * c1 - n * s1 = u' * c1 - n' * s1 := by
    linear_combination c3 * a + s3 * b + ((u' * c1 - n' * s1) - (u * c1 - n * s1)) * h3
  refine ⟨?_, ?_, he⟩
  · linear_combination c1 * hh + s1 * c + (u' - u) * h1
  · linear_combination c1 * c - s1 * hh + (n' - n) * h1

theorem dot_eq_cU (lat1 lon1 lat2 lon2 : ℝ) : Spec.dot (Spec.point lat1 lon1) (Spec.point lat2 lon2) = cU lat1 lon1 lat2 lon2 := by
  rw [point_eq_comb lat1 lon1 lat2 lon2, dot_comb]

theorem atan2_scale {k : ℝ} (hk : 0 < k) (y x : ℝ) : atan2 (k * y) (k * x) = atan2 y x := by
  unfold atan2
  rw [← Complex.arg_real_mul ⟨x, y⟩ hk]
  congr 1
  apply Complex.ext <;> simp

theorem cos_atan2_mul (y x : ℝ) : sqrt (x ^ 2 + y ^ 2) * cos (atan2 y x) = x := by
  by_cases h : x ^ 2 + y ^ 2 = 0
  · have hx : x = 0 := by nlinarith [sq_nonneg x, sq_nonneg y]
    rw [h, sqrt_zero, zero_mul, hx]
  · rw [cos_atan2 h]
    have : sqrt (x ^ 2 + y ^ 2) ≠ 0 := by
      intro hs; rw [sqrt_eq_zero (by positivity)] at hs; exact h hs
    field_simp

theorem sin_atan2_mul (y x : ℝ) : sqrt (x ^ 2 + y ^ 2) * sin (atan2 y x) = y := by
  by_cases h : x ^ 2 + y ^ 2 = 0
  · have hy : y = 0 := by nlinarith [sq_nonneg x, sq_nonneg y]
    rw [h, sqrt_zero, zero_mul, hy]
  · rw [sin_atan2]
    have : sqrt (x ^ 2 + y ^ 2) ≠ 0 := by
      intro hs; rw [sqrt_eq_zero (by positivity)] at hs; exact h hs
    field_simp

/-- the point with given local components -/
theorem point_of_comb {lat lon u n e : ℝ} (h : u ^ 2 + n ^ 2 + e ^ 2 = 1) (k : ℝ) (hk : 0 < k) :
    Spec.point (deg (arcsin (u * sin (rad lat) + n * cos (rad lat))))
      (deg (rad lon + atan2 (k * e) (k * (u * cos (rad lat) - n * sin (rad lat))))) = comb lat lon u n e := by
  rw [atan2_scale hk, comb_explicit]
  have h1 := sin_sq_add_cos_sq (rad lat)
  have hz : (u * sin (rad lat) + n * cos (rad lat)) ^ 2 + (u * cos (rad lat) - n * sin (rad lat)) ^ 2 + e ^ 2 = 1 := by
    generalize sin (rad lat) = s1 at *; generalize cos (rad lat) = c1 at *
    linear_combination (u ^ 2 + n ^ 2) * h1 + h
  obtain ⟨z, hzz⟩ : ∃ z, z = u * sin (rad lat) + n * cos (rad lat) := ⟨_, rfl⟩
  obtain ⟨w, hw⟩ : ∃ w, w = u * cos (rad lat) - n * sin (rad lat) := ⟨_, rfl⟩
  rw [← hzz, ← hw] at hz ⊢
  have hz1 : -1 ≤ z ∧ z ≤ 1 := by constructor <;> nlinarith [sq_nonneg w, sq_nonneg e]
  have hc : cos (arcsin z) = sqrt (w ^ 2 + e ^ 2) := by
    rw [cos_arcsin]; congr 1; linarith
  unfold Spec.point
  rw [rad_deg, rad_deg, sin_arcsin hz1.1 hz1.2, hc, cos_add, sin_add]
  have a1 := cos_atan2_mul e w
  have a2 := sin_atan2_mul e w
  generalize sqrt (w ^ 2 + e ^ 2) = q at *
  generalize cos (atan2 e w) = C at *; generalize sin (atan2 e w) = S at *
  ext
  · simp only []; linear_combination cos (rad lon) * a1 - sin (rad lon) * a2
  · simp only []; linear_combination sin (rad lon) * a1 + cos (rad lon) * a2
  · simp only []

/-- angles determine coordinates: latitude -/
theorem lat_of_point {lat1 lon1 lat2 lon2 : ℝ} (h : Spec.point lat1 lon1 = Spec.point lat2 lon2) (h1 : |lat1| ≤ 90) (h2 : |lat2| ≤ 90) : lat1 = lat2 := by
  have c := congrArg (fun t : ℝ × ℝ × ℝ => t.2.2) h
  simp only [Spec.point] at c
  have hp := pi_pos
  have conv : ∀ x : ℝ, |x| ≤ 90 → rad x ∈ Set.Icc (-(π / 2)) (π / 2) := by
    intro x hx
    obtain ⟨a, b⟩ := abs_le.mp hx
    unfold rad
    constructor <;> nlinarith
  have := injOn_sin (conv _ h1) (conv _ h2) c
  have := congrArg deg this
  rwa [deg_rad, deg_rad] at this

/-- longitude, off the poles and within half a turn -/
theorem lon_of_point {lat lon1 lon2 l0 : ℝ} (h : Spec.point lat lon1 = Spec.point lat lon2) (hc : cos (rad lat) ≠ 0)
    (h1 : -180 < lon1 - l0 ∧ lon1 - l0 ≤ 180) (h2 : -180 < lon2 - l0 ∧ lon2 - l0 ≤ 180) : lon1 = lon2 := by
  have a := congrArg Prod.fst h
  have b := congrArg (fun t : ℝ × ℝ × ℝ => t.2.1) h
  simp only [Spec.point] at a b
  have a' := mul_left_cancel₀ hc a
  have b' := mul_left_cancel₀ hc b
  have hp := pi_pos
  have e1 : atan2 (sin (rad (lon1 - l0))) (cos (rad (lon1 - l0))) = rad (lon1 - l0) := by
    have := atan2_polar (r := 1) (t := rad (lon1 - l0)) one_pos (by unfold rad; constructor <;> nlinarith)
    simpa using this
  have e2 : atan2 (sin (rad (lon2 - l0))) (cos (rad (lon2 - l0))) = rad (lon2 - l0) := by
    have := atan2_polar (r := 1) (t := rad (lon2 - l0)) one_pos (by unfold rad; constructor <;> nlinarith)
    simpa using this
  have e3 : rad (lon1 - l0) = rad (lon2 - l0) := by
    rw [← e1, ← e2, rad_sub, rad_sub, sin_sub, sin_sub, cos_sub, cos_sub, a', b']
  have := congrArg deg e3
  rw [deg_rad, deg_rad] at this
  linarith

end Ecl.Geo
