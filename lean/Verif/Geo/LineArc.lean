import Verif.Geo.Props
import Mathlib.Analysis.Real.Pi.Bounds

/-!
# Distance to a line and to an arc (C99, C100)
-/

namespace Ecl.Geo

open Real

/-- for an angle in [−π, π): more than a quarter turn away from zero exactly if the cosine is negative -/
theorem cos_neg_iff {x : ℝ} (h1 : -π ≤ x) (h2 : x < π) : cos x < 0 ↔ (x > π / 2 ∨ x < -(π / 2)) := by
  have hp := pi_pos
  constructor
  · intro h
    by_contra hc
    push Not at hc
    have := cos_nonneg_of_neg_pi_div_two_le_of_le hc.2 hc.1
    linarith
  · rintro (h | h)
    · exact cos_neg_of_pi_div_two_lt_of_lt h (by linarith)
    · rw [← cos_neg]; exact cos_neg_of_pi_div_two_lt_of_lt (by linarith) (by linarith)

/-- **C99 (distance to a line).** With T the bearing from start to end and E the bearing from the current position to the end: closer than
0.1 m to the end the call fails (−1) with zero outputs; otherwise it succeeds, reports "past end" exactly if the two directions
differ by more than a quarter turn (and zero distance and bearing then), and else distance = (distance to end)·sin(T − E), never
longer than the distance to the end, with a bearing at right angles to the track, pointing left of it for distances ≥ 0 and right
of it for negative ones. -/
theorem distanceToLine_spec (lat lon latS lonS latE lonE : ℝ) :
    let D := distance lat lon latE lonE
    let T := bearing latS lonS latE lonE
    let E := bearing lat lon latE lonE
    let r := distanceToLine lat lon latS lonS latE lonE
    (D < 1 / 10 → r = ⟨false, 0, 0, -1⟩) ∧
    (1 / 10 ≤ D → r.ret = 0 ∧ (r.pastEnd = true ↔ cos (T - E) < 0) ∧ (cos (T - E) < 0 → r.dist = 0 ∧ r.brg = 0) ∧
      (0 ≤ cos (T - E) → r.dist = D * sin (T - E) ∧ |r.dist| ≤ D ∧ (-π ≤ r.brg ∧ r.brg < π) ∧
        (0 ≤ r.dist → cos r.brg = cos (T - π / 2) ∧ sin r.brg = sin (T - π / 2)) ∧
        (r.dist < 0 → cos r.brg = cos (T + π / 2) ∧ sin r.brg = sin (T + π / 2)))) := by
  intro D T E r
  have hr : r = if D < 1 / 10 then ⟨false, 0, 0, -1⟩
    else if wrapPi (T - E) > π / 2 ∨ wrapPi (T - E) < -(π / 2) then ⟨true, 0, 0, 0⟩
    else ⟨false, D * sin (wrapPi (T - E)), if sin (wrapPi (T - E)) ≥ 0 then wrapPi (T - π / 2) else wrapPi (T + π / 2), 0⟩ := rfl
  have hw := (wrapPi_spec (T - E)).1
  have hiff := cos_neg_iff hw.1 hw.2
  rw [cos_wrapPi] at hiff
  rw [hr]
  constructor
  · intro h; rw [if_pos h]
  · intro h
    rw [if_neg (not_lt.mpr h)]
    by_cases hc : cos (T - E) < 0
    · rw [if_pos (hiff.mp hc)]
      exact ⟨rfl, ⟨fun _ => hc, fun _ => rfl⟩, fun _ => ⟨rfl, rfl⟩, fun h => absurd hc (not_lt.mpr h)⟩
    · rw [if_neg (fun h => hc (hiff.mpr h))]
      rw [sin_wrapPi]
      refine ⟨rfl, ⟨fun h => by simp at h, fun h => absurd h hc⟩, fun h => absurd h hc, fun _ => ⟨rfl, ?_, ?_, ?_, ?_⟩⟩
      · simp only []
        rw [abs_mul, abs_of_nonneg (by linarith : (0 : ℝ) ≤ D)]
        exact mul_le_of_le_one_right (by linarith) (abs_sin_le_one _)
      · simp only []
        split
        · exact (wrapPi_spec _).1
        · exact (wrapPi_spec _).1
      · simp only []
        intro h0
        rw [if_pos (by by_contra hn; push Not at hn; nlinarith), cos_wrapPi, sin_wrapPi]
        exact ⟨rfl, rfl⟩
      · simp only []
        intro h0
        rw [if_neg (by intro hn; nlinarith [mul_nonneg (by linarith : (0 : ℝ) ≤ D) hn]), cos_wrapPi, sin_wrapPi]
        exact ⟨rfl, rfl⟩

theorem wrapPi_id {x : ℝ} (h1 : -π ≤ x) (h2 : x < π) : wrapPi x = x := by unfold wrapPi; rw [if_pos ⟨h1, h2⟩]

/-- along a meridian, northwards -/
theorem bearing_north {lat1 lat2 lon : ℝ} (h : 0 < sin (rad lat2 - rad lat1)) : bearing lat1 lon lat2 lon = 0 := by
  have hp := pi_pos
  have e : bearing lat1 lon lat2 lon = wrapPi (atan2 0 (sin (rad lat2 - rad lat1))) := by
    unfold bearing; simp only [show rad (lon - lon) = 0 by unfold rad; ring, sin_zero, cos_zero, zero_mul, mul_one]
    rw [sin_sub]; congr 2; ring
  have := atan2_polar (r := sin (rad lat2 - rad lat1)) (t := 0) h ⟨by linarith, by linarith⟩
  rw [cos_zero, sin_zero, mul_one, mul_zero] at this
  rw [e, this, wrapPi_id (by linarith) hp]

/-- along a meridian, southwards -/
theorem bearing_south {lat1 lat2 lon : ℝ} (h : sin (rad lat2 - rad lat1) < 0) : cos (bearing lat1 lon lat2 lon) = -1 := by
  have hp := pi_pos
  have e : bearing lat1 lon lat2 lon = wrapPi (atan2 0 (sin (rad lat2 - rad lat1))) := by
    unfold bearing; simp only [show rad (lon - lon) = 0 by unfold rad; ring, sin_zero, cos_zero, zero_mul, mul_one]
    rw [sin_sub]; congr 2; ring
  have := atan2_polar (r := -sin (rad lat2 - rad lat1)) (t := π) (by linarith) ⟨by linarith, le_refl _⟩
  rw [cos_pi, sin_pi, mul_zero] at this
  rw [show -sin (rad lat2 - rad lat1) * -1 = sin (rad lat2 - rad lat1) by ring] at this
  rw [e, this, cos_wrapPi, cos_pi]

/-- non-vacuity of `distanceToLine_spec`: east of a northbound track from the equator -/
example : 1 / 10 ≤ distance 0 1 1 1 := by
  have hp := pi_gt_three
  rw [distance_eq]
  unfold Spec.angle
  rw [dot_eq_cU]
  unfold cU
  rw [sub_self, cos_zero, mul_one, show sin (rad 0) * sin (rad 1) + cos (rad 0) * cos (rad 1) = cos (rad 1 - rad 0) by rw [cos_sub]; ring]
  unfold rad
  rw [show (1 : ℝ) / 180 * π - 0 / 180 * π = π / 180 by ring, arccos_cos (by positivity) (by linarith)]
  nlinarith

/-- **C99, counterexample.** The great circle line is not what the distance refers to: the track bearing is taken at the start point only. On a
track that goes from (45°, −90°) over the pole to (45°, 90°), the point (60°, 90°), which lies on the track between pole and end,
75 of 90 degrees along it, is reported as past the end. -/
theorem distanceToLine_on_track_past_end :
    Spec.angle 45 (-90) 45 90 = rad 90 ∧ Spec.angle 45 (-90) 60 90 = rad 75 ∧
    Spec.point 45 90 = Spec.travel 45 (-90) 0 (rad 90) ∧ Spec.point 60 90 = Spec.travel 45 (-90) 0 (rad 75) ∧
    distanceToLine 60 90 45 (-90) 45 90 = ⟨true, 0, 0, 0⟩ := by
  have hp := pi_pos
  have hp3 := pi_gt_three
  -- bearings
  have hlon : rad 90 - rad (-90) = π := by unfold rad; ring
  have hU : ∀ a : ℝ, cU 45 (-90) a 90 = cos (π - rad 45 - rad a) := by
    intro a; unfold cU; rw [hlon, cos_pi, sub_sub, cos_pi_sub, cos_add]; ring
  have hang : ∀ a : ℝ, 0 ≤ a → a ≤ 90 → Spec.angle 45 (-90) a 90 = π - rad 45 - rad a := by
    intro a h0 h1
    unfold Spec.angle; rw [dot_eq_cU, hU, arccos_cos]
    · unfold rad; nlinarith
    · unfold rad; nlinarith
  have a1 : Spec.angle 45 (-90) 45 90 = rad 90 := by rw [hang _ (by norm_num) (by norm_num)]; unfold rad; ring
  have a2 : Spec.angle 45 (-90) 60 90 = rad 75 := by rw [hang _ (by norm_num) (by norm_num)]; unfold rad; ring
  have hE : ∀ a : ℝ, cE a (-90) 90 = 0 := by intro a; unfold cE; rw [hlon, sin_pi, mul_zero]
  have hN : ∀ a : ℝ, cN 45 (-90) a 90 = sin (π - rad 45 - rad a) := by
    intro a; unfold cN; rw [hlon, cos_pi, sub_sub, sin_pi_sub, sin_add]; ring
  have ht : ∀ a : ℝ, Spec.point a 90 = Spec.travel 45 (-90) 0 (π - rad 45 - rad a) := by
    intro a
    rw [travel_eq_comb, cos_zero, sin_zero, mul_one, mul_zero, point_eq_comb 45 (-90) a 90, hU, hN, hE]
  have t1 : bearing 45 (-90) 45 90 = 0 := by
    have e : bearing 45 (-90) 45 90 = wrapPi (atan2 (cE 45 (-90) 90) (cN 45 (-90) 45 90)) := by
      unfold bearing cE cN; simp only [rad_sub]; rw [mul_comm (sin _)]
    have hs : 0 < sin (π - rad 45 - rad 45) := by
      apply sin_pos_of_pos_of_lt_pi <;> unfold rad <;> nlinarith
    have := atan2_polar (r := sin (π - rad 45 - rad 45)) (t := 0) hs ⟨by linarith, by linarith⟩
    rw [cos_zero, sin_zero, mul_one, mul_zero] at this
    rw [e, hE, hN, this, wrapPi_id (by linarith) hp]
  have t2 : cos (bearing 60 90 45 90) = -1 := by
    apply bearing_south
    rw [show rad 45 - rad 60 = -(π / 12) by unfold rad; ring, sin_neg]
    have := sin_pos_of_pos_of_lt_pi (x := π / 12) (by linarith) (by linarith)
    linarith
  refine ⟨a1, a2, ?_, ?_, ?_⟩
  · rw [ht 45]; congr 1; unfold rad; ring
  · rw [ht 60]; congr 1; unfold rad; ring
  · have hd : distance 60 90 45 90 = 6371000 * (π / 12) := by
      rw [distance_eq]
      unfold Spec.angle
      rw [dot_eq_cU]; unfold cU
      rw [sub_self, cos_zero, mul_one, show sin (rad 60) * sin (rad 45) + cos (rad 60) * cos (rad 45) = cos (rad 60 - rad 45) by rw [cos_sub]; ring,
        show rad 60 - rad 45 = π / 12 by unfold rad; ring, arccos_cos (by positivity) (by linarith)]
    have hs := distanceToLine_spec 60 90 45 (-90) 45 90
    simp only [] at hs
    have h2 := hs.2 (by rw [hd]; nlinarith)
    rw [t1, zero_sub, cos_neg, t2] at h2
    obtain ⟨q1, q2, q3, -⟩ := h2
    have p1 := q2.mpr (by norm_num)
    obtain ⟨p2, p3⟩ := q3 (by norm_num)
    cases hh : distanceToLine 60 90 45 (-90) 45 90 with
    | mk a b c d =>
      rw [hh] at p1 p2 p3 q1
      simp only [] at p1 p2 p3 q1
      rw [p1, p2, p3, q1]

/-! ## Arc -/

/-- **C100.** Distance to an arc: a radius below 0.1 m fails with zero outputs; otherwise the call succeeds with a bearing in [−π, π) and a
distance that is never negative, whichever side of the arc the position is on. -/
theorem distanceToArc_spec (lat lon latC lonC radius start sweep : ℝ) :
    let r := distanceToArc lat lon latC lonC radius start sweep
    (radius < 1 / 10 → r = ⟨false, 0, 0, -1⟩) ∧
    (1 / 10 ≤ radius → r.ret = 0 ∧ (-π ≤ r.brg ∧ r.brg < π) ∧ 0 ≤ r.dist) := by
  intro r
  constructor
  · intro h
    show distanceToArc lat lon latC lonC radius start sweep = _
    unfold distanceToArc
    simp only []
    rw [if_pos h]
  · intro h
    have hd : ∀ a b c d, 0 ≤ distance a b c d := fun a b c d => (distance_metric a b c d 0 0).2.1
    show (distanceToArc lat lon latC lonC radius start sweep).ret = 0 ∧ _ ∧ 0 ≤ (distanceToArc lat lon latC lonC radius start sweep).dist
    have hb : -π ≤ (distanceToArc lat lon latC lonC radius start sweep).brg ∧ (distanceToArc lat lon latC lonC radius start sweep).brg < π := by
      unfold distanceToArc
      simp only []
      rw [if_neg (not_lt.mpr h)]
      exact (wrapPi_spec _).1
    refine ⟨?_, hb, ?_⟩
    · unfold distanceToArc
      simp only []
      rw [if_neg (not_lt.mpr h)]
      simp only []
      split_ifs <;> rfl
    · unfold distanceToArc
      simp only []
      rw [if_neg (not_lt.mpr h)]
      simp only []
      split_ifs <;> simp only [] <;> first | exact hd _ _ _ _ | linarith

theorem bearing_equator (lon1 lon2 : ℝ) : bearing 0 lon1 0 lon2 = wrapPi (atan2 (sin (rad (lon2 - lon1))) 0) := by
  unfold bearing
  have : rad 0 = 0 := by unfold rad; ring
  simp only [this, sin_zero, cos_zero]
  congr 2 <;> ring

theorem distance_equator {l : ℝ} (h0 : 0 ≤ l) (h1 : l ≤ 180) (lon1 lon2 : ℝ) (h : |lon1 - lon2| = l) : distance 0 lon1 0 lon2 = 6371000 * rad l := by
  have hp := pi_pos
  rw [distance_eq]
  unfold Spec.angle
  rw [dot_eq_cU]
  unfold cU
  have z : rad 0 = 0 := by unfold rad; ring
  have e : cos (rad lon2 - rad lon1) = cos (rad l) := by
    rw [← h, ← cos_abs]
    congr 1
    unfold rad
    rw [← sub_mul, ← sub_div, abs_mul, abs_div, abs_of_pos hp, abs_of_pos (by norm_num : (0 : ℝ) < 180), abs_sub_comm]
  rw [z, sin_zero, cos_zero, e]
  have : arccos (0 * 0 + 1 * 1 * cos (rad l)) = rad l := by
    rw [show (0 : ℝ) * 0 + 1 * 1 * cos (rad l) = cos (rad l) by ring]
    apply arccos_cos
    · unfold rad; positivity
    · unfold rad; nlinarith
  rw [this]

/-- **C100, counterexample (wrong side).** The sector test uses the bearing from the position to the centre where it needs the bearing from
the centre to the position. For the arc of radius one degree around (0°, 0°) between the bearings 1 and 2 rad (to the east of the
centre) the position (0°, −1°) to the west of the centre is reported with distance zero, although every point of the arc is
more than the radius away. -/
theorem arc_wrong_side :
    let radius := 6371000 * rad 1
    (distanceToArc 0 (-1) 0 0 radius 1 1).dist = 0 ∧ (distanceToArc 0 (-1) 0 0 radius 1 1).pastEnd = false ∧
    (distanceToArc 0 (-1) 0 0 radius 1 1).ret = 0 ∧
    ∀ b lat lon, 1 ≤ b → b ≤ 2 → Spec.point lat lon = Spec.travel 0 0 b (rad 1) → radius < distance 0 (-1) lat lon := by
  intro radius
  have hp := pi_pos
  have hp3 := pi_gt_three
  have hp4 := pi_lt_four
  have hp31 : π < 3.15 := pi_lt_d2
  have hrad : rad 1 = π / 180 := by unfold rad; ring
  have hr1 : 0 < rad 1 := by rw [hrad]; positivity
  have hs : 0 < sin (rad 1) := sin_pos_of_pos_of_lt_pi hr1 (by rw [hrad]; linarith)
  have hb : bearing 0 (-1) 0 0 = π / 2 := by
    rw [bearing_equator, show (0 : ℝ) - -1 = 1 by ring]
    have := atan2_polar (r := sin (rad 1)) (t := π / 2) hs ⟨by linarith, by linarith⟩
    rw [cos_pi_div_two, sin_pi_div_two, mul_one, mul_zero] at this
    rw [this, wrapPi_id (by linarith) (by linarith)]
  have hd : distance 0 (-1) 0 0 = radius := distance_equator (by norm_num) (by norm_num) _ _ (by norm_num)
  have hrad1 : ¬ radius < 1 / 10 := by simp only [radius]; rw [hrad]; push Not; nlinarith
  have hval : distanceToArc 0 (-1) 0 0 radius 1 1 = ⟨false, 0, wrapPi (π / 2 + π), 0⟩ := by
    unfold distanceToArc
    simp only []
    rw [if_neg hrad1, hb, hd]
    rw [if_pos (by norm_num : (1 : ℝ) ≥ 0), if_neg (by linarith : ¬ (1 : ℝ) + 1 > 2 * π)]
    rw [if_pos (Or.inl ⟨by norm_num, by linarith, by norm_num; linarith⟩), if_pos le_rfl]
    simp
  rw [hval]
  refine ⟨rfl, rfl, rfl, fun b lat lon h1 h2 hpt => ?_⟩
  rw [distance_eq]
  simp only [radius]
  apply mul_lt_mul_of_pos_left _ (by norm_num)
  have hang : Spec.dot (Spec.point 0 (-1)) (Spec.point lat lon) = cos (rad 1) ^ 2 - sin (rad 1) ^ 2 * sin b := by
    rw [hpt]
    unfold Spec.dot Spec.travel Spec.point Spec.north Spec.east
    have z : rad 0 = 0 := by unfold rad; ring
    have m : rad (-1) = -rad 1 := by unfold rad; ring
    simp only [z, m, sin_zero, cos_zero, sin_neg, cos_neg]
    ring
  have hsb : 0 < sin b := sin_pos_of_pos_of_lt_pi (by linarith) (by linarith)
  have hc1 : 0 < cos (rad 1) := cos_pos_of_mem_Ioo ⟨by rw [hrad]; linarith, by rw [hrad]; linarith⟩
  have hlt : Spec.dot (Spec.point 0 (-1)) (Spec.point lat lon) < cos (rad 1) := by
    rw [hang]
    nlinarith [mul_pos (pow_pos hs 2) hsb, cos_le_one (rad 1)]
  have hge : -1 ≤ Spec.dot (Spec.point 0 (-1)) (Spec.point lat lon) := by
    rw [dot_eq_cU]; exact (cU_range _ _ _ _).1
  have h := arccos_lt_arccos hge hlt (cos_le_one _)
  rw [arccos_cos hr1.le (by rw [hrad]; linarith)] at h
  exact h

/-- **C100, counterexample (on the arc).** With the same arc the position (0°, 1°), which lies on it, is reported as past its end and not on it. -/
theorem arc_not_on_arc :
    let radius := 6371000 * rad 1
    Spec.point 0 1 = Spec.travel 0 0 (π / 2) (rad 1) ∧ 1 ≤ π / 2 ∧ π / 2 ≤ 2 ∧ (distanceToArc 0 1 0 0 radius 1 1).ret = 0 ∧
    0 < (distanceToArc 0 1 0 0 radius 1 1).dist := by
  intro radius
  have hp := pi_pos
  have hp3 := pi_gt_three
  have hp4 := pi_lt_four
  have hp31 : π < 3.15 := pi_lt_d2
  have hrad : rad 1 = π / 180 := by unfold rad; ring
  have hr1 : 0 < rad 1 := by rw [hrad]; positivity
  have hs : 0 < sin (rad 1) := sin_pos_of_pos_of_lt_pi hr1 (by rw [hrad]; linarith)
  have hb : bearing 0 1 0 0 = -(π / 2) := by
    rw [bearing_equator, show (0 : ℝ) - 1 = -1 by ring]
    have := atan2_polar (r := sin (rad 1)) (t := -(π / 2)) hs ⟨by linarith, by linarith⟩
    rw [cos_neg, sin_neg, cos_pi_div_two, sin_pi_div_two, mul_zero, mul_neg, mul_one] at this
    rw [show rad (-1) = -rad 1 by unfold rad; ring, sin_neg, this, wrapPi_id (by linarith) (by linarith)]
  have hrad1 : ¬ radius < 1 / 10 := by simp only [radius]; rw [hrad]; push Not; nlinarith
  have hR0 : 0 < radius := by push Not at hrad1; linarith
  refine ⟨?_, by linarith, by norm_num at hp31; linarith, ((distanceToArc_spec _ _ _ _ _ _ _).2 (not_lt.mp hrad1)).1, ?_⟩
  · unfold Spec.travel Spec.point Spec.north Spec.east
    have z : rad 0 = 0 := by unfold rad; ring
    simp only [z, sin_zero, cos_zero, sin_pi_div_two, cos_pi_div_two]
    ext <;> simp
  · have hpos : ∀ c s : ℝ, c ≠ 0 → |radius * c / 111111| < 180 → 0 < distance 0 1 (0 + radius * c * cos 0 / 111111) (1 + s) := by
      intro c s hc hlt
      have hm := distance_metric 0 1 (0 + radius * c * cos 0 / 111111) (1 + s) 0 0
      rcases eq_or_lt_of_le hm.2.1 with h0 | h0
      · exfalso
        have hpt := hm.2.2.2.1.mp h0.symm
        have h3 := congrArg (fun v : ℝ × ℝ × ℝ => v.2.2) hpt
        unfold Spec.point at h3
        simp only [] at h3
        rw [show rad 0 = 0 by unfold rad; ring, sin_zero, cos_zero, mul_one, zero_add] at h3
        have hne : rad (radius * c / 111111) ≠ 0 := by
          unfold rad
          have : radius ≠ 0 := hR0.ne'
          positivity
        rw [eq_comm, sin_eq_zero_iff_of_lt_of_lt] at h3
        · exact hne h3
        · unfold rad; nlinarith [(abs_lt.mp hlt).1]
        · unfold rad; nlinarith [(abs_lt.mp hlt).2]
      · exact h0
    have hsmall : ∀ c : ℝ, |c| ≤ 1 → |radius * c / 111111| < 180 := by
      intro c hc
      rw [abs_div, abs_mul, abs_of_pos hR0, abs_of_pos (by norm_num : (0 : ℝ) < 111111), div_lt_iff₀ (by norm_num)]
      have : radius < 180 * 111111 := by simp only [radius]; rw [hrad]; nlinarith
      nlinarith [abs_nonneg c]
    have hc1 : cos 1 ≠ 0 := (cos_pos_of_mem_Ioo ⟨by linarith, by linarith⟩).ne'
    have hc2 : cos (wrapPi (1 + 1)) ≠ 0 := by
      rw [cos_wrapPi, show (1 : ℝ) + 1 = 2 by norm_num]
      exact (cos_neg_of_pi_div_two_lt_of_lt (by norm_num at hp31; linarith) (by linarith)).ne
    unfold distanceToArc
    simp only []
    rw [if_neg hrad1, hb]
    simp only []
    rw [if_pos (by norm_num : (1 : ℝ) ≥ 0), if_neg (by linarith : ¬ (1 : ℝ) + 1 > 2 * π)]
    rw [if_neg (by
      rintro (⟨-, h, -⟩ | ⟨h, -⟩)
      · simp only [] at h; linarith
      · norm_num at h)]
    split_ifs
    · exact hpos _ _ hc1 (hsmall _ (abs_cos_le_one _))
    · exact hpos _ _ hc2 (hsmall _ (abs_cos_le_one _))

/-! ## The hypotheses of the theorems on projection and waypoints are met away from the antipode and the poles -/

theorem cos_rad_pos {a : ℝ} (h : |a| < 90) : 0 < cos (rad a) := by
  have hp := pi_pos
  obtain ⟨h1, h2⟩ := abs_lt.mp h
  apply cos_pos_of_mem_Ioo
  constructor <;> unfold rad <;> nlinarith

/-- two points less than a quarter turn in longitude apart and both on the northern (or both on the southern) side are not antipodes -/
theorem angle_ne_pi {lat1 lon1 lat2 lon2 : ℝ} (h1 : |lat1| < 90) (h2 : |lat2| < 90) (h : 0 ≤ lat1 * lat2) (hl : |lon2 - lon1| < 90) :
    Spec.angle lat1 lon1 lat2 lon2 ≠ π := by
  have hp := pi_pos
  intro he
  have hc := cos_angle lat1 lon1 lat2 lon2
  rw [he, cos_pi] at hc
  have c1 := cos_rad_pos h1
  have c2 := cos_rad_pos h2
  have c3 : 0 < cos (rad lon2 - rad lon1) := by rw [← rad_sub]; exact cos_rad_pos hl
  have hs : 0 ≤ sin (rad lat1) * sin (rad lat2) := by
    have key : ∀ a : ℝ, |a| < 90 → (0 ≤ a → 0 ≤ sin (rad a)) ∧ (a ≤ 0 → sin (rad a) ≤ 0) := by
      intro a ha
      obtain ⟨g1, g2⟩ := abs_lt.mp ha
      refine ⟨fun h0 => sin_nonneg_of_nonneg_of_le_pi ?_ ?_, fun h0 => sin_nonpos_of_nonpos_of_neg_pi_le ?_ ?_⟩ <;> unfold rad <;> nlinarith
    rcases le_total 0 lat1 with a | a
    · rcases le_total 0 lat2 with b | b
      · exact mul_nonneg ((key _ h1).1 a) ((key _ h2).1 b)
      · rcases eq_or_lt_of_le a with a0 | a0
        · rw [← a0]; simp [rad]
        · have : lat2 = 0 := by nlinarith
          rw [this]; simp [rad]
    · rcases le_total 0 lat2 with b | b
      · rcases eq_or_lt_of_le a with a0 | a0
        · rw [a0]; simp [rad]
        · have : lat2 = 0 := by nlinarith
          rw [this]; simp [rad]
      · exact mul_nonneg_of_nonpos_of_nonpos ((key _ h1).2 a) ((key _ h2).2 b)
  unfold cU at hc
  have := mul_pos (mul_pos c1 c2) c3
  linarith

/-- non-vacuity of `project_spec`, `reproject_project` and `projected_distance` -/
example : Spec.angle 47 8 46 9 ≠ π := angle_ne_pi (by norm_num) (by norm_num) (by norm_num) (by norm_num)
/-- non-vacuity of `project_reproject`: a point 300 m away -/
example : sqrt ((300 : ℝ) ^ 2 + 0 ^ 2) < π * earthR := by
  have := pi_gt_three
  rw [show (300 : ℝ) ^ 2 + 0 ^ 2 = 300 ^ 2 by norm_num, sqrt_sq (by norm_num)]
  unfold earthR; nlinarith
/-- non-vacuity of the waypoint and vector theorems -/
example : 0 < cos (rad 47) ∧ |(1000 : ℝ)| ≤ π * 6371000 ∧ (1 : ℝ) / 8388608 ≤ |(1000 : ℝ)| := by
  have := pi_gt_three
  refine ⟨cos_rad_pos (by norm_num), ?_, by norm_num⟩
  rw [abs_of_pos (by norm_num)]; nlinarith
/-- non-vacuity of `projection_needs_init` -/
example : (⟨0, 0, 0, 0, 0, false⟩ : Ref).init = false := rfl
/-- non-vacuity of `distanceToArc_spec` -/
example : (1 : ℝ) / 10 ≤ 6371000 * rad 1 := by
  have := pi_gt_three
  unfold rad; nlinarith

end Ecl.Geo
