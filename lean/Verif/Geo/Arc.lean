import Verif.Geo.LineArc

/-!
# C100 — distance to an arc: exact contract of the code

Inside the sector tested by the code the distance is the radial one; outside it is the distance to the nearer of two
points displaced from the *position* (not from the centre).  Consequences: outside the sector the result does not depend
on the centre at all, arcs in the western half plane never contain a position, and a negative sweep tests the
complementary sector.
-/

namespace Ecl.Geo
open Real

/-- the angle `b` lies in the part of the circle swept from `s` to `e` (both in [0, 2π]), possibly through zero -/
def Spec.InArc (s e b : ℝ) : Prop := (s ≤ e ∧ s ≤ b ∧ b ≤ e) ∨ (e < s ∧ (s < b ∨ b < e))

/-- sector limits of an arc with a non-negative sweep: the end bearing is brought back below one turn once -/
noncomputable def Spec.arcEnd (start sweep : ℝ) : ℝ := if 2 * π < start + sweep then start + sweep - 2 * π else start + sweep

/-- sector tested for a negative sweep (from `start + |sweep|` round through zero to `start`) -/
noncomputable def Spec.negStart (start sweep : ℝ) : ℝ := if start - sweep < 0 then start - sweep + 2 * π else start - sweep

/-- the sector test of the code -/
def Spec.Sector (start sweep b : ℝ) : Prop :=
  (0 ≤ sweep → Spec.InArc start (Spec.arcEnd start sweep) b) ∧ (sweep < 0 → Spec.InArc (Spec.negStart start sweep) start b)

/-- point displaced by `radius` along `bearing` from a position, with 111111 m per degree and the cosine applied to the latitude
(in degrees, as in the code) -/
noncomputable def Spec.displaced (lat lon radius bearing : ℝ) : ℝ × ℝ :=
  (lat + radius * cos bearing * cos lat / 111111, lon + radius * sin bearing / 111111)

/-- **C100 (inside the sector).** If the bearing from the position *to the centre* is in the sector, the distance is the absolute difference
between radius and distance to the centre, the position is not past the end, and the bearing is towards the centre from outside
the circle, away from it from inside. -/
theorem arc_in_sector (lat lon latC lonC radius start sweep : ℝ) (hr : 1 / 10 ≤ radius)
    (h : Spec.Sector start sweep (bearing lat lon latC lonC)) :
    let r := distanceToArc lat lon latC lonC radius start sweep
    r.ret = 0 ∧ r.pastEnd = false ∧ r.dist = |radius - distance lat lon latC lonC| ∧
    (distance lat lon latC lonC ≤ radius → r.brg = wrapPi (bearing lat lon latC lonC + π)) ∧
    (radius < distance lat lon latC lonC → r.brg = wrapPi (bearing lat lon latC lonC)) := by
  intro r
  have hv : r = if distance lat lon latC lonC ≤ radius then
      ⟨false, radius - distance lat lon latC lonC, wrapPi (bearing lat lon latC lonC + π), 0⟩
      else ⟨false, distance lat lon latC lonC - radius, wrapPi (bearing lat lon latC lonC), 0⟩ := by
    simp only [r]
    unfold distanceToArc
    simp only []
    rw [if_neg (not_lt.mpr hr)]
    rcases le_or_gt 0 sweep with hs | hs
    · have h' := h.1 hs
      rw [if_pos (by exact hs : sweep ≥ 0)]
      rw [if_pos (by exact h')]
      split_ifs <;> rfl
    · have h' := h.2 hs
      rw [if_neg (show ¬ sweep ≥ 0 from not_le.mpr hs)]
      rw [if_pos (by exact h')]
      split_ifs <;> rfl
  rw [hv]
  split_ifs with hd
  · refine ⟨rfl, rfl, ?_, fun _ => rfl, fun h => absurd h (not_lt.mpr hd)⟩
    rw [abs_of_nonneg (by linarith)]
  · refine ⟨rfl, rfl, ?_, fun h => absurd h hd, fun _ => rfl⟩
    push Not at hd
    rw [abs_of_neg (by linarith)]; simp

/-- **C100 (outside the sector).** Otherwise the result is the distance and bearing to the nearer of the two points obtained by displacing the
*position* by the radius along the start and the end bearing; "past the end" is reported exactly when the start point is not strictly
nearer. -/
theorem arc_outside_sector (lat lon latC lonC radius start sweep : ℝ) (hr : 1 / 10 ≤ radius)
    (h : ¬ Spec.Sector start sweep (bearing lat lon latC lonC)) :
    let r := distanceToArc lat lon latC lonC radius start sweep
    let S := Spec.displaced lat lon radius start
    let E := Spec.displaced lat lon radius (start + sweep)
    r.ret = 0 ∧ r.dist = min (distance lat lon S.1 S.2) (distance lat lon E.1 E.2) ∧
    (r.pastEnd = true ↔ distance lat lon E.1 E.2 ≤ distance lat lon S.1 S.2) ∧
    (r.pastEnd = false → r.brg = wrapPi (bearing lat lon S.1 S.2)) ∧
    (r.pastEnd = true → r.brg = wrapPi (bearing lat lon E.1 E.2)) := by
  intro r S E
  have hv : r = if distance lat lon S.1 S.2 < distance lat lon E.1 E.2 then
      ⟨false, distance lat lon S.1 S.2, wrapPi (bearing lat lon S.1 S.2), 0⟩
      else ⟨true, distance lat lon E.1 E.2, wrapPi (bearing lat lon E.1 E.2), 0⟩ := by
    simp only [r, S, E, Spec.displaced]
    unfold distanceToArc
    simp only []
    rw [if_neg (not_lt.mpr hr), ← cos_wrapPi (start + sweep), ← sin_wrapPi (start + sweep)]
    rcases le_or_gt 0 sweep with hs | hs
    · have h' : ¬ Spec.InArc start (Spec.arcEnd start sweep) (bearing lat lon latC lonC) :=
        fun k => h ⟨fun _ => k, fun k' => absurd hs (not_le.mpr k')⟩
      rw [if_pos (by exact hs : sweep ≥ 0)]
      rw [if_neg (by exact h')]
      split_ifs <;> rfl
    · have h' : ¬ Spec.InArc (Spec.negStart start sweep) start (bearing lat lon latC lonC) :=
        fun k => h ⟨fun k' => absurd hs (not_lt.mpr k'), fun _ => k⟩
      rw [if_neg (show ¬ sweep ≥ 0 from not_le.mpr hs)]
      rw [if_neg (by exact h')]
      split_ifs <;> rfl
  rw [hv]
  split_ifs with hd
  · refine ⟨rfl, (min_eq_left hd.le).symm, ⟨fun h => absurd h (by simp), fun h => absurd hd (not_lt.mpr h)⟩, fun _ => rfl, fun h => absurd h (by simp)⟩
  · exact ⟨rfl, (min_eq_right (not_lt.mp hd)).symm, ⟨fun _ => not_lt.mp hd, fun _ => rfl⟩, fun h => absurd h (by simp), fun _ => rfl⟩

/-- **C100, finding.** Outside the sector the whole result is the same for every centre: an arc a kilometre away and one on the other side of
the earth are reported at the same distance and bearing. -/
theorem arc_outside_ignores_centre (lat lon latC lonC latC' lonC' radius start sweep : ℝ)
    (h : ¬ Spec.Sector start sweep (bearing lat lon latC lonC)) (h' : ¬ Spec.Sector start sweep (bearing lat lon latC' lonC')) :
    distanceToArc lat lon latC lonC radius start sweep = distanceToArc lat lon latC' lonC' radius start sweep := by
  rcases lt_or_ge radius (1 / 10) with hr | hr
  · rw [(distanceToArc_spec _ _ _ _ _ _ _).1 hr, (distanceToArc_spec _ _ _ _ _ _ _).1 hr]
  · have a := arc_outside_sector lat lon latC lonC radius start sweep hr h
    have b := arc_outside_sector lat lon latC' lonC' radius start sweep hr h'
    simp only [] at a b
    obtain ⟨a1, a2, a3, a4, a5⟩ := a
    obtain ⟨b1, b2, b3, b4, b5⟩ := b
    generalize distanceToArc lat lon latC lonC radius start sweep = x at *
    generalize distanceToArc lat lon latC' lonC' radius start sweep = y at *
    have hp : x.pastEnd = y.pastEnd := by
      rw [Bool.eq_iff_iff, a3, b3]
    have hb : x.brg = y.brg := by
      cases hx : x.pastEnd
      · rw [a4 hx, b4 (hp ▸ hx)]
      · rw [a5 hx, b5 (hp ▸ hx)]
    cases x; cases y
    simp only [] at *
    rw [hp, a2, b2, hb, a1, b1]

/-- bearings reported by the library lie in [−π, π) -/
theorem bearing_range (lat1 lon1 lat2 lon2 : ℝ) : -π ≤ bearing lat1 lon1 lat2 lon2 ∧ bearing lat1 lon1 lat2 lon2 < π := by
  unfold bearing; exact (wrapPi_spec _).1

/-- **C100, finding.** Bearings to the centre lie in [−π, π), arc bearings in [0, 2π]: an arc that lies entirely between the bearings π and 2π
contains no position whatever, so the radial distance is never reported for it. -/
theorem arc_west_never_in_sector (lat lon latC lonC start sweep : ℝ) (h0 : π ≤ start) (h1 : 0 ≤ sweep) (h2 : start + sweep ≤ 2 * π) :
    ¬ Spec.Sector start sweep (bearing lat lon latC lonC) := by
  intro h
  have hb := bearing_range lat lon latC lonC
  have := h.1 h1
  unfold Spec.arcEnd at this
  rw [if_neg (not_lt.mpr h2)] at this
  rcases this with ⟨-, k, -⟩ | ⟨k, -⟩
  · linarith
  · linarith

/-- **C100, finding.** For a negative sweep the code tests the sector from `start + |sweep|` through zero to `start`; the bearings actually
swept lie between `start − |sweep|` and `start`.  A bearing between π and −(small) that is nowhere near the arc is accepted: with start 1
and sweep −1/2 (bearings 0.5 to 1) every bearing below 1 is accepted, e.g. −2. -/
theorem arc_negative_sweep_sector (b : ℝ) : Spec.Sector 1 (-(1 / 2)) b ↔ (3 / 2 < b ∨ b < 1) := by
  unfold Spec.Sector Spec.InArc Spec.negStart
  rw [if_neg (by norm_num)]
  constructor
  · intro h
    rcases h.2 (by norm_num) with ⟨k, -⟩ | ⟨-, k⟩
    · norm_num at k
    · rcases k with k | k
      · left; linarith
      · exact Or.inr k
  · intro h
    refine ⟨fun k => absurd k (by norm_num), fun _ => Or.inr ⟨by norm_num, ?_⟩⟩
    rcases h with k | k
    · left; linarith
    · exact Or.inr k

/-- non-vacuity of `arc_in_sector`: the position west of the centre of `arc_wrong_side` -/
example : Spec.Sector 1 1 (bearing 0 (-1) 0 0) := by
  have hp3 := pi_gt_three
  have hp4 := pi_lt_four
  have hp := pi_pos
  have hrad : rad 1 = π / 180 := by unfold rad; ring
  have hs : 0 < sin (rad 1) := sin_pos_of_pos_of_lt_pi (by rw [hrad]; positivity) (by rw [hrad]; linarith)
  have hb : bearing 0 (-1) 0 0 = π / 2 := by
    rw [bearing_equator, show (0 : ℝ) - -1 = 1 by ring]
    have := atan2_polar (r := sin (rad 1)) (t := π / 2) hs ⟨by linarith, by linarith⟩
    rw [cos_pi_div_two, sin_pi_div_two, mul_one, mul_zero] at this
    rw [this, wrapPi_id (by linarith) (by linarith)]
  rw [hb]
  refine ⟨fun _ => Or.inl ?_, fun h => absurd h (by norm_num)⟩
  unfold Spec.arcEnd
  rw [if_neg (by linarith)]
  exact ⟨by norm_num, by linarith, by linarith⟩

/-- non-vacuity of `arc_outside_sector` and `arc_outside_ignores_centre` -/
example : ¬ Spec.Sector 4 1 (bearing 47 8 47.01 8) ∧ ¬ Spec.Sector 4 1 (bearing 47 8 (-47) (-172)) :=
  have hp4 : π < 3.15 := pi_lt_d2
  have hp3 := pi_gt_three
  ⟨arc_west_never_in_sector _ _ _ _ _ _ (by norm_num at hp4; linarith) (by norm_num) (by linarith),
   arc_west_never_in_sector _ _ _ _ _ _ (by norm_num at hp4; linarith) (by norm_num) (by linarith)⟩

end Ecl.Geo
