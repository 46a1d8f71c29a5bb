import Verif.Basic.Num
import Verif.Basic.RealTrig

/-!
# Geographic helper functions — geo/geo.cpp, geo/geo.h

Exact real arithmetic; the C library functions are the exact mathematical functions (`asin`, `acos` on [-1,1], `atan2(0,0) = 0`).
-/

namespace Ecl.Geo

noncomputable section

/-- `CONSTANTS_RADIUS_OF_EARTH`, geo/geo.h:61 -/
def earthR : ℝ := 6371000

/-- `math::radians`, mathlib/mathlib.h:79-82 -/
def rad (d : ℝ) : ℝ := d / 180 * Real.pi
/-- `math::degrees`, mathlib/mathlib.h:85-88 -/
def deg (r : ℝ) : ℝ := r * 180 / Real.pi

/-- `map_projection_reference_s`, geo/geo.h:68-76 -/
structure Ref where
  t : UInt64
  lat : ℝ
  lon : ℝ
  sinLat : ℝ
  cosLat : ℝ
  init : Bool

/-- `map_projection_init_timestamped`, geo/geo.cpp:71-83: new reference and return value -/
def projInit (_ : Ref) (lat lon : ℝ) (t : UInt64) : Ref × ℤ :=
  ({ lat := rad lat, lon := rad lon, sinLat := Real.sin (rad lat), cosLat := Real.cos (rad lat), t := t, init := true }, 0)

/-- `map_projection_initialized`, geo/geo.cpp:60-63 -/
def projInitialized (r : Ref) : Bool := r.init

/-- `map_projection_timestamp`, geo/geo.cpp:65-68 -/
def projTimestamp (r : Ref) : UInt64 := r.t

/-- `map_projection_reference`, geo/geo.cpp:91-101; `none` = output not written -/
def projReference (r : Ref) : Option (ℝ × ℝ) × ℤ := if !projInitialized r then (none, -1) else (some (r.lat, r.lon), 0)

/-- `map_projection_project`, geo/geo.cpp:103-131 -/
def project (r : Ref) (lat lon : ℝ) : Option (ℝ × ℝ) × ℤ :=
  if !projInitialized r then (none, -1)
  else
    let latR := rad lat
    let lonR := rad lon
    let sinLat := Real.sin latR
    let cosLat := Real.cos latR
    let cosD := Real.cos (lonR - r.lon)
    let arg := constrain (r.sinLat * sinLat + r.cosLat * cosLat * cosD) (-1) 1
    let c := Real.arccos arg
    let k := if |c| > 0 then c / Real.sin c else 1
    (some (k * (r.cosLat * sinLat - r.sinLat * cosLat * cosD) * earthR, k * cosLat * Real.sin (lonR - r.lon) * earthR), 0)

/-- `map_projection_reproject`, geo/geo.cpp:133-160 -/
def reproject (r : Ref) (x y : ℝ) : Option (ℝ × ℝ) × ℤ :=
  if !projInitialized r then (none, -1)
  else
    let xr := x / earthR
    let yr := y / earthR
    let c := Real.sqrt (xr * xr + yr * yr)
    if |c| > 0 then
      let sinC := Real.sin c
      let cosC := Real.cos c
      let lat := Real.arcsin (cosC * r.sinLat + (xr * sinC * r.cosLat) / c)
      let lon := r.lon + atan2 (yr * sinC) (c * r.cosLat * cosC - xr * r.sinLat * sinC)
      (some (deg lat, deg lon), 0)
    else (some (deg r.lat, deg r.lon), 0)

/-- `get_distance_to_next_waypoint`, geo/geo.cpp:162-175 -/
def distance (lat1 lon1 lat2 lon2 : ℝ) : ℝ :=
  let dLat := rad lat2 - rad lat1
  let dLon := rad lon2 - rad lon1
  let a := Real.sin (dLat / 2) * Real.sin (dLat / 2) + Real.sin (dLon / 2) * Real.sin (dLon / 2) * Real.cos (rad lat1) * Real.cos (rad lat2)
  let c := atan2 (Real.sqrt a) (Real.sqrt (1 - a))
  earthR * 2 * c

/-- `get_bearing_to_next_waypoint`, geo/geo.cpp:204-217 -/
def bearing (lat1 lon1 lat2 lon2 : ℝ) : ℝ :=
  let cos2 := Real.cos (rad lat2)
  let dLon := rad (lon2 - lon1)
  let y := Real.sin dLon * cos2
  let x := Real.cos (rad lat1) * Real.sin (rad lat2) - Real.sin (rad lat1) * cos2 * Real.cos dLon
  wrapPi (atan2 y x)

/-- `matrix::wrap_2pi` (external matrix library): into [0, 2π) -/
def wrap2Pi (x : ℝ) : ℝ :=
  if 0 ≤ x ∧ x < 2 * Real.pi then x else x - (2 * Real.pi) * (⌊x * (1 / (2 * Real.pi))⌋ : ℤ)

/-- `waypoint_from_heading_and_distance`, geo/geo.cpp:186-202 -/
def waypoint (lat lon b d : ℝ) : ℝ × ℝ :=
  let b := wrap2Pi b
  let rr := d / earthR
  let latT := Real.arcsin (Real.sin (rad lat) * Real.cos rr + Real.cos (rad lat) * Real.sin rr * Real.cos b)
  let lonT := rad lon + atan2 (Real.sin b * Real.sin rr * Real.cos (rad lat)) (Real.cos rr - Real.sin (rad lat) * Real.sin latT)
  (deg latT, deg lonT)

/-- `FLT_EPSILON` = 2⁻²³ -/
def fltEps : ℝ := 1 / 8388608

/-- `create_waypoint_from_line_and_dist`, geo/geo.cpp:174-184 -/
def waypointFromLine (latA lonA latB lonB d : ℝ) : ℝ × ℝ :=
  if |d| < fltEps then (latA, lonA) else waypoint latA lonA (bearing latA lonA latB lonB) d

/-- `get_vector_to_next_waypoint`, geo/geo.cpp:219-229 -/
def vectorTo (lat1 lon1 lat2 lon2 : ℝ) : ℝ × ℝ :=
  let dLon := rad lon2 - rad lon1
  (earthR * (Real.cos (rad lat1) * Real.sin (rad lat2) - Real.sin (rad lat1) * Real.cos (rad lat2) * Real.cos dLon),
   earthR * Real.sin dLon * Real.cos (rad lat2))

/-- `get_vector_to_next_waypoint_fast`, geo/geo.cpp:231-245 -/
def vectorToFast (lat1 lon1 lat2 lon2 : ℝ) : ℝ × ℝ :=
  (earthR * (rad lat2 - rad lat1), earthR * (rad lon2 - rad lon1) * Real.cos (rad lat1))

/-- `add_vector_to_global_position`, geo/geo.cpp:247-254 -/
def addVector (lat lon vn ve : ℝ) : ℝ × ℝ :=
  (deg (rad lat + vn / earthR), deg (rad lon + ve / (earthR * Real.cos (rad lat))))

/-- `crosstrack_error_s`, geo/geo.h:78-82, and the return value -/
structure Crosstrack where
  pastEnd : Bool
  dist : ℝ
  brg : ℝ
  ret : ℤ

/-- `get_distance_to_line`, geo/geo.cpp:258-300 -/
def distanceToLine (lat lon latS lonS latE lonE : ℝ) : Crosstrack :=
  let dEnd := distance lat lon latE lonE
  if dEnd < 1 / 10 then ⟨false, 0, 0, -1⟩
  else
    let bEnd := bearing lat lon latE lonE
    let bTrack := bearing latS lonS latE lonE
    let diff := wrapPi (bTrack - bEnd)
    if diff > Real.pi / 2 ∨ diff < -(Real.pi / 2) then ⟨true, 0, 0, 0⟩
    else
      ⟨false, dEnd * Real.sin diff,
        if Real.sin diff ≥ 0 then wrapPi (bTrack - Real.pi / 2) else wrapPi (bTrack + Real.pi / 2), 0⟩

/-- `get_distance_to_arc`, geo/geo.cpp:302-402 -/
def distanceToArc (lat lon latC lonC radius start sweep : ℝ) : Crosstrack :=
  let bNow := bearing lat lon latC lonC
  if radius < 1 / 10 then ⟨false, 0, 0, -1⟩
  else
    let sec : ℝ × ℝ :=
      if sweep ≥ 0 then
        let e := start + sweep
        (start, if e > 2 * Real.pi then e - 2 * Real.pi else e)
      else
        let s := start - sweep
        (if s < 0 then s + 2 * Real.pi else s, start)
    let inSector := (sec.2 ≥ sec.1 ∧ bNow ≥ sec.1 ∧ bNow ≤ sec.2) ∨ (sec.2 < sec.1 ∧ (bNow > sec.1 ∨ bNow < sec.2))
    let r : Crosstrack := open Classical in
      if inSector then
        let dC := distance lat lon latC lonC
        if dC ≤ radius then ⟨false, radius - dC, bNow + Real.pi, 0⟩ else ⟨false, dC - radius, bNow, 0⟩
      else
        let sx := radius * Real.sin start
        let sy := radius * Real.cos start
        let ex := radius * Real.sin (wrapPi (start + sweep))
        let ey := radius * Real.cos (wrapPi (start + sweep))
        let lonS := lon + sx / 111111
        let latS := lat + sy * Real.cos lat / 111111
        let lonE := lon + ex / 111111
        let latE := lat + ey * Real.cos lat / 111111
        let dS := distance lat lon latS lonS
        let dE := distance lat lon latE lonE
        if dS < dE then ⟨false, dS, bearing lat lon latS lonS, 0⟩ else ⟨true, dE, bearing lat lon latE lonE, 0⟩
    { r with brg := wrapPi r.brg }

/-- `get_distance_to_point_global_wgs84`, geo/geo.cpp:404-426: total, horizontal and vertical distance -/
def distance3 (lat1 lon1 alt1 lat2 lon2 alt2 : ℝ) : ℝ × ℝ × ℝ :=
  let dLat := rad lat1 - rad lat2
  let dLon := rad lon1 - rad lon2
  let a := Real.sin (dLat / 2) * Real.sin (dLat / 2) + Real.sin (dLon / 2) * Real.sin (dLon / 2) * Real.cos (rad lat2) * Real.cos (rad lat1)
  let c := 2 * atan2 (Real.sqrt a) (Real.sqrt (1 - a))
  let dxy := earthR * c
  let dz := alt1 - alt2
  (Real.sqrt (dxy * dxy + dz * dz), |dxy|, |dz|)

/-- `mavlink_wpm_distance_to_point_local`, geo/geo.cpp:428-440 -/
def distanceLocal (x1 y1 z1 x2 y2 z2 : ℝ) : ℝ × ℝ × ℝ :=
  let dx := x1 - x2
  let dy := y1 - y2
  let dz := z1 - z2
  (Real.sqrt (dx * dx + dy * dy + dz * dz), Real.sqrt (dx * dx + dy * dy), |dz|)

end

/-! ## Specification: the unit sphere -/

noncomputable section

/-- point on the unit sphere, angles in degrees -/
def Spec.point (lat lon : ℝ) : ℝ × ℝ × ℝ :=
  (Real.cos (rad lat) * Real.cos (rad lon), Real.cos (rad lat) * Real.sin (rad lon), Real.sin (rad lat))

/-- scalar product -/
def Spec.dot (a b : ℝ × ℝ × ℝ) : ℝ := a.1 * b.1 + a.2.1 * b.2.1 + a.2.2 * b.2.2

/-- central angle between two points -/
def Spec.angle (lat1 lon1 lat2 lon2 : ℝ) : ℝ := Real.arccos (Spec.dot (Spec.point lat1 lon1) (Spec.point lat2 lon2))

/-- unit vectors to the north and to the east at a point -/
def Spec.north (lat lon : ℝ) : ℝ × ℝ × ℝ :=
  (-(Real.sin (rad lat) * Real.cos (rad lon)), -(Real.sin (rad lat) * Real.sin (rad lon)), Real.cos (rad lat))
def Spec.east (lon : ℝ) : ℝ × ℝ × ℝ := (-Real.sin (rad lon), Real.cos (rad lon), 0)

/-- the point reached from (lat, lon) by travelling the arc `c` (radians) in direction `b`: cos c · position +
sin c (cos b · north + sin b · east) -/
def Spec.travel (lat lon b c : ℝ) : ℝ × ℝ × ℝ :=
  let p := Spec.point lat lon
  let n := Spec.north lat lon
  let e := Spec.east lon
  (Real.cos c * p.1 + Real.sin c * (Real.cos b * n.1 + Real.sin b * e.1),
   Real.cos c * p.2.1 + Real.sin c * (Real.cos b * n.2.1 + Real.sin b * e.2.1),
   Real.cos c * p.2.2 + Real.sin c * (Real.cos b * n.2.2 + Real.sin b * e.2.2))

end

end Ecl.Geo
