import Verif.Basic.Num
import Verif.GeoLookup.Tables
import Verif.Geo.Model

/-!
# Geomagnetic field lookup — geo_lookup/geo_mag_declination.cpp

Exact real arithmetic. A table access outside of the table is modelled as failure (`none`).
-/

namespace Ecl.GeoLookup

noncomputable section

/-- `get_lookup_table_index`, geo_lookup/geo_mag_declination.cpp:56-68: the limited value and the index. `SAMPLING_RES` = 10. The cast to unsigned drops the
fractional part; a negative number (undefined in C++) is kept as a negative index. -/
def tableIndex (val lo hi : ℝ) : ℝ × ℤ :=
  let v := constrain val lo (hi - 10)
  (v, ⌊(-lo + v) / 10⌋)

/-- table[i][j], `none` outside of the table -/
def cell (t : List (List ℤ)) (i j : ℤ) : Option ℤ :=
  if i < 0 ∨ j < 0 then none else (t[i.toNat]?).bind (fun row => row[j.toNat]?)

/-- `get_table_data`, geo_lookup/geo_mag_declination.cpp:74-80: longitude reduced once (`SAMPLING_MIN_LON` = −180, `SAMPLING_MAX_LON` = 180) -/
def wrapLon (lon : ℝ) : ℝ :=
  let lon := if lon > 180 then lon - 360 else lon
  if lon < -180 then lon + 360 else lon

/-- `get_table_data`, geo_lookup/geo_mag_declination.cpp:82-101, after limiting the coordinates (`SAMPLING_MIN_LAT` = −90, `SAMPLING_MAX_LAT` = 90) -/
def tableDataAt (t : List (List ℤ)) (lat lon : ℝ) : Option ℝ :=
  let la := tableIndex ((⌊lat / 10⌋ : ℝ) * 10) (-90) 90
  let lo := tableIndex ((⌊lon / 10⌋ : ℝ) * 10) (-180) 180
  match cell t la.2 lo.2, cell t la.2 (lo.2 + 1), cell t (la.2 + 1) (lo.2 + 1), cell t (la.2 + 1) lo.2 with
  | some sw, some se, some ne, some nw =>
    let latScale := constrain ((lat - la.1) / 10) 0 1
    let lonScale := constrain ((lon - lo.1) / 10) 0 1
    let dmin := lonScale * ((se : ℝ) - sw) + sw
    let dmax := lonScale * ((ne : ℝ) - nw) + nw
    some (latScale * (dmax - dmin) + dmin)
  | _, _, _, _ => none

/-- `get_table_data`, geo_lookup/geo_mag_declination.cpp:70-102 -/
def tableData (t : List (List ℤ)) (lat lon : ℝ) : Option ℝ := tableDataAt t (constrain lat (-90) 90) (wrapLon lon)

/-- `get_mag_declination_radians`, geo_lookup/geo_mag_declination.cpp:104-106 -/
def declinationRad (lat lon : ℝ) : Option ℝ := (tableData declinationTable lat lon).map (· * (1 / 10000))
/-- `get_mag_declination_degrees`, geo_lookup/geo_mag_declination.cpp:108-110 -/
def declinationDeg (lat lon : ℝ) : Option ℝ := (declinationRad lat lon).map Geo.deg
/-- `get_mag_inclination_radians`, geo_lookup/geo_mag_declination.cpp:112-114 -/
def inclinationRad (lat lon : ℝ) : Option ℝ := (tableData inclinationTable lat lon).map (· * (1 / 10000))
/-- `get_mag_inclination_degrees`, geo_lookup/geo_mag_declination.cpp:116-118 -/
def inclinationDeg (lat lon : ℝ) : Option ℝ := (inclinationRad lat lon).map Geo.deg
/-- `get_mag_strength_gauss`, geo_lookup/geo_mag_declination.cpp:120-123 -/
def strengthGauss (lat lon : ℝ) : Option ℝ := (tableData strengthTable lat lon).map (· * (1 / 10000))
/-- `get_mag_strength_tesla`, geo_lookup/geo_mag_declination.cpp:125-128 -/
def strengthTesla (lat lon : ℝ) : Option ℝ := (strengthGauss lat lon).map (· * (1 / 10000))

/-! ## Specification -/

/-- a table of 19 rows (latitude −90° … 90° in steps of 10°) and 37 columns (longitude −180° … 180°) -/
def Spec.shape (t : List (List ℤ)) : Prop := t.length = 19 ∧ ∀ r ∈ t, r.length = 37

/-- table entry (0 outside) -/
def Spec.entry (t : List (List ℤ)) (i j : ℕ) : ℤ := (t.getD i []).getD j 0

/-- bilinear interpolation between the corners of the grid cell (i, j), with u, v ∈ [0, 1] the relative position in latitude and longitude -/
def Spec.bilinear (t : List (List ℤ)) (i j : ℕ) (u v : ℝ) : ℝ :=
  (1 - u) * (1 - v) * Spec.entry t i j + (1 - u) * v * Spec.entry t i (j + 1) + u * v * Spec.entry t (i + 1) (j + 1) + u * (1 - v) * Spec.entry t (i + 1) j

end

end Ecl.GeoLookup
