import Verif.GeoLookup.Model
import Mathlib.Analysis.Real.Pi.Bounds
import Mathlib.Tactic.IntervalCases

/-!
# Geomagnetic field lookup: theorems (C46, C47)
-/

namespace Ecl.GeoLookup

theorem cell_eq {t : List (List ℤ)} (ht : Spec.shape t) {i j : ℕ} (hi : i < 19) (hj : j < 37) : cell t i j = some (Spec.entry t i j) := by
  obtain ⟨h1, h2⟩ := ht
  unfold cell Spec.entry
  rw [if_neg (by omega)]
  have a : (i : ℤ).toNat = i := by simp
  have b : (j : ℤ).toNat = j := by simp
  rw [a, b]
  have hi' : i < t.length := by omega
  rw [List.getElem?_eq_getElem hi']
  have hr : t[i].length = 37 := h2 _ (List.getElem_mem hi')
  have hj' : j < t[i].length := by omega
  simp only [Option.bind_some, List.getElem?_eq_getElem hj', List.getD_eq_getElem?_getD, List.getElem?_eq_getElem hi', Option.getD_some]

theorem tableData_cell {t : List (List ℤ)} (ht : Spec.shape t) (lat lon a o : ℝ) {i j : ℕ} (hi : i < 18) (hj : j < 36)
    (ha : a = constrain lat (-90) 90)
    (ho : o = wrapLon lon)
    (h1 : tableIndex ((⌊a / 10⌋ : ℝ) * 10) (-90) 90 = (-90 + 10 * (i : ℝ), (i : ℤ)))
    (h2 : tableIndex ((⌊o / 10⌋ : ℝ) * 10) (-180) 180 = (-180 + 10 * (j : ℝ), (j : ℤ))) :
    tableData t lat lon = some (Spec.bilinear t i j (constrain ((a + 90 - 10 * i) / 10) 0 1) (constrain ((o + 180 - 10 * j) / 10) 0 1)) := by
  unfold tableData
  rw [← ha, ← ho]
  unfold tableDataAt
  rw [h1, h2]
  simp only []
  have e1 : ((i : ℤ) + 1) = ((i + 1 : ℕ) : ℤ) := by push_cast; rfl
  have e2 : ((j : ℤ) + 1) = ((j + 1 : ℕ) : ℤ) := by push_cast; rfl
  rw [e1, e2, cell_eq ht (by omega) (by omega), cell_eq ht (by omega) (by omega), cell_eq ht (by omega) (by omega), cell_eq ht (by omega) (by omega)]
  simp only []
  congr 1
  rw [show (a - (-90 + 10 * (i : ℝ))) / 10 = (a + 90 - 10 * i) / 10 by ring, show (o - (-180 + 10 * (j : ℝ))) / 10 = (o + 180 - 10 * j) / 10 by ring]
  unfold Spec.bilinear
  ring

/-- index of a floor -/
theorem tableIndex_floor {x lo hi : ℝ} {m n : ℤ} (hlo : lo = 10 * m) (hhi : hi = 10 * n) (hmn : m < n) :
    ∃ i : ℕ, (i : ℤ) < n - m ∧ tableIndex ((⌊x / 10⌋ : ℝ) * 10) lo hi = (lo + 10 * (i : ℝ), (i : ℤ)) ∧
      (x < lo + 10 → i = 0) ∧ (hi - 10 ≤ x → (i : ℤ) = n - m - 1) ∧ (lo ≤ x → lo + 10 * i ≤ x) ∧ (x < hi → x < lo + 10 * i + 10) := by
  obtain ⟨k, hk⟩ : ∃ k, k = ⌊x / 10⌋ := ⟨_, rfl⟩
  have f1 : (k : ℝ) ≤ x / 10 := by rw [hk]; exact Int.floor_le _
  have f2 : x / 10 < k + 1 := by rw [hk]; exact Int.lt_floor_add_one _
  have hmn' : (m : ℝ) + 1 ≤ n := by exact_mod_cast hmn
  unfold tableIndex
  simp only []
  rw [← hk, hlo, hhi]
  by_cases c1 : k < m
  · have c1' : (k : ℝ) < m := by exact_mod_cast c1
    refine ⟨0, by push_cast; omega, ?_, fun _ => rfl, ?_, ?_, ?_⟩
    · rw [show constrain ((k : ℝ) * 10) (10 * m) (10 * n - 10) = 10 * m by unfold constrain; rw [if_pos (by linarith)]]
      simp
    · intro h; exfalso
      have : (k : ℝ) + 1 ≤ m := by exact_mod_cast c1
      linarith
    · intro h; exfalso
      have : (k : ℝ) + 1 ≤ m := by exact_mod_cast c1
      linarith
    · intro h
      have : (k : ℝ) + 1 ≤ m := by exact_mod_cast c1
      push_cast; linarith
  · by_cases c2 : k > n - 1
    · have c2' : (k : ℝ) > n - 1 := by exact_mod_cast c2
      refine ⟨(n - m - 1).toNat, by omega, ?_, ?_, ?_, ?_, ?_⟩
      · rw [show constrain ((k : ℝ) * 10) (10 * m) (10 * n - 10) = 10 * n - 10 by
          unfold constrain; rw [if_neg (by linarith), if_pos (by linarith)]]
        have e : (((n - m - 1).toNat : ℕ) : ℤ) = n - m - 1 := by omega
        have e' : (((n - m - 1).toNat : ℕ) : ℝ) = n - m - 1 := by exact_mod_cast e
        rw [e', e]
        congr 1
        · ring
        · rw [show (-(10 * (m : ℝ)) + (10 * n - 10)) / 10 = ((n - m - 1 : ℤ) : ℝ) by push_cast; ring, Int.floor_intCast]
      · intro h; exfalso
        have : (n : ℝ) ≤ k := by have : n ≤ k := by omega
                                 exact_mod_cast this
        linarith
      · intro _; omega
      · intro _
        have e : (((n - m - 1).toNat : ℕ) : ℤ) = n - m - 1 := by omega
        have e' : (((n - m - 1).toNat : ℕ) : ℝ) = n - m - 1 := by exact_mod_cast e
        rw [e']; linarith
      · intro h; exfalso
        have : (n : ℝ) ≤ k := by have : n ≤ k := by omega
                                 exact_mod_cast this
        linarith
    · push Not at c1 c2
      have c1' : (m : ℝ) ≤ k := by exact_mod_cast c1
      have c2' : (k : ℝ) ≤ n - 1 := by exact_mod_cast c2
      have e : (((k - m).toNat : ℕ) : ℤ) = k - m := by omega
      have e' : (((k - m).toNat : ℕ) : ℝ) = k - m := by exact_mod_cast e
      refine ⟨(k - m).toNat, by omega, ?_, ?_, ?_, ?_, ?_⟩
      · rw [show constrain ((k : ℝ) * 10) (10 * m) (10 * n - 10) = k * 10 from constrain_of_mem (by linarith) (by linarith)]
        rw [e', e]
        congr 1
        · ring
        · rw [show (-(10 * (m : ℝ)) + (k * 10)) / 10 = ((k - m : ℤ) : ℝ) by push_cast; ring, Int.floor_intCast]
      · intro h
        have : (k : ℝ) < m + 1 := by linarith
        have : k < m + 1 := by exact_mod_cast this
        omega
      · intro h
        have : (n : ℝ) < k + 1 + 1 := by linarith
        have : n < k + 1 + 1 := by exact_mod_cast this
        omega
      · intro h; rw [e']; linarith
      · intro h; rw [e']; linarith

/-- full description for every input -/
theorem tableData_general {t : List (List ℤ)} (ht : Spec.shape t) (lat lon : ℝ) :
    ∃ i j : ℕ, i < 18 ∧ j < 36 ∧ tableData t lat lon = some (Spec.bilinear t i j
      (constrain ((constrain lat (-90) 90 + 90 - 10 * i) / 10) 0 1) (constrain ((wrapLon lon + 180 - 10 * j) / 10) 0 1)) ∧
      (-90 + 10 * (i : ℝ) ≤ constrain lat (-90) 90 ∧ constrain lat (-90) 90 ≤ -90 + 10 * (i : ℝ) + 10) ∧
      (-180 ≤ wrapLon lon → wrapLon lon ≤ 180 → -180 + 10 * (j : ℝ) ≤ wrapLon lon ∧ wrapLon lon ≤ -180 + 10 * (j : ℝ) + 10) ∧
      (wrapLon lon < -170 → j = 0) ∧ (170 ≤ wrapLon lon → j = 35) := by
  obtain ⟨i, i1, i2, i3, i4, i5, i6⟩ := tableIndex_floor (x := constrain lat (-90) 90) (lo := -90) (hi := 90) (m := -9) (n := 9) (by norm_num) (by norm_num) (by norm_num)
  obtain ⟨j, j1, j2, j3, j4, j5, j6⟩ := tableIndex_floor (x := wrapLon lon) (lo := -180) (hi := 180) (m := -18) (n := 18) (by norm_num) (by norm_num) (by norm_num)
  have c1 : (-90 : ℝ) ≤ constrain lat (-90) 90 := constrain_ge (by norm_num)
  have c2 : constrain lat (-90) 90 ≤ 90 := constrain_le (by norm_num)
  refine ⟨i, j, by omega, by omega, ?_, ⟨i5 c1, ?_⟩, fun g1 g2 => ⟨j5 g1, ?_⟩, ?_, ?_⟩
  · exact tableData_cell ht lat lon _ (wrapLon lon) (by omega) (by omega) rfl rfl i2 j2
  · rcases eq_or_lt_of_le c2 with h | h
    · have := i4 (by rw [h]; norm_num)
      have hi : i = 17 := by omega
      rw [h, hi]; norm_num
    · exact (i6 h).le
  · rcases eq_or_lt_of_le g2 with h | h
    · have := j4 (by rw [h]; norm_num)
      have hj : j = 35 := by omega
      rw [h, hj]; norm_num
    · exact (j6 h).le
  · intro h; exact j3 (by linarith)
  · intro h; have := j4 (by linarith); omega

theorem bilinear_le {t : List (List ℤ)} {i j : ℕ} {u v M : ℝ} (hu : 0 ≤ u ∧ u ≤ 1) (hv : 0 ≤ v ∧ v ≤ 1)
    (a : (Spec.entry t i j : ℝ) ≤ M) (b : (Spec.entry t i (j + 1) : ℝ) ≤ M) (c : (Spec.entry t (i + 1) (j + 1) : ℝ) ≤ M)
    (d : (Spec.entry t (i + 1) j : ℝ) ≤ M) : Spec.bilinear t i j u v ≤ M := by
  unfold Spec.bilinear
  have e1 : 0 ≤ (1 - u) * (1 - v) := mul_nonneg (by linarith) (by linarith)
  have e2 : 0 ≤ (1 - u) * v := mul_nonneg (by linarith) (by linarith)
  have e3 : 0 ≤ u * v := mul_nonneg (by linarith) (by linarith)
  have e4 : 0 ≤ u * (1 - v) := mul_nonneg (by linarith) (by linarith)
  have s : (1 - u) * (1 - v) + (1 - u) * v + u * v + u * (1 - v) = 1 := by ring
  nlinarith [mul_le_mul_of_nonneg_left a e1, mul_le_mul_of_nonneg_left b e2, mul_le_mul_of_nonneg_left c e3, mul_le_mul_of_nonneg_left d e4]

theorem bilinear_ge {t : List (List ℤ)} {i j : ℕ} {u v M : ℝ} (hu : 0 ≤ u ∧ u ≤ 1) (hv : 0 ≤ v ∧ v ≤ 1)
    (a : M ≤ (Spec.entry t i j : ℝ)) (b : M ≤ (Spec.entry t i (j + 1) : ℝ)) (c : M ≤ (Spec.entry t (i + 1) (j + 1) : ℝ))
    (d : M ≤ (Spec.entry t (i + 1) j : ℝ)) : M ≤ Spec.bilinear t i j u v := by
  unfold Spec.bilinear
  have e1 : 0 ≤ (1 - u) * (1 - v) := mul_nonneg (by linarith) (by linarith)
  have e2 : 0 ≤ (1 - u) * v := mul_nonneg (by linarith) (by linarith)
  have e3 : 0 ≤ u * v := mul_nonneg (by linarith) (by linarith)
  have e4 : 0 ≤ u * (1 - v) := mul_nonneg (by linarith) (by linarith)
  have s : (1 - u) * (1 - v) + (1 - u) * v + u * v + u * (1 - v) = 1 := by ring
  nlinarith [mul_le_mul_of_nonneg_left a e1, mul_le_mul_of_nonneg_left b e2, mul_le_mul_of_nonneg_left c e3, mul_le_mul_of_nonneg_left d e4]

theorem scale_one {x : ℝ} (h : 1 ≤ x) : constrain x 0 1 = 1 := by
  unfold constrain; split_ifs <;> linarith
theorem scale_zero {x : ℝ} (h : x ≤ 0) : constrain x 0 1 = 0 := by
  unfold constrain; split_ifs <;> linarith
theorem scale01 (x : ℝ) : 0 ≤ constrain x 0 1 ∧ constrain x 0 1 ≤ 1 := ⟨constrain_ge zero_le_one, constrain_le zero_le_one⟩

/-- **C46.** For every 19×37 table and every latitude and longitude, however large: all four cells read are inside the table, and the
result is between the smallest and largest of the four corner values of one grid cell. -/
theorem lookup_total {t : List (List ℤ)} (ht : Spec.shape t) (lat lon : ℝ) :
    ∃ v i j, tableData t lat lon = some v ∧ i < 18 ∧ j < 36 ∧
      (min (min (Spec.entry t i j) (Spec.entry t i (j + 1))) (min (Spec.entry t (i + 1) (j + 1)) (Spec.entry t (i + 1) j)) : ℝ) ≤ v ∧
      v ≤ max (max (Spec.entry t i j) (Spec.entry t i (j + 1))) (max (Spec.entry t (i + 1) (j + 1)) (Spec.entry t (i + 1) j)) := by
  obtain ⟨i, j, hi, hj, hv, -⟩ := tableData_general ht lat lon
  refine ⟨_, i, j, hv, hi, hj, bilinear_ge (scale01 _) (scale01 _) ?_ ?_ ?_ ?_, bilinear_le (scale01 _) (scale01 _) ?_ ?_ ?_ ?_⟩ <;> simp

/-- bilinear value does not depend on which of several cells containing the point is used -/
theorem bilinear_cell_unique (t : List (List ℤ)) {a o : ℝ} {i j i' j' : ℕ}
    (hi : -90 + 10 * (i : ℝ) ≤ a ∧ a ≤ -90 + 10 * (i : ℝ) + 10) (hi' : -90 + 10 * (i' : ℝ) ≤ a ∧ a ≤ -90 + 10 * (i' : ℝ) + 10)
    (hj : -180 + 10 * (j : ℝ) ≤ o ∧ o ≤ -180 + 10 * (j : ℝ) + 10) (hj' : -180 + 10 * (j' : ℝ) ≤ o ∧ o ≤ -180 + 10 * (j' : ℝ) + 10) :
    Spec.bilinear t i j ((a + 90 - 10 * i) / 10) ((o + 180 - 10 * j) / 10) = Spec.bilinear t i' j' ((a + 90 - 10 * i') / 10) ((o + 180 - 10 * j') / 10) := by
  have step : ∀ {x c : ℝ} {p q : ℕ}, c + 10 * (p : ℝ) ≤ x ∧ x ≤ c + 10 * (p : ℝ) + 10 → c + 10 * (q : ℝ) ≤ x ∧ x ≤ c + 10 * (q : ℝ) + 10 →
      p = q ∨ (q = p + 1 ∧ x = c + 10 * p + 10) ∨ (p = q + 1 ∧ x = c + 10 * q + 10) := by
    intro x c p q h1 h2
    have u : (p : ℝ) ≤ q + 1 := by linarith
    have v : (q : ℝ) ≤ p + 1 := by linarith
    have u' : p ≤ q + 1 := by exact_mod_cast u
    have v' : q ≤ p + 1 := by exact_mod_cast v
    rcases Nat.lt_trichotomy p q with h | h | h
    · right; left
      have e : q = p + 1 := by omega
      subst e
      refine ⟨rfl, ?_⟩
      push_cast at h2
      linarith
    · left; exact h
    · right; right
      have e : p = q + 1 := by omega
      subst e
      refine ⟨rfl, ?_⟩
      push_cast at h1
      linarith
  have hlat : ∀ v, Spec.bilinear t i j ((a + 90 - 10 * i) / 10) v = Spec.bilinear t i' j ((a + 90 - 10 * i') / 10) v := by
    intro v
    rcases step hi hi' with e | ⟨e, ea⟩ | ⟨e, ea⟩
    · rw [e]
    · rw [e]; unfold Spec.bilinear; rw [ea]; push_cast; ring
    · rw [e]; unfold Spec.bilinear; rw [ea]; push_cast; ring
  have hlon : ∀ u, Spec.bilinear t i' j u ((o + 180 - 10 * j) / 10) = Spec.bilinear t i' j' u ((o + 180 - 10 * j') / 10) := by
    intro u
    rcases step hj hj' with e | ⟨e, ea⟩ | ⟨e, ea⟩
    · rw [e]
    · rw [e]; unfold Spec.bilinear; rw [ea]; push_cast; ring
    · rw [e]; unfold Spec.bilinear; rw [ea]; push_cast; ring
  rw [hlat, hlon]

theorem wrapLon_id {lon : ℝ} (h1 : -180 ≤ lon) (h2 : lon ≤ 180) : wrapLon lon = lon := by
  unfold wrapLon
  simp only []
  rw [if_neg (not_lt.mpr h2), if_neg (not_lt.mpr h1)]

theorem wrapLon_hi {lon : ℝ} (h : 180 < lon) : wrapLon lon = lon - 360 := by
  have e : (if lon > 180 then lon - 360 else lon) = lon - 360 := if_pos h
  unfold wrapLon
  simp only []
  rw [e, if_neg (by linarith)]

theorem wrapLon_lo {lon : ℝ} (h : lon < -180) : wrapLon lon = lon + 360 := by
  have e : (if lon > 180 then lon - 360 else lon) = lon := if_neg (by linarith)
  unfold wrapLon
  simp only []
  rw [e, if_pos h]

/-- **C47 (bilinear interpolation).** Within every closed grid cell the result is the bilinear interpolation of the four corners; as this
holds for all cells that contain the point, the values of neighbouring cells agree on their common border (continuity). -/
theorem lookup_bilinear {t : List (List ℤ)} (ht : Spec.shape t) (lat lon : ℝ) (i j : ℕ) (hi : i < 18) (hj : j < 36)
    (h1 : -90 + 10 * (i : ℝ) ≤ lat ∧ lat ≤ -80 + 10 * (i : ℝ)) (h2 : -180 + 10 * (j : ℝ) ≤ lon ∧ lon ≤ -170 + 10 * (j : ℝ)) :
    tableData t lat lon = some (Spec.bilinear t i j ((lat + 90 - 10 * i) / 10) ((lon + 180 - 10 * j) / 10)) := by
  have hi' : (i : ℝ) ≤ 17 := by exact_mod_cast Nat.le_of_lt_succ hi
  have hj' : (j : ℝ) ≤ 35 := by exact_mod_cast Nat.le_of_lt_succ hj
  have hi0 : (0 : ℝ) ≤ i := Nat.cast_nonneg i
  have hj0 : (0 : ℝ) ≤ j := Nat.cast_nonneg j
  obtain ⟨i', j', -, -, hv, g1, g2, -⟩ := tableData_general ht lat lon
  rw [wrapLon_id (by linarith) (by linarith)] at hv g2
  rw [constrain_of_mem (by linarith : (-90 : ℝ) ≤ lat) (by linarith : lat ≤ 90)] at hv g1
  have g2 := g2 (by linarith) (by linarith)
  rw [hv, constrain_of_mem (by linarith) (by linarith), constrain_of_mem (by linarith) (by linarith)]
  congr 1
  exact bilinear_cell_unique t g1 ⟨by linarith, by linarith⟩ g2 ⟨by linarith, by linarith⟩

/-- **C47 (nodes).** At every grid node the table entry is returned. -/
theorem lookup_node {t : List (List ℤ)} (ht : Spec.shape t) (i j : ℕ) (hi : i < 19) (hj : j < 37) :
    tableData t (-90 + 10 * i) (-180 + 10 * j) = some (Spec.entry t i j : ℝ) := by
  have key : ∀ p q : ℕ, p < 18 → q < 36 → (i = p ∨ i = p + 1) → (j = q ∨ j = q + 1) →
      tableData t (-90 + 10 * i) (-180 + 10 * j) = some (Spec.entry t i j : ℝ) := by
    intro p q hp hq hip hjq
    rw [lookup_bilinear ht _ _ p q hp hq]
    · congr 1
      unfold Spec.bilinear
      rcases hip with e | e <;> rcases hjq with f | f <;> subst e <;> subst f <;> push_cast <;> ring
    · rcases hip with e | e <;> subst e <;> push_cast <;> constructor <;> linarith
    · rcases hjq with e | e <;> subst e <;> push_cast <;> constructor <;> linarith
  rcases Nat.lt_or_ge i 18 with h | h <;> rcases Nat.lt_or_ge j 36 with h' | h'
  · exact key i j h h' (Or.inl rfl) (Or.inl rfl)
  · exact key i 35 h (by norm_num) (Or.inl rfl) (Or.inr (by omega))
  · exact key 17 j (by norm_num) h' (Or.inr (by omega)) (Or.inl rfl)
  · exact key 17 35 (by norm_num) (by norm_num) (Or.inr (by omega)) (Or.inr (by omega))

theorem tableData_congr (t : List (List ℤ)) {lat lat' lon lon' : ℝ} (h1 : constrain lat (-90) 90 = constrain lat' (-90) 90)
    (h2 : wrapLon lon = wrapLon lon') : tableData t lat lon = tableData t lat' lon' := by
  unfold tableData
  rw [h1, h2]

/-- **C46/C47 (arguments out of range).** Latitudes beyond the poles count as the pole. Longitudes up to ±540° are reduced by one turn;
longitudes beyond that are not reduced further and count as the date line. -/
theorem lookup_out_of_range {t : List (List ℤ)} (ht : Spec.shape t) (lat lon : ℝ) :
    (90 ≤ lat → tableData t lat lon = tableData t 90 lon) ∧ (lat ≤ -90 → tableData t lat lon = tableData t (-90) lon) ∧
    (180 < lon → lon ≤ 540 → tableData t lat lon = tableData t lat (lon - 360)) ∧
    (-540 ≤ lon → lon < -180 → tableData t lat lon = tableData t lat (lon + 360)) ∧
    (540 ≤ lon → tableData t lat lon = tableData t lat 180) ∧ (lon < -540 → tableData t lat lon = tableData t lat (-180)) := by
  have hedge : ∀ x : ℝ, (180 ≤ wrapLon x → tableData t lat x = tableData t lat 180) ∧ (wrapLon x ≤ -180 → tableData t lat x = tableData t lat (-180)) := by
    intro x
    obtain ⟨i, j, hi, hj, hv, g, -, j0, j35⟩ := tableData_general ht lat x
    constructor
    · intro h
      obtain ⟨i', j', hi', hj', hv', g', -, j0', j35'⟩ := tableData_general ht lat 180
      have e : j = 35 := j35 (by linarith)
      rw [wrapLon_id (by norm_num) (by norm_num)] at j35' hv'
      have e' : j' = 35 := j35' (by norm_num)
      subst e e'
      rw [hv, hv']
      congr 1
      generalize constrain lat (-90) 90 = a at g g' ⊢
      have s1 : constrain ((wrapLon x + 180 - 10 * ((35 : ℕ) : ℝ)) / 10) 0 1 = 1 := by
        exact scale_one (by push_cast; linarith)
      have s2 : constrain (((180 : ℝ) + 180 - 10 * ((35 : ℕ) : ℝ)) / 10) 0 1 = 1 := constrain_of_mem (by norm_num) (by norm_num) |>.trans (by norm_num)
      rw [s1, s2, constrain_of_mem (by linarith) (by linarith), constrain_of_mem (by linarith) (by linarith)]
      have := bilinear_cell_unique t g g' (o := 180) (j := 35) (j' := 35) (by norm_num) (by norm_num)
      rw [show ((180 : ℝ) + 180 - 10 * ((35 : ℕ) : ℝ)) / 10 = 1 by norm_num] at this
      exact this
    · intro h
      obtain ⟨i', j', hi', hj', hv', g', -, j0', j35'⟩ := tableData_general ht lat (-180)
      have e : j = 0 := j0 (by linarith)
      rw [wrapLon_id (by norm_num) (by norm_num)] at j0' hv'
      have e' : j' = 0 := j0' (by norm_num)
      subst e e'
      rw [hv, hv']
      congr 1
      generalize constrain lat (-90) 90 = a at g g' ⊢
      have s1 : constrain ((wrapLon x + 180 - 10 * ((0 : ℕ) : ℝ)) / 10) 0 1 = 0 := by
        exact scale_zero (by push_cast; linarith)
      have s2 : constrain (((-180 : ℝ) + 180 - 10 * ((0 : ℕ) : ℝ)) / 10) 0 1 = 0 := constrain_of_mem (by norm_num) (by norm_num) |>.trans (by norm_num)
      rw [s1, s2, constrain_of_mem (by linarith) (by linarith), constrain_of_mem (by linarith) (by linarith)]
      have := bilinear_cell_unique t g g' (o := -180) (j := 0) (j' := 0) (by norm_num) (by norm_num)
      rw [show ((-180 : ℝ) + 180 - 10 * ((0 : ℕ) : ℝ)) / 10 = 0 by norm_num] at this
      exact this
  refine ⟨fun h => ?_, fun h => ?_, fun h1 h2 => ?_, fun h1 h2 => ?_, fun h => (hedge lon).1 ?_, fun h => (hedge lon).2 ?_⟩
  · refine tableData_congr t ?_ rfl
    unfold constrain
    rw [if_neg (by linarith)]
    split_ifs <;> linarith
  · refine tableData_congr t ?_ rfl
    unfold constrain
    split_ifs <;> linarith
  · refine tableData_congr t rfl ?_
    rw [wrapLon_hi h1, wrapLon_id (by linarith) (by linarith)]
  · refine tableData_congr t rfl ?_
    rw [wrapLon_lo h2]
    rcases eq_or_lt_of_le (by linarith : lon + 360 ≤ 180) with h | h
    · rw [wrapLon_id (by linarith) (by linarith)]
    · rw [wrapLon_id (by linarith) (by linarith)]
  · rw [wrapLon_hi (by linarith)]; linarith
  · rw [wrapLon_lo (by linarith)]; linarith

/-! ## The three tables -/

theorem shape_decl : Spec.shape declinationTable := by unfold Spec.shape; decide +kernel
theorem shape_incl : Spec.shape inclinationTable := by unfold Spec.shape; decide +kernel
theorem shape_str : Spec.shape strengthTable := by unfold Spec.shape; decide +kernel

theorem entry_mem {t : List (List ℤ)} (ht : Spec.shape t) {lo hi : ℤ} (h : ∀ r ∈ t, ∀ x ∈ r, lo ≤ x ∧ x ≤ hi) {i j : ℕ} (h1 : i < 19) (h2 : j < 37) :
    lo ≤ Spec.entry t i j ∧ Spec.entry t i j ≤ hi := by
  obtain ⟨a, b⟩ := ht
  have hi' : i < t.length := by omega
  have hr : t[i].length = 37 := b _ (List.getElem_mem hi')
  have hj' : j < t[i].length := by omega
  unfold Spec.entry
  simp only [List.getD_eq_getElem?_getD, List.getElem?_eq_getElem hi', Option.getD_some, List.getElem?_eq_getElem hj']
  exact h _ (List.getElem_mem hi') _ (List.getElem_mem hj')

theorem lookup_range {t : List (List ℤ)} (ht : Spec.shape t) {lo hi : ℤ} (h : ∀ r ∈ t, ∀ x ∈ r, lo ≤ x ∧ x ≤ hi) (lat lon : ℝ) :
    ∃ v, tableData t lat lon = some v ∧ (lo : ℝ) ≤ v ∧ v ≤ hi := by
  obtain ⟨i, j, hi', hj, hv, -⟩ := tableData_general ht lat lon
  have m : ∀ a b : ℕ, a < 19 → b < 37 → (lo : ℝ) ≤ Spec.entry t a b ∧ (Spec.entry t a b : ℝ) ≤ hi := by
    intro a b h1 h2
    have := entry_mem ht h h1 h2
    exact ⟨by exact_mod_cast this.1, by exact_mod_cast this.2⟩
  refine ⟨_, hv, bilinear_ge (scale01 _) (scale01 _) ?_ ?_ ?_ ?_, bilinear_le (scale01 _) (scale01 _) ?_ ?_ ?_ ?_⟩
  all_goals first
    | exact (m _ _ (by omega) (by omega)).1
    | exact (m _ _ (by omega) (by omega)).2

/-- **C46 (values).** The declination is always strictly within ±π, the inclination strictly within ±π/2, and the field strength between
0.2232 and 0.6692 Gauss; degrees and Tesla are the same values in those units. -/
theorem lookup_values (lat lon : ℝ) :
    ∃ d i s, declinationRad lat lon = some d ∧ inclinationRad lat lon = some i ∧ strengthGauss lat lon = some s ∧
      |d| < Real.pi ∧ |i| < Real.pi / 2 ∧ 0.2232 ≤ s ∧ s ≤ 0.6692 ∧
      declinationDeg lat lon = some (d * 180 / Real.pi) ∧ inclinationDeg lat lon = some (i * 180 / Real.pi) ∧ strengthTesla lat lon = some (s / 10000) := by
  have hp : 3.14 < Real.pi := Real.pi_gt_d2
  obtain ⟨v1, e1, a1, b1⟩ := lookup_range shape_decl (lo := -30377) (hi := 31259) (by decide +kernel) lat lon
  obtain ⟨v2, e2, a2, b2⟩ := lookup_range shape_incl (lo := -15243) (hi := 15412) (by decide +kernel) lat lon
  obtain ⟨v3, e3, a3, b3⟩ := lookup_range shape_str (lo := 2232) (hi := 6692) (by decide +kernel) lat lon
  push_cast at a1 b1 a2 b2 a3 b3
  refine ⟨v1 * (1 / 10000), v2 * (1 / 10000), v3 * (1 / 10000), ?_, ?_, ?_, ?_, ?_, ?_, ?_, ?_, ?_, ?_⟩
  · unfold declinationRad; rw [e1]; rfl
  · unfold inclinationRad; rw [e2]; rfl
  · unfold strengthGauss; rw [e3]; rfl
  · rw [abs_lt]; norm_num at hp; constructor <;> linarith
  · rw [abs_lt]; norm_num at hp; constructor <;> linarith
  · norm_num; linarith
  · norm_num; linarith
  · unfold declinationDeg declinationRad; rw [e1]; rfl
  · unfold inclinationDeg inclinationRad; rw [e2]; rfl
  · unfold strengthTesla strengthGauss; rw [e3]; simp only [Option.map_some]; congr 1; ring

theorem seam_of {t : List (List ℤ)} (ht : Spec.shape t) (h : ∀ i < 19, Spec.entry t i 0 = Spec.entry t i 36) (lat : ℝ) :
    tableData t lat (-180) = tableData t lat 180 := by
  obtain ⟨i, j, hi, hj, hv, g, -, j0, -⟩ := tableData_general ht lat (-180)
  obtain ⟨i', j', hi', hj', hv', g', -, -, j35⟩ := tableData_general ht lat 180
  rw [wrapLon_id (by norm_num) (by norm_num)] at j0 j35 hv hv'
  have e := j0 (by norm_num)
  have e' := j35 (by norm_num)
  subst e e'
  have s1 : constrain (((-180 : ℝ) + 180 - 10 * ((0 : ℕ) : ℝ)) / 10) 0 1 = 0 := constrain_of_mem (by norm_num) (by norm_num) |>.trans (by norm_num)
  have s2 : constrain (((180 : ℝ) + 180 - 10 * ((35 : ℕ) : ℝ)) / 10) 0 1 = 1 := constrain_of_mem (by norm_num) (by norm_num) |>.trans (by norm_num)
  rw [hv, hv', s1, s2]
  clear hv hv'
  generalize constrain lat (-90) 90 = a at g g' ⊢
  rw [constrain_of_mem (by linarith) (by linarith), constrain_of_mem (by linarith) (by linarith)]
  congr 1
  have hl := bilinear_cell_unique t g g' (o := 180) (j := 35) (j' := 35) (by norm_num) (by norm_num)
  rw [show ((180 : ℝ) + 180 - 10 * ((35 : ℕ) : ℝ)) / 10 = 1 by norm_num] at hl
  rw [← hl]
  unfold Spec.bilinear
  rw [h i (by omega), h (i + 1) (by omega)]
  ring

/-- **C47 (date line).** The values at longitude −180° and +180° agree for every latitude. -/
theorem lookup_date_line (lat : ℝ) :
    declinationRad lat (-180) = declinationRad lat 180 ∧ inclinationRad lat (-180) = inclinationRad lat 180 ∧
    strengthGauss lat (-180) = strengthGauss lat 180 := by
  refine ⟨?_, ?_, ?_⟩
  · unfold declinationRad; rw [seam_of shape_decl (by decide +kernel)]
  · unfold inclinationRad; rw [seam_of shape_incl (by decide +kernel)]
  · unfold strengthGauss; rw [seam_of shape_str (by decide +kernel)]

/-- **C47, counterexample (declination near the magnetic pole).** Declination is an angle, but the table is interpolated as a number: between the
neighbouring nodes (−70°, 130°) with −2.6063 rad and (−70°, 140°) with 3.0852 rad, which are 0.592 rad apart as directions, the
result at longitude 135° is 0.239 rad, more than 2.7 rad away from both. -/
theorem declination_wrap_error :
    declinationRad (-70) 130 = some (-2.6063) ∧ declinationRad (-70) 140 = some 3.0852 ∧ declinationRad (-70) 135 = some 0.23945 := by
  have e1 : Spec.entry declinationTable 2 31 = -26063 := by decide +kernel
  have e2 : Spec.entry declinationTable 2 32 = 30852 := by decide +kernel
  have a := lookup_node shape_decl 2 31 (by norm_num) (by norm_num)
  have b := lookup_node shape_decl 2 32 (by norm_num) (by norm_num)
  have c := lookup_bilinear shape_decl (-70) 135 2 31 (by norm_num) (by norm_num) (by norm_num) (by norm_num)
  rw [e1] at a
  rw [e2] at b
  rw [show (-90 : ℝ) + 10 * ((2 : ℕ) : ℝ) = -70 by norm_num, show (-180 : ℝ) + 10 * ((31 : ℕ) : ℝ) = 130 by norm_num] at a
  rw [show (-90 : ℝ) + 10 * ((2 : ℕ) : ℝ) = -70 by norm_num, show (-180 : ℝ) + 10 * ((32 : ℕ) : ℝ) = 140 by norm_num] at b
  unfold declinationRad
  rw [a, b, c]
  refine ⟨?_, ?_, ?_⟩
  · simp only [Option.map_some]; norm_num
  · simp only [Option.map_some]; norm_num
  · simp only [Option.map_some]
    unfold Spec.bilinear
    rw [e1, e2]
    norm_num

/-- non-vacuity: the shape hypothesis holds of the shipped tables (`shape_decl`, …); a point inside a cell -/
example : (-90 + 10 * ((13 : ℕ) : ℝ) ≤ 47 ∧ (47 : ℝ) ≤ -80 + 10 * ((13 : ℕ) : ℝ)) ∧ (-180 + 10 * ((18 : ℕ) : ℝ) ≤ 8 ∧ (8 : ℝ) ≤ -170 + 10 * ((18 : ℕ) : ℝ)) := by
  norm_num

end Ecl.GeoLookup
