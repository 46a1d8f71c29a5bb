import Verif.Cov.Props2

/-!
# The covariance limiter when no limit acts — EKF/covariance.cpp:859-1021
-/

namespace Ecl.Cov

variable {K : Type*} [Field K] [LinearOrder K] [IsStrictOrderedRing K]

/-- No limit of the covariance limiter acts on `Q`: field and wind states in use, no accelerometer bias axis inhibited, bias
plausible, clock far from its overflow, and every variance inside its limits (quaternion and gyro bias 0..1, velocity and position
1e-6..1e6, field 0..1, wind 0..1e6, accelerometer bias from 5e-8 and a hundredth of the largest axis up to (0.1 g dt)²). -/
structure Spec.Quiet (x : FixIn K) (Q : Mat K) : Prop where
  mag : x.mag3D = true
  wind : x.wind = true
  inh : ∀ a, x.inhibit a = false
  bias : x.badAccBias = false
  clock : x.now.toNat + 7000000 < 2 ^ 64
  quat : ∀ i : Fin N, i.val < 4 → 0 ≤ Q i i ∧ Q i i ≤ 1
  kin : ∀ i : Fin N, 4 ≤ i.val → i.val < 10 → 1 / 1000000 ≤ Q i i ∧ Q i i ≤ 1000000
  gyro : ∀ i : Fin N, 10 ≤ i.val → i.val < 13 → 0 ≤ Q i i ∧ Q i i ≤ 1
  acc : ∀ i : Fin N, 13 ≤ i.val → i.val < 16 → 5 / 100000000 ≤ Q i i ∧ Q i i ≤ (1 / 10 * (980665 / 100000) * x.dtEkfAvg) ^ 2 ∧
    ∀ j : Fin N, 13 ≤ j.val → j.val < 16 → Q j j / 100 ≤ Q i i
  field : ∀ i : Fin N, 16 ≤ i.val → i.val < 22 → 0 ≤ Q i i ∧ Q i i ≤ 1
  windVar : ∀ i : Fin N, 22 ≤ i.val → 0 ≤ Q i i ∧ Q i i ≤ 1000000

theorem constrain_id {v lo hi : K} (h1 : lo ≤ v) (h2 : v ≤ hi) : constrain v lo hi = v := by
  unfold constrain
  rw [if_neg (not_lt.mpr h1), if_neg (not_lt.mpr h2)]

theorem mapDiag_id {f w : ℕ} {g : K → K} {P : Mat K} (h : ∀ i : Fin N, inBlk f w i → g (P i i) = P i i) : mapDiag f w g P = P := by
  funext i j
  unfold mapDiag
  split
  · rename_i hh; obtain ⟨rfl, h2⟩ := hh; exact h i h2
  · rfl

/-- rows and columns before `k` averaged -/
def symUpTo (k : ℕ) (Q : Mat K) : Mat K := fun i j => if i ≠ j ∧ (i.val < k ∨ j.val < k) then (Q i j + Q j i) / 2 else Q i j

theorem makeSym_upTo (f w : ℕ) (Q : Mat K) : makeSym f w (symUpTo f Q) = symUpTo (f + w) Q := by
  funext i j
  unfold makeSym symUpTo inBlk
  by_cases hij : i = j
  · subst hij; simp
  · have hji : ¬ j = i := fun h => hij h.symm
    simp only [ne_eq, hij, hji, not_false_eq_true, true_and]
    by_cases h1 : i.val < f ∨ j.val < f
    · have h2 : j.val < f ∨ i.val < f := h1.symm
      have h3 : i.val < f + w ∨ j.val < f + w := by omega
      simp only [h1, h2, h3, if_true]
      split <;> ring
    · have h2 : ¬ (j.val < f ∨ i.val < f) := fun h => h1 h.symm
      simp only [h1, h2, if_false]
      have : ((f ≤ i.val ∧ i.val < f + w) ∨ (f ≤ j.val ∧ j.val < f + w)) ↔ (i.val < f + w ∨ j.val < f + w) := by omega
      simp only [this]

theorem symUpTo_diag (k : ℕ) (Q : Mat K) (i : Fin N) : symUpTo k Q i i = Q i i := by unfold symUpTo; simp

theorem symUpTo_zero (Q : Mat K) : symUpTo 0 Q = Q := by funext i j; unfold symUpTo; simp

/-- When no limit acts the limiter only replaces mirrored elements by their mean. -/
theorem fix_quiet (x : FixIn K) (t : UInt64) (fl : Bool) (Q : Mat K) (h : Spec.Quiet x Q) :
    (fixCovarianceErrors x true t fl Q).1 = fun i j => (Q i j + Q j i) / 2 := by
  have e0 : fixKin true Q = symUpTo 13 Q := by
    have d1 : mapDiag 0 4 (fun v => constrain v 0 1) Q = Q :=
      mapDiag_id fun i hi => constrain_id (h.quat i (by unfold inBlk at hi; omega)).1 (h.quat i (by unfold inBlk at hi; omega)).2
    have d2 : mapDiag 4 3 (fun v => constrain v (1 / 1000000) 1000000) Q = Q :=
      mapDiag_id fun i hi => by
        have := h.kin i (by unfold inBlk at hi; omega) (by unfold inBlk at hi; omega)
        exact constrain_id this.1 this.2
    have d3 : mapDiag 7 3 (fun v => constrain v (1 / 1000000) 1000000) Q = Q :=
      mapDiag_id fun i hi => by
        have := h.kin i (by unfold inBlk at hi; omega) (by unfold inBlk at hi; omega)
        exact constrain_id this.1 this.2
    have d4 : mapDiag 10 3 (fun v => constrain v 0 1) Q = Q :=
      mapDiag_id fun i hi => by
        have := h.gyro i (by unfold inBlk at hi; omega) (by unfold inBlk at hi; omega)
        exact constrain_id this.1 this.2
    unfold fixKin
    simp only [d1, d2, d3, d4, if_true]
    have := makeSym_upTo 0 13 Q
    rwa [symUpTo_zero] at this
  have e1 : ∀ t, (fixAcc x true t (symUpTo 13 Q)).1 = symUpTo 16 Q := by
    intro t
    have ha : ∀ a : Fin 3, symUpTo 13 Q (accIdx a) (accIdx a) = Q (accIdx a) (accIdx a) := fun a => symUpTo_diag _ _ _
    have hb : ∀ a : Fin 3, 13 ≤ (accIdx a).val ∧ (accIdx a).val < 16 := by
      intro a; unfold accIdx; have := a.isLt; constructor <;> (show _ ) <;> simp; omega
    have hacc : ∀ a : Fin 3, _ := fun a => h.acc (accIdx a) (hb a).1 (hb a).2
    have hstep : ∀ (m : K) (a : Fin 3), (∀ b : Fin 3, m / 100 ≤ Q (accIdx b) (accIdx b)) →
        ∃ m', accScanStep x.inhibit (symUpTo 13 Q) (m, false) a = (m', false) ∧ ∀ b : Fin 3, m' / 100 ≤ Q (accIdx b) (accIdx b) := by
      intro m a hm
      unfold accScanStep
      simp only [h.inh, Bool.false_eq_true, if_false, ha]
      have h3 := (hacc a).1
      by_cases hg : Q (accIdx a) (accIdx a) > m
      · rw [if_pos hg]
        exact ⟨_, rfl, fun b => (hacc b).2.2 _ (hb a).1 (hb a).2⟩
      · rw [if_neg hg, if_neg (by push Not; linarith)]
        exact ⟨_, rfl, hm⟩
    have hscan : ∃ m, accScan x.inhibit (symUpTo 13 Q) = (m, false) ∧ ∀ b : Fin 3, m / 100 ≤ Q (accIdx b) (accIdx b) := by
      unfold accScan
      obtain ⟨m1, g1, g1'⟩ := hstep (1 / 1000000000) 0 (fun b => by have := (hacc b).1; linarith)
      obtain ⟨m2, g2, g2'⟩ := hstep m1 1 g1'
      obtain ⟨m3, g3, g3'⟩ := hstep m2 2 g2'
      refine ⟨m3, ?_, g3'⟩
      simp only [List.foldl_cons, List.foldl_nil]
      rw [g1, g2, g3]
    obtain ⟨m, hm, hm'⟩ := hscan
    have hclamp : accClamp x.inhibit (accFloor m) (accCap x.dtEkfAvg) (symUpTo 13 Q) = symUpTo 13 Q := by
      funext i j
      unfold accClamp
      split
      · rename_i hh
        obtain ⟨rfl, a, -, rfl⟩ := hh
        rw [ha]
        refine constrain_id (max_le ?_ ?_) ?_
        · have := hm' a; linarith
        · exact (hacc a).1
        · have := (hacc a).2.1
          unfold accCap sq
          rw [← pow_two]; exact this
      · rfl
    have hto : isTimedOut x.now x.now 7000000 = false := by
      rw [← Bool.not_eq_true, isTimedOut_iff, UInt64.lt_iff_toNat_lt, UInt64.toNat_add]
      have hc := h.clock
      have : (7000000 : UInt64).toNat = 7000000 := rfl
      rw [this, Nat.mod_eq_of_lt hc]; omega
    unfold fixAcc
    simp only [hm, hclamp, h.bias, Bool.false_eq_true, if_false, hto, if_true]
    exact makeSym_upTo 13 3 Q
  unfold fixCovarianceErrors
  simp only [h.inh, Bool.not_false, Bool.or_self, if_true, e0, e1]
  have e2 : fixMag x.mag3D true (symUpTo 16 Q) = symUpTo 22 Q := by
    have d1 : mapDiag 16 3 (fun v => constrain v 0 1) (symUpTo 16 Q) = symUpTo 16 Q :=
      mapDiag_id fun i hi => by
        rw [symUpTo_diag]
        have := h.field i (by unfold inBlk at hi; omega) (by unfold inBlk at hi; omega)
        exact constrain_id this.1 this.2
    have d2 : mapDiag 19 3 (fun v => constrain v 0 1) (symUpTo 16 Q) = symUpTo 16 Q :=
      mapDiag_id fun i hi => by
        rw [symUpTo_diag]
        have := h.field i (by unfold inBlk at hi; omega) (by unfold inBlk at hi; omega)
        exact constrain_id this.1 this.2
    unfold fixMag
    simp only [h.mag, Bool.not_true, Bool.false_eq_true, if_false, d1, d2, if_true]
    rw [makeSym_upTo 16 3 Q, makeSym_upTo 19 3 Q]
  have e3 : fixWind x.wind true (symUpTo 22 Q) = symUpTo 24 Q := by
    have d1 : mapDiag 22 2 (fun v => constrain v 0 1000000) (symUpTo 22 Q) = symUpTo 22 Q :=
      mapDiag_id fun i hi => by
        rw [symUpTo_diag]
        have := h.windVar i (by unfold inBlk at hi; omega)
        exact constrain_id this.1 this.2
    unfold fixWind
    simp only [h.wind, Bool.not_true, Bool.false_eq_true, if_false, d1, if_true]
    rw [makeSym_upTo 22 2 Q]
  rw [e2, e3]
  funext i j
  unfold symUpTo
  by_cases hij : i = j
  · subst hij; simp
  · rw [if_pos ⟨hij, Or.inl i.isLt⟩]

end Ecl.Cov
