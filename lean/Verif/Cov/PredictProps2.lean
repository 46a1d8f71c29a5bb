import Verif.Cov.PredictProps

/-!
# Covariance prediction: complete description of the result (C27), validity (C82)
-/

set_option linter.unusedSectionVars false
set_option linter.unusedSimpArgs false
set_option linter.unusedVariables false

namespace Ecl.Cov

section alg
variable {K : Type*} [Field K] [LinearOrder K] [IsStrictOrderedRing K]

theorem foldl_writeCol (l : List ℕ) (f : ℕ → ℕ → K) (M : Mat K) (i j : Fin N) :
    l.foldl (fun M j => writeCol j (fun i => f i j) M) M i j =
      if j.val ∈ l ∧ i.val ≤ j.val then f i.val j.val else M i j := by
  induction l generalizing M with
  | nil => simp
  | cons a l ih =>
    rw [List.foldl_cons, ih]
    by_cases h : j.val ∈ l ∧ i.val ≤ j.val
    · rw [if_pos h, if_pos ⟨List.mem_cons_of_mem _ h.1, h.2⟩]
    · rw [if_neg h]
      unfold writeCol
      by_cases h2 : j.val = a
      · subst h2
        by_cases h3 : i.val ≤ j.val
        · rw [if_pos ⟨rfl, h3⟩, if_pos ⟨List.mem_cons_self, h3⟩]
        · rw [if_neg (fun hh => h3 hh.2), if_neg (fun hh => h3 hh.2)]
      · rw [if_neg (fun hh => h2 hh.1), if_neg]
        rintro ⟨h3, h4⟩
        rcases List.mem_cons.mp h3 with h5 | h5
        · exact h2 h5
        · exact h ⟨h5, h4⟩

theorem kahan_exact (s n a : K) : (Utils.kahanSummation id s n a).1 = s + (n - a) := by
  unfold Utils.kahanSummation; simp

theorem nextKin_eq (c : PredCfg K) (acc : Accum K) (P : Mat K) (i j : Fin N) (h : i ≤ j) :
    nextKin c acc P i j = if j.val < 13 then nxAll P c.x i.val j.val +
      (if i = j then (if j.val = 10 then c.noise 10 - acc.ang 0 else if j.val = 11 then c.noise 11 - acc.ang 1
        else if j.val = 12 then c.noise 12 - acc.ang 2 else 0) else 0) else 0 := by
  have hij : i.val ≤ j.val := h
  have key : ∀ i j : Fin N, i.val ≤ j.val →
      (List.range 13).foldl (fun M j => writeCol j (fun i => nxAll P c.x i j) M) (fun _ _ => (0 : K)) i j =
      if j.val < 13 then nxAll P c.x i.val j.val else 0 := by
    intro i j hij
    rw [foldl_writeCol]
    by_cases hj : j.val < 13
    · rw [if_pos ⟨List.mem_range.mpr hj, hij⟩, if_pos hj]
    · rw [if_neg (fun hh => hj (List.mem_range.mp hh.1)), if_neg hj]
  unfold nextKin addKahan
  simp only [kahan_exact, key i j hij]
  have e : (i = j) ↔ i.val = j.val := Fin.ext_iff
  by_cases e1 : i.val = j.val
  · simp only [e.mpr e1, if_true, and_self]
    by_cases h10 : j.val = 10
    · simp [h10]
    · by_cases h11 : j.val = 11
      · simp [h11]
      · by_cases h12 : j.val = 12
        · simp [h12]
        · simp [h10, h11, h12]
  · have n : ∀ c : ℕ, ¬ (i.val = c ∧ j.val = c) := fun c hh => e1 (by omega)
    simp only [n, if_false, mt e.mp e1, add_zero]

theorem nextAcc_eq (c : PredCfg K) (acc : Accum K) (P M : Mat K) (a : Fin 3) (i j : Fin N) (h : i ≤ j) :
    nextAcc c acc P M a i j =
      if c.inhibit a = true then
        (if i.val = 13 + a.val ∨ j.val = 13 + a.val then (if i = j then c.prevVar a else 0) else M i j)
      else if j.val = 13 + a.val then nxAll P c.x i.val j.val + (if i = j then c.noise (accIdx a) - acc.vel a else 0)
      else M i j := by
  have hij : i.val ≤ j.val := h
  have e : (i = j) ↔ i.val = j.val := Fin.ext_iff
  unfold nextAcc
  cases hc : c.inhibit a with
  | true =>
    simp only [Bool.not_true, Bool.false_eq_true, if_false, if_true]
    unfold uncorrSet inBlk
    have e1 : ∀ k : ℕ, (13 + a.val ≤ k ∧ k < 13 + a.val + 1) ↔ k = 13 + a.val := fun k => by omega
    simp only [e1]
  | false =>
    simp only [Bool.not_false, if_true, Bool.false_eq_true, if_false]
    unfold addKahan writeCol
    simp only [kahan_exact]
    by_cases hj : j.val = 13 + a.val
    · rw [if_pos hj]
      have hi : i.val ≤ 13 + a.val := by omega
      by_cases hi2 : i.val = 13 + a.val
      · rw [if_pos ⟨hi2, hj⟩, if_pos ⟨hj, hi⟩, if_pos (e.mpr (by omega))]; rw [hj]
      · rw [if_neg (fun hh => hi2 hh.1), if_pos ⟨hj, hi⟩, if_neg (fun hh => hi2 (by have := e.mp hh; omega)), add_zero, hj]
    · rw [if_neg (fun hh => hj hh.2), if_neg (fun hh => hj hh.1), if_neg hj]

theorem nextMag_eq (c : PredCfg K) (P M : Mat K) (i j : Fin N) (h : i ≤ j) :
    nextMag c P M i j = if c.mag3D = true ∧ 16 ≤ j.val ∧ j.val < 22 then
      nxAll P c.x i.val j.val + (if i = j then c.noise j else 0) else M i j := by
  have hij : i.val ≤ j.val := h
  unfold nextMag
  cases hc : c.mag3D with
  | false => simp
  | true =>
    simp only [if_true, true_and]
    unfold addNoise
    rw [foldl_writeCol]
    have e : (j.val ∈ [16, 17, 18, 19, 20, 21] ∧ i.val ≤ j.val) ↔ (16 ≤ j.val ∧ j.val < 22) := by
      simp only [List.mem_cons, List.not_mem_nil, or_false]; omega
    simp only [e]
    by_cases hj : 16 ≤ j.val ∧ j.val < 22
    · simp only [hj, and_self, if_true]
      by_cases hi : i = j
      · subst hi; rw [if_pos ⟨rfl, hj.1, by omega⟩, if_pos rfl]
      · rw [if_neg (fun hh => hi hh.1), if_neg hi, add_zero]
    · rw [if_neg hj, if_neg hj, if_neg]
      rintro ⟨rfl, h1, h2⟩; exact hj ⟨h1, by omega⟩

theorem nextWind_eq (c : PredCfg K) (P M : Mat K) (i j : Fin N) (h : i ≤ j) :
    nextWind c P M i j = if c.wind = true ∧ 22 ≤ j.val then
      nxAll P c.x i.val j.val + (if i = j then c.noise j else 0) else M i j := by
  have hij : i.val ≤ j.val := h
  have hj24 : j.val < 24 := j.isLt
  unfold nextWind
  cases hc : c.wind with
  | false => simp
  | true =>
    simp only [if_true, true_and]
    unfold addNoise
    rw [foldl_writeCol]
    have e : (j.val ∈ [22, 23] ∧ i.val ≤ j.val) ↔ (22 ≤ j.val) := by
      simp only [List.mem_cons, List.not_mem_nil, or_false]; omega
    simp only [e]
    by_cases hj : 22 ≤ j.val
    · simp only [hj, and_self, if_true]
      by_cases hi : i = j
      · subst hi; rw [if_pos ⟨rfl, hj, by omega⟩, if_pos rfl]
      · rw [if_neg (fun hh => hi hh.1), if_neg hi, add_zero]
    · rw [if_neg hj, if_neg hj, if_neg]
      rintro ⟨rfl, h1, h2⟩; exact hj h1

/-- state `j` is being predicted: not an inhibited accelerometer bias, not an unused field or wind state -/
def Spec.Active (c : PredCfg K) (j : Fin N) : Prop :=
  (∀ a : Fin 3, j.val = 13 + a.val → c.inhibit a = false) ∧ (16 ≤ j.val → j.val < 22 → c.mag3D = true) ∧
  (22 ≤ j.val → c.wind = true)

/-- process noise added to state `j`, with the pending compensation of the summation subtracted -/
def Spec.noise (c : PredCfg K) (acc : Accum K) (j : Fin N) : K :=
  if j.val < 10 then 0
  else if h : j.val < 13 then c.noise j - acc.ang ⟨j.val - 10, by omega⟩
  else if h : j.val < 16 then c.noise j - acc.vel ⟨j.val - 13, by omega⟩
  else c.noise j

/-- the prediction by the linearised model: `F P Fᵀ + G Q Gᵀ` plus process noise -/
def Spec.predicted (c : PredCfg K) (acc : Accum K) (P : Mat K) (i j : Fin N) : K :=
  Spec.sandwich (matF c.x) P i j + Spec.sandwich (matG c.x) (fun k l => if k = l then imuVar c.x k else 0) i j +
    if i = j then Spec.noise c acc j else 0

theorem predictRaw_symm (c : PredCfg K) (acc : Accum K) (P : Mat K) (i j : Fin N) :
    predictRaw c acc P i j = predictRaw c acc P j i := by
  unfold predictRaw mirror
  rcases lt_trichotomy i j with h | h | h
  · rw [if_pos h.le, if_neg (not_le.mpr h)]
  · subst h; rfl
  · rw [if_neg (not_le.mpr h), if_pos h.le]

theorem predictRaw_entry (c : PredCfg K) (acc : Accum K) (P : Mat K) (hs : ∀ i j, P i j = P j i) (i j : Fin N) (h : i ≤ j) :
    (P 7 7 + P 8 8 > 10000 → ((7 ≤ i.val ∧ i.val ≤ 8) ∨ (7 ≤ j.val ∧ j.val ≤ 8)) → predictRaw c acc P i j = P i j) ∧
    (¬ (P 7 7 + P 8 8 > 10000 ∧ ((7 ≤ i.val ∧ i.val ≤ 8) ∨ (7 ≤ j.val ∧ j.val ≤ 8))) →
      (Spec.Active c j → predictRaw c acc P i j = Spec.predicted c acc P i j) ∧
      (∀ a : Fin 3, c.inhibit a = true → j.val = 13 + a.val →
        predictRaw c acc P i j = if i = j then c.prevVar a else 0) ∧
      (c.mag3D = false → 16 ≤ j.val → j.val < 22 → predictRaw c acc P i j = 0) ∧
      (c.wind = false → 22 ≤ j.val → predictRaw c acc P i j = 0)) := by
  have hij : i.val ≤ j.val := h
  have hj24 : j.val < 24 := j.isLt
  have e : (i = j) ↔ i.val = j.val := Fin.ext_iff
  have hm : predictRaw c acc P i j =
      stopGrowth P (nextWind c P (nextMag c P ([0, 1, 2].foldl (nextAcc c acc P) (nextKin c acc P)))) i j := by
    unfold predictRaw mirror; rw [if_pos h]
  rw [hm]
  constructor
  · intro h1 h2
    unfold stopGrowth; rw [if_pos h1]; simp only [h2, if_true]
  · intro hn
    have hg : stopGrowth P (nextWind c P (nextMag c P ([0, 1, 2].foldl (nextAcc c acc P) (nextKin c acc P)))) i j =
        nextWind c P (nextMag c P ([0, 1, 2].foldl (nextAcc c acc P) (nextKin c acc P))) i j := by
      unfold stopGrowth
      by_cases h1 : P 7 7 + P 8 8 > 10000
      · rw [if_pos h1]
        have h2 : ¬ ((7 ≤ i.val ∧ i.val ≤ 8) ∨ (7 ≤ j.val ∧ j.val ≤ 8)) := fun h2 => hn ⟨h1, h2⟩
        simp only [h2, if_false]
      · rw [if_neg h1]
    rw [hg, nextWind_eq _ _ _ _ _ h, nextMag_eq _ _ _ _ _ h]
    simp only [List.foldl_cons, List.foldl_nil, nextAcc_eq _ _ _ _ _ _ _ h, nextKin_eq _ _ _ _ _ h]
    have hnx := nxAll_eq P c.x hs i j h
    rw [rowF_rowF, imuCov_sandwich] at hnx
    have v0 : (13 + (0 : Fin 3).val) = 13 := rfl
    have v1 : (13 + (1 : Fin 3).val) = 14 := rfl
    have v2 : (13 + (2 : Fin 3).val) = 15 := rfl
    simp only [v0, v1, v2]
    refine ⟨fun hA => ?_, fun a ha hja => ?_, fun hmag h1 h2 => ?_, fun hw h1 => ?_⟩
    · obtain ⟨hA1, hA2, hA3⟩ := hA
      unfold Spec.predicted
      rw [← hnx]
      by_cases c1 : j.val < 10
      · rw [if_neg (by omega), if_neg (by omega)]
        simp only [show ¬ i.val = 13 by omega, or_self, or_false, show ¬ i.val = 14 by omega, or_self, or_false,
          show ¬ i.val = 15 by omega, or_self, or_false, show ¬ j.val = 13 by omega, show ¬ j.val = 14 by omega,
          show ¬ j.val = 15 by omega, if_false, ite_self, show j.val < 13 by omega, if_true,
          show ¬ j.val = 10 by omega, show ¬ j.val = 11 by omega, show ¬ j.val = 12 by omega]
        unfold Spec.noise; rw [if_pos c1, ite_self]
      by_cases c2 : j.val < 13
      · rw [if_neg (by omega), if_neg (by omega)]
        simp only [show ¬ i.val = 13 by omega, or_self, or_false, show ¬ i.val = 14 by omega, or_self, or_false,
          show ¬ i.val = 15 by omega, or_self, or_false, show ¬ j.val = 13 by omega, show ¬ j.val = 14 by omega,
          show ¬ j.val = 15 by omega, if_false, ite_self, c2, if_true]
        unfold Spec.noise
        simp only [c1, if_false, c2, dif_pos]
        have h3 : j.val = 10 ∨ j.val = 11 ∨ j.val = 12 := by omega
        rcases h3 with h3 | h3 | h3
        · have : j = 10 := Fin.ext h3
          subst this; rfl
        · have : j = 11 := Fin.ext h3
          subst this; rfl
        · have : j = 12 := Fin.ext h3
          subst this; rfl
      by_cases c3 : j.val < 16
      · rw [if_neg (by omega), if_neg (by omega)]
        have h3 : j.val = 13 ∨ j.val = 14 ∨ j.val = 15 := by omega
        rcases h3 with h3 | h3 | h3
        · have hj : j = 13 := Fin.ext h3
          have hi := hA1 0 h3
          simp only [show ¬ i.val = 14 by omega, or_self, or_false,
            show ¬ i.val = 15 by omega, or_self, or_false, h3, show ¬ (13 = 14) by omega, show ¬ (13 = 15) by omega,
            if_false, ite_self, hi, Bool.false_eq_true, if_true]
          subst hj; rfl
        · have hj : j = 14 := Fin.ext h3
          have hi := hA1 1 h3
          simp only [show ¬ i.val = 15 by omega, or_self, or_false, h3, show ¬ (14 = 15) by omega,
            if_false, ite_self, hi, Bool.false_eq_true, if_true]
          subst hj; rfl
        · have hj : j = 15 := Fin.ext h3
          have hi := hA1 2 h3
          simp only [h3, if_false, ite_self, hi, Bool.false_eq_true, if_true]
          subst hj; rfl
      by_cases c4 : j.val < 22
      · rw [if_neg (by omega), if_pos ⟨hA2 (by omega) c4, by omega, c4⟩]
        unfold Spec.noise; rw [if_neg c1, dif_neg c2, dif_neg c3]
      · rw [if_pos ⟨hA3 (by omega), by omega⟩]
        unfold Spec.noise; rw [if_neg c1, dif_neg c2, dif_neg c3]
    · rw [if_neg (by omega), if_neg (by omega)]
      fin_cases a
      · have hj : j.val = 13 := hja
        have ha' : c.inhibit 0 = true := ha
        simp only [show ¬ i.val = 14 by omega, or_self, or_false, show ¬ i.val = 15 by omega, or_self, or_false, hj,
          show ¬ (13 = 14) by omega, show ¬ (13 = 15) by omega, if_false, ite_self, ha', if_true, or_true]
        rfl
      · have hj : j.val = 14 := hja
        have ha' : c.inhibit 1 = true := ha
        simp only [show ¬ i.val = 15 by omega, or_self, or_false, hj, show ¬ (14 = 15) by omega, if_false, ite_self, ha',
          if_true, or_true]
        rfl
      · have hj : j.val = 15 := hja
        have ha' : c.inhibit 2 = true := ha
        simp only [hj, ha', if_true, or_true]
        rfl
    · rw [if_neg (by omega), if_neg (by rw [hmag]; simp)]
      have hne : i.val = 13 ∨ i.val = 14 ∨ i.val = 15 → ¬ i = j := fun h3 h4 => by rw [e] at h4; omega
      simp only [show ¬ j.val = 13 by omega, show ¬ j.val = 14 by omega, show ¬ j.val = 15 by omega, or_false, if_false,
        show ¬ j.val < 13 by omega]
      by_cases i3 : i.val = 13 ∨ i.val = 14 ∨ i.val = 15
      · simp only [hne i3, if_false, ite_self]
      · simp only [show ¬ i.val = 13 by omega, show ¬ i.val = 14 by omega, show ¬ i.val = 15 by omega, if_false, ite_self]
    · rw [if_neg (by rw [hw]; simp), if_neg (by omega)]
      have hne : i.val = 13 ∨ i.val = 14 ∨ i.val = 15 → ¬ i = j := fun h3 h4 => by rw [e] at h4; omega
      simp only [show ¬ j.val = 13 by omega, show ¬ j.val = 14 by omega, show ¬ j.val = 15 by omega, or_false, if_false,
        show ¬ j.val < 13 by omega]
      by_cases i3 : i.val = 13 ∨ i.val = 14 ∨ i.val = 15
      · simp only [hne i3, if_false, ite_self]
      · simp only [show ¬ i.val = 13 by omega, show ¬ i.val = 14 by omega, show ¬ i.val = 15 by omega, if_false, ite_self]

end alg

end Ecl.Cov
