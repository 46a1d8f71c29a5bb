import Verif.Whole.PsdUpd
import Verif.Whole.Model
import Verif.Cov.PredictProps3

/-!
# Predictions keep the covariance valid while no variance reaches its limit
-/

namespace Ecl.Whole

open Ecl.Cov Ecl.Fusion Ecl.Ekf

/-- a variance that is below its limit after the limiter was below it before -/
theorem fix_below {x : FixIn ℝ} (hx : ∀ a, x.inhibit a = false) (hdt : 0 < x.dtEkfAvg) {force : Bool} {t : UInt64} {fl : Bool} {A : Mat ℝ}
    (h : Spec.BelowLimits x.dtEkfAvg (fixCovarianceErrors x force t fl A).1) (i : Fin N) : cut x.mag3D x.wind A i i ≤ Spec.varLimit x.dtEkfAvg i := by
  by_cases ho : Off x.mag3D x.wind i
  · unfold cut; rw [if_pos (Or.inl ho)]; exact (varLimit_pos hdt i).le
  have ec : cut x.mag3D x.wind A i i = A i i := by unfold cut; rw [if_neg (by tauto)]
  rw [ec]
  have hi := h i
  obtain ⟨l1, l2, l3, l4, l5⟩ := fix_variance_limits x force t fl A i
  have fin : ∀ {v lo hi : ℝ}, max lo (min v hi) < hi → v ≤ hi := fun {v lo hi} h => by
    by_contra hc
    rw [min_eq_right (not_le.mp hc).le] at h
    exact absurd (le_max_right lo hi) (not_le.mpr h)
  unfold Spec.varLimit at hi ⊢
  by_cases c1 : i.val < 4
  · rw [if_pos c1] at hi ⊢; rw [l1 c1] at hi; exact fin hi
  by_cases c2 : i.val < 10
  · rw [if_neg c1, if_pos c2] at hi ⊢; rw [l2 (by omega) c2] at hi; exact fin hi
  by_cases c3 : i.val < 13
  · rw [if_neg c1, if_neg c2, if_pos c3] at hi ⊢; rw [l3 (by omega) c3] at hi; exact fin hi
  by_cases c4 : i.val < 16
  · rw [if_neg c1, if_neg c2, if_neg c3, if_pos c4] at hi ⊢
    obtain ⟨m, -, -, -, e⟩ := fix_accel_variance x force t fl A ⟨i.val - 13, by omega⟩
    have ei : accIdx ⟨i.val - 13, by omega⟩ = i := Fin.ext (by show 13 + (i.val - 13) = i.val; omega)
    rw [ei, if_neg (by rw [hx]; decide)] at e
    rw [e] at hi
    split at hi
    · next hlt => exact le_of_lt (lt_trans hlt hi)
    · by_contra hc
      rw [min_eq_right (not_le.mp hc).le] at hi
      exact absurd hi (lt_irrefl _)
  by_cases c5 : i.val < 22
  · rw [if_neg c1, if_neg c2, if_neg c3, if_neg c4, if_pos c5] at hi ⊢
    rw [l4 (by omega) c5] at hi
    have hm : x.mag3D = true := by
      by_contra hm
      exact ho (Or.inl ⟨by omega, c5, by simpa using hm⟩)
    rw [if_pos hm] at hi; exact fin hi
  · rw [if_neg c1, if_neg c2, if_neg c3, if_neg c4, if_neg c5] at hi ⊢
    rw [l5 (by omega)] at hi
    have hm : x.wind = true := by
      by_contra hm
      exact ho (Or.inr ⟨by omega, by simpa using hm⟩)
    rw [if_pos hm] at hi; exact fin hi

/-- the predicted matrix, in the states in use -/
theorem predictRaw_cut {c : PredCfg ℝ} {acc : Accum ℝ} {P : Mat ℝ} (hP : Spec.PSD P) (hv : ∀ k, 0 ≤ imuVar c.x k) (hn : ∀ j, 0 ≤ Cov.Spec.noise c acc j)
    (hi : ∀ a, c.inhibit a = false) (hg : P 7 7 + P 8 8 ≤ 10000) : Spec.PSD (cut c.mag3D c.wind (predictRaw c acc P)) := by
  have h1 : Spec.PSD (Cov.Spec.predicted c acc P) := by
    refine psd_congr (P := fun i j => (Spec.sandwich (matF c.x) P i j +
        Spec.sandwich (matG c.x) (fun k l => if k = l then imuVar c.x k else 0) i j) +
        (if i = j then Cov.Spec.noise c acc i else 0)) (fun i j => ?_)
      (psd_add (psd_add (psd_sandwich _ hP) (psd_sandwich _ (psd_diag hv))) (psd_diag hn))
    unfold Cov.Spec.predicted
    by_cases e : i = j
    · subst e; rfl
    · rw [if_neg e, if_neg e]
  have act : ∀ j, ¬Off c.mag3D c.wind j → Cov.Spec.Active c j := by
    intro j hj
    refine ⟨fun a _ => hi a, fun a b => ?_, fun a => ?_⟩
    · by_contra hc; exact hj (Or.inl ⟨a, b, by simpa using hc⟩)
    · by_contra hc; exact hj (Or.inr ⟨a, by simpa using hc⟩)
  refine psd_congr (fun i j => ?_) (psd_cut c.mag3D c.wind h1)
  unfold cut
  by_cases ho : Off c.mag3D c.wind i ∨ Off c.mag3D c.wind j
  · rw [if_pos ho, if_pos ho]
  · rw [if_neg ho, if_neg ho]
    rw [not_or] at ho
    rcases le_total i j with h | h
    · exact ((predictRaw_entry c acc P hP.symm i j h).2 (fun hh => absurd hh.1 (not_lt.mpr hg))).1 (act j ho.2)
    · rw [predictRaw_symm, ((predictRaw_entry c acc P hP.symm j i h).2 (fun hh => absurd hh.1 (not_lt.mpr hg))).1 (act i ho.1), h1.symm]

theorem inhibitUpdate_none {x : InhibitIn ℝ} {s : InhibitState ℝ} (h0 : ∀ a, s.inhibit a = false) (h1 : ∀ a, (inhibitUpdate x s).inhibit a = false) :
    (inhibitUpdate x s).P = s.P := by
  obtain ⟨g, c, hgc⟩ : ∃ g c, envelope x s = (g, c) := ⟨_, _, rfl⟩
  have st : ∀ (s : InhibitState ℝ) (a : Fin 3), (∀ b, s.inhibit b = false) → inhibitStep x g c s a = s ∨ ((inhibitStep x g c s a).inhibit a = true ∧
      (inhibitStep x g c s a).P = s.P) := by
    intro s a h
    unfold inhibitStep
    rw [h a]
    split
    · right; simp
    · left; simp
  have keep : ∀ (s : InhibitState ℝ) (a b : Fin 3), a ≠ b → s.inhibit b = true → (inhibitStep x g c s a).inhibit b = true := by
    intro s a b hab h
    unfold inhibitStep
    repeat' split
    all_goals simp [Function.update_apply, h, Ne.symm hab]
  have e : inhibitUpdate x s = inhibitStep x g c (inhibitStep x g c (inhibitStep x g c { s with angFilt := g, accFilt := c } 0) 1) 2 := by
    unfold inhibitUpdate; rw [hgc]; rfl
  rw [e] at h1 ⊢
  have f : ∀ b : Bool, b = true → b = false → False := fun b h h' => by rw [h] at h'; exact absurd h' (by decide)
  rcases st { s with angFilt := g, accFilt := c } 0 h0 with e0 | ⟨e0, -⟩
  · rw [e0] at h1 ⊢
    rcases st { s with angFilt := g, accFilt := c } 1 h0 with e1 | ⟨e1, -⟩
    · rw [e1] at h1 ⊢
      rcases st { s with angFilt := g, accFilt := c } 2 h0 with e2 | ⟨e2, -⟩
      · rw [e2]
      · exact (f _ e2 (h1 2)).elim
    · exact (f _ (keep _ 2 1 (by decide) e1) (h1 1)).elim
  · exact (f _ (keep _ 2 0 (by decide) (keep _ 1 0 (by decide) e0)) (h1 0)).elim

/-- a prediction that leaves every variance below its limit -/
theorem psd_predictCovariance {x : CovIn ℝ} {s : CovSt ℝ} (hdt : 0 < x.dtEkfAvg) (hP : Spec.PSD s.ist.P) (hacc : ∀ a, s.acc.ang a = 0 ∧ s.acc.vel a = 0)
    (hi : ∀ a, s.ist.inhibit a = false) (hi' : ∀ a, (predictCovariance x s).ist.inhibit a = false) (hg : s.ist.P 7 7 + s.ist.P 8 8 ≤ 10000)
    (hl : Spec.BelowLimits x.dtEkfAvg (predictCovariance x s).ist.P) : Spec.PSD (predictCovariance x s).ist.P := by
  have hi2 : ∀ a, (inhibitUpdate x.inh s.ist).inhibit a = false := hi'
  have eP : (inhibitUpdate x.inh s.ist).P = s.ist.P := inhibitUpdate_none hi hi2
  unfold predictCovariance at hl ⊢
  simp only at hl ⊢
  unfold predictCov at hl ⊢
  refine fix_valid_cut _ _ _ _ ?_ (below_within fun i => fix_below hi2 hdt hl i)
  have hn : ∀ j, 0 ≤ processNoise x.nz (heightRateLpf s.heightRate x.nz.velD) (inhibitUpdate x.inh s.ist).P j := fun j => process_noise_nonneg _ _ _ j
  rw [eP] at hn ⊢
  refine predictRaw_cut (c := ⟨x.predIn, _, _, _, x.nz.mag3D, x.nz.wind⟩) hP (fun k => ?_) (fun j => ?_) hi2 hg
  · show 0 ≤ imuVar x.predIn k
    rw [imuVar_spec]
    unfold Spec.imuVariance
    fin_cases k <;> exact sq_nonneg _
  · unfold Cov.Spec.noise
    simp only
    split
    · exact le_rfl
    · split
      · rw [(hacc _).1, sub_zero]; exact hn j
      · split
        · rw [(hacc _).2, sub_zero]; exact hn j
        · exact hn j

end Ecl.Whole
