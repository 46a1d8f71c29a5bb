import Verif.Gsf.Run
import Mathlib.Analysis.SpecialFunctions.Trigonometric.Bounds

/-!
# Property C150 — the yaw estimator settles on the model that explains the GPS velocity

EKFGSF_yaw.cpp:59-123.  C52 gives one weight update (Bayes' rule with a lower limit on the unnormalised weights).  Here the updates are chained over
arbitrary histories of calls: the weights of all other models, relative to the favoured one, decay geometrically to the level set by the limit,
and the published yaw and variance approach those of the favoured model.
-/

namespace Ecl.Gsf

open Utils

/-- likelihood that model `i` gives to the velocity fused by this update -/
noncomputable def Spec.likelihood (x : In) (st : St) (i : Fin 5) : ℝ := density (fusedBank x st i)

/-- during `more`, which follows the calls `l`: the filters are kept running, and every fused velocity is explained by model `a` with likelihood at least
`d`, and by every other model at most `ρ` times as well -/
def Spec.Favours (a : Fin 5) (ρ d : ℝ) (l more : List Call) : Prop :=
  ∀ pre x post, more = pre ++ Call.update x :: post → x.run = true ∧ ((run (l ++ pre)).velUpd = true →
    d ≤ Spec.likelihood x (run (l ++ pre)) a ∧ ∀ j, j ≠ a → Spec.likelihood x (run (l ++ pre)) j ≤ ρ * Spec.likelihood x (run (l ++ pre)) a)

open Classical in
/-- number of velocities fused by the calls `more` after the calls `l` -/
noncomputable def Spec.fusions : List Call → List Call → ℕ
  | _, [] => 0
  | l, c :: more => (if (∃ x, c = Call.update x) ∧ (run l).velUpd = true then 1 else 0) + Spec.fusions (l ++ [c]) more

theorem run_snoc (l : List Call) (c : Call) : run (l ++ [c]) = step (run l) c := by unfold run; rw [List.foldl_append]; rfl

/-- relative weight after one fusion -/
theorem ratio_step {da wa dj wj ρ q Q ε : ℝ} (hε : 0 < ε) (hwa : 0 < wa) (hda : 0 < da) (hj : dj ≤ ρ * da) (hwj : 0 < wj)
    (hq : wj ≤ q * wa) (hf : ε ≤ Q * (da * wa)) (hρ : 0 ≤ ρ) :
    max (dj * wj) ε ≤ max (ρ * q) Q * max (da * wa) ε := by
  have hp : 0 < da * wa := mul_pos hda hwa
  have hq0 : 0 ≤ q := by
    by_contra h
    have : q * wa < 0 := mul_neg_of_neg_of_pos (not_le.1 h) hwa
    linarith
  have hM : 0 ≤ max (ρ * q) Q := le_trans (mul_nonneg hρ hq0) (le_max_left _ _)
  have h1 : max (ρ * q) Q * (da * wa) ≤ max (ρ * q) Q * max (da * wa) ε := mul_le_mul_of_nonneg_left (le_max_left _ _) hM
  refine max_le ?_ ?_
  · refine le_trans ?_ h1
    calc dj * wj ≤ ρ * da * wj := mul_le_mul_of_nonneg_right hj hwj.le
      _ ≤ ρ * da * (q * wa) := mul_le_mul_of_nonneg_left hq (mul_nonneg hρ hda.le)
      _ = ρ * q * (da * wa) := by ring
      _ ≤ max (ρ * q) Q * (da * wa) := mul_le_mul_of_nonneg_right (le_max_left _ _) hp.le
  · refine le_trans ?_ h1
    exact hf.trans (mul_le_mul_of_nonneg_right (le_max_right _ _) hp.le)

/-- the favoured weight from the relative weights -/
theorem weight_ge {w : Fin 5 → ℝ} (hs : ∑ i, w i = 1) (a : Fin 5) {q : ℝ} (hq : 0 ≤ q) (h : ∀ j, j ≠ a → w j ≤ q * w a) : 1 / (1 + 4 * q) ≤ w a := by
  have h1 : ∑ i, w i = w a + ∑ i ∈ Finset.univ.erase a, w i := (Finset.add_sum_erase _ _ (Finset.mem_univ a)).symm
  have h2 : ∑ i ∈ Finset.univ.erase a, w i ≤ ∑ _i ∈ Finset.univ.erase a, q * w a :=
    Finset.sum_le_sum fun i hi => h i (Finset.ne_of_mem_erase hi)
  rw [Finset.sum_const, Finset.card_erase_of_mem (Finset.mem_univ a), Finset.card_univ, Fintype.card_fin] at h2
  norm_num at h2
  rw [div_le_iff₀ (by linarith)]
  linarith

/-- **C150 (one call).** -/
theorem select_step (l : List Call) (c : Call) (hs : (run l).started = true) (a : Fin 5) (ρ d q Q : ℝ) (hρ : 0 ≤ ρ) (hρ1 : ρ ≤ 1)
    (hQ : 0 < Q) (hd : 0.00001 * (1 + 4 * Q) ≤ d) (hqQ : q ≤ Q) (h0 : 0 ≤ q) (hq : ∀ j, j ≠ a → (run l).w j ≤ q * (run l).w a)
    (hf : Spec.Favours a ρ d l [c]) :
    (run (l ++ [c])).started = true ∧
    (∀ j, j ≠ a → (run (l ++ [c])).w j ≤
      (if Spec.fusions l [c] = 1 then max (ρ * q) (0.00001 * (1 + 4 * Q) / d) else q) * (run (l ++ [c])).w a) := by
  have hi := run_inv l
  have ht := hi.started hs
  rw [run_snoc]
  cases c with
  | setVelocity v acc =>
    have e : Spec.fusions l [Call.setVelocity v acc] = 0 := by
      unfold Spec.fusions Spec.fusions
      rw [if_neg (by rintro ⟨⟨x, hx⟩, -⟩; cases hx)]
    rw [e]
    exact ⟨hs, fun j hj => by rw [if_neg (by decide)]; exact hq j hj⟩
  | update x =>
    obtain ⟨hr, hfav⟩ := hf [] x [] rfl
    rw [List.append_nil] at hfav
    by_cases hv : (run l).velUpd = true
    · have e : Spec.fusions l [Call.update x] = 1 := by
        unfold Spec.fusions Spec.fusions
        rw [if_pos ⟨⟨x, rfl⟩, hv⟩]
      rw [e, if_pos rfl]
      obtain ⟨hda, hdj⟩ := hfav hv
      have hwpos : ∀ i, 0 < (run l).w i := fun i => lt_of_lt_of_le (by norm_num) (hi.wpos ht i)
      have hwa : 1 / (1 + 4 * Q) ≤ (run l).w a := by
        refine weight_ge (hi.wsum ht) a hQ.le fun j hj => (hq j hj).trans ?_
        exact mul_le_mul_of_nonneg_right hqQ (hwpos a).le
      have hd0 : 0 < d := lt_of_lt_of_le (by positivity) hd
      have hL : 0 < Spec.likelihood x (run l) a := lt_of_lt_of_le hd0 hda
      have hfl : 0.00001 ≤ 0.00001 * (1 + 4 * Q) / d * (Spec.likelihood x (run l) a * (run l).w a) := by
        have h1 : (0.00001 : ℝ) = 0.00001 * (1 + 4 * Q) / d * (d * (1 / (1 + 4 * Q))) := by field_simp
        have hm : d * (1 / (1 + 4 * Q)) ≤ Spec.likelihood x (run l) a * (run l).w a :=
          mul_le_mul hda hwa (by positivity) hL.le
        calc (0.00001 : ℝ) = 0.00001 * (1 + 4 * Q) / d * (d * (1 / (1 + 4 * Q))) := h1
          _ ≤ _ := mul_le_mul_of_nonneg_left hm (by positivity)
      have hbig : 0.00001 ≤ Spec.likelihood x (run l) a * (run l).w a := by
        refine le_trans ?_ (mul_le_mul hda hwa (by positivity) hL.le)
        rw [mul_one_div, le_div_iff₀ (by linarith)]
        exact hd
      have hb := fun i => bayes_clipped x l hs hr hv ⟨a, hbig⟩ i
      refine ⟨(hb a).2, fun j hj => ?_⟩
      show (update x (run l)).w j ≤ _ * (update x (run l)).w a
      rw [(hb j).1, (hb a).1, mul_div_assoc']
      refine div_le_div_of_nonneg_right ?_ (Finset.sum_nonneg fun i _ => le_trans (by norm_num) (le_max_right _ _))
      exact ratio_step (by norm_num) (hwpos a) hL (hdj j hj) (hwpos j) (hq j hj) hfl hρ
    · have e : Spec.fusions l [Call.update x] = 0 := by
        unfold Spec.fusions Spec.fusions
        rw [if_neg (fun h => hv h.2)]
      rw [e, if_neg (by decide)]
      have hu : (step (run l) (Call.update x)).w = (run l).w ∧ (step (run l) (Call.update x)).started = (run l).started := by
        show (update x (run l)).w = _ ∧ (update x (run l)).started = _
        rw [update_tilt x (run l) ht]
        unfold velStep
        rw [if_neg (fun h => hv h.2), if_neg (fun h => by have := h.2; rw [hr] at this; cases this)]
        exact ⟨rfl, rfl⟩
      rw [hu.1, hu.2]
      exact ⟨hs, hq⟩

/-- **C150.** For every history: if the estimator is running and model `a` is not behind any other by more than the factor `Q`, then after further calls with `n`
velocity fusions that favour `a` by the factor `1/ρ`, the weight of every other model is at most `max (ρⁿ Q) (10⁻⁵ (1 + 4 Q) / d)` times that of `a`. -/
theorem model_selected (l more : List Call) (hs : (run l).started = true) (a : Fin 5) (ρ d Q : ℝ) (hρ : 0 ≤ ρ) (hρ1 : ρ ≤ 1)
    (hQ : 1 ≤ Q) (hd : 0.00001 * (1 + 4 * Q) ≤ d) (hq : ∀ j, j ≠ a → (run l).w j ≤ Q * (run l).w a)
    (hf : Spec.Favours a ρ d l more) :
    (run (l ++ more)).started = true ∧
    (∀ j, j ≠ a → (run (l ++ more)).w j ≤ max (ρ ^ Spec.fusions l more * Q) (0.00001 * (1 + 4 * Q) / d) * (run (l ++ more)).w a) ∧
    1 / (1 + 4 * max (ρ ^ Spec.fusions l more * Q) (0.00001 * (1 + 4 * Q) / d)) ≤ (run (l ++ more)).w a := by
  have hd0 : 0 < d := lt_of_lt_of_le (by positivity) hd
  have hF1 : 0.00001 * (1 + 4 * Q) / d ≤ 1 := by rw [div_le_one hd0]; exact hd
  have hF0 : 0 ≤ 0.00001 * (1 + 4 * Q) / d := by positivity
  generalize hF : 0.00001 * (1 + 4 * Q) / d = F at *
  have main : ∀ (more l : List Call) (k : ℕ), (run l).started = true → Spec.Favours a ρ d l more →
      (∀ j, j ≠ a → (run l).w j ≤ max (ρ ^ k * Q) F * (run l).w a) →
      (run (l ++ more)).started = true ∧
      (∀ j, j ≠ a → (run (l ++ more)).w j ≤ max (ρ ^ (k + Spec.fusions l more) * Q) F * (run (l ++ more)).w a) := by
    intro more
    induction more with
    | nil =>
      intro l k hs _ hq
      rw [List.append_nil]
      exact ⟨hs, hq⟩
    | cons c more ih =>
      intro l k hs hf hq
      have hρk : ρ ^ k ≤ 1 := pow_le_one₀ hρ hρ1
      have hρk0 : 0 ≤ ρ ^ k := pow_nonneg hρ k
      have hqQ : max (ρ ^ k * Q) F ≤ Q := max_le (by nlinarith) (by linarith)
      have hone := select_step l c hs a ρ d (max (ρ ^ k * Q) F) Q hρ hρ1 (by linarith) hd hqQ (le_trans hF0 (le_max_right _ _)) hq (by
        intro pre x post e
        cases pre with
        | nil =>
          obtain ⟨e1, e2⟩ := List.cons.inj e
          exact hf [] x more (by rw [e1]; rfl)
        | cons _ _ => exact absurd (congrArg List.length e) (by simp))
      rw [hF] at hone
      have hf' : Spec.Favours a ρ d (l ++ [c]) more := by
        intro pre x post e
        have := hf (c :: pre) x post (by rw [e]; rfl)
        rw [List.append_assoc]
        exact this
      have hcount : Spec.fusions l (c :: more) = Spec.fusions l [c] + Spec.fusions (l ++ [c]) more := by
        simp only [Spec.fusions, add_zero]
      have h01 : Spec.fusions l [c] = 0 ∨ Spec.fusions l [c] = 1 := by
        unfold Spec.fusions Spec.fusions
        split_ifs
        · exact Or.inr rfl
        · exact Or.inl rfl
      rw [hcount, show l ++ c :: more = (l ++ [c]) ++ more by simp, ← add_assoc]
      refine ih (l ++ [c]) (k + Spec.fusions l [c]) hone.1 hf' (fun j hj => ?_)
      have hw0 : 0 ≤ (run (l ++ [c])).w a :=
        le_trans (by norm_num) ((run_inv (l ++ [c])).wpos ((run_inv (l ++ [c])).started hone.1) a)
      refine (hone.2 j hj).trans (mul_le_mul_of_nonneg_right ?_ hw0)
      rcases h01 with h | h
      · rw [h, if_neg (by decide), add_zero]
      · rw [h, if_pos rfl]
        refine max_le ?_ (le_max_right _ _)
        rw [mul_max_of_nonneg _ _ hρ]
        refine max_le ?_ ?_
        · refine le_trans (le_of_eq ?_) (le_max_left _ _)
          rw [pow_succ]; ring
        · refine le_trans ?_ (le_max_right _ _)
          nlinarith
  obtain ⟨h1, h2⟩ := main more l 0 hs hf (fun j hj => by
    have hw0 : 0 ≤ (run l).w a := le_trans (by norm_num) ((run_inv l).wpos ((run_inv l).started hs) a)
    refine (hq j hj).trans (mul_le_mul_of_nonneg_right ?_ hw0)
    rw [pow_zero, one_mul]; exact le_max_left _ _)
  rw [zero_add] at h2
  exact ⟨h1, h2, weight_ge ((run_inv _).wsum ((run_inv _).started h1)) a (le_trans hF0 (le_max_right _ _)) h2⟩

/-! ### What is published -/

/-- angle of the resultant against its dominant term -/
theorem resultant {w A B r δ : ℝ} (hw : 1 / 2 < w) (hr : 0 < r) (hc : r * Real.cos δ = w + A) (hs : r * Real.sin δ = B)
    (hAB : A ^ 2 + B ^ 2 ≤ (1 - w) ^ 2) (hw1 : w ≤ 1) (hδ : -Real.pi ≤ δ ∧ δ ≤ Real.pi) : |δ| ≤ Real.pi / 2 * ((1 - w) / w) := by
  have hpi := Real.pi_pos
  have hA : |A| ≤ 1 - w := abs_le_of_sq_le_sq (by nlinarith [sq_nonneg B]) (by linarith)
  have hA' := (abs_le.1 hA).1
  have hcos : 0 < Real.cos δ := by
    have : 0 < r * Real.cos δ := by rw [hc]; linarith
    exact (pos_iff_pos_of_mul_pos this).1 hr
  have hδ2 : |δ| ≤ Real.pi / 2 := by
    by_contra h
    have h' := not_le.1 h
    have : Real.cos |δ| ≤ 0 := Real.cos_nonpos_of_pi_div_two_le_of_le h'.le (by linarith [abs_le.2 hδ])
    rw [Real.cos_abs] at this
    linarith
  have hr2 : r ^ 2 = (w + A) ^ 2 + B ^ 2 := by
    rw [← hc, ← hs]
    have := Real.sin_sq_add_cos_sq δ
    nlinarith
  have hB : (w * B) ^ 2 ≤ ((1 - w) * r) ^ 2 := by
    have e : ((1 - w) * r) ^ 2 = (1 - w) ^ 2 * ((w + A) ^ 2 + B ^ 2) := by rw [mul_pow, hr2]
    rw [e]
    have h1 : 0 ≤ w ^ 2 - (1 - w) ^ 2 := by nlinarith
    have h2 : (w ^ 2 - (1 - w) ^ 2) * B ^ 2 ≤ (w ^ 2 - (1 - w) ^ 2) * ((1 - w) ^ 2 - A ^ 2) :=
      mul_le_mul_of_nonneg_left (by linarith) h1
    nlinarith [sq_nonneg (w * A + (1 - w) ^ 2)]
  have hB' : w * |B| ≤ (1 - w) * r := by
    have := abs_le_of_sq_le_sq hB (mul_nonneg (by linarith) hr.le)
    rwa [abs_mul, abs_of_pos (by linarith : (0:ℝ) < w)] at this
  have hsin : |Real.sin δ| * w ≤ 1 - w := by
    rw [← hs, abs_mul, abs_of_pos hr] at hB'
    have : r * (|Real.sin δ| * w) ≤ r * (1 - w) := by linarith
    exact le_of_mul_le_mul_left this hr
  have hj : 2 / Real.pi * |δ| ≤ Real.sin |δ| := Real.mul_le_sin (abs_nonneg _) hδ2
  have hsa : Real.sin |δ| ≤ |Real.sin δ| := by
    rcases abs_cases δ with ⟨h, _⟩ | ⟨h, _⟩
    · rw [h]; exact le_abs_self _
    · rw [h, Real.sin_neg]; exact neg_le_abs _
  have hfin : 2 / Real.pi * |δ| ≤ (1 - w) / w := by
    rw [le_div_iff₀ (by linarith)]
    nlinarith
  calc |δ| = Real.pi / 2 * (2 / Real.pi * |δ|) := by field_simp
    _ ≤ _ := mul_le_mul_of_nonneg_left hfin (by positivity)

/-- length of a weighted sum of unit vectors -/
theorem sum_unit {ι : Type*} (s : Finset ι) (w θ : ι → ℝ) (hw : ∀ i ∈ s, 0 ≤ w i) :
    (∑ i ∈ s, w i * Real.cos (θ i)) ^ 2 + (∑ i ∈ s, w i * Real.sin (θ i)) ^ 2 ≤ (∑ i ∈ s, w i) ^ 2 := by
  rw [pow_two, pow_two, pow_two, Finset.sum_mul_sum, Finset.sum_mul_sum, Finset.sum_mul_sum, ← Finset.sum_add_distrib]
  refine Finset.sum_le_sum fun i hi => ?_
  rw [← Finset.sum_add_distrib]
  refine Finset.sum_le_sum fun j hj => ?_
  have h : w i * Real.cos (θ i) * (w j * Real.cos (θ j)) + w i * Real.sin (θ i) * (w j * Real.sin (θ j)) =
      w i * w j * Real.cos (θ i - θ j) := by rw [Real.cos_sub]; ring
  rw [h]
  have := Real.cos_le_one (θ i - θ j)
  have := mul_nonneg (hw i hi) (hw j hj)
  nlinarith

/-- **C150 (published value).** With a weight above one half, the published yaw is within `π/2 (1-w)/w` of the yaw of that model, and the published variance is at most
that of the model plus the square of this difference plus the share of the others. -/
theorem composite_near (st : St) (hw : ∑ i, st.w i = 1) (hpos : ∀ i, 0 ≤ st.w i) (a : Fin 5) (ha : 1 / 2 < st.w a) :
    |wrapPi ((st.m a).X 2 - (composite st).yaw)| ≤ Real.pi / 2 * ((1 - st.w a) / st.w a) ∧
    (composite st).yawVar ≤ st.w a * ((st.m a).P 2 2 + (Real.pi / 2 * ((1 - st.w a) / st.w a)) ^ 2) +
      ∑ j ∈ Finset.univ.erase a, st.w j * ((st.m j).P 2 2 + Real.pi ^ 2) := by
  have hsplit : st.w a + ∑ j ∈ Finset.univ.erase a, st.w j = 1 := by
    rw [Finset.add_sum_erase _ _ (Finset.mem_univ a)]; exact hw
  have hw1 : st.w a ≤ 1 := by
    have : 0 ≤ ∑ j ∈ Finset.univ.erase a, st.w j := Finset.sum_nonneg fun i _ => hpos i
    linarith
  have hyaw : (composite st).yaw = atan2 (∑ i, st.w i * Real.sin ((st.m i).X 2)) (∑ i, st.w i * Real.cos ((st.m i).X 2)) := by
    rw [← sum5_eq, ← sum5_eq]; rfl
  have h1 : |wrapPi ((st.m a).X 2 - (composite st).yaw)| ≤ Real.pi / 2 * ((1 - st.w a) / st.w a) := by
    generalize hC : ∑ i, st.w i * Real.cos ((st.m i).X 2) = C at hyaw
    generalize hS : ∑ i, st.w i * Real.sin ((st.m i).X 2) = S at hyaw
    -- sums in the frame of model `a`
    have hc' : C * Real.cos ((st.m a).X 2) + S * Real.sin ((st.m a).X 2) =
        st.w a + ∑ j ∈ Finset.univ.erase a, st.w j * Real.cos ((st.m a).X 2 - (st.m j).X 2) := by
      rw [← hC, ← hS, Finset.sum_mul, Finset.sum_mul, ← Finset.sum_add_distrib]
      have : ∀ i, st.w i * Real.cos ((st.m i).X 2) * Real.cos ((st.m a).X 2) + st.w i * Real.sin ((st.m i).X 2) * Real.sin ((st.m a).X 2) =
          st.w i * Real.cos ((st.m a).X 2 - (st.m i).X 2) := fun i => by rw [Real.cos_sub]; ring
      simp only [this]
      rw [← Finset.add_sum_erase _ _ (Finset.mem_univ a), sub_self, Real.cos_zero, mul_one]
    have hs' : C * Real.sin ((st.m a).X 2) - S * Real.cos ((st.m a).X 2) =
        ∑ j ∈ Finset.univ.erase a, st.w j * Real.sin ((st.m a).X 2 - (st.m j).X 2) := by
      rw [← hC, ← hS, Finset.sum_mul, Finset.sum_mul, ← Finset.sum_sub_distrib]
      have : ∀ i, st.w i * Real.cos ((st.m i).X 2) * Real.sin ((st.m a).X 2) - st.w i * Real.sin ((st.m i).X 2) * Real.cos ((st.m a).X 2) =
          st.w i * Real.sin ((st.m a).X 2 - (st.m i).X 2) := fun i => by rw [Real.sin_sub]; ring
      simp only [this]
      rw [← Finset.add_sum_erase _ _ (Finset.mem_univ a), sub_self, Real.sin_zero, mul_zero, zero_add]
    have hAB := sum_unit (Finset.univ.erase a) st.w (fun j => (st.m a).X 2 - (st.m j).X 2) (fun i _ => hpos i)
    rw [show ∑ j ∈ Finset.univ.erase a, st.w j = 1 - st.w a by linarith] at hAB
    generalize ∑ j ∈ Finset.univ.erase a, st.w j * Real.cos ((st.m a).X 2 - (st.m j).X 2) = A at *
    generalize ∑ j ∈ Finset.univ.erase a, st.w j * Real.sin ((st.m a).X 2 - (st.m j).X 2) = B at *
    have hA : |A| ≤ 1 - st.w a := abs_le_of_sq_le_sq (by nlinarith [sq_nonneg B]) (by linarith)
    have hCS : 0 < C ^ 2 + S ^ 2 := by
      by_contra h
      have hC0 : C = 0 := by nlinarith [sq_nonneg C, sq_nonneg S]
      have hS0 : S = 0 := by nlinarith [sq_nonneg C, sq_nonneg S]
      rw [hC0, hS0] at hc'
      have := (abs_le.1 hA).1
      linarith
    have hr : 0 < √(C ^ 2 + S ^ 2) := Real.sqrt_pos.2 hCS
    have hcy : Real.cos (composite st).yaw = C / √(C ^ 2 + S ^ 2) := by rw [hyaw, cos_atan2 hCS.ne']
    have hsy : Real.sin (composite st).yaw = S / √(C ^ 2 + S ^ 2) := by rw [hyaw, sin_atan2]
    obtain ⟨⟨b1, b2⟩, -⟩ := wrapPi_spec ((st.m a).X 2 - (composite st).yaw)
    refine resultant ha hr ?_ ?_ hAB hw1 ⟨b1, b2.le⟩
    · rw [cos_wrapPi, Real.cos_sub, hcy, hsy, ← hc']
      field_simp
    · rw [sin_wrapPi, Real.sin_sub, hcy, hsy, ← hs']
      field_simp
  refine ⟨h1, ?_⟩
  have hv : (composite st).yawVar = ∑ i, st.w i * ((st.m i).P 2 2 + wrapPi ((st.m i).X 2 - (composite st).yaw) ^ 2) := by
    rw [← sum5_eq]
    simp only [pow_two]
    rfl
  rw [hv, ← Finset.add_sum_erase _ _ (Finset.mem_univ a)]
  refine add_le_add ?_ (Finset.sum_le_sum fun j _ => ?_)
  · refine mul_le_mul_of_nonneg_left ?_ (by linarith)
    have := sq_le_sq' (by linarith [(abs_le.1 h1).1]) (abs_le.1 h1).2
    linarith
  · refine mul_le_mul_of_nonneg_left ?_ (hpos j)
    obtain ⟨⟨b1, b2⟩, -⟩ := wrapPi_spec ((st.m j).X 2 - (composite st).yaw)
    have := sq_le_sq' b1 b2.le
    linarith

/-- in every history the published values are those of the current models and weights -/
theorem published_current (l : List Call) (h : (run l).started = true) :
    (run l).yaw = (composite (run l)).yaw ∧ (run l).yawVar = (composite (run l)).yawVar := by
  induction l using List.reverseRecOn with
  | nil => exact absurd h (by simp [run, fresh])
  | append_singleton l c ih =>
    rw [run_snoc] at h ⊢
    cases c with
    | setVelocity v acc => exact ih h
    | update x =>
      by_cases ht : (run l).tilt = true
      · show (update x (run l)).yaw = (composite (update x (run l))).yaw ∧ (update x (run l)).yawVar = (composite (update x (run l))).yawVar
        rw [update_tilt x (run l) ht]
        exact ⟨rfl, rfl⟩
      · exfalso
        have hs : (run l).started = true := by
          have ht' : (run l).tilt = false := by simpa using ht
          have : (update x (run l)).started = true := h
          unfold update at this
          rw [if_pos ht'] at this
          unfold tryAlign at this
          split at this
          · have e : (alignTilt x (initBank { run l with acc := filtAcc x (run l).acc })).started = false := rfl
            simp only at this
            rw [e] at this
            cases this
          · exact this
        exact ht ((run_inv l).started hs)

/-- **C150 (what the user sees).** Under the hypotheses of `model_selected`, with `q` the bound on the relative weights below a quarter: a yaw is published, it is within
`2 π q` of the heading of the favoured model, and its variance exceeds that of the model by at most `(2 π q)²` plus `q` times the spread of the others. -/
theorem published_selected (l more : List Call) (hs : (run l).started = true) (a : Fin 5) (ρ d Q : ℝ) (hρ : 0 ≤ ρ) (hρ1 : ρ ≤ 1)
    (hQ : 1 ≤ Q) (hd : 0.00001 * (1 + 4 * Q) ≤ d) (hq : ∀ j, j ≠ a → (run l).w j ≤ Q * (run l).w a)
    (hf : Spec.Favours a ρ d l more) :
    let q := max (ρ ^ Spec.fusions l more * Q) (0.00001 * (1 + 4 * Q) / d)
    let m := (run (l ++ more)).m
    q < 1 / 4 → ∃ y v, getYawData (run (l ++ more)) = some (y, v) ∧ |wrapPi ((m a).X 2 - y)| ≤ 2 * Real.pi * q ∧
      v ≤ (m a).P 2 2 + (2 * Real.pi * q) ^ 2 + q * ∑ j ∈ Finset.univ.erase a, ((m j).P 2 2 + Real.pi ^ 2) := by
  intro q m hq4
  obtain ⟨h1, h2, h3⟩ := model_selected l more hs a ρ d Q hρ hρ1 hQ hd hq hf
  have hd0 : 0 < d := lt_of_lt_of_le (by positivity) hd
  have hq0 : 0 ≤ q := le_trans (by positivity) (le_max_right _ _)
  have hi := run_inv (l ++ more)
  have ht := hi.started h1
  have hpos : ∀ i, 0 ≤ (run (l ++ more)).w i := fun i => le_trans (by norm_num) (hi.wpos ht i)
  have hok := hi.ok ht
  have hcur := published_current (l ++ more) h1
  have hsum := hi.wsum ht
  change ∀ j, j ≠ a → (run (l ++ more)).w j ≤ q * (run (l ++ more)).w a at h2
  change 1 / (1 + 4 * q) ≤ (run (l ++ more)).w a at h3
  clear_value q
  have hm : m = (run (l ++ more)).m := rfl
  clear_value m
  subst hm
  generalize hst : run (l ++ more) = st at *
  have hw2 : 1 / 2 < st.w a := lt_of_lt_of_le (by rw [div_lt_div_iff₀ (by norm_num) (by linarith)]; linarith) h3
  have hw1 : st.w a ≤ 1 := by
    rw [← hsum]
    exact Finset.single_le_sum (fun i _ => hpos i) (Finset.mem_univ a)
  have hratio : (1 - st.w a) / st.w a ≤ 4 * q := by
    rw [div_le_iff₀ (by linarith)]
    rw [div_le_iff₀ (by linarith)] at h3
    linarith
  obtain ⟨c1, c2⟩ := composite_near st hsum hpos a hw2
  have hpi := Real.pi_pos
  have hang : Real.pi / 2 * ((1 - st.w a) / st.w a) ≤ 2 * Real.pi * q := by
    calc Real.pi / 2 * ((1 - st.w a) / st.w a) ≤ Real.pi / 2 * (4 * q) := mul_le_mul_of_nonneg_left hratio (by positivity)
      _ = 2 * Real.pi * q := by ring
  have hang0 : 0 ≤ Real.pi / 2 * ((1 - st.w a) / st.w a) := mul_nonneg (by positivity) (div_nonneg (by linarith) (by linarith))
  refine ⟨st.yaw, st.yawVar, by unfold getYawData; rw [if_pos h1], ?_, ?_⟩
  · rw [hcur.1]; exact c1.trans hang
  · rw [hcur.2]
    refine c2.trans (add_le_add ?_ ?_)
    · have hP : 0 ≤ (st.m a).P 2 2 := le_trans (by norm_num) (hok a).yawVar
      have e2 : (Real.pi / 2 * ((1 - st.w a) / st.w a)) ^ 2 ≤ (2 * Real.pi * q) ^ 2 := pow_le_pow_left₀ hang0 hang 2
      have e3 : 0 ≤ (st.m a).P 2 2 + (2 * Real.pi * q) ^ 2 := add_nonneg hP (sq_nonneg _)
      calc st.w a * ((st.m a).P 2 2 + (Real.pi / 2 * ((1 - st.w a) / st.w a)) ^ 2)
          ≤ st.w a * ((st.m a).P 2 2 + (2 * Real.pi * q) ^ 2) := mul_le_mul_of_nonneg_left (by linarith) (hpos a)
        _ ≤ 1 * ((st.m a).P 2 2 + (2 * Real.pi * q) ^ 2) := mul_le_mul_of_nonneg_right hw1 e3
        _ = _ := one_mul _
    · rw [Finset.mul_sum]
      refine Finset.sum_le_sum fun j hj => mul_le_mul_of_nonneg_right ?_ (add_nonneg (le_trans (by norm_num) (hok j).yawVar) (sq_nonneg _))
      calc st.w j ≤ q * st.w a := h2 j (Finset.ne_of_mem_erase hj)
        _ ≤ q * 1 := mul_le_mul_of_nonneg_left hw1 hq0
        _ = q := mul_one _

end Ecl.Gsf
