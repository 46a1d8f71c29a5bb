import Verif.Terrain.Run

/-!
# Property C151 — over flat ground the terrain estimate converges to the ground, whatever it starts from

EKF/terrain_estimator.cpp:86-180, range finder in use, flow not used for the terrain.
-/

namespace Ecl.Terrain

open Fusion Cov

/-- flight over flat ground at down position `T`: the range finder reports the distance to it with an error of at most `η`; the observation variance is at most
`R`; the variance grows by at least `q` per step; the vehicle is above the minimum clearance -/
structure Spec.OverFlat (T η R q : ℝ) (x : In) : Prop where
  inAir : x.inAir = true
  useRange : x.useRange = true
  healthy : x.rngHealthy = true
  noFlow : x.useFlow = false
  noise : x.rngNoise ≠ 0
  meas : |x.s 9 + x.distBottom - T| ≤ η
  obs : max 0 (x.p99 * x.vehVarScaler) + x.rngNoise ^ 2 + (x.rngNoiseScaler * x.range) ^ 2 ≤ R
  grow : q ≤ (x.dt * x.pNoise) ^ 2
  clear : x.s 9 + x.flow.gndClearance ≤ T

/-- by how much the estimate is further from `T` than the sensor error -/
noncomputable def Spec.excess (T η : ℝ) (st : St) : ℝ := max (|st.vpos - T| - η) 0

/-- the measurement passes its innovation check, or none did for more than ten seconds -/
def Spec.Effective (x : In) (st : St) : Prop := Spec.rangeOk x st.vpos st.var ∨ isTimedOut x.now st.tHagl 10000000 = true

open Classical in
/-- number of effective steps of a history -/
noncomputable def Spec.effective : St → List (In × Bool) → ℕ
  | _, [] => 0
  | st, (x, fr) :: t => (if Spec.Effective x st then 1 else 0) + Spec.effective (run x { st with flowReady := fr }) t

theorem effective_cons (st : St) (x : In) (fr : Bool) (t : List (In × Bool)) [Decidable (Spec.Effective x st)] :
    Spec.effective st ((x, fr) :: t) = (if Spec.Effective x st then 1 else 0) + Spec.effective (run x { st with flowReady := fr }) t := by
  simp only [Spec.effective]
  congr 1
  split_ifs <;> rfl

theorem excess_mix {e ν η k : ℝ} (hk : 0 ≤ k) (hk1 : k ≤ 1) (hν : |ν| ≤ η) : max (|(1 - k) * e + k * ν| - η) 0 ≤ (1 - k) * max (|e| - η) 0 := by
  have hm := le_max_left (|e| - η) 0
  have hm0 := le_max_right (|e| - η) 0
  refine max_le ?_ (mul_nonneg (by linarith) hm0)
  have h1 : |(1 - k) * e + k * ν| ≤ (1 - k) * |e| + k * |ν| := by
    refine (abs_add_le _ _).trans ?_
    rw [abs_mul, abs_mul, abs_of_nonneg (by linarith : (0 : ℝ) ≤ 1 - k), abs_of_nonneg hk]
  have h2 : k * |ν| ≤ k * η := mul_le_mul_of_nonneg_left hν hk
  have h3 : (1 - k) * (|e| - η) ≤ (1 - k) * max (|e| - η) 0 := mul_le_mul_of_nonneg_left hm (by linarith)
  linarith

theorem excess_clear {v T η c : ℝ} (h : c ≤ T) (hv : v < c) : max (|c - T| - η) 0 ≤ max (|v - T| - η) 0 := by
  refine max_le_max (sub_le_sub_right ?_ _) le_rfl
  rw [abs_of_nonpos (by linarith), abs_of_nonpos (by linarith)]
  linarith

/-- **C151 (one step).** The excess never grows; it shrinks by the factor `R/(R+q)` in every effective step. -/
theorem terrain_step (T η R q : ℝ) (hR : 0 < R) (hq : 0 < q) (hq4 : q ≤ 10000) (x : In) (fr : Bool) (st : St) (hi : st.init = true)
    (h0 : 0 ≤ st.var) (hx : Spec.OverFlat T η R q x) :
    let st' := run x { st with flowReady := fr }
    st'.init = true ∧ 0 ≤ st'.var ∧ Spec.excess T η st' ≤ Spec.excess T η st ∧
    (Spec.Effective x st → Spec.excess T η st' ≤ R / (R + q) * Spec.excess T η st) ∧
    (¬ Spec.Effective x st → st'.tHagl = st.tHagl) := by
  intro st'
  obtain ⟨a1, a2, a3, a4, a5, a6, a7, a8⟩ := run_air x { st with flowReady := fr } hx.inAir hi hx.noise
  refine ⟨a2, a3, ?_⟩
  have hst : st' = updateValidity x (stepClear x (stepFlow x (stepRange x (predict x { st with flowReady := fr })))) :=
    run_air_eq x _ hx.inAir hi
  have hη : 0 ≤ η := le_trans (abs_nonneg _) hx.meas
  -- the state after the range step
  have hpred : predict x { st with flowReady := fr } = { st with flowReady := fr, var := Spec.grownVar x st.var } := predict_spec x _
  have hrange : stepRange x (predict x { st with flowReady := fr }) = fuseHagl x { st with flowReady := fr, var := Spec.grownVar x st.var } := by
    rw [hpred]; unfold stepRange; rw [if_pos (by simp [hx.useRange, hx.healthy])]
  have hflow : ∀ t : St, stepFlow x t = t := fun t => by unfold stepFlow; rw [if_neg (by simp [hx.noFlow])]
  rw [hrange, hflow] at hst
  have hgv := grownVar_range x st.var
  have hgq : q ≤ Spec.grownVar x st.var := by
    unfold Spec.grownVar
    refine le_trans (le_min hq4 ?_) (le_max_right _ _)
    have h1 : (x.dt * x.pNoise) ^ 2 = x.dt ^ 2 * x.pNoise ^ 2 := by ring
    have h2 : 0 ≤ x.dt ^ 2 * (x.gradient ^ 2 * (x.s 4 ^ 2 + x.s 5 ^ 2)) := by positivity
    have := hx.grow
    nlinarith
  obtain ⟨-, f2, f3⟩ := fuseHagl_spec x { st with flowReady := fr, var := Spec.grownVar x st.var } hx.noise hgv.1
  simp only at f2 f3
  have hobs : obsVar x ≤ R := by rw [obsVar_spec]; exact hx.obs
  have hob0 : 0 < obsVar x := obsVar_pos hx.noise
  -- the clearance step does not increase the excess
  have hclear : ∀ t : St, Spec.excess T η (updateValidity x (stepClear x t)) ≤ Spec.excess T η t := by
    intro t
    unfold stepClear
    split_ifs with h
    · refine excess_clear (c := x.flow.gndClearance + x.s 9) (by linarith [hx.clear]) ?_
      linarith
    · exact le_rfl
  have hok : Spec.rangeOk x st.vpos st.var ↔ (st.vpos - (x.s 9 + x.distBottom)) ^ 2 ≤ max x.rngGate 1 ^ 2 * (Spec.grownVar x st.var + obsVar x) := by
    unfold Spec.rangeOk
    rw [show st.vpos - x.s 9 - x.distBottom = st.vpos - (x.s 9 + x.distBottom) by ring]
    exact ⟨fun h => h.2.2, fun h => ⟨hx.useRange, hx.healthy, h⟩⟩
  have hE0 : 0 ≤ Spec.excess T η st := le_max_right _ _
  have hfac1 : R / (R + q) ≤ 1 := by rw [div_le_one (by linarith)]; linarith
  have hfac0 : 0 ≤ R / (R + q) := by positivity
  -- effective steps
  have heff : Spec.Effective x st → Spec.excess T η st' ≤ R / (R + q) * Spec.excess T η st := by
    intro he
    rw [hst]
    refine (hclear _).trans ?_
    by_cases hr : Spec.rangeOk x st.vpos st.var
    · obtain ⟨k1, -⟩ := f2 (hok.1 hr)
      have hv : (fuseHagl x { st with flowReady := fr, var := Spec.grownVar x st.var }).vpos =
          st.vpos + Spec.grownVar x st.var * 1 / (1 ^ 2 * Spec.grownVar x st.var + obsVar x) * (x.s 9 + x.distBottom - st.vpos) := congrArg Prod.fst k1
      have hden : 0 < Spec.grownVar x st.var + obsVar x := by linarith [hgv.1]
      have hk : Spec.grownVar x st.var * 1 / (1 ^ 2 * Spec.grownVar x st.var + obsVar x) = Spec.grownVar x st.var / (Spec.grownVar x st.var + obsVar x) := by
        rw [mul_one, one_pow, one_mul]
      rw [hk] at hv
      have hk0 : 0 ≤ Spec.grownVar x st.var / (Spec.grownVar x st.var + obsVar x) := div_nonneg hgv.1 hden.le
      have hk1 : Spec.grownVar x st.var / (Spec.grownVar x st.var + obsVar x) ≤ 1 := by rw [div_le_one hden]; linarith
      have hkq : 1 - Spec.grownVar x st.var / (Spec.grownVar x st.var + obsVar x) ≤ R / (R + q) := by
        have e1 : 1 - Spec.grownVar x st.var / (Spec.grownVar x st.var + obsVar x) = obsVar x / (Spec.grownVar x st.var + obsVar x) := by
          field_simp
          ring
        rw [e1, div_le_div_iff₀ hden (by linarith)]
        have : obsVar x * q ≤ R * Spec.grownVar x st.var := mul_le_mul hobs hgq hq.le hR.le
        nlinarith
      generalize Spec.grownVar x st.var / (Spec.grownVar x st.var + obsVar x) = k at hv hk0 hk1 hkq
      have hval : (fuseHagl x { st with flowReady := fr, var := Spec.grownVar x st.var }).vpos - T = (1 - k) * (st.vpos - T) + k * (x.s 9 + x.distBottom - T) := by
        rw [hv]; ring
      unfold Spec.excess
      rw [hval]
      refine (excess_mix hk0 hk1 hx.meas).trans ?_
      exact mul_le_mul_of_nonneg_right hkq (le_max_right _ _)
    · have ht : isTimedOut x.now st.tHagl 10000000 = true := he.resolve_left hr
      obtain ⟨-, g2, -⟩ := f3 (not_le.1 fun h => hr (hok.2 h))
      have hv := (g2 ht).1
      have : Spec.excess T η (fuseHagl x { st with flowReady := fr, var := Spec.grownVar x st.var }) = 0 := by
        unfold Spec.excess
        rw [hv]
        exact max_eq_right (by linarith [hx.meas])
      rw [this]
      exact mul_nonneg hfac0 hE0
  refine ⟨?_, heff, ?_⟩
  · by_cases he : Spec.Effective x st
    · exact (heff he).trans (by nlinarith)
    · have hr : ¬ Spec.rangeOk x st.vpos st.var := fun h => he (Or.inl h)
      have ht : isTimedOut x.now st.tHagl 10000000 = false := by
        have : ¬ isTimedOut x.now st.tHagl 10000000 = true := fun h => he (Or.inr h)
        simpa using this
      obtain ⟨-, -, g3⟩ := f3 (not_le.1 fun h => hr (hok.2 h))
      rw [hst]
      refine (hclear _).trans ?_
      unfold Spec.excess
      rw [(g3 ht).1]
  · intro he
    exact a8 (fun h => he (Or.inl h))

/-- **C151.** For every flight over flat ground, from any estimate: the excess error after the flight is at most `(R/(R+q))ᴺ` times that before, `N` the number of
effective steps. -/
theorem terrain_converges (T η R q : ℝ) (hR : 0 < R) (hq : 0 < q) (hq4 : q ≤ 10000) (h : List (In × Bool)) (st : St) (hi : st.init = true)
    (h0 : 0 ≤ st.var) (hx : ∀ e ∈ h, Spec.OverFlat T η R q e.1) :
    Spec.excess T η (runs st h) ≤ (R / (R + q)) ^ Spec.effective st h * Spec.excess T η st := by
  induction h generalizing st with
  | nil => simp [runs, Spec.effective]
  | cons e t ih =>
    obtain ⟨x, fr⟩ := e
    obtain ⟨b1, b2, b3, b4, -⟩ := terrain_step T η R q hR hq hq4 x fr st hi h0 (hx _ (List.mem_cons_self ..))
    have := ih (run x { st with flowReady := fr }) b1 b2 (fun e he => hx e (List.mem_cons_of_mem _ he))
    have hf0 : 0 ≤ R / (R + q) := by positivity
    show Spec.excess T η (runs (run x { st with flowReady := fr }) t) ≤ _
    refine this.trans ?_
    classical
    rw [effective_cons]
    split_ifs with he
    · rw [pow_add, pow_one, mul_comm (R / (R + q)), mul_assoc]
      exact mul_le_mul_of_nonneg_left (b4 he) (pow_nonneg hf0 _)
    · rw [zero_add]
      exact mul_le_mul_of_nonneg_left b3 (pow_nonneg hf0 _)

/-- **C151 (no lock-out).** A flight whose last step is more than ten seconds later than the last accepted range measurement before it contains an effective step. -/
theorem terrain_effective (T η R q : ℝ) (hR : 0 < R) (hq : 0 < q) (hq4 : q ≤ 10000) (h : List (In × Bool)) (x : In) (fr : Bool) (st : St)
    (hi : st.init = true) (h0 : 0 ≤ st.var) (hx : ∀ e ∈ h ++ [(x, fr)], Spec.OverFlat T η R q e.1)
    (ht : isTimedOut x.now st.tHagl 10000000 = true) : 1 ≤ Spec.effective st (h ++ [(x, fr)]) := by
  induction h generalizing st with
  | nil =>
    show 1 ≤ Spec.effective st [(x, fr)]
    classical
    rw [effective_cons, if_pos (show Spec.Effective x st from Or.inr ht)]
    omega
  | cons e t ih =>
    obtain ⟨y, fy⟩ := e
    obtain ⟨b1, b2, -, -, b5⟩ := terrain_step T η R q hR hq hq4 y fy st hi h0 (hx _ (List.mem_cons_self ..))
    show 1 ≤ Spec.effective st ((y, fy) :: (t ++ [(x, fr)]))
    classical
    rw [effective_cons]
    by_cases he : Spec.Effective y st
    · rw [if_pos he]; omega
    · rw [if_neg he, zero_add]
      refine ih _ b1 b2 (fun e he' => hx e (List.mem_cons_of_mem _ he')) ?_
      rw [b5 he]; exact ht

/-- non-vacuity: ground at 0, vehicle 10 m up, the sensor reads 10.05 m with an admitted error of 0.1 m; the estimate starts 3 m off, the step is effective -/
example (x : In) (st : St) : ∃ (x : In) (st : St), Spec.OverFlat 0 (1 / 10) 1 (1 / 400) x ∧ st.init = true ∧ 0 ≤ st.var ∧
    0 < Spec.excess 0 (1 / 10) st ∧ Spec.Effective x st := by
  refine ⟨{ x with inAir := true, useRange := true, rngHealthy := true, useFlow := false, rngNoise := 1, rngNoiseScaler := 0, p99 := 0, vehVarScaler := 0,
                   dt := 1 / 100, pNoise := 5, gradient := 0, rngGate := 5, s := fun i => if i = 9 then -10 else 0, distBottom := 201 / 20,
                   flow := { x.flow with gndClearance := 1 / 10 } },
          { st with init := true, vpos := 3, var := 100 }, ?_, rfl, ?_, ?_, Or.inl ⟨rfl, rfl, ?_⟩⟩
  · constructor <;> norm_num [abs_of_nonneg]
  · norm_num
  · unfold Spec.excess; norm_num [abs_of_nonneg]
  · refine le_trans (b := 5 ^ 2 * (0 + 1)) ?_ ?_
    · norm_num
    · refine mul_le_mul (by norm_num) (add_le_add (grownVar_range _ _).1 ?_) (by norm_num) (by positivity)
      rw [obsVar_spec]
      norm_num

end Ecl.Terrain
