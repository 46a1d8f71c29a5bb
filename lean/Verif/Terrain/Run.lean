import Verif.Terrain.Props

/-!
# Terrain estimator: whole steps and histories (C48, C49, C101)
-/

namespace Ecl.Terrain

open Fusion Cov

/-! ## Frames -/

theorem fuseHagl_frame (x : In) (st : St) :
    (fuseHagl x st).init = st.init ∧ (fuseHagl x st).tFake = st.tFake ∧ (fuseHagl x st).tFlow = st.tFlow ∧ (fuseHagl x st).gndPosD = st.gndPosD ∧
    (fuseHagl x st).flowReady = st.flowReady := by
  unfold fuseHagl; simp only []; split_ifs <;> exact ⟨rfl, rfl, rfl, rfl, rfl⟩

theorem flowAxis_frame (x : In) (a : Fin 2) (h p : ℝ) (st : St) :
    (flowAxis x a h p st).init = st.init ∧ (flowAxis x a h p st).tFake = st.tFake ∧ (flowAxis x a h p st).tHagl = st.tHagl ∧
    (flowAxis x a h p st).gndPosD = st.gndPosD ∧ (flowAxis x a h p st).flowReady = st.flowReady ∧ (flowAxis x a h p st).innov = st.innov ∧
    (flowAxis x a h p st).innovVar = st.innovVar := by
  unfold flowAxis; simp only []; split_ifs <;> exact ⟨rfl, rfl, rfl, rfl, rfl, rfl, rfl⟩

theorem fuseFlow_frame (x : In) (st : St) :
    (fuseFlow x st).init = st.init ∧ (fuseFlow x st).tFake = st.tFake ∧ (fuseFlow x st).tHagl = st.tHagl ∧ (fuseFlow x st).gndPosD = st.gndPosD := by
  unfold fuseFlow
  simp only []
  refine ⟨?_, ?_, ?_, ?_⟩
  · rw [(flowAxis_frame _ _ _ _ _).1, (flowAxis_frame _ _ _ _ _).1]
  · rw [(flowAxis_frame _ _ _ _ _).2.1, (flowAxis_frame _ _ _ _ _).2.1]
  · rw [(flowAxis_frame _ _ _ _ _).2.2.1, (flowAxis_frame _ _ _ _ _).2.2.1]
  · rw [(flowAxis_frame _ _ _ _ _).2.2.2.1, (flowAxis_frame _ _ _ _ _).2.2.2.1]

theorem flowAxis_var (x : In) (a : Fin 2) (h p : ℝ) (st : St) (h0 : 0 ≤ st.var) :
    0 ≤ (flowAxis x a h p st).var ∧ (flowAxis x a h p st).var ≤ st.var := by
  have := flowAxis_spec x a h p st h0 (flowMeasVar_pos x.flow)
  exact ⟨this.2.2.2.2.2.2.2.2.1, this.2.2.2.2.2.2.2.2.2.1⟩

theorem fuseFlow_axes (x : In) (st : St) : ∃ h0 p0 h1 p1 : ℝ, fuseFlow x st =
    flowAxis x 1 h1 p1 (flowAxis x 0 h0 p0 { st with vpos := max st.vpos (x.flow.gndClearance + x.s 9), var := max st.var 0 }) :=
  ⟨_, _, _, _, rfl⟩

theorem fuseFlow_var (x : In) (st : St) (h0 : 0 ≤ st.var) : 0 ≤ (fuseFlow x st).var ∧ (fuseFlow x st).var ≤ st.var := by
  obtain ⟨h, p, h1, p1, e⟩ := fuseFlow_axes x st
  rw [e]
  have a := flowAxis_var x 0 h p { st with vpos := max st.vpos (x.flow.gndClearance + x.s 9), var := max st.var 0 } (le_max_right _ _)
  have b := flowAxis_var x 1 h1 p1 _ a.1
  refine ⟨b.1, le_trans b.2 (le_trans a.2 ?_)⟩
  exact (max_eq_left h0).le

theorem stepFlow_facts (x : In) (st : St) (h0 : 0 ≤ st.var) :
    0 ≤ (stepFlow x st).var ∧ (stepFlow x st).var ≤ st.var ∧ (stepFlow x st).init = st.init ∧ (stepFlow x st).tFake = st.tFake ∧
    (stepFlow x st).tHagl = st.tHagl ∧ (stepFlow x st).gndPosD = st.gndPosD := by
  have f := fuseFlow_frame x st
  have v := fuseFlow_var x st h0
  unfold stepFlow
  split_ifs
  · exact ⟨v.1, v.2, f.1, f.2.1, f.2.2.1, f.2.2.2⟩
  · exact ⟨h0, le_rfl, rfl, rfl, rfl, rfl⟩

theorem stepClear_facts (x : In) (st : St) :
    (stepClear x st).var = st.var ∧ (stepClear x st).init = st.init ∧ (stepClear x st).tFake = st.tFake ∧ (stepClear x st).tHagl = st.tHagl ∧
    (stepClear x st).tFlow = st.tFlow ∧ (stepClear x st).gndPosD = st.gndPosD ∧ (stepClear x st).flowInnov = st.flowInnov ∧
    (stepClear x st).flowInnovVar = st.flowInnovVar ∧
    (stepClear x st).vpos = max st.vpos (x.flow.gndClearance + x.s 9) := by
  unfold stepClear
  split_ifs with h
  · exact ⟨rfl, rfl, rfl, rfl, rfl, rfl, rfl, rfl, (max_eq_right (by linarith)).symm⟩
  · exact ⟨rfl, rfl, rfl, rfl, rfl, rfl, rfl, rfl, (max_eq_left (by linarith)).symm⟩

/-! ## One step -/

/-- **C48 (on ground).** On ground the estimate is reset in every step: terrain at the minimum clearance below the vehicle, with the square of that
clearance as variance, and the ground position is remembered. -/
theorem run_ground (x : In) (st : St) (hg : x.inAir = false) :
    let st' := run x st
    st'.vpos = x.s 9 + x.flow.gndClearance ∧ st'.var = x.flow.gndClearance ^ 2 ∧ st'.init = true ∧ st'.tHagl = x.now ∧ st'.tFake = x.now ∧
    st'.tFlow = st.tFlow ∧ st'.gndPosD = x.s 9 ∧ st'.sensRange = false := by
  intro st'
  have e : st' = updateValidity x
      { st with
        gndPosD := x.s 9
        vpos := x.s 9 + x.flow.gndClearance
        var := sq x.flow.gndClearance
        tFake := x.now
        tHagl := x.now
        init := true } := by
    show run x st = _
    unfold run initHagl
    simp [hg]
  rw [e]
  unfold updateValidity
  refine ⟨rfl, by simp only [sq, pow_two], rfl, rfl, rfl, rfl, rfl, ?_⟩
  simp

/-- **C48 (initialisation in flight).** An uninitialised estimator is initialised in flight from a healthy range measurement, else from a
flow measurement (terrain at the height of the origin, or at the vehicle if that is lower), else not at all. -/
theorem run_init (x : In) (st : St) (ha : x.inAir = true) (hi : st.init = false) :
    let st' := run x st
    (x.useRange = true → x.rngHealthy = true → st'.vpos = x.s 9 + x.distBottom ∧ st'.var = x.rngNoise ^ 2 ∧ st'.init = true ∧ st'.tHagl = x.now) ∧
    (¬ (x.useRange = true ∧ x.rngHealthy = true) → x.useFlow = true → st.flowReady = true →
      st'.vpos = max 0 (x.s 9) ∧ st'.var = 100 ∧ st'.init = true ∧ st'.tHagl = x.now) ∧
    (¬ (x.useRange = true ∧ x.rngHealthy = true) → ¬ (x.useFlow = true ∧ st.flowReady = true) →
      st'.vpos = st.vpos ∧ st'.var = st.var ∧ st'.init = false ∧ st'.valid = false ∧ st'.tHagl = st.tHagl) ∧
    st'.tFlow = st.tFlow ∧ st'.tFake = st.tFake ∧ st'.gndPosD = st.gndPosD := by
  intro st'
  have hst : st' = run x st := rfl
  unfold run at hst
  simp only [ha, hi, Bool.not_true, Bool.not_false, Bool.false_eq_true, if_false, Bool.true_or, if_true] at hst
  unfold initHagl at hst
  simp only [ha, Bool.not_true, Bool.false_eq_true, if_false] at hst
  by_cases h1 : (x.useRange && x.rngHealthy) = true
  · simp only [h1, if_true] at hst
    have h1' : x.useRange = true ∧ x.rngHealthy = true := by simpa using h1
    rw [hst]
    exact ⟨fun _ _ => ⟨rfl, by simp only [updateValidity, sq, pow_two], rfl, rfl⟩, fun h => absurd h1' h, fun h => absurd h1' h, rfl, rfl, rfl⟩
  · have h1' : ¬ (x.useRange = true ∧ x.rngHealthy = true) := by simpa using h1
    simp only [h1, Bool.false_eq_true, if_false] at hst
    by_cases h2 : (x.useFlow && st.flowReady) = true
    · simp only [h2, if_true] at hst
      have h2' : x.useFlow = true ∧ st.flowReady = true := by simpa using h2
      rw [hst]
      exact ⟨fun a b => absurd ⟨a, b⟩ h1', fun _ _ _ => ⟨rfl, rfl, rfl, rfl⟩, fun _ h => absurd h2' h, rfl, rfl, rfl⟩
    · simp only [h2, Bool.false_eq_true, if_false] at hst
      have h2' : ¬ (x.useFlow = true ∧ st.flowReady = true) := by simpa using h2
      rw [hst]
      exact ⟨fun a b => absurd ⟨a, b⟩ h1', fun _ a b => absurd ⟨a, b⟩ h2', fun _ _ => ⟨rfl, rfl, rfl, by simp [updateValidity], rfl⟩, rfl, rfl, rfl⟩

theorem run_air_eq (x : In) (st : St) (ha : x.inAir = true) (hi : st.init = true) :
    run x st = updateValidity x (stepClear x (stepFlow x (stepRange x (predict x st)))) := by
  unfold run
  simp [ha, hi]

/-- **C48 (in flight).** In flight the initialised terrain estimate is always at least the minimum clearance below the vehicle; without range
fusion the variance is at most the predicted one, within [0, 10⁴]; an accepted range measurement reduces it further; only the reset
after 10 s of rejections sets it to the measurement variance. -/
theorem run_air (x : In) (st : St) (ha : x.inAir = true) (hi : st.init = true) (hn : x.rngNoise ≠ 0) :
    let st' := run x st
    x.flow.gndClearance ≤ st'.vpos - x.s 9 ∧ st'.init = true ∧ 0 ≤ st'.var ∧
    (st'.var ≤ Spec.grownVar x st.var ∨ (st'.var ≤ obsVar x ∧ isTimedOut x.now st.tHagl 10000000 = true ∧ ¬ Spec.rangeOk x st.vpos st.var)) ∧
    st'.tFake = st.tFake ∧ st'.gndPosD = st.gndPosD ∧
    (Spec.rangeOk x st.vpos st.var → st'.tHagl = x.now) ∧ (¬ Spec.rangeOk x st.vpos st.var → st'.tHagl = st.tHagl) := by
  intro st'
  obtain ⟨p, hp⟩ : ∃ p, p = predict x st := ⟨_, rfl⟩
  have hp' : p = { st with var := Spec.grownVar x st.var } := by rw [hp, predict_spec]
  have hgv := grownVar_range x st.var
  have hpv : p.var = Spec.grownVar x st.var := by rw [hp']
  have hpp : p.vpos = st.vpos := by rw [hp']
  have hpt : p.tHagl = st.tHagl := by rw [hp']
  have hpi : p.init = st.init := by rw [hp']
  have hpf : p.tFake = st.tFake := by rw [hp']
  have hpg : p.gndPosD = st.gndPosD := by rw [hp']
  obtain ⟨r, hr⟩ : ∃ r, r = stepRange x p := ⟨_, rfl⟩
  have hst : st' = updateValidity x (stepClear x (stepFlow x r)) := by rw [hr, hp]; exact run_air_eq x st ha hi
  have hS := fuseHagl_spec x p hn (by rw [hpv]; exact hgv.1)
  simp only [] at hS
  rw [hpv, hpp, hpt] at hS
  -- range step
  have hrf : r.init = p.init ∧ r.tFake = p.tFake ∧ r.gndPosD = p.gndPosD := by
    rw [hr]; unfold stepRange
    have f := fuseHagl_frame x p
    split_ifs
    · exact ⟨f.1, f.2.1, f.2.2.2.1⟩
    · exact ⟨rfl, rfl, rfl⟩
  have key : 0 ≤ r.var ∧ (r.var ≤ Spec.grownVar x st.var ∨ (r.var ≤ obsVar x ∧ isTimedOut x.now st.tHagl 10000000 = true ∧ ¬ Spec.rangeOk x st.vpos st.var)) ∧
      (Spec.rangeOk x st.vpos st.var → r.tHagl = x.now) ∧ (¬ Spec.rangeOk x st.vpos st.var → r.tHagl = st.tHagl) := by
    by_cases hu : (x.useRange && x.rngHealthy) = true
    · have hu' : x.useRange = true ∧ x.rngHealthy = true := by simpa using hu
      have er : r = fuseHagl x p := by rw [hr]; unfold stepRange; rw [if_pos hu]
      rw [er]
      have hok : Spec.rangeOk x st.vpos st.var ↔ (st.vpos - (x.s 9 + x.distBottom)) ^ 2 ≤ max x.rngGate 1 ^ 2 * (Spec.grownVar x st.var + obsVar x) := by
        unfold Spec.rangeOk
        rw [show st.vpos - x.s 9 - x.distBottom = st.vpos - (x.s 9 + x.distBottom) by ring]
        tauto
      by_cases ho : Spec.rangeOk x st.vpos st.var
      · obtain ⟨-, a2, -, a4, a5, -⟩ := hS.2.1 (hok.mp ho)
        exact ⟨a4, Or.inl a5, fun _ => a2, fun h => absurd ho h⟩
      · obtain ⟨b1, b2, b3⟩ := hS.2.2 (not_le.mp (fun h => ho (hok.mpr h)))
        cases ht : isTimedOut x.now st.tHagl 10000000 with
        | true =>
          obtain ⟨-, c2, -⟩ := b2 ht
          refine ⟨by rw [c2]; exact obsVar_nonneg x, Or.inr ⟨c2.le, rfl, ho⟩, fun h => absurd h ho, fun _ => b1⟩
        | false =>
          obtain ⟨-, c2, -⟩ := b3 ht
          exact ⟨by rw [c2]; exact hgv.1, Or.inl c2.le, fun h => absurd h ho, fun _ => b1⟩
    · have er : r = p := by rw [hr]; unfold stepRange; rw [if_neg hu]
      rw [er, hpv]
      have hno : ¬ Spec.rangeOk x st.vpos st.var := fun h => hu (by simp [h.1, h.2.1])
      exact ⟨hgv.1, Or.inl le_rfl, fun h => absurd h hno, fun _ => hpt⟩
  have f := stepFlow_facts x r key.1
  have c := stepClear_facts x (stepFlow x r)
  have u : ∀ y : St, (updateValidity x y).vpos = y.vpos ∧ (updateValidity x y).var = y.var ∧ (updateValidity x y).init = y.init ∧
      (updateValidity x y).tFake = y.tFake ∧ (updateValidity x y).tHagl = y.tHagl ∧ (updateValidity x y).gndPosD = y.gndPosD := fun y => ⟨rfl, rfl, rfl, rfl, rfl, rfl⟩
  obtain ⟨u1, u2, u3, u4, u5, u6⟩ := u (stepClear x (stepFlow x r))
  rw [← hst] at u1 u2 u3 u4 u5 u6
  have hv : st'.var ≤ r.var := by rw [u2, c.1]; exact f.2.1
  refine ⟨?_, ?_, ?_, ?_, ?_, ?_, ?_, ?_⟩
  · rw [u1, c.2.2.2.2.2.2.2.2]
    have := le_max_right (stepFlow x r).vpos (x.flow.gndClearance + x.s 9)
    linarith
  · rw [u3, c.2.1, f.2.2.1, hrf.1, hpi, hi]
  · rw [u2, c.1]; exact f.1
  · rcases key.2.1 with h | ⟨h1, h2⟩
    · exact Or.inl (le_trans hv h)
    · exact Or.inr ⟨le_trans hv h1, h2⟩
  · rw [u4, c.2.2.1, f.2.2.2.1, hrf.2.1, hpf]
  · rw [u6, c.2.2.2.2.2.1, f.2.2.2.2.2, hrf.2.2, hpg]
  · intro h; rw [u5, c.2.2.2.1, f.2.2.2.2.1]; exact key.2.2.1 h
  · intro h; rw [u5, c.2.2.2.1, f.2.2.2.2.1]; exact key.2.2.2 h

/-! ## Time of the last flow fusion -/

/-- **C101.** The time of the last flow fusion changes exactly when a flow sample is used by the in-flight update and one of the two reported
innovations is within `gate` standard deviations of the reported variance. -/
theorem flow_event (x : In) (st : St) (ha : x.inAir = true) (hi : st.init = true) (hn : x.rngNoise ≠ 0) :
    let st' := run x st
    ((x.useFlow = true ∧ st.flowReady = true ∧ ∃ a, st'.flowInnov a ^ 2 ≤ max x.flow.gate 1 ^ 2 * st'.flowInnovVar a) → st'.tFlow = x.now ∧ st'.flowReady = false) ∧
    (¬ (x.useFlow = true ∧ st.flowReady = true ∧ ∃ a, st'.flowInnov a ^ 2 ≤ max x.flow.gate 1 ^ 2 * st'.flowInnovVar a) → st'.tFlow = st.tFlow) := by
  intro st'
  obtain ⟨r, hr⟩ : ∃ r, r = stepRange x (predict x st) := ⟨_, rfl⟩
  have hst : st' = updateValidity x (stepClear x (stepFlow x r)) := by rw [hr]; exact run_air_eq x st ha hi
  have hrv : 0 ≤ r.var ∧ r.tFlow = st.tFlow ∧ r.flowReady = st.flowReady := by
    rw [hr]; unfold stepRange
    have h0 : 0 ≤ (predict x st).var := by rw [predict_spec]; exact (grownVar_range x st.var).1
    have hfr := fuseHagl_frame x (predict x st)
    have hS := fuseHagl_spec x (predict x st) hn h0
    simp only [] at hS
    split_ifs
    · refine ⟨?_, hfr.2.2.1, hfr.2.2.2.2⟩
      rcases le_or_gt ((predict x st).vpos - (x.s 9 + x.distBottom)) 0 with _ | _ <;>
      · by_cases hc : ((predict x st).vpos - (x.s 9 + x.distBottom)) ^ 2 ≤ max x.rngGate 1 ^ 2 * ((predict x st).var + obsVar x)
        · exact (hS.2.1 hc).2.2.2.1
        · obtain ⟨-, b2, b3⟩ := hS.2.2 (not_le.mp hc)
          cases ht : isTimedOut x.now (predict x st).tHagl 10000000 with
          | true => rw [(b2 ht).2.1]; exact obsVar_nonneg x
          | false => rw [(b3 ht).2.1]; exact h0
    · exact ⟨h0, rfl, rfl⟩
  have c := stepClear_facts x (stepFlow x r)
  have e1 : st'.tFlow = (stepFlow x r).tFlow := by rw [hst]; exact c.2.2.2.2.1
  have e2 : st'.flowInnov = (stepFlow x r).flowInnov := by rw [hst]; exact c.2.2.2.2.2.2.1
  have e3 : st'.flowInnovVar = (stepFlow x r).flowInnovVar := by rw [hst]; exact c.2.2.2.2.2.2.2.1
  have e4 : st'.flowReady = (stepFlow x r).flowReady := by
    rw [hst]; show (stepClear x (stepFlow x r)).flowReady = _; unfold stepClear; split_ifs <;> rfl
  rw [e1, e2, e3, e4]
  by_cases hu : (x.useFlow && r.flowReady) = true
  · have hu' : x.useFlow = true ∧ st.flowReady = true := by rw [hrv.2.2] at hu; simpa using hu
    have es : stepFlow x r = { fuseFlow x r with flowReady := false } := by unfold stepFlow; rw [if_pos hu]
    rw [es]
    have hax : ∀ (a : Fin 2) (h p : ℝ) (y : St), 0 ≤ y.var →
        ((flowAxis x a h p y).flowInnov a ^ 2 ≤ max x.flow.gate 1 ^ 2 * (flowAxis x a h p y).flowInnovVar a → (flowAxis x a h p y).tFlow = x.now) ∧
        (¬ (flowAxis x a h p y).flowInnov a ^ 2 ≤ max x.flow.gate 1 ^ 2 * (flowAxis x a h p y).flowInnovVar a → (flowAxis x a h p y).tFlow = y.tFlow) := by
      intro a h p y hy
      have g := flowAxis_spec x a h p y hy (flowMeasVar_pos x.flow)
      simp only [] at g
      rw [g.1, g.2.1, neg_sq]
      exact ⟨fun hh => (g.2.2.1 hh).2.1, fun hh => (g.2.2.2.1 (not_le.mp hh)).2.2⟩
    have hkeep : ∀ (h p : ℝ) (y : St), (flowAxis x 1 h p y).flowInnov 0 = y.flowInnov 0 ∧ (flowAxis x 1 h p y).flowInnovVar 0 = y.flowInnovVar 0 := by
      intro h p y; unfold flowAxis; simp only []; split_ifs <;> simp [set2]
    -- the two axes
    obtain ⟨y0, h0, p0, h1, p1, hy0, hty, hff⟩ : ∃ (y0 : St) (h0 p0 h1 p1 : ℝ), 0 ≤ y0.var ∧ y0.tFlow = r.tFlow ∧
        fuseFlow x r = flowAxis x 1 h1 p1 (flowAxis x 0 h0 p0 y0) := by
      obtain ⟨h, p, h1, p1, e⟩ := fuseFlow_axes x r
      refine ⟨_, h, p, h1, p1, ?_, ?_, e⟩
      · exact le_max_right _ _
      · rfl
    simp only []
    rw [hff]
    obtain ⟨m, em⟩ : ∃ m, m = flowAxis x 0 h0 p0 y0 := ⟨_, rfl⟩
    have hm := hax 0 h0 p0 y0 hy0
    have hmv := (flowAxis_var x 0 h0 p0 y0 hy0).1
    rw [← em] at hm hmv ⊢
    have hl := hax 1 h1 p1 m hmv
    have hk := hkeep h1 p1 m
    generalize flowAxis x 1 h1 p1 m = l at hl hk ⊢
    constructor
    · rintro ⟨-, -, a, hacc⟩
      refine ⟨?_, trivial⟩
      by_cases h1' : l.flowInnov 1 ^ 2 ≤ max x.flow.gate 1 ^ 2 * l.flowInnovVar 1
      · exact hl.1 h1'
      · rw [hl.2 h1']
        rcases fin2_cases a with rfl | rfl
        · rw [hk.1, hk.2] at hacc; exact hm.1 hacc
        · exact absurd hacc h1'
    · intro hno
      have hno' : ∀ a, ¬ l.flowInnov a ^ 2 ≤ max x.flow.gate 1 ^ 2 * l.flowInnovVar a := fun a ha' => hno ⟨hu'.1, hu'.2, a, ha'⟩
      rw [hl.2 (hno' 1), hm.2 (by rw [← hk.1, ← hk.2]; exact hno' 0), hty, hrv.2.1]
  · have es : stepFlow x r = r := by unfold stepFlow; rw [if_neg hu]
    rw [es]
    have hu' : ¬ (x.useFlow = true ∧ st.flowReady = true) := by rw [hrv.2.2] at hu; simpa using hu
    exact ⟨fun h => absurd ⟨h.1, h.2.1⟩ hu', fun _ => hrv.2.1⟩

/-! ## Validity -/

/-- what counts as information about the terrain in a step -/
def Spec.event (x : In) (st : St) : Prop :=
  x.inAir = false ∨
  (st.init = false ∧ ((x.useRange = true ∧ x.rngHealthy = true) ∨ (x.useFlow = true ∧ st.flowReady = true))) ∨
  (st.init = true ∧ Spec.rangeOk x st.vpos st.var) ∨
  (st.init = true ∧ x.useFlow = true ∧ st.flowReady = true ∧ ∃ a, (run x st).flowInnov a ^ 2 ≤ max x.flow.gate 1 ^ 2 * (run x st).flowInnovVar a)

/-- **C49 (definition).** The estimate is valid exactly if the estimator is initialised and the last range or flow time stamp is less than
5 s old; the sensor flags report recent range and flow information, the former not on ground. -/
theorem validity_spec (x : In) (st : St) :
    let st' := run x st
    (st'.valid = true ↔ st'.init = true ∧ (isRecent x.now st'.tHagl 5000000 = true ∨ isRecent x.now st'.tFlow 5000000 = true)) ∧
    (st'.sensRange = true ↔ x.useRange = true ∧ isRecent x.now st'.tHagl 5000000 = true ∧ st'.tFake ≠ st'.tHagl) ∧
    (st'.sensFlow = true ↔ x.useFlow = true ∧ isRecent x.now st'.tFlow 5000000 = true) ∧
    (terrainVPos st' = if st'.valid then st'.vpos else st'.gndPosD) := by
  intro st'
  have hst : ∃ y, st' = updateValidity x y := ⟨_, rfl⟩
  obtain ⟨y, hy⟩ := hst
  rw [hy]
  unfold updateValidity terrainVPos
  simp [and_assoc]

/-- time stamps move only in a step with information -/
theorem stamps (x : In) (st : St) (hn : x.rngNoise ≠ 0) :
    ((run x st).tHagl = st.tHagl ∧ (run x st).tFlow = st.tFlow) ∨
    (Spec.event x st ∧ ((run x st).tHagl = st.tHagl ∨ (run x st).tHagl = x.now) ∧ ((run x st).tFlow = st.tFlow ∨ (run x st).tFlow = x.now)) := by
  cases ha : x.inAir with
  | false =>
    have g := run_ground x st ha
    simp only [] at g
    exact Or.inr ⟨Or.inl ha, Or.inr g.2.2.2.1, Or.inl g.2.2.2.2.2.1⟩
  | true =>
    cases hi : st.init with
    | false =>
      have g := run_init x st ha hi
      simp only [] at g
      by_cases h1 : x.useRange = true ∧ x.rngHealthy = true
      · exact Or.inr ⟨Or.inr (Or.inl ⟨hi, Or.inl h1⟩), Or.inr (g.1 h1.1 h1.2).2.2.2, Or.inl g.2.2.2.1⟩
      · by_cases h2 : x.useFlow = true ∧ st.flowReady = true
        · exact Or.inr ⟨Or.inr (Or.inl ⟨hi, Or.inr h2⟩), Or.inr (g.2.1 h1 h2.1 h2.2).2.2.2, Or.inl g.2.2.2.1⟩
        · exact Or.inl ⟨(g.2.2.1 h1 h2).2.2.2.2, g.2.2.2.1⟩
    | true =>
      have g := run_air x st ha hi hn
      have f := flow_event x st ha hi hn
      simp only [] at g f
      by_cases h1 : Spec.rangeOk x st.vpos st.var
      · refine Or.inr ⟨Or.inr (Or.inr (Or.inl ⟨hi, h1⟩)), Or.inr (g.2.2.2.2.2.2.1 h1), ?_⟩
        by_cases h2 : x.useFlow = true ∧ st.flowReady = true ∧ ∃ a, (run x st).flowInnov a ^ 2 ≤ max x.flow.gate 1 ^ 2 * (run x st).flowInnovVar a
        · exact Or.inr (f.1 h2).1
        · exact Or.inl (f.2 h2)
      · by_cases h2 : x.useFlow = true ∧ st.flowReady = true ∧ ∃ a, (run x st).flowInnov a ^ 2 ≤ max x.flow.gate 1 ^ 2 * (run x st).flowInnovVar a
        · exact Or.inr ⟨Or.inr (Or.inr (Or.inr ⟨hi, h2⟩)), Or.inl (g.2.2.2.2.2.2.2 h1), Or.inr (f.1 h2).1⟩
        · exact Or.inl ⟨g.2.2.2.2.2.2.2 h1, f.2 h2⟩

/-- a history: in each step the flow data flag is set to an arbitrary value before the estimator runs -/
noncomputable def runs (st : St) : List (In × Bool) → St
  | [] => st
  | (x, fr) :: t => runs (run x { st with flowReady := fr }) t

theorem runs_append (st : St) (a b : List (In × Bool)) : runs st (a ++ b) = runs (runs st a) b := by
  induction a generalizing st with
  | nil => rfl
  | cons h t ih => obtain ⟨x, fr⟩ := h; exact ih _

theorem stamps_history (st0 : St) (h : List (In × Bool)) (hn : ∀ e ∈ h, e.1.rngNoise ≠ 0) :
    (∀ T, (T = (runs st0 h).tHagl ∨ T = (runs st0 h).tFlow) → T = st0.tHagl ∨ T = st0.tFlow ∨
      ∃ pre e post, h = pre ++ e :: post ∧ Spec.event e.1 { runs st0 pre with flowReady := e.2 } ∧ T = e.1.now) := by
  induction h using List.reverseRecOn with
  | nil => intro T hT; rcases hT with hT | hT <;> simp [runs, hT]
  | append_singleton l e ih =>
    intro T hT
    have ih := ih (fun e he => hn e (List.mem_append_left _ he))
    obtain ⟨x, fr⟩ := e
    rw [runs_append] at hT
    have hrun : runs (runs st0 l) [(x, fr)] = run x { runs st0 l with flowReady := fr } := rfl
    rw [hrun] at hT
    have lift : ∀ T, (T = (runs st0 l).tHagl ∨ T = (runs st0 l).tFlow) → T = st0.tHagl ∨ T = st0.tFlow ∨
        ∃ pre e post, l ++ [(x, fr)] = pre ++ e :: post ∧ Spec.event e.1 { runs st0 pre with flowReady := e.2 } ∧ T = e.1.now := by
      intro T hT
      rcases ih T hT with a | a | ⟨pre, e, post, a, b, c⟩
      · exact Or.inl a
      · exact Or.inr (Or.inl a)
      · exact Or.inr (Or.inr ⟨pre, e, post ++ [(x, fr)], by rw [a]; simp, b, c⟩)
    rcases stamps x { runs st0 l with flowReady := fr } (hn (x, fr) (by simp)) with ⟨a, b⟩ | ⟨ev, a, b⟩
    · rw [a, b] at hT; exact lift T hT
    · have here : T = x.now → T = st0.tHagl ∨ T = st0.tFlow ∨
        ∃ pre e post, l ++ [(x, fr)] = pre ++ e :: post ∧ Spec.event e.1 { runs st0 pre with flowReady := e.2 } ∧ T = e.1.now :=
        fun h => Or.inr (Or.inr ⟨l, (x, fr), [], rfl, ev, h⟩)
      rcases hT with hT | hT
      · rcases a with a | a
        · rw [a] at hT; exact lift T (Or.inl hT)
        · exact here (hT.trans a)
      · rcases b with b | b
        · rw [b] at hT; exact lift T (Or.inr hT)
        · exact here (hT.trans b)

/-- **C49.** After any history the terrain estimate is reported valid only if within the last 5 s (before the last step) there was information
about the terrain — the vehicle was on ground, the estimator was initialised from a measurement, a range measurement was accepted or a
flow measurement was accepted — or the time stamps present at the beginning of the history are that recent. -/
theorem valid_history (st0 : St) (h : List (In × Bool)) (x : In) (fr : Bool) (hn : ∀ e ∈ h ++ [(x, fr)], e.1.rngNoise ≠ 0)
    (hv : (runs st0 (h ++ [(x, fr)])).valid = true) :
    isRecent x.now st0.tHagl 5000000 = true ∨ isRecent x.now st0.tFlow 5000000 = true ∨
    ∃ pre e post, h ++ [(x, fr)] = pre ++ e :: post ∧ Spec.event e.1 { runs st0 pre with flowReady := e.2 } ∧ isRecent x.now e.1.now 5000000 = true := by
  have hs := stamps_history st0 (h ++ [(x, fr)]) hn
  have hv' := hv
  rw [runs_append] at hv'
  have e : runs (runs st0 h) [(x, fr)] = run x { runs st0 h with flowReady := fr } := rfl
  rw [e] at hv'
  have w := (validity_spec x { runs st0 h with flowReady := fr }).1.mp hv'
  have e' : runs st0 (h ++ [(x, fr)]) = run x { runs st0 h with flowReady := fr } := by rw [runs_append]; rfl
  rw [e'] at hs
  have fin : ∀ T, isRecent x.now T 5000000 = true → (T = st0.tHagl ∨ T = st0.tFlow ∨
      ∃ pre e post, h ++ [(x, fr)] = pre ++ e :: post ∧ Spec.event e.1 { runs st0 pre with flowReady := e.2 } ∧ T = e.1.now) →
      isRecent x.now st0.tHagl 5000000 = true ∨ isRecent x.now st0.tFlow 5000000 = true ∨
      ∃ pre e post, h ++ [(x, fr)] = pre ++ e :: post ∧ Spec.event e.1 { runs st0 pre with flowReady := e.2 } ∧ isRecent x.now e.1.now 5000000 = true := by
    intro T hT hc
    rcases hc with c | c | ⟨pre, e, post, a, b, c⟩
    · rw [c] at hT; exact Or.inl hT
    · rw [c] at hT; exact Or.inr (Or.inl hT)
    · rw [c] at hT; exact Or.inr (Or.inr ⟨pre, e, post, a, b, hT⟩)
  rcases w.2 with hr | hr
  · exact fin _ hr (hs _ (Or.inl rfl))
  · exact fin _ hr (hs _ (Or.inr rfl))

/-- **C48 (histories).** After any history the variance is not negative (see `run_ground`, `run_init` and `run_air` for its upper bounds). -/
theorem var_history (st0 : St) (h0 : 0 ≤ st0.var) (h : List (In × Bool)) (hn : ∀ e ∈ h, e.1.rngNoise ≠ 0) : 0 ≤ (runs st0 h).var := by
  induction h using List.reverseRecOn with
  | nil => exact h0
  | append_singleton l e ih =>
    have ih := ih (fun e he => hn e (List.mem_append_left _ he))
    obtain ⟨x, fr⟩ := e
    rw [runs_append]
    show 0 ≤ (run x { runs st0 l with flowReady := fr }).var
    cases ha : x.inAir with
    | false => rw [(run_ground x _ ha).2.1]; positivity
    | true =>
      cases hi : (runs st0 l).init with
      | false =>
        have g := run_init x { runs st0 l with flowReady := fr } ha hi
        simp only [] at g
        by_cases h1 : x.useRange = true ∧ x.rngHealthy = true
        · rw [(g.1 h1.1 h1.2).2.1]; positivity
        · by_cases h2 : x.useFlow = true ∧ fr = true
          · rw [(g.2.1 h1 h2.1 h2.2).2.1]; norm_num
          · rw [(g.2.2.1 h1 h2).2.1]; exact ih
      | true => exact (run_air x { runs st0 l with flowReady := fr } ha hi (hn (x, fr) (by simp))).2.2.1

/-! ## Findings -/

/-- **C49, finding.** The estimate is reported valid for 5 s after take-off although no sensor is used at all: the resets on ground count as fused
range measurements. -/
theorem valid_without_sensor (st : St) (x1 x2 : In) (fr1 fr2 : Bool) (h1 : x1.inAir = false) (h2 : x2.inAir = true) (hn : x2.rngNoise ≠ 0)
    (hu : x2.useRange = false ∧ x2.useFlow = false) (ht : isRecent x2.now x1.now 5000000 = true) :
    (runs st [(x1, fr1), (x2, fr2)]).valid = true := by
  show (run x2 { run x1 { st with flowReady := fr1 } with flowReady := fr2 }).valid = true
  have g := run_ground x1 { st with flowReady := fr1 } h1
  simp only [] at g
  have a := run_air x2 { run x1 { st with flowReady := fr1 } with flowReady := fr2 } h2 g.2.2.1 hn
  simp only [] at a
  refine (validity_spec x2 _).1.mpr ⟨a.2.1, Or.inl ?_⟩
  rw [a.2.2.2.2.2.2.2 (fun h => by have := h.1; rw [hu.1] at this; simp at this), g.2.2.2.1]
  exact ht

/-- **C49, finding.** An initialisation in flight from a flow measurement is recorded as a fused range measurement: the range finder is reported
as source without ever having delivered data, and no flow sample is used for the terrain until 5 s later. -/
theorem flow_init_claims_range (x : In) (st : St) (ha : x.inAir = true) (hi : st.init = false) (hr : x.rngHealthy = false) (hu : x.useRange = true)
    (hf : x.useFlow = true) (hfr : st.flowReady = true) (hfake : st.tFake ≠ x.now) (hnow : x.now.toNat + 5000000 < 2 ^ 64) :
    (run x st).valid = true ∧ (run x st).sensRange = true ∧
    (∀ t optFlow gps, t.toNat ≤ x.now.toNat + 5000000 → (flowReadiness t true true optFlow gps { run x st with flowReady := false }).flowReady = false) := by
  have g := run_init x st ha hi
  simp only [] at g
  have q := g.2.1 (by rw [hr]; simp) hf hfr
  have hrec : isRecent x.now (run x st).tHagl 5000000 = true := by
    rw [q.2.2.2, (timeout_meaning x.now x.now 5000000 (by simpa using hnow)).2]
    have : (5000000 : UInt64).toNat = 5000000 := rfl
    omega
  refine ⟨(validity_spec x st).1.mpr ⟨q.2.2.1, Or.inl hrec⟩, (validity_spec x st).2.1.mpr ⟨hu, hrec, ?_⟩, ?_⟩
  · rw [g.2.2.2.2.1, q.2.2.2]; exact hfake
  · intro t optFlow gps htt
    have hto : isTimedOut t (run x st).tHagl 5000000 = false := by
      rw [q.2.2.2, ← Bool.not_eq_true, (timeout_meaning t x.now 5000000 (by simpa using hnow)).1]
      have : (5000000 : UInt64).toNat = 5000000 := rfl
      omega
    unfold flowReadiness
    simp [hto]

/-- **C101 (use of flow data).** A flow sample is used for the terrain only in flight, when no range measurement was fused for more than 5 s, the main
filter is not using flow and GPS is used. -/
theorem flowReadiness_spec (now : UInt64) (ready inAir optFlow gps : Bool) (st : St) (h : st.flowReady = false)
    (h' : (flowReadiness now ready inAir optFlow gps st).flowReady = true) :
    ready = true ∧ inAir = true ∧ optFlow = false ∧ gps = true ∧ isTimedOut now st.tHagl 5000000 = true := by
  unfold flowReadiness at h'
  rw [h] at h'
  cases ready <;> cases inAir <;> cases optFlow <;> cases gps <;> simp_all

/-- **C101 (use of flow data, exact).** After the decision a flow sample is waiting for the terrain estimator if and only if one was waiting
already, or a new one arrived in flight while no range measurement was fused for more than 5 s, the main filter does not use flow and GPS
is used; nothing else in the estimator changes. -/
theorem flowReadiness_iff (now : UInt64) (ready inAir optFlow gps : Bool) (st : St) :
    ((flowReadiness now ready inAir optFlow gps st).flowReady = true ↔
      st.flowReady = true ∨ (ready = true ∧ inAir = true ∧ optFlow = false ∧ gps = true ∧ isTimedOut now st.tHagl 5000000 = true)) ∧
    { flowReadiness now ready inAir optFlow gps st with flowReady := st.flowReady } = st := by
  unfold flowReadiness
  cases h : st.flowReady <;> cases ready <;> cases inAir <;> cases optFlow <;> cases gps <;> simp [h] <;> cases st <;> simp_all

/-- **C48, finding.** The 10 s reset does not restart the rejection timer: once it has fired, every further rejected range measurement resets the
estimate immediately until one is accepted. -/
theorem reset_repeats (x1 x2 : In) (st : St) (hn : x1.rngNoise ≠ 0 ∧ x2.rngNoise ≠ 0) (h0 : 0 ≤ st.var)
    (ht : isTimedOut x1.now st.tHagl 10000000 = true) (hle : x1.now ≤ x2.now)
    (hr1 : max x1.rngGate 1 ^ 2 * (st.var + obsVar x1) < (st.vpos - (x1.s 9 + x1.distBottom)) ^ 2)
    (hr2 : max x2.rngGate 1 ^ 2 * (obsVar x1 + obsVar x2) < (x1.s 9 + x1.distBottom - (x2.s 9 + x2.distBottom)) ^ 2) :
    (fuseHagl x2 (fuseHagl x1 st)).vpos = x2.s 9 + x2.distBottom ∧ (fuseHagl x2 (fuseHagl x1 st)).var = obsVar x2 := by
  have a := fuseHagl_spec x1 st hn.1 h0
  simp only [] at a
  obtain ⟨a1, a2, -⟩ := a.2.2 hr1
  obtain ⟨b1, b2, -⟩ := a2 ht
  have c := fuseHagl_spec x2 (fuseHagl x1 st) hn.2 (by rw [b2]; exact obsVar_nonneg x1)
  simp only [] at c
  rw [b1, b2, a1] at c
  obtain ⟨-, d, -⟩ := c.2.2 hr2
  have ht2 : isTimedOut x2.now st.tHagl 10000000 = true := by
    rw [isTimedOut_iff] at ht ⊢
    rw [u64_lt_iff] at ht ⊢
    rw [u64_le_iff] at hle
    omega
  exact ⟨(d ht2).1, (d ht2).2.1⟩

/-! ## The hypotheses are met -/

/-- `valid_without_sensor`: take-off at 20 s, 4 s later -/
example (x : In) : ∃ x1 x2 : In, x1.inAir = false ∧ x2.inAir = true ∧ x2.rngNoise ≠ 0 ∧ (x2.useRange = false ∧ x2.useFlow = false) ∧
    isRecent x2.now x1.now 5000000 = true :=
  ⟨{ x with inAir := false, now := 20000000 }, { x with inAir := true, now := 24000000, rngNoise := 1, useRange := false, useFlow := false }, rfl, rfl, one_ne_zero,
    ⟨rfl, rfl⟩, by show isRecent 24000000 20000000 5000000 = true; decide⟩

/-- `flow_init_claims_range` -/
example (x : In) (st : St) : ∃ (x : In) (st : St), x.inAir = true ∧ st.init = false ∧ x.rngHealthy = false ∧ x.useRange = true ∧ x.useFlow = true ∧ st.flowReady = true ∧
    st.tFake ≠ x.now ∧ x.now.toNat + 5000000 < 2 ^ 64 :=
  ⟨{ x with inAir := true, rngHealthy := false, useRange := true, useFlow := true, now := 20000000 }, { st with init := false, flowReady := true, tFake := 0 },
    rfl, rfl, rfl, rfl, rfl, rfl, (by show (0:UInt64) ≠ 20000000; decide), (by show (20000000:UInt64).toNat + 5000000 < 2^64; decide)⟩

/-- `reset_repeats`: two samples 10 m and 50 m away after 11 s without accepted sample -/
example (x : In) (st : St) : ∃ (x1 x2 : In) (st : St), (x1.rngNoise ≠ 0 ∧ x2.rngNoise ≠ 0) ∧ 0 ≤ st.var ∧ isTimedOut x1.now st.tHagl 10000000 = true ∧ x1.now ≤ x2.now ∧
    max x1.rngGate 1 ^ 2 * (st.var + obsVar x1) < (st.vpos - (x1.s 9 + x1.distBottom)) ^ 2 ∧
    max x2.rngGate 1 ^ 2 * (obsVar x1 + obsVar x2) < (x1.s 9 + x1.distBottom - (x2.s 9 + x2.distBottom)) ^ 2 := by
  refine ⟨{ x with now := 31000000, rngNoise := 1, rngNoiseScaler := 0, p99 := 0, distBottom := 10, rngGate := 1, s := fun _ => 0 },
    { x with now := 31100000, rngNoise := 1, rngNoiseScaler := 0, p99 := 0, distBottom := 50, rngGate := 1, s := fun _ => 0 },
    { st with vpos := 0, var := 1, tHagl := 20000000 }, ⟨one_ne_zero, one_ne_zero⟩, zero_le_one, (by show isTimedOut 31000000 20000000 10000000 = true; decide), (by show (31000000:UInt64) ≤ 31100000; decide), ?_, ?_⟩
  · simp only [obsVar_spec]; norm_num
  · simp only [obsVar_spec]; norm_num

/-- `run_air`, `flow_event`: an initialised estimator in flight; and an accepted range measurement -/
example (x : In) (st : St) : ∃ (x : In) (st : St), x.inAir = true ∧ st.init = true ∧ x.rngNoise ≠ 0 ∧ Spec.rangeOk x st.vpos st.var := by
  refine ⟨{ x with inAir := true, rngNoise := 1, useRange := true, rngHealthy := true, distBottom := 3, s := fun _ => 0 }, { st with init := true, vpos := 3 }, rfl, rfl, one_ne_zero, rfl, rfl, ?_⟩
  have h1 := (grownVar_range { x with inAir := true, rngNoise := 1, useRange := true, rngHealthy := true, distBottom := 3, s := fun _ => 0 } st.var).1
  have h2 := obsVar_nonneg { x with inAir := true, rngNoise := 1, useRange := true, rngHealthy := true, distBottom := 3, s := fun _ => 0 }
  simp only [sub_self, sub_zero]
  rw [show (0 : ℝ) ^ 2 = 0 by norm_num]
  exact mul_nonneg (sq_nonneg _) (add_nonneg h1 h2)

end Ecl.Terrain
