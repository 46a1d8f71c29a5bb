import Verif.Terrain.NaN
import Verif.Wind.NaNReal

/-!
# The terrain estimator with NaN agrees with the one over the reals (C178)
-/

namespace Ecl.Terrain.NaN

open Ecl.Fusion.NaN Ecl.Wind.NaN

/-- a state of numbers seen in the model with NaN -/
noncomputable def emb (st : Terrain.St) : NSt where
  vpos := some st.vpos
  var := some st.var
  tHagl := st.tHagl
  tFlow := st.tFlow
  init := st.init
  valid := st.valid
  flowReady := st.flowReady

/-- inputs of numbers seen in the model with NaN -/
noncomputable def embIn (x : In) : NIn where
  x := x
  growth := some (sq (x.dt * x.pNoise) + sq (x.dt * x.gradient) * (sq (x.s 4) + sq (x.s 5)))
  rate := fun a => some (Fusion.flowRate x.flow a)
  h := ![Fusion.flowVelBody x.flow x.s 1 * (x.s 0 * x.s 0 - x.s 1 * x.s 1 - x.s 2 * x.s 2 + x.s 3 * x.s 3),
    -Fusion.flowVelBody x.flow x.s 0 * (x.s 0 * x.s 0 - x.s 1 * x.s 1 - x.s 2 * x.s 2 + x.s 3 * x.s 3)]
  pred := ![Fusion.flowVelBody x.flow x.s 1 * Utils.quatToInverseRotMat (Fusion.attQuat x.s) 2 2,
    -Fusion.flowVelBody x.flow x.s 0 * Utils.quatToInverseRotMat (Fusion.attQuat x.s) 2 2]

theorem nle_some (a b : ℝ) : nle (some a) (some b) = true ↔ a ≤ b := nle_iff _ _

theorem fmax_some (a b : ℝ) : fmax (some a) (some b) = some (max a b) := rfl

theorem npredict_some (x : In) (st : Terrain.St) : npredict (embIn x) (emb st) = emb (predict x st) := by
  have e : constr (add (some st.var) (embIn x).growth) (some 0) (some 10000) =
      some (constrain (st.var + sq (x.dt * x.pNoise) + sq (x.dt * x.gradient) * (sq (x.s 4) + sq (x.s 5))) 0 10000) := by
    show constr (some (st.var + (sq (x.dt * x.pNoise) + sq (x.dt * x.gradient) * (sq (x.s 4) + sq (x.s 5))))) _ _ = _
    rw [← add_assoc]
    generalize st.var + sq (x.dt * x.pNoise) + sq (x.dt * x.gradient) * (sq (x.s 4) + sq (x.s 5)) = v
    unfold constr constrain
    by_cases h1 : v < 0
    · rw [if_pos (show gt (some 0) (some v) from h1), if_pos h1]
    · rw [if_neg (show ¬ gt (some 0) (some v) from h1), if_neg h1]
      by_cases h2 : v > 10000
      · rw [if_pos (show gt (some v) (some 10000) from h2), if_pos h2]
      · rw [if_neg (show ¬ gt (some v) (some 10000) from h2), if_neg h2]
  unfold npredict
  rw [show (emb st).var = some st.var from rfl, e]
  rfl

theorem nfuseHagl_some (x : In) (hn : x.rngNoise ≠ 0) (st : Terrain.St) : nfuseHagl (embIn x) (emb st) = emb (fuseHagl x st) := by
  have ho := obs_pos x hn
  have hS : max (st.var + obsVar x) (obsVar x) ≠ 0 := by
    have := le_max_right (st.var + obsVar x) (obsVar x)
    linarith
  have hG : max x.rngGate 1 ^ 2 * max (st.var + obsVar x) (obsVar x) ≠ 0 := by
    have : (0 : ℝ) < max x.rngGate 1 := lt_of_lt_of_le one_pos (le_max_right _ _)
    exact mul_ne_zero (by positivity) hS
  have hR : ndiv (mul (sub (sub (some st.vpos) (some (x.s 9))) (some x.distBottom)) (sub (sub (some st.vpos) (some (x.s 9))) (some x.distBottom)))
      (mul (some (max x.rngGate 1 ^ 2)) (fmax (add (some st.var) (some (obsVar x))) (some (obsVar x)))) =
      some (sq (st.vpos - x.s 9 - x.distBottom) / (sq (max x.rngGate 1) * max (st.var + obsVar x) (obsVar x))) := by
    rw [add_some, fmax_some]
    simp only [sub_some, mul_some]
    rw [ndiv_val _ hG]
    unfold sq
    rw [pow_two]
  have hK : ndiv (some st.var) (fmax (add (some st.var) (some (obsVar x))) (some (obsVar x))) = some (st.var / max (st.var + obsVar x) (obsVar x)) := ndiv_val _ hS
  unfold nfuseHagl fuseHagl
  show (if nle (ndiv (mul (sub (sub (some st.vpos) (some (x.s 9))) (some x.distBottom)) (sub (sub (some st.vpos) (some (x.s 9))) (some x.distBottom)))
      (mul (some (max x.rngGate 1 ^ 2)) (fmax (add (some st.var) (some (obsVar x))) (some (obsVar x))))) (some 1) = true then
      { emb st with
        vpos := sub (some st.vpos) (mul (ndiv (some st.var) (fmax (add (some st.var) (some (obsVar x))) (some (obsVar x)))) (sub (sub (some st.vpos) (some (x.s 9))) (some x.distBottom)))
        var := fmax (mul (some st.var) (sub (some 1) (ndiv (some st.var) (fmax (add (some st.var) (some (obsVar x))) (some (obsVar x)))))) (some 0)
        tHagl := x.now }
      else if isTimedOut x.now st.tHagl 10000000 then { emb st with vpos := some (x.s 9 + x.distBottom), var := some (obsVar x) } else emb st) = _
  rw [hR, hK]
  dsimp only
  by_cases h : sq (st.vpos - x.s 9 - x.distBottom) / (sq (max x.rngGate 1) * max (st.var + obsVar x) (obsVar x)) ≤ 1
  · rw [if_pos ((nle_some _ _).2 h), if_pos h]
    rfl
  · rw [if_neg (fun c => h ((nle_some _ _).1 c)), if_neg h]
    by_cases h2 : isTimedOut x.now st.tHagl 10000000 = true
    · rw [if_pos h2, if_pos h2]; rfl
    · rw [if_neg h2, if_neg h2]; rfl

theorem nflowAxis_some (x : In) (a : Fin 2) (w : ℝ) (st : Terrain.St) (hv : 0 ≤ st.var) :
    nflowAxis (embIn x) a (some w) (emb st) = emb (flowAxis x a ((embIn x).h a * w * w) ((embIn x).pred a * w) st) := by
  have hf := flowMeasVar_pos x.flow
  generalize hh : (embIn x).h a = h
  generalize hp : (embIn x).pred a = p
  have hS : h * w * w * (h * w * w) * st.var + Fusion.flowMeasVar x.flow ≠ 0 := by
    have : 0 ≤ h * w * w * (h * w * w) * st.var := mul_nonneg (mul_self_nonneg _) hv
    linarith
  have hG : max x.flow.gate 1 ^ 2 * (h * w * w * (h * w * w) * st.var + Fusion.flowMeasVar x.flow) ≠ 0 := by
    have : (0 : ℝ) < max x.flow.gate 1 := lt_of_lt_of_le one_pos (le_max_right _ _)
    exact mul_ne_zero (by positivity) hS
  have hK : ndiv (some (st.var * (h * w * w))) (some (h * w * w * (h * w * w) * st.var + Fusion.flowMeasVar x.flow)) =
      some (st.var * (h * w * w) / (h * w * w * (h * w * w) * st.var + Fusion.flowMeasVar x.flow)) := ndiv_val _ hS
  have hR : ndiv (some ((p * w - Fusion.flowRate x.flow a) * (p * w - Fusion.flowRate x.flow a)))
      (some (max x.flow.gate 1 ^ 2 * (h * w * w * (h * w * w) * st.var + Fusion.flowMeasVar x.flow))) =
      some (sq (p * w - Fusion.flowRate x.flow a) / (sq (max x.flow.gate 1) * (h * w * w * (h * w * w) * st.var + Fusion.flowMeasVar x.flow))) := by
    rw [ndiv_val _ hG]
    unfold sq
    rw [pow_two]
  unfold nflowAxis flowAxis
  rw [hh, hp]
  show (if nle (ndiv (some ((p * w - Fusion.flowRate x.flow a) * (p * w - Fusion.flowRate x.flow a)))
      (some (max x.flow.gate 1 ^ 2 * (h * w * w * (h * w * w) * st.var + Fusion.flowMeasVar x.flow)))) (some 1) = true then
      { emb st with
        vpos := add (some st.vpos) (mul (ndiv (some (st.var * (h * w * w))) (some (h * w * w * (h * w * w) * st.var + Fusion.flowMeasVar x.flow))) (some (p * w - Fusion.flowRate x.flow a)))
        var := fmax (sub (some st.var) (mul (mul (ndiv (some (st.var * (h * w * w))) (some (h * w * w * (h * w * w) * st.var + Fusion.flowMeasVar x.flow))) (some (h * w * w))) (some st.var))) (some 0)
        tFlow := x.now }
      else emb st) = _
  rw [hR, hK]
  dsimp only
  by_cases hc : sq (p * w - Fusion.flowRate x.flow a) / (sq (max x.flow.gate 1) * (h * w * w * (h * w * w) * st.var + Fusion.flowMeasVar x.flow)) ≤ 1
  · rw [if_pos ((nle_some _ _).2 hc), if_pos hc]
    rfl
  · rw [if_neg (fun c => hc ((nle_some _ _).1 c)), if_neg hc]
    rfl

theorem nfuseFlow_some (x : In) (hc : 0 < x.flow.gndClearance) (st : Terrain.St) : nfuseFlow (embIn x) (emb st) = emb (fuseFlow x st) := by
  have hd : max st.vpos (x.flow.gndClearance + x.s 9) - x.s 9 ≠ 0 := by
    have := le_max_right st.vpos (x.flow.gndClearance + x.s 9)
    intro c; linarith
  have hi : ndiv (some 1) (some (max st.vpos (x.flow.gndClearance + x.s 9) - x.s 9)) = some (1 / (max st.vpos (x.flow.gndClearance + x.s 9) - x.s 9)) := ndiv_val _ hd
  have hvar : 0 ≤ (flowAxis x 0 ((embIn x).h 0 * (1 / (max st.vpos (x.flow.gndClearance + x.s 9) - x.s 9)) * (1 / (max st.vpos (x.flow.gndClearance + x.s 9) - x.s 9)))
      ((embIn x).pred 0 * (1 / (max st.vpos (x.flow.gndClearance + x.s 9) - x.s 9)))
      { st with vpos := max st.vpos (x.flow.gndClearance + x.s 9), var := max st.var 0 }).var := by
    unfold flowAxis
    dsimp only
    split_ifs
    · exact le_max_right _ _
    · exact le_max_right _ _
  unfold nfuseFlow
  show nflowAxis (embIn x) 1 (ndiv (some 1) (some (max st.vpos (x.flow.gndClearance + x.s 9) - x.s 9)))
    (nflowAxis (embIn x) 0 (ndiv (some 1) (some (max st.vpos (x.flow.gndClearance + x.s 9) - x.s 9)))
      (emb { st with vpos := max st.vpos (x.flow.gndClearance + x.s 9), var := max st.var 0 })) = _
  rw [hi, nflowAxis_some x 0 _ _ (le_max_right _ _), nflowAxis_some x 1 _ _ hvar]
  rfl

/-- **C178 (agreement).** On numbers, with a positive ground clearance and range noise not zero, a step does exactly what the model over the reals says. -/
theorem agree_step (x : In) (hc : 0 < x.flow.gndClearance) (hn : x.rngNoise ≠ 0) (st : Terrain.St) : nrun (embIn x) (emb st) = emb (run x st) := by
  have eI : ∀ st : Terrain.St, ninit (embIn x) (emb st) = emb { (initHagl x st).1 with init := (initHagl x st).2 } := by
    intro st
    unfold ninit initHagl
    show (if x.inAir = false then _ else if (x.useRange && x.rngHealthy) = true then _ else if (x.useFlow && st.flowReady) = true then _ else _) = _
    dsimp only
    by_cases h1 : x.inAir = false
    · rw [if_pos h1, if_pos (show (!x.inAir) = true by rw [h1]; rfl)]
      unfold emb sq
      simp [embIn, pow_two]
    · rw [if_neg h1, if_neg (show ¬ (!x.inAir) = true by simpa using h1)]
      by_cases h2 : (x.useRange && x.rngHealthy) = true
      · rw [if_pos h2, if_pos h2]
        unfold emb sq
        simp [embIn, pow_two]
      · rw [if_neg h2, if_neg h2]
        by_cases h3 : (x.useFlow && st.flowReady) = true
        · rw [if_pos h3, if_pos h3]; rfl
        · rw [if_neg h3, if_neg h3]; rfl
  have eR : ∀ st : Terrain.St, nstepRange (embIn x) (emb st) = emb (stepRange x st) := by
    intro st
    unfold nstepRange stepRange
    show (if (x.useRange && x.rngHealthy) = true then _ else _) = _
    by_cases h : (x.useRange && x.rngHealthy) = true
    · rw [if_pos h, if_pos h, nfuseHagl_some x hn]
    · rw [if_neg h, if_neg h]
  have eF : ∀ st : Terrain.St, nstepFlow (embIn x) (emb st) = emb (stepFlow x st) := by
    intro st
    unfold nstepFlow stepFlow
    show (if (x.useFlow && st.flowReady) = true then _ else _) = _
    by_cases h : (x.useFlow && st.flowReady) = true
    · rw [if_pos h, if_pos h, nfuseFlow_some x hc]; rfl
    · rw [if_neg h, if_neg h]
  have eC : ∀ st : Terrain.St, nstepClear (embIn x) (emb st) = emb (stepClear x st) := by
    intro st
    unfold nstepClear stepClear
    have e : ngt (some (embIn x).x.flow.gndClearance) (sub (emb st).vpos (some ((embIn x).x.s 9))) = decide (x.flow.gndClearance > st.vpos - x.s 9) := ngt_some _ _
    by_cases h : st.vpos - x.s 9 < x.flow.gndClearance
    · rw [if_pos (by rw [e]; simpa using h), if_pos h]; rfl
    · rw [if_neg (by rw [e]; simpa using h), if_neg h]
  have eV : ∀ st : Terrain.St, ({ emb st with valid := (emb st).init && (isRecent x.now (emb st).tHagl 5000000 || isRecent x.now (emb st).tFlow 5000000) } : NSt) =
      emb (updateValidity x st) := fun _ => rfl
  unfold nrun run
  show ({ (if st.init = false ∨ x.inAir = false then _ else _ : NSt) with valid := _ } : NSt) = _
  have key : (if st.init = false ∨ x.inAir = false then ninit (embIn x) (emb st) else nstepClear (embIn x) (nstepFlow (embIn x) (nstepRange (embIn x) (npredict (embIn x) (emb st))))) =
      emb (let st := if !x.inAir then { st with gndPosD := x.s 9 } else st
        if !st.init || !x.inAir then
          let r := initHagl x st
          { r.1 with init := r.2 }
        else stepClear x (stepFlow x (stepRange x (predict x st)))) := by
    by_cases ha : x.inAir = false
    · rw [if_pos (Or.inr ha), eI]
      dsimp only
      rw [if_pos (show (!x.inAir) = true by rw [ha]; rfl), if_pos (by rw [ha]; simp)]
      unfold initHagl
      rw [if_pos (show (!x.inAir) = true by rw [ha]; rfl), if_pos (show (!x.inAir) = true by rw [ha]; rfl)]
      rfl
    · dsimp only
      rw [if_neg (show ¬ (!x.inAir) = true by simpa using ha)]
      have ha' : x.inAir = true := by simpa using ha
      by_cases hi : st.init = false
      · rw [if_pos (Or.inl hi), if_pos (by rw [hi]; simp), eI]
      · have hi' : st.init = true := by simpa using hi
        rw [if_neg (by rw [hi', ha']; simp), if_neg (by rw [hi', ha']; simp), npredict_some, eR, eF, eC]
  rw [← eV]
  dsimp only at key ⊢
  rw [← key]
  rfl

/-- parameters in use -/
example (x : In) : ∃ x : In, 0 < x.flow.gndClearance ∧ x.rngNoise ≠ 0 := ⟨{ x with rngNoise := 1, flow := { x.flow with gndClearance := 1 } }, one_pos, one_ne_zero⟩

end Ecl.Terrain.NaN
