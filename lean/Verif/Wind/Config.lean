import Verif.Wind.Props

/-!
# Wind estimator: the tuning in force (C102)
-/

namespace Ecl.Wind

namespace Spec

/-- the argument of the last call in a history picked out by `f`; `d` when there is none -/
noncomputable def lastArg {α : Type} (f : Call → Option α) (d : α) (l : List Call) : α := ((l.filterMap f).getLast?).getD d

end Spec

theorem initialise_c (v : V3') (a b t : ℝ) (st : St) : (initialise v a b t st).c = st.c := by
  unfold initialise
  split_ifs <;> rfl

theorem update_c (t : UInt64) (st : St) : (update t st).c = st.c := by
  unfold update
  split_ifs <;> (try rfl) <;> simp only [] <;> split_ifs <;> rfl

theorem fuseTas_c (t : UInt64) (tas : ℝ) (v : V3') (a b : ℝ) (st : St) : (fuseTas t tas v a b st).c = st.c := by
  unfold fuseTas fuseTasCore
  split_ifs
  · exact initialise_c ..
  · rfl
  · simp only []
    split_ifs
    · rfl
    · rw [initialise_c]
    · rfl
    · rw [(apply_frame _ _ _ _).1]

theorem fuseBeta_c (t : UInt64) (v : V3') (q : Quat ℝ) (st : St) : (fuseBeta t v q st).c = st.c := by
  unfold fuseBeta fuseBetaCore
  split_ifs
  · exact initialise_c ..
  · rfl
  · simp only []
    split_ifs
    · rfl
    · rw [initialise_c]
    · rfl
    · rw [(apply_frame _ _ _ _).1]

private theorem last_append {α : Type} (f : Call → Option α) (d : α) (l : List Call) (c : Call) :
    Spec.lastArg f d (l ++ [c]) = (f c).getD (Spec.lastArg f d l) := by
  unfold Spec.lastArg
  rw [List.filterMap_append]
  cases h : f c <;> simp [h]

/-- **C102 (tuning).** After any history of calls, each noise variance in force is the square of the argument of the last call that set that
noise (its documented default if there was none), each gate is the last one set, and so is the enforced scale: neither fusing
measurements, predicting, re-initialising, nor setting another parameter changes a parameter. -/
theorem tuning_in_force (l : List Call) :
    let c := (run l).c
    c.windPVar = Spec.lastArg (fun | .setWindPNoise s => some (s ^ 2) | _ => none) 0.1 l ∧
    c.tasPVar = Spec.lastArg (fun | .setTasScalePNoise s => some (s ^ 2) | _ => none) 0.0001 l ∧
    c.tasVar = Spec.lastArg (fun | .setTasNoise s => some (s ^ 2) | _ => none) 1.4 l ∧
    c.betaVar = Spec.lastArg (fun | .setBetaNoise s => some (s ^ 2) | _ => none) 0.5 l ∧
    c.tasGate = Spec.lastArg (fun | .setTasGate g => some g | _ => none) 3 l ∧
    c.betaGate = Spec.lastArg (fun | .setBetaGate g => some g | _ => none) 1 l ∧
    c.enforced = Spec.lastArg (fun | .enforceScale s => some s | _ => none) (-1) l := by
  simp only []
  induction l using List.reverseRecOn with
  | nil => exact ⟨rfl, rfl, rfl, rfl, rfl, rfl, rfl⟩
  | append_singleton l c ih =>
    obtain ⟨i1, i2, i3, i4, i5, i6, i7⟩ := ih
    simp only [last_append]
    have e : run (l ++ [c]) = step (run l) c := by unfold run; rw [List.foldl_append]; rfl
    rw [e]
    cases c with
    | update t => simp only [step, update_c, Option.getD_none]; exact ⟨i1, i2, i3, i4, i5, i6, i7⟩
    | airspeed t tas v a b => simp only [step, fuseTas_c, Option.getD_none]; exact ⟨i1, i2, i3, i4, i5, i6, i7⟩
    | beta t v q => simp only [step, fuseBeta_c, Option.getD_none]; exact ⟨i1, i2, i3, i4, i5, i6, i7⟩
    | setWindPNoise s => simp only [step, Option.getD_none, Option.getD_some]; exact ⟨(pow_two s).symm, i2, i3, i4, i5, i6, i7⟩
    | setTasScalePNoise s => simp only [step, Option.getD_none, Option.getD_some]; exact ⟨i1, (pow_two s).symm, i3, i4, i5, i6, i7⟩
    | setTasNoise s => simp only [step, Option.getD_none, Option.getD_some]; exact ⟨i1, i2, (pow_two s).symm, i4, i5, i6, i7⟩
    | setBetaNoise s => simp only [step, Option.getD_none, Option.getD_some]; exact ⟨i1, i2, i3, (pow_two s).symm, i5, i6, i7⟩
    | setTasGate g => simp only [step, Option.getD_none, Option.getD_some]; exact ⟨i1, i2, i3, i4, trivial, i6, i7⟩
    | setBetaGate g => simp only [step, Option.getD_none, Option.getD_some]; exact ⟨i1, i2, i3, i4, i5, trivial, i7⟩
    | enforceScale s => simp only [step, Option.getD_none, Option.getD_some]; exact ⟨i1, i2, i3, i4, i5, i6, trivial⟩

/-- non-vacuity: set, use, set something else — the first setting is still in force -/
example : (run [.setTasNoise 3, .airspeed 5 10 ![10, 0, 0] 1 1, .update 7, .setBetaNoise 2]).c.tasVar = 9 := by
  rw [(tuning_in_force _).2.2.1]
  unfold Spec.lastArg
  norm_num

end Ecl.Wind
