import Verif.Fp.Cov

/-!
# A NaN variance never recovers; states in floating point keep their limits — EKF/covariance.cpp:859-1034, EKF/ekf_helper.cpp:550-566
-/

namespace Ecl.Fp

open Ecl.Cov (N Mat inBlk uncorrSet uncorr mapDiag accIdx)

noncomputable section

variable {rnd : ℝ → EReal}

theorem fixAcc_diag_eq (x : FixIn) (force : Bool) (t : UInt64) (P : Mat F) (i : Fin N) : (fixAcc rnd x force t P).1 i i =
    accClamp x.inhibit (accFloor rnd (accScan rnd x.inhibit P).1) (accCap rnd x.dtEkfAvg) P i i := by
  unfold fixAcc
  dsimp only
  have inner : ∀ (b : Bool) (Q : Mat F), (if b = true then uncorr 13 3 Q else Q) i i = Q i i := by
    intro b Q; cases b
    · rfl
    · exact uncorr_diag _ _ _ _
  generalize (if x.badAccBias = true then t else x.now) = t'
  by_cases ht : isTimedOut x.now t' 7000000 = true
  · rw [if_pos ht]
    show uncorr 13 3 _ i i = _
    rw [uncorr_diag, inner]
  · rw [if_neg ht]
    cases force
    · exact inner _ _
    · show makeSym rnd 13 3 _ i i = _
      rw [makeSym_diag, inner]

theorem constrain_nan (lo hi : F) : constrain .nan lo hi = .nan := by
  unfold constrain
  have h1 : ¬ lt .nan lo := by cases lo <;> exact id
  have h2 : ¬ lt hi .nan := by cases hi <;> exact id
  rw [if_neg h1, if_neg h2]

theorem accClamp_nan (inh : Fin 3 → Bool) (lo hi : F) (P : Mat F) (i : Fin N) (h : P i i = .nan) : accClamp inh lo hi P i i = .nan := by
  unfold accClamp
  split
  · rw [h, constrain_nan]
  · exact h

/-- states that are in use: all but the magnetic field outside 3-axis fusion and the wind while it is not estimated -/
def InUse (x : FixIn) (i : Fin N) : Prop := i.val < 16 ∨ (i.val < 22 ∧ x.mag3D = true) ∨ (22 ≤ i.val ∧ x.wind = true)

theorem fix_nan (x : FixIn) (force : Bool) (t : UInt64) (flag : Bool) (P : Mat F) (i : Fin N) (hu : InUse x i) (h : P i i = .nan) :
    (fixCovarianceErrors rnd x force t flag P).1 i i = .nan := by
  unfold fixCovarianceErrors
  dsimp only
  have k : fixKin rnd force P i i = .nan := by
    rw [fixKin_diag, h]
    repeat' split
    all_goals first | exact constrain_nan _ _ | rfl
  have a : (if (!x.inhibit 0 || !x.inhibit 1 || !x.inhibit 2) = true then fixAcc rnd x force t (fixKin rnd force P) else (fixKin rnd force P, t, flag)).1 i i = .nan := by
    by_cases hi : (!x.inhibit 0 || !x.inhibit 1 || !x.inhibit 2) = true
    · rw [if_pos hi, fixAcc_diag_eq]
      exact accClamp_nan _ _ _ _ _ k
    · rw [if_neg hi]; exact k
  rw [fixWind_diag, fixMag_diag, a]
  rcases hu with h1 | ⟨h1, hm⟩ | ⟨h1, hw⟩
  · rw [if_neg (by omega), if_neg (by omega)]
  · rw [if_neg (by omega), hm]
    split
    · exact constrain_nan _ _
    · rfl
  · rw [if_pos h1, hw, if_neg (show ¬ (16 ≤ i.val ∧ i.val < 22) by omega), if_pos rfl]
    exact constrain_nan _ _

/-- **C143.** A variance that is NaN stays NaN through every measurement update of a state in use, applied or refused: neither the health check nor the limits detect it. -/
theorem update_nan_stays (x : FixIn) (KHP : Mat F) (t : UInt64) (flag : Bool) (P : Mat F) (i : Fin N) (hu : InUse x i) (h : P i i = .nan) :
    (measurementUpdate rnd x KHP t flag P).1 i i = .nan := by
  have hall : ∀ (l : List (Fin N)) (Q : Mat F) (b : Bool), Q i i = .nan → (l.foldl (checkStep KHP) (Q, b)).1 i i = .nan := by
    intro l
    induction l with
    | nil => intro Q b h; exact h
    | cons k l ih =>
      intro Q b h
      simp only [List.foldl]
      by_cases hk : lt (Q k k) (KHP k k)
      · have e : checkStep KHP (Q, b) k = (uncorrSet k.val 1 (fun _ => 0) Q, false) := if_pos hk
        rw [e]
        refine ih _ _ ?_
        rw [uncorrSet_diag]
        split
        · next hb =>
          have : i = k := Fin.ext (by unfold inBlk at hb; omega)
          subst this
          rw [h] at hk
          exact absurd hk (by cases KHP i i <;> exact id)
        · exact h
      · have e : checkStep KHP (Q, b) k = (Q, b) := if_neg hk
        rw [e]
        exact ih _ _ h
  have hc : (checkAndFix KHP P).1 i i = .nan := hall _ P true h
  unfold measurementUpdate
  dsimp only
  by_cases h : (checkAndFix KHP P).2 = true
  · rw [if_pos h]
    refine fix_nan x true t flag _ i hu ?_
    show sub rnd ((checkAndFix KHP P).1 i i) (KHP i i) = .nan
    rw [hc]; rfl
  · rw [if_neg h]; exact hc

/-- any number of updates -/
theorem nan_stays (l : List (FixIn × Mat F × UInt64 × Bool)) (P : Mat F) (i : Fin N) (hu : ∀ u ∈ l, InUse u.1 i) (h : P i i = .nan) :
    l.foldl (fun P u => (measurementUpdate rnd u.1 u.2.1 u.2.2.1 u.2.2.2 P).1) P i i = .nan := by
  induction l generalizing P with
  | nil => exact h
  | cons u l ih =>
    rw [List.foldl_cons]
    exact ih _ (fun v hv => hu v (List.mem_cons_of_mem _ hv)) (update_nan_stays u.1 _ _ _ P i (hu u (List.mem_cons_self ..)) h)

/-- non-trivial case: the position variance -/
example : ∃ (x : FixIn) (P : Mat F), InUse x 7 ∧ P 7 7 = .nan ∧ P 4 4 = lit rnd 1 :=
  ⟨⟨fun _ => false, true, true, 0, 0, false⟩, fun i _ => if i = 7 then .nan else lit rnd 1, Or.inl (by decide), if_pos rfl, if_neg (by decide)⟩

/-! ## State limits -/

/-- negation -/
def neg : F → F
  | .val a => .val (-a)
  | .nan => .nan

/-- `constrainStates`, EKF/ekf_helper.cpp:550-566, on the 24 states; `deg20` is the computed `radians(20.f)`, `accLim` the parameter, `dt` the average update interval -/
def constrainStates (rnd : ℝ → EReal) (deg20 accLim dt : F) (s : Fin N → F) : Fin N → F := fun i =>
  let lim : F :=
    if i.val < 4 then lit rnd 1 else if i.val < 7 then lit rnd 1000 else if i.val < 10 then lit rnd 1000000
    else if i.val < 13 then mul rnd deg20 dt else if i.val < 16 then mul rnd accLim dt
    else if i.val < 19 then lit rnd 1 else if i.val < 22 then lit rnd (1 / 2) else lit rnd 100
  constrain (s i) (neg lim) lim

/-- the documented limit of each state -/
def Spec.stateLimit (rnd : ℝ → EReal) (deg20 accLim dt : EReal) (i : Fin N) : EReal :=
  if i.val < 4 then rnd 1 else if i.val < 7 then rnd 1000 else if i.val < 10 then rnd 1000000
  else if i.val < 13 then rndE rnd (deg20 * dt) else if i.val < 16 then rndE rnd (accLim * dt)
  else if i.val < 19 then rnd 1 else if i.val < 22 then rnd (1 / 2) else rnd 100

/-- **C143.** Whatever was computed for the states (infinite or NaN included), after the limits each is NaN or within its limit, in particular not infinite when the limit is not. -/
theorem states_limited_float (R : Rounding rnd) (deg20 accLim dt : ℝ) (h1 : 0 ≤ deg20) (h2 : 0 ≤ accLim) (h3 : 0 ≤ dt) (s : Fin N → F) (i : Fin N) :
    Maybe (fun v => -Spec.stateLimit rnd deg20 accLim dt i ≤ v ∧ v ≤ Spec.stateLimit rnd deg20 accLim dt i)
      (constrainStates rnd (.val deg20) (.val accLim) (.val dt) s i) := by
  have hm : ∀ a b : ℝ, mul rnd (.val a) (.val b) = .val (rndE rnd ((a : EReal) * b)) := by
    intro a b
    simp [mul]
  have hn : ∀ x : ℝ, 0 ≤ x → (0 : EReal) ≤ rnd x := fun x hx => by rw [← R.zero]; exact R.mono hx
  have hp : ∀ a b : ℝ, 0 ≤ a → 0 ≤ b → (0 : EReal) ≤ rndE rnd ((a : EReal) * b) := fun a b ha hb => rndE_nonneg R (by
    rw [← EReal.coe_mul]; exact EReal.coe_nonneg.mpr (mul_nonneg ha hb))
  have c : ∀ l : EReal, 0 ≤ l → ∀ v : F, Maybe (fun w => -l ≤ w ∧ w ≤ l) (constrain v (neg (.val l)) (.val l)) := by
    intro l hl v
    exact constrain_limits (le_trans (EReal.neg_le.mpr (by simpa using hl)) hl) v
  unfold constrainStates Spec.stateLimit
  dsimp only
  rw [hm, hm]
  unfold lit
  have g1 := hn 1 (by norm_num); have g2 := hn 1000 (by norm_num); have g3 := hn 1000000 (by norm_num); have g4 := hp _ _ h1 h3
  have g5 := hp _ _ h2 h3; have g6 := hn (1 / 2) (by norm_num); have g7 := hn 100 (by norm_num)
  repeat' split
  all_goals apply c; assumption

end

end Ecl.Fp
