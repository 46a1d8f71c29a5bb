import Verif.Terrain.Props
import Verif.Wind.NaN

/-!
# The terrain estimator and NaN (C178) — EKF/terrain_estimator.cpp

Floats as in `Verif/Fusion/VelPosNaN`: a real or NaN, arithmetic exact; a quotient with denominator zero counts as NaN.  The estimate, the growth of its variance and the flow rates may be NaN; the
down position of the main filter, the range and the parameters are numbers (range samples that are NaN are not healthy, C08).  Members that are only reported are left out.
-/

namespace Ecl.Terrain.NaN

open Ecl.Fusion.NaN Ecl.Wind.NaN

noncomputable section

/-- inputs of a step: those of the model over the reals, with the variance growth and the flow rates possibly NaN -/
structure NIn where
  x : In
  growth : NF
  rate : Fin 2 → NF
  /-- line of sight sensitivities and predicted rates without the inverse height, EKF/terrain_estimator.cpp:229, 241, 256, 265 -/
  h : Fin 2 → ℝ
  pred : Fin 2 → ℝ

/-- state -/
structure NSt where
  vpos : NF
  var : NF
  tHagl : UInt64
  tFlow : UInt64
  init : Bool
  valid : Bool
  flowReady : Bool

/-- `<=` as a flag -/
def nle (a b : NF) : Bool := open Classical in decide (le a b)

/-- `initHagl` with the assignment of its result, EKF/terrain_estimator.cpp:46-84, 95-96 -/
def ninit (i : NIn) (st : NSt) : NSt :=
  if i.x.inAir = false then { st with vpos := some (i.x.s 9 + i.x.flow.gndClearance), var := some (i.x.flow.gndClearance ^ 2), tHagl := i.x.now, init := true }
  else if (i.x.useRange && i.x.rngHealthy) = true then { st with vpos := some (i.x.s 9 + i.x.distBottom), var := some (i.x.rngNoise ^ 2), tHagl := i.x.now, init := true }
  else if (i.x.useFlow && st.flowReady) = true then { st with vpos := some (max 0 (i.x.s 9)), var := some 100, tHagl := i.x.now, init := true }
  else { st with init := false }

/-- variance growth, EKF/terrain_estimator.cpp:101-112 -/
def npredict (i : NIn) (st : NSt) : NSt := { st with var := constr (add st.var i.growth) (some 0) (some 10000) }

/-- `fuseHagl`, EKF/terrain_estimator.cpp:134-180 -/
def nfuseHagl (i : NIn) (st : NSt) : NSt :=
  let innov := sub (sub st.vpos (some (i.x.s 9))) (some i.x.distBottom)
  let S := fmax (add st.var (some (obsVar i.x))) (some (obsVar i.x))
  if nle (ndiv (mul innov innov) (mul (some (max i.x.rngGate 1 ^ 2)) S)) (some 1) then
    let gain := ndiv st.var S
    { st with vpos := sub st.vpos (mul gain innov), var := fmax (mul st.var (sub (some 1) gain)) (some 0), tHagl := i.x.now }
  else if isTimedOut i.x.now st.tHagl 10000000 then { st with vpos := some (i.x.s 9 + i.x.distBottom), var := some (obsVar i.x) }
  else st

/-- one axis of `fuseFlowForTerrain`, EKF/terrain_estimator.cpp:225-252 and 255-280 -/
def nflowAxis (i : NIn) (a : Fin 2) (inv : NF) (st : NSt) : NSt :=
  let h := mul (mul (some (i.h a)) inv) inv
  let S := add (mul (mul h h) st.var) (some (Fusion.flowMeasVar i.x.flow))
  let k := ndiv (mul st.var h) S
  let innov := sub (mul (some (i.pred a)) inv) (i.rate a)
  if nle (ndiv (mul innov innov) (mul (some (max i.x.flow.gate 1 ^ 2)) S)) (some 1) then
    { st with vpos := add st.vpos (mul k innov), var := fmax (sub st.var (mul (mul k h) st.var)) (some 0), tFlow := i.x.now }
  else st

/-- `fuseFlowForTerrain`, EKF/terrain_estimator.cpp:182-281 -/
def nfuseFlow (i : NIn) (st : NSt) : NSt :=
  let vpos := fmax st.vpos (some (i.x.flow.gndClearance + i.x.s 9))
  let inv := ndiv (some 1) (sub vpos (some (i.x.s 9)))
  nflowAxis i 1 inv (nflowAxis i 0 inv { st with vpos := vpos, var := fmax st.var (some 0) })

/-- range finder part, EKF/terrain_estimator.cpp:114-118 -/
def nstepRange (i : NIn) (st : NSt) : NSt := if (i.x.useRange && i.x.rngHealthy) = true then nfuseHagl i st else st
/-- optical flow part, EKF/terrain_estimator.cpp:120-124 -/
def nstepFlow (i : NIn) (st : NSt) : NSt := if (i.x.useFlow && st.flowReady) = true then { nfuseFlow i st with flowReady := false } else st
/-- minimum clearance, EKF/terrain_estimator.cpp:126-129 -/
def nstepClear (i : NIn) (st : NSt) : NSt :=
  if ngt (some i.x.flow.gndClearance) (sub st.vpos (some (i.x.s 9))) then { st with vpos := some (i.x.flow.gndClearance + i.x.s 9) } else st

/-- `runTerrainEstimator` with `updateTerrainValidity`, EKF/terrain_estimator.cpp:86-132, 283-292 -/
def nrun (i : NIn) (st : NSt) : NSt :=
  let st := if st.init = false ∨ i.x.inAir = false then ninit i st else nstepClear i (nstepFlow i (nstepRange i (npredict i st)))
  { st with valid := st.init && (isRecent i.x.now st.tHagl 5000000 || isRecent i.x.now st.tFlow 5000000) }

/-- a history: each step with the decision whether a flow sample is waiting, EKF/control.cpp:150-158 -/
def nruns (st : NSt) : List (NIn × Bool) → NSt
  | [] => st
  | (i, f) :: es => nruns (nrun i { st with flowReady := f }) es

end

/-! ## Specification -/

/-- the estimate is made of numbers -/
def Spec.Clean (st : NSt) : Prop := st.vpos.isSome = true ∧ st.var.isSome = true
/-- parameters in use: positive ground clearance, range noise not zero; numeric growth -/
structure Spec.Sane (i : NIn) : Prop where
  clearance : 0 < i.x.flow.gndClearance
  noise : i.x.rngNoise ≠ 0
  growth : i.growth.isSome = true
/-- a step that makes the estimate numeric: on ground; a flow sample used; a range sample used while the position is NaN and nothing was fused for 10 s -/
def Spec.Heals (i : NIn) (st : NSt) : Prop :=
  i.x.inAir = false ∨
  (st.init = true ∧ i.x.useFlow = true ∧ st.flowReady = true) ∨
  (st.init = true ∧ i.x.useRange = true ∧ i.x.rngHealthy = true ∧ st.vpos = none ∧ isTimedOut i.x.now st.tHagl 10000000 = true)

open Spec

/-! ## Numbers and NaN -/

theorem nle_iff (a b : NF) : nle a b = true ↔ le a b := by
  unfold nle; classical exact decide_eq_true_iff
theorem nle_nan (a : NF) : nle none a = false := by
  rw [Bool.eq_false_iff, Ne, nle_iff]; cases a <;> exact id
theorem ndiv_nan_l (a : NF) : ndiv none a = none := by
  unfold ndiv; split_ifs
  · rfl
  · simp
theorem constr_num {a : NF} (h : a.isSome = true) (lo hi : ℝ) : (constr a (some lo) (some hi)).isSome = true := by
  unfold constr; split_ifs <;> first | rfl | exact h
theorem fmax_num (a : NF) (b : ℝ) : (fmax a (some b)).isSome = true := by cases a <;> rfl
theorem fmax_val (a : NF) (b : ℝ) : ∃ r, fmax a (some b) = some r ∧ b ≤ r := by
  cases a with
  | none => exact ⟨b, rfl, le_rfl⟩
  | some a => exact ⟨max a b, rfl, le_max_right _ _⟩

theorem ndiv_val (a : ℝ) {b : ℝ} (h : b ≠ 0) : ndiv (some a) (some b) = some (a / b) := by
  unfold ndiv
  rw [if_neg (by intro c; exact h (Option.some.inj c))]
  rfl

theorem obs_pos (x : In) (h : x.rngNoise ≠ 0) : 0 < obsVar x := by
  unfold obsVar sq
  have h1 : 0 < x.rngNoise * x.rngNoise := mul_self_pos.2 h
  have h2 := mul_self_nonneg (x.rngNoiseScaler * x.range)
  have h3 := le_max_right (x.p99 * x.vehVarScaler) 0
  linarith

/-- one flow axis keeps numbers -/
theorem nflowAxis_clean (i : NIn) (a : Fin 2) (w : ℝ) (st : NSt) (h1 : st.vpos.isSome = true) (h2 : ∃ r, st.var = some r ∧ 0 ≤ r) :
    (nflowAxis i a (some w) st).vpos.isSome = true ∧ ∃ r, (nflowAxis i a (some w) st).var = some r ∧ 0 ≤ r := by
  obtain ⟨r, e, hr⟩ := h2
  have hi := flowMeasVar_pos i.x.flow
  unfold nflowAxis
  dsimp only
  split_ifs with h
  · obtain ⟨q, eq⟩ : ∃ q, i.rate a = some q := by
      cases hq : i.rate a with
      | some q => exact ⟨q, rfl⟩
      | none =>
        exfalso
        rw [hq] at h
        simp [ndiv_nan_l, nle_nan] at h
    have hS : i.h a * w * w * (i.h a * w * w) * r + Fusion.flowMeasVar i.x.flow ≠ 0 := by
      have : 0 ≤ i.h a * w * w * (i.h a * w * w) * r := mul_nonneg (mul_self_nonneg _) hr
      linarith
    have hk : ndiv (mul st.var (mul (mul (some (i.h a)) (some w)) (some w)))
        (add (mul (mul (mul (mul (some (i.h a)) (some w)) (some w)) (mul (mul (some (i.h a)) (some w)) (some w))) st.var) (some (Fusion.flowMeasVar i.x.flow))) =
        some (r * (i.h a * w * w) / (i.h a * w * w * (i.h a * w * w) * r + Fusion.flowMeasVar i.x.flow)) := by
      rw [e]
      exact ndiv_val _ hS
    rw [hk]
    constructor
    · show (add st.vpos _).isSome = true
      rw [eq]
      simp [h1]
    · obtain ⟨m, em, hm⟩ := fmax_val (sub st.var (mul (mul (some (r * (i.h a * w * w) / (i.h a * w * w * (i.h a * w * w) * r + Fusion.flowMeasVar i.x.flow)))
        (mul (mul (some (i.h a)) (some w)) (some w))) st.var)) 0
      exact ⟨m, em, hm⟩
  · exact ⟨h1, r, e, hr⟩

/-- a flow sample gives numbers, whatever the estimate was -/
theorem nfuseFlow_clean (i : NIn) (hc : 0 < i.x.flow.gndClearance) (st : NSt) : Clean (nfuseFlow i st) := by
  obtain ⟨p, ep, hp⟩ := fmax_val st.vpos (i.x.flow.gndClearance + i.x.s 9)
  have hv : ∃ r, fmax st.var (some 0) = some r ∧ 0 ≤ r := fmax_val _ _
  unfold nfuseFlow
  rw [ep]
  have hinv : ndiv (some 1) (sub (some p) (some (i.x.s 9))) = some (1 / (p - i.x.s 9)) := ndiv_val _ (by linarith)
  dsimp only
  rw [hinv]
  obtain ⟨a, b⟩ := nflowAxis_clean i 0 (1 / (p - i.x.s 9)) { st with vpos := some p, var := fmax st.var (some 0) } rfl hv
  obtain ⟨c, r, e, -⟩ := nflowAxis_clean i 1 (1 / (p - i.x.s 9)) _ a b
  exact ⟨c, by rw [e]; rfl⟩

/-- a range sample keeps numbers -/
theorem nfuseHagl_clean (i : NIn) (hn0 : i.x.rngNoise ≠ 0) (st : NSt) (h : Clean st) : Clean (nfuseHagl i st) := by
  obtain ⟨h1, h2⟩ := h
  have hn := obs_pos i.x hn0
  obtain ⟨S, eS, hS⟩ := fmax_val (add st.var (some (obsVar i.x))) (obsVar i.x)
  obtain ⟨v, ev⟩ := Option.isSome_iff_exists.1 h2
  unfold nfuseHagl
  rw [eS]
  dsimp only
  split_ifs
  · refine ⟨?_, fmax_num _ _⟩
    have hk : ndiv st.var (some S) = some (v / S) := by rw [ev]; exact ndiv_val _ (by linarith)
    show (sub st.vpos (mul (ndiv st.var (some S)) _)).isSome = true
    rw [hk]
    simp [h1]
  · exact ⟨rfl, rfl⟩
  · exact ⟨h1, h2⟩

theorem nstepClear_clean (i : NIn) (st : NSt) (h : Clean st) : Clean (nstepClear i st) := by
  unfold nstepClear
  split_ifs
  · exact ⟨rfl, h.2⟩
  · exact h

theorem nstepFlow_clean (i : NIn) (hs : Sane i) (st : NSt) (h : Clean st ∨ (i.x.useFlow && st.flowReady) = true) : Clean (nstepFlow i st) := by
  unfold nstepFlow
  split_ifs with hf
  · exact nfuseFlow_clean i hs.clearance st
  · exact h.elim id (fun c => absurd c hf)

theorem nstepRange_clean (i : NIn) (hs : Sane i) (st : NSt) (h : Clean st) : Clean (nstepRange i st) := by
  unfold nstepRange
  split_ifs
  · exact nfuseHagl_clean i hs.noise st h
  · exact h

theorem nstepRange_ready (i : NIn) (st : NSt) : (nstepRange i st).flowReady = st.flowReady := by
  unfold nstepRange nfuseHagl
  dsimp only
  split_ifs <;> rfl

/-- a NaN position is never fused with a range: kept, or replaced after 10 s without fusion -/
theorem nfuseHagl_nan (i : NIn) (st : NSt) (h : st.vpos = none) :
    nfuseHagl i st = if isTimedOut i.x.now st.tHagl 10000000 then { st with vpos := some (i.x.s 9 + i.x.distBottom), var := some (obsVar i.x) } else st := by
  unfold nfuseHagl
  rw [h]
  dsimp only
  rw [if_neg (by simp [ndiv_nan_l, nle_nan])]

/-! ## Results -/

/-- numbers stay numbers -/
theorem step_clean (i : NIn) (hs : Sane i) (st : NSt) (h : Clean st) : Clean (nrun i st) := by
  unfold nrun
  dsimp only
  split_ifs with h0
  · show Clean (ninit i st)
    unfold ninit
    split_ifs
    · exact ⟨rfl, rfl⟩
    · exact ⟨rfl, rfl⟩
    · exact ⟨rfl, rfl⟩
    · exact h
  · have hp : Clean (npredict i st) := ⟨h.1, constr_num (by simp [h.2, hs.growth]) _ _⟩
    exact nstepClear_clean i _ (nstepFlow_clean i hs _ (Or.inl (nstepRange_clean i hs _ hp)))

/-- a healing step makes the estimate numeric -/
theorem heals_clean (i : NIn) (hs : Sane i) (st : NSt) (h : Heals i st) : Clean (nrun i st) := by
  unfold nrun
  dsimp only
  rcases h with h | ⟨h1, h2, h3⟩ | ⟨h1, h2, h3, h4, h5⟩
  · rw [if_pos (Or.inr h)]
    unfold ninit
    rw [if_pos h]
    exact ⟨rfl, rfl⟩
  · by_cases ha : i.x.inAir = false
    · rw [if_pos (Or.inr ha)]
      unfold ninit
      rw [if_pos ha]
      exact ⟨rfl, rfl⟩
    · rw [if_neg (by rw [h1]; simpa using ha)]
      refine nstepClear_clean i _ (nstepFlow_clean i hs _ (Or.inr ?_))
      rw [nstepRange_ready]
      show (i.x.useFlow && st.flowReady) = true
      rw [h2, h3]; rfl
  · by_cases ha : i.x.inAir = false
    · rw [if_pos (Or.inr ha)]
      unfold ninit
      rw [if_pos ha]
      exact ⟨rfl, rfl⟩
    · rw [if_neg (by rw [h1]; simpa using ha)]
      refine nstepClear_clean i _ (nstepFlow_clean i hs _ (Or.inl ?_))
      unfold nstepRange
      rw [if_pos (by rw [h2, h3]; rfl), nfuseHagl_nan i (npredict i st) h4, if_pos (show isTimedOut i.x.now (npredict i st).tHagl 10000000 = true from h5)]
      exact ⟨rfl, rfl⟩

theorem runs_clean (es : List (NIn × Bool)) (hs : ∀ e ∈ es, Sane e.1) (st : NSt) (h : Clean st) : Clean (nruns st es) := by
  induction es generalizing st with
  | nil => exact h
  | cons e es ih =>
    obtain ⟨i, f⟩ := e
    exact ih (fun e he => hs e (List.mem_cons_of_mem _ he)) _ (step_clean i (hs (i, f) List.mem_cons_self) _ h)

/-- **C178 (healed).** Whatever the terrain estimate was, NaN included: after a step on ground, a step that uses a flow sample, or a step that uses a range sample 10 s after the last fusion while the position is
NaN, it consists of numbers, and does so after every further history with numeric inputs — NaN flow rates are allowed. -/
theorem nan_healed (i : NIn) (hs : Sane i) (st : NSt) (h : Heals i st) (es : List (NIn × Bool)) (hes : ∀ e ∈ es, Sane e.1) :
    Clean (nruns (nrun i st) es) := runs_clean es hes _ (heals_clean i hs st h)

/-- **C178 (NaN flow).** A flow sample whose rates are NaN is not fused in either axis: the time of the last flow fusion stays, the position is at most raised to the minimum clearance. -/
theorem nan_flow_ignored (i : NIn) (h : ∀ a, i.rate a = none) (st : NSt) :
    nfuseFlow i st = { st with vpos := fmax st.vpos (some (i.x.flow.gndClearance + i.x.s 9)), var := fmax st.var (some 0) } := by
  have ha : ∀ a w (q : NSt), nflowAxis i a w q = q := by
    intro a w q
    unfold nflowAxis
    dsimp only
    rw [if_neg (by rw [h a]; simp [ndiv_nan_l, nle_nan])]
  unfold nfuseFlow
  dsimp only
  rw [ha, ha]

/-- **C178 (finding).** In the air with a range finder and no flow: a NaN in the variance alone does not show in the innovation test; the first accepted range makes the position NaN and the variance zero, and
the estimate is declared valid.  During the following steps with ranges at most 10 s after it the position stays NaN, and the estimate valid until 5 s after it. -/
theorem nan_variance_published (i : NIn) (st : NSt) (hi : st.init = true) (ha : i.x.inAir = true) (hu : i.x.useRange = true) (hh : i.x.rngHealthy = true)
    (hfl : i.x.useFlow = false) (hn0 : i.x.rngNoise ≠ 0) (p : ℝ) (hp : st.vpos = some p) (hv : st.var = none ∨ i.growth = none)
    (hg : (p - i.x.s 9 - i.x.distBottom) ^ 2 ≤ max i.x.rngGate 1 ^ 2 * obsVar i.x) (hnow : i.x.now.toNat + 5000000 < 2 ^ 64) :
    let st' := nrun i st
    (st'.vpos = none ∧ st'.var = some 0 ∧ st'.valid = true ∧ st'.tHagl = i.x.now) ∧
    ∀ j : NIn, ∀ f : Bool, j.x.inAir = true → j.x.useRange = true → j.x.rngHealthy = true → j.x.useFlow = false → isTimedOut j.x.now i.x.now 10000000 = false →
      (nrun j { st' with flowReady := f }).vpos = none ∧ (isRecent j.x.now i.x.now 5000000 = true → (nrun j { st' with flowReady := f }).valid = true) := by
  have hn := obs_pos i.x hn0
  have hvar : (npredict i st).var = none := by
    show constr (add st.var i.growth) _ _ = none
    rcases hv with h | h <;> rw [h] <;> simp
  have hpp : (npredict i st).vpos = some p := hp
  have hg0 : 0 < max i.x.rngGate 1 ^ 2 * obsVar i.x := by
    have : (0 : ℝ) < max i.x.rngGate 1 := lt_of_lt_of_le one_pos (le_max_right _ _)
    positivity
  have hF : nfuseHagl i (npredict i st) = { npredict i st with vpos := none, var := some 0, tHagl := i.x.now } := by
    unfold nfuseHagl
    rw [hvar, hpp]
    have hS : fmax (add none (some (obsVar i.x))) (some (obsVar i.x)) = some (obsVar i.x) := by simp [fmax]
    dsimp only
    rw [hS]
    have hr : ndiv (mul (sub (sub (some p) (some (i.x.s 9))) (some i.x.distBottom)) (sub (sub (some p) (some (i.x.s 9))) (some i.x.distBottom)))
        (mul (some (max i.x.rngGate 1 ^ 2)) (some (obsVar i.x))) =
        some ((p - i.x.s 9 - i.x.distBottom) * (p - i.x.s 9 - i.x.distBottom) / (max i.x.rngGate 1 ^ 2 * obsVar i.x)) := ndiv_val _ hg0.ne'
    rw [if_pos (by
      rw [hr, nle_iff]
      show _ ≤ (1 : ℝ)
      rw [div_le_one hg0]
      linarith [hg])]
    simp [ndiv_nan_l, fmax]
  have step : ∀ (j : NIn) (q : NSt), j.x.inAir = true → j.x.useRange = true → j.x.rngHealthy = true → j.x.useFlow = false → q.init = true →
      nrun j q = (let r := nstepClear j (nfuseHagl j (npredict j q));
        { r with valid := r.init && (isRecent j.x.now r.tHagl 5000000 || isRecent j.x.now r.tFlow 5000000) }) := by
    intro j q h1 h2 h3 h4 h5
    unfold nrun
    dsimp only
    rw [if_neg (by rw [h1, h5]; decide)]
    unfold nstepFlow nstepRange
    rw [if_neg (by rw [h4]; simp), if_pos (by rw [h2, h3]; rfl)]
  have clear : ∀ (j : NIn) (q : NSt), q.vpos = none → nstepClear j q = q := by
    intro j q h
    unfold nstepClear
    rw [if_neg]
    rw [h, sub_nan_l, ngt_nan_r]
    decide
  have hrec : isRecent i.x.now i.x.now 5000000 = true := by
    rw [isRecent_iff, gt_iff_lt, UInt64.lt_iff_toNat_lt, UInt64.toNat_add]
    have : (5000000 : UInt64).toNat = 5000000 := rfl
    rw [this, Nat.mod_eq_of_lt (by omega)]
    omega
  have hE : nrun i st = { npredict i st with vpos := none, var := some 0, tHagl := i.x.now, valid := true } := by
    rw [step i st ha hu hh hfl hi, hF, clear i _ rfl]
    dsimp only
    rw [hrec]
    have : (npredict i st).init = true := hi
    rw [this]
    rfl
  intro st'
  have e : st' = { npredict i st with vpos := none, var := some 0, tHagl := i.x.now, valid := true } := hE
  refine ⟨by rw [e]; exact ⟨rfl, rfl, rfl, rfl⟩, ?_⟩
  intro j f h1 h2 h3 h4 h5
  have hq : ({ st' with flowReady := f } : NSt).init = true := by rw [e]; exact hi
  rw [step j _ h1 h2 h3 h4 hq]
  have hvn : (npredict j { st' with flowReady := f }).vpos = none := by rw [e]; rfl
  have htm : (npredict j { st' with flowReady := f }).tHagl = i.x.now := by rw [e]; rfl
  have hin : (npredict j { st' with flowReady := f }).init = true := hq
  rw [nfuseHagl_nan j _ hvn, htm, h5, if_neg (by decide), clear j _ hvn]
  dsimp only
  refine ⟨hvn, fun hr => ?_⟩
  rw [hin, htm, hr]
  rfl

/-! ## Concrete cases -/

/-- flying 3 m above the ground with the estimate at 3 m and a NaN velocity for one step: valid, and NaN -/
example (x : In) : ∃ (i : NIn) (st : NSt), st.vpos = some 3 ∧ st.var = some 1 ∧ i.growth = none ∧ (nrun i st).vpos = none ∧ (nrun i st).valid = true := by
  refine ⟨⟨{ x with now := 20000000, inAir := true, s := fun _ => 0, rngNoise := 1, useRange := true, rngHealthy := true, useFlow := false, distBottom := 3 }, none, fun _ => none,
    fun _ => 0, fun _ => 0⟩, ⟨some 3, some 1, 19000000, 0, true, true, false⟩, rfl, rfl, rfl, ?_⟩
  have h := nan_variance_published ⟨{ x with now := 20000000, inAir := true, s := fun _ => 0, rngNoise := 1, useRange := true, rngHealthy := true, useFlow := false, distBottom := 3 },
    none, fun _ => none, fun _ => 0, fun _ => 0⟩ ⟨some 3, some 1, 19000000, 0, true, true, false⟩ rfl rfl rfl rfl rfl one_ne_zero 3 rfl (Or.inr rfl) (by
      have := obs_pos { x with now := 20000000, inAir := true, s := fun _ => 0, rngNoise := 1, useRange := true, rngHealthy := true, useFlow := false, distBottom := 3 } one_ne_zero
      show (3 - (0 : ℝ) - 3) ^ 2 ≤ _
      have hz : ((3 : ℝ) - 0 - 3) ^ 2 = 0 := by norm_num
      rw [hz]
      exact mul_nonneg (sq_nonneg _) this.le) (by show (20000000 : UInt64).toNat + 5000000 < 2 ^ 64; decide)
  exact ⟨h.1.1, h.1.2.2.1⟩

/-- a NaN estimate heals with one range sample 11 s after the last fusion, with parameters in use -/
example (x : In) : ∃ (i : NIn) (st : NSt), Sane i ∧ st.vpos = none ∧ i.x.inAir = true ∧ Heals i st :=
  ⟨⟨{ x with now := 20000000, inAir := true, rngNoise := 1, useRange := true, rngHealthy := true, flow := { x.flow with gndClearance := 1 } }, some 0, fun _ => none, fun _ => 0, fun _ => 0⟩,
    ⟨none, none, 9000000, 0, true, true, false⟩, ⟨one_pos, one_ne_zero, rfl⟩, rfl, rfl,
    Or.inr (Or.inr ⟨rfl, rfl, rfl, rfl, by show isTimedOut 20000000 9000000 10000000 = true; decide⟩)⟩

end Ecl.Terrain.NaN
