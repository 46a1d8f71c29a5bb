import Verif.AlphaFilter.Model
import Mathlib.Algebra.BigOperators.Fin
import Mathlib.Analysis.SpecificLimits.Basic
import Mathlib.Tactic.Module

/-!
# Properties C04, C05 — `AlphaFilter`
-/

namespace Ecl.AlphaFilter

section general
variable {K V : Type*} [Field K] [LinearOrder K] [IsStrictOrderedRing K] [AddCommGroup V] [Module K V]

/-- Specification: response of a first-order low-pass with weight `a` and initial value `x0` to the inputs
`us` (oldest first): `(1-a)^n x0 + Σ a (1-a)^(n-1-k) u_k`. -/
def firstOrderResponse (a : K) (x0 : V) : List V → V
  | [] => x0
  | us@(_ :: _) => (1 - a) ^ us.length • x0 +
      ((List.range us.length).map fun k => (a * (1 - a) ^ (us.length - 1 - k)) • us.getD k 0).sum

theorem updates_alpha (f : Filter K V) (us : List V) : (f.updates us).alpha = f.alpha := by
  induction us generalizing f with
  | nil => rfl
  | cons u us ih => show ((f.update u).updates us).alpha = _; rw [ih]; rfl

theorem updates_append (f : Filter K V) (us : List V) (u : V) :
    f.updates (us ++ [u]) = (f.updates us).update u := by
  unfold Filter.updates; rw [List.foldl_append]; rfl

/-- **C04 (closed form).** After any finite input sequence the filter state is the first-order response. -/
theorem updates_closed_form (f : Filter K V) (us : List V) :
    (f.updates us).state = firstOrderResponse f.alpha f.state us := by
  induction us using List.reverseRecOn with
  | nil => rfl
  | append_singleton us u ih =>
    rw [updates_append]
    show (1 - (f.updates us).alpha) • (f.updates us).state + (f.updates us).alpha • u = _
    rw [updates_alpha, ih]
    have hne : us ++ [u] ≠ [] := by simp
    obtain ⟨v, vs, hv⟩ := List.exists_cons_of_ne_nil hne
    have e : firstOrderResponse f.alpha f.state (us ++ [u]) =
        (1 - f.alpha) ^ (us ++ [u]).length • f.state +
          ((List.range (us ++ [u]).length).map fun k =>
            (f.alpha * (1 - f.alpha) ^ ((us ++ [u]).length - 1 - k)) • (us ++ [u]).getD k 0).sum := by
      rw [hv]; rfl
    rw [e]
    simp only [List.length_append, List.length_singleton, List.range_succ, List.map_append, List.map_singleton,
      List.sum_append, List.sum_singleton, Nat.add_sub_cancel, Nat.sub_self, pow_zero, mul_one]
    have e2 : (us ++ [u]).getD us.length 0 = u := by simp
    have e3 : ((List.range us.length).map fun k =>
        (f.alpha * (1 - f.alpha) ^ (us.length - k)) • (us ++ [u]).getD k 0).sum =
        (1 - f.alpha) • ((List.range us.length).map fun k =>
        (f.alpha * (1 - f.alpha) ^ (us.length - 1 - k)) • us.getD k 0).sum := by
      rw [List.smul_sum, List.map_map]
      congr 1
      apply List.map_congr_left
      intro k hk
      rw [List.mem_range] at hk
      have h1 : (us ++ [u]).getD k 0 = us.getD k 0 := by
        simp [List.getD_eq_getElem?_getD, List.getElem?_append_left hk]
      have h2 : us.length - k = (us.length - 1 - k) + 1 := by omega
      simp only [Function.comp]
      rw [h1, smul_smul, h2, pow_succ]; congr 1; ring
    rw [e2, e3]
    cases us with
    | nil => simp [firstOrderResponse]
    | cons w ws =>
      simp only [firstOrderResponse, List.length_cons]
      rw [smul_add, smul_smul, ← add_assoc, pow_succ' (1 - f.alpha) (ws.length + 1)]

/-- **C04 (error contraction).** For a constant input `u` the error is multiplied by exactly `1 - a` per
update. -/
theorem updates_const_error (f : Filter K V) (u : V) (n : ℕ) :
    (f.updates (List.replicate n u)).state - u = (1 - f.alpha) ^ n • (f.state - u) := by
  induction n with
  | zero => simp [Filter.updates]
  | succ n ih =>
    rw [List.replicate_succ', updates_append]
    show (1 - (f.updates _).alpha) • (f.updates _).state + (f.updates _).alpha • u - u = _
    rw [updates_alpha, pow_succ', mul_smul, ← ih]
    module

/-- **C05.** For non-negative parameters, `setParameters` either leaves the filter unchanged (sum of the
parameters not above float epsilon) or sets exactly the weight `interval/(interval+constant)`, which is
in [0,1]; the filter state is never touched. -/
theorem setParameters_spec (f : Filter K V) (dt tau : K) (h1 : 0 ≤ dt) (h2 : 0 ≤ tau) :
    (dt + tau ≤ 1 / 2 ^ 23 → f.setParameters dt tau = f) ∧
    (1 / 2 ^ 23 < dt + tau →
      (f.setParameters dt tau).alpha = dt / (dt + tau) ∧ 0 ≤ (f.setParameters dt tau).alpha ∧
      (f.setParameters dt tau).alpha ≤ 1 ∧ (f.setParameters dt tau).state = f.state) := by
  unfold Filter.setParameters Filter.setAlpha fltEpsilon
  simp only
  rw [add_comm tau dt]
  constructor
  · intro h; rw [if_neg (not_lt.mpr h)]
  · intro h
    rw [if_pos h]
    have hp : 0 < dt + tau := lt_trans (by positivity) h
    refine ⟨rfl, div_nonneg h1 hp.le, (div_le_one hp).mpr (by linarith), rfl⟩

/-- **C05.** `setParameters` never divides by zero: whenever it divides, the denominator is positive. -/
theorem setParameters_no_div_zero (f : Filter K V) (dt tau : K) (h : f.setParameters dt tau ≠ f) :
    0 < tau + dt := by
  by_contra hc
  apply h
  unfold Filter.setParameters fltEpsilon
  simp only
  rw [if_neg]
  intro h'
  exact hc (lt_trans (by positivity) h')

end general

section scalar
variable {K : Type*} [Field K] [LinearOrder K] [IsStrictOrderedRing K]

/-- **C04 (hull).** With weight in [0,1] the state never leaves any interval that contains the initial
state and all inputs. -/
theorem updates_in_hull (f : Filter K K) (ha0 : 0 ≤ f.alpha) (ha1 : f.alpha ≤ 1) (lo hi : K) (us : List K)
    (hs : lo ≤ f.state ∧ f.state ≤ hi) (hu : ∀ u ∈ us, lo ≤ u ∧ u ≤ hi) :
    lo ≤ (f.updates us).state ∧ (f.updates us).state ≤ hi := by
  induction us generalizing f with
  | nil => exact hs
  | cons u us ih =>
    show lo ≤ ((f.update u).updates us).state ∧ _
    obtain ⟨hu1, hu2⟩ := hu u (by simp)
    refine ih (f.update u) ha0 ha1 ?_ (fun v hv => hu v (List.mem_cons_of_mem _ hv))
    show lo ≤ (1 - f.alpha) • f.state + f.alpha • u ∧ (1 - f.alpha) • f.state + f.alpha • u ≤ hi
    simp only [smul_eq_mul]
    have hb : 0 ≤ 1 - f.alpha := by linarith
    constructor <;> nlinarith [mul_le_mul_of_nonneg_left hs.1 hb, mul_le_mul_of_nonneg_left hs.2 hb,
      mul_le_mul_of_nonneg_left hu1 ha0, mul_le_mul_of_nonneg_left hu2 ha0]

end scalar

/-- **C04 (convergence).** For `0 < a ≤ 1` and constant input, the output converges to the input. -/
theorem updates_const_tendsto (f : Filter ℝ ℝ) (h0 : 0 < f.alpha) (h1 : f.alpha ≤ 1) (u : ℝ) :
    _root_.Filter.Tendsto (fun n => (f.updates (List.replicate n u)).state) _root_.Filter.atTop (nhds u) := by
  have h : (fun n => (f.updates (List.replicate n u)).state) =
      fun n => (1 - f.alpha) ^ n * (f.state - u) + u := by
    funext n
    have := updates_const_error f u n
    simp only [smul_eq_mul] at this
    linarith
  rw [h]
  have := ((tendsto_pow_atTop_nhds_zero_of_lt_one (r := 1 - f.alpha) (by linarith) (by linarith)).mul_const
    (f.state - u)).add_const u
  simpa using this

/-- **C04 (start-up).** A default-constructed filter that has not been given a smoothing factor ignores every sample: its output stays zero. -/
theorem unconfigured_ignores_samples {K V : Type*} [Field K] [LinearOrder K] [IsStrictOrderedRing K] [AddCommGroup V] [Module K V] (us : List V) : ((Filter.init : Filter K V).updates us).state = 0 := by
  induction us using List.reverseRecOn with
  | nil => rfl
  | append_singleton us u ih =>
    unfold Filter.updates at ih ⊢
    rw [List.foldl_append]
    have ha := updates_alpha (Filter.init : Filter K V) us
    unfold Filter.updates at ha
    simp only [List.foldl_cons, List.foldl_nil, Filter.update, ih, ha]
    simp [Filter.init]

/-- Non-vacuity: a concrete filter with weight 1/2 -/
example : ((⟨1/2, 0⟩ : Filter ℚ ℚ).updates [1, 1]).state = 3/4 := by
  norm_num [Filter.updates, Filter.update]

/-- Non-vacuity of C05: both branches occur. -/
example : ((⟨0, 0⟩ : Filter ℚ ℚ).setParameters 1 3).alpha = 1/4 ∧
    ((⟨1/7, 0⟩ : Filter ℚ ℚ).setParameters 0 0).alpha = 1/7 := by
  constructor <;> norm_num [Filter.setParameters, Filter.setAlpha, fltEpsilon]

end Ecl.AlphaFilter
