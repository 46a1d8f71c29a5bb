import Verif.Cov.Props2
import Verif.Cov.Init
import Verif.Cov.PredictProps
import Verif.Basic.RealTrig
import Verif.Utils.Model
import Mathlib.Analysis.SpecialFunctions.Complex.LogDeriv

/-!
# Scalar fusion core — EKF/ekf.h:721-747 (`measurementUpdate`), EKF/ekf_helper.cpp:983-994 (`fuse`)

The state is a vector of 24 reals in the order of EKF/common.h:378-387 (quaternion 0-3, velocity 4-6, position 7-9, delta
angle bias 10-12, delta velocity bias 13-15, earth field 16-18, body field 19-21, wind 22-23).
-/

namespace Ecl.Fusion

open Ecl.Cov

/-- state vector -/
abbrev Vec (K : Type*) := Fin N → K

section
variable {K : Type*} [Field K]

/-- `SparseVector24f<…>` as a dense vector: the listed elements, zero elsewhere -/
def sparse (l : List (Fin N × K)) : Vec K := fun i => (l.map fun p => if p.1 = i then p.2 else 0).sum

theorem sum_mul_sparse (y : Vec K) (l : List (Fin N × K)) :
    ∑ i, y i * sparse l i = (l.map fun p => y p.1 * p.2).sum := by
  induction l with
  | nil => simp [sparse]
  | cons p l ih =>
    have : ∀ i, y i * sparse (p :: l) i = y i * (if p.1 = i then p.2 else 0) + y i * sparse l i := by
      intro i; simp only [sparse, List.map_cons, List.sum_cons]; ring
    simp only [this, Finset.sum_add_distrib, ih, List.map_cons, List.sum_cons]
    congr 1
    simp

theorem sum_sparse_mul (y : Vec K) (l : List (Fin N × K)) :
    ∑ i, sparse l i * y i = (l.map fun p => y p.1 * p.2).sum := by
  rw [← sum_mul_sparse]; exact Finset.sum_congr rfl fun i _ => mul_comm _ _

theorem mulVec_sparse (P : Mat K) (l : List (Fin N × K)) (i : Fin N) :
    Spec.mulVec P (sparse l) i = (l.map fun p => P i p.1 * p.2).sum := sum_mul_sparse (fun j => P i j) l

theorem innovVar_sparse (P : Mat K) (l : List (Fin N × K)) (R : K) :
    Spec.innovVar P (sparse l) R = (l.map fun p => Spec.mulVec P (sparse l) p.1 * p.2).sum + R := by
  unfold Spec.innovVar
  rw [← sum_sparse_mul]
  congr 1
  unfold Spec.form Spec.mulVec
  refine Finset.sum_congr rfl fun i _ => ?_
  rw [Finset.mul_sum]
  exact Finset.sum_congr rfl fun j _ => by ring

end

/-- attitude part of the state vector -/
def attQuat {K : Type*} (s : Vec K) : Quat K := ⟨s 0, s 1, s 2, s 3⟩

/-- `h` is the gradient of `f` at `a`: the derivative of `f` in every direction `d` is `h · d` -/
def Spec.IsGradient (f : Vec ℝ → ℝ) (a h : Vec ℝ) : Prop :=
  ∀ d : Vec ℝ, HasDerivAt (fun t : ℝ => f (fun j => a j + t * d j)) (∑ j, h j * d j) 0

/-- derivative of a cubic from its values at -1, 0, 1 and a claimed derivative -/
theorem hasDerivAt_of_cubic {f : ℝ → ℝ} {b : ℝ}
    (h : ∀ t, f t = f 0 + b * t + ((f 1 + f (-1)) / 2 - f 0) * t ^ 2 + ((f 1 - f (-1)) / 2 - b) * t ^ 3) :
    HasDerivAt f b 0 := hasDerivAt_poly (f 0) ((f 1 + f (-1)) / 2 - f 0) ((f 1 - f (-1)) / 2 - b) h

/-- derivative of the two-argument arctangent off its branch cut -/
theorem hasDerivAt_atan2 {f g : ℝ → ℝ} {f' g' : ℝ} (hf : HasDerivAt f f' 0) (hg : HasDerivAt g g' 0)
    (h : 0 < f 0 ∨ g 0 ≠ 0) :
    HasDerivAt (fun t => atan2 (g t) (f t)) ((f 0 * g' - g 0 * f') / (f 0 ^ 2 + g 0 ^ 2)) 0 := by
  have hm : (⟨f 0, g 0⟩ : ℂ) ∈ Complex.slitPlane := by
    rw [Complex.mem_slitPlane_iff]; exact h
  have hne : (⟨f 0, g 0⟩ : ℂ) ≠ 0 := Complex.slitPlane_ne_zero hm
  have hz : HasDerivAt (fun t : ℝ => (⟨f t, g t⟩ : ℂ)) (⟨f', g'⟩ : ℂ) 0 := by
    have h1 : HasDerivAt (fun t : ℝ => ((f t : ℂ) + (g t : ℂ) * Complex.I)) ((f' : ℂ) + (g' : ℂ) * Complex.I) 0 :=
      hf.ofReal_comp.add (hg.ofReal_comp.mul_const Complex.I)
    have e1 : (fun t : ℝ => (⟨f t, g t⟩ : ℂ)) = fun t : ℝ => ((f t : ℂ) + (g t : ℂ) * Complex.I) := by
      funext t; exact (Complex.mk_eq_add_mul_I _ _)
    rw [e1, Complex.mk_eq_add_mul_I]; exact h1
  have hl := hz.clog_real hm
  have him : HasDerivAt (fun t : ℝ => (Complex.log (⟨f t, g t⟩ : ℂ)).im) ((⟨f', g'⟩ : ℂ) / ⟨f 0, g 0⟩).im 0 :=
    (Complex.imCLM.hasFDerivAt.comp_hasDerivAt (0 : ℝ) hl)
  have e2 : (fun t : ℝ => (Complex.log (⟨f t, g t⟩ : ℂ)).im) = fun t => atan2 (g t) (f t) := by
    funext t; rw [Complex.log_im]; rfl
  rw [e2] at him
  refine him.congr_deriv ?_
  rw [Complex.div_im]
  have hn : Complex.normSq (⟨f 0, g 0⟩ : ℂ) = f 0 ^ 2 + g 0 ^ 2 := by rw [Complex.normSq_mk]; ring
  rw [hn]
  simp only
  ring

/-- the part of the filter a scalar fusion changes -/
structure Filt where
  s : Vec ℝ
  /-- covariance and magnetometer covariance bookkeeping -/
  M : MagState ℝ
  /-- `_prev_dvel_bias_var` -/
  prevVar : Fin 3 → ℝ
  /-- `_time_acc_bias_check` -/
  timeCheck : UInt64
  /-- `_fault_status.flags.bad_acc_bias` -/
  badAccBias : Bool

/-- the covariance -/
abbrev Filt.P (f : Filt) : Mat ℝ := f.M.P

noncomputable section

/-- full covariance reset: `initialiseCovariance`, EKF/covariance.cpp:53-99 -/
def initCov (x : InitIn) (f : Filt) : Filt :=
  let r := initialiseCovariance { x with quat := attQuat f.s } f.M
  { f with M := r.1, prevVar := r.2 }

/-- `fuse`, EKF/ekf_helper.cpp:983-994; `normalize` divides by the Euclidean norm -/
def fuseState (s k : Vec ℝ) (innov : ℝ) : Vec ℝ :=
  let t : Vec ℝ := fun i => s i - k i * innov
  let n := Real.sqrt (t 0 ^ 2 + t 1 ^ 2 + t 2 ^ 2 + t 3 ^ 2)
  fun i => if i.val < 4 then t i / n else t i

/-- `measurementUpdate`, EKF/ekf.h:721-747, with the state correction: new filter, and whether the update was applied -/
def update (x : FixIn ℝ) (k h : Vec ℝ) (innov : ℝ) (f : Filt) : Filt × Bool :=
  match measurementUpdate x k h f.timeCheck f.badAccBias f.P with
  | (P, t, b, some k') => ({ f with s := fuseState f.s k' innov, M := { f.M with P := P }, timeCheck := t, badAccBias := b }, true)
  | (P, t, b, none) => ({ f with M := { f.M with P := P }, timeCheck := t, badAccBias := b }, false)

/-- gain of a Kalman update of the states selected by `sel`, other states not corrected -/
def Spec.gain (P : Mat ℝ) (h : Vec ℝ) (R : ℝ) (sel : Fin N → Prop) [DecidablePred sel] : Vec ℝ := fun i =>
  if sel i then Spec.mulVec P h i / Spec.innovVar P h R else 0

end

/-- a PSD covariance never fails the conditioning test -/
theorem innovVar_ge {P : Mat ℝ} (hP : Spec.PSD P) (h : Vec ℝ) (R : ℝ) : R ≤ Spec.innovVar P h R := by
  have := hP.nonneg h
  unfold Spec.innovVar; linarith

/-- the selected-state Kalman update of a valid covariance is always applied -/
theorem update_applied (x : FixIn ℝ) (h : Vec ℝ) (R : ℝ) (hR : 0 < R) (sel : Fin N → Prop) [DecidablePred sel] (innov : ℝ)
    (f : Filt) (hP : Spec.PSD f.P) :
    (update x (Spec.gain f.P h R sel) h innov f).2 = true ∧
    (update x (Spec.gain f.P h R sel) h innov f).1.s =
      fuseState f.s (fun i => if ∃ a : Fin 3, x.inhibit a = true ∧ i.val = 13 + a.val then 0
        else Spec.gain f.P h R sel i) innov := by
  have := optimal_gain_accepted x h R hR f.P hP (Spec.gain f.P h R sel)
    (fun i => by unfold Spec.gain; split <;> simp) f.timeCheck f.badAccBias
  unfold update
  split
  · rename_i heq
    rw [heq] at this
    simp only [Option.some.injEq] at this
    exact ⟨rfl, by rw [← this]⟩
  · rename_i heq
    rw [heq] at this
    cases this

theorem mapDiag_out {f w : ℕ} {g : ℝ → ℝ} {P : Mat ℝ} {i j : Fin N} (h : ¬ inBlk f w i) : mapDiag f w g P i j = P i j := by
  unfold mapDiag; rw [if_neg (fun hh => h hh.2)]

theorem makeSym_out {f w : ℕ} {P : Mat ℝ} {i j : Fin N} (h : ¬ inBlk f w i) (h' : ¬ inBlk f w j) : makeSym f w P i j = P i j := by
  unfold makeSym; rw [if_neg (fun hh => hh.2.elim h h')]

theorem uncorrSet_out {f w : ℕ} {v : Fin N → ℝ} {P : Mat ℝ} {i j : Fin N} (h : ¬ inBlk f w i) (h' : ¬ inBlk f w j) :
    uncorrSet f w v P i j = P i j := by
  unfold uncorrSet; rw [if_neg (fun hh => hh.elim h h')]

/-- with all accelerometer bias axes inhibited the limiter leaves their 3×3 block alone -/
theorem fix_acc_block (x : FixIn ℝ) (hx : ∀ a, x.inhibit a = true) (force : Bool) (t : UInt64) (fl : Bool) (P : Mat ℝ) (i j : Fin N)
    (hi : 13 ≤ i.val ∧ i.val < 16) (hj : 13 ≤ j.val ∧ j.val < 16) : (fixCovarianceErrors x force t fl P).1 i j = P i j := by
  unfold fixCovarianceErrors
  simp only [hx, Bool.not_true, Bool.or_self, Bool.false_eq_true, if_false]
  have o : ∀ f w : ℕ, (f + w ≤ 13 ∨ 16 ≤ f) → ∀ l : Fin N, 13 ≤ l.val ∧ l.val < 16 → ¬ inBlk f w l := by
    intro f w h l hl; unfold inBlk; omega
  have hk : fixKin force P i j = P i j := by
    have hm : mapDiag 10 3 (fun v => constrain v 0 1) (mapDiag 7 3 (fun v => constrain v (1 / 1000000) 1000000)
      (mapDiag 4 3 (fun v => constrain v (1 / 1000000) 1000000) (mapDiag 0 4 (fun v => constrain v 0 1) P))) i j = P i j := by
      rw [mapDiag_out (o _ _ (by omega) i hi), mapDiag_out (o _ _ (by omega) i hi), mapDiag_out (o _ _ (by omega) i hi),
        mapDiag_out (o _ _ (by omega) i hi)]
    cases force
    · exact hm
    · exact (makeSym_out (o 0 13 (by omega) i hi) (o 0 13 (by omega) j hj)).trans hm
  have hmag : ∀ Q : Mat ℝ, fixMag x.mag3D force Q i j = Q i j := by
    intro Q
    cases hm : x.mag3D
    · show uncorrSet 19 3 (fun _ => 0) (uncorrSet 16 3 (fun _ => 0) Q) i j = Q i j
      exact (uncorrSet_out (o 19 3 (by omega) i hi) (o 19 3 (by omega) j hj)).trans
        (uncorrSet_out (o 16 3 (by omega) i hi) (o 16 3 (by omega) j hj))
    · have h1 : mapDiag 19 3 (fun v => constrain v 0 1) (mapDiag 16 3 (fun v => constrain v 0 1) Q) i j = Q i j := by
        rw [mapDiag_out (o _ _ (by omega) i hi), mapDiag_out (o _ _ (by omega) i hi)]
      cases force
      · exact h1
      · exact ((makeSym_out (o 19 3 (by omega) i hi) (o 19 3 (by omega) j hj)).trans
          (makeSym_out (o 16 3 (by omega) i hi) (o 16 3 (by omega) j hj))).trans h1
  have hwind : ∀ Q : Mat ℝ, fixWind x.wind force Q i j = Q i j := by
    intro Q
    cases hm : x.wind
    · show uncorrSet 22 2 (fun _ => 0) Q i j = Q i j
      exact uncorrSet_out (o 22 2 (by omega) i hi) (o 22 2 (by omega) j hj)
    · have h1 : mapDiag 22 2 (fun v => constrain v 0 1000000) Q i j = Q i j := mapDiag_out (o 22 2 (by omega) i hi)
      cases force
      · exact h1
      · exact (makeSym_out (o 22 2 (by omega) i hi) (o 22 2 (by omega) j hj)).trans h1
  rw [hwind, hmag, hk]

/-- an update of a symmetric covariance, with any gain, leaves it symmetric -/
theorem update_sym (x : FixIn ℝ) (k h : Vec ℝ) (innov : ℝ) (f : Filt) (hs : ∀ i j, f.P i j = f.P j i) (i j : Fin N) :
    (update x k h innov f).1.P i j = (update x k h innov f).1.P j i := by
  have hup : (update x k h innov f).1.P = (measurementUpdate x k h f.timeCheck f.badAccBias f.P).1 := by
    unfold update
    split <;> rename_i heq <;> rw [heq]
  rw [hup]
  obtain ⟨h1, h2⟩ := measurementUpdate_spec x k h f.timeCheck f.badAccBias f.P
  by_cases hh : ∀ i : Fin N, (if ∃ a : Fin 3, x.inhibit a = true ∧ i.val = 13 + a.val then 0 else k i) * (∑ l, h l * f.P l i) ≤ f.P i i
  · rw [(h1 hh).2]
    by_cases hx : ∀ a, x.inhibit a = true
    · by_cases hi : 13 ≤ i.val ∧ i.val < 16
      · by_cases hj : 13 ≤ j.val ∧ j.val < 16
        · rw [fix_acc_block x hx _ _ _ _ i j hi hj, fix_acc_block x hx _ _ _ _ j i hj hi]
          have e : ∀ l : Fin N, 13 ≤ l.val ∧ l.val < 16 → (∃ a : Fin 3, x.inhibit a = true ∧ l.val = 13 + a.val) := by
            intro l hl; exact ⟨⟨l.val - 13, by omega⟩, hx _, by show l.val = 13 + (l.val - 13); omega⟩
          simp only [e i hi, e j hj, if_true, zero_mul, sub_zero]
          exact hs i j
        · exact fix_forces_symmetry x _ _ _ i j (Or.inr (Or.inr hj))
      · exact fix_forces_symmetry x _ _ _ i j (Or.inr (Or.inl hi))
    · push Not at hx
      obtain ⟨a, ha⟩ := hx
      exact fix_forces_symmetry x _ _ _ i j (Or.inl ⟨a, by simpa using ha⟩)
  · rw [h2 hh]
    simp only
    rw [hs i j]
    congr 1
    exact propext or_comm

/-- the state after an update: corrected by the masked gain if applied, unchanged otherwise -/
theorem update_state (x : FixIn ℝ) (k h : Vec ℝ) (innov : ℝ) (f : Filt) :
    ((update x k h innov f).2 = true ∧ (update x k h innov f).1.s =
      fuseState f.s (fun i => if ∃ a : Fin 3, x.inhibit a = true ∧ i.val = 13 + a.val then 0 else k i) innov) ∨
    ((update x k h innov f).2 = false ∧ (update x k h innov f).1.s = f.s) := by
  obtain ⟨h1, h2⟩ := measurementUpdate_spec x k h f.timeCheck f.badAccBias f.P
  unfold update
  split
  · rename_i P' t b k' heq
    left
    refine ⟨rfl, ?_⟩
    by_cases hh : ∀ i : Fin N, (if ∃ a : Fin 3, x.inhibit a = true ∧ i.val = 13 + a.val then 0 else k i) * (∑ l, h l * f.P l i) ≤ f.P i i
    · have := (h1 hh).1
      rw [heq] at this
      simp only [Option.some.injEq] at this
      simp only [this]
    · have := h2 hh
      rw [heq] at this
      simp at this
  · right; exact ⟨rfl, rfl⟩

/-- states with zero gain keep their value (the quaternion has unit norm) -/
theorem update_zero_gain (x : FixIn ℝ) (k h : Vec ℝ) (innov : ℝ) (f : Filt) (hq : (attQuat f.s).normSq = 1)
    (h4 : ∀ i : Fin N, i.val < 4 → k i = 0) (i : Fin N) (hi : k i = 0) : (update x k h innov f).1.s i = f.s i := by
  rcases update_state x k h innov f with ⟨-, h1⟩ | ⟨-, h1⟩
  · rw [h1]
    have hz : ∀ j : Fin N, k j = 0 → (if ∃ a : Fin 3, x.inhibit a = true ∧ j.val = 13 + a.val then (0 : ℝ) else k j) = 0 := by
      intro j hj; split
      · rfl
      · exact hj
    unfold fuseState
    simp only
    rw [hz i hi, hz 0 (h4 _ (by decide)), hz 1 (h4 _ (by decide)), hz 2 (h4 _ (by decide)), hz 3 (h4 _ (by decide))]
    simp only [zero_mul, sub_zero]
    have hn : f.s 0 ^ 2 + f.s 1 ^ 2 + f.s 2 ^ 2 + f.s 3 ^ 2 = 1 := by
      unfold attQuat Quat.normSq at hq
      simp only at hq
      rw [← hq]; ring
    rw [hn, Real.sqrt_one, div_one]
    split <;> rfl
  · rw [h1]

/-- the attitude quaternion has unit norm after every applied update (unless the corrected quaternion vanishes) -/
theorem fuseState_unit (s k : Vec ℝ) (v : ℝ) (h : ∃ i : Fin N, i.val < 4 ∧ s i - k i * v ≠ 0) :
    (attQuat (fuseState s k v)).normSq = 1 := by
  have key : ∀ a b c d : ℝ, (a ≠ 0 ∨ b ≠ 0 ∨ c ≠ 0 ∨ d ≠ 0) →
      a / Real.sqrt (a ^ 2 + b ^ 2 + c ^ 2 + d ^ 2) * (a / Real.sqrt (a ^ 2 + b ^ 2 + c ^ 2 + d ^ 2))
      + b / Real.sqrt (a ^ 2 + b ^ 2 + c ^ 2 + d ^ 2) * (b / Real.sqrt (a ^ 2 + b ^ 2 + c ^ 2 + d ^ 2))
      + c / Real.sqrt (a ^ 2 + b ^ 2 + c ^ 2 + d ^ 2) * (c / Real.sqrt (a ^ 2 + b ^ 2 + c ^ 2 + d ^ 2))
      + d / Real.sqrt (a ^ 2 + b ^ 2 + c ^ 2 + d ^ 2) * (d / Real.sqrt (a ^ 2 + b ^ 2 + c ^ 2 + d ^ 2)) = 1 := by
    intro a b c d h
    have hp : 0 < a ^ 2 + b ^ 2 + c ^ 2 + d ^ 2 := by
      rcases h with h | h | h | h <;> have := pow_pos (abs_pos.mpr h) 2 <;> rw [sq_abs] at this <;> nlinarith [sq_nonneg a, sq_nonneg b, sq_nonneg c, sq_nonneg d]
    have hs : Real.sqrt (a ^ 2 + b ^ 2 + c ^ 2 + d ^ 2) ^ 2 = a ^ 2 + b ^ 2 + c ^ 2 + d ^ 2 := Real.sq_sqrt hp.le
    have hn : Real.sqrt (a ^ 2 + b ^ 2 + c ^ 2 + d ^ 2) ≠ 0 := (Real.sqrt_pos.mpr hp).ne'
    have : ∀ x : ℝ, x / Real.sqrt (a ^ 2 + b ^ 2 + c ^ 2 + d ^ 2) * (x / Real.sqrt (a ^ 2 + b ^ 2 + c ^ 2 + d ^ 2))
        = x ^ 2 / (a ^ 2 + b ^ 2 + c ^ 2 + d ^ 2) := by
      intro x; rw [div_mul_div_comm, ← pow_two, ← pow_two, hs]
    rw [this, this, this, this, ← add_div, ← add_div, ← add_div, div_self hp.ne']
  refine key _ _ _ _ ?_
  obtain ⟨i, hi, hn⟩ := h
  have h4 : i = 0 ∨ i = 1 ∨ i = 2 ∨ i = 3 := by
    have : i.val = 0 ∨ i.val = 1 ∨ i.val = 2 ∨ i.val = 3 := by omega
    rcases this with h | h | h | h
    · exact Or.inl (Fin.ext h)
    · exact Or.inr (Or.inl (Fin.ext h))
    · exact Or.inr (Or.inr (Or.inl (Fin.ext h)))
    · exact Or.inr (Or.inr (Or.inr (Fin.ext h)))
  rcases h4 with h | h | h | h <;> subst h
  · exact Or.inl hn
  · exact Or.inr (Or.inl hn)
  · exact Or.inr (Or.inr (Or.inl hn))
  · exact Or.inr (Or.inr (Or.inr hn))

end Ecl.Fusion
