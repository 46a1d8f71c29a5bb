import Verif.Gsf.Ahrs

/-!
# Yaw estimator: all histories (C52, C53, C54, C104)
-/

namespace Ecl.Gsf

open Utils

/-- One model is healthy: valid covariance, yaw variance not below the floor. -/
structure Ok (m : Mdl) : Prop where
  psd : Cov.Spec.PSD m.P
  yawVar : (1 / 1000000 : ℝ) ≤ m.P 2 2

/-- Invariant of every history. -/
structure Inv (st : St) : Prop where
  ok : st.tilt = true → ∀ i, Ok (st.m i)
  wpos : st.tilt = true → ∀ i, (1 / 100000 : ℝ) ≤ st.w i
  wsum : st.tilt = true → ∑ i, st.w i = 1
  started : st.started = true → st.tilt = true

theorem sum5_eq (f : Fin 5 → ℝ) : sum5 f = ∑ i, f i := by
  rw [Fin.sum_univ_five]; rfl

theorem diag_psd (a b c : ℝ) (ha : 0 ≤ a) (hb : 0 ≤ b) (hc : 0 ≤ c) : Cov.Spec.PSD (![![a, 0, 0], ![0, b, 0], ![0, 0, c]] : C3) := by
  constructor
  · intro i j; fin_cases i <;> fin_cases j <;> rfl
  · intro x
    unfold Cov.Spec.form
    simp [Fin.sum_univ_three]
    nlinarith [mul_nonneg ha (sq_nonneg (x 0)), mul_nonneg hb (sq_nonneg (x 1)), mul_nonneg hc (sq_nonneg (x 2))]

theorem initBank_ok (st : St) (i : Fin 5) : Ok ((initBank st).m i) := by
  constructor
  · exact diag_psd _ _ _ (mul_self_nonneg _) (mul_self_nonneg _) (mul_self_nonneg _)
  · show (1 / 1000000 : ℝ) ≤ sq (0.5 * (2 * 3.14159265 / 5))
    unfold sq
    norm_num

theorem initBank_w (st : St) : (∀ i, (1 / 100000 : ℝ) ≤ (initBank st).w i) ∧ ∑ i, (initBank st).w i = 1 := by
  constructor
  · intro i
    show (1 / 100000 : ℝ) ≤ 1 / 5
    norm_num
  · rw [Fin.sum_univ_five]
    show (1 / 5 : ℝ) + 1 / 5 + 1 / 5 + 1 / 5 + 1 / 5 = 1
    norm_num

theorem predictEKF_ok (x : In) (acc : V3 ℝ) (b : Bool) (m : Mdl) (h : Ok m) : Ok (predictEKF x acc b m) := by
  unfold predictEKF
  by_cases hb : b = false
  · rw [if_pos hb]
    exact ⟨h.psd, h.yawVar⟩
  · rw [if_neg hb]
    have hp : ∀ psi a c q qz, 0 ≤ q → 0 ≤ qz → Cov.Spec.PSD (predictP m.P psi a c q qz) := by
      intro psi a c q qz hq hz
      have : predictP m.P psi a c q qz = Spec.predicted m.P a c psi q qz := by
        funext i j
        exact predictP_eq m.P h.psd.symm psi a c q qz i j
      rw [this]
      exact predicted_psd m.P h.psd a c psi q qz hq hz
    constructor
    · exact floorP_psd _ (hp _ _ _ _ _ (mul_self_nonneg _) (mul_self_nonneg _))
    · have e := (floorP_diag (predictP (ahrsPredict x acc m).P (yawOf (ahrsPredict x acc m).R)
        (dvNed x (ahrsPredict x acc m).R 0 * Real.cos (yawOf (ahrsPredict x acc m).R) + dvNed x (ahrsPredict x acc m).R 1 * Real.sin (yawOf (ahrsPredict x acc m).R))
        (-dvNed x (ahrsPredict x acc m).R 0 * Real.sin (yawOf (ahrsPredict x acc m).R) + dvNed x (ahrsPredict x acc m).R 1 * Real.cos (yawOf (ahrsPredict x acc m).R))
        (sq (2 * x.dVelDt)) (sq (0.1 * x.dAngDt))) 2).1
      have : (1 / 1000000 : ℝ) = 0.000001 := by norm_num
      rw [this]
      exact e

theorem updateEKF_ok (vel : Fin 2 → ℝ) (a : ℝ) (m : Mdl) (h : Ok m) : Ok (updateEKF vel a m).1 ∧ (updateEKF vel a m).2 = true := by
  obtain ⟨h1, -, -, -, -, h2, h3, -, -⟩ := update_spec vel a m h.psd
  exact ⟨⟨h2, (h3 2).1⟩, h1⟩

/-- raw weights are positive and, after an update, below 64 % of the previous ones -/
theorem raw_bounds (vel : Fin 2 → ℝ) (a : ℝ) (m : Mdl) (h : Ok m) (w : ℝ) (hw : 0 < w) :
    0 < density (updateEKF vel a m).1 * w ∧ density (updateEKF vel a m).1 * w ≤ 0.64 * w := by
  obtain ⟨-, h1, h2⟩ := density_spec vel a m h.psd
  exact ⟨mul_pos h1 hw, mul_le_mul_of_nonneg_right h2 hw.le⟩

theorem reweigh_inv (st : St) (hpos : ∀ i, 0 < st.w i) (hsum : ∑ i, st.w i = 1) (hd : ∀ i, 0 < density (st.m i) ∧ density (st.m i) ≤ 0.64)
    (hok : ∀ i, Ok (st.m i)) :
    (∀ i, Ok ((reweigh st).m i)) ∧ (∀ i, (1 / 100000 : ℝ) ≤ (reweigh st).w i) ∧ ∑ i, (reweigh st).w i = 1 := by
  unfold reweigh
  split
  · have hc : ∀ i, (1 / 100000 : ℝ) ≤ clipWeight st i ∧ clipWeight st i ≤ 1 / 100000 + 0.64 * st.w i := by
      intro i
      have h1 : 0 < rawWeight st i := mul_pos (hd i).1 (hpos i)
      have h2 : rawWeight st i ≤ 0.64 * st.w i := mul_le_mul_of_nonneg_right (hd i).2 (hpos i).le
      unfold clipWeight
      split
      · constructor <;> linarith
      · rename_i h
        rw [not_lt] at h
        constructor <;> linarith
    have hS : 0 < sum5 (clipWeight st) ∧ sum5 (clipWeight st) ≤ 1 := by
      rw [Fin.sum_univ_five] at hsum
      unfold sum5
      have a0 := hc 0
      have a1 := hc 1
      have a2 := hc 2
      have a3 := hc 3
      have a4 := hc 4
      constructor <;> linarith [a0.1, a0.2, a1.1, a1.2, a2.1, a2.2, a3.1, a3.2, a4.1, a4.2]
    refine ⟨hok, ?_, ?_⟩
    · intro i
      show _ ≤ clipWeight st i / sum5 (clipWeight st)
      rw [le_div_iff₀ hS.1]
      have := (hc i).1
      nlinarith [hS.2]
    · show ∑ i, clipWeight st i / sum5 (clipWeight st) = 1
      rw [← Finset.sum_div, ← sum5_eq]
      exact div_self hS.1.ne'
  · exact ⟨fun i => initBank_ok _ i, (initBank_w _).1, (initBank_w _).2⟩

theorem fuseAll_inv (st : St) (ht : st.tilt = true) (h : Inv st) :
    (∀ i, Ok ((fuseAll st).m i)) ∧ (∀ i, (1 / 100000 : ℝ) ≤ (fuseAll st).w i) ∧ ∑ i, (fuseAll st).w i = 1 ∧ (fuseAll st).tilt = true := by
  have hu := fun i => updateEKF_ok st.vel st.velAcc (st.m i) (h.ok ht i)
  have hw := h.wpos ht
  unfold fuseAll
  rw [if_neg]
  · obtain ⟨a, b, c⟩ := reweigh_inv { st with m := fun i => (updateEKF st.vel st.velAcc (st.m i)).1 }
      (fun i => lt_of_lt_of_le (by norm_num) (hw i)) (h.wsum ht)
      (fun i => ⟨(density_spec st.vel st.velAcc (st.m i) (h.ok ht i).psd).2.1, (density_spec st.vel st.velAcc (st.m i) (h.ok ht i).psd).2.2⟩)
      (fun i => (hu i).1)
    refine ⟨a, b, c, ?_⟩
    unfold reweigh
    split
    · exact ht
    · exact ht
  · rintro ⟨i, hi⟩
    rw [(hu i).2] at hi
    exact absurd hi (by decide)

theorem velStep_inv (x : In) (st : St) (ht : st.tilt = true) (h : Inv st) : Inv (velStep x st) := by
  unfold velStep
  split
  · split
    · have hw := initBank_w st
      refine ⟨fun _ i => ?_, fun _ => hw.1, fun _ => hw.2, fun _ => ht⟩
      have := initBank_ok st i
      exact ⟨this.psd, this.yawVar⟩
    · obtain ⟨a, b, c, d⟩ := fuseAll_inv st ht h
      exact ⟨fun _ => a, fun _ => b, fun _ => c, fun _ => d⟩
  · split
    · exact ⟨h.ok, h.wpos, h.wsum, fun _ => ht⟩
    · exact h

theorem update_inv (x : In) (st : St) (h : Inv st) : Inv (update x st) := by
  unfold update
  by_cases ht : st.tilt = false
  · rw [if_pos ht]
    unfold tryAlign
    split
    · have hw := initBank_w { st with acc := filtAcc x st.acc }
      refine ⟨fun _ i => ?_, fun _ => hw.1, fun _ => hw.2, fun _ => rfl⟩
      have := initBank_ok { st with acc := filtAcc x st.acc } i
      exact ⟨this.psd, this.yawVar⟩
    · exact ⟨h.ok, h.wpos, h.wsum, h.started⟩
  · rw [if_neg ht]
    have ht' : st.tilt = true := by simpa using ht
    have h1 : Inv { st with
        acc := filtAcc x st.acc
        m := fun i => predictEKF x (filtAcc x st.acc) st.started (st.m i) } :=
      ⟨fun _ i => predictEKF_ok _ _ _ _ (h.ok ht' i), h.wpos, h.wsum, h.started⟩
    have h2 := velStep_inv x { st with
        acc := filtAcc x st.acc
        m := fun i => predictEKF x (filtAcc x st.acc) st.started (st.m i) } ht' h1
    exact ⟨h2.ok, h2.wpos, h2.wsum, h2.started⟩

theorem step_inv (st : St) (c : Call) (h : Inv st) : Inv (step st c) := by
  cases c with
  | update x => exact update_inv x st h
  | setVelocity v a => exact ⟨h.ok, h.wpos, h.wsum, h.started⟩

theorem fresh_inv : Inv fresh :=
  ⟨fun h => absurd h Bool.false_ne_true, fun h => absurd h Bool.false_ne_true, fun h => absurd h Bool.false_ne_true, fun h => absurd h Bool.false_ne_true⟩

theorem run_inv (l : List Call) : Inv (run l) := by
  suffices ∀ st, Inv st → Inv (l.foldl step st) from this fresh fresh_inv
  induction l with
  | nil => exact fun _ h => h
  | cons c l ih => exact fun st h => ih _ (step_inv st c h)

/-! ## C52 -/

/-- **C52.** After every history of calls in which the tilt has been aligned (in particular whenever velocity fusion has started) the weights are at least
10⁻⁵ and sum to exactly one. -/
theorem weights_distribution (l : List Call) (h : (run l).tilt = true ∨ (run l).started = true) :
    (∀ i, (1 / 100000 : ℝ) ≤ (run l).w i) ∧ ∑ i, (run l).w i = 1 := by
  have hi := run_inv l
  have ht : (run l).tilt = true := h.elim id hi.started
  exact ⟨hi.wpos ht, hi.wsum ht⟩

/-- **C52.** A published yaw lies in (−π, π] and its variance is at least 10⁻⁶; it is the weighted mean of the model variances plus the spread. -/
theorem published (l : List Call) (y v : ℝ) (x : In) (h : getYawData (update x (run l)) = some (y, v)) :
    -Real.pi < y ∧ y ≤ Real.pi ∧ (1 / 1000000 : ℝ) ≤ v ∧
    v = ∑ i, (update x (run l)).w i * (((update x (run l)).m i).P 2 2 + wrapPi (((update x (run l)).m i).X 2 - y) ^ 2) ∧
    y = atan2 (∑ i, (update x (run l)).w i * Real.sin (((update x (run l)).m i).X 2)) (∑ i, (update x (run l)).w i * Real.cos (((update x (run l)).m i).X 2)) := by
  have hi := update_inv x _ (run_inv l)
  have hl := run_inv l
  unfold getYawData at h
  split at h
  · rename_i hs
    have hs' : (update x (run l)).started = true := by simpa using hs
    have ht := hi.started hs'
    have hy : (update x (run l)).yaw = y := by injection h with h; exact congrArg Prod.fst h
    have hv : (update x (run l)).yawVar = v := by injection h with h; exact congrArg Prod.snd h
    have ht0 : (run l).tilt = true := by
      by_contra hc
      have hc' : (run l).tilt = false := by simpa using hc
      have hst : (run l).started = false := by
        by_contra hq
        exact hc (hl.started (by simpa using hq))
      have : (update x (run l)).started = false := by
        unfold update
        rw [if_pos hc']
        unfold tryAlign
        split
        · rfl
        · exact hst
      rw [this] at hs'
      exact absurd hs' Bool.false_ne_true
    have hcomp : ∃ q : St, update x (run l) = { composite q with velUpd := false } := by
      unfold update
      rw [if_neg (by rw [ht0]; decide)]
      exact ⟨_, rfl⟩
    obtain ⟨q, hq⟩ := hcomp
    have hyq : y = atan2 (sum5 fun i => q.w i * Real.sin ((q.m i).X 2)) (sum5 fun i => q.w i * Real.cos ((q.m i).X 2)) := by
      rw [← hy, hq]; rfl
    have hvq : v = sum5 fun i => q.w i * ((q.m i).P 2 2 + wrapPi ((q.m i).X 2 - y) * wrapPi ((q.m i).X 2 - y)) := by
      rw [← hv, hyq, hq]; rfl
    have hw := hi.wpos ht
    have hsum := hi.wsum ht
    have hok := hi.ok ht
    rw [hq] at hw hsum hok ⊢
    have hmem := atan2_mem (sum5 fun i => q.w i * Real.sin ((q.m i).X 2)) (sum5 fun i => q.w i * Real.cos ((q.m i).X 2))
    rw [← hyq] at hmem
    rw [sum5_eq] at hvq
    refine ⟨hmem.1, hmem.2, ?_, ?_, ?_⟩
    · rw [hvq]
      have : ∀ i, q.w i * (1 / 1000000 : ℝ) ≤ q.w i * ((q.m i).P 2 2 + wrapPi ((q.m i).X 2 - y) * wrapPi ((q.m i).X 2 - y)) := by
        intro i
        have h1 : (1 / 100000 : ℝ) ≤ q.w i := hw i
        have h2 : (1 / 1000000 : ℝ) ≤ (q.m i).P 2 2 := (hok i).yawVar
        exact mul_le_mul_of_nonneg_left (by nlinarith [mul_self_nonneg (wrapPi ((q.m i).X 2 - y))]) (by linarith)
      calc (1 / 1000000 : ℝ) = (∑ i, q.w i) * (1 / 1000000 : ℝ) := by rw [show ∑ i, q.w i = 1 from hsum, one_mul]
        _ = ∑ i, q.w i * (1 / 1000000 : ℝ) := by rw [Finset.sum_mul]
        _ ≤ _ := Finset.sum_le_sum fun i _ => this i
    · rw [hvq]
      exact Finset.sum_congr rfl fun i _ => by rw [pow_two]; rfl
    · rw [hyq, sum5_eq, sum5_eq]; rfl
  · exact absurd h (by simp)

/-- the state in which the velocity fusion of a call happens: all models predicted -/
noncomputable def predictedBank (x : In) (st : St) : Fin 5 → Mdl := fun i => predictEKF x (filtAcc x st.acc) st.started (st.m i)

theorem update_tilt (x : In) (st : St) (ht : st.tilt = true) :
    update x st = { composite (velStep x { st with
      acc := filtAcc x st.acc
      m := predictedBank x st }) with velUpd := false } := by
  unfold update
  rw [if_neg (by rw [ht]; decide)]
  rfl

theorem update_start (x : In) (st : St) (ht : st.tilt = true) (hr : x.run = true) (hv : st.velUpd = true) (hs : st.started = false) :
    update x st = { composite (start x { st with
      acc := filtAcc x st.acc
      m := predictedBank x st }) with velUpd := false } := by
  rw [update_tilt x st ht]
  unfold velStep
  rw [if_pos ⟨hr, hv⟩, if_pos hs]

/-- models after the fusion of the stored velocity -/
noncomputable def fusedBank (x : In) (st : St) : Fin 5 → Mdl := fun i => (updateEKF st.vel st.velAcc (predictedBank x st i)).1

theorem update_fuse (x : In) (l : List Call) (hs : (run l).started = true) (hr : x.run = true) (hv : (run l).velUpd = true) :
    update x (run l) = { composite (reweigh { run l with
      acc := filtAcc x (run l).acc
      m := fusedBank x (run l) }) with velUpd := false } := by
  have hi := run_inv l
  have ht := hi.started hs
  unfold update
  rw [if_neg (by rw [ht]; decide)]
  show { composite (velStep x _) with velUpd := false } = _
  congr 1
  unfold velStep
  rw [if_pos ⟨hr, hv⟩, if_neg (by rw [hs]; decide)]
  unfold fuseAll
  rw [if_neg]
  · rfl
  · rintro ⟨i, hi'⟩
    have := (updateEKF_ok (run l).vel (run l).velAcc (predictedBank x (run l) i) (predictEKF_ok _ _ _ _ (hi.ok ht i))).2
    exact absurd (Eq.trans (Eq.symm hi') this) Bool.false_ne_true

/-- **C52.** Bayes' rule: in every reachable state, fusing a velocity multiplies every weight with the likelihood of its model and renormalises, as long as no
product falls below 10⁻⁵. -/
theorem bayes (x : In) (l : List Call) (hs : (run l).started = true) (hr : x.run = true) (hv : (run l).velUpd = true)
    (hc : ∀ i, 0.00001 ≤ density (fusedBank x (run l) i) * (run l).w i) (i : Fin 5) :
    (update x (run l)).w i = density (fusedBank x (run l) i) * (run l).w i / ∑ j, density (fusedBank x (run l) j) * (run l).w j := by
  rw [update_fuse x l hs hr hv]
  show (reweigh _).w i = _
  unfold reweigh
  have hc' : ∀ j, ¬ rawWeight { run l with
      acc := filtAcc x (run l).acc
      m := fusedBank x (run l) } j < 0.00001 := fun j => not_lt.mpr (hc j)
  rw [if_pos ⟨0, hc' 0⟩]
  show clipWeight _ i / sum5 (clipWeight _) = _
  have e : clipWeight { run l with
      acc := filtAcc x (run l).acc
      m := fusedBank x (run l) } = fun j => density (fusedBank x (run l) j) * (run l).w j := by
    funext j
    unfold clipWeight
    rw [if_neg (hc' j)]
    rfl
  rw [e, sum5_eq]

/-- **C52.** With clipping: a product below 10⁻⁵ is replaced by 10⁻⁵ before the normalisation, if at least one is not below. -/
theorem bayes_clipped (x : In) (l : List Call) (hs : (run l).started = true) (hr : x.run = true) (hv : (run l).velUpd = true)
    (hc : ∃ i, 0.00001 ≤ density (fusedBank x (run l) i) * (run l).w i) (i : Fin 5) :
    (update x (run l)).w i = max (density (fusedBank x (run l) i) * (run l).w i) 0.00001 / ∑ j, max (density (fusedBank x (run l) j) * (run l).w j) 0.00001 ∧
    (update x (run l)).started = true := by
  rw [update_fuse x l hs hr hv]
  show (reweigh _).w i = _ ∧ (reweigh _).started = true
  unfold reweigh
  rw [if_pos (by obtain ⟨j, hj⟩ := hc; exact ⟨j, not_lt.mpr hj⟩)]
  refine ⟨?_, hs⟩
  show clipWeight _ i / sum5 (clipWeight _) = _
  have e : clipWeight { run l with
      acc := filtAcc x (run l).acc
      m := fusedBank x (run l) } = fun j => max (density (fusedBank x (run l) j) * (run l).w j) 0.00001 := by
    funext j
    unfold clipWeight
    split
    · rename_i h
      exact (max_eq_right (le_of_lt h)).symm
    · rename_i h
      exact (max_eq_left (not_lt.mp h)).symm
  rw [e, sum5_eq]

/-- **C52.** Collapse: if every product is below 10⁻⁵ the bank is re-initialised — equal weights, velocities as measured, yaws back on the grid — and nothing is
published until fusion restarts. -/
theorem collapse (x : In) (l : List Call) (hs : (run l).started = true) (hr : x.run = true) (hv : (run l).velUpd = true)
    (hc : ∀ i, density (fusedBank x (run l) i) * (run l).w i < 0.00001) :
    getYawData (update x (run l)) = none ∧
    ∀ i, (update x (run l)).w i = 1 / 5 ∧ ((update x (run l)).m i).X = ![(run l).vel 0, (run l).vel 1, -3.14159265 + (2 * i.val + 1) * (3.14159265 / 5)] := by
  rw [update_fuse x l hs hr hv]
  have e : ¬ ∃ i, ¬ rawWeight { run l with
      acc := filtAcc x (run l).acc
      m := fusedBank x (run l) } i < 0.00001 := by
    rintro ⟨i, hi⟩
    exact hi (hc i)
  unfold reweigh
  rw [if_neg e]
  refine ⟨rfl, fun i => ⟨rfl, ?_⟩⟩
  show ![_, _, _] = _
  congr 2
  congr 1
  ring

/-- **C52.** When is a yaw published: it starts with a fused velocity while running and tilt aligned, and stops when not running or after a collapse. -/
theorem availability (x : In) (l : List Call) :
    let a := (getYawData (run l)).isSome
    let b := (getYawData (update x (run l))).isSome
    (b = true → a = false → (run l).tilt = true ∧ x.run = true ∧ (run l).velUpd = true) ∧
    ((run l).tilt = true → x.run = true → (run l).velUpd = true → a = false → b = true) ∧
    (x.run = false → b = false) ∧
    (a = true → x.run = true → (run l).velUpd = false → b = true) := by
  have hi := run_inv l
  have ga : (getYawData (run l)).isSome = (run l).started := by unfold getYawData; split <;> simp_all
  have gb : (getYawData (update x (run l))).isSome = (update x (run l)).started := by unfold getYawData; split <;> simp_all
  intro a b
  rw [show a = _ from ga, show b = _ from gb]
  by_cases ht : (run l).tilt = false
  · have hst : (run l).started = false := by
      by_contra hq
      have := hi.started (by simpa using hq)
      rw [ht] at this
      exact absurd this Bool.false_ne_true
    have hu : (update x (run l)).started = false := by
      unfold update
      rw [if_pos ht]
      unfold tryAlign
      split
      · rfl
      · exact hst
    rw [hu, hst, ht]
    simp
  · have ht' : (run l).tilt = true := by simpa using ht
    have hu : (update x (run l)).started = (velStep x { run l with
        acc := filtAcc x (run l).acc
        m := predictedBank x (run l) }).started := by
      unfold update
      rw [if_neg ht]
      rfl
    rw [hu, ht']
    unfold velStep
    by_cases hc : x.run = true ∧ (run l).velUpd = true
    · rw [if_pos hc]
      by_cases hs : (run l).started = false
      · rw [if_pos hs, hc.1, hc.2, hs]
        simp [start]
      · have hs' : (run l).started = true := by simpa using hs
        rw [hc.1, hc.2, hs']
        simp
    · rw [if_neg hc]
      by_cases hs : (run l).started = true ∧ x.run = false
      · rw [if_pos hs, hs.1, hs.2]
        simp
      · rw [if_neg hs]
        show ((run l).started = true → (run l).started = false → _) ∧ _ ∧ (_ → (run l).started = false) ∧ (_ → _ → _ → (run l).started = true)
        refine ⟨fun h1 h2 => absurd (h1.symm.trans h2) (by decide), fun _ h1 h2 => absurd ⟨h1, h2⟩ hc, fun h => ?_, fun h _ _ => h⟩
        by_contra hq
        exact hs ⟨by simpa using hq, h⟩

/-- **C52.** Directly after fusion has started the published variance is above 0.39 rad² (half the spacing of the bank, squared): a yaw that has seen no velocity
innovation can never pass the accuracy limit (0.262 rad)² of the emergency yaw reset. -/
theorem start_variance (x : In) (l : List Call) (y v : ℝ) (h0 : getYawData (run l) = none) (h : getYawData (update x (run l)) = some (y, v)) : 0.39 < v := by
  obtain ⟨-, -, -, hv, -⟩ := published l y v x h
  have ha := (availability x l).1 (by rw [h]; rfl) (by rw [h0]; rfl)
  obtain ⟨ht, hr, hvu⟩ := ha
  have hst : (run l).started = false := by
    unfold getYawData at h0
    by_contra hq
    rw [if_pos (by simpa using hq)] at h0
    exact absurd h0 (by simp)
  have hm : ∀ i, ((update x (run l)).m i).P 2 2 = sq (0.5 * (2 * 3.14159265 / 5)) ∧ (update x (run l)).w i = 1 / 5 := by
    intro i
    rw [update_start x _ ht hr hvu hst]
    exact ⟨rfl, rfl⟩
  rw [hv, Fin.sum_univ_five]
  simp only [hm]
  unfold sq
  nlinarith [sq_nonneg (wrapPi (((update x (run l)).m 0).X 2 - y)), sq_nonneg (wrapPi (((update x (run l)).m 1).X 2 - y)),
    sq_nonneg (wrapPi (((update x (run l)).m 2).X 2 - y)), sq_nonneg (wrapPi (((update x (run l)).m 3).X 2 - y)),
    sq_nonneg (wrapPi (((update x (run l)).m 4).X 2 - y))]

/-- **C53.** In every reachable state every model covariance is symmetric positive semi-definite, so no fusion is ever skipped. -/
theorem covariance_valid (l : List Call) (h : (run l).tilt = true) (i : Fin 5) :
    Cov.Spec.PSD ((run l).m i).P ∧ (1 / 1000000 : ℝ) ≤ ((run l).m i).P 2 2 ∧
    ∀ vel acc, (updateEKF vel acc ((run l).m i)).2 = true := by
  have hi := (run_inv l).ok h i
  exact ⟨hi.psd, hi.yawVar, fun vel acc => (updateEKF_ok vel acc _ hi).2⟩

/-! ## C54: biases -/

theorem update_bias (x : In) (st : St) (hx : ∀ i, |x.bias i| ≤ 0.05) (h : ∀ k i, |(st.m k).bias i| ≤ 0.05) (k : Fin 5) (i : Fin 3) :
    |((update x st).m k).bias i| ≤ 0.05 := by
  have hp : ∀ acc b m, (∀ i, |m.bias i| ≤ 0.05) → ∀ i, |(predictEKF x acc b m).bias i| ≤ 0.05 := by
    intro acc b m hm i
    have := (newBias_range x acc m).2.2 hm i
    unfold predictEKF
    by_cases hb : b = false
    · rw [if_pos hb]; exact this
    · rw [if_neg hb]; exact this
  have hup : ∀ vel a m, (updateEKF vel a m).1.bias = m.bias := by
    intro vel a m
    unfold updateEKF
    by_cases hc : |detS m.P (obsVar a)| < 0.000001
    · rw [if_pos hc]
    · rw [if_neg hc]
  have hini : ∀ s : St, ((initBank s).m k).bias = (s.m k).bias := fun _ => rfl
  have hfuse : ∀ s : St, ((fuseAll s).m k).bias = (s.m k).bias := by
    intro s
    have e : ((fuseAll s).m k).bias = (updateEKF s.vel s.velAcc (s.m k)).1.bias := by
      unfold fuseAll
      by_cases hc : ∃ i, (updateEKF s.vel s.velAcc (s.m i)).2 = false
      · rw [if_pos hc]
      · rw [if_neg hc]
        unfold reweigh
        split
        · rfl
        · rfl
    rw [e, hup]
  unfold update
  by_cases ht : st.tilt = false
  · rw [if_pos ht]
    unfold tryAlign
    split
    · exact h k i
    · exact h k i
  · rw [if_neg ht]
    show |((velStep x _).m k).bias i| ≤ 0.05
    unfold velStep
    split
    · split
      · exact hx i
      · rw [hfuse]
        exact hp _ _ _ (h k) i
    · split
      · exact hp _ _ _ (h k) i
      · exact hp _ _ _ (h k) i

/-- the gyro biases handed in by a history are within ±0.05 rad/s -/
def Spec.smallBias : Call → Prop
  | .update x => ∀ i, |x.bias i| ≤ 0.05
  | .setVelocity _ _ => True

/-- **C54.** In every history in which the main filter's gyro bias estimates are within ±0.05 rad/s, so are those of all models. -/
theorem bias_bounded (l : List Call) (h : ∀ c ∈ l, Spec.smallBias c) (k : Fin 5) (i : Fin 3) : |((run l).m k).bias i| ≤ 0.05 := by
  suffices ∀ st : St, (∀ k i, |(st.m k).bias i| ≤ 0.05) → ∀ k i, |((l.foldl step st).m k).bias i| ≤ 0.05 from
    this fresh (fun k i => by show |(0 : ℝ)| ≤ 0.05; norm_num) k i
  induction l with
  | nil => exact fun _ h => h
  | cons c l ih =>
    intro st hst
    refine ih (fun c hc => h c (List.mem_cons_of_mem _ hc)) _ ?_
    cases c with
    | update x => exact fun k i => update_bias x st (h _ List.mem_cons_self) hst k i
    | setVelocity v a => exact hst

/-- level, still vehicle; used to show that the hypotheses can be met -/
noncomputable def sample (b : ℝ) (r : Bool) : In := ⟨fun _ => 0, ![0, 0, -0.0980665], 0.01, 0.01, r, 0, fun _ => b⟩

/-- a new estimator aligns on the first sample near 1 g -/
theorem aligns (b : ℝ) : (run [.update (sample b false)]).tilt = true ∧ (run [.update (sample b false)]).started = false := by
  show (update (sample b false) fresh).tilt = true ∧ (update (sample b false) fresh).started = false
  have e : update (sample b false) fresh = tryAlign (sample b false) { fresh with acc := filtAcc (sample b false) fresh.acc } := by
    unfold update
    exact if_pos rfl
  rw [e]
  unfold tryAlign
  have hn : nsq (accel (sample b false)) = 9.80665 * 9.80665 := by
    unfold nsq accel sample
    simp only [Matrix.cons_val_zero, Matrix.cons_val_one, Matrix.cons_val]
    rw [max_eq_left (by norm_num)]
    norm_num
  rw [if_pos]
  · exact ⟨rfl, rfl⟩
  · rw [hn]
    unfold sq
    constructor <;> norm_num

/-- **C54 (finding).** The limit does not hold in general: the bias of the main filter is copied without a limit when fusion starts, and the models keep it as long
as the vehicle turns faster than 0.175 rad/s (measured with that bias removed). -/
theorem bias_copied_unlimited (b : ℝ) :
    let l := [Call.update (sample b false), Call.setVelocity (fun _ => 0) 0.5, Call.update (sample b true)]
    (getYawData (run l)).isSome = true ∧ (∀ k i, ((run l).m k).bias i = b) ∧
    ∀ x : In, x.run = true → ¬ norm3 (fun i => x.dAng i / max x.dAngDt 0.001 - b) < 0.175 → ∀ k i, ((update x (run l)).m k).bias i = b := by
  intro l
  have ha := aligns b
  let l2 := [Call.update (sample b false), Call.setVelocity (fun _ => 0) 0.5]
  have ht2 : (run l2).tilt = true := ha.1
  have hs2 : (run l2).started = false := ha.2
  have hv2 : (run l2).velUpd = true := rfl
  have hl : run l = update (sample b true) (run l2) := rfl
  have hbias : ∀ k i, ((run l).m k).bias i = b := by
    intro k i
    rw [hl, update_start _ _ ht2 rfl hv2 hs2]
    rfl
  have hsome : (getYawData (run l)).isSome = true := by
    rw [hl]
    refine (availability (sample b true) l2).2.1 ht2 rfl hv2 ?_
    unfold getYawData
    rw [if_neg (by rw [hs2]; decide)]
    rfl
  refine ⟨hsome, hbias, ?_⟩
  have hst : (run l).started = true := by
    unfold getYawData at hsome
    by_contra hq
    rw [if_neg (by simpa using hq)] at hsome
    exact absurd hsome Bool.false_ne_true
  have htl : (run l).tilt = true := (run_inv l).started hst
  have hvl : (run l).velUpd = false := by
    rw [hl]
    unfold update
    rw [if_neg (by rw [ht2]; decide)]
  intro x hr hx k i
  have hb : newBias x (filtAcc x (run l).acc) ((run l).m k) = ((run l).m k).bias := by
    refine (newBias_range x _ _).2.1 ?_
    have : angRate x ((run l).m k) = fun i => x.dAng i / max x.dAngDt 0.001 - b := by
      funext i
      unfold angRate
      rw [hbias]
    rw [this]
    exact hx
  have : ((update x (run l)).m k).bias = newBias x (filtAcc x (run l).acc) ((run l).m k) := by
    unfold update
    rw [if_neg (by rw [htl]; decide)]
    show ((velStep x _).m k).bias = _
    unfold velStep
    rw [if_neg (by rintro ⟨-, h⟩; rw [show _ = true from h] at hvl; exact absurd hvl (by decide)), if_neg (by rintro ⟨-, h⟩; rw [hr] at h; exact absurd h (by decide))]
    show (predictEKF x _ (run l).started ((run l).m k)).bias = _
    unfold predictEKF
    rw [if_neg (by rw [hst]; decide)]
    rfl
  rw [this, hb, hbias]

/-! ## C104 -/

/-- **C104.** The bank covers the circle: every heading is within 0.6284 rad (36°, half the spacing and one initial standard deviation) of the initial yaw of some model. -/
theorem bank_covers (st : St) (psi : ℝ) (h1 : -Real.pi ≤ psi) (h2 : psi ≤ Real.pi) :
    (∀ i : Fin 5, ((initBank st).m i).X 2 = -3.14159265 + (2 * i.val + 1) * (3.14159265 / 5) ∧ ((initBank st).m i).P 2 2 = (3.14159265 / 5) ^ 2) ∧
    ∃ i : Fin 5, |psi - ((initBank st).m i).X 2| ≤ 0.6284 := by
  have hx : ∀ i : Fin 5, ((initBank st).m i).X 2 = -3.14159265 + (2 * i.val + 1) * (3.14159265 / 5) ∧ ((initBank st).m i).P 2 2 = (3.14159265 / 5) ^ 2 := by
    intro i
    constructor
    · show -3.14159265 + 0.5 * (2 * 3.14159265 / 5) + (i.val : ℝ) * (2 * 3.14159265 / 5) = _
      ring
    · show sq (0.5 * (2 * 3.14159265 / 5)) = _
      unfold sq
      ring
  refine ⟨hx, ?_⟩
  have p1 := Real.pi_lt_d6
  by_cases a1 : psi ≤ -1.8849
  · exact ⟨0, by rw [(hx 0).1, abs_le]; constructor <;> norm_num <;> linarith⟩
  by_cases a2 : psi ≤ -0.6283
  · exact ⟨1, by rw [(hx 1).1, abs_le]; constructor <;> norm_num <;> linarith⟩
  by_cases a3 : psi ≤ 0.6283
  · exact ⟨2, by rw [(hx 2).1, abs_le]; constructor <;> norm_num <;> linarith⟩
  by_cases a4 : psi ≤ 1.8849
  · exact ⟨3, by rw [(hx 3).1, abs_le]; constructor <;> norm_num <;> linarith⟩
  · exact ⟨4, by rw [(hx 4).1, abs_le]; constructor <;> norm_num <;> linarith⟩

/-- **C104.** When fusion starts, every model that holds a proper rotation keeps its tilt and gets a proper rotation with its own heading of the grid; velocity
states are the measured velocity. -/
theorem start_attitudes (x : In) (st : St) (i : Fin 5) (h : IsRotation (st.m i).R) :
    let psi : ℝ := -3.14159265 + (2 * i.val + 1) * (3.14159265 / 5)
    let m := (start x st).m i
    IsRotation m.R ∧ tiltRow m.R = tiltRow (st.m i).R ∧
    (shouldUse321 (st.m i).R → getEuler321Yaw m.R = psi) ∧ (¬ shouldUse321 (st.m i).R → getEuler312Yaw m.R = psi) ∧
    m.X = ![st.vel 0, st.vel 1, psi] := by
  intro psi m
  have hx := (bank_covers st 0 (by linarith [Real.pi_pos]) Real.pi_pos.le).1 i
  have hi : (i.val : ℝ) ≤ 4 := by
    have : i.val ≤ 4 := by omega
    exact_mod_cast this
  have hi0 : (0 : ℝ) ≤ i.val := Nat.cast_nonneg _
  have hp := Real.pi_gt_d6
  have hmem : -Real.pi < psi ∧ psi < Real.pi := by
    show -Real.pi < -3.14159265 + (2 * (i.val : ℝ) + 1) * (3.14159265 / 5) ∧ -3.14159265 + (2 * (i.val : ℝ) + 1) * (3.14159265 / 5) < Real.pi
    constructor <;> nlinarith
  have hR : m.R = updateYawInRotMat psi (st.m i).R := by
    show updateYawInRotMat (wrapPi (((initBank st).m i).X 2)) (st.m i).R = _
    rw [hx.1, wrapPi_of_mem ⟨hmem.1.le, hmem.2⟩]
  rw [hR]
  obtain ⟨a, b, c, d⟩ := updateYaw_spec psi ⟨hmem.1, hmem.2.le⟩ _ h
  refine ⟨a, b, c, d, ?_⟩
  show ![st.vel 0, st.vel 1, _] = _
  congr 3
  show -3.14159265 + 0.5 * (2 * 3.14159265 / 5) + (i.val : ℝ) * (2 * 3.14159265 / 5) = -3.14159265 + (2 * (i.val : ℝ) + 1) * (3.14159265 / 5)
  ring

/-- **C104.** If all models agree on the heading, the published yaw is that heading and the published variance the mean of the model variances. -/
theorem consensus (st : St) (hw : ∑ i, st.w i = 1) (psi : ℝ) (hm : -Real.pi < psi ∧ psi ≤ Real.pi) (h : ∀ i, (st.m i).X 2 = psi) :
    (composite st).yaw = psi ∧ (composite st).yawVar = ∑ i, st.w i * (st.m i).P 2 2 := by
  have hy : (composite st).yaw = psi := by
    show atan2 (sum5 fun i => st.w i * Real.sin ((st.m i).X 2)) (sum5 fun i => st.w i * Real.cos ((st.m i).X 2)) = psi
    simp only [h, sum5_eq, ← Finset.sum_mul, hw]
    exact atan2_polar one_pos ⟨hm.1, hm.2⟩
  refine ⟨hy, ?_⟩
  have : (composite st).yawVar = sum5 fun i => st.w i * ((st.m i).P 2 2 + wrapPi ((st.m i).X 2 - (composite st).yaw) * wrapPi ((st.m i).X 2 - (composite st).yaw)) := rfl
  rw [this, hy, sum5_eq]
  refine Finset.sum_congr rfl fun i _ => ?_
  rw [h, sub_self, wrapPi_of_mem ⟨by linarith [Real.pi_pos], Real.pi_pos⟩]
  ring

/-- **C104.** Tilt alignment happens on the first sample with a specific force within 10 % of 1 g, and not before. -/
theorem align_iff (x : In) (st : St) (h : st.tilt = false) :
    (update x st).tilt = true ↔ (9.80665 * 0.9) ^ 2 < nsq (fun i => x.dVel i / max x.dVelDt 0.001) ∧ nsq (fun i => x.dVel i / max x.dVelDt 0.001) < (9.80665 * 1.1) ^ 2 := by
  have e : update x st = tryAlign x { st with acc := filtAcc x st.acc } := by
    unfold update
    rw [if_pos h]
  rw [e]
  unfold tryAlign accel sq
  rw [← pow_two, ← pow_two]
  split
  · rename_i hc
    exact ⟨fun _ => hc, fun _ => rfl⟩
  · rename_i hc
    refine ⟨fun h' => ?_, fun h' => absurd h' hc⟩
    rw [show _ = true from h'] at h
    exact absurd h (by decide)

/-- the filtered specific force: a first-order low-pass, convex for sample times up to 0.5 s -/
theorem filtAcc_convex (x : In) (acc : V3 ℝ) (i : Fin 3) (h0 : 0 ≤ x.dVelDt) :
    ∃ k, 0 ≤ k ∧ k ≤ 1 ∧ (x.dVelDt ≤ 0.5 → k = 2 * x.dVelDt) ∧ filtAcc x acc i = (1 - k) * acc i + k * (x.dVel i / max x.dVelDt 0.001) := by
  refine ⟨min (10 * x.dVelDt * 0.2) 1, le_min (by positivity) zero_le_one, min_le_right _ _, fun h => ?_, ?_⟩
  · rw [min_eq_left (by linarith)]; ring
  · unfold filtAcc accel
    ring

/-- non-vacuity: a history that reaches a published yaw -/
example : (getYawData (run [Call.update (sample 0 false), Call.setVelocity (fun _ => 0) 0.5, Call.update (sample 0 true)])).isSome = true :=
  (bias_copied_unlimited 0).1

end Ecl.Gsf
