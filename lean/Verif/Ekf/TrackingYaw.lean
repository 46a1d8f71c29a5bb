import Verif.Ekf.Tracking
import Mathlib.Analysis.SpecialFunctions.Trigonometric.Bounds
import Mathlib.Algebra.BigOperators.Intervals

/-!
# Property C148 — the published heading converges to the heading of the delayed EKF

The attitude part of `calculateOutputStates` (EKF/ekf.cpp:321-345, 405-424) corrects only the newest output, so its loop
contains the whole length of the history as a delay; the gain is divided by that delay "to maintain consistent damping".
For rotations about the vertical the loop is analysed exactly, including the sine in the error.
-/

noncomputable section

namespace Ecl.Ekf

open Ecl.ImuDownSampler (ImuSample AxisAngleLib normalize)
open Ecl.RingBuffer

/-! ### A loop with delay -/

/-- bounds on a delayed loop, as long as the error has stayed within `C + B` -/
theorem delay_loop (D : ℕ) (hD : 1 ≤ D) (γ e w : ℕ → ℝ) (g0 g W A : ℝ) (h0 : 0 < g0) (hg : g * D ≤ 1 / 2)
    (hrec : ∀ k, e (k + D + 1) = e (k + D) - γ k * e k + w k) (hw : ∀ k, |w k| ≤ W) (hA : ∀ i, i ≤ D → |e i| ≤ A)
    (hγ : ∀ k, |e k| ≤ 3 / 2 * A + D * W + 3 * W / g0 → g0 ≤ γ k ∧ γ k ≤ g) (k : ℕ) :
    |e k| ≤ (1 - g0 / 2) ^ (k / (2 * D + 1)) * (3 / 2 * A + D * W) + 3 * W / g0 := by
  have hW : 0 ≤ W := (abs_nonneg _).trans (hw 0)
  have hA0 : 0 ≤ A := (abs_nonneg _).trans (hA 0 (Nat.zero_le _))
  have hD1 : (1 : ℝ) ≤ D := by exact_mod_cast hD
  set C := 3 / 2 * A + D * W with hC
  set B := 3 * W / g0 with hB
  have hC0 : 0 ≤ C := by rw [hC]; positivity
  have hB0 : 0 ≤ B := by rw [hB]; positivity
  -- the gain bounds are not contradictory
  have hgg := hγ 0 (by have := hA 0 (Nat.zero_le _); have : 0 ≤ (D : ℝ) * W := by positivity
                       linarith)
  have hg0 : 0 < g := lt_of_lt_of_le h0 (hgg.1.trans hgg.2)
  have hg1 : g ≤ 1 / 2 := by nlinarith
  have hr0 : 0 ≤ 1 - g0 / 2 := by linarith [hgg.1.trans hgg.2]
  have hr1 : 1 - g0 / 2 ≤ 1 := by linarith
  induction k using Nat.strong_induction_on with
  | _ k ih =>
    have hpow : ∀ i, (1 - g0 / 2) ^ i * C ≤ C := fun i => by
      have := mul_le_mul_of_nonneg_right (pow_le_one₀ hr0 hr1 (n := i)) hC0
      linarith
    have hgam : ∀ j, j < k → g0 ≤ γ j ∧ γ j ≤ g := fun j hj =>
      hγ j ((ih j hj).trans (by have := hpow (j / (2 * D + 1)); linarith))
    -- one increment
    have hinc : ∀ M j, j < k → |e j| ≤ M → |e (j + D + 1) - e (j + D)| ≤ g * M + W := by
      intro M j hj hM
      obtain ⟨a, b⟩ := hgam j hj
      rw [hrec j, show e (j + D) - γ j * e j + w j - e (j + D) = -(γ j * e j) + w j by ring]
      refine (abs_add_le _ _).trans ?_
      rw [abs_neg, abs_mul, abs_of_nonneg (by linarith : (0:ℝ) ≤ γ j)]
      have := mul_le_mul b hM (abs_nonneg _) hg0.le
      linarith [hw j]
    -- several increments
    have hsum : ∀ M j m, j + m ≤ k → (∀ i, i < m → |e (j + i)| ≤ M) → |e (j + D + m) - e (j + D)| ≤ m * (g * M + W) := by
      intro M j m
      induction m with
      | zero => intro _ _; simp
      | succ m ihm =>
        intro hjm hM
        have a := ihm (by omega) (fun i hi => hM i (by omega))
        have b := hinc M (j + m) (by omega) (hM m (by omega))
        have e1 : e (j + D + (m + 1)) - e (j + D) = (e (j + m + D + 1) - e (j + m + D)) + (e (j + D + m) - e (j + D)) := by
          rw [show j + D + (m + 1) = j + m + D + 1 by ring, show j + D + m = j + m + D by ring]; ring
        rw [e1]
        refine (abs_add_le _ _).trans ?_
        push_cast
        linarith
    rcases lt_or_ge k (2 * D + 1) with hk | hk
    · -- start
      rw [Nat.div_eq_of_lt hk, pow_zero, one_mul]
      rcases Nat.lt_or_ge D k with hkD | hkD
      · obtain ⟨m, rfl⟩ : ∃ m, k = 0 + D + m := ⟨k - D, by omega⟩
        have hm : (m : ℝ) ≤ D := by exact_mod_cast (by omega : m ≤ D)
        have a := hsum A 0 m (by omega) (fun i hi => hA _ (by omega))
        have b := hA (0 + D) (by omega)
        have e1 : e (0 + D + m) = (e (0 + D + m) - e (0 + D)) + e (0 + D) := by ring
        rw [e1]
        refine (abs_add_le _ _).trans ?_
        have : (m : ℝ) * (g * A + W) ≤ D * (g * A + W) := mul_le_mul_of_nonneg_right hm (by positivity)
        have : g * D * A ≤ 1 / 2 * A := mul_le_mul_of_nonneg_right hg hA0
        rw [hC]; linarith
      · have := hA k hkD
        have : 0 ≤ (D : ℝ) * W := by positivity
        rw [hC]; linarith
    · -- window of the last 2 D + 1 values
      obtain ⟨p, rfl⟩ : ∃ p, k = p + (2 * D + 1) := ⟨k - (2 * D + 1), by omega⟩
      set q := p / (2 * D + 1) with hq
      have hkq : (p + (2 * D + 1)) / (2 * D + 1) = q + 1 := by rw [Nat.add_div_right _ (by omega)]
      set M := (1 - g0 / 2) ^ q * C + B with hM
      have hM0 : 0 ≤ M := by rw [hM]; have := pow_nonneg hr0 q; positivity
      have hwin : ∀ i, i < 2 * D + 1 → |e (p + i)| ≤ M := by
        intro i hi
        refine (ih (p + i) (by omega)).trans ?_
        have : q ≤ (p + i) / (2 * D + 1) := Nat.div_le_div_right (by omega)
        have := mul_le_mul_of_nonneg_right (pow_le_pow_of_le_one hr0 hr1 this) hC0
        rw [hM]; linarith
      obtain ⟨a, b⟩ := hgam (p + D) (by omega)
      have hs := hsum M p D (by omega) (fun i hi => hwin i (by omega))
      have e1 : e (p + (2 * D + 1)) = (1 - γ (p + D)) * e (p + D + D) + γ (p + D) * (e (p + D + D) - e (p + D)) + w (p + D) := by
        have := hrec (p + D)
        rw [show p + (2 * D + 1) = p + D + D + 1 by ring, this]; ring
      rw [e1, hkq]
      have t1 : |(1 - γ (p + D)) * e (p + D + D)| ≤ (1 - γ (p + D)) * M := by
        rw [abs_mul, abs_of_nonneg (by linarith)]
        apply mul_le_mul_of_nonneg_left _ (by linarith)
        have := hwin (D + D) (by omega)
        rwa [← add_assoc] at this
      have t2 : |γ (p + D) * (e (p + D + D) - e (p + D))| ≤ γ (p + D) * (D * (g * M + W)) := by
        rw [abs_mul, abs_of_nonneg (by linarith)]
        exact mul_le_mul_of_nonneg_left hs (by linarith)
      have t3 : |(1 - γ (p + D)) * e (p + D + D) + γ (p + D) * (e (p + D + D) - e (p + D)) + w (p + D)| ≤
          (1 - γ (p + D)) * M + γ (p + D) * (D * (g * M + W)) + W := by
        refine (abs_add_le _ _).trans ?_
        have := abs_add_le ((1 - γ (p + D)) * e (p + D + D)) (γ (p + D) * (e (p + D + D) - e (p + D)))
        linarith [hw (p + D)]
      refine t3.trans ?_
      have t4 : D * (g * M + W) ≤ 1 / 2 * M + D * W := by
        have := mul_le_mul_of_nonneg_right hg hM0
        linarith
      have t5 := mul_le_mul_of_nonneg_left t4 (by linarith : 0 ≤ γ (p + D))
      have t6 : γ (p + D) * D ≤ 1 / 2 := (mul_le_mul_of_nonneg_right b (by linarith)).trans hg
      have t7 := mul_le_mul_of_nonneg_right t6 hW
      have t8 := mul_le_mul_of_nonneg_right a hM0
      have hfin : (1 - g0 / 2) * M + 3 / 2 * W = (1 - g0 / 2) ^ (q + 1) * C + B := by
        rw [hM, pow_succ, hB]; field_simp; ring
      rw [← hfin]
      nlinarith

/-! ### Rotations about the vertical -/

/-- attitude with heading `φ`, level -/
def Spec.turn (φ : ℝ) : Quat ℝ := ⟨Real.cos (φ / 2), 0, 0, Real.sin (φ / 2)⟩

/-- heading increment measured by one IMU sample, corrected for the estimated gyro bias -/
def Spec.yawInc (x : OutIn × ImuSample) : ℝ := x.2.deltaAng 2 - x.1.dtImuAvg / x.1.dtEkfAvg * x.1.state.dAngBias 2

/-- heading increment over a cycle -/
def Spec.yawTotal (c : Cycle) : ℝ := (c.mid.map Spec.yawInc).sum + Spec.yawInc c.last

/-- IMU samples in a cycle -/
def Spec.calls (c : Cycle) : ℕ := c.mid.length + 1

/-- attitude tracking gain: half an IMU interval over the time from the fusion horizon to the newest sample -/
def Spec.attGain (c : Cycle) : ℝ :=
  1 / 2 * c.last.1.dtImuAvg / max (((c.last.2.timeUs - c.last.1.delayedTime).toNat : ℝ) * (1 / 1000000)) c.last.1.dtImuAvg

/-- the sample measures a rotation about the vertical only -/
def Spec.YawOnly (x : OutIn × ImuSample) : Prop :=
  x.2.deltaAng 0 - x.1.dtImuAvg / x.1.dtEkfAvg * x.1.state.dAngBias 0 = 0 ∧
  x.2.deltaAng 1 - x.1.dtImuAvg / x.1.dtEkfAvg * x.1.state.dAngBias 1 = 0

/-- a level cycle: yaw rotations only, EKF attitude with heading `ψ` -/
structure Cycle.Level (c : Cycle) (ψ : ℝ) : Prop where
  mid : ∀ x ∈ c.mid, Spec.YawOnly x
  last : Spec.YawOnly c.last
  quat : c.last.1.state.quat = Spec.turn ψ

theorem turn_unit (a : ℝ) : (Spec.turn a).normSq = 1 := by
  unfold Spec.turn Quat.normSq
  have := Real.cos_sq_add_sin_sq (a / 2)
  nlinarith

theorem turn_mul (a b : ℝ) : (Spec.turn a).mul (Spec.turn b) = Spec.turn (a + b) := by
  unfold Spec.turn Quat.mul
  have h : (a + b) / 2 = a / 2 + b / 2 := by ring
  ext
  · simp only [h, Real.cos_add]; ring
  · simp
  · simp
  · simp only [h, Real.sin_add]; ring

theorem turn_inv (a : ℝ) : (Spec.turn a).inversed = Spec.turn (-a) := by
  rw [Quat.inversed_of_unit (turn_unit a)]
  unfold Spec.turn
  have h : -a / 2 = -(a / 2) := by ring
  ext <;> simp [h]

/-- one strap-down step about the vertical -/
theorem ins_turn (L : AxisAngleLib) (hL : ∀ θ, L.exp ![0, 0, θ] = Spec.turn θ) (x : OutIn × ImuSample) (hx : Spec.YawOnly x)
    (o : Out) (φ : ℝ) (hq : o.outNew.data.quat = Spec.turn φ) (h0 : o.dAngCorr 0 = 0) (h1 : o.dAngCorr 1 = 0) :
    (o.ins L x.1 x.2).outNew.data.quat = Spec.turn (φ + (Spec.yawInc x + o.dAngCorr 2)) ∧
    (o.ins L x.1 x.2).dAngCorr = o.dAngCorr := by
  refine ⟨?_, rfl⟩
  have harg : x.2.deltaAng - (x.1.dtImuAvg / x.1.dtEkfAvg) • x.1.state.dAngBias + o.dAngCorr =
      ![0, 0, Spec.yawInc x + o.dAngCorr 2] := by
    funext j
    fin_cases j
    · simp only [Pi.add_apply, Pi.sub_apply, Pi.smul_apply, smul_eq_mul]
      show x.2.deltaAng 0 - _ * x.1.state.dAngBias 0 + o.dAngCorr 0 = 0
      rw [h0, add_zero]; exact hx.1
    · simp only [Pi.add_apply, Pi.sub_apply, Pi.smul_apply, smul_eq_mul]
      show x.2.deltaAng 1 - _ * x.1.state.dAngBias 1 + o.dAngCorr 1 = 0
      rw [h1, add_zero]; exact hx.2
    · simp only [Pi.add_apply, Pi.sub_apply, Pi.smul_apply, smul_eq_mul]
      rfl
  show normalize (o.outNew.data.quat.mul (L.exp (x.2.deltaAng - (x.1.dtImuAvg / x.1.dtEkfAvg) • x.1.state.dAngBias +
    o.dAngCorr))) = _
  rw [harg, hL, hq, turn_mul, ImuDownSampler.normalize_unit (turn_unit _)]

/-- the samples between EKF updates -/
theorem mid_turn (L : AxisAngleLib) (hL : ∀ θ, L.exp ![0, 0, θ] = Spec.turn θ) (l : List (OutIn × ImuSample))
    (h : ∀ x ∈ l, x.1.imuUpdated = false) (hy : ∀ x ∈ l, Spec.YawOnly x) (o : Out) (φ : ℝ)
    (hq : o.outNew.data.quat = Spec.turn φ) (h0 : o.dAngCorr 0 = 0) (h1 : o.dAngCorr 1 = 0) :
    ∃ o', l.foldlM (fun o x => o.calculate L x.1 x.2) o = .ok o' ∧
      o'.outNew.data.quat = Spec.turn (φ + ((l.map Spec.yawInc).sum + l.length * o.dAngCorr 2)) ∧
      o'.dAngCorr = o.dAngCorr := by
  induction l generalizing o φ with
  | nil => exact ⟨o, rfl, by simp [hq], rfl⟩
  | cons x l ih =>
    obtain ⟨a, b⟩ := ins_turn L hL x (hy x (by simp)) o φ hq h0 h1
    obtain ⟨o', e, q, d⟩ := ih (fun y hy => h y (List.mem_cons_of_mem _ hy)) (fun y hm => hy y (List.mem_cons_of_mem _ hm))
      (o.ins L x.1 x.2) _ a (by rw [b]; exact h0) (by rw [b]; exact h1)
    refine ⟨o', ?_, ?_, by rw [d, b]⟩
    · rw [List.foldlM_cons]
      have : o.calculate L x.1 x.2 = .ok (o.ins L x.1 x.2) := by
        unfold Out.calculate; simp [h x (by simp)]
      rw [this]; exact e
    · rw [q, b]
      congr 1
      simp only [List.map_cons, List.sum_cons, List.length_cons]
      push_cast; ring

/-- attitudes in the history are never altered, only moved; the newest one is appended; the correction for the next
cycle comes from the second oldest -/
theorem cycle_att (L : AxisAngleLib) (c : Cycle) (hc : c.Regular) (o o' : Out) (n : ℕ) (hn : 2 ≤ n) (ho : o.Full n)
    (h : o.cycle L c = .ok o') :
    ∃ o1, c.mid.foldlM (fun o x => o.calculate L x.1 x.2) o = .ok o1 ∧
      (∀ m, m + 1 < n → (Spec.stored o' m).quat = (Spec.stored o (m + 1)).quat) ∧
      (Spec.stored o' (n - 1)).quat = (o1.ins L c.last.1 c.last.2).outNew.data.quat ∧
      o'.outNew.data.quat = (o1.ins L c.last.1 c.last.2).outNew.data.quat ∧
      o'.dAngCorr = (attCorrection c.last.1 c.last.2.timeUs (Spec.stored o 1).quat).2 ∧
      o'.trackErr 0 = norm3 (attCorrection c.last.1 c.last.2.timeUs (Spec.stored o 1).quat).1 := by
  obtain ⟨o1, h1, hb, hv, _⟩ := mid_frame L c.mid hc.mid o
  have hob : o1.outBuf.Inv n := by rw [hb]; exact ho.out
  have hvb : o1.vertBuf.Inv n := by rw [hv]; exact ho.vert
  obtain ⟨o2, od, vd, e, i1, i2, hod, hvd, hd⟩ := output_correct L c.last.1 c.last.2 o1 n hn hob hvb hc.last hc.pos hc.le
  have hpush : Spec.push n o1.outBuf.live (o1.ins L c.last.1 c.last.2).outNew =
      o.outBuf.live.tail ++ [(o1.ins L c.last.1 c.last.2).outNew] := by
    rw [hb]
    unfold Spec.push Spec.keepNewest
    rw [List.length_append, ho.len]
    simp only [List.length_singleton, Nat.add_sub_cancel_left]
    rw [List.drop_append_of_le_length (by rw [ho.len]; omega), List.drop_one]
  have hst : Spec.stored o 1 = od.data := by
    rw [hpush] at hod
    unfold Spec.stored
    have hl := ho.len
    match hL : o.outBuf.live, hl with
    | a :: b :: t, _ =>
      rw [hL] at hod
      simp at hod
      simp [hod]
    | [a], h => simp at h; omega
    | [], h => simp at h; omega
  have he : o.cycle L c = .ok o2 := by unfold Out.cycle; rw [h1]; exact e
  rw [h] at he; simp only [Except.ok.injEq] at he; subst he
  obtain ⟨_, _, d3, d4, _, _, d7, d8, _⟩ := hd
  rw [hpush] at d3
  generalize (fun j => Spec.gain c.last.1.dtEkfAvg c.last.1.velTau * (c.last.1.state.vel j - od.data.vel j) +
    Spec.gain c.last.1.dtEkfAvg c.last.1.velTau ^ 2 / 10 * o'.velErrInteg j) = dv at d3 d4
  generalize (fun j => Spec.gain c.last.1.dtEkfAvg c.last.1.posTau * (c.last.1.state.pos j - od.data.pos j) +
    Spec.gain c.last.1.dtEkfAvg c.last.1.posTau ^ 2 / 10 * o'.posErrInteg j) = dp at d3 d4
  refine ⟨o1, h1, ?_, ?_, by rw [d4], by rw [d7, hst], by rw [d8, hst]; rfl⟩
  · intro m hm
    unfold Spec.stored
    rw [d3, List.getElem?_map, List.getElem?_append_left (by rw [List.length_tail, ho.len]; omega), List.getElem?_tail]
    have : m + 1 < o.outBuf.live.length := by rw [ho.len]; omega
    rw [List.getElem?_eq_getElem this]
    rfl
  · unfold Spec.stored
    rw [d3, List.getElem?_map, List.getElem?_append_right (by rw [List.length_tail, ho.len]), List.length_tail, ho.len]
    simp

/-- the correction for a heading error `δ` within half a turn -/
theorem attCorrection_turn (c : Cycle) (φ ψ : ℝ) (hq : c.last.1.state.quat = Spec.turn ψ) (hδ : |φ - ψ| ≤ Real.pi) :
    (attCorrection c.last.1 c.last.2.timeUs (Spec.turn φ)).1 = ![0, 0, -(2 * Real.sin ((φ - ψ) / 2))] ∧
    (attCorrection c.last.1 c.last.2.timeUs (Spec.turn φ)).2 = ![0, 0, -(Spec.attGain c * (2 * Real.sin ((φ - ψ) / 2)))] := by
  have hqe : normalize (c.last.1.state.quat.inversed.mul (Spec.turn φ)) = Spec.turn (φ - ψ) := by
    rw [hq, turn_inv, turn_mul, ImuDownSampler.normalize_unit (turn_unit _)]; congr 1; ring
  obtain ⟨a, b⟩ := abs_le.mp hδ
  have hcos : 0 ≤ Real.cos ((φ - ψ) / 2) := Real.cos_nonneg_of_neg_pi_div_two_le_of_le (by linarith) (by linarith)
  have h1 : (attCorrection c.last.1 c.last.2.timeUs (Spec.turn φ)).1 = ![0, 0, -(2 * Real.sin ((φ - ψ) / 2))] := by
    unfold attCorrection
    simp only [hqe]
    have : (Spec.turn (φ - ψ)).w ≥ 0 := hcos
    simp only [this, if_true]
    funext j
    fin_cases j <;> simp [Spec.turn]
  refine ⟨h1, ?_⟩
  have h2 : (attCorrection c.last.1 c.last.2.timeUs (Spec.turn φ)).2 =
      Spec.attGain c • (attCorrection c.last.1 c.last.2.timeUs (Spec.turn φ)).1 := rfl
  rw [h2, h1]
  funext j
  fin_cases j <;> simp

/-- sine against its argument -/
theorem two_sin_half (x : ℝ) (hx : |x| ≤ Real.pi) : ∃ σ, 2 / Real.pi ≤ σ ∧ σ ≤ 1 ∧ 2 * Real.sin (x / 2) = σ * x := by
  have hpi := Real.pi_pos
  have key : ∀ y, 0 < y → y ≤ Real.pi → ∃ σ, 2 / Real.pi ≤ σ ∧ σ ≤ 1 ∧ 2 * Real.sin (y / 2) = σ * y := by
    intro y h0 h1
    refine ⟨2 * Real.sin (y / 2) / y, ?_, ?_, by field_simp⟩
    · rw [div_le_div_iff₀ hpi h0]
      have := Real.mul_le_sin (x := y / 2) (by linarith) (by linarith)
      have h3 := mul_le_mul_of_nonneg_right this hpi.le
      have : 2 / Real.pi * (y / 2) * Real.pi = y := by field_simp
      linarith
    · rw [div_le_one h0]
      have := Real.sin_le (x := y / 2) (by linarith)
      linarith
  rcases lt_trichotomy x 0 with h | h | h
  · obtain ⟨σ, a, b, e⟩ := key (-x) (by linarith) (by rwa [abs_of_neg h] at hx)
    refine ⟨σ, a, b, ?_⟩
    rw [neg_div, Real.sin_neg] at e
    linarith
  · refine ⟨1, ?_, le_refl _, by simp [h]⟩
    rw [div_le_one hpi]; exact Real.two_le_pi
  · exact key x h (by rwa [abs_of_pos h] at hx)

/-- for two headings the correction is about the vertical, however large the error -/
theorem attCorrection_level (c : Cycle) (φ ψ : ℝ) (hq : c.last.1.state.quat = Spec.turn ψ) :
    (attCorrection c.last.1 c.last.2.timeUs (Spec.turn φ)).2 0 = 0 ∧
    (attCorrection c.last.1 c.last.2.timeUs (Spec.turn φ)).2 1 = 0 := by
  have hqe : normalize (c.last.1.state.quat.inversed.mul (Spec.turn φ)) = Spec.turn (φ - ψ) := by
    rw [hq, turn_inv, turn_mul, ImuDownSampler.normalize_unit (turn_unit _)]; congr 1; ring
  unfold attCorrection
  simp only [hqe]
  constructor <;> simp [Spec.turn]

/-- **C148 (heading history).** In level motion about the vertical the predictor runs without memory error, its stored and
published attitudes are headings, and the heading obeys the loop with delay: each cycle adds the measured rotation and,
per IMU sample, the correction computed one cycle before from the heading stored for the fusion horizon. -/
theorem heading_history (L : AxisAngleLib) (hL : ∀ θ, L.exp ![0, 0, θ] = Spec.turn θ) (c : ℕ → Cycle) (ψ : ℕ → ℝ)
    (hc : ∀ k, (c k).Regular) (hl : ∀ k, (c k).Level (ψ k)) (o0 : Out) (n : ℕ) (hn : 2 ≤ n) (ho : o0.Full n) (φ0 : ℕ → ℝ)
    (hφ : ∀ m, m < n → (Spec.stored o0 m).quat = Spec.turn (φ0 m)) (h0 : o0.dAngCorr 0 = 0) (h1 : o0.dAngCorr 1 = 0) :
    ∃ (o : ℕ → Out) (φ : ℕ → ℝ), o 0 = o0 ∧ (∀ k, (o k).cycle L (c k) = .ok (o (k + 1))) ∧ (∀ m, m < n → φ m = φ0 m) ∧
      (∀ k m, m < n → (Spec.stored (o k) m).quat = Spec.turn (φ (k + m))) ∧
      (∀ k, (o (k + 1)).outNew.data.quat = Spec.turn (φ (k + n))) ∧
      φ n = φ (n - 1) + Spec.yawTotal (c 0) + Spec.calls (c 0) * o0.dAngCorr 2 ∧
      ∀ k, |φ (k + 1) - ψ k| ≤ Real.pi →
        (o (k + 1)).trackErr 0 = |2 * Real.sin ((φ (k + 1) - ψ k) / 2)| ∧
        φ (k + 1 + n) = φ (k + n) + Spec.yawTotal (c (k + 1)) -
          Spec.calls (c (k + 1)) * (Spec.attGain (c k) * (2 * Real.sin ((φ (k + 1) - ψ k) / 2))) := by
  obtain ⟨o, e0, hF, hs⟩ := cycles_exist L c hc o0 n hn ho
  let P : ℕ → ℝ := fun k => Nat.rec (φ0 (n - 1))
    (fun k p => p + Spec.yawTotal (c k) + Spec.calls (c k) * (o k).dAngCorr 2) k
  have hP : ∀ k, P (k + 1) = P k + Spec.yawTotal (c k) + Spec.calls (c k) * (o k).dAngCorr 2 := fun k => rfl
  have hP0 : P 0 = φ0 (n - 1) := rfl
  generalize P = P at hP hP0
  let φ : ℕ → ℝ := fun j => if j < n then φ0 j else P (j - (n - 1))
  have hlo : ∀ m, m < n → φ m = φ0 m := fun m hm => if_pos hm
  have hhi : ∀ k, φ (k + (n - 1)) = P k := by
    intro k
    rcases Nat.eq_zero_or_pos k with hk | hk
    · rw [hk, hP0, zero_add]; exact if_pos (by omega)
    · have : ¬ (k + (n - 1) < n) := by omega
      show (if k + (n - 1) < n then _ else P (k + (n - 1) - (n - 1))) = _
      rw [if_neg this]; congr 1; omega
  generalize φ = φ at hlo hhi
  have hstep : ∀ k, φ (k + n) = φ (k + (n - 1)) + Spec.yawTotal (c k) + Spec.calls (c k) * (o k).dAngCorr 2 := by
    intro k
    rw [hhi k, ← hP k, ← hhi (k + 1)]; congr 1; omega
  have hnew : ∀ k, Spec.stored (o k) (n - 1) = (o k).outNew.data := by
    intro k
    have := (hF k).new
    rw [List.getLast?_eq_getElem?, (hF k).len] at this
    unfold Spec.stored
    rw [this]
  have hinv : ∀ k, (∀ m, m < n → (Spec.stored (o k) m).quat = Spec.turn (φ (k + m))) ∧ (o k).dAngCorr 0 = 0 ∧
      (o k).dAngCorr 1 = 0 := by
    intro k
    induction k with
    | zero =>
      rw [e0]
      exact ⟨fun m hm => by rw [hφ m hm, zero_add, hlo m hm], h0, h1⟩
    | succ k ih =>
      obtain ⟨i1, i2, i3⟩ := ih
      obtain ⟨o1, f1, f2, f3, _, f5, _⟩ := cycle_att L (c k) (hc k) (o k) (o (k + 1)) n hn (hF k) (hs k)
      have hq : (o k).outNew.data.quat = Spec.turn (φ (k + (n - 1))) := by rw [← hnew k]; exact i1 _ (by omega)
      obtain ⟨o2, g1, g2, g3⟩ := mid_turn L hL (c k).mid (hc k).mid (hl k).mid (o k) _ hq i2 i3
      rw [f1] at g1; simp only [Except.ok.injEq] at g1; subst g1
      obtain ⟨j1, j2⟩ := ins_turn L hL (c k).last (hl k).last o1 _ g2 (by rw [g3]; exact i2) (by rw [g3]; exact i3)
      rw [i1 1 (by omega)] at f5
      obtain ⟨l1, l2⟩ := attCorrection_level (c k) (φ (k + 1)) (ψ k) (hl k).quat
      refine ⟨?_, by rw [f5]; exact l1, by rw [f5]; exact l2⟩
      intro m hm
      rcases Nat.lt_or_ge (m + 1) n with hm' | hm'
      · rw [f2 m hm', i1 _ hm']; congr 2; omega
      · have hmn : m = n - 1 := by omega
        subst hmn
        rw [f3, j1, show k + 1 + (n - 1) = k + n by omega, hstep k, g3]
        congr 1
        unfold Spec.yawTotal Spec.calls
        push_cast; ring
  refine ⟨o, φ, e0, hs, hlo, fun k => (hinv k).1, ?_, ?_, ?_⟩
  · intro k
    rw [← hnew (k + 1), (hinv (k + 1)).1 (n - 1) (by omega)]; congr 2; omega
  · have := hstep 0
    rw [e0, zero_add, zero_add] at this; exact this
  · intro k hδ
    obtain ⟨o1, _, _, _, _, f5, f6⟩ := cycle_att L (c k) (hc k) (o k) (o (k + 1)) n hn (hF k) (hs k)
    rw [(hinv k).1 1 (by omega)] at f5 f6
    obtain ⟨a, b⟩ := attCorrection_turn (c k) (φ (k + 1)) (ψ k) (hl k).quat hδ
    rw [a] at f6; rw [b] at f5
    refine ⟨?_, ?_⟩
    · rw [f6]
      unfold norm3
      have : ∀ z : ℝ, Real.sqrt (z ^ 2) = |z| := Real.sqrt_sq_eq_abs
      simp [← pow_two, this, abs_mul]
    · rw [hstep (k + 1), f5, show k + 1 + (n - 1) = k + n by omega]
      simp [sub_eq_add_neg]

/-- **C148 (heading converges).** Level motion about the vertical, any history length, any number of IMU samples per
cycle: if the gain per cycle is between `g0` and `1 / (2 (n - 1))`, and mismatch `W` between the rotation the EKF and the output
saw over the same interval and initial error `A` are small enough for the bound to stay within half a turn, the published
heading follows the heading the EKF will have when it reaches that instant: the error decays geometrically down to a
multiple of the mismatch. The reported attitude tracking error is `2 |sin (error / 2)|`. -/
theorem heading_tracks (L : AxisAngleLib) (hL : ∀ θ, L.exp ![0, 0, θ] = Spec.turn θ) (c : ℕ → Cycle) (ψ : ℕ → ℝ)
    (hc : ∀ k, (c k).Regular) (hl : ∀ k, (c k).Level (ψ k)) (o0 : Out) (n : ℕ) (hn : 2 ≤ n) (ho : o0.Full n) (φ0 : ℕ → ℝ)
    (hφ : ∀ m, m < n → (Spec.stored o0 m).quat = Spec.turn (φ0 m)) (h0 : o0.dAngCorr 0 = 0) (h1 : o0.dAngCorr 1 = 0)
    (g0 A W : ℝ) (hg0 : 0 < g0) (hlo : ∀ k, g0 ≤ Spec.calls (c (k + 1)) * Spec.attGain (c k))
    (hhi : ∀ k, Spec.calls (c (k + 1)) * Spec.attGain (c k) * (n - 1) ≤ 1 / 2)
    (hA : ∀ i, i + 1 < n → |φ0 (i + 1) - ψ i| ≤ A)
    (hA' : |φ0 (n - 1) + Spec.yawTotal (c 0) + Spec.calls (c 0) * o0.dAngCorr 2 - ψ (n - 1)| ≤ A)
    (hW : ∀ k, |Spec.yawTotal (c (k + 1)) - (ψ (k + n) - ψ (k + (n - 1)))| ≤ W)
    (hpi : 3 / 2 * A + (n - 1) * W + 3 * Real.pi / 2 * W / g0 ≤ Real.pi) :
    ∃ (o : ℕ → Out) (φ : ℕ → ℝ), o 0 = o0 ∧ (∀ k, (o k).cycle L (c k) = .ok (o (k + 1))) ∧
      (∀ k, (o (k + 1)).outNew.data.quat = Spec.turn (φ (k + n))) ∧
      (∀ k, (Spec.stored (o k) 1).quat = Spec.turn (φ (k + 1))) ∧
      (∀ k, (o (k + 1)).trackErr 0 = |2 * Real.sin ((φ (k + 1) - ψ k) / 2)|) ∧
      ∀ k, |φ (k + 1) - ψ k| ≤ (1 - g0 / Real.pi) ^ (k / (2 * n - 1)) * (3 / 2 * A + (n - 1) * W) +
        3 * Real.pi / 2 * W / g0 := by
  obtain ⟨o, φ, e0, hs, hφm, hst, hnew, hn0, hrec⟩ := heading_history L hL c ψ hc hl o0 n hn ho φ0 hφ h0 h1
  have hπ := Real.pi_pos
  obtain ⟨D, rfl⟩ : ∃ D, n = D + 1 := ⟨n - 1, by omega⟩
  have hD : 1 ≤ D := by omega
  have hDr : (1 : ℝ) ≤ D := by exact_mod_cast hD
  push_cast at hhi hpi ⊢
  simp only [add_sub_cancel_right] at hhi hpi ⊢
  simp only [Nat.add_sub_cancel] at hA' hW hn0
  have hW0 : 0 ≤ W := (abs_nonneg _).trans (hW 0)
  let e : ℕ → ℝ := fun k => φ (k + 1) - ψ k
  let w : ℕ → ℝ := fun k => Spec.yawTotal (c (k + 1)) - (ψ (k + (D + 1)) - ψ (k + D))
  have he : ∀ k, e k = φ (k + 1) - ψ k := fun k => rfl
  have hwk : ∀ k, w k = Spec.yawTotal (c (k + 1)) - (ψ (k + (D + 1)) - ψ (k + D)) := fun k => rfl
  have hw : ∀ k, |w k| ≤ W := hW
  generalize e = e at he
  generalize w = w at hwk hw
  -- the loop, inside half a turn
  have hloop : ∀ k, |e k| ≤ Real.pi → e (k + D + 1) = e (k + D) -
      Spec.calls (c (k + 1)) * (Spec.attGain (c k) * (2 * Real.sin (e k / 2))) + w k := by
    intro k hk
    have := (hrec k (by rw [← he]; exact hk)).2
    rw [he (k + D + 1), he (k + D), he k, hwk, show k + D + 1 + 1 = k + 1 + (D + 1) by ring, this,
      show k + D + 1 = k + (D + 1) by ring]
    ring
  have hex : ∀ k, ∃ γ, e (k + D + 1) = e (k + D) - γ * e k + w k ∧ (|e k| ≤ Real.pi → 2 / Real.pi * g0 ≤ γ ∧ γ ≤ 1 / 2 / D) := by
    intro k
    by_cases hk : |e k| ≤ Real.pi
    · obtain ⟨σ, s0, s1, s2⟩ := two_sin_half (e k) hk
      have hG := hlo k
      have hH : Spec.calls (c (k + 1)) * Spec.attGain (c k) ≤ 1 / 2 / D := by
        rw [le_div_iff₀ (by linarith)]; exact hhi k
      have hs0 : 0 < 2 / Real.pi := by positivity
      refine ⟨Spec.calls (c (k + 1)) * Spec.attGain (c k) * σ, ?_, fun _ => ⟨?_, ?_⟩⟩
      · rw [hloop k hk, s2]; ring
      · rw [mul_comm]
        exact mul_le_mul hG s0 hs0.le (hg0.le.trans hG)
      · have := mul_le_mul_of_nonneg_left s1 (hg0.le.trans hG)
        linarith
    · have hne : e k ≠ 0 := by
        intro h; rw [h, abs_zero] at hk; exact hk hπ.le
      refine ⟨(e (k + D) + w k - e (k + D + 1)) / e k, ?_, fun h => absurd h hk⟩
      field_simp; ring
  choose γ hγ1 hγ2 using hex
  have hBeq : 3 * W / (2 / Real.pi * g0) = 3 * Real.pi / 2 * W / g0 := by field_simp
  have hmain := delay_loop D hD γ e w (2 / Real.pi * g0) (1 / 2 / D) W A (by positivity)
    (le_of_eq (by field_simp)) hγ1 hw ?_ ?_
  · have hb : ∀ k, |e k| ≤ (1 - g0 / Real.pi) ^ (k / (2 * (D + 1) - 1)) * (3 / 2 * A + D * W) + 3 * Real.pi / 2 * W / g0 := by
      intro k
      have := hmain k
      rwa [hBeq, show 1 - 2 / Real.pi * g0 / 2 = 1 - g0 / Real.pi by ring, show 2 * D + 1 = 2 * (D + 1) - 1 by omega] at this
    have hA0 : 0 ≤ A := (abs_nonneg _).trans hA'
    have hgb : g0 / Real.pi ≤ 1 := by
      rw [div_le_one hπ]
      have a := hlo 0; have b := hhi 0
      have : g0 * 1 ≤ Spec.calls (c (0 + 1)) * Spec.attGain (c 0) * D := mul_le_mul a hDr (by norm_num) (hg0.le.trans a)
      linarith [Real.two_le_pi]
    refine ⟨o, φ, e0, hs, hnew, fun k => hst k 1 (by omega), ?_, fun k => by rw [← he]; exact hb k⟩
    intro k
    refine (hrec k ?_).1
    rw [← he]
    refine (hb k).trans (le_trans ?_ hpi)
    have : (1 - g0 / Real.pi) ^ (k / (2 * (D + 1) - 1)) * (3 / 2 * A + D * W) ≤ 1 * (3 / 2 * A + D * W) := by
      apply mul_le_mul_of_nonneg_right
      · exact pow_le_one₀ (by linarith) (by have : 0 ≤ g0 / Real.pi := by positivity
                                            linarith)
      · positivity
    linarith
  · intro i hi
    rw [he]
    rcases Nat.lt_or_ge i D with h | h
    · rw [hφm _ (by omega)]; exact hA i (by omega)
    · have : i = D := by omega
      subst this
      rw [hn0, hφm _ (by omega)]; exact hA'
  · intro k hk
    rw [hBeq] at hk
    exact hγ2 k (hk.trans hpi)

/-- **C148 (steady timing).** With `m` IMU samples per filter interval `T` and a fusion horizon `n - 1` intervals behind the
newest sample, the gain is exactly the largest one admitted: without mismatch the heading error decays by the factor
`1 - 1 / (2 pi (n - 1))` at least every `2 n - 1` cycles, from any initial error up to 2/3 of half a turn. -/
theorem heading_tracks_timing (L : AxisAngleLib) (hL : ∀ θ, L.exp ![0, 0, θ] = Spec.turn θ) (c : ℕ → Cycle) (ψ : ℕ → ℝ)
    (hc : ∀ k, (c k).Regular) (hl : ∀ k, (c k).Level (ψ k)) (o0 : Out) (n : ℕ) (hn : 2 ≤ n) (ho : o0.Full n) (φ0 : ℕ → ℝ)
    (hφ : ∀ m, m < n → (Spec.stored o0 m).quat = Spec.turn (φ0 m)) (h0 : o0.dAngCorr 0 = 0) (h1 : o0.dAngCorr 1 = 0)
    (m : ℕ) (T : ℝ) (hm : 1 ≤ m) (hT : 0 < T) (hcalls : ∀ k, (c k).mid.length + 1 = m)
    (hdt : ∀ k, (c k).last.1.dtImuAvg = T / m)
    (hdelay : ∀ k, (((c k).last.2.timeUs - (c k).last.1.delayedTime).toNat : ℝ) * (1 / 1000000) = (n - 1) * T)
    (A : ℝ) (hA : ∀ i, i + 1 < n → |φ0 (i + 1) - ψ i| ≤ A)
    (hA' : |φ0 (n - 1) + Spec.yawTotal (c 0) + Spec.calls (c 0) * o0.dAngCorr 2 - ψ (n - 1)| ≤ A)
    (hW : ∀ k, Spec.yawTotal (c (k + 1)) = ψ (k + n) - ψ (k + (n - 1))) (hpi : 3 / 2 * A ≤ Real.pi) :
    ∃ (o : ℕ → Out) (φ : ℕ → ℝ), o 0 = o0 ∧ (∀ k, (o k).cycle L (c k) = .ok (o (k + 1))) ∧
      (∀ k, (o (k + 1)).outNew.data.quat = Spec.turn (φ (k + n))) ∧
      (∀ k, (Spec.stored (o k) 1).quat = Spec.turn (φ (k + 1))) ∧
      (∀ k, (o (k + 1)).trackErr 0 = |2 * Real.sin ((φ (k + 1) - ψ k) / 2)|) ∧
      ∀ k, |φ (k + 1) - ψ k| ≤ (1 - 1 / (2 * Real.pi * (n - 1))) ^ (k / (2 * n - 1)) * (3 / 2 * A) := by
  have hn1 : (1 : ℝ) ≤ n - 1 := by
    have : (2 : ℝ) ≤ n := by exact_mod_cast hn
    linarith
  have hm1 : (1 : ℝ) ≤ m := by exact_mod_cast hm
  have hπ := Real.pi_pos
  have hgain : ∀ k, Spec.calls (c (k + 1)) * Spec.attGain (c k) = 1 / (2 * (n - 1)) := by
    intro k
    unfold Spec.attGain Spec.calls
    rw [hcalls (k + 1), hdt k, hdelay k, max_eq_left]
    · have : (n : ℝ) - 1 ≠ 0 := by linarith
      field_simp
    · rw [div_le_iff₀ (by linarith)]
      have : 1 ≤ ((n : ℝ) - 1) * m := by nlinarith
      nlinarith
  obtain ⟨o, φ, a1, a2, a3, a4, a5, a6⟩ := heading_tracks L hL c ψ hc hl o0 n hn ho φ0 hφ h0 h1 (1 / (2 * (n - 1))) A 0
    (by positivity) (fun k => (hgain k).ge) (fun k => by
      rw [hgain k]
      have : (n : ℝ) - 1 ≠ 0 := by linarith
      field_simp; rfl) hA hA' (fun k => by rw [hW k]; simp) (by simpa using hpi)
  refine ⟨o, φ, a1, a2, a3, a4, a5, fun k => ?_⟩
  have := a6 k
  simp only [mul_zero, add_zero, zero_div] at this
  rwa [div_div, show 2 * ((n : ℝ) - 1) * Real.pi = 2 * Real.pi * (n - 1) by ring] at this

/-! ### Non-vacuity: the EKF holds heading 1 rad, the output starts at heading 0 -/

/-- cycle of one sample, horizon 10 ms behind -/
def exYawCycle : Cycle :=
  ⟨[], ⟨⟨Spec.turn 1, 0, 0, 0, 0, 0, 0, 0⟩, 1 / 100, 1 / 100, 0, true, 1 / 4, 1 / 4, 0⟩, exImu⟩

/-- the exact exponential map as library of rotations: `exp v` rotates about `v` by its length, cf. the uses at
EKF/ekf.cpp:268 and :342. Simplification: the library returns the identity below 1e-10 rad. -/
def idealLib : AxisAngleLib where
  exp v := ⟨Real.cos (norm3 v / 2), Real.sin (norm3 v / 2) * (v 0 / norm3 v), Real.sin (norm3 v / 2) * (v 1 / norm3 v),
    Real.sin (norm3 v / 2) * (v 2 / norm3 v)⟩
  log _ := 0
  exp_unit v := by
    have hc := Real.cos_sq_add_sin_sq (norm3 v / 2)
    by_cases h : norm3 v = 0
    · simp [Quat.normSq, h]
    · have h2 : norm3 v * norm3 v = v 0 * v 0 + v 1 * v 1 + v 2 * v 2 := by
        unfold norm3; exact Real.mul_self_sqrt (by nlinarith [mul_self_nonneg (v 0), mul_self_nonneg (v 1), mul_self_nonneg (v 2)])
      unfold Quat.normSq
      generalize norm3 v = r at *
      generalize Real.sin (r / 2) = s at *
      generalize Real.cos (r / 2) = t at *
      have e : v 0 / r * (v 0 / r) + v 1 / r * (v 1 / r) + v 2 / r * (v 2 / r) = 1 := by
        field_simp; nlinarith
      simp only
      linear_combination hc + s ^ 2 * e

theorem idealLib_vertical (θ : ℝ) : idealLib.exp ![0, 0, θ] = Spec.turn θ := by
  have hn : norm3 (![0, 0, θ] : V3 ℝ) = |θ| := by
    unfold norm3; simp [← pow_two, Real.sqrt_sq_eq_abs]
  unfold idealLib Spec.turn
  simp only [hn]
  rcases lt_trichotomy θ 0 with h | h | h
  · rw [abs_of_neg h, neg_div, Real.cos_neg, Real.sin_neg]
    ext <;> simp
    rw [div_neg, div_self h.ne]; ring
  · subst h; ext <;> simp
  · rw [abs_of_pos h]
    ext <;> simp
    rw [div_self h.ne', mul_one]

/-- the published heading of the example converges: error at most `1.5 (1 - 1 / (2 pi)) ^ (k / 3)` -/
example : ∃ (o : ℕ → Out) (φ : ℕ → ℝ), o 0 = exOut ∧ (∀ k, (o k).cycle idealLib exYawCycle = .ok (o (k + 1))) ∧
      (∀ k, (o (k + 1)).outNew.data.quat = Spec.turn (φ (k + 2))) ∧
      ∀ k, |φ (k + 1) - 1| ≤ (1 - 1 / (2 * Real.pi)) ^ (k / 3) * (3 / 2) := by
  have hreg : exYawCycle.Regular := ⟨by simp [exYawCycle], rfl, by norm_num [exYawCycle], by norm_num [exYawCycle]⟩
  have hlev : exYawCycle.Level 1 :=
    ⟨by simp [exYawCycle], by simp [exYawCycle, Spec.YawOnly, exImu], rfl⟩
  have hyaw : Spec.yawTotal exYawCycle = 0 := by simp [exYawCycle, Spec.yawTotal, Spec.yawInc, exImu]
  have hcorr : exOut.dAngCorr = 0 := rfl
  obtain ⟨o, φ, a1, a2, a3, _, _, a6⟩ := heading_tracks_timing idealLib idealLib_vertical (fun _ => exYawCycle) (fun _ => 1) (fun _ => hreg)
    (fun _ => hlev) exOut 2 (by norm_num) exOut_full (fun _ => 0)
    (by
      intro m hm
      have : m = 0 ∨ m = 1 := by omega
      rcases this with rfl | rfl <;> simp [Spec.stored, exOut, RB.live, RB.count, List.range_succ, Spec.turn])
    (by rw [hcorr]; rfl) (by rw [hcorr]; rfl) 1 (1 / 100) (le_refl _) (by norm_num) (fun _ => rfl)
    (fun _ => by norm_num [exYawCycle])
    (fun _ => by
      have : (exYawCycle.last.2.timeUs - exYawCycle.last.1.delayedTime).toNat = 10000 := by decide +kernel
      simp only [this]; norm_num)
    1 (fun i _ => by norm_num) (by simp only [hyaw, hcorr]; norm_num) (fun _ => by simp only [hyaw]; norm_num)
    (by linarith [Real.two_le_pi])
  refine ⟨o, φ, a1, a2, a3, fun k => ?_⟩
  have := a6 k
  norm_num at this ⊢
  exact this

end Ecl.Ekf
