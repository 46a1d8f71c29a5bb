import Verif.Gsf.SelectEx
import Verif.Gsf.More

/-!
# Yaw estimator fed with a poor accuracy (C177) — EKF/EKFGSF_yaw.cpp, EKF/ekf_helper.cpp

The accuracy passed with the GPS velocity is that of the vertical position (C129).  If it is 57 m or more no velocity is ever kept: every fusion makes all weights fall below the limit and the bank
is initialised again.
-/

namespace Ecl.Gsf

open Utils

/-! ## Specification -/

/-- every velocity of the history comes with an accuracy of 57 or more -/
def Spec.Coarse (l : List Call) : Prop := ∀ v a, Call.setVelocity v a ∈ l → 57 ≤ a
/-- all models are equally likely -/
def Spec.Undecided (st : St) : Prop := ∀ i, st.w i = 1 / 5

/-! ## Likelihood -/

/-- with a poor accuracy no likelihood reaches five times the limit of the weights -/
theorem density_coarse (vel : Fin 2 → ℝ) (a : ℝ) (ha : 57 ≤ a) (m : Mdl) (hP : Cov.Spec.PSD m.P) : density (updateEKF vel a m).1 < 0.00005 := by
  have hr : obsVar a = a * a := by unfold obsVar sq; rw [max_eq_left (by linarith)]
  have hr1 : (3249 : ℝ) ≤ obsVar a := by rw [hr]; nlinarith
  have hD := det_ge m.P hP (obsVar a) (by linarith)
  have hD1 : (3249 : ℝ) ^ 2 ≤ detS m.P (obsVar a) := le_trans (by nlinarith) hD
  have hc := chi2_nonneg m.P hP (obsVar a) (by linarith) ![m.X 0 - vel 0, m.X 1 - vel 1]
  have hE := updateEKF_good vel a m hP
  have hsd : (updateEKF vel a m).1.sdet = 1 / detS m.P (obsVar a) := by rw [hE]; rfl
  have hchi : testRatio (updateEKF vel a m).1 = Spec.chi2 (updGen m.P (obsVar a)).1 ![m.X 0 - vel 0, m.X 1 - vel 1] := by rw [testRatio_eq, hE]; rfl
  unfold density
  rw [hsd, hchi, Real.sqrt_div zero_le_one, Real.sqrt_one]
  have hs : (3249 : ℝ) ≤ √(detS m.P (obsVar a)) := Real.le_sqrt_of_sq_le hD1
  have hi : 1 / √(detS m.P (obsVar a)) ≤ 1 / 3249 := one_div_le_one_div_of_le (by norm_num) hs
  have hi0 : 0 ≤ 1 / √(detS m.P (obsVar a)) := by positivity
  have hx : Real.exp (-0.5 * Spec.chi2 (updGen m.P (obsVar a)).1 ![m.X 0 - vel 0, m.X 1 - vel 1]) ≤ 1 := by
    rw [Real.exp_le_one_iff]; nlinarith
  have hx0 := Real.exp_pos (-0.5 * Spec.chi2 (updGen m.P (obsVar a)).1 ![m.X 0 - vel 0, m.X 1 - vel 1])
  calc 0.159154943 * (1 / √(detS m.P (obsVar a))) * Real.exp (-0.5 * Spec.chi2 (updGen m.P (obsVar a)).1 ![m.X 0 - vel 0, m.X 1 - vel 1])
      ≤ 0.159154943 * (1 / 3249) * 1 := mul_le_mul (mul_le_mul_of_nonneg_left hi (by norm_num)) hx hx0.le (by norm_num)
    _ < 0.00005 := by norm_num

/-- fusing such a velocity in an undecided bank starts over -/
theorem fuseAll_coarse (st : St) (hok : ∀ i, Ok (st.m i)) (hw : Spec.Undecided st) (ha : 57 ≤ st.velAcc) :
    Spec.Undecided (fuseAll st) ∧ (fuseAll st).started = false := by
  have hu := fun i => updateEKF_ok st.vel st.velAcc (st.m i) (hok i)
  unfold fuseAll
  rw [if_neg]
  · unfold reweigh
    rw [if_neg]
    · exact ⟨fun _ => rfl, rfl⟩
    · rintro ⟨i, hi⟩
      apply hi
      have := density_coarse st.vel st.velAcc ha (st.m i) (hok i).psd
      show density (updateEKF st.vel st.velAcc (st.m i)).1 * st.w i < 0.00001
      rw [hw i]
      linarith
  · rintro ⟨i, hi⟩
    rw [(hu i).2] at hi
    exact absurd hi (by decide)

/-- invariant of histories with poor accuracies -/
structure CInv (st : St) : Prop where
  inv : Inv st
  w : st.tilt = true → Spec.Undecided st
  acc : st.velUpd = true → 57 ≤ st.velAcc

theorem step_cinv (st : St) (c : Call) (hc : ∀ v a, c = .setVelocity v a → 57 ≤ a) (h : CInv st) : CInv (step st c) := by
  refine ⟨step_inv st c h.inv, ?_, ?_⟩
  · cases c with
    | setVelocity v a => exact h.w
    | update x =>
      intro ht
      show Spec.Undecided (update x st)
      change (update x st).tilt = true at ht
      unfold update at ht ⊢
      by_cases h0 : st.tilt = false
      · rw [if_pos h0] at ht ⊢
        unfold tryAlign at ht ⊢
        split at ht
        · rename_i hn
          rw [if_pos hn]
          exact fun _ => rfl
        · change st.tilt = true at ht
          rw [h0] at ht
          cases ht
      · rw [if_neg h0]
        have ht' : st.tilt = true := by simpa using h0
        have hw := h.w ht'
        show Spec.Undecided (velStep x { st with
            acc := filtAcc x st.acc
            m := fun i => predictEKF x (filtAcc x st.acc) st.started (st.m i) })
        unfold velStep
        split
        · rename_i hv
          split
          · exact fun _ => rfl
          · exact (fuseAll_coarse { st with
              acc := filtAcc x st.acc
              m := fun i => predictEKF x (filtAcc x st.acc) st.started (st.m i) }
              (fun i => predictEKF_ok _ _ _ _ (h.inv.ok ht' i)) hw (h.acc hv.2)).1
        · split
          · exact hw
          · exact hw
  · cases c with
    | setVelocity v a => exact fun _ => hc v a rfl
    | update x =>
      intro hv
      change (update x st).velUpd = true at hv
      show 57 ≤ (update x st).velAcc
      unfold update at hv ⊢
      by_cases h0 : st.tilt = false
      · rw [if_pos h0] at hv ⊢
        unfold tryAlign at hv ⊢
        split at hv
        · rename_i hn
          rw [if_pos hn]
          exact h.acc hv
        · rename_i hn
          rw [if_neg hn]
          exact h.acc hv
      · rw [if_neg h0] at hv
        cases hv

theorem run_cinv (l : List Call) (hl : Spec.Coarse l) : CInv (run l) := by
  suffices ∀ st, CInv st → CInv (l.foldl step st) from
    this fresh ⟨fresh_inv, fun h => absurd h Bool.false_ne_true, fun h => absurd h Bool.false_ne_true⟩
  induction l with
  | nil => exact fun _ h => h
  | cons c l ih =>
    intro st h
    exact ih (fun v a hm => hl v a (List.mem_cons_of_mem _ hm)) _ (step_cinv st c (fun v a e => hl v a (by rw [e]; exact List.mem_cons_self)) h)

/-! ## Results -/

/-- **C177 (never decides).** After any history, of any length and with any velocities and inertial samples, in which every velocity came with an accuracy of 57 or more, all models are equally likely
once the tilt is aligned. -/
theorem coarse_undecided (l : List Call) (hl : Spec.Coarse l) (ht : (run l).tilt = true) (i : Fin 5) : (run l).w i = 1 / 5 :=
  (run_cinv l hl).w ht i

/-- **C177 (restarts at every other velocity).** After such a history a further one of them, fused while a yaw was available, makes the yaw unavailable; while none was available, it starts the
bank from that velocity with evenly spaced yaws. -/
theorem coarse_restarts (l : List Call) (hl : Spec.Coarse l) (ht : (run l).tilt = true) (v : Fin 2 → ℝ) (a : ℝ) (ha : 57 ≤ a) (x : In) (hx : x.run = true) :
    let st := run (l ++ [.setVelocity v a, .update x])
    ((run l).started = true → getYawData st = none) ∧
    ((run l).started = false → st.started = true) ∧
    ∀ i, (st.m i).X 0 = v 0 ∧ (st.m i).X 1 = v 1 := by
  intro st
  have hi := run_cinv l hl
  have e : st = update x (setVelocity v a (run l)) := by
    show (l ++ [Call.setVelocity v a, Call.update x]).foldl step fresh = _
    rw [List.foldl_append]
    rfl
  have hok : ∀ i, Ok (predictEKF x (filtAcc x (run l).acc) (run l).started ((run l).m i)) := fun i => predictEKF_ok _ _ _ _ (hi.inv.ok ht i)
  obtain ⟨q, hq⟩ : ∃ q : St, q = { run l with
      vel := v
      velAcc := a
      velUpd := true
      acc := filtAcc x (run l).acc
      m := fun i => predictEKF x (filtAcc x (run l).acc) (run l).started ((run l).m i) } := ⟨_, rfl⟩
  have hE : st = { composite (velStep x q) with velUpd := false } := by
    rw [e, hq]
    unfold update
    rw [if_neg (by show ¬ (run l).tilt = false; rw [ht]; decide)]
    rfl
  have hqs : q.started = (run l).started := by rw [hq]
  have hqv : q.vel = v := by rw [hq]
  have hqu : x.run = true ∧ q.velUpd = true := ⟨hx, by rw [hq]⟩
  by_cases hs : (run l).started = true
  · have hvs : velStep x q = fuseAll q := by
      unfold velStep
      rw [if_pos hqu, if_neg (by rw [hqs, hs]; decide)]
    have hw : Spec.Undecided q := by rw [hq]; exact hi.w ht
    have hokq : ∀ i, Ok (q.m i) := by rw [hq]; exact hok
    have haq : 57 ≤ q.velAcc := by rw [hq]; exact ha
    have hf := fuseAll_coarse q hokq hw haq
    have hst : st.started = false := by rw [hE, hvs]; exact hf.2
    refine ⟨fun _ => ?_, fun c => (by rw [hs] at c; cases c), fun i => ?_⟩
    · unfold getYawData; rw [hst]; rfl
    · have hX : fuseAll q = initBank { q with
          m := fun i => (updateEKF q.vel q.velAcc (q.m i)).1
          w := clipWeight { q with m := fun i => (updateEKF q.vel q.velAcc (q.m i)).1 } } := by
        unfold fuseAll
        rw [if_neg (by
          rintro ⟨i, hi⟩
          rw [(updateEKF_ok q.vel q.velAcc (q.m i) (hokq i)).2] at hi
          cases hi)]
        unfold reweigh
        rw [if_neg]
        rintro ⟨i, hi⟩
        apply hi
        have := density_coarse q.vel q.velAcc haq (q.m i) (hokq i).psd
        show density (updateEKF q.vel q.velAcc (q.m i)).1 * q.w i < 0.00001
        rw [hw i]
        linarith
      rw [hE, hvs, hX, ← hqv]
      exact ⟨rfl, rfl⟩
  · rw [Bool.not_eq_true] at hs
    have hvs : velStep x q = start x q := by
      unfold velStep
      rw [if_pos hqu, if_pos (by rw [hqs]; exact hs)]
    refine ⟨fun c => (by rw [hs] at c; cases c), fun _ => ?_, fun i => ?_⟩
    · rw [hE, hvs]; rfl
    · rw [hE, hvs, ← hqv]
      exact ⟨rfl, rfl⟩

/-- **C177 (in the main filter).** Whatever the speed accuracy the receiver states: as long as every GPS sample that is ready has a vertical position accuracy of 57 m or worse, the yaw estimator fed by the
main filter never prefers a model. -/
theorem coarse_main (xs : List MainIn) (h : ∀ x ∈ xs, x.gpsReady = true → 57 ≤ x.gpsVacc) (ht : (run (xs.flatMap mainCalls)).tilt = true) (i : Fin 5) :
    (run (xs.flatMap mainCalls)).w i = 1 / 5 := by
  refine coarse_undecided _ ?_ ht i
  intro v a hm
  rw [List.mem_flatMap] at hm
  obtain ⟨x, hx, hm⟩ := hm
  unfold mainCalls at hm
  dsimp only at hm
  split at hm
  · rename_i hc
    split at hm
    · simp at hm
      rw [hm.2]
      exact h x hx hc.1
    · simp at hm
  · simp at hm

/-! ## Concrete cases -/

/-- the level start of `SelectEx` with a velocity of accuracy 100: aligned and started -/
example : Spec.Coarse [.update (sample 0 true), .setVelocity (fun _ => 0) 100] ∧ (run [.update (sample 0 true), .setVelocity (fun _ => 0) 100]).tilt = true := by
  refine ⟨?_, ?_⟩
  · intro v a h
    simp at h
    rw [h.2]; norm_num
  · exact (aligns 0).1 ▸ rfl

/-- **C177 (contrast).** With a good accuracy one velocity after the first is enough to prefer a model: a level vehicle pushed north at 10 m/s² for one sample. -/
theorem fine_decides : (run (exStart ++ [.setVelocity exVel 0, .update exPush])).started = true ∧ 1 / 5 < (run (exStart ++ [.setVelocity exVel 0, .update exPush])).w 2 := by
  obtain ⟨ρ, h0, h1, hs, hq, hf, hn, hd⟩ := selection_example
  obtain ⟨a, -, b⟩ := model_selected exStart _ hs 2 ρ 0.5 1 h0 h1.le le_rfl hd hq hf
  refine ⟨a, lt_of_lt_of_le ?_ b⟩
  rw [hn, pow_one, mul_one]
  have hm : max ρ (0.00001 * (1 + 4 * 1) / 0.5) < 1 := max_lt h1 (by norm_num)
  have hp : 0 ≤ max ρ (0.00001 * (1 + 4 * 1) / 0.5) := le_max_of_le_left h0
  apply one_div_lt_one_div_of_lt <;> linarith

end Ecl.Gsf
