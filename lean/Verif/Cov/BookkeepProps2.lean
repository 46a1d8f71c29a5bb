import Verif.Cov.BookkeepProps

/-!
# Magnetometer covariance bookkeeping (C76), accelerometer-bias inhibition (C77), process noise (C78)
-/

namespace Ecl.Cov

set_option linter.unusedSectionVars false

variable {K : Type*} [Field K] [LinearOrder K] [IsStrictOrderedRing K]

/-! ### C76 -/

theorem zeroMagCov_apply (P : Mat K) (i j : Fin N) :
    zeroMagCov P i j = if (16 ≤ i.val ∧ i.val < 22) ∨ (16 ≤ j.val ∧ j.val < 22) then 0 else P i j := by
  simp only [zeroMagCov, uncorrSet, inBlk, ite_self]
  by_cases h : (16 ≤ i.val ∧ i.val < 22) ∨ (16 ≤ j.val ∧ j.val < 22)
  · rw [if_pos h]
    split
    · rfl
    · rw [if_pos (by omega)]
  · rw [if_neg h, if_neg (by omega), if_neg (by omega)]

theorem load_save_apply (P Q : Mat K) (i j : Fin N) :
    loadMagCov (saveMagCov P) Q i j =
      if ((16 ≤ i.val ∧ i.val < 18) ∧ (16 ≤ j.val ∧ j.val < 18)) ∨ (i = j ∧ 18 ≤ i.val ∧ i.val < 22) then P i j else Q i j := by
  unfold loadMagCov saveMagCov
  split
  · next h =>
    rw [if_pos (Or.inl h)]
    have e1 : (⟨16 + (i.val - 16), by show _ < 24; omega⟩ : Fin N) = i := Fin.ext (by show 16 + (i.val - 16) = i.val; omega)
    have e2 : (⟨16 + (j.val - 16), by show _ < 24; omega⟩ : Fin N) = j := Fin.ext (by show 16 + (j.val - 16) = j.val; omega)
    simp only [e1, e2]
  · next h =>
    split
    · next h' =>
      rw [if_pos (Or.inr h')]
      obtain ⟨rfl, h2⟩ := h'
      have e1 : (⟨i.val - 18 + 18, by show _ < 24; omega⟩ : Fin N) = i := Fin.ext (by show i.val - 18 + 18 = i.val; omega)
      simp only [e1]
    · next h' =>
      rw [if_neg (by tauto)]

/-- **C76 (round trip).** Stop 3-axis fusion, let the filter change the covariance arbitrarily, restart: the earth
north/east block and the variances of the other four field states are those at the stop, all other field covariances are
zero, all non-field elements are those of the current covariance; the modes are exclusive at each point. -/
theorem mag_cov_round_trip (s : MagState K) (hs : s.mag3D = true) (hh : s.magHdg = false) (Q : Mat K) (i j : Fin N) :
    let stopped := startMagHdg s
    let restarted := startMag3D { stopped with P := Q }
    (stopped.mag3D = false ∧ stopped.magHdg = true ∧ stopped.P = s.P) ∧
    (restarted.mag3D = true ∧ restarted.magHdg = false) ∧
    restarted.P i j =
      if ((16 ≤ i.val ∧ i.val < 18) ∧ (16 ≤ j.val ∧ j.val < 18)) ∨ (i = j ∧ 18 ≤ i.val ∧ i.val < 22) then s.P i j
      else if (16 ≤ i.val ∧ i.val < 22) ∨ (16 ≤ j.val ∧ j.val < 22) then 0 else Q i j := by
  intro stopped restarted
  have e1 : stopped = { s with saved := saveMagCov s.P, mag3D := false, magHdg := true } := by
    simp only [stopped, startMagHdg, stopMag3D, hs, if_true]
  have e2 : restarted = { s with P := loadMagCov (saveMagCov s.P) (zeroMagCov Q), saved := saveMagCov s.P, mag3D := true,
                                 magHdg := false } := by
    simp only [restarted, e1, startMag3D, stopMagHdg, Bool.not_false, if_true]
  rw [e1, e2]
  refine ⟨⟨rfl, rfl, rfl⟩, ⟨rfl, rfl⟩, ?_⟩
  show loadMagCov (saveMagCov s.P) (zeroMagCov Q) i j = _
  rw [load_save_apply, zeroMagCov_apply]

/-- **C76 (validity).** If the covariance at the stop and the one at the restart are valid, the restarted one is. -/
theorem mag_cov_restart_valid (s : MagState K) (hs : s.mag3D = true) (Q : Mat K) (hP : Spec.PSD s.P) (hQ : Spec.PSD Q) :
    Spec.PSD (startMag3D { startMagHdg s with P := Q }).P := by
  have e : (startMag3D { startMagHdg s with P := Q }).P = loadMagCov (saveMagCov s.P) (zeroMagCov Q) := by
    simp only [startMagHdg, stopMag3D, hs, if_true, startMag3D, stopMagHdg, Bool.not_false]
  rw [e]
  have h1 : Spec.PSD (zeroMagCov Q) := psd_uncorrSet (psd_uncorrSet hQ fun _ _ => le_rfl) fun _ _ => le_rfl
  have h2 : Spec.PSD (fun i j : Fin N => if ¬ (16 ≤ i.val ∧ i.val < 18) ∨ ¬ (16 ≤ j.val ∧ j.val < 18) then 0 else s.P i j) :=
    psd_mask hP fun i : Fin N => ¬ (16 ≤ i.val ∧ i.val < 18)
  have h3 : Spec.PSD (fun i j : Fin N => if i = j then (if 18 ≤ i.val ∧ i.val < 22 then s.P i i else 0) else 0) :=
    psd_diag fun i => by split; exacts [diag_nonneg hP i, le_rfl]
  refine psd_congr (fun i j => ?_) (psd_add h1 (psd_add h2 h3))
  rw [load_save_apply, zeroMagCov_apply]
  by_cases a : (16 ≤ i.val ∧ i.val < 18) ∧ (16 ≤ j.val ∧ j.val < 18)
  · rw [if_pos (Or.inl a), if_pos (by omega), if_neg (by tauto)]
    have : (if i = j then (if 18 ≤ i.val ∧ i.val < 22 then s.P i i else 0) else (0 : K)) = 0 := by
      split
      · rw [if_neg (by omega)]
      · rfl
    rw [this]; ring
  · by_cases b : i = j ∧ 18 ≤ i.val ∧ i.val < 22
    · rw [if_pos (Or.inr b), if_pos (by omega), if_pos (by tauto), if_pos b.1, if_pos b.2]
      obtain ⟨rfl, -⟩ := b; ring
    · rw [if_neg (by tauto)]
      have h0 : (if ¬ (16 ≤ i.val ∧ i.val < 18) ∨ ¬ (16 ≤ j.val ∧ j.val < 18) then 0 else s.P i j) = 0 := by
        rw [if_pos (by tauto)]
      have : (if i = j then (if 18 ≤ i.val ∧ i.val < 22 then s.P i i else 0) else (0 : K)) = 0 := by
        split
        · rw [if_neg (by tauto)]
        · rfl
      rw [h0, this]; ring

/-- **C76 (reset).** A reset sets every field variance to the squared magnetometer noise, removes every field covariance,
leaves all other elements, and outside 3-axis mode makes these the values the next 3-axis start loads. -/
theorem resetMagCov_spec (noise : K) (s : MagState K) (i j : Fin N) :
    (resetMagCov noise s).P i j =
      (if (16 ≤ i.val ∧ i.val < 22) ∨ (16 ≤ j.val ∧ j.val < 22) then (if i = j then noise ^ 2 else 0) else s.P i j) ∧
    (resetMagCov noise s).declReset = false ∧ (resetMagCov noise s).mag3D = s.mag3D ∧ (resetMagCov noise s).magHdg = s.magHdg ∧
    (s.mag3D = true → (resetMagCov noise s).saved = s.saved) ∧
    (s.mag3D = false → ∀ Q : Mat K, (startMag3D { resetMagCov noise s with P := Q }).P i j =
      if (16 ≤ i.val ∧ i.val < 22) ∨ (16 ≤ j.val ∧ j.val < 22) then (if i = j then noise ^ 2 else 0) else Q i j) := by
  have hP : ∀ i j : Fin N, uncorrSet 19 3 (fun _ => sq noise) (uncorrSet 16 3 (fun _ => sq noise) (zeroMagCov s.P)) i j =
      (if (16 ≤ i.val ∧ i.val < 22) ∨ (16 ≤ j.val ∧ j.val < 22) then (if i = j then noise ^ 2 else 0) else s.P i j) := by
    intro i j
    have hsq : sq noise = noise ^ 2 := by unfold sq; ring
    simp only [uncorrSet, inBlk, zeroMagCov_apply, hsq]
    by_cases h : (16 ≤ i.val ∧ i.val < 22) ∨ (16 ≤ j.val ∧ j.val < 22)
    · by_cases h1 : (19 ≤ i.val ∧ i.val < 19 + 3) ∨ (19 ≤ j.val ∧ j.val < 19 + 3)
      · rw [if_pos h1, if_pos h]
      · rw [if_neg h1, if_pos (by omega), if_pos h]
    · rw [if_neg h, if_neg (by omega), if_neg (by omega), if_neg h]
  cases h3 : s.mag3D with
  | true =>
    have e : resetMagCov noise s = { s with
        P := uncorrSet 19 3 (fun _ => sq noise) (uncorrSet 16 3 (fun _ => sq noise) (zeroMagCov s.P)), declReset := false } := by
      simp only [resetMagCov, clearMagCov, h3, Bool.not_true, Bool.false_eq_true, if_false]
    rw [e]
    exact ⟨hP i j, rfl, h3, rfl, fun _ => rfl, fun h => by cases h⟩
  | false =>
    have e : resetMagCov noise s = { s with
        P := uncorrSet 19 3 (fun _ => sq noise) (uncorrSet 16 3 (fun _ => sq noise) (zeroMagCov s.P)), declReset := false,
        saved := saveMagCov (uncorrSet 19 3 (fun _ => sq noise) (uncorrSet 16 3 (fun _ => sq noise) (zeroMagCov s.P))) } := by
      simp only [resetMagCov, clearMagCov, h3, Bool.not_false, if_true]
    rw [e]
    refine ⟨hP i j, rfl, h3, rfl, fun h => by (cases h), fun _ Q => ?_⟩
    simp only [startMag3D, stopMagHdg, h3, Bool.not_false, if_true]
    rw [load_save_apply, zeroMagCov_apply, hP]
    by_cases a : (16 ≤ i.val ∧ i.val < 22) ∨ (16 ≤ j.val ∧ j.val < 22)
    · rw [if_pos a, if_pos a]
      split
      · rfl
      · split
        · next h1 h2 => exfalso; apply h1; subst h2; omega
        · rfl
    · rw [if_neg a, if_neg (by rintro (h | h) <;> omega), if_neg a, if_neg a]

/-- **C76 (stop).** Stopping magnetometer fusion clears both modes and every field covariance, after saving them if 3-axis
fusion was active. -/
theorem stopMag_spec (s : MagState K) (i j : Fin N) :
    (stopMag s).mag3D = false ∧ (stopMag s).magHdg = false ∧ (stopMag s).declReset = false ∧
    (stopMag s).saved = (if s.mag3D then saveMagCov s.P else s.saved) ∧
    (stopMag s).P i j = if (16 ≤ i.val ∧ i.val < 22) ∨ (16 ≤ j.val ∧ j.val < 22) then 0 else s.P i j := by
  cases h : s.mag3D <;>
    simp only [stopMag, clearMagCov, stopMagHdg, stopMag3D, h, if_true, if_false, Bool.false_eq_true, true_and, and_true] <;>
    exact zeroMagCov_apply _ _ _

/-- Non-vacuity: a state in 3-axis mode. -/
example : ∃ s : MagState ℚ, s.mag3D = true ∧ s.magHdg = false ∧ s.P 16 17 = 1 / 1000 :=
  ⟨⟨fun i j => if i = j then 1 / 100 else 1 / 1000, ⟨fun _ => 0, fun _ _ => 0⟩, true, false, false⟩, rfl, rfl, by decide +kernel⟩

/-! ### C77 -/

theorem accIdx_inj {a b : Fin 3} : accIdx a = accIdx b ↔ a = b := by
  constructor
  · intro h; have := congrArg Fin.val h; simp only [accIdx] at this; exact Fin.ext (by omega)
  · rintro rfl; rfl

theorem inhibitStep_self (x : InhibitIn K) (g c : K) (s : InhibitState K) (a : Fin 3) :
    let r := inhibitStep x g c s a
    r.inhibit a = inhibitAxis x g c a ∧
    r.prevVar a = (if inhibitAxis x g c a = true ∧ s.inhibit a = false then s.P (accIdx a) (accIdx a) else s.prevVar a) ∧
    r.P (accIdx a) (accIdx a) =
      (if inhibitAxis x g c a = false ∧ s.inhibit a = true then s.prevVar a else s.P (accIdx a) (accIdx a)) ∧
    (∀ b, b ≠ a → r.inhibit b = s.inhibit b ∧ r.prevVar b = s.prevVar b) ∧
    (∀ i j, ¬ (i = accIdx a ∧ j = accIdx a) → r.P i j = s.P i j) ∧ r.angFilt = s.angFilt ∧ r.accFilt = s.accFilt := by
  intro r
  cases h1 : inhibitAxis x g c a <;> cases h2 : s.inhibit a <;>
    simp only [r, inhibitStep, h1, h2, Bool.not_true, Bool.not_false, Bool.false_eq_true, if_true, if_false, true_and, and_true,
      and_self, reduceCtorEq, false_and, Function.update_self, implies_true]
  · refine ⟨fun b hb => by rw [Function.update_of_ne hb], fun i j hij => by rw [if_neg hij]⟩
  · exact fun b hb => ⟨by rw [Function.update_of_ne hb], by rw [Function.update_of_ne hb]⟩

/-- **C77.** One covariance prediction updates the inhibition of every axis: bias learning on an axis is inhibited exactly
when it is disabled by parameter, the peak-hold angular rate or acceleration exceeds its limit, the vertical accelerometer
is faulty, the axis is neither within 37 degrees of vertical (|cosine| > 0.8) nor the vehicle flying, or the sample was
clipped on this axis.  On entry the variance is stored; on exit exactly the stored variance is reinstated; nothing else
of the covariance changes. -/
theorem inhibit_spec (x : InhibitIn K) (s : InhibitState K) (a : Fin 3) :
    let ang := max (100 * x.dAngNorm) ((1 - max 0 (min (1 / 100 / x.tc) 1)) * s.angFilt)
    let acc := max (100 * x.dVelNorm) ((1 - max 0 (min (1 / 100 / x.tc) 1)) * s.accFilt)
    let r := inhibitUpdate x s
    (r.inhibit a = true ↔ x.maskInhibit = true ∨ x.gyrLim < ang ∨ x.accLim < acc ∨ x.badAccVertical = true ∨
      (|x.rot2 a| ≤ 8 / 10 ∧ x.inAir = false) ∨ x.clipping a = true) ∧
    r.prevVar a = (if r.inhibit a = true ∧ s.inhibit a = false then s.P (accIdx a) (accIdx a) else s.prevVar a) ∧
    r.P (accIdx a) (accIdx a) = (if r.inhibit a = false ∧ s.inhibit a = true then s.prevVar a else s.P (accIdx a) (accIdx a)) ∧
    (∀ i j, (∀ b, ¬ (i = accIdx b ∧ j = accIdx b)) → r.P i j = s.P i j) ∧ r.angFilt = ang ∧ r.accFilt = acc := by
  intro ang acc r
  have hbeta : (1 : K) - constrain (filterPeriod / x.tc) 0 1 = 1 - max 0 (min (1 / 100 / x.tc) 1) := by
    rw [constrain_eq (by norm_num)]; rfl
  have he : envelope x s = (ang, acc) := by
    simp only [envelope, hbeta]
    have : (1 : K) / filterPeriod = 100 := by unfold filterPeriod; norm_num
    rw [this]
  have hr : r = inhibitStep x ang acc (inhibitStep x ang acc (inhibitStep x ang acc
      { s with angFilt := ang, accFilt := acc } 0) 1) 2 := by
    simp only [r, inhibitUpdate, he, List.foldl_cons, List.foldl_nil]
  set s0 : InhibitState K := { s with angFilt := ang, accFilt := acc } with hs0
  set s1 := inhibitStep x ang acc s0 0 with hs1
  set s2 := inhibitStep x ang acc s1 1 with hs2
  set s3 := inhibitStep x ang acc s2 2 with hs3
  obtain ⟨a1, a2, a3, a4, a5, a6, a7⟩ := inhibitStep_self x ang acc s0 0
  obtain ⟨b1, b2, b3, b4, b5, b6, b7⟩ := inhibitStep_self x ang acc s1 1
  obtain ⟨c1, c2, c3, c4, c5, c6, c7⟩ := inhibitStep_self x ang acc s2 2
  rw [← hs1] at a1 a2 a3 a4 a5 a6 a7
  rw [← hs2] at b1 b2 b3 b4 b5 b6 b7
  rw [← hs3] at c1 c2 c3 c4 c5 c6 c7
  have n : ∀ b c : Fin 3, b ≠ c → ¬ (accIdx b = accIdx c ∧ accIdx b = accIdx c) := fun b c h hh => h (accIdx_inj.mp hh.1)
  have key : ∀ a : Fin 3, s3.inhibit a = inhibitAxis x ang acc a ∧
      s3.prevVar a = (if inhibitAxis x ang acc a = true ∧ s.inhibit a = false then s.P (accIdx a) (accIdx a) else s.prevVar a) ∧
      s3.P (accIdx a) (accIdx a) =
        (if inhibitAxis x ang acc a = false ∧ s.inhibit a = true then s.prevVar a else s.P (accIdx a) (accIdx a)) := by
    intro a
    fin_cases a
    · refine ⟨?_, ?_, ?_⟩
      · exact ((c4 0 (by decide)).1.trans (b4 0 (by decide)).1).trans a1
      · exact ((c4 0 (by decide)).2.trans (b4 0 (by decide)).2).trans a2
      · exact ((c5 _ _ (n 0 2 (by decide))).trans (b5 _ _ (n 0 1 (by decide)))).trans a3
    · refine ⟨?_, ?_, ?_⟩
      · exact (c4 1 (by decide)).1.trans b1
      · show s3.prevVar 1 = _
        rw [(c4 1 (by decide)).2, b2, (a4 1 (by decide)).1, (a4 1 (by decide)).2, a5 _ _ (n 1 0 (by decide))]; rfl
      · show s3.P (accIdx 1) (accIdx 1) = _
        rw [c5 _ _ (n 1 2 (by decide)), b3, (a4 1 (by decide)).1, (a4 1 (by decide)).2, a5 _ _ (n 1 0 (by decide))]; rfl
    · refine ⟨c1, ?_, ?_⟩
      · show s3.prevVar 2 = _
        rw [c2, (b4 2 (by decide)).1, (b4 2 (by decide)).2, b5 _ _ (n 2 1 (by decide)), (a4 2 (by decide)).1,
          (a4 2 (by decide)).2, a5 _ _ (n 2 0 (by decide))]; rfl
      · show s3.P (accIdx 2) (accIdx 2) = _
        rw [c3, (b4 2 (by decide)).1, (b4 2 (by decide)).2, b5 _ _ (n 2 1 (by decide)), (a4 2 (by decide)).1,
          (a4 2 (by decide)).2, a5 _ _ (n 2 0 (by decide))]; rfl
  obtain ⟨k1, k2, k3⟩ := key a
  rw [hr]
  refine ⟨?_, ?_, ?_, ?_, ?_, ?_⟩
  · rw [k1]
    simp only [inhibitAxis, inhibitAll, Bool.or_eq_true, Bool.not_eq_true', Bool.or_eq_false_iff, decide_eq_true_eq,
      decide_eq_false_iff_not, gt_iff_lt, not_lt, or_assoc]
  · rw [k1, k2]
  · rw [k1, k3]
  · intro i j hij
    rw [c5 i j (hij 2), b5 i j (hij 1), a5 i j (hij 0)]
  · rw [c6, b6, a6]
  · rw [c7, b7, a7]

/-- successive predictions -/
def inhibitRun (s : InhibitState K) : List (InhibitIn K) → InhibitState K
  | [] => s
  | x :: l => inhibitRun (inhibitUpdate x s) l

/-- **C77 (hold-off after a manoeuvre).** With `β = 1 - dt/tc` (`dt` 10 ms, `tc ≥ 10 ms`): after `n` further predictions,
whatever the motion, all axes are inhibited as long as `βⁿ` times the earlier rate (acceleration) peak exceeds the limit. -/
theorem inhibit_hold (tc gyrLim accLim : K) (htc : 1 / 100 ≤ tc) (l : List (InhibitIn K)) (hne : l ≠ [])
    (hl : ∀ x ∈ l, x.tc = tc ∧ x.gyrLim = gyrLim ∧ x.accLim = accLim) (s : InhibitState K)
    (h : gyrLim < (1 - 1 / 100 / tc) ^ l.length * s.angFilt ∨ accLim < (1 - 1 / 100 / tc) ^ l.length * s.accFilt) (a : Fin 3) :
    (inhibitRun s l).inhibit a = true := by
  have htc0 : 0 < tc := lt_of_lt_of_le (by norm_num) htc
  have hb0 : (0 : K) ≤ 1 - 1 / 100 / tc := by
    rw [sub_nonneg, div_le_one htc0]; exact htc
  have hbeta : ∀ x ∈ l, (1 : K) - max 0 (min (1 / 100 / x.tc) 1) = 1 - 1 / 100 / tc := by
    intro x hx
    rw [(hl x hx).1, min_eq_left (by linarith), max_eq_right (by positivity)]
  induction l generalizing s with
  | nil => exact absurd rfl hne
  | cons x l ih =>
    obtain ⟨h1, -, -, -, h5, h6⟩ := inhibit_spec x s a
    rw [hbeta x (by simp)] at h1 h5 h6
    have hang : (1 - 1 / 100 / tc) * s.angFilt ≤ (inhibitUpdate x s).angFilt := by rw [h5]; exact le_max_right _ _
    have hacc : (1 - 1 / 100 / tc) * s.accFilt ≤ (inhibitUpdate x s).accFilt := by rw [h6]; exact le_max_right _ _
    obtain ⟨t1, t2, t3⟩ := hl x (by simp)
    rcases l with _ | ⟨y, l⟩
    · show (inhibitUpdate x s).inhibit a = true
      rw [h1, t2, t3]
      simp only [List.length_cons, List.length_nil, zero_add, pow_one] at h
      rcases h with h | h
      · exact Or.inr (Or.inl (lt_of_lt_of_le h (le_max_right _ _)))
      · exact Or.inr (Or.inr (Or.inl (lt_of_lt_of_le h (le_max_right _ _))))
    · show (inhibitRun (inhibitUpdate x s) (y :: l)).inhibit a = true
      refine ih (by simp) (fun z hz => hl z (List.mem_cons_of_mem _ hz)) _ ?_ (fun z hz => hbeta z (List.mem_cons_of_mem _ hz))
      have hp : (0 : K) ≤ (1 - 1 / 100 / tc) ^ (y :: l).length := pow_nonneg hb0 _
      rcases h with h | h
      · left
        refine lt_of_lt_of_le h ?_
        rw [List.length_cons, pow_succ, mul_assoc]
        exact mul_le_mul_of_nonneg_left hang hp
      · right
        refine lt_of_lt_of_le h ?_
        rw [List.length_cons, pow_succ, mul_assoc]
        exact mul_le_mul_of_nonneg_left hacc hp

/-- Non-vacuity: with the default 0.5 s time constant a 10 rad/s peak keeps a 3 rad/s limit exceeded for 59 steps. -/
example : (3 : ℚ) < (1 - 1 / 100 / (1 / 2)) ^ 59 * 10 ∧ (1 : ℚ) / 100 ≤ 1 / 2 := by norm_num

/-! ### C78 -/

/-- **C78 (growth stops).** Process noise of the field states is zero outside 3-axis mode or once the three variances sum
to 0.1 or more; of the wind states when unused or once their variances sum to the squared initial uncertainty or more. -/
theorem process_noise_stops (x : NoiseIn K) (hr : K) (P : Mat K) (i : Fin N) :
    (16 ≤ i.val → i.val < 19 → (x.mag3D = false ∨ 1 / 10 ≤ P 16 16 + P 17 17 + P 18 18) → processNoise x hr P i = 0) ∧
    (19 ≤ i.val → i.val < 22 → (x.mag3D = false ∨ 1 / 10 ≤ P 19 19 + P 20 20 + P 21 21) → processNoise x hr P i = 0) ∧
    (22 ≤ i.val → (x.wind = false ∨ x.initialWindUnc ^ 2 ≤ P 22 22 + P 23 23) → processNoise x hr P i = 0) := by
  refine ⟨fun h h' hc => ?_, fun h h' hc => ?_, fun h hc => ?_⟩
  · have hn : ¬ (x.mag3D = true ∧ P 16 16 + P 17 17 + P 18 18 < 1 / 10) := by
      rintro ⟨a, b⟩; rcases hc with hc | hc
      · rw [hc] at a; cases a
      · exact absurd b (not_lt.mpr hc)
    simp only [processNoise]
    rw [if_neg (by omega), if_neg (by omega), if_neg (by omega), if_pos (by omega), if_neg hn]; unfold sq; ring
  · have hn : ¬ (x.mag3D = true ∧ P 19 19 + P 20 20 + P 21 21 < 1 / 10) := by
      rintro ⟨a, b⟩; rcases hc with hc | hc
      · rw [hc] at a; cases a
      · exact absurd b (not_lt.mpr hc)
    simp only [processNoise]
    rw [if_neg (by omega), if_neg (by omega), if_neg (by omega), if_neg (by omega), if_pos (by omega), if_neg hn]; unfold sq; ring
  · have hn : ¬ (x.wind = true ∧ P 22 22 + P 23 23 < sq x.initialWindUnc) := by
      rintro ⟨a, b⟩; rcases hc with hc | hc
      · rw [hc] at a; cases a
      · exact absurd b (not_lt.mpr (by unfold sq; linarith [hc, pow_two x.initialWindUnc]))
    simp only [processNoise]
    rw [if_neg (by omega), if_neg (by omega), if_neg (by omega), if_neg (by omega), if_neg (by omega), if_neg hn]; unfold sq; ring

/-- **C78 (values).** Otherwise the variance per 10 ms step is the squared parameter, limited to `[0, 1]`, times `dt`
(field, wind; wind additionally scaled with the filtered climb rate) or `dt²` (IMU biases). -/
theorem process_noise_values (x : NoiseIn K) (hr : K) (P : Mat K) (i : Fin N) :
    (10 ≤ i.val → i.val < 13 → processNoise x hr P i = (max 0 (min x.gyroBiasPNoise 1) / 10000) ^ 2) ∧
    (13 ≤ i.val → i.val < 16 → processNoise x hr P i = (max 0 (min x.accelBiasPNoise 1) / 10000) ^ 2) ∧
    (16 ≤ i.val → i.val < 19 → x.mag3D = true → P 16 16 + P 17 17 + P 18 18 < 1 / 10 →
      processNoise x hr P i = (max 0 (min x.mageNoise 1) / 100) ^ 2) ∧
    (19 ≤ i.val → i.val < 22 → x.mag3D = true → P 19 19 + P 20 20 + P 21 21 < 1 / 10 →
      processNoise x hr P i = (max 0 (min x.magbNoise 1) / 100) ^ 2) ∧
    (22 ≤ i.val → x.wind = true → P 22 22 + P 23 23 < x.initialWindUnc ^ 2 →
      processNoise x hr P i = (max 0 (min x.windNoise 1) / 100 * (1 + x.windScaler * |hr|)) ^ 2) := by
  have hc : ∀ v : K, constrain v 0 1 = max 0 (min v 1) := fun v => constrain_eq (by norm_num)
  refine ⟨fun h h' => ?_, fun h h' => ?_, fun h h' h3 h4 => ?_, fun h h' h3 h4 => ?_, fun h h3 h4 => ?_⟩ <;>
    simp only [processNoise, hc]
  · rw [if_neg (by omega), if_pos (by omega)]; unfold sq filterPeriod; ring
  · rw [if_neg (by omega), if_neg (by omega), if_pos (by omega)]; unfold sq filterPeriod; ring
  · rw [if_neg (by omega), if_neg (by omega), if_neg (by omega), if_pos (by omega), if_pos ⟨h3, h4⟩]; unfold sq filterPeriod; ring
  · rw [if_neg (by omega), if_neg (by omega), if_neg (by omega), if_neg (by omega), if_pos (by omega), if_pos ⟨h3, h4⟩]
    unfold sq filterPeriod; ring
  · have : x.wind = true ∧ P 22 22 + P 23 23 < sq x.initialWindUnc := ⟨h3, by unfold sq; rw [← pow_two]; exact h4⟩
    rw [if_neg (by omega), if_neg (by omega), if_neg (by omega), if_neg (by omega), if_neg (by omega), if_pos this]
    unfold sq filterPeriod; ring

/-- **C78 (never negative).** -/
theorem process_noise_nonneg (x : NoiseIn K) (hr : K) (P : Mat K) (i : Fin N) : 0 ≤ processNoise x hr P i := by
  simp only [processNoise]
  repeat' split
  all_goals first | exact le_rfl | exact mul_self_nonneg _

/-- **C78 (IMU noise).** Gyro: limited parameter times `dt`.  Accelerometer: 4.9 m/s² on a clipped axis, and on every axis
while the vertical accelerometer is faulty; otherwise the limited parameter.  The clipping flag reports clipping of any axis. -/
theorem imu_noise_values (x : NoiseIn K) :
    (imuNoise x).1 = (max 0 (min x.gyroNoise 1) / 100) ^ 2 ∧
    (∀ a, (imuNoise x).2.1 a = if x.clipping a = true ∨ x.badAccVertical = true then (49 / 1000) ^ 2
      else (max 0 (min x.accelNoise 1) / 100) ^ 2) ∧
    ((imuNoise x).2.2 = true ↔ ∃ a, x.clipping a = true) := by
  have hc : ∀ v : K, constrain v 0 1 = max 0 (min v 1) := fun v => constrain_eq (by norm_num)
  refine ⟨?_, fun a => ?_, ?_⟩
  · simp only [imuNoise, hc]; unfold sq filterPeriod; ring
  · simp only [imuNoise, hc]
    cases x.clipping a <;> cases x.badAccVertical <;> simp [sq, filterPeriod] <;> ring
  · simp only [imuNoise, Bool.or_eq_true]
    constructor
    · rintro ((h | h) | h)
      · exact ⟨0, h⟩
      · exact ⟨1, h⟩
      · exact ⟨2, h⟩
    · rintro ⟨a, h⟩; fin_cases a
      · exact Or.inl (Or.inl h)
      · exact Or.inl (Or.inr h)
      · exact Or.inr h

/-- **C78 (height rate filter).** The filtered climb rate is a convex combination: it stays within any interval containing
the previous value and the velocity. -/
theorem heightRate_convex (p v lo hi : K) (hp : lo ≤ p ∧ p ≤ hi) (hv : lo ≤ v ∧ v ≤ hi) :
    lo ≤ heightRateLpf p v ∧ heightRateLpf p v ≤ hi ∧ heightRateLpf p v = p + (v - p) / 1000 := by
  have : heightRateLpf p v = p + (v - p) / 1000 := by unfold heightRateLpf filterPeriod; ring
  rw [this]
  refine ⟨?_, ?_, rfl⟩
  · linarith [hp.1, hv.1]
  · linarith [hp.2, hv.2]

/-- Non-vacuity. -/
example : ∃ x : NoiseIn ℚ, x.mag3D = true ∧ processNoise x 0 (fun i j => if i = j then 1 / 100 else 0) 16 = (1 / 100000) ^ 2 :=
  ⟨⟨1, 1, 1 / 1000, 1, 1, 1, 1, 1, 1, true, true, false, fun _ => false, 0⟩, rfl, by decide +kernel⟩

end Ecl.Cov
