import Verif.Whole.SignFuse
import Verif.Meas.Vision
import Verif.Whole.CovInv

/-!
# What a reset to vision leaves behind (C165)

EKF/control.cpp:226-327.  When vision position (velocity) has not been accepted for a while the filter is reset to it.  The innovation is computed before the
reset and fused after it, so the position the reset has just set is corrected once more, by the error it no longer has.
-/

namespace Ecl.Whole

open Ecl.Cov Ecl.Fusion Ecl.Ekf Ecl.Meas

noncomputable section

/-! ## Model -/

/-- vision position of one sample, EKF/control.cpp:227-302: observation and innovation (`Meas.evPosObs`), then, for absolute positions, the resets after
a timeout (`posLost` = `isTimedOut(_time_last_hor_pos_fuse, reset_timeout_max)`, `velLost` = flow and velocity both without fusion for 1 s), then the
fusion.  `rx` = what the resets read -/
def evPosStep (x : FixIn ℝ) (p : EvPar) (R : M3 ℝ) (d : EvData) (rx : RIn) (aux : Est ℝ) (posLost velLost : Bool) (m : EvMem) (st : VPSt) : EvMem × VPOut :=
  let r := evPosObs p (evCorrect p R d) ![st.f.s 7, st.f.s 8] m
  let f :=
    if !p.modeGps && posLost then
      let f := if velLost then onEst (Meas.resetVelocity rx) aux st.f else st.f
      onEst (Meas.resetHorizontalPosition rx) aux f
    else st.f
  (r.1, fuseHorizontalPosition ⟨x, false, r.1.asOdom⟩ (r.1.innov 0) (r.1.innov 1) (max p.posGate 1) (r.2 0) (r.2 1) false { st with f := f })

/-- vision velocity of one sample, EKF/control.cpp:304-327; `lost` = no velocity fused for `reset_timeout_max` and neither flow nor position for 1 s;
the result of the horizontal and of the vertical fusion -/
def evVelStep (x : VPIn) (p : EvPar) (R REv : M3 ℝ) (w : V3 ℝ) (d : EvData) (rx : RIn) (aux : Est ℝ) (lost : Bool) (st : VPSt) : VPOut × VPOut :=
  let o := evVelObs p R REv w d
  let i : V3 ℝ := ![st.f.s 4 - o.1 0, st.f.s 5 - o.1 1, st.f.s 6 - o.1 2]
  let f := if lost then onEst (Meas.resetVelocity rx) aux st.f else st.f
  let g := max p.velGate 1
  let h := fuseHorizontalVelocity x (i 0) (i 1) g (o.2 0) (o.2 1) { st with f := f }
  (h, fuseVerticalVelocity x (i 2) g (o.2 2) h.st)

/-! ## Proof -/

/-- state `q` is not correlated with any other -/
def Lone (P : Mat ℝ) (q : Fin N) : Prop := ∀ r, r ≠ q → P r q = 0 ∧ P q r = 0

def flip1 (q : Fin N) : Fin N → ℝ := fun i => if i = q then -1 else 1

theorem flip1_sign (q : Fin N) : IsSign (flip1 q) := by
  intro i; unfold flip1; split <;> norm_num

theorem lone_iff (P : Mat ℝ) (q : Fin N) : Lone P q ↔ sgM (flip1 q) P = P := by
  constructor
  · intro h
    funext i j
    unfold sgM flip1
    by_cases hi : i = q <;> by_cases hj : j = q
    · rw [if_pos hi, if_pos hj]; ring
    · subst hi; rw [(h j hj).2]; ring
    · subst hj; rw [(h i hi).1]; ring
    · rw [if_neg hi, if_neg hj]; ring
  · intro h r hr
    have h1 := congrFun (congrFun h r) q
    have h2 := congrFun (congrFun h q) r
    unfold sgM flip1 at h1 h2
    rw [if_pos rfl, if_neg hr] at h1 h2
    exact ⟨by linarith, by linarith⟩

theorem lone_fix {P : Mat ℝ} {q : Fin N} (h : Lone P q) (x : FixIn ℝ) (fo : Bool) (t : UInt64) (fl : Bool) : Lone (fixCovarianceErrors x fo t fl P).1 q := by
  rw [lone_iff] at h ⊢
  have := sg_fixCov (flip1_sign q) x fo t fl P
  rw [h] at this
  exact (congrArg Prod.fst this).symm

/-- one direct observation, possibly of variance zero, of a state that is not correlated with any other -/
theorem fuse_alone (x : VPIn) (v r : ℝ) (hr : 0 ≤ r) (o : Fin 6) (st : VPSt) (hl : Lone st.f.P (obsState o)) (hd : ∀ i, 0 ≤ st.f.P i i)
    (hpr : 0 < st.f.P (obsState o) (obsState o) + r) :
    let f := (fuseVelPosHeight x v (st.f.P (obsState o) (obsState o) + r) o st).f
    f.s (obsState o) = st.f.s (obsState o) - st.f.P (obsState o) (obsState o) / (st.f.P (obsState o) (obsState o) + r) * v ∧
      (∀ j : Fin N, 4 ≤ j.val → j ≠ obsState o → f.s j = st.f.s j) ∧ (∀ q, Lone st.f.P q → Lone f.P q) ∧ (∀ i, 0 ≤ f.P i i) ∧
      (∀ q : Fin N, 4 ≤ q.val → q.val < 10 → q ≠ obsState o → 1 / 1000000 ≤ st.f.P q q → st.f.P q q ≤ 1000000 → f.P q q = st.f.P q q) ∧
      f.P (obsState o) (obsState o) = max (1 / 1000000)
        (min (st.f.P (obsState o) (obsState o) * r / (st.f.P (obsState o) (obsState o) + r)) 1000000) := by
  obtain ⟨f, hf⟩ : ∃ f, f = (fuseVelPosHeight x v (st.f.P (obsState o) (obsState o) + r) o st).f := ⟨_, rfl⟩
  rw [← hf]
  intro f'
  have hq : f' = f := rfl
  rw [hq]
  clear hq f'
  have ho4 : 4 ≤ (obsState o).val := by show 4 ≤ o.val + 4; omega
  have ho10 : (obsState o).val < 10 := by show o.val + 4 < 10; omega
  obtain ⟨q, hq⟩ : ∃ q, q = obsState o := ⟨_, rfl⟩
  rw [← hq] at hf hl ho4 ho10 hpr ⊢
  set p := st.f.P q q with hp
  have hp0 : 0 ≤ p := hd q
  set k : Vec ℝ := fun row => st.f.P row q / (p + r) with hk
  set khp : Mat ℝ := fun row col => k row * st.f.P q col with hkhp
  have hk0 : ∀ j, j ≠ q → k j = 0 := fun j hj => by show st.f.P j q / (p + r) = 0; rw [(hl j hj).1, zero_div]
  have hkk : ∀ i j, ¬ (i = q ∧ j = q) → khp i j = 0 := by
    intro i j hij
    show k i * st.f.P q j = 0
    by_cases hi : i = q
    · rw [(hl j fun h => hij ⟨hi, h⟩).2, mul_zero]
    · rw [hk0 i hi, zero_mul]
  have hle : ∀ i, ¬ st.f.P i i < khp i i := by
    intro i
    by_cases hi : i = q
    · subst hi
      show ¬ (p < p / (p + r) * p)
      have : p / (p + r) ≤ 1 := (div_le_one hpr).mpr (by linarith)
      nlinarith
    · rw [hkk i i fun h => hi h.1]; exact not_lt.mpr (hd i)
  have hc : checkAndFix khp st.f.P = (st.f.P, true) := by
    have key : ∀ l : List (Fin N), l.foldl (checkStep khp) (st.f.P, true) = (st.f.P, true) := by
      intro l
      induction l with
      | nil => rfl
      | cons a l ih =>
        rw [List.foldl_cons, show checkStep khp (st.f.P, true) a = (st.f.P, true) from if_neg (hle a)]
        exact ih
    exact key _
  have e : f = { st.f with s := fuseState st.f.s k v, M := { st.f.M with P := (fixCovarianceErrors x.fx true st.f.timeCheck st.f.badAccBias (fun i j => st.f.P i j - khp i j)).1 }, timeCheck := (fixCovarianceErrors x.fx true st.f.timeCheck st.f.badAccBias (fun i j => st.f.P i j - khp i j)).2.1, badAccBias := (fixCovarianceErrors x.fx true st.f.timeCheck st.f.badAccBias (fun i j => st.f.P i j - khp i j)).2.2 } := by
    rw [hf]
    unfold fuseVelPosHeight
    dsimp only
    rw [← hq]
    rw [show checkAndFix (fun row col => st.f.P row q / (p + r) * st.f.P q col) st.f.P = (st.f.P, true) from hc]
    rfl
  have eP : f.P = (fixCovarianceErrors x.fx true st.f.timeCheck st.f.badAccBias (fun i j => st.f.P i j - khp i j)).1 := by rw [e]
  have es : f.s = fuseState st.f.s k v := by rw [e]
  have hs : ∀ j : Fin N, 4 ≤ j.val → f.s j = st.f.s j - k j * v := by
    intro j hj
    rw [es]
    unfold fuseState
    dsimp only
    rw [if_neg (by omega)]
  refine ⟨?_, ?_, ?_, ?_, ?_, ?_⟩
  · rw [hs q ho4]
  · intro j hj hne
    rw [hs j hj, hk0 j hne, zero_mul, sub_zero]
  · intro c hcl
    rw [eP]
    refine lone_fix (fun r hr => ?_) _ _ _ _
    have h1 : khp r c = 0 := by
      by_cases h : r = q ∧ c = q
      · exact absurd (h.1.trans h.2.symm) hr
      · exact hkk _ _ h
    have h2 : khp c r = 0 := by
      by_cases h : c = q ∧ r = q
      · exact absurd (h.2.trans h.1.symm) hr
      · exact hkk _ _ h
    show st.f.P r c - khp r c = 0 ∧ st.f.P c r - khp c r = 0
    rw [h1, h2, (hcl r hr).1, (hcl r hr).2]
    exact ⟨sub_zero _, sub_zero _⟩
  · intro i
    rw [eP]
    refine fix_var_nonneg _ _ _ _ _ (fun a _ => ?_) i
    have := not_lt.mp (hle (accIdx a))
    show 0 ≤ st.f.P (accIdx a) (accIdx a) - khp (accIdx a) (accIdx a)
    linarith
  · intro c h4 h10 hne hlo hhi
    rw [eP]
    obtain ⟨_, l2, _⟩ := fix_variance_limits x.fx true st.f.timeCheck st.f.badAccBias (fun i j => st.f.P i j - khp i j) c
    rw [l2 h4 h10]
    show max (1 / 1000000) (min (st.f.P c c - khp c c) 1000000) = _
    rw [hkk c c fun h => hne h.1, sub_zero, min_eq_left hhi, max_eq_right hlo]
  · rw [eP]
    obtain ⟨_, l2, _⟩ := fix_variance_limits x.fx true st.f.timeCheck st.f.badAccBias (fun i j => st.f.P i j - khp i j) q
    rw [l2 ho4 ho10]
    show max (1 / 1000000) (min (p - p / (p + r) * p) 1000000) = _
    have : p - p / (p + r) * p = p * r / (p + r) := by
      field_simp
      ring
    rw [this]

/-- one direct observation of a state that is not correlated with any other -/
theorem fuse_lone (x : VPIn) (v r : ℝ) (hr : 0 < r) (o : Fin 6) (st : VPSt) (hl : Lone st.f.P (obsState o)) (hd : ∀ i, 0 ≤ st.f.P i i) :
    let f := (fuseVelPosHeight x v (st.f.P (obsState o) (obsState o) + r) o st).f
    f.s (obsState o) = st.f.s (obsState o) - st.f.P (obsState o) (obsState o) / (st.f.P (obsState o) (obsState o) + r) * v ∧
      (∀ j : Fin N, 4 ≤ j.val → j ≠ obsState o → f.s j = st.f.s j) ∧ (∀ q, Lone st.f.P q → Lone f.P q) ∧ (∀ i, 0 ≤ f.P i i) ∧
      (∀ q : Fin N, 4 ≤ q.val → q.val < 10 → q ≠ obsState o → 1 / 1000000 ≤ st.f.P q q → st.f.P q q ≤ 1000000 → f.P q q = st.f.P q q) := by
  obtain ⟨a, b, c, d, e, -⟩ := fuse_alone x v r hr.le o st hl hd (by have := hd (obsState o); linarith)
  exact ⟨a, b, c, d, e⟩

theorem uncorrSet_lone (k n : ℕ) (var : Fin N → ℝ) (P : Mat ℝ) (q : Fin N) (hq : inBlk k n q) : Lone (uncorrSet k n var P) q := by
  intro r hr
  unfold uncorrSet
  rw [if_pos (Or.inr hq), if_neg hr, if_pos (Or.inl hq), if_neg (Ne.symm hr)]
  exact ⟨rfl, rfl⟩

theorem uncorrSet_in (k n : ℕ) (var : Fin N → ℝ) (P : Mat ℝ) (q : Fin N) (hq : inBlk k n q) : uncorrSet k n var P q q = var q := by
  unfold uncorrSet
  rw [if_pos (Or.inr hq), if_pos rfl]

theorem uncorrSet_nonneg (k n : ℕ) (var : Fin N → ℝ) (P : Mat ℝ) (hv : ∀ q, inBlk k n q → 0 ≤ var q) (hP : ∀ i, 0 ≤ P i i) (i : Fin N) :
    0 ≤ uncorrSet k n var P i i := by
  unfold uncorrSet
  split
  · rename_i h
    rw [if_pos rfl]
    exact hv i (h.elim id id)
  · exact hP i

theorem velReset_nonneg (rx : RIn) (aux : Est ℝ) (f : Filt) (hv : ∀ i, 0 ≤ rx.visVelVar i) (hf : 0 ≤ rx.flowVar) (hd : ∀ i, 0 ≤ f.P i i) (i : Fin N) :
    0 ≤ (onEst (Meas.resetVelocity rx) aux f).P i i := by
  show 0 ≤ (Meas.resetVelocity rx ⟨{ aux with state := toState f.s }, f.P, true⟩).P i i
  unfold Meas.resetVelocity
  split
  · exact uncorrSet_nonneg _ _ _ _ (fun _ _ => mul_self_nonneg _) hd i
  split
  · exact uncorrSet_nonneg _ _ _ _ (fun _ _ => mul_nonneg (mul_self_nonneg _) hf) hd i
  split
  · refine uncorrSet_nonneg _ _ _ _ (fun q _ => ?_) hd i
    unfold blkVar
    beta_reduce
    split_ifs
    · exact hv 0
    · exact hv 1
    · exact hv 2
  · exact uncorrSet_nonneg 4 2 (fun _ => (25 : ℝ)) f.P (fun _ _ => by norm_num) hd i

theorem gate_iff (i g r : ℝ) (hg : 0 < g) (hr : 0 < r) : sq i / (sq g * (r + r)) ≤ 1 ↔ i ^ 2 ≤ 2 * g ^ 2 * r := by
  unfold sq
  rw [div_le_one (by positivity)]
  constructor <;> intro h <;> nlinarith

/-! ## Theorems -/

/-- **C165 (position).** Vision position not accepted for the timeout, one sample of variance `posVar` (0.01² to 1000² m²), no rotation of the vision frame:
the filter is reset to the measured position, and then corrected by the old error.  If the old error is within the gate of the new variances, the estimate ends
on the other side of the measurement, half the old error away, on both axes; otherwise it stays at the measurement. -/
theorem vision_reset_overshoots (x : FixIn ℝ) (p : EvPar) (R : M3 ℝ) (d : EvData) (rx : RIn) (aux : Est ℝ) (velLost : Bool) (m : EvMem) (st : VPSt)
    (hm : p.modeGps = false) (hr : p.rotate = false) (h1 : rx.gps = false) (h2 : rx.evPos = true) (h3 : rx.rotateEv = false)
    (h4 : rx.evPosMeas = (evCorrect p R d).pos) (h5 : rx.evPosVar = d.posVar) (hv : ∀ i, 1 / 10000 ≤ d.posVar i ∧ d.posVar i ≤ 1000000)
    (hvv : ∀ i, 0 ≤ rx.visVelVar i) (hfv : 0 ≤ rx.flowVar) (hd : ∀ i, 0 ≤ st.f.P i i) :
    let z := (evCorrect p R d).pos
    let g := max p.posGate 1
    let out := (evPosStep x p R d rx aux true velLost m st).2
    ((st.f.s 7 - z 0) ^ 2 ≤ 2 * g ^ 2 * d.posVar 0 ∧ (st.f.s 8 - z 1) ^ 2 ≤ 2 * g ^ 2 * d.posVar 1 →
      out.ret = true ∧ out.st.f.s 7 = z 0 - (st.f.s 7 - z 0) / 2 ∧ out.st.f.s 8 = z 1 - (st.f.s 8 - z 1) / 2) ∧
    (¬ ((st.f.s 7 - z 0) ^ 2 ≤ 2 * g ^ 2 * d.posVar 0 ∧ (st.f.s 8 - z 1) ^ 2 ≤ 2 * g ^ 2 * d.posVar 1) →
      out.ret = false ∧ out.st.f.s 7 = z 0 ∧ out.st.f.s 8 = z 1) := by
  intro z g out
  have hg : 0 < g := lt_of_lt_of_le one_pos (le_max_right _ _)
  set n := st.f.s 7 with hn
  set e := st.f.s 8 with he
  set v0 := d.posVar 0 with hv0
  set v1 := d.posVar 1 with hv1
  have p0 : 0 < v0 := lt_of_lt_of_le (by norm_num) (hv 0).1
  have p1 : 0 < v1 := lt_of_lt_of_le (by norm_num) (hv 1).1
  -- the filter after the resets
  set fv := if velLost then onEst (Meas.resetVelocity rx) aux st.f else st.f with hfvd
  have hdv : ∀ i, 0 ≤ fv.P i i := by
    intro i
    rw [hfvd]
    split
    · exact velReset_nonneg rx aux st.f hvv hfv hd i
    · exact hd i
  set f := onEst (Meas.resetHorizontalPosition rx) aux fv with hf
  have hre : Meas.resetHorizontalPosition rx ⟨{ aux with state := toState fv.s }, fv.P, true⟩ = posToVision rx ⟨{ aux with state := toState fv.s }, fv.P, false⟩ := by
    unfold Meas.resetHorizontalPosition
    rw [h1, h2]
    rfl
  have hfP : f.P = uncorrSet 7 2 (blkVar 7 fun k => if k = 0 then v0 else v1) fv.P := by
    show (Meas.resetHorizontalPosition rx ⟨{ aux with state := toState fv.s }, fv.P, true⟩).P = _
    rw [hre]
    unfold posToVision
    dsimp only
    rw [h5]
  have hst : (Meas.resetHorizontalPosition rx ⟨{ aux with state := toState fv.s }, fv.P, true⟩).est.state.pos = setXY (toState fv.s).pos ![z 0, z 1] := by
    rw [hre]
    unfold posToVision
    rw [h3, h4]
    rfl
  have hf7 : f.s 7 = z 0 := by
    show (Meas.resetHorizontalPosition rx ⟨{ aux with state := toState fv.s }, fv.P, true⟩).est.state.pos 0 = _
    rw [hst]
    rfl
  have hf8 : f.s 8 = z 1 := by
    show (Meas.resetHorizontalPosition rx ⟨{ aux with state := toState fv.s }, fv.P, true⟩).est.state.pos 1 = _
    rw [hst]
    rfl
  have b7 : inBlk 7 2 (7 : Fin N) := by unfold inBlk; decide
  have b8 : inBlk 7 2 (8 : Fin N) := by unfold inBlk; decide
  have q7 : f.P 7 7 = v0 := by rw [hfP, uncorrSet_in 7 2 _ _ 7 b7]; rfl
  have q8 : f.P 8 8 = v1 := by rw [hfP, uncorrSet_in 7 2 _ _ 8 b8]; rfl
  have l7 : Lone f.P 7 := by rw [hfP]; exact uncorrSet_lone 7 2 _ _ 7 b7
  have l8 : Lone f.P 8 := by rw [hfP]; exact uncorrSet_lone 7 2 _ _ 8 b8
  have hdf : ∀ i, 0 ≤ f.P i i := by
    intro i
    rw [hfP]
    refine uncorrSet_nonneg _ _ _ _ (fun q _ => ?_) hdv i
    unfold blkVar
    beta_reduce
    split
    · exact p0.le
    · exact p1.le
  -- the fusion
  have hout : out = fuseHorizontalPosition ⟨x, false, false⟩ (n - z 0) (e - z 1) g v0 v1 false { st with f := f } := by
    show (evPosStep x p R d rx aux true velLost m st).2 = _
    have a0 : max v0 (sq (1 / 100)) = v0 := max_eq_left (by unfold sq; linarith [(hv 0).1])
    have a1 : max v1 (sq (1 / 100)) = v1 := max_eq_left (by unfold sq; linarith [(hv 1).1])
    have ho : evPosObs p (evCorrect p R d) ![n, e] m =
        ({ m with innov := fun i => ![n, e] i - z i.castSucc, asOdom := false }, fun i => max (Matrix.diagonal d.posVar i.castSucc i.castSucc) (sq (1 / 100))) := by
      unfold evPosObs
      rw [hm, hr]
      rfl
    unfold evPosStep
    rw [ho, hm]
    have d0 : Matrix.diagonal d.posVar (Fin.castSucc 0) (Fin.castSucc (0 : Fin 2)) = v0 := Matrix.diagonal_apply_eq _ _
    have d1 : Matrix.diagonal d.posVar (Fin.castSucc 1) (Fin.castSucc (1 : Fin 2)) = v1 := Matrix.diagonal_apply_eq _ _
    dsimp only
    rw [d0, d1, a0, a1]
    rfl
  rw [hout]
  unfold fuseHorizontalPosition
  dsimp only
  rw [show ({ st with f := f } : VPSt).f.P 7 7 = v0 from q7, show ({ st with f := f } : VPSt).f.P 8 8 = v1 from q8]
  have hgi : (max (sq (n - z 0) / (sq g * (v0 + v0))) (sq (e - z 1) / (sq g * (v1 + v1))) ≤ 1) ↔
      ((n - z 0) ^ 2 ≤ 2 * g ^ 2 * v0 ∧ (e - z 1) ^ 2 ≤ 2 * g ^ 2 * v1) := by
    rw [max_le_iff, gate_iff _ _ _ hg p0, gate_iff _ _ _ hg p1]
  constructor
  · intro h
    rw [if_pos (Or.inl (hgi.mpr h)), if_neg (by simp)]
    refine ⟨rfl, ?_⟩
    dsimp only
    set s1 : VPSt := { st with f := f, tHpos := x.now, rejHpos := false } with hs1
    have e7 : (obsState 3 : Fin N) = 7 := rfl
    have e8 : (obsState 4 : Fin N) = 8 := rfl
    have A := fuse_lone ⟨x, false, false⟩ (n - z 0) v0 p0 3 s1 (by rw [e7]; exact l7) hdf
    rw [e7, show s1.f.P 7 7 = v0 from q7, show s1.f.s 7 = z 0 from hf7] at A
    obtain ⟨A1, A2, A3, A4, A5⟩ := A
    set s2 := fuseVelPosHeight ⟨x, false, false⟩ (n - z 0) (v0 + v0) 3 s1 with hs2
    have B8 : s2.f.P 8 8 = v1 := by
      rw [A5 8 (by decide) (by decide) (by decide) (by rw [show s1.f.P 8 8 = v1 from q8]; linarith [(hv 1).1]) (by rw [show s1.f.P 8 8 = v1 from q8]; exact (hv 1).2)]
      exact q8
    have B := fuse_lone ⟨x, false, false⟩ (e - z 1) v1 p1 4 s2 (by rw [e8]; exact A3 8 l8) A4
    rw [e8, B8] at B
    obtain ⟨B1, B2, -⟩ := B
    constructor
    · refine (B2 7 (by decide) (by decide)).trans (A1.trans ?_)
      field_simp
      ring
    · refine B1.trans ?_
      rw [A2 8 (by decide) (by decide), show s1.f.s 8 = z 1 from hf8]
      field_simp
      ring
  · intro h
    rw [if_neg (by rw [hgi]; rintro (c | c); exact h c; exact absurd c (by decide))]
    exact ⟨rfl, hf7, hf8⟩

/-- without a timeout the step is the fusion of `Meas.evPosFuse` -/
theorem evPosStep_no_timeout (x : FixIn ℝ) (p : EvPar) (R : M3 ℝ) (d : EvData) (rx : RIn) (aux : Est ℝ) (velLost : Bool) (m : EvMem) (st : VPSt) :
    evPosStep x p R d rx aux false velLost m st = evPosFuse x p R d m st := by
  unfold evPosStep evPosFuse
  rw [Bool.and_false]
  rfl

set_option maxHeartbeats 800000 in
/-- **C165 (velocity).** The same for vision velocity: after the timeout the velocity is set to the measured one and then corrected by the old error, by half of
it to the other side, horizontally if both horizontal errors are within the gate, vertically if the vertical one is. -/
theorem vision_velocity_reset_overshoots (x : VPIn) (p : EvPar) (R REv : M3 ℝ) (w : V3 ℝ) (d : EvData) (rx : RIn) (aux : Est ℝ) (st : VPSt)
    (hb : x.badVertAccel = false) (h1 : rx.gps = false) (h2 : rx.optFlow = false) (h3 : rx.evVel = true) (h4 : rx.visVel = visionVel p R REv w d)
    (h5 : rx.visVelVar = visionVelVar p R REv d) (hv : ∀ i, 1 / 400 ≤ rx.visVelVar i ∧ rx.visVelVar i ≤ 1000000) (hd : ∀ i, 0 ≤ st.f.P i i) :
    let z := rx.visVel
    let g := max p.velGate 1
    let out := evVelStep x p R REv w d rx aux true st
    let H := (st.f.s 4 - z 0) ^ 2 ≤ 2 * g ^ 2 * rx.visVelVar 0 ∧ (st.f.s 5 - z 1) ^ 2 ≤ 2 * g ^ 2 * rx.visVelVar 1
    let V := (st.f.s 6 - z 2) ^ 2 ≤ 2 * g ^ 2 * rx.visVelVar 2
    (H → out.1.ret = true ∧ out.2.st.f.s 4 = z 0 - (st.f.s 4 - z 0) / 2 ∧ out.2.st.f.s 5 = z 1 - (st.f.s 5 - z 1) / 2) ∧
    (¬ H → out.1.ret = false ∧ out.2.st.f.s 4 = z 0 ∧ out.2.st.f.s 5 = z 1) ∧
    (V → out.2.ret = true ∧ out.2.st.f.s 6 = z 2 - (st.f.s 6 - z 2) / 2) ∧ (¬ V → out.2.ret = false ∧ out.2.st.f.s 6 = z 2) := by
  intro z g out H V
  have hg : 0 < g := lt_of_lt_of_le one_pos (le_max_right _ _)
  set n := st.f.s 4 with hn
  set e := st.f.s 5 with he
  set u := st.f.s 6 with hu
  set v0 := rx.visVelVar 0 with hv0
  set v1 := rx.visVelVar 1 with hv1
  set v2 := rx.visVelVar 2 with hv2
  have p0 : 0 < v0 := lt_of_lt_of_le (by norm_num) (hv 0).1
  have p1 : 0 < v1 := lt_of_lt_of_le (by norm_num) (hv 1).1
  have p2 : 0 < v2 := lt_of_lt_of_le (by norm_num) (hv 2).1
  set f := onEst (Meas.resetVelocity rx) aux st.f with hf
  have hre : Meas.resetVelocity rx ⟨{ aux with state := toState st.f.s }, st.f.P, true⟩ = velToVision rx ⟨{ aux with state := toState st.f.s }, st.f.P, true⟩ := by
    unfold Meas.resetVelocity
    rw [h1, h2, h3]
    rfl
  have hfP : f.P = uncorrSet 4 3 (blkVar 4 fun k => if k = 0 then v0 else if k = 1 then v1 else v2) st.f.P := by
    show (Meas.resetVelocity rx ⟨{ aux with state := toState st.f.s }, st.f.P, true⟩).P = _
    rw [hre]
    rfl
  have hst : ∀ i, (Meas.resetVelocity rx ⟨{ aux with state := toState st.f.s }, st.f.P, true⟩).est.state.vel i = z i := by
    intro i
    rw [hre]
    fin_cases i <;> rfl
  have hf4 : f.s 4 = z 0 := hst 0
  have hf5 : f.s 5 = z 1 := hst 1
  have hf6 : f.s 6 = z 2 := hst 2
  have b4 : inBlk 4 3 (4 : Fin N) := by unfold inBlk; decide
  have b5 : inBlk 4 3 (5 : Fin N) := by unfold inBlk; decide
  have b6 : inBlk 4 3 (6 : Fin N) := by unfold inBlk; decide
  have q4 : f.P 4 4 = v0 := by rw [hfP, uncorrSet_in 4 3 _ _ 4 b4]; rfl
  have q5 : f.P 5 5 = v1 := by rw [hfP, uncorrSet_in 4 3 _ _ 5 b5]; rfl
  have q6 : f.P 6 6 = v2 := by rw [hfP, uncorrSet_in 4 3 _ _ 6 b6]; rfl
  have l4 : Lone f.P 4 := by rw [hfP]; exact uncorrSet_lone 4 3 _ _ 4 b4
  have l5 : Lone f.P 5 := by rw [hfP]; exact uncorrSet_lone 4 3 _ _ 5 b5
  have l6 : Lone f.P 6 := by rw [hfP]; exact uncorrSet_lone 4 3 _ _ 6 b6
  have hdf : ∀ i, 0 ≤ f.P i i := by
    intro i
    rw [hfP]
    refine uncorrSet_nonneg _ _ _ _ (fun q _ => ?_) hd i
    unfold blkVar
    beta_reduce
    split_ifs
    · exact p0.le
    · exact p1.le
    · exact p2.le
  have ov : ∀ i, (evVelObs p R REv w d).2 i = rx.visVelVar i := by
    intro i
    show max (visionVelVar p R REv d i) (sq (1 / 20)) = _
    rw [← h5]
    exact max_eq_left (by unfold sq; linarith [(hv i).1])
  have oz : ∀ i, (evVelObs p R REv w d).1 i = z i := by
    intro i
    show visionVel p R REv w d i = rx.visVel i
    rw [h4]
  set h := fuseHorizontalVelocity x (n - z 0) (e - z 1) g v0 v1 { st with f := f } with hh
  have hout : out = (h, fuseVerticalVelocity x (u - z 2) g v2 h.st) := by
    show evVelStep x p R REv w d rx aux true st = _
    unfold evVelStep
    dsimp only
    rw [ov, ov, ov, oz, oz, oz]
    rfl
  have hgi : (max (sq (n - z 0) / (sq g * (v0 + v0))) (sq (e - z 1) / (sq g * (v1 + v1))) ≤ 1) ↔ H := by
    rw [max_le_iff, gate_iff _ _ _ hg p0, gate_iff _ _ _ hg p1]
  -- the horizontal fusion
  have hor : (H → h.ret = true ∧ h.st.f.s 4 = z 0 - (n - z 0) / 2 ∧ h.st.f.s 5 = z 1 - (e - z 1) / 2) ∧ (¬ H → h.ret = false ∧ h.st.f.s 4 = z 0 ∧ h.st.f.s 5 = z 1) ∧
      h.st.f.s 6 = z 2 ∧ h.st.f.P 6 6 = v2 ∧ Lone h.st.f.P 6 ∧ ∀ i, 0 ≤ h.st.f.P i i := by
    have lo : ∀ v, 1 / 400 ≤ v → (1 / 1000000 : ℝ) ≤ v := fun v h => by linarith
    rw [hh]
    unfold fuseHorizontalVelocity
    dsimp only
    rw [show ({ st with f := f } : VPSt).f.P 4 4 = v0 from q4, show ({ st with f := f } : VPSt).f.P 5 5 = v1 from q5]
    by_cases c : H
    · rw [if_pos (hgi.mpr c)]
      dsimp only
      set s1 : VPSt := { st with f := f, tHvel := x.fx.now, rejHvel := false } with hs1
      have e4 : (obsState 0 : Fin N) = 4 := rfl
      have e5 : (obsState 1 : Fin N) = 5 := rfl
      have A := fuse_lone x (n - z 0) v0 p0 0 s1 (by rw [e4]; exact l4) hdf
      rw [e4, show s1.f.P 4 4 = v0 from q4, show s1.f.s 4 = z 0 from hf4] at A
      obtain ⟨A1, A2, A3, A4, A5⟩ := A
      set s2 := fuseVelPosHeight x (n - z 0) (v0 + v0) 0 s1 with hs2
      have B5 : s2.f.P 5 5 = v1 := by
        rw [A5 5 (by decide) (by decide) (by decide) (by rw [show s1.f.P 5 5 = v1 from q5]; exact lo _ (hv 1).1) (by rw [show s1.f.P 5 5 = v1 from q5]; exact (hv 1).2)]
        exact q5
      have B6 : s2.f.P 6 6 = v2 := by
        rw [A5 6 (by decide) (by decide) (by decide) (by rw [show s1.f.P 6 6 = v2 from q6]; exact lo _ (hv 2).1) (by rw [show s1.f.P 6 6 = v2 from q6]; exact (hv 2).2)]
        exact q6
      have B := fuse_lone x (e - z 1) v1 p1 1 s2 (by rw [e5]; exact A3 5 l5) A4
      rw [e5, B5] at B
      obtain ⟨B1, B2, B3, B4, BP⟩ := B
      refine ⟨fun _ => ⟨rfl, ?_, ?_⟩, fun c' => absurd c c', ?_, ?_, B3 6 (A3 6 l6), B4⟩
      · refine (B2 4 (by decide) (by decide)).trans (A1.trans ?_)
        field_simp
        ring
      · refine B1.trans ?_
        rw [A2 5 (by decide) (by decide), show s1.f.s 5 = z 1 from hf5]
        field_simp
        ring
      · exact (B2 6 (by decide) (by decide)).trans ((A2 6 (by decide) (by decide)).trans hf6)
      · rw [BP 6 (by decide) (by decide) (by decide) (by rw [B6]; exact lo _ (hv 2).1) (by rw [B6]; exact (hv 2).2)]
        exact B6
    · rw [if_neg (fun h => c (hgi.mp h))]
      exact ⟨fun c' => absurd c' c, fun _ => ⟨rfl, hf4, hf5⟩, hf6, q6, l6, hdf⟩
  obtain ⟨H1, H2, s6, P6, L6, D6⟩ := hor
  rw [hout]
  dsimp only
  have hvi : (sq (u - z 2) / (sq g * (v2 + v2)) ≤ 1) ↔ V := gate_iff _ _ _ hg p2
  set vv := fuseVerticalVelocity x (u - z 2) g v2 h.st with hvv
  have ver : (V → vv.ret = true ∧ vv.st.f.s 6 = z 2 - (u - z 2) / 2) ∧ (¬ V → vv.ret = false ∧ vv.st.f.s 6 = z 2) ∧
      vv.st.f.s 4 = h.st.f.s 4 ∧ vv.st.f.s 5 = h.st.f.s 5 := by
    rw [hvv]
    unfold fuseVerticalVelocity
    dsimp only
    rw [hb, P6, Bool.false_and]
    simp only [Bool.false_eq_true, if_false, decide_eq_true_eq]
    by_cases c : V
    · rw [if_pos (hvi.mpr c)]
      dsimp only
      set s3 : VPSt := { h.st with vvelRatio := (u - z 2) / Real.sqrt (v2 + v2), tVvelTry := x.fx.now, tVvel := x.fx.now, rejVvel := false } with hs3
      have e6 : (obsState 2 : Fin N) = 6 := rfl
      have C := fuse_lone x (u - z 2) v2 p2 2 s3 (by rw [e6]; exact L6) D6
      rw [e6, show s3.f.P 6 6 = v2 from P6, show s3.f.s 6 = z 2 from s6] at C
      obtain ⟨C1, C2, -⟩ := C
      refine ⟨fun _ => ⟨rfl, ?_⟩, fun c' => absurd c c', C2 4 (by decide) (by decide), C2 5 (by decide) (by decide)⟩
      refine C1.trans ?_
      field_simp
      ring
    · rw [if_neg (fun h => c (hvi.mp h))]
      exact ⟨fun c' => absurd c' c, fun _ => ⟨rfl, s6⟩, rfl, rfl⟩
  obtain ⟨V1, V2, k4, k5⟩ := ver
  rw [k4, k5]
  exact ⟨H1, H2, V1, V2⟩

/-- **C165 (it happens).** Position variance 1 m², vision variance 10 m², gate 5, and an estimate 20 m from the vision position: without the timeout the sample
is rejected, so that the timeout comes, and then the estimate is put 10 m to the other side of the measurement. -/
theorem vision_rejected_then_overshoots (x : FixIn ℝ) (p : EvPar) (R : M3 ℝ) (d : EvData) (rx : RIn) (aux : Est ℝ) (m : EvMem) (st : VPSt)
    (hm : p.modeGps = false) (hr : p.rotate = false) (hg : p.posGate = 5) (h1 : rx.gps = false) (h2 : rx.evPos = true) (h3 : rx.rotateEv = false)
    (h4 : rx.evPosMeas = (evCorrect p R d).pos) (h5 : rx.evPosVar = d.posVar) (hv : ∀ i, d.posVar i = 10) (hvv : ∀ i, 0 ≤ rx.visVelVar i) (hfv : 0 ≤ rx.flowVar)
    (hd : ∀ i, st.f.P i i = 1) (hz : (evCorrect p R d).pos = 0) (h7 : st.f.s 7 = 20) (h8 : st.f.s 8 = 0) :
    (evPosStep x p R d rx aux false false m st).2.ret = false ∧ (evPosStep x p R d rx aux false false m st).2.st.f.s 7 = 20 ∧
      (evPosStep x p R d rx aux true false m st).2.ret = true ∧ (evPosStep x p R d rx aux true false m st).2.st.f.s 7 = -10 := by
  have h := (vision_reset_overshoots x p R d rx aux false m st hm hr h1 h2 h3 h4 h5 (fun i => by rw [hv]; norm_num) hvv hfv (fun i => by rw [hd]; norm_num)).1
  have hgg : max p.posGate 1 = 5 := by rw [hg]; norm_num
  rw [hgg, hz, h7, h8, hv, hv] at h
  obtain ⟨r, s7, -⟩ := h ⟨by norm_num, by norm_num⟩
  have ho : evPosObs p (evCorrect p R d) ![st.f.s 7, st.f.s 8] m =
      ({ m with innov := fun i => ![st.f.s 7, st.f.s 8] i - (evCorrect p R d).pos i.castSucc, asOdom := false }, fun i => max (Matrix.diagonal d.posVar i.castSucc i.castSucc) (sq (1 / 100))) := by
    unfold evPosObs
    rw [hm, hr]
    rfl
  have hrej : (evPosStep x p R d rx aux false false m st).2.ret = false ∧ (evPosStep x p R d rx aux false false m st).2.st.f.s 7 = 20 := by
    unfold evPosStep
    rw [ho, hm, Bool.and_false, if_neg (by decide)]
    dsimp only
    rw [Matrix.diagonal_apply_eq, Matrix.diagonal_apply_eq, hgg, hz]
    unfold fuseHorizontalPosition
    dsimp only
    rw [if_neg]
    · exact ⟨rfl, h7⟩
    · rw [show ({ st with f := st.f } : VPSt).f.P 7 7 = 1 from hd 7]
      rintro (c | c)
      · have c0 := le_trans (le_max_left _ _) c
        revert c0
        show ¬ (sq (st.f.s 7 - 0) / (sq 5 * (1 + max (d.posVar (Fin.castSucc 0)) (sq (1 / 100)))) ≤ 1)
        rw [h7, hv]
        unfold sq
        norm_num
      · exact absurd c (by decide)
  refine ⟨hrej.1, hrej.2, r, ?_⟩
  rw [s7]
  show (0 : ℝ) - (20 - 0) / 2 = -10
  norm_num

/-- the situation exists: identity attitude and no lever arm, vision at the origin, estimate 20 m north of it -/
def exRIn : RIn :=
  ⟨false, false, false, true, true, false, 0, 1, 0, 1, 0, 1, 1, 0, 1, 1, 1, 0, fun _ => 1, 0, fun _ => 10, false, 1, 0, 10⟩

example (aux : Est ℝ) (m : EvMem) : ∃ (x : FixIn ℝ) (p : EvPar) (d : EvData) (st : VPSt),
    (evPosStep x p 1 d exRIn aux false false m st).2.ret = false ∧ (evPosStep x p 1 d exRIn aux true false m st).2.ret = true ∧
      (evPosStep x p 1 d exRIn aux true false m st).2.st.f.s 7 = -10 := by
  let st : VPSt := exVP { exFilt with s := fun i => if i = 7 then 20 else 0 }
  have hz : (evCorrect ⟨0, 0, false, false, true, 5, 3⟩ 1 ⟨0, fun _ => 10, 0, 0, .local, ⟨1, 0, 0, 0⟩⟩).pos = 0 := by
    show (0 : V3 ℝ) - (1 : M3 ℝ).mulVec (0 - 0) = 0
    simp
  have h := vision_rejected_then_overshoots ⟨fun _ => false, true, true, 1 / 100, 0, false⟩ ⟨0, 0, false, false, true, 5, 3⟩ 1
    ⟨0, fun _ => 10, 0, 0, .local, ⟨1, 0, 0, 0⟩⟩ exRIn aux m st rfl rfl rfl rfl rfl rfl (hz.symm ▸ rfl) rfl (fun _ => rfl) (fun _ => zero_le_one) zero_le_one
    (fun i => show (if i = i then (1 : ℝ) else 0) = 1 from if_pos rfl) hz (show (if (7 : Fin N) = 7 then (20 : ℝ) else 0) = 20 from if_pos rfl)
    (show (if (8 : Fin N) = 7 then (20 : ℝ) else 0) = 0 from if_neg (by decide))
  exact ⟨_, _, _, st, h.1, h.2.2.1, h.2.2.2⟩

end

end Ecl.Whole
