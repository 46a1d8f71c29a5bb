import Verif.Whole.SignPred
import Verif.Whole.ShiftFuse

/-!
# Sign changes in the fusion functions: the parts that are the same for every sign change
-/

namespace Ecl.Whole

open Ecl.Cov Ecl.Fusion

noncomputable section

variable {σ : Fin N → ℝ}

theorem sgF_P (f : Filt) : (sgF σ f).P = sgM σ f.P := rfl
theorem sgF_MP (f : Filt) : (sgF σ f).M.P = sgM σ f.M.P := rfl
theorem sgF_s (f : Filt) : (sgF σ f).s = sgV σ f.s := rfl
theorem sgF_M (f : Filt) : (sgF σ f).M = sgMag σ f.M := rfl
theorem sgF_t (f : Filt) : (sgF σ f).timeCheck = f.timeCheck := rfl
theorem sgF_b (f : Filt) : (sgF σ f).badAccBias = f.badAccBias := rfl

theorem sg_sub (Q R : Mat ℝ) : (fun i j => sgM σ Q i j - sgM σ R i j) = sgM σ (fun i j => Q i j - R i j) := by
  funext i j; unfold sgM; ring

theorem sq_sign {e : ℝ} (he : e * e = 1) (v : ℝ) : sq (e * v) = sq v := by
  unfold sq
  calc e * v * (e * v) = e * e * (v * v) := by ring
    _ = v * v := by rw [he, one_mul]

theorem sg_direct (h : IsSign σ) (x : VPIn) (v S : ℝ) (o : Fin 6) (st : VPSt) :
    fuseVelPosHeight x (σ (obsState o) * v) S o { st with f := sgF σ st.f } =
      { fuseVelPosHeight x v S o st with f := sgF σ (fuseVelPosHeight x v S o st).f } := by
  have hk : (fun row => sgM σ st.f.P row (obsState o) / S) = fun i => σ (obsState o) * (σ i * (st.f.P i (obsState o) / S)) := by
    funext i; unfold sgM; ring
  have hq : (fun row col => sgM σ st.f.P row (obsState o) / S * sgM σ st.f.P (obsState o) col) =
      sgM σ (fun row col => st.f.P row (obsState o) / S * st.f.P (obsState o) col) := by
    funext i j
    unfold sgM
    calc σ i * σ (obsState o) * st.f.P i (obsState o) / S * (σ (obsState o) * σ j * st.f.P (obsState o) j) =
        (σ (obsState o) * σ (obsState o)) * (σ i * σ j * (st.f.P i (obsState o) / S * st.f.P (obsState o) j)) := by ring
      _ = _ := by rw [h, one_mul]
  have hq' := fun i j => congrFun (congrFun hq i) j
  beta_reduce at hq'
  unfold fuseVelPosHeight
  simp only [sgF_P, sgF_t, sgF_b, sgF_s, sgF_M, hk, hq, hq', sg_checkAndFix h]
  simp only [hq', sg_sub, sg_fixCov h, sg_fuseState h (h (obsState o))]
  split <;> rfl

theorem sg_direct_f (h : IsSign σ) (x : VPIn) (v S : ℝ) (o : Fin 6) (st : VPSt) :
    (fuseVelPosHeight x (σ (obsState o) * v) S o { st with f := sgF σ st.f }).f = sgF σ (fuseVelPosHeight x v S o st).f := by
  rw [sg_direct h]

theorem sg_hvel (h : IsSign σ) (x : VPIn) (i0 i1 g r0 r1 : ℝ) (st : VPSt) :
    (fuseHorizontalVelocity x (σ 4 * i0) (σ 5 * i1) g r0 r1 { st with f := sgF σ st.f }).st.f = sgF σ (fuseHorizontalVelocity x i0 i1 g r0 r1 st).st.f := by
  by_cases c : max (sq i0 / (sq g * (st.f.P 4 4 + r0))) (sq i1 / (sq g * (st.f.P 5 5 + r1))) ≤ 1
  · have h1 := sg_direct h x i0 (st.f.P 4 4 + r0) 0 { st with tHvel := x.fx.now, rejHvel := false }
    have h2 := sg_direct h x i1 (st.f.P 5 5 + r1) 1 (fuseVelPosHeight x i0 (st.f.P 4 4 + r0) 0 { st with tHvel := x.fx.now, rejHvel := false })
    change fuseVelPosHeight x (σ 4 * i0) _ _ _ = _ at h1
    change fuseVelPosHeight x (σ 5 * i1) _ _ _ = _ at h2
    simp only [fuseHorizontalVelocity, sgF_P, sgM_diag h, sq_sign (h 4), sq_sign (h 5), c, if_true]
    rw [h1, h2]
  · simp only [fuseHorizontalVelocity, sgF_P, sgM_diag h, sq_sign (h 4), sq_sign (h 5), c, if_false]

theorem sg_vvel (h : IsSign σ) (h6 : σ 6 = 1) (x : VPIn) (i g r : ℝ) (st : VPSt) :
    (fuseVerticalVelocity x i g r { st with f := sgF σ st.f }).st.f = sgF σ (fuseVerticalVelocity x i g r st).st.f := by
  have e : (vvelCore x i g (st.f.P 6 6 + r) { st with f := sgF σ st.f }).st.f = sgF σ (vvelCore x i g (st.f.P 6 6 + r) st).st.f := by
    have h6' : σ (obsState 2) = 1 := h6
    have hd := fun v S t => sg_direct_f h x v S 2 t
    simp only [h6', one_mul] at hd
    unfold vvelCore
    dsimp only
    split_ifs <;> first
      | rfl
      | exact hd _ _ { st with vvelRatio := i / Real.sqrt (st.f.P 6 6 + r), tVvelTry := x.fx.now, tVvel := x.fx.now, rejVvel := false }
  have e1 : fuseVerticalVelocity x i g r { st with f := sgF σ st.f } = vvelCore x i g ((sgF σ st.f).P 6 6 + r) { st with f := sgF σ st.f } := rfl
  rw [e1, sgF_P, sgM_diag h, e]
  rfl

theorem sg_hpos (h : IsSign σ) (x : VPIn) (i0 i1 g r0 r1 : ℝ) (b : Bool) (st : VPSt) :
    (fuseHorizontalPosition x (σ 7 * i0) (σ 8 * i1) g r0 r1 b { st with f := sgF σ st.f }).st.f = sgF σ (fuseHorizontalPosition x i0 i1 g r0 r1 b st).st.f := by
  have e1 : fuseHorizontalPosition x (σ 7 * i0) (σ 8 * i1) g r0 r1 b { st with f := sgF σ st.f } =
      hposCore x (σ 7 * i0) (σ 8 * i1) g ((sgF σ st.f).P 7 7 + r0) ((sgF σ st.f).P 8 8 + r1) b { st with f := sgF σ st.f } := rfl
  have e2 : fuseHorizontalPosition x i0 i1 g r0 r1 b st = hposCore x i0 i1 g (st.f.P 7 7 + r0) (st.f.P 8 8 + r1) b st := rfl
  rw [e1, e2, sgF_P, sgM_diag h, sgM_diag h]
  generalize st.f.P 7 7 + r0 = v0
  generalize st.f.P 8 8 + r1 = v1
  unfold hposCore
  simp only [sq_sign (h 7), sq_sign (h 8)]
  have hd := fun v S t => sg_direct h x v S 3 t
  have hd' := fun v S t => sg_direct h x v S 4 t
  change ∀ v S t, fuseVelPosHeight x (σ 7 * v) S 3 _ = _ at hd
  change ∀ v S t, fuseVelPosHeight x (σ 8 * v) S 4 _ = _ at hd'
  split
  · split
    · rfl
    · cases x.asOdom
      · have h1 := hd i0 v0 { st with tHpos := x.fx.now, rejHpos := false }
        simp only [Bool.not_false, if_true]
        rw [h1, hd']
      · have h1 := hd i0 v0 { st with tDelpos := x.fx.now, rejHpos := false }
        simp only [Bool.not_true, Bool.false_eq_true, if_false]
        rw [h1, hd']
  · rfl

theorem sg_vpos (h : IsSign σ) (h9 : σ 9 = 1) (x : VPIn) (i g r : ℝ) (st : VPSt) :
    (fuseVerticalPosition x i g r { st with f := sgF σ st.f }).st.f = sgF σ (fuseVerticalPosition x i g r st).st.f := by
  have e : (vposCore x i g (st.f.P 9 9 + r) { st with f := sgF σ st.f }).st.f = sgF σ (vposCore x i g (st.f.P 9 9 + r) st).st.f := by
    have h9' : σ (obsState 5) = 1 := h9
    have hd := fun v S t => sg_direct_f h x v S 5 t
    simp only [h9', one_mul] at hd
    unfold vposCore
    dsimp only
    split_ifs <;> first
      | rfl
      | exact hd _ _ { st with vposRatio := i / Real.sqrt (st.f.P 9 9 + r), tVposTry := x.fx.now, tHgt := x.fx.now, rejVpos := false }
  have e1 : fuseVerticalPosition x i g r { st with f := sgF σ st.f } = vposCore x i g ((sgF σ st.f).P 9 9 + r) { st with f := sgF σ st.f } := rfl
  rw [e1, sgF_P, sgM_diag h, e]
  rfl

/-- the initial covariance, if the block of the attitude commutes -/
theorem sg_initCov (h : IsSign σ) (x : InitIn) (f : Filt)
    (hq : resetQuatCov (attQuat (sgV σ f.s)) x.tiltErr (fun _ _ => 0) = sgM σ (resetQuatCov (attQuat f.s) x.tiltErr (fun _ _ => 0))) :
    initCov x (sgF σ f) = sgF σ (initCov x f) := by
  have e : ∀ (Q : Mat ℝ) (s : MagSave ℝ) (a b c : Bool), resetMagCov x.magNoise (⟨sgM σ Q, sgSave σ s, a, b, c⟩ : MagState ℝ) =
      sgMag σ (resetMagCov x.magNoise ⟨Q, s, a, b, c⟩) := fun Q s a b c => sg_resetMagCov h _ ⟨Q, s, a, b, c⟩
  unfold initCov initialiseCovariance
  simp only [sgF_s, sgF_M, hq, sg_setDiag h, sgM_diag h]
  rw [show ∀ Q : Mat ℝ, ({ sgMag σ f.M with P := sgM σ Q } : MagState ℝ) = sgMag σ { f.M with P := Q } from fun _ => rfl, sg_resetMagCov h]
  simp only [sgMag, sg_setDiag h, sgM_diag h, sgF]

theorem sg_applyYaw (h : IsSign σ) {e : ℝ} (he : e * e = 1) (x : FixIn ℝ) (k : Vec ℝ) (j : Fin 4 → ℝ) (v : ℝ) (f : Filt) :
    applyYaw x (fun i => e * (σ i * k i)) (fun c => e * (σ (qi c) * j c)) (e * v) (sgF σ f) = (sgF σ (applyYaw x k j v f).1, (applyYaw x k j v f).2) := by
  have hq : (fun r c => e * (σ r * k r) * (e * (σ (qi 0) * j 0)) * sgM σ f.P 0 c + e * (σ r * k r) * (e * (σ (qi 1) * j 1)) * sgM σ f.P 1 c +
      e * (σ r * k r) * (e * (σ (qi 2) * j 2)) * sgM σ f.P 2 c + e * (σ r * k r) * (e * (σ (qi 3) * j 3)) * sgM σ f.P 3 c) =
      sgM σ (fun r c => k r * j 0 * f.P 0 c + k r * j 1 * f.P 1 c + k r * j 2 * f.P 2 c + k r * j 3 * f.P 3 c) := by
    funext r c
    have hi : ∀ i : Fin 4, e * (σ r * k r) * (e * (σ (qi i) * j i)) * sgM σ f.P (qi i) c = σ r * σ c * (k r * j i * f.P (qi i) c) := by
      intro i
      unfold sgM
      calc e * (σ r * k r) * (e * (σ (qi i) * j i)) * (σ (qi i) * σ c * f.P (qi i) c) =
          (e * e) * (σ (qi i) * σ (qi i)) * (σ r * σ c * (k r * j i * f.P (qi i) c)) := by ring
        _ = _ := by rw [he, h]; ring
    have h0 := hi 0
    have h1 := hi 1
    have h2 := hi 2
    have h3 := hi 3
    change _ * sgM σ f.P 0 c = _ * (_ * f.P 0 c) at h0
    change _ * sgM σ f.P 1 c = _ * (_ * f.P 1 c) at h1
    change _ * sgM σ f.P 2 c = _ * (_ * f.P 2 c) at h2
    change _ * sgM σ f.P 3 c = _ * (_ * f.P 3 c) at h3
    rw [h0, h1, h2, h3]
    unfold sgM
    ring
  have hq' := fun i j => congrFun (congrFun hq i) j
  beta_reduce at hq'
  unfold applyYaw
  simp only [sgF_P, sgF_t, sgF_b, sgF_s, sgF_M, hq, hq', sg_checkAndFix h]
  simp only [hq', sg_sub, sg_fixCov h, sg_fuseState h he]
  split <;> rfl

theorem constrain_sign {e : ℝ} (he : e * e = 1) (v l : ℝ) (hl : 0 ≤ l) : constrain (e * v) (-l) l = e * constrain v (-l) l := by
  have : e = 1 ∨ e = -1 := by
    have : (e - 1) * (e + 1) = 0 := by linarith
    rcases mul_eq_zero.mp this with h | h
    · left; linarith
    · right; linarith
  rcases this with rfl | rfl
  · rw [one_mul, one_mul]
  · unfold constrain
    split_ifs <;> linarith

theorem fold4 (g : Fin 4 → ℝ) (a : ℝ) : (List.finRange 4).foldl (fun t c => t + g c) a = a + g 0 + g 1 + g 2 + g 3 := rfl

theorem sg_updateQuat (h : IsSign σ) {e : ℝ} (he : e * e = 1) (x : HdgIn) (v r g : ℝ) (j : Fin 4 → ℝ) (st : YawSt)
    (hi : initCov x.ini (sgF σ st.f) = sgF σ (initCov x.ini st.f)) :
    (updateQuaternion x (e * v) r g (fun c => e * (σ (qi c) * j c)) { st with f := sgF σ st.f }).f = sgF σ (updateQuaternion x v r g j st).f := by
  have hp : ∀ (i : Fin N) (c : Fin 4), sgM σ st.f.P i (qi c) * (e * (σ (qi c) * j c)) = e * (σ i * (st.f.P i (qi c) * j c)) := by
    intro i c
    unfold sgM
    calc σ i * σ (qi c) * st.f.P i (qi c) * (e * (σ (qi c) * j c)) = (σ (qi c) * σ (qi c)) * (e * (σ i * (st.f.P i (qi c) * j c))) := by ring
      _ = _ := by rw [h, one_mul]
  have hr : ∀ i : Fin N, (List.finRange 4).foldl (fun t c => t + sgM σ st.f.P i (qi c) * (e * (σ (qi c) * j c))) 0 =
      e * (σ i * (List.finRange 4).foldl (fun t c => t + st.f.P i (qi c) * j c) 0) := by
    intro i
    rw [fold4, fold4, hp, hp, hp, hp]
    ring
  have hS : (List.finRange 4).foldl (fun acc q => acc + e * (σ (qi q) * j q) *
        (List.finRange 4).foldl (fun t c => t + sgM σ st.f.P (qi q) (qi c) * (e * (σ (qi c) * j c))) 0) r =
      (List.finRange 4).foldl (fun acc q => acc + j q * (List.finRange 4).foldl (fun t c => t + st.f.P (qi q) (qi c) * j c) 0) r := by
    congr 1
    funext acc q
    rw [hr]
    calc _ = acc + (e * e) * (σ (qi q) * σ (qi q)) * (j q * (List.finRange 4).foldl (fun t c => t + st.f.P (qi q) (qi c) * j c) 0) := by ring
      _ = _ := by rw [he, h]; ring
  have hk : ∀ inv : ℝ, (fun i : Fin N => if i.val ≤ 15 ∨ (x.fx.wind = true ∧ 22 ≤ i.val ∧ i.val ≤ 23) then
        (List.finRange 4).foldl (fun t c => t + sgM σ st.f.P i (qi c) * (e * (σ (qi c) * j c))) 0 * inv else 0) =
      fun i => e * (σ i * (if i.val ≤ 15 ∨ (x.fx.wind = true ∧ 22 ≤ i.val ∧ i.val ≤ 23) then
        (List.finRange 4).foldl (fun t c => t + st.f.P i (qi c) * j c) 0 * inv else 0)) := by
    intro inv
    funext i
    rw [hr]
    split <;> ring
  unfold updateQuaternion
  simp only [sgF_P, hS, hk, hi]
  generalize (List.finRange 4).foldl (fun acc q => acc + j q * (List.finRange 4).foldl (fun t c => t + st.f.P (qi q) (qi c) * j c) 0) r = S
  simp only [sq_sign he, constrain_sign he v _ (Real.sqrt_nonneg _), sg_applyYaw h he]
  split_ifs <;> rfl

/-- setting blocks of the state that are not those of the sign change -/
theorem sg_set {k : Fin N} {v v' : ℝ} (hv : v' = σ k * v) (s : Vec ℝ) : Function.update (sgV σ s) k v' = sgV σ (Function.update s k v) := by
  funext i
  by_cases c : i = k
  · subst c; unfold sgV; rw [Function.update_self, Function.update_self, hv]
  · unfold sgV; rw [Function.update_of_ne c, Function.update_of_ne c]

theorem sg_setS3 (k : ℕ) (v v' : Fin 3 → ℝ) (hv : ∀ (i : Fin N) (c : k ≤ i.val ∧ i.val < k + 3), v' ⟨i.val - k, by omega⟩ = σ i * v ⟨i.val - k, by omega⟩)
    (s : Vec ℝ) : setS3 k v' (sgV σ s) = sgV σ (setS3 k v s) := by
  funext i
  unfold setS3 sgV
  beta_reduce
  by_cases c : k ≤ i.val ∧ i.val < k + 3
  · rw [dif_pos c, dif_pos c, hv i c]
  · rw [dif_neg c, dif_neg c]

end

end Ecl.Whole
