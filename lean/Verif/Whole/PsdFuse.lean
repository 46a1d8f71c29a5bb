import Verif.Whole.PsdUpd
import Verif.Fusion.YawProps

/-!
# The sensor fusion functions that correct every state with the optimal gain keep the covariance valid
-/

namespace Ecl.Whole

open Ecl.Cov Ecl.Fusion

theorem opt_gain {m w : Bool} {P : Mat ℝ} {h : Vec ℝ} {R : ℝ} {sel : Fin N → Prop} [DecidablePred sel] (hs : ∀ i, sel i ∨ Off m w i) :
    Opt m w P h R (Spec.gain P h R sel) := fun i => by
  unfold Spec.gain
  by_cases c : sel i
  · exact Or.inl (by rw [if_pos c])
  · refine Or.inr ⟨by rw [if_neg c], ?_⟩
    rcases hs i with h | h
    · exact absurd h c
    · exact h

theorem good_applyGain {dt : ℝ} {x : FixIn ℝ} (hx : Cond dt x) {h k : Vec ℝ} {R : ℝ} (hR : 0 < R) (v : ℝ) {f : Filt} (hf : Good dt f) (hk : Opt x.mag3D x.wind f.P h R k) :
    Good dt (Spec.applyGain x k h f v).1 := by
  obtain ⟨c1, c2, c3⟩ := opt_core hf.1 (by have := hx.2.2; linarith) hf.2 hR hk
  unfold Spec.applyGain
  simp only
  rw [if_pos c1]
  exact fix_good hx true _ _ c2 c3

theorem sq_pos' {y : ℝ} (h : y ≠ 0) : 0 < sq y := mul_self_pos.mpr h

theorem good_magAxis {dt : ℝ} {x : MagIn} (hx : Cond dt x.fx) (hn : 0 < x.noise) (hall : magAll x = true) (a : Fin 3) (st : MagSt) (hf : Good dt st.f) :
    Good dt (magAxis x a st).1.f := by
  have hR : 0 < magR x := sq_pos' (by rw [max_eq_left hn.le]; exact hn.ne')
  have hs := hf.1.symm
  unfold magAxis
  simp only
  rw [magS_eq a _ _ _ hs, if_neg (not_lt.mpr (innovVar_ge hf.1 _ _)), magGain_eq x a _ _ _ hs]
  have hk : Opt x.fx.mag3D x.fx.wind st.f.P (sparse (magRow a st.f.P st.f.s (magR x))) (magR x)
      (Spec.gain st.f.P (sparse (magRow a st.f.P st.f.s (magR x))) (magR x) (Spec.magSel x)) :=
    opt_gain fun i => Or.inl ((magAll_eq x i).mp (Or.inl hall))
  have := good_update hx hR (st.innov a) hf hk
  split
  · exact this
  · exact this

theorem good_fuseMag {dt : ℝ} {x : MagIn} (hx : Cond dt x.fx) (hn : 0 < x.noise) (hall : magAll x = true) (st : MagSt) (hf : Good dt st.f) :
    Good dt (fuseMag x st).f := by
  have loop : ∀ st : MagSt, Good dt st.f → Good dt (magLoop x st).f := by
    intro st h
    unfold magLoop
    simp only
    split
    · split
      · split
        · exact good_magAxis hx hn hall _ _ (good_magAxis hx hn hall _ _ h)
        · exact good_magAxis hx hn hall _ _ (good_magAxis hx hn hall _ _ (good_magAxis hx hn hall _ _ h))
      · exact good_magAxis hx hn hall _ _ (good_magAxis hx hn hall _ _ h)
    · exact good_magAxis hx hn hall _ _ h
  have hs := hf.1.symm
  unfold fuseMag
  simp only
  rw [MagX.S_eq _ _ _ _ _ hs, if_neg (not_lt.mpr (innovVar_ge hf.1 _ _)), MagIV.S1_eq _ _ _ _ _ hs, if_neg (not_lt.mpr (innovVar_ge hf.1 _ _)),
    MagIV.S2_eq _ _ _ _ _ hs, if_neg (not_lt.mpr (innovVar_ge hf.1 _ _))]
  generalize hr : (if x.synthZ = true then _ else _ : V3 ℝ) = innov
  split
  · exact hf
  · exact loop _ hf

theorem good_fuseDeclination {dt : ℝ} {x : DeclIn} {fx : FixIn ℝ} (hx : Cond dt fx) {sigma : ℝ} (hn : sigma ≠ 0) (st : DeclSt) (hf : Good dt st.f) :
    Good dt (fuseDeclination x fx sigma st).f := by
  have hs := hf.1.symm
  unfold fuseDeclination
  simp only
  split
  · exact hf
  · split
    · have hk : Opt fx.mag3D fx.wind st.f.P (sparse (Decl.hList st.f.P st.f.s (sq sigma) 0 0)) (sq sigma) (Decl.gain st.f.P st.f.s (sq sigma) 0 0) :=
        opt_of_eq fun i => by rw [Decl.gain_eq _ _ _ _ _ hs, if_pos trivial]
      have := good_update hx (sq_pos' hn) (constrain (atan2 (st.f.s 17) (st.f.s 16) - getMagDeclination x st.f.s) (-(1 / 2)) (1 / 2)) hf hk
      split
      · exact this
      · exact this
    · exact hf

theorem good_fuseGpsYaw {dt : ℝ} {x : GpsYawIn} (hx : Cond dt x.fx) (st : YawSt) (hf : Good dt st.f) : Good dt (fuseGpsYaw x st).f := by
  have hs := hf.1.symm
  have hR : 0 < sq (max x.noise (1 / 100)) := sq_pos' (ne_of_gt (lt_of_lt_of_le (by norm_num) (le_max_right _ _)))
  have hk : Opt x.fx.mag3D x.fx.wind st.f.P (sparse (GpsYaw.hList st.f.P st.f.s (sq (max x.noise (1 / 100))) (Real.sin x.off) (Real.cos x.off)))
      (sq (max x.noise (1 / 100))) (GpsYaw.gain st.f.P st.f.s (sq (max x.noise (1 / 100))) (Real.sin x.off) (Real.cos x.off)) :=
    opt_of_eq fun i => by rw [GpsYaw.gain_eq _ _ _ _ _ hs, if_pos trivial]
  have hu := fun v => good_update hx hR v hf hk
  unfold fuseGpsYaw
  simp only
  rw [if_neg (c := GpsYaw.S _ _ _ _ _ < _) (by rw [GpsYaw.S_eq _ _ _ _ _ hs]; exact not_lt.mpr (innovVar_ge hf.1 _ _))]
  split
  · exact hf
  · split
    · exact hf
    · split
      · exact hf
      · split
        · exact hf
        · split
          · split
            · exact hf
            · split <;> exact hu _
          · split <;> exact hu _

theorem good_fuseAirspeed {dt : ℝ} {x : AspIn} (hx : Cond dt x.fx) (hw : x.windDR = true) (st : AspSt) (hf : Good dt st.f) : Good dt (fuseAirspeed x st).f := by
  have hs := hf.1.symm
  obtain ⟨R, hRe⟩ : ∃ R, R = sq (constrain x.easNoise (1 / 2) 5 * constrain x.eas2tas (9 / 10) 10) := ⟨_, rfl⟩
  have hR : 0 < R := by
    rw [hRe]
    have a : (0 : ℝ) < constrain x.easNoise (1 / 2) 5 := by unfold constrain; split_ifs <;> linarith
    have b : (0 : ℝ) < constrain x.eas2tas (9 / 10) 10 := by unfold constrain; split_ifs <;> linarith
    exact sq_pos' (by positivity)
  obtain ⟨v, hve⟩ : ∃ v, v = Real.sqrt (Asp.HK2 st.f.P st.f.s R 0 0) := ⟨_, rfl⟩
  have ha : v ^ 2 = Asp.HK2 st.f.P st.f.s R v 0 := by
    rw [hve, Real.sq_sqrt (by unfold Asp.HK2; positivity)]; rfl
  have hk : Opt x.fx.mag3D x.fx.wind st.f.P (sparse (Asp.hList st.f.P st.f.s R v 0)) R (Asp.gain (!!x.windDR) st.f.P st.f.s R v 0) :=
    opt_of_eq fun i => by rw [Asp.gain_eq _ _ _ _ _ _ hs ha, if_pos (Or.inl (by rw [hw]; rfl))]
  have hu := fun y => good_update hx hR y hf hk
  unfold fuseAirspeed
  simp only
  rw [← hRe, ← hve]
  split
  · exact hf
  · rw [Asp.S_eq _ _ _ _ _ hs ha, if_neg (not_lt.mpr (innovVar_ge hf.1 _ _))]
    split
    · exact hf
    · split <;> exact hu _

theorem good_fuseSideslip {dt : ℝ} {x : BetaIn} (hx : Cond dt x.fx) (hw : x.windDR = true) (hn : x.betaNoise ≠ 0) (st : BetaSt) (hf : Good dt st.f) :
    Good dt (fuseSideslip x st).f := by
  have hs := hf.1.symm
  have hk : Opt x.fx.mag3D x.fx.wind st.f.P (sparse (Beta.hList st.f.P st.f.s (sq x.betaNoise) 0 0)) (sq x.betaNoise)
      (Beta.gain (!!x.windDR) st.f.P st.f.s (sq x.betaNoise) 0 0) :=
    opt_of_eq fun i => by rw [Beta.gain_eq _ _ _ _ _ _ hs, if_pos (Or.inl (by rw [hw]; rfl))]
  have hu := fun y => good_update hx (sq_pos' hn) y hf hk
  unfold fuseSideslip
  simp only
  split
  · rw [Beta.S_eq _ _ _ _ _ hs, if_neg (not_lt.mpr (innovVar_ge hf.1 _ _))]
    split
    · exact hf
    · split <;> exact hu _
  · exact hf

theorem good_updateQuaternion {dt : ℝ} {x : HdgIn} (hx : Cond dt x.fx) (hm : x.fx.mag3D = false) {v R g : ℝ} (hR : 0 < R) (hg : 1 ≤ g) (j : Fin 4 → ℝ) (st : YawSt) (hf : Good dt st.f) :
    Good dt (updateQuaternion x v R g j st).f := by
  have h := (updateQuaternion_spec x v R g hR hg j st).2 (innovVar_ge hf.1 _ _)
  have hk : Opt x.fx.mag3D x.fx.wind st.f.P (Spec.quatRow j) R (Spec.gain st.f.P (Spec.quatRow j) R (Spec.yawSel x.fx.wind)) := by
    refine opt_gain fun i => ?_
    unfold Spec.yawSel Off
    rw [hm]
    have := i.isLt
    cases x.fx.wind <;> simp
    · omega
    · rcases Nat.lt_or_ge i.val 16 with h | h
      · left; left; omega
      · rcases Nat.lt_or_ge i.val 22 with h' | h'
        · right; exact ⟨h, h'⟩
        · left; right; exact ⟨h', by have : i.val < 24 := i.isLt; omega⟩
  have hu := fun y => good_applyGain hx hR y hf hk
  obtain ⟨-, -, -, h1, h2⟩ := h
  rcases le_or_gt (v ^ 2) (g ^ 2 * Spec.innovVar st.f.P (Spec.quatRow j) R) with c | c
  · rw [(h1 c).2.2.1]; exact hu _
  · obtain ⟨-, h3, h4⟩ := h2 c
    cases hb : (!x.inAir && isTimedOut x.now x.lastInAir 5000000) with
    | false => rw [(h3 hb).1]; exact hf
    | true => rw [(h4 hb).2.1]; exact hu _

theorem good_fuseHeading {dt : ℝ} {x : HeadIn} (hx : Cond dt x.h.fx) (hm : x.h.fx.mag3D = false) (st : HeadSt) (hf : Good dt st.y.f) : Good dt (fuseHeading x st).y.f := by
  have hv : ∀ v : ℝ, 0 < max v (1 / 10000) := fun v => lt_of_lt_of_le (by norm_num) (le_max_right _ _)
  have hg : ∀ g : ℝ, 1 ≤ mmax g 1 := fun g => by rw [mmax_eq]; exact le_max_right _ _
  have h321 : ∀ Rte yaw v z, Good dt (fuseYaw321 x.h Rte yaw v z st.y).f := by
    intro Rte yaw v z
    unfold fuseYaw321
    split
    · exact hf
    · exact good_updateQuaternion hx hm (hv _) (hg _) _ _ hf
  have h312 : ∀ Rte yaw v z, Good dt (fuseYaw312 x.h Rte yaw v z st.y).f := by
    intro Rte yaw v z
    unfold fuseYaw312
    split
    · exact hf
    · exact good_updateQuaternion hx hm (hv _) (hg _) _ _ hf
  unfold fuseHeading
  simp only
  split
  · exact h321 _ _ _ _
  · exact h312 _ _ _ _

end Ecl.Whole
