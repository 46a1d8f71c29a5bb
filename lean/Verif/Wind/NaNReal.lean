import Verif.Wind.NaN

/-!
# The wind estimator with NaN agrees with the one over the reals (C176)

On numbers the model of `Verif/Wind/NaN` computes what that of `Verif/Wind/Model` does, as long as no denominator is zero.
-/

namespace Ecl.Wind.NaN

open Ecl.Fusion.NaN

/-- a state of numbers seen in the model with NaN; the reported members are left out -/
noncomputable def emb (st : St) : NSt where
  x := fun i => some (st.x i)
  P := fun i j => some (st.P i j)
  init := st.init
  c := st.c
  tTas := st.tTas
  tBeta := st.tBeta
  tUpd := st.tUpd
  rejBeta := st.rejBeta
  rejTas := st.rejTas

theorem ngt_some (a b : ℝ) : ngt (some a) (some b) = decide (a > b) := by
  by_cases h : a > b
  · rw [decide_eq_true h, ngt_iff]; exact h
  · rw [decide_eq_false h, Bool.eq_false_iff, Ne, ngt_iff]; exact h

theorem ndiv_some (a : ℝ) {b : ℝ} (h : b ≠ 0) : ndiv (some a) (some b) = some (a / b) := by
  unfold ndiv
  rw [if_neg (by intro c; exact h (Option.some.inj c))]
  rfl

@[simp] theorem add_some (a b : ℝ) : add (some a) (some b) = some (a + b) := rfl
@[simp] theorem sub_some (a b : ℝ) : sub (some a) (some b) = some (a - b) := rfl
@[simp] theorem mul_some (a b : ℝ) : mul (some a) (some b) = some (a * b) := rfl
@[simp] theorem sqrt_some (a : ℝ) : sqrt (some a) = some (Real.sqrt a) := rfl
@[simp] theorem fun1_some (f : ℝ → ℝ) (a : ℝ) : fun1 f (some a) = some (f a) := rfl
@[simp] theorem fun2_some (f : ℝ → ℝ → ℝ) (a b : ℝ) : fun2 f (some a) (some b) = some (f a b) := rfl
@[simp] theorem neg_some (a : ℝ) : neg (some a) = some (-a) := by unfold neg; simp

theorem nmmul_some (A B : M3') : nmmul (fun i j => some (A i j)) (fun i j => some (B i j)) = fun i j => some (mmul A B i j) := by
  funext i j; rfl

theorem nhph_some (P : M3') (H : V3') : nhph (fun i j => some (P i j)) (fun i => some (H i)) = some (hph P H) := rfl

theorem ngain_some (P : M3') (H : V3') {S : ℝ} (hS : S ≠ 0) : ngain (fun i j => some (P i j)) (fun i => some (H i)) (some S) = fun i => some (gain P H S i) := by
  funext i
  unfold ngain
  simp only [mul_some, add_some]
  rw [ndiv_some _ hS]
  rfl

theorem nshrink_some (P : M3') (K H : V3') : nshrink (fun i j => some (P i j)) (fun i => some (K i)) (fun i => some (H i)) = fun i j => some (shrink P K H i j) := rfl

theorem nmax001_some (a : ℝ) : nmax001 (some a) = some (mmax 0.01 a) := by
  unfold nmax001 mmax
  rw [ngt_some]
  by_cases h : (0.01 : ℝ) > a
  · simp [h]
  · simp [h]

theorem matrix_some (M : M3') : (![![some (M 0 0), some (M 0 1), some (M 0 2)], ![some (M 1 0), some (M 1 1), some (M 1 2)],
    ![some (M 2 0), some (M 2 1), some (M 2 2)]] : Fin 3 → Fin 3 → NF) = fun i j => some (M i j) := by
  funext i j; fin_cases i <;> fin_cases j <;> rfl

theorem ninitL_some (v : V3') (tas : ℝ) (h : Real.sqrt (v 1 * v 1 + v 0 * v 0) ≠ 0) : ninitL (fun i => some (v i)) (some tas) = fun i j => some (initL v tas i j) := by
  have hq : v 1 * v 1 + v 0 * v 0 ≠ 0 := by
    intro c; rw [c] at h; simp at h
  unfold ninitL
  simp only [mul_some, add_some, sqrt_some]
  rw [ndiv_some _ (mul_ne_zero hq h), ndiv_some _ h]
  simp only [mul_some, add_some, neg_some]
  rw [← matrix_some]
  rfl

theorem ninitialise_some (v : V3') (a b tas : ℝ) (st : St) :
    ninitialise (fun i => some (v i)) (some a) (some b) (some tas) (emb st) = emb (initialise v a b tas st) := by
  have eg : ngt (some 3) (nground (fun i => some (v i))) = decide ((3 : ℝ) > Real.sqrt (v 0 * v 0 + v 1 * v 1)) := ngt_some 3 (Real.sqrt (v 0 * v 0 + v 1 * v 1))
  unfold ninitialise initialise
  by_cases h : (3 : ℝ) > Real.sqrt (v 0 * v 0 + v 1 * v 1)
  · rw [if_pos (by rw [eg]; simpa using h), if_pos h]
    rfl
  · rw [if_neg (by rw [eg]; simpa using h), if_neg h]
    have hs : Real.sqrt (v 1 * v 1 + v 0 * v 0) ≠ 0 := by
      intro c
      rw [add_comm] at c
      rw [c] at h
      norm_num at h
    rw [ninitL_some v tas hs]
    have hD : (![![some a, some 0, some 0], ![some 0, some b, some 0], ![some 0, some 0, some 0.0001]] : Fin 3 → Fin 3 → NF) =
        fun i j => some ((![![a, 0, 0], ![0, b, 0], ![0, 0, 0.0001]] : M3') i j) := by
      rw [← matrix_some]; rfl
    have hT : ntransp (fun i j => some (initL v tas i j)) = fun i j => some (transp (initL v tas) i j) := rfl
    rw [hD, hT, nmmul_some, nmmul_some]
    unfold emb
    dsimp only
    congr 1
    funext i
    fin_cases i <;> rfl

theorem ncap_some (i : Fin 3) (a : ℝ) : ncap i (some a) = some (if a > (if i.val < 2 then 25 else 0.1) then (if i.val < 2 then 25 else 0.1) else a) := by
  unfold ncap
  rw [ngt_some, ngt_some]
  by_cases h : i.val < 2
  · simp only [h, if_true]; by_cases h2 : a > 25 <;> simp [h2]
  · simp only [h, if_false]; by_cases h2 : a > 0.1 <;> simp [h2]

theorem nscale_some (e a : ℝ) : nscale e (some a) = some (if e < 0 then mmax 0 a else e) := by
  unfold nscale mmax
  rw [ngt_some]
  by_cases h : e < 0
  · simp only [h, if_true]; by_cases h2 : (0 : ℝ) > a <;> simp [h2]
  · simp only [h, if_false]

/-- the covariance with the diagonal elements before `k` limited, over the reals -/
noncomputable def capped (k : ℕ) (P : M3') : M3' := fun i j =>
  if i = j ∧ i.val < k then (if P i i > (if i.val < 2 then 25 else 0.1) then (if i.val < 2 then 25 else 0.1) else P i i) else P i j

theorem ncapped_some (k : ℕ) (P : M3') : ncapped k (fun i j => some (P i j)) = fun i j => some (capped k P i j) := by
  funext i j
  unfold ncapped capped
  by_cases h : i = j ∧ i.val < k
  · rw [if_pos h, if_pos h, ncap_some]
  · rw [if_neg h, if_neg h]

theorem diagStep_capped (P : M3') (i : Fin 3) : diagStep (capped i.val P) i = if P i i < 0 then none else some (capped (i.val + 1) P) := by
  have e : capped i.val P i i = P i i := by unfold capped; simp
  unfold diagStep
  rw [e]
  by_cases h : P i i < 0
  · rw [if_pos h, if_pos h]
  · rw [if_neg h, if_neg h]
    dsimp only
    congr 1
    funext a b
    unfold capped
    fin_cases i <;> fin_cases a <;> fin_cases b <;> simp

theorem capped_zero (P : M3') : capped 0 P = P := by
  funext i j; unfold capped; simp

theorem nsanity_some (st : St) : nsanity (emb st) = emb (sanity st) := by
  have d0 : diagStep st.P 0 = if st.P 0 0 < 0 then none else some (capped 1 st.P) := by
    have := diagStep_capped st.P 0
    rwa [show ((0 : Fin 3) : ℕ) = 0 from rfl, capped_zero] at this
  have d1 : diagStep (capped 1 st.P) 1 = if st.P 1 1 < 0 then none else some (capped 2 st.P) := diagStep_capped st.P 1
  have d2 : diagStep (capped 2 st.P) 2 = if st.P 2 2 < 0 then none else some (capped 3 st.P) := diagStep_capped st.P 2
  unfold nsanity sanity
  rw [d0]
  show (if ngt (some 0) (some (st.P 0 0)) then _ else if ngt (some 0) (some (st.P 1 1)) then _ else if ngt (some 0) (some (st.P 2 2)) then _ else _) = _
  rw [ngt_some, ngt_some, ngt_some]
  by_cases h0 : st.P 0 0 < 0
  · rw [if_pos (by simpa using h0), if_pos h0]
    rfl
  rw [if_neg (by simpa using h0), if_neg h0]
  dsimp only
  rw [d1]
  by_cases h1 : st.P 1 1 < 0
  · rw [if_pos (by simpa using h1), if_pos h1]
    show ({ emb st with P := ncapped 1 (fun i j => some (st.P i j)), init := false } : NSt) = _
    rw [ncapped_some]
    rfl
  rw [if_neg (by simpa using h1), if_neg h1]
  dsimp only
  rw [d2]
  by_cases h2 : st.P 2 2 < 0
  · rw [if_pos (by simpa using h2), if_pos h2]
    show ({ emb st with P := ncapped 2 (fun i j => some (st.P i j)), init := false } : NSt) = _
    rw [ncapped_some]
    rfl
  rw [if_neg (by simpa using h2), if_neg h2, if_neg (by simp [emb])]
  dsimp only
  have hx : (![some (st.x 0), some (st.x 1), nscale st.c.enforced (some (st.x 2))] : Fin 3 → NF) =
      fun i => some ((![st.x 0, st.x 1, if st.c.enforced < 0 then mmax 0 (st.x 2) else st.c.enforced] : V3') i) := by
    rw [nscale_some]
    funext i; fin_cases i <;> rfl
  have hP : (fun i j => if i = j then ncapped 3 (fun i j => some (st.P i j)) i j else if j < i then
        ndiv (add (ncapped 3 (fun i j => some (st.P i j)) i j) (ncapped 3 (fun i j => some (st.P i j)) j i)) (some 2)
        else ndiv (add (ncapped 3 (fun i j => some (st.P i j)) j i) (ncapped 3 (fun i j => some (st.P i j)) i j)) (some 2)) =
      fun i j : Fin 3 => some (if i = j then capped 3 st.P i j else if j < i then (capped 3 st.P i j + capped 3 st.P j i) / 2
        else (capped 3 st.P j i + capped 3 st.P i j) / 2) := by
    rw [ncapped_some]
    funext i j
    by_cases h : i = j
    · rw [if_pos h, if_pos h]
    · rw [if_neg h, if_neg h]
      simp only [add_some]
      rw [ndiv_some _ two_ne_zero, ndiv_some _ two_ne_zero]
      by_cases h' : j < i
      · rw [if_pos h', if_pos h']
      · rw [if_neg h', if_neg h']
  unfold emb
  dsimp only
  rw [hx, hP]

theorem napply_some (innov S : ℝ) (hS : S ≠ 0) (H : V3') (st : St) :
    napply (some innov) (some S) (fun i => some (H i)) (emb st) = emb (apply innov S H st) := by
  unfold napply apply
  rw [if_neg hS, ← nsanity_some]
  congr 1
  have hK : ngain (emb st).P (fun i => some (H i)) (some S) = fun i => some (gain st.P H S i) := ngain_some st.P H hS
  rw [hK]
  unfold emb
  dsimp only
  rw [nshrink_some]
  have hx : (fun i => add (some (st.x i)) (mul (some innov) (some (gain st.P H S i)))) =
      fun i => some ((![st.x 0 + innov * gain st.P H S 0, st.x 1 + innov * gain st.P H S 1, st.x 2 + innov * gain st.P H S 2] : V3') i) := by
    funext i
    fin_cases i <;> rfl
  rw [hx]

theorem ncheck_some (now : UInt64) (i S : ℝ) (g : UInt8) (t : UInt64) : ncheck now (some i) (some S) g t = checkRejected now i S g t := by
  have e : ngt (mul (some i) (some i)) (mul (some ((g.toNat : ℝ) * g.toNat)) (some S)) = decide (i * i > (g.toNat : ℝ) * g.toNat * S) := ngt_some _ _
  unfold ncheck checkRejected
  by_cases h : i * i > (g.toNat : ℝ) * g.toNat * S
  · rw [if_pos h, if_pos (by rw [e]; simpa using h)]
  · rw [if_neg h, if_neg (by rw [e]; simpa using h)]

theorem nhTas_some (v x : V3') (h : relSpeed v x ≠ 0) : nhTas (fun i => some (v i)) (fun i => some (x i)) = fun i => some (hTas v x i) := by
  have e : nrel (fun i => some (v i)) (fun i => some (x i)) = some (relSpeed v x) := rfl
  unfold nhTas
  rw [e, ndiv_some _ h]
  simp only [neg_some, add_some, mul_some]
  funext i
  fin_cases i <;> rfl

/-! ## Results -/

/-- **C176 (agreement).** On numbers, with a relative airspeed and an innovation variance that are not zero, an airspeed sample does exactly what the model over the reals says. -/
theorem agree_airspeed (now : UInt64) (tas : ℝ) (v : V3') (a b : ℝ) (st : St) (hr : st.init = true → relSpeed v st.x ≠ 0)
    (hS : st.init = true → hph st.P (hTas v st.x) + st.c.tasVar ≠ 0) :
    nfuseTas now (some tas) (fun i => some (v i)) (some a) (some b) (emb st) = emb (fuseTas now tas v a b st) := by
  unfold nfuseTas fuseTas
  have hi : (emb st).init = st.init := rfl
  rw [hi]
  by_cases h1 : st.init = false
  · rw [if_pos h1, if_pos h1, nmax001_some, nmax001_some, ninitialise_some]
  rw [if_neg h1, if_neg h1]
  have hr' := hr (by simpa using h1)
  have hS' := hS (by simpa using h1)
  have ht : (emb st).tTas = st.tTas := rfl
  rw [ht]
  by_cases h2 : now - st.tTas < 100000
  · rw [if_pos h2, if_pos h2]
  rw [if_neg h2, if_neg h2]
  unfold fuseTasCore
  rw [if_neg hr']
  have eH : nhTas (fun i => some (v i)) (emb st).x = fun i => some (hTas v st.x i) := nhTas_some v st.x hr'
  have eS : nhph (emb st).P (fun i => some (hTas v st.x i)) = some (hph st.P (hTas v st.x)) := rfl
  have eI : ntasPred (fun i => some (v i)) (emb st).x = some (tasPred v st.x) := rfl
  rw [eH]
  dsimp only
  rw [eS, eI]
  simp only [add_some, sub_some]
  have eC : (emb st).c = st.c := rfl
  have eR : (emb st).rejTas = st.rejTas := rfl
  rw [eC, eR]
  simp only [add_some, ncheck_some, ngt_some, gt_iff_lt]
  split_ifs with h3 h4
  · exact ninitialise_some v _ _ tas { st with
      tTas := now
      tasInnov := tas - tasPred v st.x
      tasInnovVar := hph st.P (hTas v st.x) + st.c.tasVar
      rejTas := (checkRejected now (tas - tasPred v st.x) (hph st.P (hTas v st.x) + st.c.tasVar) st.c.tasGate st.rejTas).1 }
  · rfl
  · exact napply_some _ _ hS' _ { st with
      tTas := now
      tasInnov := tas - tasPred v st.x
      tasInnovVar := hph st.P (hTas v st.x) + st.c.tasVar
      rejTas := (checkRejected now (tas - tasPred v st.x) (hph st.P (hTas v st.x) + st.c.tasVar) st.c.tasGate st.rejTas).1 }

/-- **C176 (agreement).** The same for sideslip. -/
theorem agree_beta (now : UInt64) (v : V3') (q : Quat ℝ) (st : St) (hS : st.init = true → hph st.P (hBeta v st.x q) + st.c.betaVar ≠ 0) :
    nfuseBeta now (fun i => some (v i)) (fun i => some (hBeta v st.x q i)) (fun i => some (relWind v st.x q i)) (emb st) = emb (fuseBeta now v q st) := by
  unfold nfuseBeta fuseBeta
  have hi : (emb st).init = st.init := rfl
  have eL : sqrt (add (add (mul (some (v 0)) (some (v 0))) (mul (some (v 1)) (some (v 1)))) (mul (some (v 2)) (some (v 2)))) = some (len3 v) := rfl
  rw [hi, eL]
  by_cases h1 : st.init = false
  · rw [if_pos h1, if_pos h1, ninitialise_some]
  rw [if_neg h1, if_neg h1]
  have hS' := hS (by simpa using h1)
  have ht : (emb st).tBeta = st.tBeta := rfl
  rw [ht]
  by_cases h2 : now - st.tBeta < 100000
  · rw [if_pos h2, if_pos h2]
  rw [if_neg h2, if_neg h2]
  unfold fuseBetaCore
  have eS : nhph (emb st).P (fun i => some (hBeta v st.x q i)) = some (hph st.P (hBeta v st.x q)) := rfl
  rw [eS]
  simp only [fun1_some, ngt_some, decide_eq_true_eq, gt_iff_lt]
  by_cases h3 : |relWind v st.x q 0| < 0.1
  · rw [if_pos h3, if_pos h3]
    rfl
  rw [if_neg h3, if_neg h3]
  have h0 : relWind v st.x q 0 ≠ 0 := by
    intro c; rw [c] at h3; norm_num at h3
  rw [ndiv_some _ h0]
  have eC : (emb st).c = st.c := rfl
  have eR : (emb st).rejBeta = st.rejBeta := rfl
  rw [eC, eR]
  simp only [add_some, sub_some, ncheck_some, ngt_some, gt_iff_lt]
  split_ifs with h4 h5
  · exact ninitialise_some v _ _ (len3 v) { st with
      tBeta := now
      betaInnov := 0 - relWind v st.x q 1 / relWind v st.x q 0
      betaInnovVar := hph st.P (hBeta v st.x q) + st.c.betaVar
      rejBeta := (checkRejected now (0 - relWind v st.x q 1 / relWind v st.x q 0) (hph st.P (hBeta v st.x q) + st.c.betaVar) st.c.betaGate st.rejBeta).1 }
  · rfl
  · exact napply_some _ _ hS' _ { st with
      tBeta := now
      betaInnov := 0 - relWind v st.x q 1 / relWind v st.x q 0
      betaInnovVar := hph st.P (hBeta v st.x q) + st.c.betaVar
      rejBeta := (checkRejected now (0 - relWind v st.x q 1 / relWind v st.x q 0) (hph st.P (hBeta v st.x q) + st.c.betaVar) st.c.betaGate st.rejBeta).1 }

/-- **C176 (agreement).** The same for the prediction, without exception. -/
theorem agree_update (now : UInt64) (st : St) : nupdate now (emb st) = emb (update now st) := by
  unfold nupdate update
  have hi : (emb st).init = st.init := rfl
  have ht : (emb st).tUpd = st.tUpd := rfl
  rw [hi, ht]
  by_cases h1 : st.init = false
  · rw [if_pos h1, if_pos h1]
  rw [if_neg h1, if_neg h1]
  dsimp only
  by_cases h2 : now - st.tUpd < 1000000 ∨ st.tUpd = 0
  · rw [if_pos h2, if_pos h2]
    by_cases h3 : st.tUpd = 0
    · rw [if_pos h3, if_pos h3]; rfl
    · rw [if_neg h3, if_neg h3]; rfl
  · rw [if_neg h2, if_neg h2]
    have eP : npredictP (emb st).P (dtSec now st.tUpd) st.c.windPVar st.c.tasPVar = fun i j => some (predictP st.P (dtSec now st.tUpd) st.c.windPVar st.c.tasPVar i j) := by
      unfold npredictP predictP emb
      simp only [add_some]
      funext i j
      fin_cases i <;> fin_cases j <;> rfl
    have eC : (emb st).c = st.c := rfl
    rw [eC, eP]
    rfl

/-! ## Concrete case -/

/-- a valid estimate of no wind -/
noncomputable def exReal : St := { fresh with
  x := ![0, 0, 1]
  P := fun i j => if i = j then 0.01 else 0
  init := true }

/-- 15 m/s north: the hypotheses hold -/
example : (exReal.init = true → relSpeed ![15, 0, 0] exReal.x ≠ 0) ∧ (exReal.init = true → hph exReal.P (hTas ![15, 0, 0] exReal.x) + exReal.c.tasVar ≠ 0) := by
  have hP : ∀ i j, exReal.P i j = if i = j then 0.01 else 0 := fun _ _ => rfl
  have hc : exReal.c.tasVar = 1.4 := rfl
  refine ⟨fun _ => ?_, fun _ => ?_⟩
  · have : relSpeed ![15, 0, 0] exReal.x = Real.sqrt (0 * 0 + (0 - 0) * (0 - 0) + (15 - 0) * (15 - 0)) := rfl
    rw [this]
    exact (Real.sqrt_pos.2 (by norm_num)).ne'
  · unfold hph
    simp only [hP, hc, Fin.isValue, if_true, reduceIte]
    simp
    nlinarith [sq_nonneg (hTas ![15, 0, 0] exReal.x 0), sq_nonneg (hTas ![15, 0, 0] exReal.x 1), sq_nonneg (hTas ![15, 0, 0] exReal.x 2)]

end Ecl.Wind.NaN
