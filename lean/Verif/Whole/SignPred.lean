import Verif.Whole.SignBase

/-!
# The covariance prediction with changed signs
-/

namespace Ecl.Whole

open Ecl.Cov Ecl.Fusion

noncomputable section

variable {σ : Fin N → ℝ}

/-- the inhibition state with changed signs: only the covariance changes -/
def sgI (σ : Fin N → ℝ) (s : InhibitState ℝ) : InhibitState ℝ := { s with P := sgM σ s.P }

theorem sg_inhibitStep (h : IsSign σ) (x x' : InhibitIn ℝ) (u v : ℝ) (hx : ∀ a, inhibitAxis x' u v a = inhibitAxis x u v a) (s : InhibitState ℝ) (a : Fin 3) :
    inhibitStep x' u v (sgI σ s) a = sgI σ (inhibitStep x u v s a) := by
  have e1 : ∀ (v : ℝ), (fun i j => if i = accIdx a ∧ j = accIdx a then v else sgM σ s.P i j) = sgM σ (fun i j => if i = accIdx a ∧ j = accIdx a then v else s.P i j) :=
    fun v => sg_setDiag h (accIdx a) v s.P
  unfold inhibitStep
  rw [hx]
  show (if inhibitAxis x u v a = true then (if (!s.inhibit a) = true then _ else _) else (if s.inhibit a = true then _ else _)) = _
  split
  · split
    · show ({ sgI σ s with prevVar := Function.update s.prevVar a (sgM σ s.P (accIdx a) (accIdx a)), inhibit := Function.update s.inhibit a true } : InhibitState ℝ) = _
      rw [sgM_diag h]; rfl
    · rfl
  · split
    · show ({ sgI σ s with P := fun i j => if i = accIdx a ∧ j = accIdx a then s.prevVar a else sgM σ s.P i j, inhibit := Function.update s.inhibit a false } : InhibitState ℝ) = _
      rw [e1]; rfl
    · rfl

theorem sg_inhibitUpdate (h : IsSign σ) (x x' : InhibitIn ℝ) (he : ∀ s, envelope x' s = envelope x s)
    (hx : ∀ u v a, inhibitAxis x' u v a = inhibitAxis x u v a) (s : InhibitState ℝ) :
    inhibitUpdate x' (sgI σ s) = sgI σ (inhibitUpdate x s) := by
  unfold inhibitUpdate
  rw [he, show envelope x (sgI σ s) = envelope x s from rfl]
  dsimp only [List.foldl]
  rw [show ({ sgI σ s with angFilt := (envelope x s).1, accFilt := (envelope x s).2 } : InhibitState ℝ) =
    sgI σ { s with angFilt := (envelope x s).1, accFilt := (envelope x s).2 } from rfl]
  rw [sg_inhibitStep h x x' _ _ (hx _ _), sg_inhibitStep h x x' _ _ (hx _ _), sg_inhibitStep h x x' _ _ (hx _ _)]

theorem sg_processNoise (h : IsSign σ) (x : NoiseIn ℝ) (hr : ℝ) (P : Mat ℝ) : processNoise x hr (sgM σ P) = processNoise x hr P := by
  funext i
  unfold processNoise
  simp only [sgM_diag h]

theorem sg_writeCol (c : Fin N) (f g : ℕ → ℝ) (hf : ∀ i : Fin N, f i.val = σ i * σ c * g i.val) (M : Mat ℝ) :
    writeCol c.val f (sgM σ M) = sgM σ (writeCol c.val g M) := by
  funext i j
  unfold writeCol sgM
  by_cases e : j.val = c.val ∧ i.val ≤ c.val
  · simp only [e, and_self, if_true, hf]
    rw [show j = c from Fin.ext e.1]
  · simp only [e, if_false]

theorem sg_foldCols {P P' : Mat ℝ} {x x' : PredIn ℝ} (hn : ∀ i j : Fin N, nxAll P' x' i.val j.val = σ i * σ j * nxAll P x i.val j.val)
    (l : List ℕ) (hl : ∀ j ∈ l, j < 24) (M : Mat ℝ) :
    l.foldl (fun M j => writeCol j (fun i => nxAll P' x' i j) M) (sgM σ M) = sgM σ (l.foldl (fun M j => writeCol j (fun i => nxAll P x i j) M) M) := by
  induction l generalizing M with
  | nil => rfl
  | cons j l ih =>
    have hj := hl j (by simp)
    simp only [List.foldl]
    rw [← ih (fun k hk => hl k (by simp [hk]))]
    congr 1
    exact sg_writeCol ⟨j, hj⟩ _ _ (fun i => hn i ⟨j, hj⟩) M

theorem sg_addKahan (h : IsSign σ) (c : ℕ) (n a : ℝ) (M : Mat ℝ) : addKahan c n a (sgM σ M) = sgM σ (addKahan c n a M) := by
  funext i j
  by_cases e : i.val = c ∧ j.val = c
  · have ij : i = j := Fin.ext (e.1.trans e.2.symm)
    subst ij
    rw [sgM_diag h]
    unfold addKahan
    rw [if_pos e, if_pos e, sgM_diag h]
  · show _ = σ i * σ j * addKahan c n a M i j
    unfold addKahan
    rw [if_neg e, if_neg e]
    rfl

theorem sg_addNoise (h : IsSign σ) (lo hi : ℕ) (n : Fin N → ℝ) (M : Mat ℝ) : addNoise lo hi n (sgM σ M) = sgM σ (addNoise lo hi n M) := by
  funext i j
  by_cases e : i = j ∧ lo ≤ i.val ∧ i.val ≤ hi
  · obtain ⟨rfl, e⟩ := e
    rw [sgM_diag h]
    unfold addNoise
    rw [if_pos ⟨rfl, e⟩, if_pos ⟨rfl, e⟩, sgM_diag h]
  · show _ = σ i * σ j * addNoise lo hi n M i j
    unfold addNoise
    rw [if_neg e, if_neg e]
    rfl

theorem sg_mirror (M : Mat ℝ) : Cov.mirror (sgM σ M) = sgM σ (Cov.mirror M) := by
  funext i j
  show _ = σ i * σ j * Cov.mirror M i j
  unfold Cov.mirror
  split
  · rfl
  · unfold sgM; ring

theorem sg_stopGrowth (h : IsSign σ) (P M : Mat ℝ) : stopGrowth (sgM σ P) (sgM σ M) = sgM σ (stopGrowth P M) := by
  unfold stopGrowth
  have d7 := sgM_diag h P 7
  have d8 := sgM_diag h P 8
  by_cases c : P 7 7 + P 8 8 > 10000
  · have c' : sgM σ P 7 7 + sgM σ P 8 8 > 10000 := by rw [d7, d8]; exact c
    rw [if_pos c, if_pos c']
    funext i j
    simp only [sgM]
    split <;> rfl
  · have c' : ¬ sgM σ P 7 7 + sgM σ P 8 8 > 10000 := by rw [d7, d8]; exact c
    rw [if_neg c, if_neg c']

theorem sgM_zero : sgM σ (fun _ _ => 0) = fun _ _ => 0 := by
  funext i j; unfold sgM; ring

theorem sg_predictRaw (h : IsSign σ) (c : PredCfg ℝ) (x' : PredIn ℝ) (acc : Accum ℝ) (P : Mat ℝ)
    (hn : ∀ i j : Fin N, nxAll (sgM σ P) x' i.val j.val = σ i * σ j * nxAll P c.x i.val j.val) :
    predictRaw { c with x := x' } acc (sgM σ P) = sgM σ (predictRaw c acc P) := by
  have k : nextKin { c with x := x' } acc (sgM σ P) = sgM σ (nextKin c acc P) := by
    unfold nextKin
    dsimp only
    have := sg_foldCols hn (List.range 13) (fun j hj => by have := List.mem_range.mp hj; omega) (fun _ _ => 0)
    rw [sgM_zero] at this
    rw [this, sg_addKahan h, sg_addKahan h, sg_addKahan h]
  have a : ∀ (M : Mat ℝ) (i : Fin 3), nextAcc { c with x := x' } acc (sgM σ P) (sgM σ M) i = sgM σ (nextAcc c acc P M i) := by
    intro M i
    unfold nextAcc
    dsimp only
    split
    · have := sg_writeCol (σ := σ) ⟨13 + i.val, by show 13 + i.val < 24; omega⟩
        (fun k => nxAll (sgM σ P) x' k (13 + i.val)) (fun k => nxAll P c.x k (13 + i.val)) (fun k => hn k ⟨13 + i.val, by show 13 + i.val < 24; omega⟩) M
      dsimp only at this
      rw [this, sg_addKahan h]
    · rw [sg_uncorrSet h]
  have m : ∀ M, nextMag { c with x := x' } (sgM σ P) (sgM σ M) = sgM σ (nextMag c P M) := by
    intro M
    unfold nextMag
    split
    · rw [sg_foldCols hn _ (by decide), sg_addNoise h]
    · rfl
  have w : ∀ M, nextWind { c with x := x' } (sgM σ P) (sgM σ M) = sgM σ (nextWind c P M) := by
    intro M
    unfold nextWind
    split
    · rw [sg_foldCols hn _ (by decide), sg_addNoise h]
    · rfl
  unfold predictRaw
  simp only [List.foldl, k, a, m, w, sg_stopGrowth h, sg_mirror]

theorem sg_predictAccum (h : IsSign σ) (c : PredCfg ℝ) (x' : PredIn ℝ) (acc : Accum ℝ) (P : Mat ℝ)
    (hn : ∀ i j : Fin N, nxAll (sgM σ P) x' i.val j.val = σ i * σ j * nxAll P c.x i.val j.val) :
    predictAccum { c with x := x' } acc (sgM σ P) = predictAccum c acc P := by
  have d : ∀ k : ℕ, k < 24 → nxAll (sgM σ P) x' k k = nxAll P c.x k k := by
    intro k hk
    have := hn ⟨k, hk⟩ ⟨k, hk⟩
    rw [h, one_mul] at this
    exact this
  unfold predictAccum
  congr 1
  · funext a; dsimp only; rw [d _ (by omega)]
  · funext a; dsimp only; rw [d _ (by omega)]

/-- the state of the covariance prediction with changed signs -/
def sgC (σ : Fin N → ℝ) (s : CovSt ℝ) : CovSt ℝ := { s with ist := sgI σ s.ist }

theorem sg_predictCovariance (h : IsSign σ) (x x' : CovIn ℝ) (s : CovSt ℝ)
    (hn : ∀ (P : Mat ℝ) (i j : Fin N), nxAll (sgM σ P) x'.predIn i.val j.val = σ i * σ j * nxAll P x.predIn i.val j.val)
    (he : ∀ s, envelope x'.inh s = envelope x.inh s) (hx : ∀ u v a, inhibitAxis x'.inh u v a = inhibitAxis x.inh u v a)
    (hz : x'.nz = x.nz) (hd : x'.dtEkfAvg = x.dtEkfAvg) (ht : x'.now = x.now) (hb : x'.badAccBias = x.badAccBias) :
    predictCovariance x' (sgC σ s) = sgC σ (predictCovariance x s) := by
  unfold predictCovariance
  rw [show (sgC σ s).ist = sgI σ s.ist from rfl, sg_inhibitUpdate h x.inh x'.inh he hx, hz, hd, ht, hb]
  dsimp only
  generalize inhibitUpdate x.inh s.ist = ist
  rw [show (sgI σ ist).P = sgM σ ist.P from rfl, show (sgC σ s).heightRate = s.heightRate from rfl, show (sgI σ ist).inhibit = ist.inhibit from rfl,
    show (sgI σ ist).prevVar = ist.prevVar from rfl, show (sgC σ s).acc = s.acc from rfl, show (sgC σ s).timeCheck = s.timeCheck from rfl,
    show (sgC σ s).badAccBias = s.badAccBias from rfl, sg_processNoise h]
  set c : PredCfg ℝ := { x := x.predIn, noise := processNoise x.nz (heightRateLpf s.heightRate x.nz.velD) ist.P, inhibit := ist.inhibit, prevVar := ist.prevVar, mag3D := x.nz.mag3D, wind := x.nz.wind } with hc
  have r1 := sg_predictRaw h c x'.predIn s.acc ist.P (fun i j => hn ist.P i j)
  have r2 := sg_predictAccum h c x'.predIn s.acc ist.P (fun i j => hn ist.P i j)
  have e : ({ x := x'.predIn, noise := processNoise x.nz (heightRateLpf s.heightRate x.nz.velD) ist.P, inhibit := ist.inhibit, prevVar := ist.prevVar, mag3D := x.nz.mag3D, wind := x.nz.wind } : PredCfg ℝ) = { c with x := x'.predIn } := rfl
  rw [e, r2]
  unfold predictCov
  rw [r1, sg_fixCov h]
  rfl

end

end Ecl.Whole
