import Verif.Wind.Model
import Verif.Fusion.OthersNaN

/-!
# The wind estimator and NaN (C176) — airdata/WindEstimator.cpp

Floats as in `Verif/Fusion/VelPosNaN`: a real or NaN, arithmetic exact.  Infinities are not modelled: a quotient with denominator zero counts as NaN; the finite check at
WindEstimator.cpp:328 treats both alike.  Members that are only reported (innovations) are left out.
-/

namespace Ecl.Wind.NaN

open Ecl.Fusion.NaN

noncomputable section

/-- quotient; not a number if the denominator is zero -/
def ndiv (a b : NF) : NF := open Classical in if b = some 0 then none else div a b
/-- `>` as a flag -/
def ngt (a b : NF) : Bool := open Classical in decide (gt a b)

/-- members, WindEstimator.hpp:107-135 -/
structure NSt where
  x : Fin 3 → NF
  P : Fin 3 → Fin 3 → NF
  init : Bool
  c : Cfg
  tTas : UInt64
  tBeta : UInt64
  tUpd : UInt64
  rejBeta : UInt64
  rejTas : UInt64

/-- matrix product of the external library -/
def nmmul (A B : Fin 3 → Fin 3 → NF) : Fin 3 → Fin 3 → NF := fun i j => add (add (mul (A i 0) (B 0 j)) (mul (A i 1) (B 1 j))) (mul (A i 2) (B 2 j))
/-- `transpose()` of the external library -/
def ntransp (A : Fin 3 → Fin 3 → NF) : Fin 3 → Fin 3 → NF := fun i j => A j i
/-- `-x` -/
def neg (x : NF) : NF := sub (some 0) x

/-- The matrix `L` of `initialise`, WindEstimator.cpp:61-76 -/
def ninitL (v : Fin 3 → NF) (tas : NF) : Fin 3 → Fin 3 → NF :=
  let L0 := mul (v 1) (v 1)
  let L1 := mul (v 0) (v 0)
  let L2 := add L0 L1
  let L3 := ndiv tas (mul L2 (sqrt L2))
  let L4 := add (mul (mul L3 (v 1)) (v 0)) (some 1)
  let L5 := ndiv (some 1) (sqrt L2)
  let L6 := mul (neg L5) tas
  ![![L4, add (mul L0 L3) L6, some 0], ![add (mul L1 L3) L6, L4, some 0], ![some 0, some 0, some 1]]

/-- ground speed, WindEstimator.cpp:46 -/
def nground (v : Fin 3 → NF) : NF := sqrt (add (mul (v 0) (v 0)) (mul (v 1) (v 1)))

/-- `_initialised = initialise(velI, velIvar, tas_meas)`, WindEstimator.cpp:41-94 with the assignment made by every caller -/
def ninitialise (v : Fin 3 → NF) (var0 var1 tas : NF) (st : NSt) : NSt :=
  if ngt (some 3) (nground v) then { st with init := false }
  else
    let heading := fun2 atan2 (v 1) (v 0)
    { st with
      x := ![sub (v 0) (mul tas (fun1 Real.cos heading)), sub (v 1) (mul tas (fun1 Real.sin heading)), some 1]
      P := nmmul (nmmul (ninitL v tas) ![![var0, some 0, some 0], ![some 0, var1, some 0], ![some 0, some 0, some 0.0001]]) (ntransp (ninitL v tas))
      rejTas := 0
      rejBeta := 0
      init := true }

/-- Covariance prediction over `dt` seconds, WindEstimator.cpp:118-136 -/
def npredictP (P : Fin 3 → Fin 3 → NF) (dt qw qk : ℝ) : Fin 3 → Fin 3 → NF :=
  let a := add (some (dt * dt * qw)) (P 0 1)
  ![![add (some (dt * dt * qw)) (P 0 0), a, P 0 2], ![a, add (some (dt * dt * qw)) (P 1 1), P 1 2], ![P 0 2, P 1 2, add (some (dt * dt * qk)) (P 2 2)]]

/-- `update(time_now)`, WindEstimator.cpp:96-137 -/
def nupdate (now : UInt64) (st : NSt) : NSt :=
  if st.init = false then st
  else if now - st.tUpd < 1000000 ∨ st.tUpd = 0 then (if st.tUpd = 0 then { st with tUpd := now } else st)
  else { st with tUpd := now, P := npredictP st.P (dtSec now st.tUpd) st.c.windPVar st.c.tasPVar }

/-- row vector times matrix, `H * _P` -/
def nrow (P : Fin 3 → Fin 3 → NF) (H : Fin 3 → NF) (j : Fin 3) : NF := add (add (mul (H 0) (P 0 j)) (mul (H 1) (P 1 j))) (mul (H 2) (P 2 j))
/-- `(H * _P * H.transpose())(0,0)` -/
def nhph (P : Fin 3 → Fin 3 → NF) (H : Fin 3 → NF) : NF := add (add (mul (nrow P H 0) (H 0)) (mul (nrow P H 1) (H 1))) (mul (nrow P H 2) (H 2))
/-- `K = _P * H.transpose(); K /= S`, WindEstimator.cpp:174-178, 260-264 -/
def ngain (P : Fin 3 → Fin 3 → NF) (H : Fin 3 → NF) (S : NF) : Fin 3 → NF := fun i =>
  ndiv (add (add (mul (P i 0) (H 0)) (mul (P i 1) (H 1))) (mul (P i 2) (H 2))) S
/-- `_P - K * H * _P`, WindEstimator.cpp:210, 304 -/
def nshrink (P : Fin 3 → Fin 3 → NF) (K H : Fin 3 → NF) : Fin 3 → Fin 3 → NF := fun i j => sub (P i j) (nmmul (fun a b => mul (K a) (H b)) P i j)

/-- limit of a diagonal element, WindEstimator.cpp:319-325 -/
def ncap (i : Fin 3) (a : NF) : NF := if i.val < 2 then (if ngt a (some 25) then some 25 else a) else (if ngt a (some 0.1) then some 0.1 else a)
/-- the covariance with the diagonal elements before `k` limited -/
def ncapped (k : ℕ) (P : Fin 3 → Fin 3 → NF) : Fin 3 → Fin 3 → NF := fun i j => if i = j ∧ i.val < k then ncap i (P i i) else P i j

/-- scale factor after the sanity checks, WindEstimator.cpp:336-340 -/
def nscale (enforced : ℝ) (a : NF) : NF := if enforced < 0 then (if ngt (some 0) a then some 0 else a) else some enforced

/-- `math::max(0.01f, x)`, WindEstimator.cpp:143; a NaN `x` comes back -/
def nmax001 (a : NF) : NF := if ngt (some 0.01) a then some 0.01 else a

/-- `run_sanity_checks()`, WindEstimator.cpp:309-350 -/
def nsanity (st : NSt) : NSt := open Classical in
  if ngt (some 0) (st.P 0 0) then { st with init := false }
  else if ngt (some 0) (st.P 1 1) then { st with P := ncapped 1 st.P, init := false }
  else if ngt (some 0) (st.P 2 2) then { st with P := ncapped 2 st.P, init := false }
  else if st.x 0 = none ∨ st.x 1 = none ∨ st.x 2 = none then { st with P := ncapped 3 st.P, init := false }
  else
    let P := ncapped 3 st.P
    { st with
      x := ![st.x 0, st.x 1, nscale st.c.enforced (st.x 2)]
      P := fun i j => if i = j then P i j else if j < i then ndiv (add (P i j) (P j i)) (some 2) else ndiv (add (P j i) (P i j)) (some 2) }

/-- `check_if_meas_is_rejected(...)`, WindEstimator.cpp:352-366 -/
def ncheck (now : UInt64) (innov innovVar : NF) (gate : UInt8) (tRej : UInt64) : UInt64 × Bool × Bool :=
  let t := if ngt (mul innov innov) (mul (some ((gate.toNat : ℝ) * gate.toNat)) innovVar) then (if tRej = 0 then now else tRej) else 0
  (t, decide (t ≠ 0), decide (now - t > 5000000 ∧ t ≠ 0))

/-- application of an accepted measurement, WindEstimator.cpp:204-212, 298-306 -/
def napply (innov S : NF) (H : Fin 3 → NF) (st : NSt) : NSt :=
  let K := ngain st.P H S
  nsanity { st with
    x := fun i => add (st.x i) (mul innov (K i))
    P := nshrink st.P K H }

/-- relative airspeed `HH0`, WindEstimator.cpp:166 -/
def nrel (v x : Fin 3 → NF) : NF :=
  sqrt (add (add (mul (v 2) (v 2)) (mul (sub (v 1) (x 1)) (sub (v 1) (x 1)))) (mul (sub (v 0) (x 0)) (sub (v 0) (x 0))))

/-- `H_tas`, WindEstimator.cpp:167-172 -/
def nhTas (v x : Fin 3 → NF) : Fin 3 → NF :=
  ![mul (ndiv (x 2) (nrel v x)) (add (neg (v 0)) (x 0)), mul (ndiv (x 2) (nrel v x)) (add (neg (v 1)) (x 1)), nrel v x]

/-- `airspeed_pred`, WindEstimator.cpp:180-181 -/
def ntasPred (v x : Fin 3 → NF) : NF :=
  mul (x 2) (sqrt (add (add (mul (sub (v 0) (x 0)) (sub (v 0) (x 0))) (mul (sub (v 1) (x 1)) (sub (v 1) (x 1)))) (mul (v 2) (v 2))))

/-- `fuse_airspeed(...)`, WindEstimator.cpp:139-213 -/
def nfuseTas (now : UInt64) (tas : NF) (v : Fin 3 → NF) (var0 var1 : NF) (st : NSt) : NSt :=
  if st.init = false then
    ninitialise v (nmax001 var0) (nmax001 var1) tas st
  else if now - st.tTas < 100000 then st
  else
    let H := nhTas v st.x
    let S := add (nhph st.P H) (some st.c.tasVar)
    let innov := sub tas (ntasPred v st.x)
    let ch := ncheck now innov S st.c.tasGate st.rejTas
    let st := { st with tTas := now, rejTas := ch.1 }
    let reinit := ch.2.2 || ngt (some 0) S
    if ch.2.1 || reinit then (if reinit then ninitialise v (some 0.1) (some 0.1) tas st else st)
    else napply innov S H st

/-- `fuse_beta(...)`, WindEstimator.cpp:215-307, for any sensitivity `H` and relative wind `r` in body axes as functions of velocity, wind and attitude -/
def nfuseBeta (now : UInt64) (v : Fin 3 → NF) (H : Fin 3 → NF) (r : Fin 3 → NF) (st : NSt) : NSt :=
  if st.init = false then ninitialise v (some 0.1) (some 0.1) (sqrt (add (add (mul (v 0) (v 0)) (mul (v 1) (v 1))) (mul (v 2) (v 2)))) st
  else if now - st.tBeta < 100000 then st
  else
    let S := add (nhph st.P H) (some st.c.betaVar)
    if ngt (some 0.1) (fun1 abs (r 0)) then { st with tBeta := now }
    else
      let innov := sub (some 0) (ndiv (r 1) (r 0))
      let ch := ncheck now innov S st.c.betaGate st.rejBeta
      let st := { st with tBeta := now, rejBeta := ch.1 }
      let reinit := ch.2.2 || ngt (some 0) S
      if ch.2.1 || reinit then
        (if reinit then ninitialise v (some 0.1) (some 0.1) (sqrt (add (add (mul (v 0) (v 0)) (mul (v 1) (v 1))) (mul (v 2) (v 2)))) st else st)
      else napply innov S H st

/-- the calls -/
inductive NCall where
  | update (now : UInt64)
  | airspeed (now : UInt64) (tas : NF) (v : Fin 3 → NF) (var0 var1 : NF)
  | beta (now : UInt64) (v H r : Fin 3 → NF)

/-- effect of a call -/
def nstep (st : NSt) : NCall → NSt
  | .update t => nupdate t st
  | .airspeed t tas v a b => nfuseTas t tas v a b st
  | .beta t v H r => nfuseBeta t v H r st

end

/-! ## Specification -/

/-- a number -/
def Spec.Num (a : NF) : Prop := a.isSome = true
/-- wind, scale factor and covariance are numbers -/
def Spec.Clean (st : NSt) : Prop := (∀ i, Spec.Num (st.x i)) ∧ ∀ i j, Spec.Num (st.P i j)
/-- an estimate reported as valid is made of numbers -/
def Spec.Honest (st : NSt) : Prop := st.init = true → Spec.Clean st
/-- a call whose arguments are numbers -/
def Spec.NumCall : NCall → Prop
  | .update _ => True
  | .airspeed _ tas v a b => Spec.Num tas ∧ (∀ i, Spec.Num (v i)) ∧ Spec.Num a ∧ Spec.Num b
  | .beta _ v _ _ => ∀ i, Spec.Num (v i)

/-! ## Propagation of NaN -/

open Spec

@[simp] theorem isSome_add (a b : NF) : (add a b).isSome = (a.isSome && b.isSome) := by cases a <;> cases b <;> rfl
@[simp] theorem isSome_sub (a b : NF) : (sub a b).isSome = (a.isSome && b.isSome) := by cases a <;> cases b <;> rfl
@[simp] theorem isSome_mul (a b : NF) : (mul a b).isSome = (a.isSome && b.isSome) := by cases a <;> cases b <;> rfl
@[simp] theorem isSome_sqrt (a : NF) : (sqrt a).isSome = a.isSome := by cases a <;> rfl
@[simp] theorem isSome_fun1 (f : ℝ → ℝ) (a : NF) : (fun1 f a).isSome = a.isSome := by cases a <;> rfl
@[simp] theorem isSome_fun2 (f : ℝ → ℝ → ℝ) (a b : NF) : (fun2 f a b).isSome = (a.isSome && b.isSome) := by cases a <;> cases b <;> rfl
@[simp] theorem isSome_neg (a : NF) : (neg a).isSome = a.isSome := by cases a <;> rfl

theorem isSome_ndiv {a b : NF} (h : (ndiv a b).isSome = true) : a.isSome = true ∧ b.isSome = true := by
  unfold ndiv at h
  split_ifs at h with h0
  · simp at h
  · cases a <;> cases b <;> simp_all [div]

theorem ndiv_isSome {a b : NF} (ha : a.isSome = true) (hb : b.isSome = true) (h0 : b ≠ some 0) : (ndiv a b).isSome = true := by
  unfold ndiv
  rw [if_neg h0]
  cases a <;> cases b <;> simp_all [div]

theorem ngt_iff (a b : NF) : ngt a b = true ↔ gt a b := by
  unfold ngt; classical exact decide_eq_true_iff

theorem ngt_num {a b : NF} (h : ngt a b = true) : a.isSome = true ∧ b.isSome = true := by
  rw [ngt_iff] at h
  cases a <;> cases b <;> simp_all [gt]

theorem ngt_nan_r (a : NF) : ngt a none = false := by
  rw [Bool.eq_false_iff, Ne, ngt_iff]; exact gt_nan_r a
theorem ngt_nan_l (a : NF) : ngt none a = false := by
  rw [Bool.eq_false_iff, Ne, ngt_iff]; exact gt_nan_l a

/-- a number comes out of `H P Hᵀ` only if every element of `H` and `P` is one -/
theorem nhph_num {P : Fin 3 → Fin 3 → NF} {H : Fin 3 → NF} (h : (nhph P H).isSome = true) : (∀ i, Num (H i)) ∧ ∀ i j, Num (P i j) := by
  unfold nhph nrow at h
  simp only [isSome_add, isSome_mul, Bool.and_eq_true] at h
  unfold Num
  refine ⟨fun i => ?_, fun i j => ?_⟩
  · fin_cases i <;> simp only [Fin.zero_eta, Fin.mk_one, Fin.reduceFinMk] <;> tauto
  · fin_cases i <;> fin_cases j <;> simp only [Fin.zero_eta, Fin.mk_one, Fin.reduceFinMk] <;> tauto

theorem ncap_num {i : Fin 3} {a : NF} (h : Num a) : Num (ncap i a) := by
  unfold ncap; split_ifs <;> first | exact h | rfl

theorem ncapped_num {k : ℕ} {P : Fin 3 → Fin 3 → NF} (h : ∀ i j, Num (P i j)) (i j : Fin 3) : Num (ncapped k P i j) := by
  unfold ncapped; split_ifs
  · exact ncap_num (h _ _)
  · exact h _ _

theorem num_half {a b : NF} (ha : Num a) (hb : Num b) : Num (ndiv (add a b) (some 2)) :=
  ndiv_isSome (by unfold Num at ha hb; simp [ha, hb]) rfl (by intro c; injection c with c; norm_num at c)

/-- what the sanity checks leave -/
theorem nsanity_honest (st : NSt) (h : (∀ i, Num (st.x i)) → ∀ i j, Num (st.P i j)) : Honest (nsanity st) := by
  unfold nsanity
  split_ifs with h1 h2 h3 h4
  · intro c; exact absurd c (by simp)
  · intro c; exact absurd c (by simp)
  · intro c; exact absurd c (by simp)
  · intro c; exact absurd c (by simp)
  · intro _
    have hx : ∀ i, Num (st.x i) := by
      intro i
      unfold Num
      rw [Option.isSome_iff_ne_none]
      intro c
      fin_cases i <;> simp only [Fin.zero_eta, Fin.mk_one, Fin.reduceFinMk] at c <;> tauto
    have hP := ncapped_num (k := 3) (h hx)
    refine ⟨fun i => ?_, fun i j => ?_⟩
    · fin_cases i
      · exact hx 0
      · exact hx 1
      · show Num (nscale st.c.enforced (st.x 2))
        unfold nscale
        split_ifs <;> first | exact hx 2 | rfl
    · show Num (if i = j then ncapped 3 st.P i j else if j < i then _ else _)
      split_ifs
      · exact hP _ _
      · exact num_half (hP _ _) (hP _ _)
      · exact num_half (hP _ _) (hP _ _)

/-- if the states are not all numbers, the sanity checks declare the estimate invalid -/
theorem nsanity_invalid (st : NSt) (h : ∃ i, st.x i = none) : (nsanity st).init = false := by
  unfold nsanity
  split_ifs with h1 h2 h3 h4
  · rfl
  · rfl
  · rfl
  · rfl
  · exfalso
    obtain ⟨i, hi⟩ := h
    fin_cases i <;> simp only [Fin.zero_eta, Fin.mk_one, Fin.reduceFinMk] at hi <;> tauto

theorem napply_honest (innov S : NF) (H : Fin 3 → NF) (q : ℝ) (st : NSt) (hS : S = add (nhph st.P H) (some q)) : Honest (napply innov S H st) := by
  unfold napply
  apply nsanity_honest
  intro hx i j
  have h0 := hx 0
  unfold Num at h0
  simp only [isSome_add, isSome_mul, Bool.and_eq_true] at h0
  obtain ⟨-, -, hK0⟩ := h0
  have hSn := (isSome_ndiv (by unfold ngain at hK0; exact hK0)).2
  rw [hS] at hSn
  simp only [isSome_add, Bool.and_eq_true] at hSn
  obtain ⟨hH, hP⟩ := nhph_num hSn.1
  have hK : ∀ i, (ngain st.P H S i).isSome = true := by
    intro i
    have := hx i
    unfold Num at this
    simp only [isSome_add, isSome_mul, Bool.and_eq_true] at this
    exact this.2.2
  unfold Num at hH hP ⊢
  show (nshrink st.P (ngain st.P H S) H i j).isSome = true
  unfold nshrink nmmul
  simp [hH, hP, hK]

theorem napply_invalid (innov S : NF) (H : Fin 3 → NF) (st : NSt) (h : innov = none ∨ S = none ∨ ∃ i, st.x i = none) : (napply innov S H st).init = false := by
  unfold napply
  apply nsanity_invalid
  rcases h with h | h | ⟨i, h⟩
  · exact ⟨0, by rw [h]; simp⟩
  · refine ⟨0, ?_⟩
    have : ngain st.P H S 0 = none := by
      unfold ngain ndiv
      rw [h, if_neg (by simp)]
      simp
    show add _ (mul _ (ngain st.P H S 0)) = none
    rw [this]; simp
  · exact ⟨i, by show add (st.x i) _ = none; rw [h]; simp⟩

/-- initialising from numbers gives numbers -/
theorem ninitialise_honest (v : Fin 3 → NF) (a b tas : NF) (st : NSt) (hv : ∀ i, Num (v i)) (ha : Num a) (hb : Num b) (ht : Num tas) : Honest (ninitialise v a b tas st) := by
  unfold ninitialise
  split_ifs with hg
  · intro c; exact absurd c (by simp)
  · intro _
    obtain ⟨v0, e0⟩ := Option.isSome_iff_exists.1 (hv 0)
    obtain ⟨v1, e1⟩ := Option.isSome_iff_exists.1 (hv 1)
    obtain ⟨t, et⟩ := Option.isSome_iff_exists.1 ht
    unfold Num at ha hb
    have hg' : ¬ (3 : ℝ) > Real.sqrt (v0 * v0 + v1 * v1) := by
      intro c
      apply hg
      rw [ngt_iff]
      unfold nground
      rw [e0, e1]
      exact c
    have hs : Real.sqrt (v1 * v1 + v0 * v0) ≠ 0 := by
      intro c
      rw [add_comm] at c
      rw [c] at hg'
      norm_num at hg'
    have hq : v1 * v1 + v0 * v0 ≠ 0 := by
      intro c; rw [c] at hs; simp at hs
    have hL : ∀ i j, (ninitL v tas i j).isSome = true := by
      intro i j
      have d1 : (ndiv tas (mul (add (mul (v 1) (v 1)) (mul (v 0) (v 0))) (sqrt (add (mul (v 1) (v 1)) (mul (v 0) (v 0)))))).isSome = true := by
        rw [e0, e1, et]
        apply ndiv_isSome rfl rfl
        intro c
        exact mul_ne_zero hq hs (Option.some.inj c)
      have d2 : (ndiv (some 1) (sqrt (add (mul (v 1) (v 1)) (mul (v 0) (v 0))))).isSome = true := by
        rw [e0, e1]
        apply ndiv_isSome rfl rfl
        intro c
        exact hs (Option.some.inj c)
      have h0 : (v 0).isSome = true := hv 0
      have h1 : (v 1).isSome = true := hv 1
      have h2 : tas.isSome = true := ht
      unfold ninitL
      fin_cases i <;> fin_cases j <;> simp [d1, d2, h0, h1, h2]
    refine ⟨fun i => ?_, fun i j => ?_⟩
    · unfold Num
      fin_cases i
      · show (sub (v 0) _).isSome = true
        rw [e0, e1, et]; rfl
      · show (sub (v 1) _).isSome = true
        rw [e0, e1, et]; rfl
      · rfl
    · unfold Num
      show (nmmul (nmmul (ninitL v tas) _) (ntransp (ninitL v tas)) i j).isSome = true
      unfold nmmul ntransp
      simp [hL, ha, hb]

theorem nrel_num {v x : Fin 3 → NF} (h : (nrel v x).isSome = true) : (∀ i, Num (v i)) ∧ Num (x 0) ∧ Num (x 1) := by
  unfold nrel at h
  simp only [isSome_add, isSome_mul, isSome_sub, isSome_sqrt, Bool.and_eq_true] at h
  unfold Num
  refine ⟨fun i => ?_, by tauto, by tauto⟩
  fin_cases i <;> simp only [Fin.zero_eta, Fin.mk_one, Fin.reduceFinMk] <;> tauto

theorem nhTas_num {v x : Fin 3 → NF} (h : ∀ i, Num (nhTas v x i)) : (∀ i, Num (v i)) ∧ ∀ i, Num (x i) := by
  have h2 : (nrel v x).isSome = true := h 2
  have h0 : (mul (ndiv (x 2) (nrel v x)) (add (neg (v 0)) (x 0))).isSome = true := h 0
  simp only [isSome_mul, Bool.and_eq_true] at h0
  obtain ⟨hv, a, b⟩ := nrel_num h2
  refine ⟨hv, fun i => ?_⟩
  fin_cases i
  · exact a
  · exact b
  · exact (isSome_ndiv h0.1).1

/-! ## Results -/

/-- **C176 (detected).** An initialised estimator with NaN anywhere in its states or its covariance, or given a velocity that contains NaN, is invalid after the next airspeed sample that is not
too early; so is one given a NaN airspeed while its innovation variance is not negative. -/
theorem nan_detected (st : NSt) (hi : st.init = true) (now : UInt64) (ht : ¬ now - st.tTas < 100000) (tas : NF) (v : Fin 3 → NF) (a b : NF)
    (h : (∃ i, st.x i = none) ∨ (∃ i j, st.P i j = none) ∨ (∃ i, v i = none) ∨
      (tas = none ∧ ∀ s, nhph st.P (nhTas v st.x) = some s → 0 ≤ s + st.c.tasVar)) :
    (nfuseTas now tas v a b st).init = false := by
  have hS : add (nhph st.P (nhTas v st.x)) (some st.c.tasVar) = none ∨
      (sub tas (ntasPred v st.x) = none ∧ ngt (some 0) (add (nhph st.P (nhTas v st.x)) (some st.c.tasVar)) = false) := by
    by_cases hn : (nhph st.P (nhTas v st.x)).isSome = true
    · obtain ⟨g1, g2⟩ := nhph_num hn
      obtain ⟨g3, g4⟩ := nhTas_num g1
      rcases h with ⟨i, h⟩ | ⟨i, j, h⟩ | ⟨i, h⟩ | ⟨h, hs⟩
      · have := g4 i; rw [h] at this; cases this
      · have := g2 i j; rw [h] at this; cases this
      · have := g3 i; rw [h] at this; cases this
      · right
        refine ⟨by rw [h]; simp, ?_⟩
        obtain ⟨s, e⟩ := Option.isSome_iff_exists.1 hn
        rw [Bool.eq_false_iff, Ne, ngt_iff, e]
        exact not_lt.2 (hs s e)
    · left
      rw [Bool.not_eq_true, Option.isSome_eq_false_iff, Option.isNone_iff_eq_none] at hn
      rw [hn]; simp
  have hch : ngt (mul (sub tas (ntasPred v st.x)) (sub tas (ntasPred v st.x)))
      (mul (some ((st.c.tasGate.toNat : ℝ) * st.c.tasGate.toNat)) (add (nhph st.P (nhTas v st.x)) (some st.c.tasVar))) = false := by
    rcases hS with e | ⟨e, -⟩
    · rw [e, mul_nan_r]; exact ngt_nan_r _
    · rw [e, mul_nan_l]; exact ngt_nan_l _
  have hneg : ngt (some 0) (add (nhph st.P (nhTas v st.x)) (some st.c.tasVar)) = false := by
    rcases hS with e | ⟨-, e⟩
    · rw [e]; exact ngt_nan_r _
    · exact e
  unfold nfuseTas
  rw [if_neg (by rw [hi]; simp), if_neg ht]
  unfold ncheck
  dsimp only
  rw [hch, hneg]
  simp only [Bool.false_eq_true, if_false, ne_eq, not_true_eq_false, and_false, decide_false, Bool.or_self]
  apply napply_invalid
  rcases hS with e | ⟨e, -⟩
  · exact Or.inr (Or.inl e)
  · exact Or.inl e

/-- every call with numbers keeps an honest estimator honest; an airspeed sample that is not too early makes it honest -/
theorem tas_honest (st : NSt) (now : UInt64) (tas : NF) (v : Fin 3 → NF) (a b : NF) (hn : NumCall (.airspeed now tas v a b))
    (h : Honest st ∨ st.init = false ∨ ¬ now - st.tTas < 100000) : Honest (nfuseTas now tas v a b st) := by
  obtain ⟨n1, n2, n3, n4⟩ := hn
  unfold nfuseTas
  split_ifs with h1 h2
  · refine ninitialise_honest v _ _ tas st n2 ?_ ?_ n1 <;> (unfold nmax001; split_ifs <;> first | rfl | assumption)
  · rcases h with h | h | h
    · exact h
    · exact absurd h h1
    · exact absurd h2 h
  · dsimp only
    split_ifs with h3 h4
    · exact ninitialise_honest v _ _ tas _ n2 rfl rfl n1
    · -- rejected: the innovation and its variance are numbers, so is everything they were computed from
      rw [Bool.not_eq_true] at h4
      rw [h4, Bool.or_false] at h3
      have hr : ngt (mul (sub tas (ntasPred v st.x)) (sub tas (ntasPred v st.x)))
          (mul (some ((st.c.tasGate.toNat : ℝ) * st.c.tasGate.toNat)) (add (nhph st.P (nhTas v st.x)) (some st.c.tasVar))) = true := by
        by_contra c
        unfold ncheck at h3
        dsimp only at h3
        rw [if_neg c] at h3
        simp at h3
      have hs := (ngt_num hr).2
      simp only [isSome_mul, isSome_add, Bool.and_eq_true] at hs
      obtain ⟨g1, g2⟩ := nhph_num hs.2.1
      exact fun _ => ⟨(nhTas_num g1).2, g2⟩
    · exact napply_honest _ _ _ st.c.tasVar _ rfl

theorem beta_honest (st : NSt) (now : UInt64) (v H r : Fin 3 → NF) (hn : NumCall (.beta now v H r)) (h : Honest st) : Honest (nfuseBeta now v H r st) := by
  have hv : ∀ i, (v i).isSome = true := hn
  have hl : Num (sqrt (add (add (mul (v 0) (v 0)) (mul (v 1) (v 1))) (mul (v 2) (v 2)))) := by unfold Num; simp [hv]
  unfold nfuseBeta
  split_ifs with h1 h2 h3
  · exact ninitialise_honest v _ _ _ st hn rfl rfl hl
  · exact h
  · exact h
  · dsimp only
    split_ifs with h4 h5
    · exact ninitialise_honest v _ _ _ _ hn rfl rfl hl
    · exact h
    · exact napply_honest _ _ _ st.c.betaVar _ rfl

theorem update_honest (st : NSt) (now : UInt64) (h : Honest st) : Honest (nupdate now st) := by
  unfold nupdate
  split_ifs with h1 h2 h3
  · exact h
  · exact h
  · exact h
  · intro c
    obtain ⟨hx, hP⟩ := h c
    refine ⟨hx, fun i j => ?_⟩
    unfold Num at hP ⊢
    show (npredictP st.P _ _ _ i j).isSome = true
    unfold npredictP
    fin_cases i <;> fin_cases j <;> simp [hP]

theorem step_honest (st : NSt) (e : NCall) (hn : NumCall e) (h : Honest st) : Honest (nstep st e) := by
  cases e with
  | update t => exact update_honest st t h
  | airspeed t tas v a b => exact tas_honest st t tas v a b hn (Or.inl h)
  | beta t v H r => exact beta_honest st t v H r hn h

theorem hist_honest (es : List NCall) (st : NSt) (hn : ∀ e ∈ es, NumCall e) (h : Honest st) : Honest (es.foldl nstep st) := by
  induction es generalizing st with
  | nil => exact h
  | cons e es ih => exact ih _ (fun x hx => hn x (by simp [hx])) (step_honest st e (hn e (by simp)) h)

/-- **C176 (healed).** From any state whatever, one airspeed sample made of numbers that is not too early, and then any history of calls with numbers: an estimate that is reported as valid
consists of numbers. -/
theorem nan_healed (st : NSt) (now : UInt64) (tas : NF) (v : Fin 3 → NF) (a b : NF) (hn : NumCall (.airspeed now tas v a b))
    (ht : st.init = false ∨ ¬ now - st.tTas < 100000) (es : List NCall) (hes : ∀ e ∈ es, NumCall e) :
    Honest (es.foldl nstep (nstep st (.airspeed now tas v a b))) :=
  hist_honest es _ hes (tas_honest st now tas v a b hn (Or.inr ht))

/-- **C176 (restarts).** An invalid estimator restarts at the first airspeed sample made of numbers with at least 3 m/s over ground, valid and with numbers only, whatever NaN it held. -/
theorem nan_restarts (st : NSt) (hi : st.init = false) (now : UInt64) (tas : NF) (v : Fin 3 → NF) (a b : NF) (hn : NumCall (.airspeed now tas v a b))
    (hg : ∀ v0 v1 : ℝ, v 0 = some v0 → v 1 = some v1 → 9 ≤ v0 ^ 2 + v1 ^ 2) :
    (nfuseTas now tas v a b st).init = true ∧ Clean (nfuseTas now tas v a b st) := by
  have h1 : (nfuseTas now tas v a b st).init = true := by
    obtain ⟨v0, e0⟩ := Option.isSome_iff_exists.1 (hn.2.1 0)
    obtain ⟨v1, e1⟩ := Option.isSome_iff_exists.1 (hn.2.1 1)
    unfold nfuseTas
    rw [if_pos hi]
    unfold ninitialise
    rw [if_neg]
    rw [ngt_iff]
    unfold nground
    rw [e0, e1]
    show ¬ (3 : ℝ) > Real.sqrt (v0 * v0 + v1 * v1)
    rw [not_lt]
    apply Real.le_sqrt_of_sq_le
    have := hg v0 v1 e0 e1
    nlinarith
  exact ⟨h1, tas_honest st now tas v a b hn (Or.inr (Or.inl hi)) h1⟩

/-- **C176 (but not at the start).** An invalid estimator given a NaN airspeed, or a velocity whose horizontal part contains NaN, starts and reports a valid estimate that is NaN: the finite check is not
made there.  It lasts until the next airspeed sample that is not too early. -/
theorem nan_start (st : NSt) (hi : st.init = false) (now : UInt64) (v0 v1 : ℝ) (v2 : NF) (a b : NF) (hg : 9 ≤ v0 ^ 2 + v1 ^ 2) :
    let st' := nfuseTas now none ![some v0, some v1, v2] a b st
    (st'.init = true ∧ st'.x 0 = none ∧ st'.x 1 = none) ∧
    ∀ now' tas v a' b', ¬ now' - st'.tTas < 100000 → (nfuseTas now' tas v a' b' st').init = false := by
  have h3 : ¬ ngt (some 3) (nground ![some v0, some v1, v2]) = true := by
    rw [ngt_iff]
    show ¬ (3 : ℝ) > Real.sqrt (v0 * v0 + v1 * v1)
    rw [not_lt]
    apply Real.le_sqrt_of_sq_le
    nlinarith
  intro st'
  have h1 : st'.init = true ∧ st'.x 0 = none ∧ st'.x 1 = none := by
    show (nfuseTas now none ![some v0, some v1, v2] a b st).init = true ∧ (nfuseTas now none ![some v0, some v1, v2] a b st).x 0 = none ∧
      (nfuseTas now none ![some v0, some v1, v2] a b st).x 1 = none
    unfold nfuseTas
    rw [if_pos hi]
    unfold ninitialise
    rw [if_neg h3]
    exact ⟨rfl, by simp, by simp⟩
  exact ⟨h1, fun now' tas v a' b' ht => nan_detected st' h1.1 now' ht tas v a' b' (Or.inl ⟨0, h1.2.1⟩)⟩

/-! ## Concrete cases -/

/-- a valid estimate of no wind -/
noncomputable def exSt : NSt where
  x := ![some 0, some 0, some 1]
  P := fun i j => if i = j then some 0.01 else some 0
  init := true
  c := ⟨0.1, 0.0001, 1.4, 0.5, 3, 1, -1⟩
  tTas := 1000000
  tBeta := 1000000
  tUpd := 1000000
  rejBeta := 0
  rejTas := 0

/-- a NaN airspeed at 15 m/s over ground: invalid, and valid again with numbers at the next sample -/
example : let st' := nfuseTas 1200000 none ![some 15, some 0, some 0] (some 0.1) (some 0.1) exSt
    st'.init = false ∧ (nfuseTas 1300000 (some 14) ![some 15, some 0, some 0] (some 0.1) (some 0.1) st').init = true ∧
    Clean (nfuseTas 1300000 (some 14) ![some 15, some 0, some 0] (some 0.1) (some 0.1) st') := by
  intro st'
  have h : st'.init = false := nan_detected exSt rfl _ (by decide) _ _ _ _ (Or.inr (Or.inr (Or.inr ⟨rfl, fun s hs => by
    have hP : ∀ i j, exSt.P i j = if i = j then some 0.01 else some 0 := fun _ _ => rfl
    have hr : nrel ![some 15, some 0, some 0] exSt.x = some (Real.sqrt ((0 * 0 + (0 - 0) * (0 - 0)) + (15 - 0) * (15 - 0))) := rfl
    unfold nhph nrow at hs
    simp only [hP, Fin.isValue, if_true, reduceIte] at hs
    cases e0 : nhTas ![some 15, some 0, some 0] exSt.x 0 with
    | none => rw [e0] at hs; simp at hs
    | some h0 =>
      cases e1 : nhTas ![some 15, some 0, some 0] exSt.x 1 with
      | none => rw [e1] at hs; simp at hs
      | some h1 =>
        cases e2 : nhTas ![some 15, some 0, some 0] exSt.x 2 with
        | none => rw [e2] at hs; simp at hs
        | some h2 =>
          rw [e0, e1, e2] at hs
          simp [add, mul] at hs
          rw [← hs]
          show (0 : ℝ) ≤ _ + 1.4
          nlinarith [sq_nonneg h0, sq_nonneg h1, sq_nonneg h2]⟩)))
  exact ⟨h, nan_restarts st' h _ _ _ _ _ ⟨rfl, fun i => by fin_cases i <;> rfl, rfl, rfl⟩ (fun v0 v1 e0 e1 => by
    have e0' : (some 15 : NF) = some v0 := e0
    have := Option.some.inj e0'
    rw [← this]
    nlinarith [sq_nonneg v1])⟩

/-- a NaN airspeed at start up: reported as valid -/
example : (nfuseTas 1200000 none ![some 15, some 0, some 0] (some 0.1) (some 0.1) { exSt with init := false }).init = true :=
  (nan_start { exSt with init := false } rfl 1200000 15 0 (some 0) (some 0.1) (some 0.1) (by norm_num)).1.1

end Ecl.Wind.NaN
