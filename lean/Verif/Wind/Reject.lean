import Verif.Wind.Run

/-!
# Wind estimator: when a running estimate is started again (C51)
-/

namespace Ecl.Wind

open Cov

/-- the airspeed call is processed (estimate valid, 0.1 s since the last one) -/
def Spec.TasProcessed (st : St) : Call → Prop
  | .airspeed now _ _ _ _ => st.init = true ∧ 100000 ≤ now - st.tTas
  | _ => False

/-- the airspeed call is processed and its innovation exceeds the gate: e² > gate²·(HPHᵀ + R) -/
def Spec.TasRejected (st : St) : Call → Prop
  | .airspeed now tas v _ _ => (st.init = true ∧ 100000 ≤ now - st.tTas) ∧
      (st.c.tasGate.toNat : ℝ) ^ 2 * (Spec.form st.P (hTas v st.x) (hTas v st.x) + st.c.tasVar) < (tas - Spec.airspeedModel v st.x) ^ 2
  | _ => False

/-- the sideslip call is processed (and the forward airspeed is large enough to use it) -/
def Spec.BetaProcessed (st : St) : Call → Prop
  | .beta now v q => (st.init = true ∧ 100000 ≤ now - st.tBeta) ∧ 0.1 ≤ |relWind v st.x q 0|
  | _ => False

/-- the sideslip call is processed and its innovation exceeds the gate -/
def Spec.BetaRejected (st : St) : Call → Prop
  | .beta now v q => ((st.init = true ∧ 100000 ≤ now - st.tBeta) ∧ 0.1 ≤ |relWind v st.x q 0|) ∧
      (st.c.betaGate.toNat : ℝ) ^ 2 * (Spec.form st.P (hBeta v st.x q) (hBeta v st.x q) + st.c.betaVar) < (Spec.sideslipModel v q st.x) ^ 2
  | _ => False

/-- time stamp of an airspeed (sideslip) call -/
def Spec.tasTime : Call → Option UInt64
  | .airspeed now _ _ _ _ => some now
  | _ => none
/-- time stamp of a sideslip call -/
def Spec.betaTime : Call → Option UInt64
  | .beta now _ _ => some now
  | _ => none

/-- In the history `l` there is a call with time stamp `t` that was rejected, and every later processed call (of that kind) was rejected too. -/
def Spec.RejectedSince (time : Call → Option UInt64) (Proc Rej : St → Call → Prop) (l : List Call) (t : UInt64) : Prop :=
  ∃ l1 c l2, l = l1 ++ c :: l2 ∧ time c = some t ∧ Rej (run l1) c ∧
    ∀ l3 c' l4, l2 = l3 ++ c' :: l4 → Proc (run (l1 ++ c :: l3)) c' → Rej (run (l1 ++ c :: l3)) c'

theorem run_snoc (l : List Call) (c : Call) : run (l ++ [c]) = step (run l) c := by
  unfold run
  rw [List.foldl_append]
  rfl

/-- generic bookkeeping: a marker that is either kept (while processed calls are rejected) or set by a rejected call -/
theorem rejected_since (time : Call → Option UInt64) (Proc Rej : St → Call → Prop) (m : St → UInt64) (h0 : m fresh = 0)
    (hstep : ∀ st c, m (step st c) ≠ 0 → (m (step st c) = m st ∧ (Proc st c → Rej st c)) ∨ (time c = some (m (step st c)) ∧ Rej st c))
    (l : List Call) (h : m (run l) ≠ 0) : Spec.RejectedSince time Proc Rej l (m (run l)) := by
  induction l using List.reverseRecOn with
  | nil => exact absurd h0 h
  | append_singleton l c ih =>
    rw [run_snoc] at h ⊢
    rcases hstep (run l) c h with ⟨h1, h2⟩ | ⟨h1, h2⟩
    · rw [h1] at h ⊢
      obtain ⟨l1, c1, l2, e, ht, hr, hall⟩ := ih h
      refine ⟨l1, c1, l2 ++ [c], by rw [e]; simp, ht, hr, ?_⟩
      intro l3 c' l4 e' hp
      rcases List.eq_nil_or_concat l4 with h4 | ⟨l4', d, h4⟩
      · subst h4
        have := List.append_inj' e' rfl
        obtain ⟨e1, e2⟩ := this
        cases e2
        subst e1
        rw [e] at h2
        exact h2 hp
      · rw [List.concat_eq_append] at h4
        subst h4
        have e'' : l2 ++ [c] = (l3 ++ c' :: l4') ++ [d] := by simpa using e'
        have := List.append_inj' e'' rfl
        exact hall l3 c' l4' this.1 hp
    · exact ⟨l, c, [], rfl, h1, h2, fun l3 c' l4 e => by simp at e⟩

theorem initialise_rej (v : V3') (a b tas : ℝ) (st : St) :
    ((initialise v a b tas st).rejTas = 0 ∨ (initialise v a b tas st).rejTas = st.rejTas) ∧
    ((initialise v a b tas st).rejBeta = 0 ∨ (initialise v a b tas st).rejBeta = st.rejBeta) := by
  unfold initialise
  split
  · exact ⟨Or.inr rfl, Or.inr rfl⟩
  · exact ⟨Or.inl rfl, Or.inl rfl⟩

theorem update_rej (now : UInt64) (st : St) : (update now st).rejTas = st.rejTas ∧ (update now st).rejBeta = st.rejBeta := by
  unfold update
  split
  · exact ⟨rfl, rfl⟩
  · simp only []
    split
    · split <;> exact ⟨rfl, rfl⟩
    · exact ⟨rfl, rfl⟩

/-- the state just before the decision in `fuse_airspeed` -/
noncomputable def tasMid (now : UInt64) (tas : ℝ) (v : V3') (st : St) : St := { st with
  tTas := now
  tasInnov := tas - tasPred v st.x
  tasInnovVar := hph st.P (hTas v st.x) + st.c.tasVar
  rejTas := (checkRejected now (tas - tasPred v st.x) (hph st.P (hTas v st.x) + st.c.tasVar) st.c.tasGate st.rejTas).1 }

/-- the state just before the decision in `fuse_beta` -/
noncomputable def betaMid (now : UInt64) (v : V3') (q : Quat ℝ) (st : St) : St := { st with
  tBeta := now
  betaInnov := 0 - relWind v st.x q 1 / relWind v st.x q 0
  betaInnovVar := hph st.P (hBeta v st.x q) + st.c.betaVar
  rejBeta := (checkRejected now (0 - relWind v st.x q 1 / relWind v st.x q 0) (hph st.P (hBeta v st.x q) + st.c.betaVar) st.c.betaGate st.rejBeta).1 }

/-- the possible outcomes of an airspeed call -/
theorem fuseTas_outcomes (now : UInt64) (tas : ℝ) (v : V3') (a b : ℝ) (st : St) :
    (st.init = false ∧ fuseTas now tas v a b st = initialise v (mmax 0.01 a) (mmax 0.01 b) tas st) ∨
    (st.init = true ∧ now - st.tTas < 100000 ∧ fuseTas now tas v a b st = st) ∨
    (st.init = true ∧ 100000 ≤ now - st.tTas ∧
      ((fuseTas now tas v a b st).rejTas = 0 ∧ (fuseTas now tas v a b st).rejBeta = st.rejBeta ∧ (fuseTas now tas v a b st).init = false ∧
          (fuseTas now tas v a b st).reset = st.reset ∨
       (fuseTas now tas v a b st = initialise v 0.1 0.1 tas (tasMid now tas v st) ∧
          ((checkRejected now (tas - tasPred v st.x) (hph st.P (hTas v st.x) + st.c.tasVar) st.c.tasGate st.rejTas).2.2 = true ∨
           hph st.P (hTas v st.x) + st.c.tasVar < 0)) ∨
       fuseTas now tas v a b st = tasMid now tas v st ∨
       fuseTas now tas v a b st = apply (tas - tasPred v st.x) (hph st.P (hTas v st.x) + st.c.tasVar) (hTas v st.x) (tasMid now tas v st))) := by
  unfold fuseTas
  split
  · rename_i h
    exact Or.inl ⟨h, rfl⟩
  rename_i hi
  have hi' : st.init = true := by simpa using hi
  split
  · rename_i h
    exact Or.inr (Or.inl ⟨hi', h, rfl⟩)
  rename_i h
  refine Or.inr (Or.inr ⟨hi', by rw [u64_lt_iff] at h; rw [u64_le_iff]; omega, ?_⟩)
  unfold fuseTasCore
  simp only []
  split
  · exact Or.inl ⟨rfl, rfl, rfl, rfl⟩
  split
  · split
    · rename_i hr
      refine Or.inr (Or.inl ⟨rfl, ?_⟩)
      simpa using hr
    · exact Or.inr (Or.inr (Or.inl rfl))
  · exact Or.inr (Or.inr (Or.inr rfl))

/-- the possible outcomes of a sideslip call -/
theorem fuseBeta_outcomes (now : UInt64) (v : V3') (q : Quat ℝ) (st : St) :
    (st.init = false ∧ fuseBeta now v q st = initialise v 0.1 0.1 (len3 v) st) ∨
    (st.init = true ∧ now - st.tBeta < 100000 ∧ fuseBeta now v q st = st) ∨
    (st.init = true ∧ 100000 ≤ now - st.tBeta ∧ |relWind v st.x q 0| < 0.1 ∧ fuseBeta now v q st = { st with tBeta := now }) ∨
    (st.init = true ∧ 100000 ≤ now - st.tBeta ∧ 0.1 ≤ |relWind v st.x q 0| ∧
      ((fuseBeta now v q st = initialise v 0.1 0.1 (len3 v) (betaMid now v q st) ∧
          ((checkRejected now (0 - relWind v st.x q 1 / relWind v st.x q 0) (hph st.P (hBeta v st.x q) + st.c.betaVar) st.c.betaGate st.rejBeta).2.2 = true ∨
           hph st.P (hBeta v st.x q) + st.c.betaVar < 0)) ∨
       fuseBeta now v q st = betaMid now v q st ∨
       fuseBeta now v q st = apply (0 - relWind v st.x q 1 / relWind v st.x q 0) (hph st.P (hBeta v st.x q) + st.c.betaVar) (hBeta v st.x q) (betaMid now v q st))) := by
  unfold fuseBeta
  split
  · rename_i h
    exact Or.inl ⟨h, rfl⟩
  rename_i hi
  have hi' : st.init = true := by simpa using hi
  split
  · rename_i h
    exact Or.inr (Or.inl ⟨hi', h, rfl⟩)
  rename_i h
  have ht : 100000 ≤ now - st.tBeta := by rw [u64_lt_iff] at h; rw [u64_le_iff]; omega
  unfold fuseBetaCore
  simp only []
  split
  · rename_i h
    exact Or.inr (Or.inr (Or.inl ⟨hi', ht, h, rfl⟩))
  rename_i h
  refine Or.inr (Or.inr (Or.inr ⟨hi', ht, not_lt.mp h, ?_⟩))
  split
  · split
    · rename_i hr
      refine Or.inl ⟨rfl, ?_⟩
      simpa using hr
    · exact Or.inr (Or.inl rfl)
  · exact Or.inr (Or.inr rfl)

theorem check_marker (now : UInt64) (e S : ℝ) (g : UInt8) (t : UInt64) (h : (checkRejected now e S g t).1 ≠ 0) :
    (g.toNat : ℝ) ^ 2 * S < e ^ 2 ∧ ((checkRejected now e S g t).1 = t ∨ (checkRejected now e S g t).1 = now) := by
  obtain ⟨c1, c2, c3⟩ := check_spec now e S g t
  rcases le_or_gt (e ^ 2) ((g.toNat : ℝ) ^ 2 * S) with h1 | h1
  · rw [c1 h1] at h
    exact absurd rfl h
  · refine ⟨h1, ?_⟩
    by_cases h0 : t = 0
    · rw [c2 h1 h0]; exact Or.inr rfl
    · rw [c3 h1 h0]; exact Or.inl rfl

theorem tas_marker_step (st : St) (c : Call) (h : (step st c).rejTas ≠ 0) :
    ((step st c).rejTas = st.rejTas ∧ (Spec.TasProcessed st c → Spec.TasRejected st c)) ∨
    (Spec.tasTime c = some (step st c).rejTas ∧ Spec.TasRejected st c) := by
  cases c with
  | update now => exact Or.inl ⟨(update_rej now st).1, fun h => h.elim⟩
  | airspeed now tas v a b =>
    have h' : (fuseTas now tas v a b st).rejTas ≠ 0 := h
    show ((fuseTas now tas v a b st).rejTas = st.rejTas ∧ _) ∨ (some now = some (fuseTas now tas v a b st).rejTas ∧ _)
    have hmid : (tasMid now tas v st).rejTas = (checkRejected now (tas - tasPred v st.x) (hph st.P (hTas v st.x) + st.c.tasVar) st.c.tasGate st.rejTas).1 := rfl
    have fin : st.init = true → 100000 ≤ now - st.tTas → (fuseTas now tas v a b st).rejTas = (tasMid now tas v st).rejTas →
        ((fuseTas now tas v a b st).rejTas = st.rejTas ∧ (Spec.TasProcessed st (.airspeed now tas v a b) → Spec.TasRejected st (.airspeed now tas v a b))) ∨
        (some now = some (fuseTas now tas v a b st).rejTas ∧ Spec.TasRejected st (.airspeed now tas v a b)) := by
      intro hi ht he
      rw [he, hmid] at h'
      obtain ⟨k1, k2⟩ := check_marker _ _ _ _ _ h'
      rw [tasPred_eq, hph_eq] at k1
      have hr : Spec.TasRejected st (.airspeed now tas v a b) := ⟨⟨hi, ht⟩, k1⟩
      rcases k2 with k2 | k2
      · exact Or.inl ⟨by rw [he, hmid, k2], fun _ => hr⟩
      · exact Or.inr ⟨by rw [he, hmid, k2], hr⟩
    rcases fuseTas_outcomes now tas v a b st with ⟨hi, e⟩ | ⟨hi, ht, e⟩ | ⟨hi, ht, ⟨e, -⟩ | ⟨e, -⟩ | e | e⟩
    · rcases (initialise_rej v (mmax 0.01 a) (mmax 0.01 b) tas st).1 with k | k
      · rw [e] at h'; exact absurd k h'
      · exact Or.inl ⟨by rw [e, k], fun hp => absurd hp.1 (by rw [hi]; decide)⟩
    · refine Or.inl ⟨by rw [e], fun hp => ?_⟩
      have := hp.2
      rw [u64_lt_iff] at ht; rw [u64_le_iff] at this
      omega
    · exact absurd e h'
    · rcases (initialise_rej v 0.1 0.1 tas (tasMid now tas v st)).1 with k | k
      · rw [e] at h'; exact absurd k h'
      · exact fin hi ht (by rw [e, k])
    · exact fin hi ht (by rw [e])
    · exact fin hi ht (by rw [e]; exact (apply_frame _ _ _ _).2.2.2.2.1)
  | beta now v q =>
    refine Or.inl ⟨?_, fun h => h.elim⟩
    show (fuseBeta now v q st).rejTas = st.rejTas
    have h' : (fuseBeta now v q st).rejTas ≠ 0 := h
    rcases fuseBeta_outcomes now v q st with ⟨hi, e⟩ | ⟨hi, ht, e⟩ | ⟨hi, ht, hf, e⟩ | ⟨hi, ht, hf, ⟨e, -⟩ | e | e⟩
    · rcases (initialise_rej v 0.1 0.1 (len3 v) st).1 with k | k
      · rw [e] at h'; exact absurd k h'
      · rw [e, k]
    · rw [e]
    · rw [e]
    · rcases (initialise_rej v 0.1 0.1 (len3 v) (betaMid now v q st)).1 with k | k
      · rw [e] at h'; exact absurd k h'
      · rw [e, k]; rfl
    · rw [e]; rfl
    · rw [e, (apply_frame _ _ _ _).2.2.2.2.1]; rfl
  | _ => exact Or.inl ⟨rfl, fun h => h.elim⟩

theorem beta_marker_step (st : St) (c : Call) (h : (step st c).rejBeta ≠ 0) :
    ((step st c).rejBeta = st.rejBeta ∧ (Spec.BetaProcessed st c → Spec.BetaRejected st c)) ∨
    (Spec.betaTime c = some (step st c).rejBeta ∧ Spec.BetaRejected st c) := by
  cases c with
  | update now => exact Or.inl ⟨(update_rej now st).2, fun h => h.elim⟩
  | airspeed now tas v a b =>
    refine Or.inl ⟨?_, fun h => h.elim⟩
    show (fuseTas now tas v a b st).rejBeta = st.rejBeta
    have h' : (fuseTas now tas v a b st).rejBeta ≠ 0 := h
    rcases fuseTas_outcomes now tas v a b st with ⟨hi, e⟩ | ⟨hi, ht, e⟩ | ⟨hi, ht, ⟨-, e, -⟩ | ⟨e, -⟩ | e | e⟩
    · rcases (initialise_rej v (mmax 0.01 a) (mmax 0.01 b) tas st).2 with k | k
      · rw [e] at h'; exact absurd k h'
      · rw [e, k]
    · rw [e]
    · exact e
    · rcases (initialise_rej v 0.1 0.1 tas (tasMid now tas v st)).2 with k | k
      · rw [e] at h'; exact absurd k h'
      · rw [e, k]; rfl
    · rw [e]; rfl
    · rw [e, (apply_frame _ _ _ _).2.2.2.2.2.1]; rfl
  | beta now v q =>
    have h' : (fuseBeta now v q st).rejBeta ≠ 0 := h
    show ((fuseBeta now v q st).rejBeta = st.rejBeta ∧ _) ∨ (some now = some (fuseBeta now v q st).rejBeta ∧ _)
    have hmid : (betaMid now v q st).rejBeta = (checkRejected now (0 - relWind v st.x q 1 / relWind v st.x q 0) (hph st.P (hBeta v st.x q) + st.c.betaVar) st.c.betaGate st.rejBeta).1 := rfl
    have fin : st.init = true → 100000 ≤ now - st.tBeta → 0.1 ≤ |relWind v st.x q 0| → (fuseBeta now v q st).rejBeta = (betaMid now v q st).rejBeta →
        ((fuseBeta now v q st).rejBeta = st.rejBeta ∧ (Spec.BetaProcessed st (.beta now v q) → Spec.BetaRejected st (.beta now v q))) ∨
        (some now = some (fuseBeta now v q st).rejBeta ∧ Spec.BetaRejected st (.beta now v q)) := by
      intro hi ht hf he
      rw [he, hmid] at h'
      obtain ⟨k1, k2⟩ := check_marker _ _ _ _ _ h'
      rw [relWind_eq, hph_eq, zero_sub, neg_sq] at k1
      have hr : Spec.BetaRejected st (.beta now v q) := ⟨⟨⟨hi, ht⟩, hf⟩, k1⟩
      rcases k2 with k2 | k2
      · exact Or.inl ⟨by rw [he, hmid, k2], fun _ => hr⟩
      · exact Or.inr ⟨by rw [he, hmid, k2], hr⟩
    rcases fuseBeta_outcomes now v q st with ⟨hi, e⟩ | ⟨hi, ht, e⟩ | ⟨hi, ht, hf, e⟩ | ⟨hi, ht, hf, ⟨e, -⟩ | e | e⟩
    · rcases (initialise_rej v 0.1 0.1 (len3 v) st).2 with k | k
      · rw [e] at h'; exact absurd k h'
      · exact Or.inl ⟨by rw [e, k], fun hp => absurd hp.1.1 (by rw [hi]; decide)⟩
    · refine Or.inl ⟨by rw [e], fun hp => ?_⟩
      have := hp.1.2
      rw [u64_lt_iff] at ht; rw [u64_le_iff] at this
      omega
    · exact Or.inl ⟨by rw [e], fun hp => absurd hf (not_lt.mpr hp.2)⟩
    · rcases (initialise_rej v 0.1 0.1 (len3 v) (betaMid now v q st)).2 with k | k
      · rw [e] at h'; exact absurd k h'
      · exact fin hi ht hf (by rw [e, k])
    · exact fin hi ht hf (by rw [e])
    · exact fin hi ht hf (by rw [e]; exact (apply_frame _ _ _ _).2.2.2.2.2.1)
  | _ => exact Or.inl ⟨rfl, fun h => h.elim⟩

theorem check_reinit (now : UInt64) (e S : ℝ) (g : UInt8) (t : UInt64) (h : (checkRejected now e S g t).2.2 = true) :
    t ≠ 0 ∧ 5000000 < now - t ∧ (g.toNat : ℝ) ^ 2 * S < e ^ 2 := by
  obtain ⟨c1, c2, c3⟩ := check_spec now e S g t
  rcases le_or_gt (e ^ 2) ((g.toNat : ℝ) ^ 2 * S) with h1 | h1
  · rw [c1 h1] at h
    cases h
  · by_cases h0 : t = 0
    · rw [c2 h1 h0] at h
      cases h
    · rw [c3 h1 h0] at h
      exact ⟨h0, of_decide_eq_true h, h1⟩

/-- **C51 (restart by airspeed).** In any history on a fresh estimator: if an airspeed call restarts a valid estimate (announces a reset), then
either the innovation variance was negative, or that measurement is rejected and airspeed measurements have been rejected without exception
since a call more than 5 s before. -/
theorem restart_by_airspeed (l : List Call) (now : UInt64) (tas a b : ℝ) (v : V3') (hi : (run l).init = true) (hr : (run l).reset = false)
    (h : (run (l ++ [.airspeed now tas v a b])).reset = true) :
    Spec.form (run l).P (hTas v (run l).x) (hTas v (run l).x) + (run l).c.tasVar < 0 ∨
    (Spec.TasRejected (run l) (.airspeed now tas v a b) ∧
      ∃ t, 5000000 < now - t ∧ Spec.RejectedSince Spec.tasTime Spec.TasProcessed Spec.TasRejected l t) := by
  rw [run_snoc] at h
  have h' : (fuseTas now tas v a b (run l)).reset = true := h
  rcases fuseTas_outcomes now tas v a b (run l) with ⟨hi', e⟩ | ⟨-, ht, e⟩ | ⟨-, ht, ⟨-, -, -, e⟩ | ⟨e, k⟩ | e | e⟩
  · rw [hi] at hi'; cases hi'
  · rw [e, hr] at h'; cases h'
  · rw [e, hr] at h'; cases h'
  · rcases k with k | k
    · obtain ⟨k1, k2, k3⟩ := check_reinit _ _ _ _ _ k
      rw [tasPred_eq, hph_eq] at k3
      exact Or.inr ⟨⟨⟨hi, ht⟩, k3⟩, _, k2, rejected_since _ _ _ St.rejTas rfl tas_marker_step l k1⟩
    · rw [hph_eq] at k
      exact Or.inl k
  · rw [e] at h'
    have : (tasMid now tas v (run l)).reset = (run l).reset := rfl
    rw [this, hr] at h'; cases h'
  · rw [e, (apply_frame _ _ _ _).2.2.2.2.2.2.1] at h'
    have : (tasMid now tas v (run l)).reset = (run l).reset := rfl
    rw [this, hr] at h'; cases h'

/-- **C51 (restart by sideslip).** The same for sideslip calls. -/
theorem restart_by_sideslip (l : List Call) (now : UInt64) (v : V3') (q : Quat ℝ) (hi : (run l).init = true) (hr : (run l).reset = false)
    (h : (run (l ++ [.beta now v q])).reset = true) :
    Spec.form (run l).P (hBeta v (run l).x q) (hBeta v (run l).x q) + (run l).c.betaVar < 0 ∨
    (Spec.BetaRejected (run l) (.beta now v q) ∧
      ∃ t, 5000000 < now - t ∧ Spec.RejectedSince Spec.betaTime Spec.BetaProcessed Spec.BetaRejected l t) := by
  rw [run_snoc] at h
  have h' : (fuseBeta now v q (run l)).reset = true := h
  rcases fuseBeta_outcomes now v q (run l) with ⟨hi', e⟩ | ⟨-, ht, e⟩ | ⟨-, ht, hf, e⟩ | ⟨-, ht, hf, ⟨e, k⟩ | e | e⟩
  · rw [hi] at hi'; cases hi'
  · rw [e, hr] at h'; cases h'
  · rw [e] at h'
    have : ({ run l with tBeta := now } : St).reset = (run l).reset := rfl
    rw [this, hr] at h'; cases h'
  · rcases k with k | k
    · obtain ⟨k1, k2, k3⟩ := check_reinit _ _ _ _ _ k
      rw [relWind_eq, hph_eq, zero_sub, neg_sq] at k3
      exact Or.inr ⟨⟨⟨⟨hi, ht⟩, hf⟩, k3⟩, _, k2, rejected_since _ _ _ St.rejBeta rfl beta_marker_step l k1⟩
    · rw [hph_eq] at k
      exact Or.inl k
  · rw [e] at h'
    have : (betaMid now v q (run l)).reset = (run l).reset := rfl
    rw [this, hr] at h'; cases h'
  · rw [e, (apply_frame _ _ _ _).2.2.2.2.2.2.1] at h'
    have : (betaMid now v q (run l)).reset = (run l).reset := rfl
    rw [this, hr] at h'; cases h'

/-- **C51 (reset flag).** The announcement of a reset is cleared by the next `update` of a valid estimate. -/
theorem reset_cleared (now : UInt64) (st : St) (hi : st.init = true) : (update now st).reset = false ∧ (update now st).init = true := by
  obtain ⟨-, u2, u3, u4⟩ := update_cases now st
  by_cases h0 : st.tUpd = 0
  · rw [u2 hi h0]; exact ⟨rfl, hi⟩
  by_cases h1 : now - st.tUpd < 1000000
  · rw [u3 hi h0 h1]; exact ⟨rfl, hi⟩
  · rw [u4 hi h0 (by rw [u64_lt_iff] at h1; rw [u64_le_iff]; omega)]; exact ⟨rfl, hi⟩

/-! ## The hypotheses are met -/

/-- a running estimator 1.2 s after its last prediction and 0.2 s after its last fusions -/
noncomputable def exSt : St := { fresh with
  init := true
  x := ![1, 2, 1]
  P := ![![1, 0, 0], ![0, 1, 0], ![0, 0, 0.01]]
  tUpd := 20000000
  tTas := 21000000
  tBeta := 21000000 }

example : exSt.init = true ∧ exSt.tUpd ≠ 0 ∧ 1000000 ≤ 21200000 - exSt.tUpd ∧ 100000 ≤ 21200000 - exSt.tTas ∧ 100000 ≤ 21200000 - exSt.tBeta ∧
    Spec.Sym exSt.P ∧ 0 < ((![10, 0, 0] : V3') 0 - exSt.x 0) ^ 2 + ((![10, 0, 0] : V3') 1 - exSt.x 1) ^ 2 + (![10, 0, 0] : V3') 2 ^ 2 := by
  refine ⟨rfl, ?_, ?_, ?_, ?_, ?_, ?_⟩
  · show (20000000 : UInt64) ≠ 0; decide
  · show (1000000 : UInt64) ≤ 21200000 - 20000000; decide
  · show (100000 : UInt64) ≤ 21200000 - 21000000; decide
  · show (100000 : UInt64) ≤ 21200000 - 21000000; decide
  · intro i j; fin_cases i <;> fin_cases j <;> rfl
  · show (0 : ℝ) < (10 - 1) ^ 2 + (0 - 2) ^ 2 + 0 ^ 2; norm_num

/-- a covariance within the limits, as in `accepted_consistent` -/
example : Spec.PSD exSt.P ∧ ∀ i, exSt.P i i ≤ Spec.cap i := by
  constructor
  · refine ⟨fun i j => by fin_cases i <;> fin_cases j <;> rfl, fun x => ?_⟩
    have : Spec.form exSt.P x x = x 0 ^ 2 + x 1 ^ 2 + 0.01 * x 2 ^ 2 := by
      unfold Spec.form
      simp [Fin.sum_univ_three, exSt]
      ring
    rw [this]
    positivity
  · intro i
    fin_cases i <;> simp [exSt, Spec.cap] <;> norm_num

/-- both gating outcomes occur: with gate 3 and variance 1, errors 2 (accepted) and 4 (rejected, restart after 5 s) -/
example : checkRejected 30000000 2 1 3 20000000 = (0, false, false) ∧ checkRejected 30000000 4 1 3 20000000 = (20000000, true, true) ∧
    checkRejected 24000000 4 1 3 20000000 = (20000000, true, false) := by
  have g : ((3 : UInt8).toNat : ℝ) = 3 := by rw [show (3 : UInt8).toNat = 3 from by decide]; norm_num
  obtain ⟨a1, -, a3⟩ := check_spec 30000000 2 1 3 20000000
  obtain ⟨-, -, b3⟩ := check_spec 30000000 4 1 3 20000000
  obtain ⟨-, -, c3⟩ := check_spec 24000000 4 1 3 20000000
  rw [g] at a1 b3 c3
  exact ⟨a1 (by norm_num), b3 (by norm_num) (by decide), c3 (by norm_num) (by decide)⟩

/-- a window as in the rate theorems -/
example : Spec.within (20000000 : UInt64).toNat 100000 20050000 := by unfold Spec.within; decide

/-- a ground speed that permits initialisation -/
example : 3 ≤ √((![4, 3, 0] : V3') 0 ^ 2 + (![4, 3, 0] : V3') 1 ^ 2) := by
  show 3 ≤ √((4 : ℝ) ^ 2 + 3 ^ 2)
  rw [show (4 : ℝ) ^ 2 + 3 ^ 2 = 5 ^ 2 by norm_num, Real.sqrt_sq (by norm_num)]
  norm_num

/-- a restart happens: rejections since 20 s, an impossible airspeed at 26 s -/
example : (fuseTas 26000000 (-10) ![10, 0, 0] 1 1 { exSt with rejTas := 20000000 }).reset = true := by
  obtain ⟨H, hH, -, -, -, -, -, h3⟩ := airspeed_fusion 26000000 (-10) ![10, 0, 0] 1 1 { exSt with rejTas := 20000000 } rfl
    (by show (100000 : UInt64) ≤ 26000000 - 21000000; decide) (by intro i j; fin_cases i <;> fin_cases j <;> rfl)
    (by show (0 : ℝ) < (10 - 1) ^ 2 + (0 - 2) ^ 2 + 0 ^ 2; norm_num)
  simp only [] at h3
  have hb : ∀ st : St, (initialise ![10, 0, 0] 0.1 0.1 (-10) st).reset = true := by
    intro st
    rw [(initialise_eq _ _ _ _ _).2]
    show 3 ≤ √((10 : ℝ) ^ 2 + 0 ^ 2)
    rw [show (10 : ℝ) ^ 2 + 0 ^ 2 = 10 ^ 2 by norm_num, Real.sqrt_sq (by norm_num)]
    norm_num
  by_cases hS : Spec.form exSt.P H H + exSt.c.tasVar < 0
  · obtain ⟨st1, e, -⟩ := h3 (Or.inr hS)
    rw [e]; exact hb st1
  · have hx : (![10, 0, 0] : V3') 0 - exSt.x 0 = 9 ∧ (![10, 0, 0] : V3') 1 - exSt.x 1 = -2 ∧ (![10, 0, 0] : V3') 2 = 0 ∧ exSt.x 2 = 1 := by
      refine ⟨?_, ?_, rfl, rfl⟩ <;> simp [exSt] <;> norm_num
    have hg := airspeed_gradient ![10, 0, 0] exSt.x (by rw [hx.1, hx.2.1, hx.2.2.1]; norm_num)
    have h85 : (0 : ℝ) < √85 := Real.sqrt_pos.mpr (by norm_num)
    have hsq : √(85 : ℝ) ^ 2 = 85 := Real.sq_sqrt (by norm_num)
    have hr : relSpeed ![10, 0, 0] exSt.x = √85 := by
      rw [relSpeed_eq, hx.1, hx.2.1, hx.2.2.1]; norm_num
    have hH0 : H 0 = -9 / √85 ∧ H 1 = 2 / √85 ∧ H 2 = √85 := by
      refine ⟨(hH 0).unique (hg 0) |>.trans ?_, (hH 1).unique (hg 1) |>.trans ?_, (hH 2).unique (hg 2) |>.trans ?_⟩
      · unfold hTas; rw [hr]; simp [exSt]; ring
      · unfold hTas; rw [hr]; simp [exSt]; ring
      · unfold hTas; rw [hr]; simp
    have hf : Spec.form exSt.P H H + exSt.c.tasVar = H 0 ^ 2 + H 1 ^ 2 + 0.01 * H 2 ^ 2 + 1.4 := by
      unfold Spec.form
      simp [Fin.sum_univ_three, exSt, fresh]
      ring
    have hlt : ((3 : UInt8).toNat : ℝ) ^ 2 * (Spec.form exSt.P H H + exSt.c.tasVar) < (-10 - Spec.airspeedModel ![10, 0, 0] exSt.x) ^ 2 := by
      have g : ((3 : UInt8).toNat : ℝ) = 3 := by rw [show (3 : UInt8).toNat = 3 from by decide]; norm_num
      have hm : Spec.airspeedModel ![10, 0, 0] exSt.x = √85 := by
        unfold Spec.airspeedModel
        rw [hx.1, hx.2.1, hx.2.2.1, hx.2.2.2]; norm_num
      rw [g, hf, hm, hH0.1, hH0.2.1, hH0.2.2, div_pow, div_pow, hsq]
      norm_num
      nlinarith
    obtain ⟨st1, e, -⟩ := h3 (Or.inl ⟨hlt, by show (20000000 : UInt64) ≠ 0; decide, by show (5000000 : UInt64) < 26000000 - 20000000; decide⟩)
    rw [e]; exact hb st1

end Ecl.Wind
