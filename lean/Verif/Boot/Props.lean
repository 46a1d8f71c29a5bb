import Verif.Boot.Model

/-!
# Start-up properties: when the filter becomes initialised, and what `update` returns
-/

namespace Ecl.Boot

open Ecl.Ekf Ecl.Cov Ecl.ImuDownSampler Ecl.AlphaFilter
open scoped Matrix

/-- a delivered sample that counts: a time stamp that is not zero -/
def Spec.counts {α : Type*} : Option (UInt64 × α) → Bool
  | some (t, _) => t != 0
  | none => false

/-- barometer samples delivered to `update` calls -/
def Spec.baroSamples : List Ev → ℕ
  | [] => 0
  | .update _ h :: l => (if Spec.counts h then 1 else 0) + Spec.baroSamples l
  | _ :: l => Spec.baroSamples l

/-- magnetometer samples delivered to `update` calls -/
def Spec.magSamples : List Ev → ℕ
  | [] => 0
  | .update m _ :: l => (if Spec.counts m then 1 else 0) + Spec.magSamples l
  | _ :: l => Spec.magSamples l

/-- the newest buffered IMU sample covers at least 0.1 ms -/
def Spec.imuOk (i : ImuSample) : Prop := 1 / 10000 ≤ i.deltaVelDt ∧ 1 / 10000 ≤ i.deltaAngDt

/-- the vehicle is still enough: mean specific force within 20 % of gravity, mean rate at most 15 deg/s -/
def Spec.still (a w : V3 ℝ) : Prop :=
  8 / 10 * (980665 / 100000) ≤ norm3 a ∧ norm3 a ≤ 12 / 10 * (980665 / 100000) ∧ norm3 w ≤ 15 * Real.pi / 180

/-! ## The part of the state that decides -/

/-- effect of an `update` call of an uninitialised filter on the deciding members -/
noncomputable def Core.take (m : Option (UInt64 × V3 ℝ)) (h : Option (UInt64 × ℝ)) (b : Core) : Core :=
  { b.filterImu with
    magCount := if Spec.counts m then b.magCount + 1 else b.magCount
    baroCount := if Spec.counts h then b.baroCount + 1 else b.baroCount }

/-- all conditions of the initialisation -/
def Core.ready (c : Cfg) (b : Core) : Prop :=
  (c.magType ≤ 2 → c.obsLen ≤ b.magCount.toNat) ∧ c.obsLen ≤ b.baroCount.toNat ∧ Spec.still b.accel.state b.gyro.state

theorem filterImu_counts (b : Core) : b.filterImu.magCount = b.magCount ∧ b.filterImu.baroCount = b.baroCount ∧
    b.filterImu.init = b.init ∧ b.filterImu.imuUpdated = b.imuUpdated ∧ b.filterImu.newest = b.newest ∧ b.filterImu.first = false ∧
    b.filterImu.tDel = b.tDel ∧ b.filterImu.now = b.now := by
  unfold Core.filterImu
  cases hf : b.first <;> simp [hf]

theorem take_core (m : Option (UInt64 × V3 ℝ)) (h : Option (UInt64 × ℝ)) (s : St) :
    (takeBaro h (takeMag m { s with core := s.core.filterImu })).core = s.core.take m h := by
  obtain ⟨f1, f2, f3, f4, f5, f6⟩ := filterImu_counts s.core
  unfold takeBaro takeMag Core.take Spec.counts
  rcases m with _ | ⟨t, v⟩ <;> rcases h with _ | ⟨u, w⟩
  · simp only [Bool.false_eq_true, if_false, ← f1, ← f2]
  · by_cases hu : (u != 0) = true <;> simp only [hu, if_true, if_false, Bool.false_eq_true, ← f1, ← f2]
  · by_cases hu : (t != 0) = true <;> simp only [hu, if_true, if_false, Bool.false_eq_true, ← f1, ← f2]
  · by_cases ht : (t != 0) = true <;> by_cases hu : (u != 0) = true <;>
      simp only [ht, hu, if_true, if_false, Bool.false_eq_true, ← f1, ← f2]

/-- an `update` call of an uninitialised filter: nothing happens without IMU data; otherwise the call succeeds iff everything needed is there -/
theorem init_core (c : Cfg) (m : Option (UInt64 × V3 ℝ)) (h : Option (UInt64 × ℝ)) (s s' : St) (ok : Bool)
    (e : initialiseFilter c m h s = .ok (s', ok)) :
    (¬ Spec.imuOk s.core.newest → s' = s ∧ ok = false) ∧
    (Spec.imuOk s.core.newest → s'.core = s.core.take m h ∧ (ok = true ↔ (s.core.take m h).ready c)) := by
  unfold initialiseFilter at e
  have himu : (s.core.newest.deltaVelDt < 1 / 10000 ∨ s.core.newest.deltaAngDt < 1 / 10000) ↔ ¬ Spec.imuOk s.core.newest := by
    unfold Spec.imuOk; rw [not_and_or, not_le, not_le]
  by_cases hi : Spec.imuOk s.core.newest
  · refine ⟨fun h' => absurd hi h', fun _ => ?_⟩
    rw [if_neg (fun h' => himu.mp h' hi)] at e
    have ht := take_core m h s
    simp only at e
    generalize takeBaro h (takeMag m { s with core := s.core.filterImu }) = u at e ht
    rw [ht] at e
    unfold Core.ready
    by_cases h1 : c.magType ≤ 2 ∧ (s.core.take m h).magCount.toNat < c.obsLen
    · rw [if_pos h1] at e
      simp only [Except.ok.injEq, Prod.mk.injEq] at e
      obtain ⟨rfl, rfl⟩ := e
      refine ⟨ht, ?_⟩
      simp only [Bool.false_eq_true, false_iff]
      rintro ⟨h2, -⟩
      exact absurd (h2 h1.1) (not_le.mpr h1.2)
    · rw [if_neg h1] at e
      by_cases h2 : (s.core.take m h).baroCount.toNat < c.obsLen
      · rw [if_pos h2] at e
        simp only [Except.ok.injEq, Prod.mk.injEq] at e
        obtain ⟨rfl, rfl⟩ := e
        refine ⟨ht, ?_⟩
        simp only [Bool.false_eq_true, false_iff]
        rintro ⟨-, h3, -⟩
        exact absurd h3 (not_le.mpr h2)
      · rw [if_neg h2] at e
        have hs := (initialiseTilt_spec (s.core.take m h).accel.state (s.core.take m h).gyro.state).1
        push Not at h1 h2
        cases hq : initialiseTilt (s.core.take m h).accel.state (s.core.take m h).gyro.state with
        | none =>
          rw [hq] at e hs
          simp only [Except.ok.injEq, Prod.mk.injEq] at e
          obtain ⟨rfl, rfl⟩ := e
          refine ⟨rfl, ?_⟩
          simp only [Bool.false_eq_true, false_iff]
          rintro ⟨-, -, h3⟩
          exact absurd (hs.mpr h3) (by simp)
        | some q =>
          rw [hq] at e hs
          simp only at e
          split at e
          · exact absurd e (by simp)
          · simp only [Except.ok.injEq, Prod.mk.injEq] at e
            obtain ⟨rfl, rfl⟩ := e
            exact ⟨rfl, by simp only [true_iff]; exact ⟨h1, h2, hs.mp (by simp)⟩⟩
  · refine ⟨fun _ => ?_, fun h' => absurd h' hi⟩
    rw [if_pos (himu.mpr hi)] at e
    simp only [Except.ok.injEq, Prod.mk.injEq] at e
    exact ⟨e.1.symm, e.2.symm⟩

/-- the deciding members after a call -/
theorem update_core (c : Cfg) (r : Rest) (m : Option (UInt64 × V3 ℝ)) (h : Option (UInt64 × ℝ)) (s s' : St) (b : Bool)
    (e : update c r m h s = .ok (s', b)) :
    (s.core.init = true → s'.core = s.core ∧ b = s.core.imuUpdated) ∧
    (s.core.init = false → ¬ Spec.imuOk s.core.newest → s' = s ∧ b = false) ∧
    (s.core.init = false → Spec.imuOk s.core.newest →
      s'.core = { s.core.take m h with init := s'.core.init } ∧ (s'.core.init = true ↔ (s.core.take m h).ready c) ∧
      b = (s'.core.init && s.core.imuUpdated)) := by
  unfold update at e
  by_cases hi : s.core.init = true
  · rw [hi] at e
    simp only [Bool.not_true, Bool.false_eq_true, if_false, Except.ok.injEq] at e
    refine ⟨fun _ => ?_, fun h' => absurd (hi.symm.trans h') (by decide), fun h' => absurd (hi.symm.trans h') (by decide)⟩
    unfold runFilter at e
    simp only [Prod.mk.injEq] at e
    exact ⟨by rw [← e.1], e.2.symm⟩
  · rw [Bool.not_eq_true] at hi
    rw [hi] at e
    simp only [Bool.not_false, if_true] at e
    refine ⟨fun h' => absurd (hi.symm.trans h') (by decide), ?_⟩
    cases hn : initialiseFilter c m h s with
    | error u => rw [hn] at e; exact absurd e (by simp)
    | ok p =>
      obtain ⟨s1, ok⟩ := p
      rw [hn] at e
      obtain ⟨k1, k2⟩ := init_core c m h s s1 ok hn
      simp only at e
      constructor
      · intro _ ho
        obtain ⟨rfl, rfl⟩ := k1 ho
        simp only [Bool.not_false, if_true, Except.ok.injEq, Prod.mk.injEq] at e
        refine ⟨?_, e.2.symm⟩
        rw [← e.1]
        obtain ⟨⟨i1, i2, i3, i4, i5, i6, i7, i8, i9, i10⟩, f⟩ := s1
        simp only at hi
        subst hi
        rfl
      · intro _ ho
        obtain ⟨q1, q2⟩ := k2 ho
        cases ok with
        | false =>
          simp only [Bool.not_false, if_true, Except.ok.injEq, Prod.mk.injEq] at e
          obtain ⟨rfl, rfl⟩ := e
          refine ⟨by rw [← q1], ?_, rfl⟩
          simpa using q2
        | true =>
          simp only [Bool.not_true, Bool.false_eq_true, if_false, Except.ok.injEq] at e
          unfold runFilter at e
          simp only [Prod.mk.injEq] at e
          obtain ⟨rfl, rfl⟩ := e
          refine ⟨by rw [← q1], by simpa using q2, ?_⟩
          simp only [q1, Bool.true_and]
          exact (filterImu_counts s.core).2.2.2.1

/-! ## Enough data before initialisation -/

theorem run_counts (c : Cfg) (r : Rest) (l : List Ev) (s s' : St) (nb nm : ℕ) (hb : s.core.baroCount.toNat ≤ nb) (hm : s.core.magCount.toNat ≤ nm)
    (hi : s.core.init = true → c.obsLen ≤ nb ∧ (c.magType ≤ 2 → c.obsLen ≤ nm)) (e : runAll c r s l = .ok s') :
    s'.core.init = true → c.obsLen ≤ nb + Spec.baroSamples l ∧ (c.magType ≤ 2 → c.obsLen ≤ nm + Spec.magSamples l) := by
  induction l generalizing s nb nm with
  | nil =>
    simp only [runAll, Except.ok.injEq] at e
    subst e
    simpa [Spec.baroSamples, Spec.magSamples] using hi
  | cons ev l ih =>
    unfold runAll at e
    cases ev with
    | imu now ds =>
      simp only [step] at e
      refine ih (setImu now ds s) nb nm ?_ ?_ ?_ e
      · unfold setImu; cases ds <;> exact hb
      · unfold setImu; cases ds <;> exact hm
      · unfold setImu; cases ds <;> exact hi
    | reset =>
      simp only [step] at e
      exact ih (reset s) nb nm hb hm (fun h => absurd h (by show ¬ (false = true); decide)) e
    | other f =>
      simp only [step] at e
      exact ih ⟨s.core, f s.flt⟩ nb nm hb hm hi e
    | update m h =>
      simp only [step] at e
      cases hu : update c r m h s with
      | error u => rw [hu] at e; exact absurd e (by simp)
      | ok p =>
        obtain ⟨s1, b⟩ := p
        rw [hu] at e
        simp only at e
        obtain ⟨u1, u2, u3⟩ := update_core c r m h s s1 b hu
        have inc : ∀ (x : UInt32) (n : ℕ) (k : Bool), x.toNat ≤ n → (if k then x + 1 else x).toNat ≤ n + (if k then 1 else 0) := by
          intro x n k hx
          cases k
          · simpa using hx
          · simp only [if_true]
            rw [UInt32.toNat_add]
            refine le_trans (Nat.mod_le _ _) ?_
            exact Nat.add_le_add_right hx 1
        show s'.core.init = true → c.obsLen ≤ nb + ((if Spec.counts h then 1 else 0) + Spec.baroSamples l) ∧
          (c.magType ≤ 2 → c.obsLen ≤ nm + ((if Spec.counts m then 1 else 0) + Spec.magSamples l))
        rw [← Nat.add_assoc, ← Nat.add_assoc]
        refine ih s1 _ _ ?_ ?_ ?_ e
        · by_cases hin : s.core.init = true
          · rw [(u1 hin).1]; omega
          · rw [Bool.not_eq_true] at hin
            by_cases ho : Spec.imuOk s.core.newest
            · rw [(u3 hin ho).1]; exact inc _ _ _ hb
            · rw [(u2 hin ho).1]; omega
        · by_cases hin : s.core.init = true
          · rw [(u1 hin).1]; omega
          · rw [Bool.not_eq_true] at hin
            by_cases ho : Spec.imuOk s.core.newest
            · rw [(u3 hin ho).1]; exact inc _ _ _ hm
            · rw [(u2 hin ho).1]; omega
        · intro h1
          by_cases hin : s.core.init = true
          · obtain ⟨g1, g2⟩ := hi hin
            exact ⟨by omega, fun h2 => by have := g2 h2; omega⟩
          · rw [Bool.not_eq_true] at hin
            by_cases ho : Spec.imuOk s.core.newest
            · obtain ⟨g1, g2, -⟩ := (u3 hin ho).2.1.mp h1
              have b1 := inc _ nb (Spec.counts h) hb
              have b2 := inc _ nm (Spec.counts m) hm
              exact ⟨le_trans g2 b1, fun h2 => le_trans (g1 h2) b2⟩
            · rw [(u2 hin ho).1, hin] at h1; exact absurd h1 (by decide)

/-- **C132.** However the calls are ordered, a filter that is initialised has been given at least one full observation buffer of barometer samples since power-on
and, in the compass modes, as many magnetometer samples. -/
theorem initialised_has_data (c : Cfg) (r : Rest) (f : Flt) (l : List Ev) (s : St) (e : runAll c r ⟨Core.powerOn, f⟩ l = .ok s) (hi : s.core.init = true) :
    c.obsLen ≤ Spec.baroSamples l ∧ (c.magType ≤ 2 → c.obsLen ≤ Spec.magSamples l) := by
  have := run_counts c r l ⟨Core.powerOn, f⟩ s 0 0 (le_refl _) (le_refl _) (fun h => absurd h (by show ¬ (false = true); decide)) e hi
  simpa using this

/-! ## Initialisation at rest -/

/-- the calls of a stationary vehicle: IMU samples with constant specific force and rate, no `reset` -/
def Spec.atRest (a w : V3 ℝ) : Ev → Prop
  | .imu _ (some (i, _)) => Spec.imuOk i ∧ (∀ k, i.deltaVel k = a k * i.deltaVelDt) ∧ ∀ k, i.deltaAng k = w k * i.deltaAngDt
  | .reset => False
  | _ => True

theorem rest_sample {a w : V3 ℝ} {i : ImuSample} (h : Spec.imuOk i ∧ (∀ k, i.deltaVel k = a k * i.deltaVelDt) ∧ ∀ k, i.deltaAng k = w k * i.deltaAngDt) :
    specificForce i = a ∧ bodyRate i = w := by
  obtain ⟨⟨h1, h2⟩, h3, h4⟩ := h
  constructor
  · funext k; simp only [specificForce, Pi.smul_apply, smul_eq_mul, h3]; field_simp
  · funext k; simp only [bodyRate, Pi.smul_apply, smul_eq_mul, h4]; field_simp

theorem run_rest (c : Cfg) (r : Rest) (a w : V3 ℝ) (hs : Spec.still a w) (l : List Ev) (s s' : St) (hl : ∀ x ∈ l, Spec.atRest a w x)
    (hnew : Spec.imuOk s.core.newest ∧ (∀ k, s.core.newest.deltaVel k = a k * s.core.newest.deltaVelDt) ∧ ∀ k, s.core.newest.deltaAng k = w k * s.core.newest.deltaAngDt)
    (hf : s.core.first = false → s.core.accel.state = a ∧ s.core.gyro.state = w)
    (hb : s.core.baroCount.toNat + l.length < 2 ^ 32) (hm : s.core.magCount.toNat + l.length < 2 ^ 32)
    (hnot : s.core.init = false → c.obsLen ≤ s.core.baroCount.toNat → (c.magType ≤ 2 → c.obsLen ≤ s.core.magCount.toNat) → False)
    (e : runAll c r s l = .ok s')
    (hB : c.obsLen ≤ s.core.baroCount.toNat + Spec.baroSamples l) (hM : c.magType ≤ 2 → c.obsLen ≤ s.core.magCount.toNat + Spec.magSamples l)
     : s'.core.init = true := by
  induction l generalizing s with
  | nil =>
    simp only [runAll, Except.ok.injEq] at e
    subst e
    by_contra hc
    rw [Bool.not_eq_true] at hc
    exact hnot hc (by simpa [Spec.baroSamples] using hB) (by simpa [Spec.magSamples] using hM)
  | cons ev l ih =>
    unfold runAll at e
    have hl' : ∀ x ∈ l, Spec.atRest a w x := fun x hx => hl x (List.mem_cons_of_mem _ hx)
    have he := hl ev List.mem_cons_self
    have hlen : (ev :: l).length = l.length + 1 := rfl
    rw [hlen] at hb hm
    cases ev with
    | imu now ds =>
      simp only [step] at e
      cases ds with
      | none => exact ih (setImu now none s) hl' hnew hf (by show s.core.baroCount.toNat + _ < _; omega) (by show s.core.magCount.toNat + _ < _; omega) hnot e hB hM
      | some p =>
        obtain ⟨i, t⟩ := p
        exact ih (setImu now (some (i, t)) s) hl' he hf (by show s.core.baroCount.toNat + _ < _; omega) (by show s.core.magCount.toNat + _ < _; omega) hnot e hB hM
    | reset => exact absurd he (by simp [Spec.atRest])
    | other f =>
      simp only [step] at e
      exact ih ⟨s.core, f s.flt⟩ hl' hnew hf (by show s.core.baroCount.toNat + _ < _; omega) (by show s.core.magCount.toNat + _ < _; omega) hnot e hB hM
    | update m h =>
      simp only [step] at e
      cases hu : update c r m h s with
      | error u => rw [hu] at e; exact absurd e (by simp)
      | ok p =>
        obtain ⟨s1, b⟩ := p
        rw [hu] at e
        simp only at e
        obtain ⟨u1, u2, u3⟩ := update_core c r m h s s1 b hu
        by_cases hin : s.core.init = true
        · -- stays initialised
          have key : ∀ (l : List Ev) (s : St), (∀ x ∈ l, Spec.atRest a w x) → s.core.init = true → runAll c r s l = .ok s' → s'.core.init = true := by
            intro l
            induction l with
            | nil => intro s _ h1 h2; simp only [runAll, Except.ok.injEq] at h2; subst h2; exact h1
            | cons ev l ih2 =>
              intro s h0 h1 h2
              unfold runAll at h2
              have hl2 : ∀ x ∈ l, Spec.atRest a w x := fun x hx => h0 x (List.mem_cons_of_mem _ hx)
              have he2 := h0 ev List.mem_cons_self
              cases ev with
              | imu now ds =>
                simp only [step] at h2
                exact ih2 (setImu now ds s) hl2 (by unfold setImu; cases ds <;> exact h1) h2
              | reset => exact absurd he2 (by simp [Spec.atRest])
              | other f => simp only [step] at h2; exact ih2 _ hl2 (by simpa using h1) h2
              | update m h =>
                simp only [step] at h2
                cases hu2 : update c r m h s with
                | error u => rw [hu2] at h2; exact absurd h2 (by simp)
                | ok p =>
                  obtain ⟨s2, b2⟩ := p
                  rw [hu2] at h2
                  exact ih2 s2 hl2 (by rw [((update_core c r m h s s2 b2 hu2).1 h1).1]; exact h1) h2
          exact key l s1 hl' (by rw [(u1 hin).1]; exact hin) e
        · rw [Bool.not_eq_true] at hin
          obtain ⟨v1, v2, -⟩ := u3 hin hnew.1
          have hsamp := rest_sample hnew
          have hst : (s.core.take m h).accel.state = a ∧ (s.core.take m h).gyro.state = w := by
            unfold Core.take Core.filterImu
            cases hff : s.core.first with
            | true => simp only [if_true, Filter.reset]; exact hsamp
            | false =>
              obtain ⟨g1, g2⟩ := hf hff
              simp only [Bool.false_eq_true, if_false, Filter.update, hsamp.1, hsamp.2, g1, g2]
              constructor <;> (funext k; simp only [Pi.add_apply, Pi.smul_apply, smul_eq_mul]; ring)
          have inc : ∀ (x : UInt32) (k : Bool), x.toNat + (l.length + 1) < 2 ^ 32 → (if k then x + 1 else x).toNat = x.toNat + (if k then 1 else 0) := by
            intro x k hx
            cases k
            · simp
            · simp only [if_true]
              rw [UInt32.toNat_add]
              exact Nat.mod_eq_of_lt (by have : (1 : UInt32).toNat = 1 := rfl; omega)
          have c1 : s1.core.baroCount.toNat = s.core.baroCount.toNat + (if Spec.counts h then 1 else 0) := by rw [v1]; exact inc _ _ hb
          have c2 : s1.core.magCount.toNat = s.core.magCount.toNat + (if Spec.counts m then 1 else 0) := by rw [v1]; exact inc _ _ hm
          have k1 : (if Spec.counts h then 1 else 0) ≤ 1 := by split <;> omega
          have k2 : (if Spec.counts m then 1 else 0) ≤ 1 := by split <;> omega
          have hfi := filterImu_counts s.core
          have hn1 : s1.core.newest = s.core.newest := by rw [v1]; exact hfi.2.2.2.2.1
          refine ih s1 hl' ?_ ?_ ?_ ?_ ?_ e ?_ ?_
          · rw [hn1]; exact hnew
          · intro _; rw [v1]; exact hst
          · rw [c1]; omega
          · rw [c2]; omega
          · intro g1 g2 g3
            rw [v1] at g2 g3
            have : s1.core.init = true := v2.mpr ⟨g3, g2, by rw [hst.1, hst.2]; exact hs⟩
            rw [this] at g1
            exact absurd g1 (by decide)
          · rw [c1]; simp only [Spec.baroSamples] at hB; omega
          · intro hmt; rw [c2]; have := hM hmt; simp only [Spec.magSamples] at this; omega

/-- **C132.** A vehicle at rest (after the first down-sampled IMU sample) is initialised as soon as the required samples have been delivered. -/
theorem initialised_at_rest (c : Cfg) (r : Rest) (f : Flt) (a w : V3 ℝ) (hs : Spec.still a w) (hc : 0 < c.obsLen) (i : ImuSample) (t now : UInt64) (l : List Ev)
    (hl : ∀ x ∈ .imu now (some (i, t)) :: l, Spec.atRest a w x) (hlen : l.length < 2 ^ 32) (s : St)
    (e : runAll c r ⟨Core.powerOn, f⟩ (.imu now (some (i, t)) :: l) = .ok s) (hB : c.obsLen ≤ Spec.baroSamples l)
    (hM : c.magType ≤ 2 → c.obsLen ≤ Spec.magSamples l) : s.core.init = true := by
  unfold runAll at e
  simp only [step] at e
  have h0 := hl _ List.mem_cons_self
  refine run_rest c r a w hs l (setImu now (some (i, t)) ⟨Core.powerOn, f⟩) s (fun x hx => hl x (List.mem_cons_of_mem _ hx)) h0 ?_ ?_ ?_ ?_ e ?_ ?_
  · intro h; exact absurd h (by show ¬ (true = false); decide)
  · show 0 + l.length < _; omega
  · show 0 + l.length < _; omega
  · intro _ h; exact absurd h (by show ¬ (c.obsLen ≤ 0); omega)
  · show c.obsLen ≤ 0 + _; omega
  · intro h; show c.obsLen ≤ 0 + _; have := hM h; omega

/-! ## What `update` returns -/

/-- the last IMU sample handed over completed a down-sampling interval, and the filter was not reset since -/
def Spec.fresh : List Ev → Bool
  | [] => false
  | .imu _ ds :: _ => ds.isSome
  | .reset :: _ => false
  | _ :: l => Spec.fresh l

/-- **C133.** `update` reports that the filter ran iff the filter is initialised (possibly by this very call) and the last IMU sample completed a down-sampling
interval.  `l` is the history, newest call first. -/
theorem update_returns (c : Cfg) (r : Rest) (f : Flt) (l : List Ev) (s s' : St) (e : runAll c r ⟨Core.powerOn, f⟩ l.reverse = .ok s)
    (m : Option (UInt64 × V3 ℝ)) (h : Option (UInt64 × ℝ)) (b : Bool) (hu : update c r m h s = .ok (s', b)) :
    b = (s'.core.init && Spec.fresh l) := by
  have hfresh : s.core.imuUpdated = Spec.fresh l := by
    clear hu
    induction l generalizing s with
    | nil => simp only [List.reverse_nil, runAll, Except.ok.injEq] at e; subst e; rfl
    | cons ev l ih =>
      rw [List.reverse_cons] at e
      have split : ∀ (l1 : List Ev) (s0 : St), runAll c r s0 (l1 ++ [ev]) = .ok s → ∃ s1, runAll c r s0 l1 = .ok s1 ∧ runAll c r s1 [ev] = .ok s := by
        intro l1
        induction l1 with
        | nil => intro s0 h0; exact ⟨s0, rfl, h0⟩
        | cons x l1 ih1 =>
          intro s0 h0
          rw [List.cons_append] at h0
          unfold runAll at h0
          unfold runAll
          cases hx : step c r s0 x with
          | error u => rw [hx] at h0; exact absurd h0 (by simp)
          | ok p => rw [hx] at h0; exact ih1 p.1 h0
      obtain ⟨s1, e1, e2⟩ := split _ _ e
      have hs1 := ih s1 e1
      unfold runAll at e2
      cases ev with
      | imu now ds =>
        simp only [step, runAll, Except.ok.injEq] at e2
        subst e2
        unfold setImu Spec.fresh
        cases ds <;> rfl
      | reset => simp only [step, runAll, Except.ok.injEq] at e2; subst e2; rfl
      | other g => simp only [step, runAll, Except.ok.injEq] at e2; subst e2; exact hs1
      | update m' h' =>
        simp only [step] at e2
        cases hx : update c r m' h' s1 with
        | error u => rw [hx] at e2; exact absurd e2 (by simp)
        | ok p =>
          obtain ⟨s2, b2⟩ := p
          rw [hx] at e2
          simp only [runAll, Except.ok.injEq] at e2
          subst e2
          obtain ⟨u1, u2, u3⟩ := update_core c r m' h' s1 s2 b2 hx
          show _ = Spec.fresh l
          rw [← hs1]
          by_cases hin : s1.core.init = true
          · rw [(u1 hin).1]
          · rw [Bool.not_eq_true] at hin
            by_cases ho : Spec.imuOk s1.core.newest
            · rw [(u3 hin ho).1]; exact (filterImu_counts s1.core).2.2.2.1
            · rw [(u2 hin ho).1]
  rw [← hfresh]
  obtain ⟨u1, u2, u3⟩ := update_core c r m h s s' b hu
  by_cases hin : s.core.init = true
  · rw [(u1 hin).1, (u1 hin).2, hin]; rfl
  · rw [Bool.not_eq_true] at hin
    by_cases ho : Spec.imuOk s.core.newest
    · rw [(u3 hin ho).2.2]
    · rw [(u2 hin ho).1, (u2 hin ho).2, hin]; rfl

/-- **C133 (finding).** The flag is not taken back by `update`: calling it again without new IMU data runs the filter again on the same sample. -/
theorem update_twice (c : Cfg) (r : Rest) (s : St) (hi : s.core.init = true) (hu : s.core.imuUpdated = true) (m m' : Option (UInt64 × V3 ℝ))
    (h h' : Option (UInt64 × ℝ)) :
    ∃ s1 s2, update c r m h s = .ok (s1, true) ∧ update c r m' h' s1 = .ok (s2, true) ∧
      s2.flt = r.out s.core (r.run s.core (r.out s.core (r.run s.core s.flt))) := by
  have k : ∀ (t : St) (m : Option (UInt64 × V3 ℝ)) (h : Option (UInt64 × ℝ)), t.core = s.core →
      update c r m h t = .ok ({ t with flt := r.out s.core (r.run s.core t.flt) }, true) := by
    intro t m h ht
    unfold update runFilter
    rw [ht, hi, hu]
    rfl
  exact ⟨_, _, k s m h rfl, k _ m' h' rfl, rfl⟩

/-- **C133.** Before the filter is initialised a call of `update` returns false and touches neither states nor covariance nor outputs. -/
theorem uninitialised_update (c : Cfg) (r : Rest) (m : Option (UInt64 × V3 ℝ)) (h : Option (UInt64 × ℝ)) (s s' : St) (b : Bool)
    (e : update c r m h s = .ok (s', b)) (hi : s'.core.init = false) :
    b = false ∧ s'.flt.y = s.flt.y ∧ s'.flt.ter = s.flt.ter := by
  have hflt : ∀ s1, initialiseFilter c m h s = .ok (s1, false) → s1.flt.y = s.flt.y ∧ s1.flt.ter = s.flt.ter := by
    intro s1 h1
    unfold initialiseFilter at h1
    split at h1
    · simp only [Except.ok.injEq, Prod.mk.injEq] at h1; rw [← h1.1]; exact ⟨rfl, rfl⟩
    · simp only at h1
      have hk : (takeBaro h (takeMag m { s with core := s.core.filterImu })).flt.y = s.flt.y ∧
          (takeBaro h (takeMag m { s with core := s.core.filterImu })).flt.ter = s.flt.ter := by
        unfold takeBaro takeMag
        rcases m with _ | ⟨t, v⟩ <;> rcases h with _ | ⟨u, w⟩
        · exact ⟨rfl, rfl⟩
        · by_cases hu : (u != 0) = true <;> simp [hu]
        · by_cases hu : (t != 0) = true <;> simp [hu]
        · by_cases ht : (t != 0) = true <;> by_cases hu : (u != 0) = true <;> simp [ht, hu]
      generalize takeBaro h (takeMag m { s with core := s.core.filterImu }) = u at h1 hk
      split at h1
      · simp only [Except.ok.injEq, Prod.mk.injEq] at h1; rw [← h1.1]; exact hk
      · split at h1
        · simp only [Except.ok.injEq, Prod.mk.injEq] at h1; rw [← h1.1]; exact hk
        · split at h1
          · simp only [Except.ok.injEq, Prod.mk.injEq] at h1; rw [← h1.1]; exact hk
          · split at h1
            · exact absurd h1 (by simp)
            · simp at h1
  unfold update at e
  split at e
  · next hn =>
    cases hin : initialiseFilter c m h s with
    | error u => rw [hin] at e; exact absurd e (by simp)
    | ok p =>
      obtain ⟨s1, ok⟩ := p
      rw [hin] at e
      cases ok with
      | true =>
        simp only [Bool.not_true, Bool.false_eq_true, if_false, Except.ok.injEq] at e
        unfold runFilter at e
        simp only [Prod.mk.injEq] at e
        rw [← e.1] at hi
        exact absurd hi (by simp)
      | false =>
        simp only [Bool.not_false, if_true, Except.ok.injEq, Prod.mk.injEq] at e
        obtain ⟨rfl, rfl⟩ := e
        exact ⟨rfl, hflt s1 hin⟩
  · next hn =>
    simp only [Except.ok.injEq] at e
    unfold runFilter at e
    simp only [Prod.mk.injEq] at e
    rw [← e.1] at hi
    simp at hn
    exact absurd (hn.symm.trans hi) (by decide)

end Ecl.Boot
