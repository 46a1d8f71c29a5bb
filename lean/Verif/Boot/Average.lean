import Verif.Boot.InitState

/-!
# What the initial barometer offset, field and attitude are averages of
-/

namespace Ecl.Boot

open Ecl.Ekf Ecl.Cov Ecl.ImuDownSampler Ecl.AlphaFilter
open scoped Matrix

/-- running average, newest sample first: 0.9 of the previous average plus 0.1 of the sample -/
noncomputable def Spec.average {V : Type*} [AddCommGroup V] [Module ℝ V] : List V → V
  | [] => 0
  | [x] => x
  | x :: y :: l => (9 / 10 : ℝ) • Spec.average (y :: l) + (1 / 10 : ℝ) • x

theorem average_cons {V : Type*} [AddCommGroup V] [Module ℝ V] (x : V) (l : List V) (h : l ≠ []) :
    Spec.average (x :: l) = (9 / 10 : ℝ) • Spec.average l + (1 / 10 : ℝ) • x := by
  cases l with
  | nil => exact absurd rfl h
  | cons y l => rfl

/-- heights delivered, newest first (the history is newest first) -/
def Spec.heights : List Ev → List ℝ
  | [] => []
  | .update _ (some (t, h)) :: l => if t != 0 then h :: Spec.heights l else Spec.heights l
  | _ :: l => Spec.heights l

/-- magnetometer measurements delivered, newest first -/
def Spec.fields : List Ev → List (V3 ℝ)
  | [] => []
  | .update (some (t, v)) _ :: l => if t != 0 then v :: Spec.fields l else Spec.fields l
  | _ :: l => Spec.fields l

/-- IMU data with a proper interval and `update` calls only -/
def Spec.plain : Ev → Prop
  | .imu _ (some (i, _)) => Spec.imuOk i
  | .imu _ none => True
  | .update _ _ => True
  | .reset => False
  | .other _ => False

theorem counts_heights (m : Option (UInt64 × V3 ℝ)) (h : Option (UInt64 × ℝ)) (l : List Ev) :
    Spec.heights (.update m h :: l) = (match h with | some (t, x) => if t != 0 then x :: Spec.heights l else Spec.heights l | none => Spec.heights l) ∧
    Spec.fields (.update m h :: l) = (match m with | some (t, x) => if t != 0 then x :: Spec.fields l else Spec.fields l | none => Spec.fields l) := by
  constructor
  · rcases h with _ | ⟨t, x⟩ <;> rfl
  · rcases m with _ | ⟨t, x⟩ <;> rfl

/-- invariant of the start-up phase -/
structure Avg (l : List Ev) (s : St) : Prop where
  baroCount : s.core.baroCount.toNat = (Spec.heights l).length
  magCount : s.core.magCount.toNat = (Spec.fields l).length
  baro : Spec.heights l ≠ [] → s.flt.baroOff = Spec.average (Spec.heights l)
  mag : Spec.fields l ≠ [] → s.flt.magLpf.state = Spec.average (Spec.fields l)
  alpha : s.flt.magLpf.alpha = 1 / 10

theorem heights_le (l : List Ev) : (Spec.heights l).length ≤ l.length ∧ (Spec.fields l).length ≤ l.length := by
  induction l with
  | nil => exact ⟨le_refl _, le_refl _⟩
  | cons e l ih =>
    obtain ⟨i1, i2⟩ := ih
    cases e with
    | imu n d => exact ⟨Nat.le_succ_of_le i1, Nat.le_succ_of_le i2⟩
    | reset => exact ⟨Nat.le_succ_of_le i1, Nat.le_succ_of_le i2⟩
    | other f => exact ⟨Nat.le_succ_of_le i1, Nat.le_succ_of_le i2⟩
    | update m h =>
      obtain ⟨e1, e2⟩ := counts_heights m h l
      rw [e1, e2]
      constructor
      · rcases h with _ | ⟨t, x⟩
        · exact Nat.le_succ_of_le i1
        · simp only []
          split
          · exact Nat.succ_le_succ i1
          · exact Nat.le_succ_of_le i1
      · rcases m with _ | ⟨t, x⟩
        · exact Nat.le_succ_of_le i2
        · simp only []
          split
          · exact Nat.succ_le_succ i2
          · exact Nat.le_succ_of_le i2

theorem count_zero_iff {x : UInt32} {n : ℕ} (h : x.toNat = n) : (x == 0) = true ↔ n = 0 := by
  rw [beq_iff_eq, ← h]
  constructor
  · rintro rfl; rfl
  · intro h0; exact UInt32.toNat_inj.mp (by rw [h0]; rfl)

theorem avg_taken (m : Option (UInt64 × V3 ℝ)) (h : Option (UInt64 × ℝ)) (l : List Ev) (s : St) (a : Avg l s) (hl : l.length + 1 < 2 ^ 32) :
    Avg (.update m h :: l) (taken m h s) := by
  obtain ⟨a1, a2, a3, a4, a5⟩ := a
  obtain ⟨e1, e2⟩ := counts_heights m h l
  obtain ⟨n1, n2⟩ := heights_le l
  obtain ⟨f1, f2, -⟩ := filterImu_counts s.core
  have hcore := (taken_keeps m h s).2.2
  have inc : ∀ (x : UInt32), x.toNat ≤ l.length → (x + 1).toNat = x.toNat + 1 := by
    intro x hx
    rw [UInt32.toNat_add]
    exact Nat.mod_eq_of_lt (by have : (1 : UInt32).toNat = 1 := rfl; omega)
  have hmag : (taken m h s).flt.magLpf = (match m with | some (t, v) => if t != 0 then (if s.core.magCount == 0 then s.flt.magLpf.reset v else s.flt.magLpf.update v) else s.flt.magLpf | none => s.flt.magLpf) := by
    unfold taken takeBaro takeMag
    rcases m with _ | ⟨t, v⟩ <;> rcases h with _ | ⟨u, w⟩
    · rfl
    · by_cases hu : (u != 0) = true <;> simp [hu]
    · by_cases hu : (t != 0) = true <;> simp [hu, f1]
    · by_cases ht : (t != 0) = true <;> by_cases hu : (u != 0) = true <;> simp [ht, hu, f1]
  have hbaro : (taken m h s).flt.baroOff = (match h with | some (t, x) => if t != 0 then (if s.core.baroCount == 0 then x else 9 / 10 * s.flt.baroOff + 1 / 10 * x) else s.flt.baroOff | none => s.flt.baroOff) := by
    unfold taken takeBaro takeMag
    rcases m with _ | ⟨t, v⟩ <;> rcases h with _ | ⟨u, w⟩
    · rfl
    · by_cases hu : (u != 0) = true <;> simp [hu, f2]
    · by_cases hu : (t != 0) = true <;> simp [hu]
    · by_cases ht : (t != 0) = true <;> by_cases hu : (u != 0) = true <;> simp [ht, hu, f2]
  refine ⟨?_, ?_, ?_, ?_, ?_⟩
  · rw [hcore, e1]
    show (if Spec.counts h then s.core.baroCount + 1 else s.core.baroCount).toNat = _
    rcases h with _ | ⟨t, x⟩
    · exact a1
    · have hcnt : Spec.counts (some (t, x)) = (t != 0) := rfl
      rw [hcnt]
      by_cases ht : (t != 0) = true
      · simp only [if_pos ht]; rw [inc _ (by omega), a1]; rfl
      · simp only [if_neg ht]; exact a1
  · rw [hcore, e2]
    show (if Spec.counts m then s.core.magCount + 1 else s.core.magCount).toNat = _
    rcases m with _ | ⟨t, x⟩
    · exact a2
    · have hcnt : Spec.counts (some (t, x)) = (t != 0) := rfl
      rw [hcnt]
      by_cases ht : (t != 0) = true
      · simp only [if_pos ht]; rw [inc _ (by omega), a2]; rfl
      · simp only [if_neg ht]; exact a2
  · rw [hbaro, e1]
    rcases h with _ | ⟨t, x⟩
    · exact a3
    · simp only []
      by_cases ht : (t != 0) = true
      · rw [if_pos ht, if_pos ht]
        intro _
        by_cases h0 : Spec.heights l = []
        · rw [if_pos ((count_zero_iff a1).mpr (by rw [h0]; rfl)), h0]; rfl
        · rw [if_neg (fun hc => h0 (List.length_eq_zero_iff.mp ((count_zero_iff a1).mp hc))), average_cons _ _ h0, a3 h0]; rfl
      · rw [if_neg ht, if_neg ht]; exact a3
  · rw [hmag, e2]
    rcases m with _ | ⟨t, x⟩
    · exact a4
    · simp only []
      by_cases ht : (t != 0) = true
      · rw [if_pos ht, if_pos ht]
        intro _
        by_cases h0 : Spec.fields l = []
        · rw [if_pos ((count_zero_iff a2).mpr (by rw [h0]; rfl)), h0]; rfl
        · rw [if_neg (fun hc => h0 (List.length_eq_zero_iff.mp ((count_zero_iff a2).mp hc))), average_cons _ _ h0]
          show (1 - s.flt.magLpf.alpha) • s.flt.magLpf.state + s.flt.magLpf.alpha • x = _
          rw [a5, a4 h0, show (1 - 1 / 10 : ℝ) = 9 / 10 by norm_num]
      · rw [if_neg ht, if_neg ht]; exact a4
  · rw [hmag]
    rcases m with _ | ⟨t, x⟩
    · exact a5
    · simp only []
      by_cases ht : (t != 0) = true
      · rw [if_pos ht]; split <;> exact a5
      · rw [if_neg ht]; exact a5

/-- result of an unsuccessful attempt -/
theorem attempt_flt (c : Cfg) (m : Option (UInt64 × V3 ℝ)) (h : Option (UInt64 × ℝ)) (s s' : St) (ok : Bool) (hi : Spec.imuOk s.core.newest)
    (e : initialiseFilter c m h s = .ok (s', ok)) :
    s'.core = (taken m h s).core ∧ s'.flt.baroOff = (taken m h s).flt.baroOff ∧ s'.flt.magLpf = (taken m h s).flt.magLpf := by
  have hcore := (taken_keeps m h s).2.2
  cases ok with
  | true =>
    obtain ⟨h1, q, -, h2⟩ := init_setUp c m h s s' e
    refine ⟨by rw [h1, hcore], ?_⟩
    unfold setUp at h2
    simp only at h2
    split at h2
    · exact absurd h2 (by simp)
    · simp only [Except.ok.injEq] at h2
      rw [← h2]; exact ⟨rfl, rfl⟩
  | false =>
    unfold initialiseFilter at e
    rw [if_neg (by rintro (h' | h') <;> exact absurd h' (not_lt.mpr (by first | exact hi.1 | exact hi.2)))] at e
    simp only at e
    change (if c.magType ≤ 2 ∧ (taken m h s).core.magCount.toNat < c.obsLen then (.ok (taken m h s, false) : Except RingBuffer.UB (St × Bool)) else _) = _ at e
    split at e
    · simp only [Except.ok.injEq, Prod.mk.injEq, and_true] at e; rw [← e]; exact ⟨rfl, rfl, rfl⟩
    · split at e
      · simp only [Except.ok.injEq, Prod.mk.injEq, and_true] at e; rw [← e]; exact ⟨rfl, rfl, rfl⟩
      · split at e
        · simp only [Except.ok.injEq, Prod.mk.injEq, and_true] at e; rw [← e]; exact ⟨rfl, rfl, rfl⟩
        · split at e
          · exact absurd e (by simp)
          · simp at e

theorem runAll_append (c : Cfg) (r : Rest) (l1 : List Ev) (ev : Ev) (s0 s : St) (h0 : runAll c r s0 (l1 ++ [ev]) = .ok s) :
    ∃ s1, runAll c r s0 l1 = .ok s1 ∧ runAll c r s1 [ev] = .ok s := by
  induction l1 generalizing s0 with
  | nil => exact ⟨s0, rfl, h0⟩
  | cons x l1 ih1 =>
    rw [List.cons_append] at h0
    unfold runAll at h0
    unfold runAll
    cases hx : step c r s0 x with
    | error u => rw [hx] at h0; exact absurd h0 (by simp)
    | ok p => rw [hx] at h0; exact ih1 p.1 h0

/-- start-up history: as long as the filter is not initialised the averages are those of the samples delivered -/
theorem startup_avg (c : Cfg) (r : Rest) (f : Flt) (hf : f.magLpf.alpha = 1 / 10) (i : ImuSample) (t now : UInt64) (hi : Spec.imuOk i) (l : List Ev)
    (hp : ∀ x ∈ l, Spec.plain x) (hlen : l.length + 1 < 2 ^ 32) (s : St)
    (e : runAll c r ⟨Core.powerOn, f⟩ (.imu now (some (i, t)) :: l.reverse) = .ok s) (hn : s.core.init = false) :
    Avg l s ∧ Spec.imuOk s.core.newest := by
  unfold runAll at e
  simp only [step] at e
  induction l generalizing s with
  | nil =>
    simp only [List.reverse_nil, runAll, Except.ok.injEq] at e
    subst e
    exact ⟨⟨rfl, rfl, fun h => absurd rfl h, fun h => absurd rfl h, hf⟩, hi⟩
  | cons ev l ih =>
    rw [List.reverse_cons] at e
    obtain ⟨s1, e1, e2⟩ := runAll_append c r _ _ _ _ e
    have hp' : ∀ x ∈ l, Spec.plain x := fun x hx => hp x (List.mem_cons_of_mem _ hx)
    have hev := hp ev List.mem_cons_self
    have hlen' : l.length + 1 < 2 ^ 32 := by
      have : (ev :: l).length = l.length + 1 := rfl
      omega
    unfold runAll at e2
    cases ev with
    | imu now' ds =>
      simp only [step, runAll, Except.ok.injEq] at e2
      have h1 : s1.core.init = false := by
        rw [← hn, ← e2]; unfold setImu; cases ds <;> rfl
      obtain ⟨⟨a1, a2, a3, a4, a5⟩, b1⟩ := ih hp' hlen' s1 h1 e1
      subst e2
      cases ds with
      | none => exact ⟨⟨a1, a2, a3, a4, a5⟩, b1⟩
      | some p => exact ⟨⟨a1, a2, a3, a4, a5⟩, hev⟩
    | reset => exact absurd hev (by simp [Spec.plain])
    | other g => exact absurd hev (by simp [Spec.plain])
    | update m h =>
      simp only [step] at e2
      cases hu : update c r m h s1 with
      | error u => rw [hu] at e2; exact absurd e2 (by simp)
      | ok p =>
        obtain ⟨s2, b⟩ := p
        rw [hu] at e2
        simp only [runAll, Except.ok.injEq] at e2
        subst e2
        obtain ⟨u1, u2, u3⟩ := update_core c r m h s1 s2 b hu
        have h1 : s1.core.init = false := by
          by_contra hc
          rw [Bool.not_eq_false] at hc
          rw [(u1 hc).1, hc] at hn
          exact absurd hn (by decide)
        obtain ⟨av, b1⟩ := ih hp' hlen' s1 h1 e1
        unfold update at hu
        rw [h1] at hu
        simp only [Bool.not_false, if_true] at hu
        cases hin : initialiseFilter c m h s1 with
        | error u => rw [hin] at hu; exact absurd hu (by simp)
        | ok p =>
          obtain ⟨s3, ok⟩ := p
          rw [hin] at hu
          cases ok with
          | true =>
            simp only [Bool.not_true, Bool.false_eq_true, if_false, Except.ok.injEq] at hu
            unfold runFilter at hu
            simp only [Prod.mk.injEq] at hu
            rw [← hu.1] at hn
            exact absurd hn (by simp)
          | false =>
            simp only [Bool.not_false, if_true, Except.ok.injEq, Prod.mk.injEq] at hu
            obtain ⟨g1, g2, g3⟩ := attempt_flt c m h s1 s3 false b1 hin
            obtain ⟨k1, k2, k3, k4, k5⟩ := avg_taken m h l s1 av hlen'
            rw [← hu.1]
            refine ⟨⟨?_, ?_, ?_, ?_, ?_⟩, ?_⟩
            · show s3.core.baroCount.toNat = _; rw [g1]; exact k1
            · show s3.core.magCount.toNat = _; rw [g1]; exact k2
            · show _ → s3.flt.baroOff = _; rw [g2]; exact k3
            · show _ → s3.flt.magLpf.state = _; rw [g3]; exact k4
            · show s3.flt.magLpf.alpha = _; rw [g3]; exact k5
            · show Spec.imuOk s3.core.newest
              rw [g1, (taken_keeps m h s1).2.2]
              show Spec.imuOk s1.core.filterImu.newest
              rw [(filterImu_counts s1.core).2.2.2.2.1]
              exact b1

/-- **C136.** At initialisation the height origin (barometer offset) and the magnetic field used for heading and field states are running averages (weight 0.1 for the
newest) of all barometer and magnetometer samples delivered since power-on.  `l` is the history before the initialising call, newest first, after the first IMU sample. -/
theorem initial_averages (c : Cfg) (r : Rest) (f : Flt) (hf : f.magLpf.alpha = 1 / 10) (i : ImuSample) (t now : UInt64) (hi : Spec.imuOk i) (l : List Ev)
    (hp : ∀ x ∈ l, Spec.plain x) (hlen : l.length + 1 < 2 ^ 32) (s s' : St) (e : runAll c r ⟨Core.powerOn, f⟩ (.imu now (some (i, t)) :: l.reverse) = .ok s)
    (hn : s.core.init = false) (m : Option (UInt64 × V3 ℝ)) (h : Option (UInt64 × ℝ)) (hok : initialiseFilter c m h s = .ok (s', true)) (hc : 0 < c.obsLen) :
    s'.flt.baroOff = Spec.average (Spec.heights (.update m h :: l)) ∧
    (c.magType ≤ 2 → s'.flt.magLpf.state = Spec.average (Spec.fields (.update m h :: l))) := by
  obtain ⟨av, b1⟩ := startup_avg c r f hf i t now hi l hp hlen s e hn
  obtain ⟨k1, k2, k3, k4, -⟩ := avg_taken m h l s av hlen
  obtain ⟨g1, g2, g3⟩ := attempt_flt c m h s s' true b1 hok
  obtain ⟨q1, q2⟩ := (init_core c m h s s' true hok).2 b1
  obtain ⟨w1, w2, -⟩ := q2.mp rfl
  rw [← q1, g1] at w1 w2
  constructor
  · rw [g2]
    refine k3 ?_
    intro h0
    rw [k1, h0] at w2
    simp at w2; omega
  · intro hm
    rw [g3]
    refine k4 ?_
    intro h0
    have := w1 hm
    rw [k2, h0] at this
    simp at this; omega

/-- **C136.** A running average lies within the range of its samples; so the height origin does, and the first barometer innovation cannot exceed the spread of the
readings. -/
theorem average_range (l : List ℝ) (h : l ≠ []) (lo hi : ℝ) (hl : ∀ x ∈ l, lo ≤ x ∧ x ≤ hi) : lo ≤ Spec.average l ∧ Spec.average l ≤ hi := by
  induction l with
  | nil => exact absurd rfl h
  | cons x l ih =>
    have hx := hl x List.mem_cons_self
    by_cases h0 : l = []
    · subst h0; exact hx
    · rw [average_cons _ _ h0]
      obtain ⟨i1, i2⟩ := ih h0 fun y hy => hl y (List.mem_cons_of_mem _ hy)
      simp only [smul_eq_mul]
      constructor <;> linarith [hx.1, hx.2]

/-! ## The IMU averages -/

/-- newest IMU sample in the buffer after the history `l` (newest first) that began with the sample `i` -/
def Spec.newestImu (i : ImuSample) : List Ev → ImuSample
  | [] => i
  | .imu _ (some (x, _)) :: _ => x
  | _ :: l => Spec.newestImu i l

/-- the IMU samples seen by the `update` calls of the history, newest first: each call sees the newest buffered sample -/
def Spec.seen (i : ImuSample) : List Ev → List ImuSample
  | [] => []
  | .update _ _ :: l => Spec.newestImu i l :: Spec.seen i l
  | _ :: l => Spec.seen i l

/-- invariant of the start-up phase for the IMU filters -/
structure ImuAvg (i : ImuSample) (l : List Ev) (b : Core) : Prop where
  newest : b.newest = Spec.newestImu i l
  first : b.first = true ↔ Spec.seen i l = []
  alphaA : b.accel.alpha = 1 / 10
  alphaG : b.gyro.alpha = 1 / 10
  accel : Spec.seen i l ≠ [] → b.accel.state = Spec.average ((Spec.seen i l).map specificForce)
  gyro : Spec.seen i l ≠ [] → b.gyro.state = Spec.average ((Spec.seen i l).map bodyRate)

theorem imuAvg_filter (i : ImuSample) (l : List Ev) (b : Core) (a : ImuAvg i l b) (m : Option (UInt64 × V3 ℝ)) (h : Option (UInt64 × ℝ)) :
    ImuAvg i (.update m h :: l) (b.take m h) := by
  obtain ⟨a1, a2, a3, a4, a5, a6⟩ := a
  have hn := (filterImu_counts b).2.2.2.2.1
  have hs : Spec.seen i (.update m h :: l) = Spec.newestImu i l :: Spec.seen i l := rfl
  have hz : ∀ x y : V3 ℝ, (1 - 1 / 10 : ℝ) • x + (1 / 10 : ℝ) • y = (9 / 10 : ℝ) • x + (1 / 10 : ℝ) • y := fun x y => by norm_num
  cases hf : b.first
  · have hne : Spec.seen i l ≠ [] := fun h0 => by rw [a2.mpr h0] at hf; exact absurd hf (by decide)
    have hne' : ∀ f : ImuSample → V3 ℝ, (Spec.seen i l).map f ≠ [] := fun f h0 => hne (List.map_eq_nil_iff.mp h0)
    refine ⟨by show b.filterImu.newest = _; rw [hn, a1]; rfl, ?_, ?_, ?_, fun _ => ?_, fun _ => ?_⟩
    · show b.filterImu.first = true ↔ _
      rw [(filterImu_counts b).2.2.2.2.2.1, hs]; simp
    · show b.filterImu.accel.alpha = _
      unfold Core.filterImu; rw [hf]; exact a3
    · show b.filterImu.gyro.alpha = _
      unfold Core.filterImu; rw [hf]; exact a4
    · show b.filterImu.accel.state = _
      rw [hs, List.map_cons, average_cons _ _ (hne' _), ← a5 hne, ← a1, ← hz, ← a3]
      unfold Core.filterImu; rw [hf]; rfl
    · show b.filterImu.gyro.state = _
      rw [hs, List.map_cons, average_cons _ _ (hne' _), ← a6 hne, ← a1, ← hz, ← a4]
      unfold Core.filterImu; rw [hf]; rfl
  · have h0 := a2.mp hf
    refine ⟨by show b.filterImu.newest = _; rw [hn, a1]; rfl, ?_, ?_, ?_, fun _ => ?_, fun _ => ?_⟩
    · show b.filterImu.first = true ↔ _
      rw [(filterImu_counts b).2.2.2.2.2.1, hs]; simp
    · show b.filterImu.accel.alpha = _
      unfold Core.filterImu; rw [hf]; exact a3
    · show b.filterImu.gyro.alpha = _
      unfold Core.filterImu; rw [hf]; exact a4
    · show b.filterImu.accel.state = _
      rw [hs, h0, ← a1]
      unfold Core.filterImu; rw [hf]; rfl
    · show b.filterImu.gyro.state = _
      rw [hs, h0, ← a1]
      unfold Core.filterImu; rw [hf]; rfl

/-- start-up history: as long as the filter is not initialised the IMU filters hold the averages of the samples seen -/
theorem startup_imu_avg (c : Cfg) (r : Rest) (f : Flt) (i : ImuSample) (t now : UInt64) (hi : Spec.imuOk i) (l : List Ev)
    (hp : ∀ x ∈ l, Spec.plain x) (s : St)
    (e : runAll c r ⟨Core.powerOn, f⟩ (.imu now (some (i, t)) :: l.reverse) = .ok s) (hn : s.core.init = false) :
    ImuAvg i l s.core ∧ Spec.imuOk s.core.newest := by
  unfold runAll at e
  simp only [step] at e
  induction l generalizing s with
  | nil =>
    simp only [List.reverse_nil, runAll, Except.ok.injEq] at e
    subst e
    exact ⟨⟨rfl, ⟨fun _ => rfl, fun _ => rfl⟩, rfl, rfl, fun h => absurd rfl h, fun h => absurd rfl h⟩, hi⟩
  | cons ev l ih =>
    rw [List.reverse_cons] at e
    obtain ⟨s1, e1, e2⟩ := runAll_append c r _ _ _ _ e
    have hp' : ∀ x ∈ l, Spec.plain x := fun x hx => hp x (List.mem_cons_of_mem _ hx)
    have hev := hp ev List.mem_cons_self
    unfold runAll at e2
    cases ev with
    | imu now' ds =>
      simp only [step, runAll, Except.ok.injEq] at e2
      have h1 : s1.core.init = false := by
        rw [← hn, ← e2]; unfold setImu; cases ds <;> rfl
      obtain ⟨⟨a1, a2, a3, a4, a5, a6⟩, b1⟩ := ih hp' s1 h1 e1
      subst e2
      cases ds with
      | none => exact ⟨⟨a1, a2, a3, a4, a5, a6⟩, b1⟩
      | some p => exact ⟨⟨rfl, a2, a3, a4, a5, a6⟩, hev⟩
    | reset => exact absurd hev (by simp [Spec.plain])
    | other g => exact absurd hev (by simp [Spec.plain])
    | update m h =>
      simp only [step] at e2
      cases hu : update c r m h s1 with
      | error u => rw [hu] at e2; exact absurd e2 (by simp)
      | ok p =>
        obtain ⟨s2, b⟩ := p
        rw [hu] at e2
        simp only [runAll, Except.ok.injEq] at e2
        subst e2
        obtain ⟨u1, u2, u3⟩ := update_core c r m h s1 s2 b hu
        have h1 : s1.core.init = false := by
          by_contra hc
          rw [Bool.not_eq_false] at hc
          rw [(u1 hc).1, hc] at hn
          exact absurd hn (by decide)
        obtain ⟨av, b1⟩ := ih hp' s1 h1 e1
        unfold update at hu
        rw [h1] at hu
        simp only [Bool.not_false, if_true] at hu
        cases hin : initialiseFilter c m h s1 with
        | error u => rw [hin] at hu; exact absurd hu (by simp)
        | ok p =>
          obtain ⟨s3, ok⟩ := p
          rw [hin] at hu
          cases ok with
          | true =>
            simp only [Bool.not_true, Bool.false_eq_true, if_false, Except.ok.injEq] at hu
            unfold runFilter at hu
            simp only [Prod.mk.injEq] at hu
            rw [← hu.1] at hn
            exact absurd hn (by simp)
          | false =>
            simp only [Bool.not_false, if_true, Except.ok.injEq, Prod.mk.injEq] at hu
            obtain ⟨g1, g2, g3⟩ := attempt_flt c m h s1 s3 false b1 hin
            have g4 : s3.core = s1.core.take m h := by rw [g1]; exact (taken_keeps m h s1).2.2
            rw [← hu.1]
            obtain ⟨k1, k2, k3, k4, k5, k6⟩ := imuAvg_filter i l s1.core av m h
            rw [← g4] at k1 k2 k3 k4 k5 k6
            refine ⟨⟨k1, k2, k3, k4, k5, k6⟩, ?_⟩
            show Spec.imuOk s3.core.newest
            rw [g4]
            show Spec.imuOk s1.core.filterImu.newest
            rw [(filterImu_counts s1.core).2.2.2.2.1]
            exact b1

/-- **C136 (IMU).** At initialisation the specific force and the rate that decide on stillness and set the tilt are running averages (weight 0.1 for the newest) over all
`update` calls since power-on, each call contributing the newest buffered IMU sample, change of velocity and of angle divided by their intervals. -/
theorem initial_imu_averages (c : Cfg) (r : Rest) (f : Flt) (i : ImuSample) (t now : UInt64) (hi : Spec.imuOk i) (l : List Ev)
    (hp : ∀ x ∈ l, Spec.plain x) (s s' : St) (e : runAll c r ⟨Core.powerOn, f⟩ (.imu now (some (i, t)) :: l.reverse) = .ok s)
    (hn : s.core.init = false) (m : Option (UInt64 × V3 ℝ)) (h : Option (UInt64 × ℝ)) (hok : initialiseFilter c m h s = .ok (s', true)) :
    let S := Spec.newestImu i l :: Spec.seen i l
    s'.core.accel.state = Spec.average (S.map fun x k => x.deltaVel k / x.deltaVelDt) ∧
    s'.core.gyro.state = Spec.average (S.map fun x k => x.deltaAng k / x.deltaAngDt) := by
  intro S
  obtain ⟨av, b1⟩ := startup_imu_avg c r f i t now hi l hp s e hn
  obtain ⟨g1, -, -⟩ := attempt_flt c m h s s' true b1 hok
  have g4 : s'.core = s.core.take m h := by rw [g1]; exact (taken_keeps m h s).2.2
  obtain ⟨-, -, -, -, k5, k6⟩ := imuAvg_filter i l s.core av m h
  rw [← g4] at k5 k6
  have h0 : Spec.seen i (.update m h :: l) ≠ [] := by simp [Spec.seen]
  have hA : specificForce = fun x k => x.deltaVel k / x.deltaVelDt := by
    funext x k; unfold specificForce; simp only [Pi.smul_apply, smul_eq_mul]; ring
  have hB : bodyRate = fun x k => x.deltaAng k / x.deltaAngDt := by
    funext x k; unfold bodyRate; simp only [Pi.smul_apply, smul_eq_mul]; ring
  rw [k5 h0, k6 h0, hA, hB]
  exact ⟨rfl, rfl⟩

end Ecl.Boot
