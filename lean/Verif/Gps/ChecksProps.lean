import Verif.Gps.Checks
import Mathlib.Tactic.Linarith
import Mathlib.Tactic.Positivity
import Mathlib.Tactic.FieldSimp
import Mathlib.Tactic.LinearCombination

/-!
# GPS quality checks: theorems (C37, C96)
-/

namespace Ecl.Gps

variable (g : GeoLib) (p : Params)

theorem anyFail_iff (f : Fail) : anyFail p f = true ↔ Spec.Failed p f := by
  unfold anyFail Spec.Failed
  simp only [Bool.or_eq_true, Bool.and_eq_true, or_assoc]

theorem record_frame (now : UInt64) (s : St) : (record p now s).fail = s.fail ∧ (record p now s).errNorm = s.errNorm ∧
    (record p now s).prevPos = s.prevPos ∧ (record p now s).prevT = s.prevT ∧ (record p now s).prevAlt = s.prevAlt ∧
    (record p now s).derN = s.derN ∧ (record p now s).derE = s.derE ∧ (record p now s).derD = s.derD ∧
    (record p now s).velN = s.velN ∧ (record p now s).velE = s.velE ∧ (record p now s).velDdiff = s.velDdiff := by
  unfold record
  simp only []
  split_ifs <;> exact ⟨rfl, rfl, rfl, rfl, rfl, rfl, rfl, rfl, rfl, rfl, rfl⟩

theorem record_lastFail (now : UInt64) (s : St) :
    (record p now s).lastFail = if anyFail p s.fail then now else if s.lastFail = 0 then now else s.lastFail := by
  unfold record
  by_cases h : s.lastFail = 0
  · rw [if_pos h]; simp only [h]; split_ifs <;> rfl
  · rw [if_neg h]; simp only [h]; split_ifs <;> first | rfl | contradiction

theorem motion_frame (x : In) (dt c : ℝ) (s : St) : (motion g p x dt c s).lastFail = s.lastFail ∧ (motion g p x dt c s).errNorm = s.errNorm ∧
    (motion g p x dt c s).velDdiff = s.velDdiff ∧
    (motion g p x dt c s).fail.fix = s.fail.fix ∧ (motion g p x dt c s).fail.nsats = s.fail.nsats ∧ (motion g p x dt c s).fail.pdop = s.fail.pdop ∧
    (motion g p x dt c s).fail.hacc = s.fail.hacc ∧ (motion g p x dt c s).fail.vacc = s.fail.vacc ∧ (motion g p x dt c s).fail.sacc = s.fail.sacc := by
  unfold motion restChecks resetDrift
  split_ifs <;> exact ⟨rfl, rfl, rfl, rfl, rfl, rfl, rfl, rfl, rfl⟩

/-- the state before the bookkeeping -/
noncomputable def pre (x : In) (s : St) : St :=
  vspeed p x (dtOf x.now s.prevT / 10) (motion g p x (dtOf x.now s.prevT) (dtOf x.now s.prevT / 10) (quality p x.msg s))

theorem isGood_fst (x : In) (s : St) : (isGood g p x s).1 = record p x.now (pre g p x s) := rfl

theorem isGood_lastFail (x : In) (s : St) : (isGood g p x s).1.lastFail =
    if anyFail p (isGood g p x s).1.fail then x.now else if s.lastFail = 0 then x.now else s.lastFail := by
  rw [isGood_fst, record_lastFail, (record_frame p x.now _).1]
  have : (pre g p x s).lastFail = s.lastFail := (motion_frame g p x _ _ _).1
  rw [this]

theorem isGood_result (x : In) (s : St) : (isGood g p x s).2 = isTimedOut x.now (isGood g p x s).1.lastFail p.healthTime := rfl

/-- **C37 (the individual checks).** -/
theorem check_flags (x : In) (s : St) :
    let f := (isGood g p x s).1.fail
    (f.fix = true ↔ x.msg.fix < 3) ∧ (f.nsats = true ↔ x.msg.nsats < p.reqNsats) ∧ (f.pdop = true ↔ p.reqPdop < x.msg.pdop) ∧
    (f.hacc = true ↔ p.reqHacc < x.msg.eph) ∧ (f.vacc = true ↔ p.reqVacc < x.msg.epv) ∧ (f.sacc = true ↔ p.reqSacc < x.msg.sacc) ∧
    (f.vspeed = true ↔ p.reqVdrift < |(isGood g p x s).1.velDdiff|) ∧
    (x.inAir = true → f.hdrift = false ∧ f.vdrift = false ∧ f.hspeed = false) ∧
    (x.inAir = false → x.atRest = false → f.hdrift = s.fail.hdrift ∧ f.vdrift = s.fail.vdrift ∧ f.hspeed = s.fail.hspeed) ∧
    (x.inAir = false → x.atRest = true →
      (f.hdrift = true ↔ p.reqHdrift < Real.sqrt ((isGood g p x s).1.derN ^ 2 + (isGood g p x s).1.derE ^ 2)) ∧
      (f.vdrift = true ↔ p.reqVdrift < |(isGood g p x s).1.derD|) ∧
      (f.hspeed = true ↔ p.reqHdrift < Real.sqrt ((isGood g p x s).1.velN ^ 2 + (isGood g p x s).1.velE ^ 2))) := by
  intro f
  obtain ⟨r1, -, -, -, -, r6, r7, r8, r9, r10, r11⟩ := record_frame p x.now (pre g p x s)
  have hf : f = (pre g p x s).fail := r1
  rw [hf, isGood_fst, r6, r7, r8, r9, r10, r11]
  obtain ⟨-, -, m3, m4, m5, m6, m7, m8, m9⟩ := motion_frame g p x (dtOf x.now s.prevT) (dtOf x.now s.prevT / 10) (quality p x.msg s)
  refine ⟨?_, ?_, ?_, ?_, ?_, ?_, ?_, ?_, ?_, ?_⟩
  · show (motion g p x _ _ _).fail.fix = true ↔ _
    rw [m4]; exact decide_eq_true_iff
  · show (motion g p x _ _ _).fail.nsats = true ↔ _
    rw [m5]; exact decide_eq_true_iff
  · show (motion g p x _ _ _).fail.pdop = true ↔ _
    rw [m6]; exact decide_eq_true_iff
  · show (motion g p x _ _ _).fail.hacc = true ↔ _
    rw [m7]; exact decide_eq_true_iff
  · show (motion g p x _ _ _).fail.vacc = true ↔ _
    rw [m8]; exact decide_eq_true_iff
  · show (motion g p x _ _ _).fail.sacc = true ↔ _
    rw [m9]; exact decide_eq_true_iff
  · exact decide_eq_true_iff
  · intro ha
    show (motion g p x _ _ _).fail.hdrift = false ∧ (motion g p x _ _ _).fail.vdrift = false ∧ (motion g p x _ _ _).fail.hspeed = false
    unfold motion
    rw [if_neg (by simp [ha]), if_pos ha]
    exact ⟨rfl, rfl, rfl⟩
  · intro ha hb
    show (motion g p x _ _ _).fail.hdrift = _ ∧ (motion g p x _ _ _).fail.vdrift = _ ∧ (motion g p x _ _ _).fail.hspeed = _
    unfold motion
    rw [if_neg (by simp [hb]), if_neg (by simp [ha])]
    exact ⟨rfl, rfl, rfl⟩
  · intro ha hb
    show ((motion g p x _ _ _).fail.hdrift = true ↔ _ < Real.sqrt ((motion g p x _ _ _).derN ^ 2 + (motion g p x _ _ _).derE ^ 2)) ∧
      ((motion g p x _ _ _).fail.vdrift = true ↔ _ < |(motion g p x _ _ _).derD|) ∧
      ((motion g p x _ _ _).fail.hspeed = true ↔ _ < Real.sqrt ((motion g p x _ _ _).velN ^ 2 + (motion g p x _ _ _).velE ^ 2))
    unfold motion
    rw [if_pos (by simp [ha, hb])]
    simp only [pow_two]
    exact ⟨decide_eq_true_iff, decide_eq_true_iff, decide_eq_true_iff⟩

/-- **C37 (immediate failure).** A failing enabled check makes the result false for that message. -/
theorem fail_immediate (x : In) (s : St) (hov : x.now.toNat + p.healthTime.toNat < 2 ^ 64)
    (h : Spec.Failed p (isGood g p x s).1.fail) : (isGood g p x s).2 = false := by
  rw [isGood_result, isGood_lastFail, if_pos ((anyFail_iff p _).mpr h), ← Bool.not_eq_true, (timeout_meaning _ _ _ hov).1]
  omega

theorem after_append (s : St) (xs ys : List In) : after g p s (xs ++ ys) = after g p (after g p s xs) ys := by
  induction xs generalizing s with
  | nil => rfl
  | cons x xs ih => exact ih _

theorem after_snoc (s : St) (xs : List In) (x : In) : after g p s (xs ++ [x]) = (isGood g p x (after g p s xs)).1 := by
  rw [after_append]; rfl

/-- time of the last failure, for every nonempty history -/
theorem lastFail_history (xs : List In) (h0 : ∀ y ∈ xs, 0 < y.now.toNat) (hm : xs.Pairwise (fun a b => a.now.toNat ≤ b.now.toNat)) :
    (xs = [] → (after g p St.init xs).lastFail = 0) ∧
    (xs ≠ [] → (after g p St.init xs).lastFail ≠ 0 ∧
      (∀ b : ℕ, (after g p St.init xs).lastFail.toNat < b ↔ (∀ y ∈ xs.head?, y.now.toNat < b) ∧
        ∀ pre y post, xs = pre ++ y :: post → Spec.Failed p (after g p St.init (pre ++ [y])).fail → y.now.toNat < b)) := by
  induction xs using List.reverseRecOn with
  | nil => exact ⟨fun _ => rfl, fun h => absurd rfl h⟩
  | append_singleton xs x ih =>
    refine ⟨fun h => by simp at h, fun _ => ?_⟩
    have hm' : xs.Pairwise (fun a b => a.now.toNat ≤ b.now.toNat) := (List.pairwise_append.mp hm).1
    have hle : ∀ y ∈ xs, y.now.toNat ≤ x.now.toNat := fun y hy => (List.pairwise_append.mp hm).2.2 y hy x (by simp)
    have hx0 : 0 < x.now.toNat := h0 x (by simp)
    have hx : x.now ≠ 0 := by intro h; rw [h] at hx0; exact absurd hx0 (by decide)
    obtain ⟨i1, i2⟩ := ih (fun y hy => h0 y (by simp [hy])) hm'
    have hsn := after_snoc g p St.init xs x
    have hlf := isGood_lastFail g p x (after g p St.init xs)
    rw [← hsn] at hlf
    by_cases hfail : Spec.Failed p (after g p St.init (xs ++ [x])).fail
    · rw [if_pos ((anyFail_iff p _).mpr hfail)] at hlf
      rw [hlf]
      refine ⟨hx, fun b => ⟨fun hb => ⟨?_, ?_⟩, fun ⟨_, h2⟩ => h2 xs x [] (by simp) hfail⟩⟩
      · intro y hy
        have : y ∈ xs ++ [x] := List.mem_of_mem_head? hy
        rcases List.mem_append.mp this with h | h
        · exact lt_of_le_of_lt (hle y h) hb
        · rw [List.mem_singleton.mp h]; exact hb
      · intro pre y post e _
        have : y ∈ xs ++ [x] := by rw [e]; simp
        rcases List.mem_append.mp this with h | h
        · exact lt_of_le_of_lt (hle y h) hb
        · rw [List.mem_singleton.mp h]; exact hb
    · rw [if_neg (fun h => hfail ((anyFail_iff p _).mp h))] at hlf
      by_cases hxs : xs = []
      · subst hxs
        rw [if_pos (i1 rfl)] at hlf
        rw [hlf]
        refine ⟨hx, fun b => ⟨fun hb => ⟨by simpa using hb, ?_⟩, fun ⟨h1, _⟩ => by simpa using h1⟩⟩
        intro pre y post e _
        have : y ∈ [] ++ [x] := by rw [e]; simp
        simp at this; rw [this]; exact hb
      · obtain ⟨j1, j2⟩ := i2 hxs
        rw [if_neg j1] at hlf
        rw [hlf]
        refine ⟨j1, fun b => (j2 b).trans ⟨fun ⟨h1, h2⟩ => ⟨?_, ?_⟩, fun ⟨h1, h2⟩ => ⟨?_, ?_⟩⟩⟩
        · intro y hy
          rw [List.head?_append_of_ne_nil _ hxs] at hy
          exact h1 y hy
        · intro pre y post e hf
          rcases List.eq_nil_or_concat post with hp | ⟨post', z, hp⟩
          · subst hp
            have : xs ++ [x] = pre ++ [y] := e
            obtain ⟨e1, e2⟩ := List.append_inj' this rfl
            injection e2 with e2
            subst e1; subst e2
            exact absurd hf hfail
          · subst hp
            have : xs ++ [x] = (pre ++ y :: post') ++ [z] := by rw [e]; simp
            obtain ⟨e1, e2⟩ := List.append_inj' this rfl
            exact h2 pre y post' e1 hf
        · intro y hy
          exact h1 y (by rw [List.head?_append_of_ne_nil _ hxs]; exact hy)
        · intro pre y post e hf
          exact h2 pre y (post ++ [x]) (by rw [e]; simp) hf

/-- **C37.** For every history of messages with positive, non-decreasing time stamps, starting from power up: the GPS is declared
good at the last message exactly if the first message and every message with a failing enabled check are more than the
configured health time older than it. -/
theorem gps_good_iff (xs : List In) (x : In) (h0 : ∀ y ∈ xs ++ [x], 0 < y.now.toNat)
    (hm : (xs ++ [x]).Pairwise (fun a b => a.now.toNat ≤ b.now.toNat)) (hov : x.now.toNat + p.healthTime.toNat < 2 ^ 64) :
    (isGood g p x (after g p St.init xs)).2 = true ↔
      (∀ y ∈ (xs ++ [x]).head?, y.now.toNat + p.healthTime.toNat < x.now.toNat) ∧
      (∀ pre y post, xs ++ [x] = pre ++ y :: post → Spec.Failed p (after g p St.init (pre ++ [y])).fail →
        y.now.toNat + p.healthTime.toNat < x.now.toNat) := by
  obtain ⟨-, h⟩ := lastFail_history g p (xs ++ [x]) h0 hm
  obtain ⟨-, h2⟩ := h (by simp)
  rw [isGood_result, ← after_snoc]
  have hlt : (after g p St.init (xs ++ [x])).lastFail.toNat < x.now.toNat + 1 := by
    rw [h2]
    have hle : ∀ y ∈ xs ++ [x], y.now.toNat ≤ x.now.toNat := by
      intro y hy
      rcases List.mem_append.mp hy with h | h
      · exact (List.pairwise_append.mp hm).2.2 y h x (by simp)
      · rw [List.mem_singleton.mp h]
    refine ⟨fun y hy => ?_, fun pre y post e _ => ?_⟩
    · have := hle y (List.mem_of_mem_head? hy); omega
    · have := hle y (by rw [e]; simp); omega
  rw [(timeout_meaning _ _ _ (by omega)).1]
  rcases Nat.lt_or_ge p.healthTime.toNat x.now.toNat with hc | hc
  · have e : (after g p St.init (xs ++ [x])).lastFail.toNat + p.healthTime.toNat < x.now.toNat ↔
        (after g p St.init (xs ++ [x])).lastFail.toNat < x.now.toNat - p.healthTime.toNat := by omega
    rw [e, h2]
    have e2 : ∀ n : ℕ, n < x.now.toNat - p.healthTime.toNat ↔ n + p.healthTime.toNat < x.now.toNat := fun n => by omega
    simp only [e2]
  · constructor
    · intro h; omega
    · rintro ⟨h3, -⟩
      obtain ⟨y, hy⟩ : ∃ y, (xs ++ [x]).head? = some y := by
        cases xs with
        | nil => exact ⟨x, rfl⟩
        | cons z zs => exact ⟨z, rfl⟩
      have := h3 y hy
      omega

/-- **C37 (consequence).** If the GPS is good, the fix type is at least 3 and all enabled accuracy checks are met now. -/
theorem gps_good_now (xs : List In) (x : In) (hov : x.now.toNat + p.healthTime.toNat < 2 ^ 64)
    (hgood : (isGood g p x (after g p St.init xs)).2 = true) :
    3 ≤ x.msg.fix ∧ (p.mask.testBit 0 = true → p.reqNsats ≤ x.msg.nsats) ∧ (p.mask.testBit 1 = true → x.msg.pdop ≤ p.reqPdop) ∧
    (p.mask.testBit 2 = true → x.msg.eph ≤ p.reqHacc) ∧ (p.mask.testBit 3 = true → x.msg.epv ≤ p.reqVacc) ∧
    (p.mask.testBit 4 = true → x.msg.sacc ≤ p.reqSacc) := by
  have hnf : ¬ Spec.Failed p (isGood g p x (after g p St.init xs)).1.fail := by
    intro h
    rw [fail_immediate g p x _ hov h] at hgood
    exact absurd hgood (by simp)
  obtain ⟨f1, f2, f3, f4, f5, f6, -⟩ := check_flags g p x (after g p St.init xs)
  unfold Spec.Failed at hnf
  rw [f1, f2, f3, f4, f5, f6] at hnf
  push Not at hnf
  obtain ⟨a, b, c, d, e, f, -⟩ := hnf
  refine ⟨a, fun h => ?_, fun h => ?_, fun h => ?_, fun h => ?_, fun h => ?_⟩
  · exact not_lt.mp (fun hh => b hh h)
  · exact not_lt.mp (fun hh => c hh h)
  · exact not_lt.mp (fun hh => d hh h)
  · exact not_lt.mp (fun hh => e hh h)
  · exact not_lt.mp (fun hh => f hh h)

/-! ## C96: the drift filters -/

theorem dt_range (a b : UInt64) : 1 / 1000 ≤ dtOf a b ∧ dtOf a b ≤ 10 := ⟨constrain_ge (by norm_num), constrain_le (by norm_num)⟩

theorem coef_range (a b : UInt64) : 0 < dtOf a b / 10 ∧ dtOf a b / 10 ≤ 1 := by
  obtain ⟨h1, h2⟩ := dt_range a b
  constructor <;> linarith

theorem lim10_abs {l : ℝ} (hl : 0 ≤ l) (v : ℝ) : |lim10 v l| ≤ 10 * l := by
  unfold lim10
  rw [abs_le]
  exact ⟨by have := constrain_ge (v := v) (lo := -10 * l) (hi := 10 * l) (by linarith); linarith, constrain_le (by linarith)⟩

theorem mix_abs {a b c B : ℝ} (hc0 : 0 ≤ c) (hc1 : c ≤ 1) (ha : |a| ≤ B) (hb : |b| ≤ B) : |a * c + b * (1 - c)| ≤ B := by
  rw [abs_le] at ha hb ⊢
  constructor <;> nlinarith

/-- filtered values stay within ten times the limits -/
def Spec.Bounded (p : Params) (s : St) : Prop :=
  |s.derN| ≤ 10 * p.reqHdrift ∧ |s.derE| ≤ 10 * p.reqHdrift ∧ |s.derD| ≤ 10 * p.reqVdrift ∧
  |s.velN| ≤ 10 * p.reqHdrift ∧ |s.velE| ≤ 10 * p.reqHdrift ∧ |s.velDdiff| ≤ 10 * p.reqVdrift

theorem isGood_filters (x : In) (s : St) :
    let r := (isGood g p x s).1
    let dt := dtOf x.now s.prevT
    r.velDdiff = lim10 (x.msg.velD - x.velD) p.reqVdrift * (dt / 10) + s.velDdiff * (1 - dt / 10) ∧
    r.prevPos = x.msg.pos ∧ r.prevT = x.now ∧ r.prevAlt = x.msg.altM ∧
    (¬ (x.inAir = false ∧ x.atRest = true) → r.derN = 0 ∧ r.derE = 0 ∧ r.derD = 0 ∧ r.velN = 0 ∧ r.velE = 0) ∧
    (x.inAir = false ∧ x.atRest = true →
      let d := if 0 < s.prevT.toNat then g.project s.prevPos x.msg.pos else (0, 0)
      let climb := if 0 < s.prevT.toNat then s.prevAlt - x.msg.altM else 0
      r.derN = lim10 (d.1 / dt) p.reqHdrift * (dt / 10) + s.derN * (1 - dt / 10) ∧
      r.derE = lim10 (d.2 / dt) p.reqHdrift * (dt / 10) + s.derE * (1 - dt / 10) ∧
      r.derD = lim10 (climb / dt) p.reqVdrift * (dt / 10) + s.derD * (1 - dt / 10) ∧
      r.velN = lim10 x.msg.velN p.reqHdrift * (dt / 10) + s.velN * (1 - dt / 10) ∧
      r.velE = lim10 x.msg.velE p.reqHdrift * (dt / 10) + s.velE * (1 - dt / 10)) := by
  intro r dt
  obtain ⟨-, -, r3, r4, r5, r6, r7, r8, r9, r10, r11⟩ := record_frame p x.now (pre g p x s)
  have hr : r = record p x.now (pre g p x s) := rfl
  rw [hr, r3, r4, r5, r6, r7, r8, r9, r10, r11]
  refine ⟨?_, rfl, rfl, rfl, ?_, ?_⟩
  · show lim10 _ _ * _ + (motion g p x _ _ _).velDdiff * _ = _
    rw [(motion_frame g p x _ _ _).2.2.1]; rfl
  · intro h
    have hc : ¬ (!x.inAir && x.atRest) = true := by simpa using h
    show (motion g p x _ _ _).derN = 0 ∧ (motion g p x _ _ _).derE = 0 ∧ (motion g p x _ _ _).derD = 0 ∧ (motion g p x _ _ _).velN = 0 ∧
      (motion g p x _ _ _).velE = 0
    unfold motion
    rw [if_neg hc]
    split_ifs <;> exact ⟨rfl, rfl, rfl, rfl, rfl⟩
  · rintro ⟨h1, h2⟩
    intro d climb
    have hcl : (if 0 < s.prevT.toNat then s.prevAlt else x.msg.altM) - x.msg.altM = climb := by
      show _ = if 0 < s.prevT.toNat then s.prevAlt - x.msg.altM else 0
      split_ifs <;> ring
    show (motion g p x _ _ _).derN = _ ∧ (motion g p x _ _ _).derE = _ ∧ (motion g p x _ _ _).derD = _ ∧ (motion g p x _ _ _).velN = _ ∧
      (motion g p x _ _ _).velE = _
    unfold motion
    rw [if_pos (by simp [h1, h2]), ← hcl]
    exact ⟨rfl, rfl, rfl, rfl, rfl⟩

/-- **C96 (bounded).** The drift filters never exceed ten times their limits. -/
theorem drift_bounded (hh : 0 ≤ p.reqHdrift) (hv : 0 ≤ p.reqVdrift) (xs : List In) : Spec.Bounded p (after g p St.init xs) := by
  have step : ∀ x s, Spec.Bounded p s → Spec.Bounded p (isGood g p x s).1 := by
    intro x s ⟨a1, a2, a3, a4, a5, a6⟩
    obtain ⟨f1, -, -, -, f5, f6⟩ := isGood_filters g p x s
    obtain ⟨c0, c1⟩ := coef_range x.now s.prevT
    by_cases hx : x.inAir = false ∧ x.atRest = true
    · obtain ⟨e1, e2, e3, e4, e5⟩ := f6 hx
      refine ⟨?_, ?_, ?_, ?_, ?_, ?_⟩
      · rw [e1]; exact mix_abs c0.le c1 (lim10_abs hh _) a1
      · rw [e2]; exact mix_abs c0.le c1 (lim10_abs hh _) a2
      · rw [e3]; exact mix_abs c0.le c1 (lim10_abs hv _) a3
      · rw [e4]; exact mix_abs c0.le c1 (lim10_abs hh _) a4
      · rw [e5]; exact mix_abs c0.le c1 (lim10_abs hh _) a5
      · rw [f1]; exact mix_abs c0.le c1 (lim10_abs hv _) a6
    · obtain ⟨e1, e2, e3, e4, e5⟩ := f5 hx
      have z1 : (0 : ℝ) ≤ 10 * p.reqHdrift := by linarith
      have z2 : (0 : ℝ) ≤ 10 * p.reqVdrift := by linarith
      refine ⟨?_, ?_, ?_, ?_, ?_, ?_⟩
      · rw [e1, abs_zero]; exact z1
      · rw [e2, abs_zero]; exact z1
      · rw [e3, abs_zero]; exact z2
      · rw [e4, abs_zero]; exact z1
      · rw [e5, abs_zero]; exact z1
      · rw [f1]; exact mix_abs c0.le c1 (lim10_abs hv _) a6
  have gen : ∀ s, Spec.Bounded p s → Spec.Bounded p (after g p s xs) := by
    induction xs with
    | nil => intro s h; exact h
    | cons x xs ih => intro s h; exact ih _ (step x s h)
  apply gen
  have z1 : (0 : ℝ) ≤ 10 * p.reqHdrift := by linarith
  have z2 : (0 : ℝ) ≤ 10 * p.reqVdrift := by linarith
  unfold Spec.Bounded St.init
  simp only [abs_zero]
  exact ⟨z1, z1, z2, z1, z1, z2⟩

/-- a history in which the vehicle is at rest and the reported position moves at a constant velocity `v` to the north, with
constant time step -/
def Spec.Steady (v dt : ℝ) (s : St) : List In → Prop
  | [] => True
  | x :: xs => (x.inAir = false ∧ x.atRest = true) ∧ 0 < s.prevT.toNat ∧ dtOf x.now s.prevT = dt ∧ g.project s.prevPos x.msg.pos = (v * dt, 0) ∧
      Spec.Steady v dt (isGood g p x s).1 xs

/-- **C96 (steady drift).** With an apparent drift of constant velocity `v` (at most ten times the limit) the filtered drift after
`n` messages is `v (1 − (1 − dt/10)^n)`, and the horizontal drift check fails exactly if that exceeds the limit. -/
theorem steady_drift (v dt : ℝ) (hv : |v| ≤ 10 * p.reqHdrift) (s : St) (h0 : s.derN = 0 ∧ s.derE = 0) (xs : List In)
    (hs : Spec.Steady g p v dt s xs) :
    (after g p s xs).derN = v * (1 - (1 - dt / 10) ^ xs.length) ∧ (after g p s xs).derE = 0 ∧
    (xs ≠ [] → ((after g p s xs).fail.hdrift = true ↔ p.reqHdrift < |v * (1 - (1 - dt / 10) ^ xs.length)|)) := by
  have hv' := abs_le.mp hv
  have gen : ∀ (xs : List In) (k : ℕ) (s : St), s.derN = v * (1 - (1 - dt / 10) ^ k) → s.derE = 0 → Spec.Steady g p v dt s xs →
      (after g p s xs).derN = v * (1 - (1 - dt / 10) ^ (k + xs.length)) ∧ (after g p s xs).derE = 0 ∧
      (xs ≠ [] → ((after g p s xs).fail.hdrift = true ↔ p.reqHdrift < |v * (1 - (1 - dt / 10) ^ (k + xs.length))|)) := by
    intro xs
    induction xs with
    | nil => intro k s h1 h2 _; exact ⟨h1, h2, fun h => absurd rfl h⟩
    | cons x xs ih =>
      intro k s h1 h2 hst
      obtain ⟨hr, hT, hdt, hp, hrest⟩ := hst
      obtain ⟨-, -, -, -, -, f6⟩ := isGood_filters g p x s
      obtain ⟨e1, e2, -⟩ := f6 hr
      have hdpos : 0 < dt := by have := (dt_range x.now s.prevT).1; rw [hdt] at this; linarith
      rw [if_pos hT, hp, hdt] at e1 e2
      have hlim1 : lim10 ((v * dt, (0 : ℝ)).1 / dt) p.reqHdrift = v := by
        show lim10 (v * dt / dt) p.reqHdrift = v
        rw [mul_div_assoc, div_self hdpos.ne', mul_one]
        exact constrain_of_mem (by linarith) (by linarith)
      have hlim2 : lim10 ((v * dt, (0 : ℝ)).2 / dt) p.reqHdrift = 0 := by
        show lim10 (0 / dt) p.reqHdrift = 0
        rw [zero_div]
        exact constrain_of_mem (by linarith) (by linarith)
      rw [hlim1, h1] at e1
      rw [hlim2, h2] at e2
      have e1' : (isGood g p x s).1.derN = v * (1 - (1 - dt / 10) ^ (k + 1)) := by rw [e1]; ring
      have e2' : (isGood g p x s).1.derE = 0 := by rw [e2]; ring
      have hlen : k + (x :: xs).length = k + 1 + xs.length := by simp; omega
      obtain ⟨r1, r2, r3⟩ := ih (k + 1) _ e1' e2' hrest
      rw [hlen]
      refine ⟨r1, r2, fun _ => ?_⟩
      by_cases hxs : xs = []
      · subst hxs
        show (isGood g p x s).1.fail.hdrift = true ↔ _
        rw [((check_flags g p x s).2.2.2.2.2.2.2.2.2 hr.1 hr.2).1, e1', e2']
        simp only [List.length_nil, Nat.add_zero]
        rw [show (v * (1 - (1 - dt / 10) ^ (k + 1))) ^ 2 + 0 ^ 2 = (v * (1 - (1 - dt / 10) ^ (k + 1))) ^ 2 by ring, Real.sqrt_sq_eq_abs]
      · exact r3 hxs
  have := gen xs 0 s (by rw [h0.1]; ring) h0.2 hs
  simpa using this

/-- raw drift speeds of a message below the limits -/
def Spec.Quiet (s : St) : List In → Prop
  | [] => True
  | x :: xs =>
      (x.inAir = false ∧ x.atRest = true → 0 < s.prevT.toNat →
        Real.sqrt (((g.project s.prevPos x.msg.pos).1 / dtOf x.now s.prevT) ^ 2 + ((g.project s.prevPos x.msg.pos).2 / dtOf x.now s.prevT) ^ 2) ≤ p.reqHdrift) ∧
      Spec.Quiet (isGood g p x s).1 xs

theorem norm_mix {a b c d t B : ℝ} (h0 : 0 ≤ t) (h1 : t ≤ 1) (ha : a ^ 2 + b ^ 2 ≤ B ^ 2) (hc : c ^ 2 + d ^ 2 ≤ B ^ 2) :
    (a * t + c * (1 - t)) ^ 2 + (b * t + d * (1 - t)) ^ 2 ≤ B ^ 2 := by
  have hcs : a * c + b * d ≤ B ^ 2 := by nlinarith [sq_nonneg (a - c), sq_nonneg (b - d)]
  have e : (a * t + c * (1 - t)) ^ 2 + (b * t + d * (1 - t)) ^ 2 =
      t ^ 2 * (a ^ 2 + b ^ 2) + (1 - t) ^ 2 * (c ^ 2 + d ^ 2) + 2 * (t * (1 - t)) * (a * c + b * d) := by ring
  rw [e]
  have q1 := mul_le_mul_of_nonneg_left ha (sq_nonneg t)
  have q2 := mul_le_mul_of_nonneg_left hc (sq_nonneg (1 - t))
  have q3 := mul_le_mul_of_nonneg_left hcs (show 0 ≤ 2 * (t * (1 - t)) by nlinarith)
  nlinarith

/-- **C96 (no false alarm).** As long as the raw drift speed of every message received at rest is within the limit, the horizontal
drift check never fails. -/
theorem quiet_passes (hh : 0 ≤ p.reqHdrift) (xs : List In) (hq : Spec.Quiet g p St.init xs) :
    (after g p St.init xs).fail.hdrift = false := by
  have lim_id : ∀ a : ℝ, |a| ≤ p.reqHdrift → lim10 a p.reqHdrift = a := by
    intro a ha
    obtain ⟨h1, h2⟩ := abs_le.mp ha
    exact constrain_of_mem (by linarith) (by linarith)
  have gen : ∀ s : St, s.derN ^ 2 + s.derE ^ 2 ≤ p.reqHdrift ^ 2 → s.fail.hdrift = false → Spec.Quiet g p s xs → (after g p s xs).fail.hdrift = false := by
    clear hq
    induction xs with
    | nil => intro s _ h _; exact h
    | cons x xs ih =>
      intro s hn hf ⟨hq1, hq2⟩
      obtain ⟨-, -, -, -, f5, f6⟩ := isGood_filters g p x s
      obtain ⟨-, -, -, -, -, -, -, g1, g2, g3⟩ := check_flags g p x s
      have main : (isGood g p x s).1.derN ^ 2 + (isGood g p x s).1.derE ^ 2 ≤ p.reqHdrift ^ 2 := by
        by_cases hx : x.inAir = false ∧ x.atRest = true
        · obtain ⟨e1, e2, -⟩ := f6 hx
          obtain ⟨c0, c1⟩ := coef_range x.now s.prevT
          rw [e1, e2]
          apply norm_mix c0.le c1 _ hn
          by_cases hT : 0 < s.prevT.toNat
          · rw [if_pos hT]
            have hqq := hq1 hx hT
            rw [Real.sqrt_le_iff] at hqq
            obtain ⟨-, hq'⟩ := hqq
            generalize (g.project s.prevPos x.msg.pos).1 / dtOf x.now s.prevT = a at hq' ⊢
            generalize (g.project s.prevPos x.msg.pos).2 / dtOf x.now s.prevT = b at hq' ⊢
            rw [lim_id a (abs_le_of_sq_le_sq (by nlinarith [sq_nonneg b]) hh), lim_id b (abs_le_of_sq_le_sq (by nlinarith [sq_nonneg a]) hh)]
            exact hq'
          · rw [if_neg hT]
            simp only [zero_div]
            rw [lim_id 0 (by rw [abs_zero]; exact hh)]
            nlinarith [sq_nonneg p.reqHdrift]
        · obtain ⟨e1, e2, -⟩ := f5 hx
          rw [e1, e2]; nlinarith [sq_nonneg p.reqHdrift]
      refine ih _ main ?_ hq2
      cases ha : x.inAir
      · cases hr : x.atRest
        · rw [(g2 ha hr).1]; exact hf
        · rw [← Bool.not_eq_true, (g3 ha hr).1, not_lt, Real.sqrt_le_iff]
          exact ⟨hh, main⟩
      · exact (g1 ha).1
  refine gen St.init ?_ rfl hq
  show (0 : ℝ) ^ 2 + 0 ^ 2 ≤ _
  nlinarith [sq_nonneg p.reqHdrift]

/-- **C96 (error norm).** The reported GPS error norm is at most one exactly if all three accuracies meet their requirements. -/
theorem error_norm (x : In) (s : St) (h1 : 0 < p.reqHacc) (h2 : 0 < p.reqVacc) (h3 : 0 < p.reqSacc) :
    (isGood g p x s).1.errNorm ≤ 1 ↔ x.msg.eph ≤ p.reqHacc ∧ x.msg.epv ≤ p.reqVacc ∧ x.msg.sacc ≤ p.reqSacc := by
  have e : (isGood g p x s).1.errNorm = max (max (x.msg.eph / p.reqHacc) (x.msg.epv / p.reqVacc)) (x.msg.sacc / p.reqSacc) := by
    rw [isGood_fst, (record_frame p x.now _).2.1]
    exact (motion_frame g p x _ _ _).2.1
  rw [e, max_le_iff, max_le_iff, div_le_one h1, div_le_one h2, div_le_one h3, and_assoc]

/-! ## Non-vacuity -/

/-- flat earth geo library -/
noncomputable def exGeo : GeoLib where
  project a b := ((b.1 - a.1) * 111000, (b.2 - a.2) * 111000)
  reproject a b := (a.1 + b.1 / 111000, a.2 + b.2 / 111000)
  declination _ := 0
  inclination _ := 1
  strength _ := 1 / 2
  earthRate _ := (0, 0, 0)

noncomputable def exParams : Params where
  mask := 511
  reqNsats := 6
  reqPdop := 5 / 2
  reqHacc := 5
  reqVacc := 8
  reqSacc := 1
  reqHdrift := 3 / 10
  reqVdrift := 1 / 2
  healthTime := 10000000

/-- a good message at rest, time in units of 100 ms -/
noncomputable def exIn (t : UInt64) : In where
  msg := { lat := 470000000, lon := 80000000, alt := 400000, fix := 3, nsats := 10, eph := 1, epv := 2, sacc := 1 / 2, pdop := 1, velN := 0, velE := 0, velD := 0 }
  now := t
  inAir := false
  atRest := true
  velD := 0

theorem exIn_ok (t : UInt64) (s : St) (h : s.derN = 0 ∧ s.derE = 0 ∧ s.derD = 0 ∧ s.velN = 0 ∧ s.velE = 0 ∧ s.velDdiff = 0)
    (hp : 0 < s.prevT.toNat → s.prevPos = (exIn 0).msg.pos ∧ s.prevAlt = 400) :
    let r := (isGood exGeo exParams (exIn t) s).1
    (r.derN = 0 ∧ r.derE = 0 ∧ r.derD = 0 ∧ r.velN = 0 ∧ r.velE = 0 ∧ r.velDdiff = 0) ∧ r.prevPos = (exIn 0).msg.pos ∧ r.prevAlt = 400 ∧
    ¬ Spec.Failed exParams r.fail := by
  intro r
  obtain ⟨h1, h2, h3, h4, h5, h6⟩ := h
  obtain ⟨f1, f2, f3, f4, -, f6⟩ := isGood_filters exGeo exParams (exIn t) s
  obtain ⟨e1, e2, e3, e4, e5⟩ := f6 ⟨rfl, rfl⟩
  have hl : ∀ l : ℝ, 0 ≤ l → lim10 0 l = 0 := fun l hl => constrain_of_mem (by linarith) (by linarith)
  have hd : (if 0 < s.prevT.toNat then exGeo.project s.prevPos (exIn t).msg.pos else (0, 0)) = ((0 : ℝ), (0 : ℝ)) := by
    split_ifs with hT
    · rw [(hp hT).1]; simp [exGeo, exIn]
    · rfl
  have hc : (if 0 < s.prevT.toNat then s.prevAlt - (exIn t).msg.altM else 0) = (0 : ℝ) := by
    split_ifs with hT
    · rw [(hp hT).2]; simp [exIn, Msg.altM]; norm_num
    · rfl
  have hh : (0 : ℝ) ≤ exParams.reqHdrift := by show (0 : ℝ) ≤ 3 / 10; norm_num
  have hv : (0 : ℝ) ≤ exParams.reqVdrift := by show (0 : ℝ) ≤ 1 / 2; norm_num
  have hz : (exIn t).msg.velD - (exIn t).velD = 0 := by show (0 : ℝ) - 0 = 0; norm_num
  have hz1 : (exIn t).msg.velN = 0 := rfl
  have hz2 : (exIn t).msg.velE = 0 := rfl
  rw [hz, hl _ hv, h6] at f1
  rw [hd] at e1 e2
  simp only [zero_div] at e1 e2
  rw [hl _ hh, h1] at e1
  rw [hl _ hh, h2] at e2
  rw [hc, zero_div, hl _ hv, h3] at e3
  rw [hz1, hl _ hh, h4] at e4
  rw [hz2, hl _ hh, h5] at e5
  simp only [zero_mul, add_zero] at f1 e1 e2 e3 e4 e5
  refine ⟨⟨e1, e2, e3, e4, e5, f1⟩, f2, by rw [f4]; simp [exIn, Msg.altM]; norm_num, ?_⟩
  obtain ⟨g1, g2, g3, g4, g5, g6, g7, -, -, g10⟩ := check_flags exGeo exParams (exIn t) s
  obtain ⟨k1, k2, k3⟩ := g10 rfl rfl
  unfold Spec.Failed
  rw [g1, g2, g3, g4, g5, g6, g7, k1, k2, k3, e1, e2, e3, e4, e5, f1]
  simp only [abs_zero, zero_pow (two_ne_zero), add_zero, Real.sqrt_zero]
  rintro (h | ⟨h, -⟩ | ⟨h, -⟩ | ⟨h, -⟩ | ⟨h, -⟩ | ⟨h, -⟩ | ⟨h, -⟩ | ⟨h, -⟩ | ⟨h, -⟩ | ⟨h, -⟩)
  · exact absurd h (show ¬ 3 < 3 by decide)
  · exact absurd h (show ¬ 10 < 6 by decide)
  · have : (5 : ℝ) / 2 < 1 := h
    norm_num at this
  · have : (5 : ℝ) < 1 := h
    norm_num at this
  · have : (8 : ℝ) < 2 := h
    norm_num at this
  · have : (1 : ℝ) < 1 / 2 := h
    norm_num at this
  · exact absurd hh (not_le.mpr h)
  · exact absurd hv (not_le.mpr h)
  · exact absurd hh (not_le.mpr h)
  · exact absurd hv (not_le.mpr h)

/-- Non-vacuity of `gps_good_iff`: two good messages, 10.000001 s apart, declare GPS good; 10 s apart they do not. -/
example : (isGood exGeo exParams (exIn 11000001) (after exGeo exParams St.init [exIn 1000000])).2 = true ∧
    (isGood exGeo exParams (exIn 11000000) (after exGeo exParams St.init [exIn 1000000])).2 = false := by
  have hA := exIn_ok 1000000 St.init ⟨rfl, rfl, rfl, rfl, rfl, rfl⟩ (fun h => absurd h (by decide))
  obtain ⟨a1, a2, a3, a4⟩ := hA
  have l1 : (after exGeo exParams St.init [exIn 1000000]).lastFail = 1000000 := by
    show (isGood exGeo exParams (exIn 1000000) St.init).1.lastFail = 1000000
    rw [isGood_lastFail, if_neg (fun h => a4 ((anyFail_iff _ _).mp h)), if_pos (show St.init.lastFail = 0 from rfl)]; rfl
  have gen : ∀ t, (isGood exGeo exParams (exIn t) (after exGeo exParams St.init [exIn 1000000])).2 = isTimedOut t 1000000 10000000 := by
    intro t
    obtain ⟨-, -, -, b4⟩ := exIn_ok t (after exGeo exParams St.init [exIn 1000000]) a1 (fun _ => ⟨a2, a3⟩)
    rw [isGood_result, isGood_lastFail, if_neg (fun h => b4 ((anyFail_iff _ _).mp h)), l1]; rfl
  rw [gen, gen]
  decide

/-- Non-vacuity of `steady_drift`: one step north of 1 m in 1 s gives a filtered drift of 0.1 m/s. -/
example : (after exGeo exParams { St.init with prevT := 1000000, prevPos := (47 - 1 / 111000, 8) } [exIn 2000000]).derN = 1 / 10 := by
  have hdt : dtOf 2000000 1000000 = 1 := by
    unfold dtOf
    rw [show ((2000000 : UInt64).toNat : ℝ) = 2000000 by norm_num [show (2000000 : UInt64).toNat = 2000000 from rfl],
      show ((1000000 : UInt64).toNat : ℝ) = 1000000 by norm_num [show (1000000 : UInt64).toNat = 1000000 from rfl],
      constrain_of_mem] <;> norm_num
  have h := (steady_drift exGeo exParams 1 1 (by rw [abs_one]; show (1 : ℝ) ≤ 10 * (3 / 10); norm_num)
    { St.init with prevT := 1000000, prevPos := (47 - 1 / 111000, 8) } ⟨rfl, rfl⟩ [exIn 2000000]
    ⟨⟨rfl, rfl⟩, by decide, hdt, by simp [exGeo, exIn, Msg.pos]; norm_num, trivial⟩).1
  rw [h]; simp

end Ecl.Gps
