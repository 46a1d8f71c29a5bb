import Verif.Interface.Model
import Verif.AlphaFilter.Props
import Mathlib.Data.List.Pairwise
import Mathlib.Tactic.FieldSimp
import Mathlib.Data.Rat.Defs

/-!
# Properties C16, C17, C18, C63, C64, C65 — rest detection, aiding sources, intervals, drag data, vibration
-/

namespace Ecl.Interface

/-! ### C16 -/

section rest
variable {K : Type*} [Field K] [LinearOrder K]

/-- Specification: a sample shows movement (or flight) -/
def Spec.Disturbed (scaler : K) (x : RestInput K) : Prop :=
  x.inAir = true ∨ scaler < x.gyroVibe * 40000 ∨ scaler < x.accelVibe * 210 ∨ (5 / 100) * scaler < x.rate

open Classical in
/-- the stored time is that of the latest disturbance (zero if there was none) -/
theorem restRun_last (scaler : K) (xs : List (RestInput K)) (last : UInt64)
    (hmono : (last :: xs.map RestInput.timeUs).Pairwise (· ≤ ·)) :
    let r := (restRun scaler last xs).1
    (r = last ∨ ∃ y ∈ xs, Spec.Disturbed scaler y ∧ r = y.timeUs) ∧
    (last ≤ r ∧ ∀ y ∈ xs, Spec.Disturbed scaler y → y.timeUs ≤ r) := by
  induction xs generalizing last with
  | nil => exact ⟨.inl rfl, UInt64.le_refl _, by simp⟩
  | cons x xs ih =>
    simp only [restRun]
    rw [List.map_cons, List.pairwise_cons] at hmono
    obtain ⟨h1, h2⟩ := hmono
    have hx : last ≤ x.timeUs := h1 _ (by simp)
    have h2' := List.pairwise_cons.mp h2
    have hstep : (restStep scaler last x).1 = if Spec.Disturbed scaler x then x.timeUs else last := by
      unfold restStep Spec.Disturbed
      cases hia : x.inAir <;> simp
    by_cases hd : Spec.Disturbed scaler x
    · rw [hstep, if_pos hd]
      obtain ⟨ha, hb, hc⟩ := ih x.timeUs h2
      refine ⟨.inr ?_, UInt64.le_trans hx hb, ?_⟩
      · rcases ha with ha | ⟨y, hy, hyd, hyr⟩
        · exact ⟨x, by simp, hd, ha⟩
        · exact ⟨y, by simp [hy], hyd, hyr⟩
      · intro y hy hyd
        rcases List.mem_cons.mp hy with rfl | hy
        · exact hb
        · exact hc y hy hyd
    · rw [hstep, if_neg hd]
      obtain ⟨ha, hb, hc⟩ := ih last (by
        rw [List.pairwise_cons]
        exact ⟨fun t ht => h1 t (by simp [ht]), h2'.2⟩)
      refine ⟨?_, hb, ?_⟩
      · rcases ha with ha | ⟨y, hy, hyd, hyr⟩
        · exact .inl ha
        · exact .inr ⟨y, by simp [hy], hyd, hyr⟩
      · intro y hy hyd
        rcases List.mem_cons.mp hy with rfl | hy
        · exact absurd hyd hd
        · exact hc y hy hyd

theorem restRun_append (scaler : K) (xs ys : List (RestInput K)) (last : UInt64) :
    (restRun scaler last (xs ++ ys)).2 =
      (restRun scaler last xs).2 ++ (restRun scaler (restRun scaler last xs).1 ys).2 := by
  induction xs generalizing last with
  | nil => rfl
  | cons x xs ih => simp only [List.cons_append, restRun, ih]

/-- **C16.** For every history of IMU samples with non-decreasing time stamps, the flag reported with the last
sample `x` is true iff the vehicle is on ground, more than one second has passed since time zero and every sample
of the history (including `x`) that showed movement or flight is more than one second old. -/
theorem atRest_iff (scaler : K) (xs : List (RestInput K)) (x : RestInput K)
    (hmono : ((xs ++ [x]).map RestInput.timeUs).Pairwise (· ≤ ·)) :
    (restRun scaler 0 (xs ++ [x])).2.getLast? = some true ↔
      x.inAir = false ∧ 1000000 < x.timeUs.toNat ∧
      ∀ y ∈ xs ++ [x], Spec.Disturbed scaler y → 1000000 < x.timeUs.toNat - y.timeUs.toNat := by
  have hm1 : (0 :: xs.map RestInput.timeUs).Pairwise (· ≤ ·) := by
    rw [List.pairwise_cons]
    refine ⟨fun t _ => by rw [u64_le_iff]; simp, ?_⟩
    rw [List.map_append] at hmono
    exact (List.pairwise_append.mp hmono).1
  have hle : ∀ y ∈ xs, y.timeUs ≤ x.timeUs := by
    intro y hy
    rw [List.map_append] at hmono
    exact (List.pairwise_append.mp hmono).2.2 _ (List.mem_map_of_mem hy) _ (by simp)
  obtain ⟨ha, _, hc⟩ := restRun_last scaler xs 0 hm1
  rw [restRun_append]
  generalize (restRun scaler 0 xs).1 = r at *
  simp only [restRun, List.getLast?_append, List.getLast?_singleton, Option.some_or, Option.some.injEq]
  have hrx : r ≤ x.timeUs := by
    rcases ha with rfl | ⟨y, hy, _, rfl⟩
    · rw [u64_le_iff]; simp
    · exact hle y hy
  have hsub := u64_sub_toNat_of_le hrx
  have h6 : (1000000 : UInt64).toNat = 1000000 := by decide
  unfold restStep
  cases hia : x.inAir
  · simp only [Bool.not_false, if_true]
    by_cases hd : Spec.Disturbed scaler x
    · have hd' := hd
      unfold Spec.Disturbed at hd'
      simp only [hia, Bool.false_eq_true, false_or] at hd'
      rw [if_pos hd']
      simp only [gt_iff_lt, decide_eq_true_eq, u64_lt_iff, UInt64.sub_self, h6, true_and]
      constructor
      · intro h; simp at h
      · intro ⟨_, h⟩; have := h x (by simp) hd; omega
    · have hd' := hd
      unfold Spec.Disturbed at hd'
      simp only [hia, Bool.false_eq_true, false_or] at hd'
      rw [if_neg hd']
      simp only [gt_iff_lt, decide_eq_true_eq, u64_lt_iff, h6, true_and, hsub]
      constructor
      · intro h
        refine ⟨by omega, fun y hy hyd => ?_⟩
        rcases List.mem_append.mp hy with hy | hy
        · have := hc y hy hyd; rw [u64_le_iff] at this; omega
        · rw [List.mem_singleton.mp hy] at hyd; exact absurd hyd hd
      · intro ⟨h1, h2⟩
        rcases ha with rfl | ⟨y, hy, hyd, rfl⟩
        · simpa using h1
        · exact h2 y (List.mem_append_left _ hy) hyd
  · simp

example : (restRun (1 : ℚ) 0 [⟨1000000, false, 1, 0, 0⟩, ⟨1500000, false, 0, 0, 0⟩, ⟨2000001, false, 0, 0, 0⟩]).2 =
    [false, false, true] := by decide +kernel

end rest

/-! ### C17 -/

/-- Specification: the five horizontal aiding sources -/
def Spec.sources (f : AidFlags) : List Bool := [f.gps, f.optFlow, f.evPos, f.evVel, f.fuseAspd && f.fuseBeta]

/-- **C17.** Horizontal aiding is active iff some source is active. -/
theorem aiding_active_iff (f : AidFlags) : f.active = true ↔ true ∈ Spec.sources f := by
  obtain ⟨a, b, c, d, e, g⟩ := f
  revert a b c d e g; decide

/-- **C17.** For each source `i`: it is reported as the only one iff it is active and no other is; another one is
reported iff some other source is active; the two reports exclude each other. -/
theorem only_source_iff (f : AidFlags) (i : Fin 5) (flag : Bool) (h : (Spec.sources f)[i.val]? = some flag) :
    (f.isOnly flag = true ↔ flag = true ∧ ∀ j : Fin 5, j ≠ i → (Spec.sources f)[j.val]? = some false) ∧
    (f.isOther flag = true ↔ ∃ j : Fin 5, j ≠ i ∧ (Spec.sources f)[j.val]? = some true) ∧
    ¬ (f.isOnly flag = true ∧ f.isOther flag = true) := by
  obtain ⟨a, b, c, d, e, g⟩ := f
  revert i flag a b c d e g; decide +kernel

example : (⟨true, false, false, false, true, false⟩ : AidFlags).isOnly true = true := by decide

/-! ### C18 -/

section timing
variable {K : Type*} [Field K] [LinearOrder K] [IsStrictOrderedRing K]

/-- run of `setIMUData` calls -/
def imuAvgRun (s : UInt64 × K) (ts : List UInt64) : UInt64 × K := ts.foldl imuAvgStep s

theorem imuAvgStep_bounds (s : UInt64 × K) (t : UInt64) (h : 0 ≤ s.2 ∧ s.2 ≤ 2 / 100) :
    (0 ≤ (imuAvgStep s t).2 ∧ (imuAvgStep s t).2 ≤ 2 / 100) ∧
    (0 < t ∨ (1 / 50000) ≤ s.2 → (1 / 50000) ≤ (imuAvgStep s t).2) ∧
    ((1 / 10000) ≤ s.2 → (1 / 10000) ≤ (imuAvgStep s t).2) := by
  unfold imuAvgStep
  simp only
  have hlo : (1 : K) / 10000 ≤ 2 / 100 := by norm_num
  have h1 := constrain_ge (v := ((t - s.1).toNat : K) / 1000000) hlo
  have h2 := constrain_le (v := ((t - s.1).toNat : K) / 1000000) hlo
  generalize constrain (((t - s.1).toNat : K) / 1000000) (1 / 10000) (2 / 100) = d at *
  obtain ⟨a, b⟩ := h
  split
  · refine ⟨⟨by linarith, by linarith⟩, fun _ => by linarith, fun _ => by linarith⟩
  · next ht =>
    refine ⟨⟨a, b⟩, fun h => ?_, id⟩
    rcases h with h | h
    · exact absurd h ht
    · exact h

/-- **C18.** Whatever time stamps are supplied, the averaged IMU interval never leaves [0, 20 ms]; from the first
sample with a non-zero time stamp on it is at least 0.02 ms; and once it is at least 0.1 ms it stays so. -/
theorem imuAvg_bounds (ts : List UInt64) :
    (0 ≤ (imuAvgRun ((0 : UInt64), (0 : K)) ts).2 ∧ (imuAvgRun ((0 : UInt64), (0 : K)) ts).2 ≤ 2 / 100) ∧
    ((∃ t ∈ ts, 0 < t) → (1 / 50000) ≤ (imuAvgRun ((0 : UInt64), (0 : K)) ts).2) := by
  induction ts using List.reverseRecOn with
  | nil => refine ⟨⟨le_rfl, by simp only [imuAvgRun, List.foldl_nil]; norm_num⟩, by simp⟩
  | append_singleton ts t ih =>
    have e : imuAvgRun ((0 : UInt64), (0 : K)) (ts ++ [t]) = imuAvgStep (imuAvgRun (0, 0) ts) t := by
      unfold imuAvgRun; rw [List.foldl_append]; rfl
    rw [e]
    obtain ⟨h1, h2⟩ := ih
    obtain ⟨b1, b2, _⟩ := imuAvgStep_bounds (imuAvgRun ((0 : UInt64), (0 : K)) ts) t h1
    refine ⟨b1, fun ⟨u, hu, hu0⟩ => b2 ?_⟩
    rcases List.mem_append.mp hu with hu | hu
    · right; exact h2 ⟨u, hu, hu0⟩
    · left; rw [List.mem_singleton.mp hu] at hu0; exact hu0

theorem imuAvg_stays (s : UInt64 × K) (ts : List UInt64) (h : 1 / 10000 ≤ s.2 ∧ s.2 ≤ 2 / 100) :
    1 / 10000 ≤ (imuAvgRun s ts).2 ∧ (imuAvgRun s ts).2 ≤ 2 / 100 := by
  induction ts generalizing s with
  | nil => exact h
  | cons t ts ih =>
    have h0 : (0 : K) ≤ s.2 := le_trans (by norm_num) h.1
    obtain ⟨b1, _, b3⟩ := imuAvgStep_bounds s t ⟨h0, h.2⟩
    exact ih (imuAvgStep s t) ⟨b3 h.1, b1.2⟩

/-- one step moves the average a fifth of the way to the (limited) interval -/
theorem imuAvgStep_value (s : UInt64 × K) (t : UInt64) (ht : 0 < t) (hlo : s.1 ≤ t)
    (h1 : 100 ≤ t.toNat - s.1.toNat) (h2 : t.toNat - s.1.toNat ≤ 20000) :
    (imuAvgStep s t).2 = s.2 + (1 / 5) * (((t.toNat - s.1.toNat : ℕ) : K) / 1000000 - s.2) ∧ (imuAvgStep s t).1 = t := by
  unfold imuAvgStep
  simp only
  refine ⟨?_, by trivial⟩
  have c1 : (100 : K) ≤ ((t.toNat - s.1.toNat : ℕ) : K) := by exact_mod_cast h1
  have c2 : ((t.toNat - s.1.toNat : ℕ) : K) ≤ 20000 := by exact_mod_cast h2
  rw [if_pos ht, u64_sub_toNat_of_le hlo, constrain_of_mem]
  · ring
  · rw [div_le_div_iff₀ (by norm_num) (by norm_num)]; linarith
  · rw [div_le_div_iff₀ (by norm_num) (by norm_num)]; linarith

/-- **C18.** The average filter interval (initially 10 ms) always stays within [5 ms, 20 ms], whatever intervals
the prediction step sees; so no division by it is a division by zero. -/
theorem ekfAvg_bounds (inputs : List (K × K)) :
    (1 / 200) ≤ inputs.foldl (fun a i => ekfAvgStep a i.1 i.2) ((1 : K) / 100) ∧
    inputs.foldl (fun a i => ekfAvgStep a i.1 i.2) ((1 : K) / 100) ≤ 1 / 50 := by
  have key : ∀ (a : K), 1 / 200 ≤ a → a ≤ 1 / 50 → 1 / 200 ≤ inputs.foldl (fun a i => ekfAvgStep a i.1 i.2) a ∧
      inputs.foldl (fun a i => ekfAvgStep a i.1 i.2) a ≤ 1 / 50 := by
    induction inputs with
    | nil => intro a h1 h2; exact ⟨h1, h2⟩
    | cons i is ih =>
      intro a h1 h2
      have hlo : (1 : K) / 2 * (1 / 100) ≤ 2 * (1 / 100) := by norm_num
      have c1 := constrain_ge (v := 1 / 2 * (i.1 + i.2)) hlo
      have c2 := constrain_le (v := 1 / 2 * (i.1 + i.2)) hlo
      simp only [List.foldl_cons]
      apply ih
      · unfold ekfAvgStep; simp only; linarith
      · unfold ekfAvgStep; simp only; linarith
  apply key <;> norm_num

/-- the step is a first-order filter of weight 0.01 on the mean of the two intervals when these are regular -/
theorem ekfAvgStep_value (a dv da : K) (h1 : 1 / 100 ≤ dv + da) (h2 : dv + da ≤ 4 / 100) :
    ekfAvgStep a dv da = a + (1 / 100) * ((dv + da) / 2 - a) := by
  unfold ekfAvgStep; simp only
  rw [constrain_of_mem (by linarith) (by linarith)]; ring

example : (imuAvgRun ((0 : UInt64), (0 : ℚ)) [4000, 8000]).2 = 9 / 25 * (4 / 1000) := by decide +kernel

end timing

/-! ### C63: bias outputs -/

/-- a bias in delta-angle units of variance `P` corresponds to a rate bias of variance `P / dt²` (scaling a random
variable by `1/dt` scales its variance by `1/dt²`); the accessor returns `P / dt` instead: it agrees with the
variance of the published rate bias only for `P = 0` or `dt = 1 s`, i.e. never for the filter intervals of C18
with a positive variance. -/
theorem biasVar_is_not_variance (pii dt : ℚ) (hp : 0 < pii) (h1 : 1 / 200 ≤ dt) (h2 : dt ≤ 1 / 50) :
    biasVarOut pii dt ≠ pii / dt ^ 2 ∧ biasVarOut pii dt * 50 ≤ pii / dt ^ 2 := by
  unfold biasVarOut
  have hd : 0 < dt := by linarith
  constructor
  · intro h
    rw [div_eq_div_iff (by positivity) (by positivity)] at h
    have : dt = 1 := by
      have h3 : pii * dt * (dt - 1) = 0 := by ring_nf; ring_nf at h; linarith
      rcases mul_eq_zero.mp h3 with h3 | h3
      · exact absurd h3 (by positivity)
      · linarith
    linarith
  · rw [div_mul_eq_mul_div, div_le_div_iff₀ (by positivity) (by positivity)]
    have : 0 ≤ pii * dt * (1 - 50 * dt) := mul_nonneg (by positivity) (by linarith)
    nlinarith

/-- the published bias itself is the rate whose increment over the filter interval is the state -/
theorem biasOut_spec (b dt : ℚ) (h : dt ≠ 0) : biasOut b dt * dt = b := by
  unfold biasOut; field_simp

/-! ### C64: drag data -/

section drag
variable {K : Type*} [Field K]

/-- one IMU sample as seen by `setDragData` -/
structure DragIn (K : Type*) where
  t : UInt64
  dvx : K
  dvy : K
  dt : K

/-- run of `setDragData` -/
def dragRun (ratio : UInt8) : DragAcc K → List (DragIn K) → DragAcc K × List (UInt64 × K × K)
  | a, [] => (a, [])
  | a, x :: xs =>
    let r := a.add ratio x.t x.dvx x.dvy x.dt
    let r' := dragRun ratio r.1 xs
    (r'.1, r.2.toList ++ r'.2)

/-- Specification: mean specific force of a group: total velocity change over total time, mean time stamp -/
def Spec.dragMean (g : List (DragIn K)) : UInt64 × K × K :=
  (UInt64.ofNat ((g.map fun x => x.t.toNat).sum / g.length),
    (g.map DragIn.dvx).sum / (g.map DragIn.dt).sum, (g.map DragIn.dvy).sum / (g.map DragIn.dt).sum)

/-- accumulators hold the group `cur` -/
structure DragAcc.Holds (a : DragAcc K) (cur : List (DragIn K)) : Prop where
  count : a.count.toNat = cur.length
  x : a.x = (cur.map DragIn.dvx).sum
  y : a.y = (cur.map DragIn.dvy).sum
  tsum : a.tsum.toNat = (cur.map fun x => x.t.toNat).sum
  dt : a.dt = (cur.map DragIn.dt).sum

/-- group length: the buffer length ratio, but at least five -/
def Spec.groupLen (ratio : UInt8) : ℕ := max 5 ratio.toNat

theorem dragRun_group (ratio : UInt8) (ys xs : List (DragIn K)) (cur : List (DragIn K)) (a : DragAcc K)
    (h : a.Holds cur) (hlen : cur.length + ys.length = Spec.groupLen ratio) (hys : ys ≠ [])
    (hov : ((cur ++ ys).map fun x => x.t.toNat).sum < 2 ^ 64) :
    dragRun ratio a (ys ++ xs) =
      ((dragRun ratio ⟨0, 0, 0, 0, 0⟩ xs).1, Spec.dragMean (cur ++ ys) :: (dragRun ratio ⟨0, 0, 0, 0, 0⟩ xs).2) := by
  induction ys generalizing cur a with
  | nil => exact absurd rfl hys
  | cons y ys ih =>
    have hr : Spec.groupLen ratio < 256 := by
      have := ratio.toNat_lt; unfold Spec.groupLen; omega
    have heff : (if ratio < 5 then (5 : UInt8) else ratio).toNat = Spec.groupLen ratio := by
      unfold Spec.groupLen
      split
      · next h5 => rw [UInt8.lt_iff_toNat_lt] at h5; simp at h5 ⊢; omega
      · next h5 => rw [UInt8.lt_iff_toNat_lt] at h5; simp at h5 ⊢; omega
    simp only [List.length_cons] at hlen
    have hc : (a.count + 1).toNat = cur.length + 1 := by
      rw [UInt8.toNat_add, h.count]
      have : (1 : UInt8).toNat = 1 := rfl
      rw [this, Nat.mod_eq_of_lt]; omega
    have hov1 : (cur.map fun x => x.t.toNat).sum + y.t.toNat < 2 ^ 64 := by
      simp only [List.map_append, List.sum_append, List.map_cons, List.sum_cons] at hov
      omega
    have hh : (⟨a.count + 1, a.x + y.dvx, a.y + y.dvy, a.tsum + y.t, a.dt + y.dt⟩ : DragAcc K).Holds (cur ++ [y]) := by
      refine ⟨by simpa using hc, by simp [h.x], by simp [h.y], ?_, by simp [h.dt]⟩
      show (a.tsum + y.t).toNat = _
      rw [UInt64.toNat_add, h.tsum, Nat.mod_eq_of_lt hov1]; simp
    rw [List.cons_append]
    by_cases hne : ys = []
    · subst hne
      simp only [List.length_nil] at hlen
      simp only [dragRun, DragAcc.add]
      rw [if_pos (by rw [ge_iff_le, UInt8.le_iff_toNat_le, heff, hc]; omega)]
      simp only [Option.toList_some, List.nil_append, List.singleton_append]
      have hx := hh.x; have hy := hh.y; have ht := hh.tsum; have hd := hh.dt
      simp only at hx hy ht hd
      unfold Spec.dragMean
      rw [← hx, ← hy, ← hd, ← ht]
      have e : (a.tsum + y.t) / (a.count + 1).toUInt64 =
          UInt64.ofNat ((a.tsum + y.t).toNat / (cur ++ [y]).length) := by
        apply UInt64.toNat_inj.mp
        have hlt : (a.tsum + y.t).toNat / (cur ++ [y]).length < 2 ^ 64 :=
          lt_of_le_of_lt (Nat.div_le_self _ _) (UInt64.toNat_lt _)
        rw [UInt64.toNat_div, UInt8.toNat_toUInt64, hc, UInt64.toNat_ofNat_of_lt' hlt]; simp
      rw [e]
    · have := ih (cur ++ [y]) _ hh (by simp; omega) hne (by simpa using hov)
      simp only [dragRun, DragAcc.add]
      rw [if_neg (by
        rw [ge_iff_le, UInt8.le_iff_toNat_le, heff, hc]
        have : 0 < ys.length := List.length_pos_iff.mpr hne
        omega)]
      simp only [Option.toList_none, List.nil_append]
      rw [this]; simp

theorem dragRun_short (ratio : UInt8) (ys : List (DragIn K)) (cur : List (DragIn K)) (a : DragAcc K)
    (h : a.count.toNat = cur.length) (hlen : cur.length + ys.length < Spec.groupLen ratio) :
    (dragRun ratio a ys).2 = [] := by
  induction ys generalizing cur a with
  | nil => rfl
  | cons y ys ih =>
    have hr : Spec.groupLen ratio < 256 := by
      have := ratio.toNat_lt; unfold Spec.groupLen; omega
    have heff : (if ratio < 5 then (5 : UInt8) else ratio).toNat = Spec.groupLen ratio := by
      unfold Spec.groupLen
      split
      · next h5 => rw [UInt8.lt_iff_toNat_lt] at h5; simp at h5 ⊢; omega
      · next h5 => rw [UInt8.lt_iff_toNat_lt] at h5; simp at h5 ⊢; omega
    simp only [List.length_cons] at hlen
    have hc : (a.count + 1).toNat = cur.length + 1 := by
      rw [UInt8.toNat_add, h]
      have : (1 : UInt8).toNat = 1 := rfl
      rw [this, Nat.mod_eq_of_lt]; omega
    simp only [dragRun, DragAcc.add]
    rw [if_neg (by rw [ge_iff_le, UInt8.le_iff_toNat_le, heff, hc]; omega)]
    simp only [Option.toList_none, List.nil_append]
    exact ih (cur ++ [y]) _ (by simpa using hc) (by simp; omega)

/-- **C64.** The IMU data are cut into consecutive groups of `max 5 ratio` samples; for every finished group exactly
one drag sample is produced: total velocity change over total time, with the mean time stamp (as long as the 64-bit
sum of time stamps does not overflow); no sample is used twice or dropped. -/
theorem drag_groups (ratio : UInt8) (gs : List (List (DragIn K))) (rest : List (DragIn K))
    (hg : ∀ g ∈ gs, g.length = Spec.groupLen ratio) (hr : rest.length < Spec.groupLen ratio)
    (hov : ∀ g ∈ gs, (g.map fun x => x.t.toNat).sum < 2 ^ 64) :
    (dragRun ratio (⟨0, 0, 0, 0, 0⟩ : DragAcc K) (gs.flatten ++ rest)).2 = gs.map Spec.dragMean := by
  induction gs with
  | nil => exact dragRun_short ratio rest [] _ rfl (by simpa using hr)
  | cons g gs ih =>
    rw [List.flatten_cons, List.append_assoc, dragRun_group ratio g _ [] _ ⟨rfl, rfl, rfl, rfl, rfl⟩
      (by simpa using hg g (by simp)) ?_ (by simpa using hov g (by simp))]
    · simp only [List.nil_append, List.map_cons]
      rw [ih (fun g h => hg g (List.mem_cons_of_mem _ h)) (fun g h => hov g (List.mem_cons_of_mem _ h))]
    · intro h0
      have := hg g (by simp)
      rw [h0] at this
      unfold Spec.groupLen at this
      simp at this
      omega

example : Spec.groupLen 2 = 5 := by decide
example : Spec.dragMean (K := ℚ) (List.replicate 5 ⟨1000, 1, 2, 1 / 100⟩) = (1000, 100, 200) := by
  unfold Spec.dragMean; ext
  · decide
  · simp [List.replicate]; norm_num
  · simp [List.replicate]; norm_num

end drag

/-! ### C65: vibration metrics -/

section vibe
variable {K V : Type*} [Field K] [LinearOrder K] [IsStrictOrderedRing K] [AddCommGroup V]

/-- run over IMU samples (delta angle, delta velocity) -/
def vibeRun (norm : V → K) (cross : V → V → V) (s : Vibe K V) (xs : List (V × V)) : Vibe K V :=
  xs.foldl (fun s x => s.step norm cross x.1 x.2) s

/-- Specification: differences of consecutive elements, starting from `p` -/
def Spec.diffs (p : V) : List V → List V
  | [] => []
  | x :: xs => (x - p) :: diffs x xs

/-- Specification: cross products with the predecessor, starting from `p` -/
def Spec.crosses (cross : V → V → V) (p : V) : List V → List V
  | [] => []
  | x :: xs => cross x p :: crosses cross x xs

/-- **C65.** The three metrics are first-order low-pass filters of weight 0.01 (in the sense of C04) of: the norm of
the cross product of consecutive delta angles, the norm of the change of the delta angle, and the norm of the change
of the delta velocity. -/
theorem vibe_is_lowpass (norm : V → K) (cross : V → V → V) (s : Vibe K V) (xs : List (V × V)) :
    let r := vibeRun norm cross s xs
    r.coning = ((⟨1 / 100, s.coning⟩ : AlphaFilter.Filter K K).updates
      ((Spec.crosses cross s.prevAng (xs.map Prod.fst)).map norm)).state ∧
    r.gyro = ((⟨1 / 100, s.gyro⟩ : AlphaFilter.Filter K K).updates
      ((Spec.diffs s.prevAng (xs.map Prod.fst)).map norm)).state ∧
    r.accel = ((⟨1 / 100, s.accel⟩ : AlphaFilter.Filter K K).updates
      ((Spec.diffs s.prevVel (xs.map Prod.snd)).map norm)).state := by
  induction xs generalizing s with
  | nil => exact ⟨rfl, rfl, rfl⟩
  | cons x xs ih =>
    have e : ∀ (c v : K), (⟨1 / 100, c⟩ : AlphaFilter.Filter K K).update v =
        ⟨1 / 100, (99 / 100) * c + (1 / 100) * v⟩ := by
      intro c v
      unfold AlphaFilter.Filter.update
      simp only [smul_eq_mul]
      congr 2; norm_num
    obtain ⟨h1, h2, h3⟩ := ih (s.step norm cross x.1 x.2)
    simp only [vibeRun, List.foldl_cons, List.map_cons, Spec.crosses, Spec.diffs]
    unfold AlphaFilter.Filter.updates at *
    simp only [List.foldl_cons, e]
    exact ⟨h1, h2, h3⟩

/-- **C65.** With a norm bounded by `M` on every change, starting from zero the metrics stay within [0, M]. -/
theorem vibe_bounded (norm : V → K) (cross : V → V → V) (s : Vibe K V) (xs : List (V × V)) (M : K)
    (hs : 0 ≤ s.gyro ∧ s.gyro ≤ M) (hn : ∀ v ∈ Spec.diffs s.prevAng (xs.map Prod.fst), 0 ≤ norm v ∧ norm v ≤ M) :
    0 ≤ (vibeRun norm cross s xs).gyro ∧ (vibeRun norm cross s xs).gyro ≤ M := by
  rw [(vibe_is_lowpass norm cross s xs).2.1]
  refine AlphaFilter.updates_in_hull _ (by norm_num) (by norm_num) 0 M _ hs ?_
  intro u hu
  obtain ⟨v, hv, rfl⟩ := List.mem_map.mp hu
  exact hn v hv

example : (vibeRun (V := ℚ) (K := ℚ) abs (fun _ _ => 0) ⟨0, 0, 0, 0, 0⟩ [(1, 0), (-1, 0)]).gyro = 299 / 10000 := by
  norm_num [vibeRun, Vibe.step, abs]

end vibe

end Ecl.Interface
