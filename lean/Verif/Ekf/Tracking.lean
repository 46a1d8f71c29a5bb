import Verif.Ekf.OutputProps
import Mathlib.Analysis.SpecificLimits.Basic

/-!
# Property C147 — the published output converges to the delayed EKF estimate

`calculateOutputStates` (EKF/ekf.cpp:321-466) shifts its whole history at every EKF update, so the correction loop has no
delay; with the integral term (:456-461) it is a second-order loop.  Here the loop is closed over whole histories: the
tracking error obeys an exact recursion, decays geometrically for every time constant, is bounded in terms of the
mismatch between what the EKF and the output integrated over the same interval, and a constant mismatch leaves no error.
-/

noncomputable section

namespace Ecl.Ekf

open Ecl.ImuDownSampler (ImuSample AxisAngleLib normalize)
open Ecl.RingBuffer

/-! ### The loop as arithmetic -/

/-- numerical constants of `pi_loop` -/
theorem pi_scale (g r h L E E0 S W : ℝ) (h0 : 0 < g) (h1 : g ≤ 1) (hh : h = g ^ 2 / 10) (hr : 77 / 100 ≤ r) (hL : 0 ≤ L)
    (hmain : g * r * E ≤ L * ((g + h) * E0 + 2 * h * S) + 2 * W) (hE : 0 ≤ E) (hE0 : 0 ≤ E0) (hS : 0 ≤ S) (hW : 0 ≤ W) :
    E ≤ L * (143 / 100 * E0 + 26 / 100 * g * S) + 26 / 10 * W / g := by
  have h77 : 77 / 100 * g * E ≤ g * r * E := by
    apply mul_le_mul_of_nonneg_right _ hE
    have := mul_le_mul_of_nonneg_left hr h0.le
    linarith
  have e2 : (g + h) * E0 + 2 * h * S ≤ 77 / 100 * (143 / 100) * g * E0 + 77 / 100 * (26 / 100) * g ^ 2 * S := by
    have a1 : g + h ≤ 77 / 100 * (143 / 100) * g := by rw [hh]; nlinarith
    have a2 : 2 * h ≤ 77 / 100 * (26 / 100) * g ^ 2 := by rw [hh]; nlinarith
    have := mul_le_mul_of_nonneg_right a1 hE0
    have := mul_le_mul_of_nonneg_right a2 hS
    linarith
  have e3 := mul_le_mul_of_nonneg_left e2 hL
  have e4 : 77 / 100 * g * (L * (143 / 100 * E0 + 26 / 100 * g * S) + 26 / 10 * W / g) =
      L * (77 / 100 * (143 / 100) * g * E0 + 77 / 100 * (26 / 100) * g ^ 2 * S) + 77 / 100 * (26 / 10) * W := by
    have : 26 / 10 * W / g * g = 26 / 10 * W := by field_simp
    linear_combination 77 / 100 * this
  have hfin : 77 / 100 * g * E ≤ 77 / 100 * g * (L * (143 / 100 * E0 + 26 / 100 * g * S) + 26 / 10 * W / g) := by
    rw [e4]; linarith
  exact le_of_mul_le_mul_left hfin (by positivity)

set_option maxHeartbeats 1000000 in
/-- error `e` and integral `s` (before the step) of a proportional-integral loop with gain `g`: the corrections remove
`g * e + g^2 / 10 * (s + e)`, and `w` enters from outside -/
theorem pi_loop (g : ℝ) (h0 : 0 < g) (h1 : g ≤ 1) (e s w : ℕ → ℝ) (wb W : ℝ)
    (he : ∀ k, e (k + 1) = e k - (g * e k + g ^ 2 / 10 * s (k + 1)) + w k) (hs : ∀ k, s (k + 1) = s k + e k)
    (hw : ∀ k, |w k - wb| ≤ W) (k : ℕ) :
    |e k| ≤ (1 - g / 10) ^ k * (143 / 100 * |e 0| + 26 / 100 * g * |s 0 - 10 * wb / g ^ 2|) + 26 / 10 * W / g := by
  have hW : 0 ≤ W := (abs_nonneg _).trans (hw 0)
  -- the discriminant
  set r := Real.sqrt ((1 + g / 10) ^ 2 - 2 / 5) with hr
  have hr2 : r ^ 2 = (1 + g / 10) ^ 2 - 2 / 5 := by
    rw [hr]; exact Real.sq_sqrt (by nlinarith)
  have hr0 : 0 ≤ r := Real.sqrt_nonneg _
  have hrlo : 77 / 100 < r := by
    by_contra hc; push Not at hc; nlinarith
  have hrhi : r ≤ 9 / 10 := by
    by_contra hc; push Not at hc
    have : r ^ 2 > (9 / 10) ^ 2 := by nlinarith
    nlinarith
  set cp := g * (1 + g / 10 + r) / 2 with hcp
  set cm := g * (1 + g / 10 - r) / 2 with hcm
  set h := g ^ 2 / 10 with hh
  have hsum : cp + cm = g + h := by rw [hcp, hcm, hh]; ring
  have hprod : cp * cm = h := by
    have : cp * cm = g ^ 2 * ((1 + g / 10) ^ 2 - r ^ 2) / 4 := by rw [hcp, hcm]; ring
    rw [this, hr2, hh]; ring
  have hdiff : cp - cm = g * r := by rw [hcp, hcm]; ring
  have hcpg : cp ≤ g := by rw [hcp]; nlinarith
  have hcp0 : 0 < cp := by rw [hcp]; positivity
  have hcm1 : g / 10 ≤ cm := by
    have : g * (g / 10) ≤ g * cm := by
      calc g * (g / 10) = cp * cm := by rw [hprod, hh]; ring
        _ ≤ g * cm := by
          apply mul_le_mul_of_nonneg_right hcpg
          rw [hcm]; apply div_nonneg _ (by norm_num); apply mul_nonneg h0.le; linarith
    exact le_of_mul_le_mul_left this h0
  have hcm0 : 0 < cm := lt_of_lt_of_le (by positivity) hcm1
  have hcmcp : cm ≤ cp := by
    have : 0 ≤ g * r := by positivity
    linarith
  -- the two decoupled modes
  have hmode : ∀ c d : ℝ, c + d = g + h → c * d = h → 0 < d → d ≤ 1 → ∀ k,
      |e k + c * (s k - 10 * wb / g ^ 2)| ≤ (1 - d) ^ k * |e 0 + c * (s 0 - 10 * wb / g ^ 2)| + W / d := by
    intro c d hc1 hc2 hd0 hd1 k
    induction k with
    | zero => simp; positivity
    | succ k ih =>
      have hwb : h * (10 * wb / g ^ 2) = wb := by rw [hh]; field_simp
      have hstep : e (k + 1) + c * (s (k + 1) - 10 * wb / g ^ 2) =
          (1 - d) * (e k + c * (s k - 10 * wb / g ^ 2)) + (w k - wb) := by
        rw [he k, hs k]
        have e1 : d = g + h - c := by linarith
        have e2 : c * (g + h - c) = h := by rw [← e1]; exact hc2
        rw [e1]
        linear_combination (s k - 10 * wb / g ^ 2) * e2 - hwb
      rw [hstep]
      calc |(1 - d) * (e k + c * (s k - 10 * wb / g ^ 2)) + (w k - wb)|
          ≤ |(1 - d) * (e k + c * (s k - 10 * wb / g ^ 2))| + |w k - wb| := abs_add_le _ _
        _ ≤ (1 - d) * |e k + c * (s k - 10 * wb / g ^ 2)| + W := by
          rw [abs_mul, abs_of_nonneg (by linarith : (0:ℝ) ≤ 1 - d)]
          linarith [hw k]
        _ ≤ (1 - d) * ((1 - d) ^ k * |e 0 + c * (s 0 - 10 * wb / g ^ 2)| + W / d) + W := by
          have := mul_le_mul_of_nonneg_left ih (by linarith : (0:ℝ) ≤ 1 - d)
          linarith
        _ = _ := by rw [pow_succ]; field_simp; ring
  have mp := hmode cp cm hsum hprod hcm0 (by linarith) k
  have mm := hmode cm cp (by linarith) (by rw [mul_comm]; exact hprod) hcp0 (by linarith) k
  -- back to the error
  set S := s 0 - 10 * wb / g ^ 2 with hS
  set T := s k - 10 * wb / g ^ 2 with hT
  have hl1 : (1 - cp) ^ k ≤ (1 - g / 10) ^ k := pow_le_pow_left₀ (by linarith) (by linarith) k
  have hl2 : (1 - cm) ^ k ≤ (1 - g / 10) ^ k := pow_le_pow_left₀ (by linarith) (by linarith) k
  have hL0 : 0 ≤ (1 - g / 10) ^ k := pow_nonneg (by linarith) k
  have hek : g * r * e k = cp * (e k + cm * T) - cm * (e k + cp * T) := by rw [← hdiff]; ring
  have hb1 : |e 0 + cp * S| ≤ |e 0| + cp * |S| := by
    refine (abs_add_le _ _).trans ?_; rw [abs_mul, abs_of_pos hcp0]
  have hb2 : |e 0 + cm * S| ≤ |e 0| + cm * |S| := by
    refine (abs_add_le _ _).trans ?_; rw [abs_mul, abs_of_pos hcm0]
  have hmain : g * r * |e k| ≤ (1 - g / 10) ^ k * ((g + h) * |e 0| + 2 * h * |S|) + 2 * W := by
    have hgr : 0 ≤ g * r := by positivity
    rw [← abs_of_nonneg hgr, ← abs_mul, hek]
    have hA : |e k + cm * T| ≤ (1 - g / 10) ^ k * (|e 0| + cm * |S|) + W / cp := by
      refine mm.trans ?_
      have := mul_le_mul hl1 hb2 (abs_nonneg _) hL0
      linarith
    have hB : |e k + cp * T| ≤ (1 - g / 10) ^ k * (|e 0| + cp * |S|) + W / cm := by
      refine mp.trans ?_
      have := mul_le_mul hl2 hb1 (abs_nonneg _) hL0
      linarith
    calc |cp * (e k + cm * T) - cm * (e k + cp * T)|
        ≤ cp * |e k + cm * T| + cm * |e k + cp * T| := by
          refine (abs_sub _ _).trans ?_
          rw [abs_mul, abs_mul, abs_of_pos hcp0, abs_of_pos hcm0]
      _ ≤ cp * ((1 - g / 10) ^ k * (|e 0| + cm * |S|) + W / cp) +
          cm * ((1 - g / 10) ^ k * (|e 0| + cp * |S|) + W / cm) := by
          have := mul_le_mul_of_nonneg_left hA hcp0.le
          have := mul_le_mul_of_nonneg_left hB hcm0.le
          linarith
      _ = (1 - g / 10) ^ k * ((cp + cm) * |e 0| + 2 * (cp * cm) * |S|) + 2 * W := by field_simp; ring
      _ = _ := by rw [hsum, hprod]
  exact pi_scale g r h _ _ _ _ _ h0 h1 hh hrlo.le hL0 hmain (abs_nonneg _) (abs_nonneg _) (abs_nonneg _) hW

/-! ### The output predictor between two EKF updates -/

/-- the calls of `Ekf::update` from one EKF update to the next: IMU samples without new filter data, then one with
(EKF/ekf.cpp:101-133, `_imu_updated`) -/
structure Cycle where
  mid : List (OutIn × ImuSample)
  last : OutIn × ImuSample

/-- `_imu_updated` is false for all calls but the last; the filter interval is positive and at most 10 s -/
structure Cycle.Regular (c : Cycle) : Prop where
  mid : ∀ x ∈ c.mid, x.1.imuUpdated = false
  last : c.last.1.imuUpdated = true
  pos : 0 < c.last.1.dtEkfAvg
  le : c.last.1.dtEkfAvg ≤ 10

/-- the calls of `calculateOutputStates` (EKF/ekf.cpp:130, 321-466) of one cycle -/
def Out.cycle (L : AxisAngleLib) (c : Cycle) (o : Out) : Except UB Out := do
  let o ← c.mid.foldlM (fun o x => o.calculate L x.1 x.2) o
  o.calculate L c.last.1 c.last.2

/-- the stored output number `m`, counted from the oldest -/
def Spec.stored (o : Out) (m : ℕ) : OutData ℝ :=
  match o.outBuf.live[m]? with
  | some s => s.data
  | none => ⟨⟨0, 0, 0, 0⟩, 0, 0⟩

/-- tracking error at an EKF update: EKF velocity minus the stored output of the same instant, which is the second
oldest before the update appends a new one -/
def Spec.velErr (o : Out) (c : Cycle) : V3 ℝ := fun j => c.last.1.state.vel j - (Spec.stored o 1).vel j

/-- the same for position -/
def Spec.posErr (o : Out) (c : Cycle) : V3 ℝ := fun j => c.last.1.state.pos j - (Spec.stored o 1).pos j

/-- what the output recorded between its two oldest stored states -/
def Spec.velRec (o : Out) : V3 ℝ := fun j => (Spec.stored o 1).vel j - (Spec.stored o 0).vel j

/-- the same for position -/
def Spec.posRec (o : Out) : V3 ℝ := fun j => (Spec.stored o 1).pos j - (Spec.stored o 0).pos j

theorem mid_frame (L : AxisAngleLib) (l : List (OutIn × ImuSample)) (h : ∀ x ∈ l, x.1.imuUpdated = false) (o : Out) :
    ∃ o', l.foldlM (fun o x => o.calculate L x.1 x.2) o = .ok o' ∧ o'.outBuf = o.outBuf ∧ o'.vertBuf = o.vertBuf ∧
      o'.velErrInteg = o.velErrInteg ∧ o'.posErrInteg = o.posErrInteg := by
  induction l generalizing o with
  | nil => exact ⟨o, rfl, rfl, rfl, rfl, rfl⟩
  | cons x l ih =>
    obtain ⟨o', h1, h2, h3, h4, h5⟩ := ih (fun y hy => h y (List.mem_cons_of_mem _ hy)) (o.ins L x.1 x.2)
    refine ⟨o', ?_, h2, h3, h4, h5⟩
    rw [List.foldlM_cons]
    have : o.calculate L x.1 x.2 = .ok (o.ins L x.1 x.2) := by
      unfold Out.calculate; simp [h x (by simp)]
    rw [this]; exact h1

/-- shift of one stored output -/
def Spec.shifted (dv dp : V3 ℝ) (s : Sample (OutData ℝ)) : Sample (OutData ℝ) :=
  ⟨s.time_us, s.data.quat, s.data.vel + dv, s.data.pos + dp⟩

/-- history full, both histories well formed, current output equal to the newest stored one (as left by
`alignOutputFilter`, see C67, and by every EKF update) -/
structure Out.Full (o : Out) (n : ℕ) : Prop where
  out : o.outBuf.Inv n
  vert : o.vertBuf.Inv n
  len : o.outBuf.live.length = n
  new : o.outBuf.live.getLast? = some o.outNew

theorem cycle_spec (L : AxisAngleLib) (c : Cycle) (hc : c.Regular) (o : Out) (n : ℕ) (hn : 2 ≤ n) (ho : o.Full n) :
    let gv := Spec.gain c.last.1.dtEkfAvg c.last.1.velTau
    let gp := Spec.gain c.last.1.dtEkfAvg c.last.1.posTau
    ∃ o' x, o.cycle L c = .ok o' ∧ o'.Full n ∧
      (∃ o1, c.mid.foldlM (fun o x => o.calculate L x.1 x.2) o = .ok o1 ∧ x = (o1.ins L c.last.1 c.last.2).outNew) ∧
      o'.velErrInteg = o.velErrInteg + Spec.velErr o c ∧ o'.posErrInteg = o.posErrInteg + Spec.posErr o c ∧
      o'.outBuf.live = (o.outBuf.live.tail ++ [x]).map (Spec.shifted
        (fun j => gv * Spec.velErr o c j + gv ^ 2 / 10 * o'.velErrInteg j)
        (fun j => gp * Spec.posErr o c j + gp ^ 2 / 10 * o'.posErrInteg j)) ∧
      o'.trackErr 1 = norm3 (Spec.velErr o c) ∧ o'.trackErr 2 = norm3 (Spec.posErr o c) := by
  intro gv gp
  obtain ⟨o1, h1, hb, hv, hi, hp⟩ := mid_frame L c.mid hc.mid o
  have hob : o1.outBuf.Inv n := by rw [hb]; exact ho.out
  have hvb : o1.vertBuf.Inv n := by rw [hv]; exact ho.vert
  obtain ⟨o', od, vd, e, i1, i2, hod, hvd, hd⟩ := output_correct L c.last.1 c.last.2 o1 n hn hob hvb hc.last hc.pos hc.le
  have hpush : Spec.push n o1.outBuf.live (o1.ins L c.last.1 c.last.2).outNew =
      o.outBuf.live.tail ++ [(o1.ins L c.last.1 c.last.2).outNew] := by
    rw [hb]
    unfold Spec.push Spec.keepNewest
    rw [List.length_append, ho.len]
    simp only [List.length_singleton, Nat.add_sub_cancel_left]
    rw [List.drop_append_of_le_length (by rw [ho.len]; omega), List.drop_one]
  have hst : Spec.stored o 1 = od.data := by
    rw [hpush] at hod
    unfold Spec.stored
    have hl := ho.len
    match hL : o.outBuf.live, hl with
    | a :: b :: t, _ =>
      rw [hL] at hod
      simp at hod
      simp [hod]
    | [a], h => simp at h; omega
    | [], h => simp at h; omega
  have hve : (fun j => c.last.1.state.vel j - od.data.vel j) = Spec.velErr o c := by
    funext j; unfold Spec.velErr; rw [hst]
  have hpe : (fun j => c.last.1.state.pos j - od.data.pos j) = Spec.posErr o c := by
    funext j; unfold Spec.posErr; rw [hst]
  obtain ⟨d1, d2, d3, d4, _, _, _, d8, _⟩ := hd
  rw [hve] at d1 d8
  rw [hpe] at d2 d8
  have hvj : ∀ j, c.last.1.state.vel j - od.data.vel j = Spec.velErr o c j := fun j => congrFun hve j
  have hpj : ∀ j, c.last.1.state.pos j - od.data.pos j = Spec.posErr o c j := fun j => congrFun hpe j
  simp only [hvj, hpj] at d3 d4
  refine ⟨o', (o1.ins L c.last.1 c.last.2).outNew, ?_, ⟨i1, i2, ?_, ?_⟩, ⟨o1, h1, rfl⟩, by rw [d1, hi], by rw [d2, hp], ?_, ?_, ?_⟩
  · unfold Out.cycle; rw [h1]; exact e
  · rw [d3, hpush]; simp; rw [ho.len]; omega
  · rw [d3, hpush, d4]; simp
  · rw [d3, hpush]; rfl
  · rw [d8]; rfl
  · rw [d8]; rfl

theorem stored_shift (o o' : Out) (x : Sample (OutData ℝ)) (dv dp : V3 ℝ) (n : ℕ) (hn : o.outBuf.live.length = n)
    (h : o'.outBuf.live = (o.outBuf.live.tail ++ [x]).map (Spec.shifted dv dp)) (m : ℕ) (hm : m + 1 < n) :
    (Spec.stored o' m).vel = (Spec.stored o (m + 1)).vel + dv ∧ (Spec.stored o' m).pos = (Spec.stored o (m + 1)).pos + dp := by
  unfold Spec.stored
  rw [h, List.getElem?_map, List.getElem?_append_left (by rw [List.length_tail]; omega), List.getElem?_tail]
  have : m + 1 < o.outBuf.live.length := by omega
  rw [List.getElem?_eq_getElem this]
  exact ⟨rfl, rfl⟩

/-- **C147 (recorded increments).** What the output recorded between two stored states is never altered: after a cycle
every recorded increment is found unchanged one place further down, whatever corrections were made. -/
theorem recorded_unchanged (L : AxisAngleLib) (c : Cycle) (hc : c.Regular) (o o' : Out) (n : ℕ) (hn : 2 ≤ n)
    (ho : o.Full n) (h : o.cycle L c = .ok o') (m : ℕ) (hm : m + 2 < n) (j : Fin 3) :
    (Spec.stored o' (m + 1)).vel j - (Spec.stored o' m).vel j =
      (Spec.stored o (m + 2)).vel j - (Spec.stored o (m + 1)).vel j ∧
    (Spec.stored o' (m + 1)).pos j - (Spec.stored o' m).pos j =
      (Spec.stored o (m + 2)).pos j - (Spec.stored o (m + 1)).pos j := by
  obtain ⟨o2, x, h2, _, _, _, _, hl, _⟩ := cycle_spec L c hc o n hn ho
  rw [h] at h2; simp only [Except.ok.injEq] at h2; subst h2
  have a := stored_shift o o' x _ _ n ho.len hl m (by omega)
  have b := stored_shift o o' x _ _ n ho.len hl (m + 1) (by omega)
  rw [a.1, a.2, b.1, b.2]
  simp only [Pi.add_apply]
  constructor <;> ring

/-- **C147 (newest increment).** The increment a cycle adds to the record is what strap-down integration of that cycle's
IMU samples, starting from the current output, gave. -/
theorem recorded_newest (L : AxisAngleLib) (c : Cycle) (hc : c.Regular) (o o' : Out) (n : ℕ) (hn : 2 ≤ n)
    (ho : o.Full n) (h : o.cycle L c = .ok o') (j : Fin 3) :
    ∃ o1, c.mid.foldlM (fun o x => o.calculate L x.1 x.2) o = .ok o1 ∧
      (Spec.stored o' (n - 1)).vel j - (Spec.stored o' (n - 2)).vel j =
        (o1.ins L c.last.1 c.last.2).outNew.data.vel j - o.outNew.data.vel j ∧
      (Spec.stored o' (n - 1)).pos j - (Spec.stored o' (n - 2)).pos j =
        (o1.ins L c.last.1 c.last.2).outNew.data.pos j - o.outNew.data.pos j := by
  obtain ⟨o2, x, h2, hF, ⟨o1, h1, rfl⟩, _, _, hl, _⟩ := cycle_spec L c hc o n hn ho
  rw [h] at h2; simp only [Except.ok.injEq] at h2; subst h2
  generalize (fun j => Spec.gain c.last.1.dtEkfAvg c.last.1.velTau * Spec.velErr o c j +
    Spec.gain c.last.1.dtEkfAvg c.last.1.velTau ^ 2 / 10 * o'.velErrInteg j) = dv at hl
  generalize (fun j => Spec.gain c.last.1.dtEkfAvg c.last.1.posTau * Spec.posErr o c j +
    Spec.gain c.last.1.dtEkfAvg c.last.1.posTau ^ 2 / 10 * o'.posErrInteg j) = dp at hl
  have a := stored_shift o o' _ dv dp n ho.len hl (n - 2) (by omega)
  have hlast : Spec.stored o (n - 2 + 1) = o.outNew.data := by
    have := ho.new
    rw [List.getLast?_eq_getElem?, ho.len] at this
    unfold Spec.stored
    rw [show n - 2 + 1 = n - 1 by omega, this]
  have hnew : Spec.stored o' (n - 1) = (Spec.shifted dv dp (o1.ins L c.last.1 c.last.2).outNew).data := by
    unfold Spec.stored
    rw [hl, List.getElem?_map, List.getElem?_append_right (by rw [List.length_tail, ho.len]), List.length_tail, ho.len]
    simp
  refine ⟨o1, h1, ?_, ?_⟩
  · rw [hnew, a.1, hlast]; simp [Spec.shifted]
  · rw [hnew, a.2, hlast]; simp [Spec.shifted]

/-- **C147 (recursion, no delay).** For consecutive cycles the tracking error changes by the correction derived from
it and by the mismatch between the EKF's velocity change and the increment the output recorded over the same interval;
the length of the history does not enter.  The same holds for position. -/
theorem tracking_recursion (L : AxisAngleLib) (c d : Cycle) (hc : c.Regular) (o o' : Out) (n : ℕ)
    (hn : 2 ≤ n) (ho : o.Full n) (h : o.cycle L c = .ok o') (j : Fin 3) :
    o'.Full n ∧
    o'.velErrInteg j = o.velErrInteg j + Spec.velErr o c j ∧ o'.posErrInteg j = o.posErrInteg j + Spec.posErr o c j ∧
    Spec.velErr o' d j = Spec.velErr o c j -
      (Spec.gain c.last.1.dtEkfAvg c.last.1.velTau * Spec.velErr o c j +
        Spec.gain c.last.1.dtEkfAvg c.last.1.velTau ^ 2 / 10 * o'.velErrInteg j) +
      (d.last.1.state.vel j - c.last.1.state.vel j - Spec.velRec o' j) ∧
    Spec.posErr o' d j = Spec.posErr o c j -
      (Spec.gain c.last.1.dtEkfAvg c.last.1.posTau * Spec.posErr o c j +
        Spec.gain c.last.1.dtEkfAvg c.last.1.posTau ^ 2 / 10 * o'.posErrInteg j) +
      (d.last.1.state.pos j - c.last.1.state.pos j - Spec.posRec o' j) := by
  obtain ⟨o2, x, h2, hF, _, h3, h4, hl, _⟩ := cycle_spec L c hc o n hn ho
  rw [h] at h2; simp only [Except.ok.injEq] at h2; subst h2
  have a := stored_shift o o' x _ _ n ho.len hl 0 (by omega)
  refine ⟨hF, by rw [h3]; rfl, by rw [h4]; rfl, ?_, ?_⟩
  · have := congrFun a.1 j
    simp only [Pi.add_apply, zero_add] at this
    unfold Spec.velRec
    rw [this]
    show d.last.1.state.vel j - (Spec.stored o' 1).vel j = _
    unfold Spec.velErr; ring
  · have := congrFun a.2 j
    simp only [Pi.add_apply, zero_add] at this
    unfold Spec.posRec
    rw [this]
    show d.last.1.state.pos j - (Spec.stored o' 1).pos j = _
    unfold Spec.posErr; ring

/-! ### Whole histories -/

/-- the outputs after `k` cycles exist: no memory error, history stays full -/
theorem cycles_exist (L : AxisAngleLib) (c : ℕ → Cycle) (hc : ∀ k, (c k).Regular) (o0 : Out) (n : ℕ) (hn : 2 ≤ n)
    (ho : o0.Full n) :
    ∃ o : ℕ → Out, o 0 = o0 ∧ (∀ k, (o k).Full n) ∧ ∀ k, (o k).cycle L (c k) = .ok (o (k + 1)) := by
  have hstep : ∀ k (o : {o : Out // o.Full n}), ∃ o' : {o : Out // o.Full n}, o.1.cycle L (c k) = .ok o'.1 := by
    intro k o
    obtain ⟨o', x, h, hF, _⟩ := cycle_spec L (c k) (hc k) o.1 n hn o.2
    exact ⟨⟨o', hF⟩, h⟩
  choose f hf using hstep
  let seq : ℕ → {o : Out // o.Full n} := fun k => Nat.rec ⟨o0, ho⟩ (fun k o => f k o) k
  exact ⟨fun k => (seq k).1, rfl, fun k => (seq k).2, fun k => hf k (seq k)⟩

/-- **C147 (velocity).** For every history length of at least two, every time constant and every infinite sequence of
cycles with a constant filter interval: the predictor runs without memory error, and in each component the velocity
tracking error decays by the factor `1 - g/10` per filter step (`g = dt / tau`) down to 2.6 / g times the largest deviation of the mismatch
between EKF and recorded increments from any constant `wb`. In particular constant mismatch leaves no error. -/
theorem velocity_tracks (L : AxisAngleLib) (c : ℕ → Cycle) (hc : ∀ k, (c k).Regular) (o0 : Out) (n : ℕ) (hn : 2 ≤ n)
    (ho : o0.Full n) (dt tau : ℝ) (hdt : ∀ k, (c k).last.1.dtEkfAvg = dt) (htau : ∀ k, (c k).last.1.velTau = tau) :
    ∃ o : ℕ → Out, o 0 = o0 ∧ (∀ k, (o k).cycle L (c k) = .ok (o (k + 1))) ∧
      (∀ k, (o (k + 1)).trackErr 1 = norm3 (Spec.velErr (o k) (c k))) ∧
      ∀ (j : Fin 3) (wb W : ℝ),
        (∀ k, |(c (k + 1)).last.1.state.vel j - (c k).last.1.state.vel j - Spec.velRec (o (k + 1)) j - wb| ≤ W) →
        ∀ k, |Spec.velErr (o k) (c k) j| ≤ (1 - Spec.gain dt tau / 10) ^ k * (143 / 100 * |Spec.velErr o0 (c 0) j| +
          26 / 100 * Spec.gain dt tau * |o0.velErrInteg j - 10 * wb / Spec.gain dt tau ^ 2|) +
          26 / 10 * W / Spec.gain dt tau := by
  obtain ⟨o, h0, hF, hs⟩ := cycles_exist L c hc o0 n hn ho
  have hpos : 0 < dt := by rw [← hdt 0]; exact (hc 0).pos
  have hle : dt ≤ 10 := by rw [← hdt 0]; exact (hc 0).le
  obtain ⟨_, g0, g1, _⟩ := trackGain_range dt tau hpos hle
  refine ⟨o, h0, hs, ?_, ?_⟩
  · intro k
    obtain ⟨o2, x, h2, _, _, _, _, _, h5, _⟩ := cycle_spec L (c k) (hc k) (o k) n hn (hF k)
    rw [hs k] at h2; simp only [Except.ok.injEq] at h2; rw [h2, h5]
  · intro j wb W hw k
    have := pi_loop (Spec.gain dt tau) g0 g1 (fun k => Spec.velErr (o k) (c k) j) (fun k => (o k).velErrInteg j)
      (fun k => (c (k + 1)).last.1.state.vel j - (c k).last.1.state.vel j - Spec.velRec (o (k + 1)) j) wb W
      (fun k => by
        have := (tracking_recursion L (c k) (c (k + 1)) (hc k) (o k) (o (k + 1)) n hn (hF k) (hs k) j).2.2.2.1
        rw [hdt, htau] at this; exact this)
      (fun k => (tracking_recursion L (c k) (c (k + 1)) (hc k) (o k) (o (k + 1)) n hn (hF k) (hs k) j).2.1) hw k
    simp only [h0] at this
    exact this

/-- **C147 (position).** The same for the position channel and its time constant. -/
theorem position_tracks (L : AxisAngleLib) (c : ℕ → Cycle) (hc : ∀ k, (c k).Regular) (o0 : Out) (n : ℕ) (hn : 2 ≤ n)
    (ho : o0.Full n) (dt tau : ℝ) (hdt : ∀ k, (c k).last.1.dtEkfAvg = dt) (htau : ∀ k, (c k).last.1.posTau = tau) :
    ∃ o : ℕ → Out, o 0 = o0 ∧ (∀ k, (o k).cycle L (c k) = .ok (o (k + 1))) ∧
      (∀ k, (o (k + 1)).trackErr 2 = norm3 (Spec.posErr (o k) (c k))) ∧
      ∀ (j : Fin 3) (wb W : ℝ),
        (∀ k, |(c (k + 1)).last.1.state.pos j - (c k).last.1.state.pos j - Spec.posRec (o (k + 1)) j - wb| ≤ W) →
        ∀ k, |Spec.posErr (o k) (c k) j| ≤ (1 - Spec.gain dt tau / 10) ^ k * (143 / 100 * |Spec.posErr o0 (c 0) j| +
          26 / 100 * Spec.gain dt tau * |o0.posErrInteg j - 10 * wb / Spec.gain dt tau ^ 2|) +
          26 / 10 * W / Spec.gain dt tau := by
  obtain ⟨o, h0, hF, hs⟩ := cycles_exist L c hc o0 n hn ho
  have hpos : 0 < dt := by rw [← hdt 0]; exact (hc 0).pos
  have hle : dt ≤ 10 := by rw [← hdt 0]; exact (hc 0).le
  obtain ⟨_, g0, g1, _⟩ := trackGain_range dt tau hpos hle
  refine ⟨o, h0, hs, ?_, ?_⟩
  · intro k
    obtain ⟨o2, x, h2, _, _, _, _, _, _, h5⟩ := cycle_spec L (c k) (hc k) (o k) n hn (hF k)
    rw [hs k] at h2; simp only [Except.ok.injEq] at h2; rw [h2, h5]
  · intro j wb W hw k
    have := pi_loop (Spec.gain dt tau) g0 g1 (fun k => Spec.posErr (o k) (c k) j) (fun k => (o k).posErrInteg j)
      (fun k => (c (k + 1)).last.1.state.pos j - (c k).last.1.state.pos j - Spec.posRec (o (k + 1)) j) wb W
      (fun k => by
        have := (tracking_recursion L (c k) (c (k + 1)) (hc k) (o k) (o (k + 1)) n hn (hF k) (hs k) j).2.2.2.2
        rw [hdt, htau] at this; exact this)
      (fun k => (tracking_recursion L (c k) (c (k + 1)) (hc k) (o k) (o (k + 1)) n hn (hF k) (hs k) j).2.2.1) hw k
    simp only [h0] at this
    exact this

/-! ### Non-vacuity: a filter at constant velocity 1 m/s, an output at rest, no acceleration measured -/

/-- IMU sample without increments -/
def exImu : ImuSample := ⟨10000, 0, 0, 0, 0, fun _ => false⟩

/-- EKF moving north at 1 m/s, 10 ms filter interval, time constant 0.25 s -/
def exIn : OutIn := ⟨⟨⟨1, 0, 0, 0⟩, ![1, 0, 0], 0, 0, 0, 0, 0, 0⟩, 1 / 100, 1 / 100, 0, true, 1 / 4, 1 / 4, 0⟩

/-- cycle without intermediate samples -/
def exCycle : Cycle := ⟨[], exIn, exImu⟩

/-- output at rest with two stored states -/
def exOut : Out :=
  ⟨⟨some [⟨5, ⟨⟨1, 0, 0, 0⟩, 0, 0⟩⟩, ⟨7, ⟨⟨1, 0, 0, 0⟩, 0, 0⟩⟩], 1, 0, 2, false⟩,
    ⟨some [⟨5, ⟨0, 0, 0⟩⟩, ⟨7, ⟨0, 0, 0⟩⟩], 1, 0, 2, false⟩, ⟨7, ⟨⟨1, 0, 0, 0⟩, 0, 0⟩⟩, ⟨7, ⟨0, 0, 0⟩⟩, 1, 0, 0, 0, 0, 0, 0, 0, 0⟩

theorem exOut_full : exOut.Full 2 := by
  refine ⟨⟨by norm_num, rfl, by simp [exOut], by simp [exOut], _, rfl, rfl, by simp [exOut]⟩,
    ⟨by norm_num, rfl, by simp [exOut], by simp [exOut], _, rfl, rfl, by simp [exOut]⟩, ?_, ?_⟩
  · simp [exOut, RB.live, RB.count, List.range_succ]
  · simp [exOut, RB.live, RB.count, List.range_succ]

theorem exCycle_regular : exCycle.Regular :=
  ⟨by simp [exCycle], rfl, by norm_num [exCycle, exIn], by norm_num [exCycle, exIn]⟩

/-- the published velocity error of the example falls below `1.43 * 0.996 ^ k` -/
example (L : AxisAngleLib) : ∃ o : ℕ → Out, o 0 = exOut ∧ (∀ k, (o k).cycle L exCycle = .ok (o (k + 1))) ∧
    Spec.velErr (o 0) exCycle 0 = 1 ∧ ∀ k, |Spec.velErr (o k) exCycle 0| ≤ (1 - 4 / 1000) ^ k * (143 / 100) := by
  obtain ⟨o, h0, hs, _, hb⟩ := velocity_tracks L (fun _ => exCycle) (fun _ => exCycle_regular) exOut 2 (by norm_num) exOut_full
    (1 / 100) (1 / 4) (fun _ => rfl) (fun _ => rfl)
  have hF : ∀ k, (o k).Full 2 := by
    intro k
    induction k with
    | zero => rw [h0]; exact exOut_full
    | succ k ih =>
      obtain ⟨o2, x, h2, hF, _⟩ := cycle_spec L exCycle exCycle_regular (o k) 2 (by norm_num) ih
      rw [hs k] at h2; simp only [Except.ok.injEq] at h2; rw [h2]; exact hF
  have hrec : ∀ k, Spec.velRec (o (k + 1)) 0 = 0 := by
    intro k
    obtain ⟨o1, h1, hv, _⟩ := recorded_newest L exCycle exCycle_regular (o k) (o (k + 1)) 2 (by norm_num) (hF k) (hs k) 0
    have e1 : o1 = o k := by
      have : (exCycle.mid.foldlM (fun o x => Out.calculate L x.1 x.2 o) (o k) : Except UB Out) = .ok (o k) := rfl
      rw [this] at h1; simp only [Except.ok.injEq] at h1; exact h1.symm
    rw [e1] at hv
    show (Spec.stored (o (k + 1)) 1).vel 0 - (Spec.stored (o (k + 1)) 0).vel 0 = 0
    refine Eq.trans hv ?_
    simp [Out.ins, exCycle, exImu, exIn, Matrix.vecHead]
  have he0 : Spec.velErr exOut exCycle 0 = 1 := by
    simp [Spec.velErr, exCycle, exIn, Spec.stored, exOut, RB.live, RB.count, List.range_succ]
  refine ⟨o, h0, hs, by rw [h0]; exact he0, ?_⟩
  intro k
  have := hb 0 0 0 (by intro k; simp only [hrec k]; simp) k
  have hg : Spec.gain (1 / 100) (1 / 4) = 4 / 100 := by unfold Spec.gain; norm_num
  rw [hg, he0] at this
  refine this.trans (le_of_eq ?_)
  have hi : exOut.velErrInteg 0 = 0 := rfl
  rw [hi]
  norm_num

end Ecl.Ekf
