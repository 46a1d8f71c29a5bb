import Verif.Ekf.Tracking

/-!
# Property C147, vertical channel — the alternative vertical output (EKF/ekf.cpp:437-446, 474-508) converges
-/

noncomputable section

namespace Ecl.Ekf

open Ecl.ImuDownSampler (ImuSample AxisAngleLib normalize)
open Ecl.RingBuffer

/-- the stored vertical output number `m`, counted from the oldest -/
def Spec.storedVert (o : Out) (m : ℕ) : VertData ℝ :=
  match o.vertBuf.live[m]? with
  | some s => s.data
  | none => ⟨0, 0, 0⟩

/-- vertical velocity error at an EKF update (the second oldest stored output becomes the oldest) -/
def Spec.vertVelErr (o : Out) (c : Cycle) : ℝ := c.last.1.state.vel 2 - (Spec.storedVert o 1).vertVel

/-- vertical position error at an EKF update -/
def Spec.vertPosErr (o : Out) (c : Cycle) : ℝ := c.last.1.state.pos 2 - (Spec.storedVert o 1).vertVelInteg

/-- the correction applied to the vertical velocities -/
def Spec.vertCorr (o : Out) (c : Cycle) : ℝ :=
  Spec.gain c.last.1.dtEkfAvg c.last.1.posTau * Spec.vertPosErr o c +
    11 / 10 * Spec.gain c.last.1.dtEkfAvg c.last.1.velTau * Spec.vertVelErr o c

/-- vertical history full as well -/
structure Out.FullVert (o : Out) (n : ℕ) : Prop extends o.Full n where
  vlen : o.vertBuf.live.length = n

theorem integrate_length (c : ℝ) (p : VertData ℝ) (l : List (Sample (VertData ℝ))) :
    (Spec.integrate c p l).length = l.length := by
  induction l generalizing p with
  | nil => rfl
  | cons x l ih => simp [Spec.integrate, ih]

theorem correctVertical_length (c : ℝ) (l : List (Sample (VertData ℝ))) : (Spec.correctVertical c l).length = l.length := by
  cases l with
  | nil => rfl
  | cons x l => simp [Spec.correctVertical, integrate_length]

/-- **C147 (vertical recursion).** One cycle: the stored vertical velocities are shifted, the two oldest heights are
consistent with the trapezoidal rule, and the oldest stored entry becomes the previously second oldest one with its
height kept. -/
theorem cycle_vert (L : AxisAngleLib) (c : Cycle) (hc : c.Regular) (o : Out) (n : ℕ) (hn : 2 ≤ n) (ho : o.FullVert n) :
    ∃ o', o.cycle L c = .ok o' ∧ o'.FullVert n ∧
      (Spec.storedVert o' 0).vertVel = (Spec.storedVert o 1).vertVel + Spec.vertCorr o c ∧
      (Spec.storedVert o' 0).vertVelInteg = (Spec.storedVert o 1).vertVelInteg ∧
      (Spec.storedVert o' 1).vertVelInteg = (Spec.storedVert o' 0).vertVelInteg +
        ((Spec.storedVert o' 0).vertVel + (Spec.storedVert o' 1).vertVel) / 2 * (Spec.storedVert o' 1).dt := by
  obtain ⟨o2, _, h2, hF, _⟩ := cycle_spec L c hc o n hn ho.toFull
  obtain ⟨o1, h1, hb, hv, hi, hp⟩ := mid_frame L c.mid hc.mid o
  have hob : o1.outBuf.Inv n := by rw [hb]; exact ho.out
  have hvb : o1.vertBuf.Inv n := by rw [hv]; exact ho.vert
  obtain ⟨o', od, vd, e, i1, i2, hod, hvd, hd⟩ := output_correct L c.last.1 c.last.2 o1 n hn hob hvb hc.last hc.pos hc.le
  have hcyc : o.cycle L c = .ok o' := by unfold Out.cycle; rw [h1]; exact e
  have : o2 = o' := by rw [hcyc] at h2; simp only [Except.ok.injEq] at h2; exact h2.symm
  subst this
  obtain ⟨_, _, _, _, d5, _⟩ := hd
  generalize (o1.ins L c.last.1 c.last.2).vertNew = x at hvd d5
  have hpush : Spec.push n o1.vertBuf.live x = o.vertBuf.live.tail ++ [x] := by
    rw [hv]
    unfold Spec.push Spec.keepNewest
    rw [List.length_append, ho.vlen]
    simp only [List.length_singleton, Nat.add_sub_cancel_left]
    rw [List.drop_append_of_le_length (by rw [ho.vlen]; omega), List.drop_one]
  rw [hpush] at hvd d5
  refine ⟨o2, hcyc, ⟨hF, ?_⟩, ?_⟩
  · rw [d5, correctVertical_length]; simp; rw [ho.vlen]; omega
  -- the two oldest entries
  have hl := ho.vlen
  obtain ⟨a0, a, t, hL⟩ : ∃ a0 a t, o.vertBuf.live = a0 :: a :: t := by
    match hL : o.vertBuf.live, hl with
    | a0 :: a :: t, _ => exact ⟨a0, a, t, rfl⟩
    | [a], h => simp at h; omega
    | [], h => simp at h; omega
  rw [hL] at hvd d5
  simp only [List.tail_cons, List.cons_append, List.head?_cons, Option.some.injEq] at hvd
  subst hvd
  have hs1 : Spec.storedVert o 1 = a.data := by unfold Spec.storedVert; rw [hL]; rfl
  simp only [List.tail_cons, List.cons_append] at d5
  obtain ⟨b, t', hb'⟩ : ∃ b t', t ++ [x] = b :: t' := by
    cases t with
    | nil => exact ⟨x, [], rfl⟩
    | cons b t => exact ⟨b, t ++ [x], rfl⟩
  rw [hb'] at d5
  have hc' : Spec.vertCorr o c = Spec.gain c.last.1.dtEkfAvg c.last.1.posTau * (c.last.1.state.pos 2 - a.data.vertVelInteg) +
      11 / 10 * Spec.gain c.last.1.dtEkfAvg c.last.1.velTau * (c.last.1.state.vel 2 - a.data.vertVel) := by
    unfold Spec.vertCorr Spec.vertPosErr Spec.vertVelErr; rw [hs1]
  rw [← hc'] at d5
  have hs0' : Spec.storedVert o2 0 = ⟨a.data.vertVel + Spec.vertCorr o c, a.data.vertVelInteg, a.data.dt⟩ := by
    unfold Spec.storedVert; rw [d5]; rfl
  have hs1' : Spec.storedVert o2 1 = ⟨b.data.vertVel + Spec.vertCorr o c,
      a.data.vertVelInteg + (a.data.vertVel + Spec.vertCorr o c + (b.data.vertVel + Spec.vertCorr o c)) / 2 * b.data.dt,
      b.data.dt⟩ := by
    unfold Spec.storedVert; rw [d5]; rfl
  rw [hs0', hs1', hs1]
  exact ⟨rfl, rfl, rfl⟩

/-- the loop: `a = 1 - 1.1 gv`, error energy `d v^2 + b y^2` -/
theorem vert_loop_step (g b d v y w z : ℝ) (hb : 0 < b) (hd : 0 < d) (hg1 : g ≤ 1) (hbg : b * d ≤ g)
    (hb8 : b * d ≤ 1 / 8) :
    let v' := v - (b * y + 11 / 10 * g * v) + w
    let y' := y + d * (v - (b * y + 11 / 10 * g * v)) + z
    d * v' ^ 2 + b * y' ^ 2 ≤
      (1 - b * d / 4) * (d * v ^ 2 + b * y ^ 2) + (1 + 8 / (b * d)) * (d * w ^ 2 + b * z ^ 2) := by
  intro v' y'
  set β := b * d with hβ
  have hβ0 : 0 < β := mul_pos hb hd
  have hg0 : 0 < g := lt_of_lt_of_le hβ0 hbg
  set h := v - (b * y + 11 / 10 * g * v) with hh
  set a := 1 - 11 / 10 * g with ha
  have hhe : h = a * v - b * y := by rw [hh, ha]; ring
  -- homogeneous part
  have hhom : d * h ^ 2 + b * (y + d * h) ^ 2 ≤ (1 - 3 / 8 * β) * (d * v ^ 2 + b * y ^ 2) := by
    have e1 : d * h ^ 2 + b * (y + d * h) ^ 2 =
        d * ((1 + β) * a ^ 2) * v ^ 2 + b * (1 - β * (1 - β)) * y ^ 2 - 2 * a * β ^ 2 * v * y := by
      rw [hhe, hβ]; ring
    have ha2 : (1 + β) * a ^ 2 ≤ 1 - 98 / 100 * g := by
      have : (1 + β) * a ^ 2 ≤ (1 + g) * a ^ 2 := mul_le_mul_of_nonneg_right (by linarith) (sq_nonneg a)
      refine this.trans ?_
      rw [ha]
      have : g ^ 3 ≤ g ^ 2 := by nlinarith [sq_nonneg g]
      nlinarith
    have ha1 : |a| ≤ 1 := by rw [ha, abs_le]; constructor <;> linarith
    have hcross : -(2 * a * β ^ 2 * v * y) ≤ 1 / 2 * b * β * y ^ 2 + 2 * d * β ^ 2 * v ^ 2 := by
      have e2 : -(2 * a * β ^ 2 * v * y) ≤ 2 * β ^ 2 * (|v| * |y|) := by
        have : -(a * v * y) ≤ |v| * |y| := by
          calc -(a * v * y) ≤ |a * v * y| := neg_le_abs _
            _ = |a| * (|v| * |y|) := by rw [abs_mul, abs_mul, mul_assoc]
            _ ≤ 1 * (|v| * |y|) := mul_le_mul_of_nonneg_right ha1 (by positivity)
            _ = _ := one_mul _
        have := mul_le_mul_of_nonneg_left this (by positivity : (0:ℝ) ≤ 2 * β ^ 2)
        linarith
      refine e2.trans ?_
      have e3 : 1 / 2 * b * β * y ^ 2 + 2 * d * β ^ 2 * v ^ 2 - 2 * β ^ 2 * (|v| * |y|) =
          β * b / 2 * (|y| - 2 * d * |v|) ^ 2 := by
        rw [← sq_abs y, ← sq_abs v, hβ]; ring
      have : 0 ≤ β * b / 2 * (|y| - 2 * d * |v|) ^ 2 := by positivity
      linarith
    rw [e1]
    have q1 := mul_le_mul_of_nonneg_left ha2 (mul_nonneg hd.le (sq_nonneg v))
    have q2 : β ^ 2 ≤ g / 8 := by nlinarith
    have q3 := mul_le_mul_of_nonneg_left q2 (mul_nonneg hd.le (sq_nonneg v))
    have q4 : 0 ≤ b * y ^ 2 := by positivity
    have q5 : β * β ≤ β / 8 := by nlinarith
    have q6 := mul_le_mul_of_nonneg_left q5 q4
    have q7 := mul_le_mul_of_nonneg_left hbg (mul_nonneg hd.le (sq_nonneg v))
    have q8 : 0 ≤ d * v ^ 2 * g := by positivity
    nlinarith
  -- disturbance
  set ε := β / 8 with hε
  have hε0 : 0 < ε := by positivity
  have hyoung : ∀ p q : ℝ, (p + q) ^ 2 ≤ (1 + ε) * p ^ 2 + (1 + 1 / ε) * q ^ 2 := by
    intro p q
    have : (1 + ε) * p ^ 2 + (1 + 1 / ε) * q ^ 2 - (p + q) ^ 2 = (ε * p - q) ^ 2 / ε := by field_simp; ring
    have h2 : 0 ≤ (ε * p - q) ^ 2 / ε := by positivity
    linarith
  have e8 : 1 / ε = 8 / β := by rw [hε]; field_simp
  have y1 := mul_le_mul_of_nonneg_left (hyoung h w) hd.le
  have y2 := mul_le_mul_of_nonneg_left (hyoung (y + d * h) z) hb.le
  have y3 : (1 + ε) * (d * h ^ 2 + b * (y + d * h) ^ 2) ≤ (1 - β / 4) * (d * v ^ 2 + b * y ^ 2) := by
    have hV : 0 ≤ d * v ^ 2 + b * y ^ 2 := by positivity
    have := mul_le_mul_of_nonneg_left hhom (by positivity : (0:ℝ) ≤ 1 + ε)
    refine this.trans ?_
    rw [← mul_assoc]
    apply mul_le_mul_of_nonneg_right _ hV
    rw [hε]; nlinarith [sq_nonneg β]
  show d * (h + w) ^ 2 + b * (y + d * h + z) ^ 2 ≤ _
  rw [← e8]
  linarith

/-- **C147 (vertical output).** For every history length of at least two and every infinite sequence of cycles with
constant filter interval `dt` and stored interval `d`, with gains `gv`, `gp` such that `gp * d ≤ gv` (true for time
constants of at most one second) and `gp * d ≤ 1/8`: the weighted square of the vertical velocity and position errors decays by the
factor `1 - gp d / 4` per step down to a level given by the disturbances `Wv` (EKF velocity change minus recorded
change) and `Wp` (EKF height change minus trapezoidal integral of the EKF velocity). -/
theorem vertical_tracks (L : AxisAngleLib) (c : ℕ → Cycle) (hc : ∀ k, (c k).Regular) (o0 : Out) (n : ℕ) (hn : 2 ≤ n)
    (ho : o0.FullVert n) (dt tauV tauP d : ℝ) (hdt : ∀ k, (c k).last.1.dtEkfAvg = dt)
    (htv : ∀ k, (c k).last.1.velTau = tauV) (htp : ∀ k, (c k).last.1.posTau = tauP) (hd : 0 < d)
    (hg : Spec.gain dt tauP * d ≤ Spec.gain dt tauV) (h8 : Spec.gain dt tauP * d ≤ 1 / 8) :
    ∃ o : ℕ → Out, o 0 = o0 ∧ (∀ k, (o k).cycle L (c k) = .ok (o (k + 1))) ∧
      ∀ Wv Wp : ℝ, (∀ k, (Spec.storedVert (o (k + 1)) 1).dt = d) →
        (∀ k, |(c (k + 1)).last.1.state.vel 2 - (c k).last.1.state.vel 2 -
          ((Spec.storedVert (o (k + 1)) 1).vertVel - (Spec.storedVert (o (k + 1)) 0).vertVel)| ≤ Wv) →
        (∀ k, |(c (k + 1)).last.1.state.pos 2 - (c k).last.1.state.pos 2 -
          ((c k).last.1.state.vel 2 + (c (k + 1)).last.1.state.vel 2) / 2 * d| ≤ Wp) →
        ∀ k, d * Spec.vertVelErr (o k) (c k) ^ 2 + Spec.gain dt tauP * Spec.vertPosErr (o k) (c k) ^ 2 ≤
          (1 - Spec.gain dt tauP * d / 4) ^ k *
            (d * Spec.vertVelErr o0 (c 0) ^ 2 + Spec.gain dt tauP * Spec.vertPosErr o0 (c 0) ^ 2) +
          4 / (Spec.gain dt tauP * d) * ((1 + 8 / (Spec.gain dt tauP * d)) *
            (d * Wv ^ 2 + Spec.gain dt tauP * (Wp + d * Wv / 2) ^ 2)) := by
  have hstep : ∀ k (o : {o : Out // o.FullVert n}), ∃ o' : {o : Out // o.FullVert n}, o.1.cycle L (c k) = .ok o'.1 := by
    intro k o
    obtain ⟨o', h, hF, _⟩ := cycle_vert L (c k) (hc k) o.1 n hn o.2
    exact ⟨⟨o', hF⟩, h⟩
  choose f hf using hstep
  let seq : ℕ → {o : Out // o.FullVert n} := fun k => Nat.rec ⟨o0, ho⟩ (fun k o => f k o) k
  have hs : ∀ k, (seq k).1.cycle L (c k) = .ok (seq (k + 1)).1 := fun k => hf k (seq k)
  have hpos : 0 < dt := by rw [← hdt 0]; exact (hc 0).pos
  have hle : dt ≤ 10 := by rw [← hdt 0]; exact (hc 0).le
  obtain ⟨_, gv0, gv1, _⟩ := trackGain_range dt tauV hpos hle
  obtain ⟨_, gp0, _, _⟩ := trackGain_range dt tauP hpos hle
  refine ⟨fun k => (seq k).1, rfl, hs, ?_⟩
  intro Wv Wp hdd hwv hwp
  generalize hgv : Spec.gain dt tauV = gv at *
  generalize hgp : Spec.gain dt tauP = gp at *
  have hβ : 0 < gp * d := mul_pos gp0 hd
  have hWv : 0 ≤ Wv := (abs_nonneg _).trans (hwv 0)
  have hWp : 0 ≤ Wp := (abs_nonneg _).trans (hwp 0)
  set D := (1 + 8 / (gp * d)) * (d * Wv ^ 2 + gp * (Wp + d * Wv / 2) ^ 2) with hD
  have hD0 : 0 ≤ D := by rw [hD]; positivity
  intro k
  induction k with
  | zero => simp only [pow_zero, one_mul]; have : 0 ≤ 4 / (gp * d) * D := by positivity
            show d * Spec.vertVelErr o0 (c 0) ^ 2 + gp * Spec.vertPosErr o0 (c 0) ^ 2 ≤ _; linarith
  | succ k ih =>
    obtain ⟨o', h, hF, a1, a2, a3⟩ := cycle_vert L (c k) (hc k) (seq k).1 n hn (seq k).2
    have : o' = (seq (k + 1)).1 := by rw [hs k] at h; simp only [Except.ok.injEq] at h; exact h.symm
    subst this
    have hw := hwv k
    have hz := hwp k
    have hdk := hdd k
    simp only at hw hz hdk ih ⊢
    set w := (c (k + 1)).last.1.state.vel 2 - (c k).last.1.state.vel 2 -
      ((Spec.storedVert (seq (k + 1)).1 1).vertVel - (Spec.storedVert (seq (k + 1)).1 0).vertVel) with hwd
    set z := (c (k + 1)).last.1.state.pos 2 - (c k).last.1.state.pos 2 -
      ((c k).last.1.state.vel 2 + (c (k + 1)).last.1.state.vel 2) / 2 * d with hzd
    have hcorr : Spec.vertCorr (seq k).1 (c k) = gp * Spec.vertPosErr (seq k).1 (c k) +
        11 / 10 * gv * Spec.vertVelErr (seq k).1 (c k) := by
      unfold Spec.vertCorr; rw [hdt, htv, htp, hgv, hgp]
    set v := Spec.vertVelErr (seq k).1 (c k) with hv
    set y := Spec.vertPosErr (seq k).1 (c k) with hy
    have hv' : Spec.vertVelErr (seq (k + 1)).1 (c (k + 1)) = v - (gp * y + 11 / 10 * gv * v) + w := by
      rw [hwd, a1, hcorr, hv]; unfold Spec.vertVelErr; ring
    have hy' : Spec.vertPosErr (seq (k + 1)).1 (c (k + 1)) =
        y + d * (v - (gp * y + 11 / 10 * gv * v)) + (z + d * w / 2) := by
      have e1 : Spec.vertPosErr (seq (k + 1)).1 (c (k + 1)) =
          (c (k + 1)).last.1.state.pos 2 - (Spec.storedVert (seq (k + 1)).1 1).vertVelInteg := rfl
      have e2 : (c k).last.1.state.vel 2 = v + (Spec.storedVert (seq k).1 1).vertVel := by
        rw [hv]; unfold Spec.vertVelErr; ring
      have e3 : (c k).last.1.state.pos 2 = y + (Spec.storedVert (seq k).1 1).vertVelInteg := by
        rw [hy]; unfold Spec.vertPosErr; ring
      rw [e1, a3, a2, hdk, hzd, hwd, e3, a1, hcorr, e2]
      ring
    rw [hv', hy']
    refine (vert_loop_step gv gp d v y w (z + d * w / 2) gp0 hd gv1 hg h8).trans ?_
    have hwsq : w ^ 2 ≤ Wv ^ 2 := by rw [← sq_abs w]; exact pow_le_pow_left₀ (abs_nonneg _) hw 2
    have hzsq : (z + d * w / 2) ^ 2 ≤ (Wp + d * Wv / 2) ^ 2 := by
      rw [← sq_abs (z + d * w / 2)]
      apply pow_le_pow_left₀ (abs_nonneg _)
      refine (abs_add_le _ _).trans ?_
      have : |d * w / 2| = d * |w| / 2 := by rw [abs_div, abs_mul, abs_of_pos hd, abs_two]
      rw [this]
      have := mul_le_mul_of_nonneg_left hw hd.le
      linarith
    have hdist : (1 + 8 / (gp * d)) * (d * w ^ 2 + gp * (z + d * w / 2) ^ 2) ≤ D := by
      rw [hD]
      apply mul_le_mul_of_nonneg_left _ (by positivity)
      have := mul_le_mul_of_nonneg_left hwsq hd.le
      have := mul_le_mul_of_nonneg_left hzsq gp0.le
      linarith
    have hr : 0 ≤ 1 - gp * d / 4 := by linarith
    have hih := mul_le_mul_of_nonneg_left ih hr
    have e4 : (1 - gp * d / 4) * (4 / (gp * d) * D) + D = 4 / (gp * d) * D := by field_simp; ring
    have hfin : ∀ q r V V0 E D X : ℝ, r * V ≤ r * (q * V0 + E) → r * E + D = E → X ≤ D →
        r * V + X ≤ q * r * V0 + E := by
      intro q r V V0 E D X h1 h2 h3
      have : r * (q * V0 + E) = q * r * V0 + r * E := by ring
      linarith
    rw [pow_succ]
    exact hfin _ _ _ _ _ _ _ hih e4 hdist

/-! ### What is recorded, and a concrete case -/

theorem integrate_get (c : ℝ) (p : VertData ℝ) (l : List (Sample (VertData ℝ))) (m : ℕ) :
    ((Spec.integrate c p l)[m]?).map (fun s => (s.data.vertVel, s.data.dt)) =
      (l[m]?).map (fun s => (s.data.vertVel + c, s.data.dt)) := by
  induction l generalizing p m with
  | nil => simp [Spec.integrate]
  | cons x l ih =>
    cases m with
    | zero => rfl
    | succ m => simp only [Spec.integrate, List.getElem?_cons_succ]; exact ih _ m

theorem correctVertical_get (c : ℝ) (l : List (Sample (VertData ℝ))) (m : ℕ) :
    ((Spec.correctVertical c l)[m]?).map (fun s => (s.data.vertVel, s.data.dt)) =
      (l[m]?).map (fun s => (s.data.vertVel + c, s.data.dt)) := by
  cases l with
  | nil => simp [Spec.correctVertical]
  | cons x l =>
    cases m with
    | zero => rfl
    | succ m => simp only [Spec.correctVertical, List.getElem?_cons_succ]; exact integrate_get _ _ _ m

/-- **C147 (vertical record).** The vertical velocity change and the time a cycle adds to the record are those the
strap-down integration of its IMU samples gave; the time counter restarts at zero. -/
theorem vert_recorded_newest (L : AxisAngleLib) (c : Cycle) (hc : c.Regular) (o o' : Out) (n : ℕ) (hn : 2 ≤ n)
    (ho : o.FullVert n) (h : o.cycle L c = .ok o') :
    ∃ o1, c.mid.foldlM (fun o x => o.calculate L x.1 x.2) o = .ok o1 ∧
      (Spec.storedVert o' (n - 1)).dt = (o1.ins L c.last.1 c.last.2).vertNew.data.dt ∧
      (Spec.storedVert o' (n - 1)).vertVel - (Spec.storedVert o' (n - 2)).vertVel =
        (o1.ins L c.last.1 c.last.2).vertNew.data.vertVel - (Spec.storedVert o (n - 1)).vertVel ∧
      o'.vertNew.data = { Spec.storedVert o' (n - 1) with dt := 0 } := by
  obtain ⟨o1, h1, hb, hv, hi, hp⟩ := mid_frame L c.mid hc.mid o
  have hob : o1.outBuf.Inv n := by rw [hb]; exact ho.out
  have hvb : o1.vertBuf.Inv n := by rw [hv]; exact ho.vert
  obtain ⟨o2, od, vd, e, i1, i2, hod, hvd, hd⟩ := output_correct L c.last.1 c.last.2 o1 n hn hob hvb hc.last hc.pos hc.le
  have hcyc : o.cycle L c = .ok o2 := by unfold Out.cycle; rw [h1]; exact e
  have : o2 = o' := by rw [hcyc] at h; simp only [Except.ok.injEq] at h; exact h
  subst this
  obtain ⟨_, _, _, _, d5, ⟨y, hy, hyn⟩, _⟩ := hd
  refine ⟨o1, h1, ?_⟩
  generalize (o1.ins L c.last.1 c.last.2).vertNew = x at hvd d5
  have hpush : Spec.push n o1.vertBuf.live x = o.vertBuf.live.tail ++ [x] := by
    rw [hv]
    unfold Spec.push Spec.keepNewest
    rw [List.length_append, ho.vlen]
    simp only [List.length_singleton, Nat.add_sub_cancel_left]
    rw [List.drop_append_of_le_length (by rw [ho.vlen]; omega), List.drop_one]
  rw [hpush] at d5
  generalize (Spec.gain c.last.1.dtEkfAvg c.last.1.posTau * (c.last.1.state.pos 2 - vd.data.vertVelInteg) +
    11 / 10 * Spec.gain c.last.1.dtEkfAvg c.last.1.velTau * (c.last.1.state.vel 2 - vd.data.vertVel)) = cz at d5
  have hlen : o2.vertBuf.live.length = n := by rw [d5, correctVertical_length]; simp; rw [ho.vlen]; omega
  have hget : ∀ m s, (o.vertBuf.live.tail ++ [x])[m]? = some s →
      (Spec.storedVert o2 m).vertVel = s.data.vertVel + cz ∧ (Spec.storedVert o2 m).dt = s.data.dt := by
    intro m s hs
    have := correctVertical_get cz (o.vertBuf.live.tail ++ [x]) m
    rw [hs, ← d5] at this
    unfold Spec.storedVert
    cases hq : o2.vertBuf.live[m]? with
    | none => rw [hq] at this; simp at this
    | some q =>
      rw [hq] at this
      simp only [Option.map_some, Option.some.injEq, Prod.mk.injEq] at this
      exact this
  have g1 := hget (n - 1) x (by
    rw [List.getElem?_append_right (by rw [List.length_tail, ho.vlen]), List.length_tail, ho.vlen]; simp)
  obtain ⟨t, ht⟩ : ∃ t, o.vertBuf.live[n - 1]? = some t := ⟨_, List.getElem?_eq_getElem (by rw [ho.vlen]; omega)⟩
  have g2 := hget (n - 2) t (by
    rw [List.getElem?_append_left (by rw [List.length_tail, ho.vlen]; omega), List.getElem?_tail,
      show n - 2 + 1 = n - 1 by omega, ht])
  have hst : Spec.storedVert o (n - 1) = t.data := by unfold Spec.storedVert; rw [ht]
  have hso : Spec.storedVert o2 (n - 1) = y.data := by
    rw [List.getLast?_eq_getElem?, hlen] at hy
    unfold Spec.storedVert; rw [hy]
  refine ⟨g1.2, ?_, ?_⟩
  · rw [g1.1, g2.1, hst]; ring
  · rw [hyn, hso]

/-- IMU sample in free fall: no force, 10 ms -/
def fallImu : ImuSample := ⟨10000, 0, 0, 0, 1 / 100, fun _ => false⟩

/-- EKF in free fall at step `k`: velocity `g t`, height `g t^2 / 2`, 10 ms filter interval, time constants 0.25 s -/
def fallCycle (k : ℕ) : Cycle :=
  ⟨[], ⟨⟨⟨1, 0, 0, 0⟩, ![0, 0, oneG * (k / 100)], ![0, 0, oneG * (k / 100) ^ 2 / 2], 0, 0, 0, 0, 0⟩, 1 / 100, 1 / 100, 0, true,
    1 / 4, 1 / 4, 0⟩, fallImu⟩

/-- output 1 m/s too slow, two stored states -/
def fallOut : Out :=
  ⟨⟨some [⟨5, ⟨⟨1, 0, 0, 0⟩, 0, 0⟩⟩, ⟨7, ⟨⟨1, 0, 0, 0⟩, 0, 0⟩⟩], 1, 0, 2, false⟩,
    ⟨some [⟨5, ⟨-1, 0, 1 / 100⟩⟩, ⟨7, ⟨-1, 0, 1 / 100⟩⟩], 1, 0, 2, false⟩, ⟨7, ⟨⟨1, 0, 0, 0⟩, 0, 0⟩⟩, ⟨7, ⟨-1, 0, 0⟩⟩, 1, 0, 0, 0,
    0, 0, 0, 0, 0⟩

theorem fallOut_full : fallOut.FullVert 2 := by
  refine ⟨⟨⟨by norm_num, rfl, by simp [fallOut], by simp [fallOut], _, rfl, rfl, by simp [fallOut]⟩,
    ⟨by norm_num, rfl, by simp [fallOut], by simp [fallOut], _, rfl, rfl, by simp [fallOut]⟩, ?_, ?_⟩, ?_⟩
  · simp [fallOut, RB.live, RB.count, List.range_succ]
  · simp [fallOut, RB.live, RB.count, List.range_succ]
  · simp [fallOut, RB.live, RB.count, List.range_succ]

theorem fallCycle_regular (k : ℕ) : (fallCycle k).Regular :=
  ⟨by simp [fallCycle], rfl, by norm_num [fallCycle], by norm_num [fallCycle]⟩

/-- non-vacuity: in free fall the initial error of 1 m/s decays -/
example (L : AxisAngleLib) : ∃ o : ℕ → Out, o 0 = fallOut ∧ (∀ k, (o k).cycle L (fallCycle k) = .ok (o (k + 1))) ∧
    Spec.vertVelErr (o 0) (fallCycle 0) = 1 ∧
    ∀ k, 1 / 100 * Spec.vertVelErr (o k) (fallCycle k) ^ 2 + 4 / 100 * Spec.vertPosErr (o k) (fallCycle k) ^ 2 ≤
      (1 - 1 / 10000) ^ k * (1 / 100) := by
  have hg : Spec.gain (1 / 100) (1 / 4) = 4 / 100 := by unfold Spec.gain; norm_num
  obtain ⟨o, h0, hs, hb⟩ := vertical_tracks L fallCycle fallCycle_regular fallOut 2 (by norm_num) fallOut_full
    (1 / 100) (1 / 4) (1 / 4) (1 / 100) (fun _ => rfl) (fun _ => rfl) (fun _ => rfl) (by norm_num)
    (by rw [hg]; norm_num) (by rw [hg]; norm_num)
  have hF : ∀ k, (o k).FullVert 2 ∧ (o k).vertNew.data = { Spec.storedVert (o k) 1 with dt := 0 } := by
    intro k
    induction k with
    | zero =>
      rw [h0]; refine ⟨fallOut_full, ?_⟩
      simp [fallOut, Spec.storedVert, RB.live, RB.count, List.range_succ]
    | succ k ih =>
      obtain ⟨o2, h2, hF, _⟩ := cycle_vert L (fallCycle k) (fallCycle_regular k) (o k) 2 (by norm_num) ih.1
      obtain ⟨o1, _, _, _, hn⟩ := vert_recorded_newest L (fallCycle k) (fallCycle_regular k) (o k) (o (k + 1)) 2
        (by norm_num) ih.1 (hs k)
      rw [hs k] at h2; simp only [Except.ok.injEq] at h2
      exact ⟨by rw [h2]; exact hF, hn⟩
  have hrec : ∀ k, (Spec.storedVert (o (k + 1)) 1).dt = 1 / 100 ∧
      (Spec.storedVert (o (k + 1)) 1).vertVel - (Spec.storedVert (o (k + 1)) 0).vertVel = oneG / 100 := by
    intro k
    obtain ⟨o1, h1, hd, hv, _⟩ := vert_recorded_newest L (fallCycle k) (fallCycle_regular k) (o k) (o (k + 1)) 2
      (by norm_num) (hF k).1 (hs k)
    have e1 : o1 = o k := by
      have : ((fallCycle k).mid.foldlM (fun o x => Out.calculate L x.1 x.2 o) (o k) : Except UB Out) = .ok (o k) := rfl
      rw [this] at h1; simp only [Except.ok.injEq] at h1; exact h1.symm
    rw [e1] at hd hv
    have hn := (hF k).2
    have hnd : (o k).vertNew.data.dt = 0 := by rw [hn]
    have hnv : (o k).vertNew.data.vertVel = (Spec.storedVert (o k) 1).vertVel := by rw [hn]
    constructor
    · refine hd.trans ?_
      simp [Out.ins, fallCycle, fallImu, hnd]
    · refine hv.trans ?_
      simp [Out.ins, fallCycle, fallImu, hnv]
      ring
  have he0 : Spec.vertVelErr fallOut (fallCycle 0) = 1 := by
    simp [Spec.vertVelErr, fallCycle, Spec.storedVert, fallOut, RB.live, RB.count, List.range_succ]
  have hp0 : Spec.vertPosErr fallOut (fallCycle 0) = 0 := by
    simp [Spec.vertPosErr, fallCycle, Spec.storedVert, fallOut, RB.live, RB.count, List.range_succ]
  refine ⟨o, h0, hs, by rw [h0]; exact he0, ?_⟩
  intro k
  have := hb 0 0 (fun k => (hrec k).1) (by
    intro k; rw [(hrec k).2]
    simp [fallCycle]; ring) (by
    intro k
    simp [fallCycle]; ring) k
  rw [hg, he0, hp0] at this
  refine this.trans (le_of_eq ?_)
  norm_num

end Ecl.Ekf
