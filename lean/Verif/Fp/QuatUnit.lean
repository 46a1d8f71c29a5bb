import Verif.Fp.Quat

/-!
# The attitude stays unit in single precision
-/

namespace Ecl.Fp

noncomputable section

variable {rnd : ℝ → ℝ}

theorem eta_small : (0 : ℝ) < 1 / 2 ^ 149 ∧ (1 : ℝ) / 2 ^ 149 ≤ 1 / 1152921504606846976 := by
  constructor
  · positivity
  · have : (1152921504606846976 : ℝ) = 2 ^ 60 := by norm_num
    rw [this]
    exact one_div_le_one_div_of_le (by positivity) (by gcongr <;> norm_num)

/-- error of one rounding, for numbers up to 16 -/
theorem err16 (R : Single rnd) (x : ℝ) (h : |x| ≤ 16) : |rnd x - x| ≤ |x| / 16777216 + 1 / 1152921504606846976 := by
  have := R.err x (le_trans h (by norm_num))
  have e := eta_small.2
  have n2 : (2 : ℝ) ^ 24 = 16777216 := by norm_num
  rw [n2] at this
  linarith

/-- the computed norm squared -/
theorem norm_bound (R : Single rnd) (q : Fin 4 → ℝ) (h1 : 1 / 4 ≤ nsq q) (h2 : nsq q ≤ 4) :
    2 / 5 ≤ rnd (√(dot4 rnd q)) ∧ rnd (√(dot4 rnd q)) ≤ 3 ∧ |rnd (√(dot4 rnd q)) ^ 2 - nsq q| ≤ 73 / 10 / 16777216 * nsq q := by
  have hd := dot4_bound R q h1 h2
  have n2 : (2 : ℝ) ^ 24 = 16777216 := by norm_num
  rw [n2] at hd
  generalize dot4 rnd q = d at *
  generalize nsq q = S at *
  obtain ⟨d1, d2⟩ := abs_le.mp hd
  have dpos : 0 ≤ d := by nlinarith
  have ht : √d ^ 2 = d := Real.sq_sqrt dpos
  have ht0 : 0 ≤ √d := Real.sqrt_nonneg d
  generalize √d = t at *
  have t1 : 49 / 100 ≤ t := by nlinarith
  have t2 : t ≤ 21 / 10 := by nlinarith
  have hn := err16 R t (by rw [abs_of_nonneg ht0]; linarith)
  rw [abs_of_nonneg ht0] at hn
  generalize rnd t = n at *
  obtain ⟨a, b⟩ := abs_le.mp hn
  have a' : t * (1 - 101 / 100 / 16777216) ≤ n := by linarith
  have b' : n ≤ t * (1 + 101 / 100 / 16777216) := by linarith
  refine ⟨by linarith, by linarith, abs_le.mpr ⟨?_, ?_⟩⟩
  · have : (t * (1 - 101 / 100 / 16777216)) ^ 2 ≤ n ^ 2 := pow_le_pow_left₀ (by nlinarith) a' 2
    rw [mul_pow, ht] at this
    norm_num at this ⊢
    linarith
  · have : n ^ 2 ≤ (t * (1 + 101 / 100 / 16777216)) ^ 2 := pow_le_pow_left₀ (by linarith) b' 2
    rw [mul_pow, ht] at this
    norm_num at this ⊢
    linarith

/-- each computed component against the exact quotient -/
theorem comp_bound (R : Single rnd) (recip : Bool) (q : Fin 4 → ℝ) (n : ℝ) (hn1 : 2 / 5 ≤ n) (hn2 : n ≤ 3) (x : ℝ) (hx : |x / n| ≤ 2) :
    |(if recip then rnd (x * rnd (1 / n)) else rnd (x / n)) - x / n| ≤ 21 / 10 / 16777216 * |x / n| + 2 / 1152921504606846976 := by
  have hn0 : 0 < n := by linarith
  cases recip with
  | false =>
    simp only [Bool.false_eq_true, if_false]
    have := err16 R (x / n) (by linarith)
    have h0 := abs_nonneg (x / n)
    linarith
  | true =>
    simp only [if_true]
    have i0 : 0 < 1 / n := by positivity
    have i1 : 1 / n ≤ 5 / 2 := by rw [div_le_iff₀ hn0]; linarith
    have i2 : 1 / 3 ≤ 1 / n := one_div_le_one_div_of_le hn0 hn2
    have hr := err16 R (1 / n) (by rw [abs_of_pos i0]; linarith)
    rw [abs_of_pos i0] at hr
    have e : x / n = x * (1 / n) := by ring
    generalize rnd (1 / n) = r at *
    have hr' : |r - 1 / n| ≤ 101 / 100 / 16777216 * (1 / n) := by linarith
    have h0 := abs_nonneg (x / n)
    have hxr : |x * r - x / n| ≤ 101 / 100 / 16777216 * |x / n| := by
      rw [e, ← mul_sub, abs_mul, abs_mul, abs_of_pos i0]
      have := mul_le_mul_of_nonneg_left hr' (abs_nonneg x)
      linarith
    have hb : |x * r| ≤ |x / n| * (1 + 101 / 100 / 16777216) := by
      have := abs_sub_abs_le_abs_sub (x * r) (x / n)
      linarith
    have h2 := err16 R (x * r) (by linarith)
    have h3 : |rnd (x * r) - x / n| ≤ |rnd (x * r) - x * r| + |x * r - x / n| := abs_sub_le _ _ _
    linarith

theorem sq_bound {o x u e : ℝ} (hu : 0 ≤ u) (hu1 : u ≤ 1 / 1000000) (he : 0 ≤ e) (he1 : e ≤ 1 / 1000000) (hx : |x| ≤ 2)
    (h : |o - x| ≤ u * |x| + e) : |o ^ 2 - x ^ 2| ≤ (2 * u + u ^ 2) * x ^ 2 + 5 * e := by
  have e1 : o ^ 2 - x ^ 2 = (o - x) * ((o - x) + 2 * x) := by ring
  have h2 : |(o - x) + 2 * x| ≤ |o - x| + 2 * |x| := by
    refine le_trans (abs_add_le _ _) ?_
    rw [abs_mul, abs_of_pos (by norm_num : (0 : ℝ) < 2)]
  rw [e1, abs_mul]
  have hx0 := abs_nonneg x
  have ho := abs_nonneg (o - x)
  have h3 : |o - x| * |(o - x) + 2 * x| ≤ (u * |x| + e) * ((u * |x| + e) + 2 * |x|) := by
    refine mul_le_mul h (by linarith) (abs_nonneg _) (by positivity)
  have h4 : x ^ 2 = |x| ^ 2 := (sq_abs x).symm
  rw [h4]
  generalize |x| = y at *
  refine le_trans h3 ?_
  have : (u * y + e) * ((u * y + e) + 2 * y) = (2 * u + u ^ 2) * y ^ 2 + e * (2 * u * y + e + 2 * y) := by ring
  rw [this]
  have : 2 * u * y + e + 2 * y ≤ 5 := by nlinarith
  nlinarith

/-- The normalised quaternion has squared length one to a millionth. -/
theorem normalize_unit (R : Single rnd) (recip : Bool) (q : Fin 4 → ℝ) (h1 : 1 / 4 ≤ nsq q) (h2 : nsq q ≤ 4) :
    |nsq (normalizeF rnd recip q) - 1| ≤ 1 / 1000000 := by
  obtain ⟨n1, n2, n3⟩ := norm_bound R q h1 h2
  have hc : ∀ i, normalizeF rnd recip q i =
      if recip then rnd (q i * rnd (1 / rnd (√(dot4 rnd q)))) else rnd (q i / rnd (√(dot4 rnd q))) := fun i => rfl
  generalize rnd (√(dot4 rnd q)) = n at *
  have hn0 : 0 < n := by linarith
  obtain ⟨a, b⟩ := abs_le.mp n3
  have hS : nsq (fun i => q i / n) = nsq q / n ^ 2 := by unfold nsq; field_simp
  have hT : |nsq q / n ^ 2 - 1| ≤ 74 / 10 / 16777216 := by
    have hp : 0 < n ^ 2 := by positivity
    rw [abs_le]
    constructor
    · rw [le_sub_iff_add_le, le_div_iff₀ hp]
      nlinarith
    · rw [sub_le_iff_le_add, div_le_iff₀ hp]
      nlinarith
  obtain ⟨c, d⟩ := abs_le.mp hT
  have hx : ∀ i, |q i / n| ≤ 2 := by
    intro i
    have : (q i / n) ^ 2 ≤ nsq (fun i => q i / n) := by
      unfold nsq
      fin_cases i <;> simp only [Fin.zero_eta, Fin.mk_one, Fin.reduceFinMk] <;>
        nlinarith [sq_nonneg (q 0 / n), sq_nonneg (q 1 / n), sq_nonneg (q 2 / n), sq_nonneg (q 3 / n)]
    rw [hS] at this
    exact abs_le_of_sq_le_sq (by linarith) (by norm_num)
  have hcomp : ∀ i, |normalizeF rnd recip q i ^ 2 - (q i / n) ^ 2| ≤ 43 / 10 / 16777216 * (q i / n) ^ 2 + 10 / 1152921504606846976 := by
    intro i
    rw [hc i]
    have := sq_bound (by norm_num) (by norm_num) (by norm_num) (by norm_num) (hx i) (comp_bound R recip q n n1 n2 (q i) (hx i))
    refine le_trans this ?_
    have := sq_nonneg (q i / n)
    norm_num
    linarith
  have k0 := abs_le.mp (hcomp 0)
  have k1 := abs_le.mp (hcomp 1)
  have k2 := abs_le.mp (hcomp 2)
  have k3 := abs_le.mp (hcomp 3)
  rw [← hS] at c d
  unfold nsq at c d ⊢
  simp only at c d
  rw [abs_le]
  constructor
  · linarith [k0.1, k1.1, k2.1, k3.1]
  · linarith [k0.2, k1.2, k2.2, k3.2]

/-- a sum of four signed products of numbers up to 1.05 -/
theorem sum4_bound (R : Single rnd) (s1 s2 s3 : ℝ) (h1 : s1 = 1 ∨ s1 = -1) (h2 : s2 = 1 ∨ s2 = -1) (h3 : s3 = 1 ∨ s3 = -1) (a b : Fin 4 → ℝ)
    (ha : ∀ i, |a i| ≤ 21 / 20) (hb : ∀ i, |b i| ≤ 21 / 20) :
    |sum4 rnd s1 s2 s3 a b - (a 0 * b 0 + s1 * (a 1 * b 1) + s2 * (a 2 * b 2) + s3 * (a 3 * b 3))| ≤ 1 / 100000 := by
  have hp : ∀ i, |a i * b i| ≤ 6 / 5 := by
    intro i
    rw [abs_mul]
    have := mul_le_mul (ha i) (hb i) (abs_nonneg _) (by norm_num)
    linarith
  have hr : ∀ i, |rnd (a i * b i) - a i * b i| ≤ 1 / 10000000 := by
    intro i
    have := err16 R (a i * b i) (by linarith [hp i])
    linarith [hp i]
  have p0 := abs_le.mp (hp 0); have p1 := abs_le.mp (hp 1); have p2 := abs_le.mp (hp 2); have p3 := abs_le.mp (hp 3)
  have r0 := abs_le.mp (hr 0); have r1 := abs_le.mp (hr 1); have r2 := abs_le.mp (hr 2); have r3 := abs_le.mp (hr 3)
  have sgn : ∀ s x c : ℝ, (s = 1 ∨ s = -1) → (-c ≤ x ∧ x ≤ c) → (-c ≤ s * x ∧ s * x ≤ c) := by
    rintro s x c (rfl | rfl) h
    · simpa using h
    · constructor <;> linarith [h.1, h.2]
  have q1 := sgn s1 _ _ h1 p1
  have q2 := sgn s2 _ _ h2 p2
  have q3 := sgn s3 _ _ h3 p3
  have t1 := sgn s1 _ _ h1 r1
  have t2 := sgn s2 _ _ h2 r2
  have t3 := sgn s3 _ _ h3 r3
  rw [mul_sub] at t1 t2 t3
  unfold sum4
  generalize s1 * (a 1 * b 1) = x1 at *
  generalize s2 * (a 2 * b 2) = x2 at *
  generalize s3 * (a 3 * b 3) = x3 at *
  generalize s1 * rnd (a 1 * b 1) = y1 at *
  generalize s2 * rnd (a 2 * b 2) = y2 at *
  generalize s3 * rnd (a 3 * b 3) = y3 at *
  generalize a 0 * b 0 = x0 at *
  generalize rnd x0 = y0 at *
  have g : ∀ s : ℝ, |s| ≤ 16 → s - 1 / 1000000 ≤ rnd s ∧ rnd s ≤ s + 1 / 1000000 := by
    intro s hs
    have := abs_le.mp (err16 R s hs)
    constructor <;> linarith [this.1, this.2]
  have m1 := g (y0 + y1) (abs_le.mpr ⟨by linarith, by linarith⟩)
  generalize rnd (y0 + y1) = z1 at *
  have m2 := g (z1 + y2) (abs_le.mpr ⟨by linarith, by linarith⟩)
  generalize rnd (z1 + y2) = z2 at *
  have m3 := g (z2 + y3) (abs_le.mpr ⟨by linarith, by linarith⟩)
  exact abs_le.mpr ⟨by linarith, by linarith⟩

theorem comp_le {q : Fin 4 → ℝ} {c : ℝ} (hc : 0 ≤ c) (h : nsq q ≤ c ^ 2) (i : Fin 4) : |q i| ≤ c := by
  refine abs_le_of_sq_le_sq (le_trans ?_ h) hc
  unfold nsq
  fin_cases i <;> simp only [Fin.zero_eta, Fin.mk_one, Fin.reduceFinMk] <;> nlinarith [sq_nonneg (q 0), sq_nonneg (q 1), sq_nonneg (q 2), sq_nonneg (q 3)]

/-- a perturbation of each component by at most 1/100000 -/
theorem perturb {x y : Fin 4 → ℝ} (h : ∀ i, |x i - y i| ≤ 1 / 100000) (hy : nsq y ≤ 4) : |nsq x - nsq y| ≤ 1 / 1000 := by
  have k : ∀ i, |x i ^ 2 - y i ^ 2| ≤ 1 / 4000 := by
    intro i
    have h1 := comp_le (q := y) (c := 2) (by norm_num) (by linarith) i
    have e : x i ^ 2 - y i ^ 2 = (x i - y i) * ((x i - y i) + 2 * y i) := by ring
    have h2 : |(x i - y i) + 2 * y i| ≤ 5 := by
      have := abs_le.mp h1; have := abs_le.mp (h i)
      exact abs_le.mpr ⟨by linarith, by linarith⟩
    rw [e, abs_mul]
    have := mul_le_mul (h i) h2 (abs_nonneg _) (by norm_num)
    linarith
  have k0 := abs_le.mp (k 0); have k1 := abs_le.mp (k 1); have k2 := abs_le.mp (k 2); have k3 := abs_le.mp (k 3)
  unfold nsq
  exact abs_le.mpr ⟨by linarith, by linarith⟩

/-- the exact product, the multiplicativity of the squared length -/
def mulE (p q : Fin 4 → ℝ) : Fin 4 → ℝ :=
  ![p 0 * q 0 - p 1 * q 1 - p 2 * q 2 - p 3 * q 3,
    p 0 * q 1 + p 1 * q 0 + p 2 * q 3 - p 3 * q 2,
    p 0 * q 2 - p 1 * q 3 + p 2 * q 0 + p 3 * q 1,
    p 0 * q 3 + p 1 * q 2 - p 2 * q 1 + p 3 * q 0]

/-- without rounding the product is that of the other models (`Quat.mul`) -/
theorem mul_exact (p q : Quat ℝ) : mulF (fun x => x) ![p.w, p.x, p.y, p.z] ![q.w, q.x, q.y, q.z] = ![(p.mul q).w, (p.mul q).x, (p.mul q).y, (p.mul q).z] := by
  funext i
  fin_cases i <;> simp [mulF, sum4, Quat.mul, sub_eq_add_neg]

/-- without rounding normalising divides by the length -/
theorem normalize_exact (recip : Bool) (q : Quat ℝ) (i : Fin 4) :
    normalizeF (fun x => x) recip ![q.w, q.x, q.y, q.z] i = (![q.w, q.x, q.y, q.z] : Fin 4 → ℝ) i / √q.normSq := by
  have : dot4 (fun x => x) ![q.w, q.x, q.y, q.z] = q.normSq := by
    simp [dot4, Quat.normSq]
  unfold normalizeF
  rw [this]
  cases recip <;> simp [div_eq_mul_inv]

theorem nsq_mulE (p q : Fin 4 → ℝ) : nsq (mulE p q) = nsq p * nsq q := by
  simp only [nsq, mulE, Matrix.cons_val_zero, Matrix.cons_val_one, Matrix.cons_val_two, Matrix.cons_val_three, Matrix.cons_val, Matrix.head_cons, Matrix.tail_cons]
  ring

theorem mul_close (R : Single rnd) (p q : Fin 4 → ℝ) (hp : nsq p ≤ 11 / 10) (hq : nsq q ≤ 11 / 10) (i : Fin 4) :
    |mulF rnd p q i - mulE p q i| ≤ 1 / 100000 := by
  have a := fun i => comp_le (q := p) (c := 21 / 20) (by norm_num) (by linarith) i
  have b := fun i => comp_le (q := q) (c := 21 / 20) (by norm_num) (by linarith) i
  have a4 : ∀ j, |(![p 0, p 1, p 2, p 3] : Fin 4 → ℝ) j| ≤ 21 / 20 := by intro j; fin_cases j <;> simp [a]
  fin_cases i
  · have := sum4_bound R (-1) (-1) (-1) (.inr rfl) (.inr rfl) (.inr rfl) p q a b
    refine le_trans (le_of_eq ?_) this
    simp [mulF, mulE, sub_eq_add_neg]
  · have := sum4_bound R 1 1 (-1) (.inl rfl) (.inl rfl) (.inr rfl) ![p 0, p 1, p 2, p 3] ![q 1, q 0, q 3, q 2] a4 (by intro j; fin_cases j <;> simp [b])
    refine le_trans (le_of_eq ?_) this
    simp [mulF, mulE, sub_eq_add_neg]
  · have := sum4_bound R (-1) 1 1 (.inr rfl) (.inl rfl) (.inl rfl) ![p 0, p 1, p 2, p 3] ![q 2, q 3, q 0, q 1] a4 (by intro j; fin_cases j <;> simp [b])
    refine le_trans (le_of_eq ?_) this
    simp [mulF, mulE, sub_eq_add_neg]
  · have := sum4_bound R 1 (-1) 1 (.inl rfl) (.inr rfl) (.inl rfl) ![p 0, p 1, p 2, p 3] ![q 3, q 2, q 1, q 0] a4 (by intro j; fin_cases j <;> simp [b])
    refine le_trans (le_of_eq ?_) this
    simp [mulF, mulE, sub_eq_add_neg]

/-- limiting the components does not move the length away from one -/
theorem clamp_unit (q : Fin 4 → ℝ) (h : |nsq q - 1| ≤ 1 / 1000000) : |nsq (clampQ q) - 1| ≤ 1 / 1000000 := by
  have hh := abs_le.mp h
  have hle : ∀ i, clampQ q i ^ 2 ≤ q i ^ 2 := by
    intro i
    unfold clampQ
    by_cases h1 : q i < -1
    · rw [if_pos h1]; nlinarith
    rw [if_neg h1]
    by_cases h2 : 1 < q i
    · rw [if_pos h2]; nlinarith
    · rw [if_neg h2]
  have hup : nsq (clampQ q) ≤ nsq q := by
    unfold nsq; linarith [hle 0, hle 1, hle 2, hle 3]
  by_cases hc : ∀ i, -1 ≤ q i ∧ q i ≤ 1
  · have : clampQ q = q := by
      funext i
      unfold clampQ
      rw [if_neg (not_lt.mpr (hc i).1), if_neg (not_lt.mpr (hc i).2)]
    rw [this]; exact h
  · push Not at hc
    obtain ⟨i, hi⟩ := hc
    have h1 : clampQ q i ^ 2 = 1 := by
      unfold clampQ
      by_cases h1 : q i < -1
      · rw [if_pos h1]; norm_num
      · rw [if_neg h1, if_pos (hi (not_lt.mp h1))]; norm_num
    have h2 : 1 ≤ nsq (clampQ q) := by
      rw [← h1]
      unfold nsq
      fin_cases i <;> simp only [Fin.zero_eta, Fin.mk_one, Fin.reduceFinMk] <;>
        nlinarith [sq_nonneg (clampQ q 0), sq_nonneg (clampQ q 1), sq_nonneg (clampQ q 2), sq_nonneg (clampQ q 3)]
    exact abs_le.mpr ⟨by linarith, by linarith⟩

/-- one prediction or correction -/
theorem step_unit (R : Single rnd) (recip : Bool) (q : Fin 4 → ℝ) (hq : |nsq q - 1| ≤ 1 / 10) (o : QOp) (ho : o.Ok) (hn : o.Normalises) :
    |nsq (o.apply rnd recip q) - 1| ≤ 1 / 1000000 := by
  have hq' := abs_le.mp hq
  cases o with
  | predict dq =>
    have hd := abs_le.mp ho
    have e := nsq_mulE q dq
    have l : 80 / 100 ≤ nsq q * nsq dq := by nlinarith
    have u : nsq q * nsq dq ≤ 2 := by nlinarith
    have := abs_le.mp (perturb (mul_close R q dq (by linarith) (by linarith)) (by rw [e]; linarith))
    rw [e] at this
    exact clamp_unit _ (normalize_unit R recip _ (by linarith [this.1]) (by linarith [this.2]))
  | correct c =>
    have hc : nsq c ≤ 1 / 16 := ho
    have hc0 : 0 ≤ nsq c := by unfold nsq; positivity
    have hcs : (q 0 * c 0 + q 1 * c 1 + q 2 * c 2 + q 3 * c 3) ^ 2 ≤ nsq q * nsq c := by
      have : nsq q * nsq c - (q 0 * c 0 + q 1 * c 1 + q 2 * c 2 + q 3 * c 3) ^ 2 =
          (q 0 * c 1 - q 1 * c 0) ^ 2 + (q 0 * c 2 - q 2 * c 0) ^ 2 + (q 0 * c 3 - q 3 * c 0) ^ 2 + (q 1 * c 2 - q 2 * c 1) ^ 2 +
          (q 1 * c 3 - q 3 * c 1) ^ 2 + (q 2 * c 3 - q 3 * c 2) ^ 2 := by unfold nsq; ring
      have h0 : 0 ≤ nsq q * nsq c - (q 0 * c 0 + q 1 * c 1 + q 2 * c 2 + q 3 * c 3) ^ 2 := by rw [this]; positivity
      linarith
    have hdot := abs_le.mp (abs_le_of_sq_le_sq (a := q 0 * c 0 + q 1 * c 1 + q 2 * c 2 + q 3 * c 3) (b := 3 / 10) (by nlinarith) (by norm_num))
    have e : nsq (fun i => q i - c i) = nsq q - 2 * (q 0 * c 0 + q 1 * c 1 + q 2 * c 2 + q 3 * c 3) + nsq c := by unfold nsq; ring
    have hb : ∀ i, |rnd (q i - c i) - (q i - c i)| ≤ 1 / 100000 := by
      intro i
      have h1 : |q i - c i| ≤ 2 := comp_le (q := fun i => q i - c i) (c := 2) (by norm_num) (by rw [e]; linarith) i
      have := err16 R (q i - c i) (by linarith)
      linarith
    have := abs_le.mp (perturb (x := fun i => rnd (q i - c i)) (y := fun i => q i - c i) hb (by rw [e]; linarith))
    rw [e] at this
    exact normalize_unit R recip _ (by linarith [this.1]) (by linarith [this.2])
  | replace q' => exact absurd hn id

theorem step_near (R : Single rnd) (recip : Bool) (q : Fin 4 → ℝ) (hq : |nsq q - 1| ≤ 1 / 10) (o : QOp) (ho : o.Ok) :
    |nsq (o.apply rnd recip q) - 1| ≤ 1 / 10 := by
  cases o with
  | predict dq => exact le_trans (step_unit R recip q hq _ ho trivial) (by norm_num)
  | correct c => exact le_trans (step_unit R recip q hq _ ho trivial) (by norm_num)
  | replace q' => exact ho

theorem run_near (R : Single rnd) (recip : Bool) (q : Fin 4 → ℝ) (hq : |nsq q - 1| ≤ 1 / 10) (l : List QOp) (hl : ∀ o ∈ l, o.Ok) :
    |nsq (l.foldl (QOp.apply rnd recip) q) - 1| ≤ 1 / 10 := by
  induction l generalizing q with
  | nil => exact hq
  | cons o l ih =>
    rw [List.foldl_cons]
    exact ih _ (step_near R recip q hq o (hl o (List.mem_cons_self ..))) (fun o' h => hl o' (List.mem_cons_of_mem _ h))

/-- However many predictions, corrections and replacements ran, after a prediction or a correction the squared length of the attitude computed in single precision is within a millionth
of one: the error of the roundings does not accumulate. -/
theorem attitude_unit_float (R : Single rnd) (recip : Bool) (q : Fin 4 → ℝ) (hq : |nsq q - 1| ≤ 1 / 10) (l : List QOp) (o : QOp) (hl : ∀ o' ∈ l ++ [o], o'.Ok)
    (hn : o.Normalises) : |nsq ((l ++ [o]).foldl (QOp.apply rnd recip) q) - 1| ≤ 1 / 1000000 := by
  rw [List.foldl_append]
  exact step_unit R recip _ (run_near R recip q hq l (fun o' h => hl o' (List.mem_append_left _ h))) o (hl o (List.mem_append_right _ (List.mem_singleton.mpr rfl))) hn

/-! ## Round-to-nearest single precision has these errors -/

/-- a single precision number close to `x` -/
theorem exists_close (x : ℝ) (hx : |x| ≤ 2 ^ 20) : ∃ s ∈ binary32, |s - x| ≤ |x| / 2 ^ 24 + 1 / 2 ^ 149 := by
  by_cases h0 : x = 0
  · exact ⟨0, ⟨0, 0, by norm_num, by norm_num, by norm_num, by simp⟩, by rw [h0]; simp⟩
  have hpos : 0 < |x| := abs_pos.mpr h0
  -- exponent
  have hlog1 : (2 : ℝ) ^ (Int.log 2 |x|) ≤ |x| := by exact_mod_cast Int.zpow_log_le_self (b := 2) (by norm_num) hpos
  have hlog2 : |x| < (2 : ℝ) ^ (Int.log 2 |x| + 1) := by exact_mod_cast Int.lt_zpow_succ_log_self (b := 2) (by norm_num) |x|
  have hL : Int.log 2 |x| ≤ 20 := by
    by_contra hc
    have : (2 : ℝ) ^ (21 : ℤ) ≤ 2 ^ (Int.log 2 |x|) := zpow_le_zpow_right₀ (by norm_num) (by omega)
    have e : (2 : ℝ) ^ (21 : ℤ) = 2 * 2 ^ 20 := by norm_num
    rw [e] at this
    have : (0 : ℝ) < 2 ^ 20 := by positivity
    linarith
  generalize Int.log 2 |x| = L at *
  -- step of the grid, half a unit below the target error
  obtain ⟨e, he1, he2, he3, he4⟩ : ∃ e : ℤ, -149 ≤ e ∧ e ≤ 103 ∧ (2 : ℝ) ^ e / 2 ≤ |x| / 2 ^ 24 + 1 / 2 ^ 149 ∧ |x| < 2 ^ 24 * (2 : ℝ) ^ e := by
    by_cases hc : -126 ≤ L
    · refine ⟨L - 23, by omega, by omega, ?_, ?_⟩
      · have : (2 : ℝ) ^ (L - 23) / 2 = 2 ^ L / 2 ^ 24 := by
          rw [zpow_sub₀ (by norm_num)]; norm_num; ring
        rw [this]
        have h1 : (2 : ℝ) ^ L / 2 ^ 24 ≤ |x| / 2 ^ 24 := by gcongr
        have h2 : (0 : ℝ) < 1 / 2 ^ 149 := by positivity
        linarith
      · have : (2 : ℝ) ^ 24 * 2 ^ (L - 23) = 2 ^ (L + 1) := by
          rw [zpow_sub₀ (by norm_num), zpow_add₀ (by norm_num)]; norm_num; ring
        rw [this]; exact hlog2
    · refine ⟨-149, le_refl _, by norm_num, ?_, ?_⟩
      · have : (2 : ℝ) ^ (-149 : ℤ) / 2 ≤ 1 / 2 ^ 149 := by
          rw [zpow_neg]
          have e : (2 : ℝ) ^ (149 : ℤ) = 2 ^ 149 := by norm_cast
          rw [e, one_div]
          have : (0 : ℝ) < (2 ^ 149)⁻¹ := by positivity
          linarith
        have h1 : (0 : ℝ) ≤ |x| / 2 ^ 24 := by positivity
        linarith
      · refine lt_of_lt_of_le hlog2 ?_
        have : (2 : ℝ) ^ 24 * 2 ^ (-149 : ℤ) = 2 ^ (-125 : ℤ) := by
          have : (2 : ℝ) ^ 24 = 2 ^ (24 : ℤ) := by norm_cast
          rw [this, ← zpow_add₀ (by norm_num)]; norm_num
        rw [this]
        exact zpow_le_zpow_right₀ (by norm_num) (by omega)
  -- grid point
  have hg : (0 : ℝ) < 2 ^ e := zpow_pos (by norm_num) e
  have hm : |(round (x / 2 ^ e) : ℝ) * 2 ^ e - x| ≤ 2 ^ e / 2 := by
    have := abs_sub_round (x / 2 ^ e)
    have h1 : (round (x / 2 ^ e) : ℝ) * 2 ^ e - x = -((x / 2 ^ e - round (x / 2 ^ e)) * 2 ^ e) := by
      field_simp; ring
    rw [h1, abs_neg, abs_mul, abs_of_pos hg]
    nlinarith
  generalize round (x / 2 ^ e) = m at *
  by_cases hM : |m| < 2 ^ 24
  · exact ⟨m * 2 ^ e, ⟨m, e, hM, he1, by omega, rfl⟩, le_trans hm he3⟩
  · -- the upper end of the binade is half as many steps of twice the size
    have hle : |m| ≤ 2 ^ 24 := by
      have h1 : |(m : ℝ) * 2 ^ e| ≤ |x| + 2 ^ e / 2 := by
        have := abs_sub_abs_le_abs_sub ((m : ℝ) * 2 ^ e) x
        linarith
      rw [abs_mul, abs_of_pos hg] at h1
      have h2 : |(m : ℝ)| < 2 ^ 24 + 1 := by
        by_contra hc
        push Not at hc
        have := mul_le_mul_of_nonneg_right hc hg.le
        nlinarith
      have h3 : |m| < 2 ^ 24 + 1 := by exact_mod_cast h2
      omega
    have heq : |m| = 2 ^ 24 := by omega
    have e2 : (2 : ℝ) ^ (e + 1) = 2 ^ e * 2 := by rw [zpow_add₀ (by norm_num), zpow_one]
    have hsame : ∃ m' : ℤ, |m'| < 2 ^ 24 ∧ (m : ℝ) * 2 ^ e = m' * 2 ^ (e + 1) := by
      rcases (abs_eq (by norm_num)).mp heq with h | h
      · exact ⟨2 ^ 23, by norm_num, by rw [h, e2]; push_cast; ring⟩
      · exact ⟨-2 ^ 23, by norm_num, by rw [h, e2]; push_cast; ring⟩
    obtain ⟨m', h1, h2⟩ := hsame
    exact ⟨m * 2 ^ e, ⟨m', e + 1, h1, by omega, by omega, h2⟩, le_trans hm he3⟩

/-- IEEE-754 round-to-nearest of binary32, however ties are broken, is a rounding of the attitude theorem. -/
theorem binary32_single {rnd : ℝ → EReal} (n : Nearest binary32 big32 rnd) : Single (fun x => (rnd x).toReal) := by
  refine ⟨fun x hx => ?_⟩
  have hb : (2 : ℝ) ^ 20 < big32 := by unfold big32; norm_num
  obtain ⟨r, hr, e1, m1⟩ := n.near x (lt_of_le_of_lt hx hb)
  obtain ⟨s, hs, hle⟩ := exists_close x hx
  have : (rnd x).toReal = r := by rw [e1]; rfl
  simp only [this]
  exact le_trans (m1 s hs) hle

/-- non-trivial history: a quarter-turn-like rotation and a correction in IEEE single precision -/
example : ∃ rnd : ℝ → EReal, Nearest binary32 big32 rnd ∧ ∀ recip,
    |nsq (([.predict ![4 / 5, 3 / 5, 0, 0], .correct ![1 / 10, -1 / 10, 1 / 10, 0]] : List QOp).foldl (QOp.apply (fun x => (rnd x).toReal) recip) ![1, 0, 0, 0]) - 1|
      ≤ 1 / 1000000 := by
  obtain ⟨rnd, n, _⟩ := binary32_rounding
  refine ⟨rnd, n, fun recip => ?_⟩
  refine attitude_unit_float (binary32_single n) recip _ ?_ [.predict ![4 / 5, 3 / 5, 0, 0]] (.correct ![1 / 10, -1 / 10, 1 / 10, 0]) ?_ trivial
  · simp [nsq]
  · intro o ho
    simp only [List.cons_append, List.nil_append, List.mem_cons, List.not_mem_nil, or_false] at ho
    rcases ho with rfl | rfl
    · simp [QOp.Ok, nsq]; norm_num
    · simp [QOp.Ok, nsq]; norm_num

end

end Ecl.Fp
