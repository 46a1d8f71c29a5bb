import Mathlib.Data.EReal.Operations
import Mathlib.Data.Set.Finite.Basic
import Mathlib.Data.Finite.Prod
import Mathlib.Data.Set.Finite.Lattice
import Mathlib.Data.Finset.Max
import Mathlib.Order.Interval.Finset.Fin
import Mathlib.Tactic.Linarith
import Mathlib.Tactic.NormNum
import Mathlib.Data.Int.Interval

/-!
# Floating-point values and operations with rounding, infinities and NaN

A C `float` is NaN or an extended real.  Every operation with a finite result rounds it with `rnd`; the theorems hold for every monotone rounding that keeps zero, in particular
for IEEE-754 round-to-nearest of any format (`ieee_rounding`), whatever the rule for ties, and for the directed modes.  NaN payloads and the sign of zero, which no comparison of the code
distinguishes, are not modelled.
-/

namespace Ecl.Fp

noncomputable section

/-- a C `float` -/
inductive F where
  | nan
  | val (a : EReal)

instance : Zero F := ⟨.val 0⟩

/-- the properties of the rounding that are used -/
structure Rounding (rnd : ℝ → EReal) : Prop where
  mono : Monotone rnd
  zero : rnd 0 = 0

/-- a finite result is rounded, an infinite one kept -/
def rndE (rnd : ℝ → EReal) (a : EReal) : EReal := if a = ⊤ then ⊤ else if a = ⊥ then ⊥ else rnd a.toReal

/-- the float of a literal -/
def lit (rnd : ℝ → EReal) (x : ℝ) : F := .val (rnd x)

/-- `a < b`: false on NaN -/
def lt : F → F → Prop
  | .val a, .val b => a < b
  | _, _ => False

/-- `a + b`: NaN for opposite infinities -/
def add (rnd : ℝ → EReal) : F → F → F
  | .val a, .val b => open Classical in if (a = ⊤ ∧ b = ⊥) ∨ (a = ⊥ ∧ b = ⊤) then .nan else .val (rndE rnd (a + b))
  | _, _ => .nan

/-- `a - b` -/
def sub (rnd : ℝ → EReal) : F → F → F
  | .val a, .val b => add rnd (.val a) (.val (-b))
  | _, _ => .nan

/-- `a * b`: NaN for zero times infinity -/
def mul (rnd : ℝ → EReal) : F → F → F
  | .val a, .val b => open Classical in
    if (a = 0 ∧ (b = ⊤ ∨ b = ⊥)) ∨ (b = 0 ∧ (a = ⊤ ∨ a = ⊥)) then .nan else .val (rndE rnd (a * b))
  | _, _ => .nan

/-- `a / 2` -/
def half (rnd : ℝ → EReal) : F → F
  | .val a => .val (rndE rnd (a * ((1 / 2 : ℝ) : EReal)))
  | .nan => .nan

/-- `fmaxf`: a NaN argument is ignored -/
def fmax : F → F → F
  | .val a, .val b => .val (max a b)
  | .nan, b => b
  | a, .nan => a

open Classical in
/-- `math::constrain`, mathlib/mathlib.h:74-77 -/
def constrain (v lo hi : F) : F := if lt v lo then lo else if lt hi v then hi else v

/-- NaN, or a value with the property -/
def Maybe (p : EReal → Prop) (a : F) : Prop := ∀ v, a = .val v → p v

theorem rndE_nonneg {rnd : ℝ → EReal} (R : Rounding rnd) {a : EReal} (h : 0 ≤ a) : 0 ≤ rndE rnd a := by
  unfold rndE
  by_cases h1 : a = ⊤
  · rw [if_pos h1]; exact le_top
  rw [if_neg h1]
  by_cases h2 : a = ⊥
  · subst h2; exact absurd h (by decide)
  rw [if_neg h2, ← R.zero]
  exact R.mono (EReal.toReal_nonneg h)

theorem rndE_mono {rnd : ℝ → EReal} (R : Rounding rnd) {a b : EReal} (h : a ≤ b) : rndE rnd a ≤ rndE rnd b := by
  unfold rndE
  by_cases h1 : b = ⊤
  · rw [if_pos h1]; exact le_top
  by_cases h2 : a = ⊥
  · subst h2; rw [if_neg (by decide), if_pos rfl]; exact bot_le
  have h3 : a ≠ ⊤ := fun h0 => h1 (top_le_iff.mp (h0 ▸ h))
  have h4 : b ≠ ⊥ := fun h0 => h2 (le_bot_iff.mp (h0 ▸ h))
  rw [if_neg h1, if_neg h2, if_neg h3, if_neg h4]
  exact R.mono (EReal.toReal_le_toReal h h2 h1)

/-- a difference of ordered numbers is NaN (equal infinities) or not negative -/
theorem sub_nonneg {rnd : ℝ → EReal} (R : Rounding rnd) (a b : F) (h : ¬ lt a b) : Maybe (0 ≤ ·) (sub rnd a b) := by
  intro v hv
  cases a with
  | nan => exact absurd hv (by simp [sub])
  | val a =>
    cases b with
    | nan => exact absurd hv (by simp [sub])
    | val b =>
      have hle : b ≤ a := not_lt.mp h
      simp only [sub, add] at hv
      split at hv
      · exact absurd hv (by simp)
      · next hne =>
        have : v = rndE rnd (a + -b) := by simpa using hv.symm
        rw [this]
        refine rndE_nonneg R ?_
        rw [← sub_eq_add_neg]
        by_cases hb : b = ⊤
        · subst hb
          have : a = ⊤ := top_le_iff.mp hle
          subst this
          exact absurd (Or.inl ⟨rfl, rfl⟩) hne
        · by_cases hb' : b = ⊥
          · subst hb'
            have : a ≠ ⊥ := by
              intro h0; subst h0
              exact hne (Or.inr ⟨rfl, by simp⟩)
            rw [EReal.sub_bot this]; exact le_top
          · exact (EReal.sub_nonneg (Or.inr hb) (Or.inr hb')).mpr hle

theorem mul_self_nonneg {rnd : ℝ → EReal} (R : Rounding rnd) (a : F) : Maybe (0 ≤ ·) (mul rnd a a) := by
  intro v hv
  cases a with
  | nan => exact absurd hv (by simp [mul])
  | val a =>
    simp only [mul] at hv
    split at hv
    · exact absurd hv (by simp)
    · have : v = rndE rnd (a * a) := by simpa using hv.symm
      rw [this]
      refine rndE_nonneg R ?_
      rcases le_total 0 a with h | h
      · exact EReal.mul_nonneg_iff.mpr (Or.inl ⟨h, h⟩)
      · exact EReal.mul_nonneg_iff.mpr (Or.inr ⟨h, h⟩)

theorem add_comm (rnd : ℝ → EReal) (a b : F) : add rnd a b = add rnd b a := by
  cases a <;> cases b <;> try rfl
  next a b =>
    simp only [add]
    have e : ((a = ⊤ ∧ b = ⊥) ∨ (a = ⊥ ∧ b = ⊤)) ↔ ((b = ⊤ ∧ a = ⊥) ∨ (b = ⊥ ∧ a = ⊤)) := by tauto
    by_cases h : (a = ⊤ ∧ b = ⊥) ∨ (a = ⊥ ∧ b = ⊤)
    · rw [if_pos h, if_pos (e.mp h)]
    · rw [if_neg h, if_neg (fun h' => h (e.mpr h')), _root_.add_comm]

/-- a constrained value is NaN or within the limits -/
theorem constrain_limits {lo hi : EReal} (h : lo ≤ hi) (v : F) : Maybe (fun w => lo ≤ w ∧ w ≤ hi) (constrain v (.val lo) (.val hi)) := by
  intro w hw
  unfold constrain at hw
  split at hw
  · simp only [F.val.injEq] at hw; subst hw; exact ⟨le_refl _, h⟩
  · next h1 =>
    split at hw
    · simp only [F.val.injEq] at hw; subst hw; exact ⟨h, le_refl _⟩
    · next h2 =>
      subst hw
      exact ⟨not_lt.mp h1, not_lt.mp h2⟩

/-! ## IEEE rounding -/

/-- round to a nearest member of `S` (ties in any way), beyond `big` to infinity -/
structure Nearest (S : Set ℝ) (big : ℝ) (rnd : ℝ → EReal) : Prop where
  zero_mem : (0 : ℝ) ∈ S
  big_pos : 0 < big
  near : ∀ x, |x| < big → ∃ r ∈ S, rnd x = (r : EReal) ∧ ∀ s ∈ S, |r - x| ≤ |s - x|
  above : ∀ x, big ≤ x → rnd x = ⊤
  below : ∀ x, x ≤ -big → rnd x = ⊥

theorem near_mono {a b x y : ℝ} (h : x < y) (h1 : |a - x| ≤ |b - x|) (h2 : |b - y| ≤ |a - y|) : a ≤ b := by
  by_contra hc
  push Not at hc
  have e1 := sq_le_sq.mpr h1
  have e2 := sq_le_sq.mpr h2
  nlinarith [mul_pos (sub_pos.mpr hc) (sub_pos.mpr h)]

/-- Round-to-nearest is monotone and keeps zero. -/
theorem nearest_rounding {S : Set ℝ} {big : ℝ} {rnd : ℝ → EReal} (n : Nearest S big rnd) : Rounding rnd := by
  refine ⟨fun x y h => ?_, ?_⟩
  · rcases eq_or_lt_of_le h with h | h
    · rw [h]
    by_cases hy : big ≤ y
    · rw [n.above y hy]; exact le_top
    by_cases hx : x ≤ -big
    · rw [n.below x hx]; exact bot_le
    push Not at hy hx
    obtain ⟨r, hr, e1, m1⟩ := n.near x (abs_lt.mpr ⟨hx, by linarith⟩)
    obtain ⟨t, ht, e2, m2⟩ := n.near y (abs_lt.mpr ⟨by linarith, hy⟩)
    rw [e1, e2]
    exact EReal.coe_le_coe_iff.mpr (near_mono h (m1 t ht) (m2 r hr))
  · obtain ⟨r, hr, e1, m1⟩ := n.near 0 (by rw [abs_zero]; exact n.big_pos)
    have := m1 0 n.zero_mem
    simp only [sub_zero, abs_zero] at this
    have : r = 0 := abs_eq_zero.mp (le_antisymm this (abs_nonneg r))
    rw [e1, this]; rfl

/-- the finite numbers of IEEE-754 binary32: 24-bit significands times powers of two -/
def binary32 : Set ℝ := { x | ∃ m e : ℤ, |m| < 2 ^ 24 ∧ -149 ≤ e ∧ e ≤ 104 ∧ x = m * (2 : ℝ) ^ e }

/-- numbers from here on are rounded to infinity: half a unit above the largest finite number -/
def big32 : ℝ := (2 ^ 25 - 1) * 2 ^ (103 : ℕ)

theorem binary32_finite : binary32.Finite := by
  have : binary32 ⊆ (fun p : ℤ × ℤ => (p.1 : ℝ) * (2 : ℝ) ^ p.2) '' (Set.Icc (-2 ^ 24) (2 ^ 24) ×ˢ Set.Icc (-149) 104) := by
    rintro x ⟨m, e, h1, h2, h3, rfl⟩
    have := abs_lt.mp h1
    exact ⟨(m, e), ⟨⟨by linarith [this.1], by linarith [this.2]⟩, h2, h3⟩, rfl⟩
  exact Set.Finite.subset (((Set.finite_Icc _ _).prod (Set.finite_Icc _ _)).image _) this

/-- Single precision round-to-nearest exists and is a rounding in the sense of the theorems. -/
theorem binary32_rounding : ∃ rnd, Nearest binary32 big32 rnd ∧ Rounding rnd := by
  have h0 : (0 : ℝ) ∈ binary32 := ⟨0, 0, by norm_num, by norm_num, by norm_num, by simp⟩
  have hex : ∀ x : ℝ, ∃ r ∈ binary32, ∀ s ∈ binary32, |r - x| ≤ |s - x| := by
    intro x
    obtain ⟨r, hr, h⟩ := Finset.exists_min_image binary32_finite.toFinset (fun r => |r - x|) ⟨0, by simpa using h0⟩
    exact ⟨r, by simpa using hr, fun s hs => h s (by simpa using hs)⟩
  choose f hf1 hf2 using hex
  have hb : (0 : ℝ) < big32 := by unfold big32; positivity
  have n : Nearest binary32 big32 (fun x => if big32 ≤ x then ⊤ else if x ≤ -big32 then ⊥ else (f x : EReal)) := by
    refine ⟨h0, hb, fun x hx => ⟨f x, hf1 x, ?_, hf2 x⟩, fun x hx => if_pos hx, fun x hx => ?_⟩
    · have := abs_lt.mp hx
      rw [if_neg (not_le.mpr this.2), if_neg (not_le.mpr this.1)]
    · rw [if_neg (not_le.mpr (by linarith)), if_pos hx]
  exact ⟨_, n, nearest_rounding n⟩

end

end Ecl.Fp
