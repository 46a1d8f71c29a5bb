import Verif.RingBuffer.Spec
import Mathlib.Tactic.Linarith
import Mathlib.Data.List.Basic

namespace Ecl.RingBuffer

variable {α : Type*}

/-- number of live samples -/
def RB.count (b : RB α) : ℕ := if b.firstWrite then 0 else (b.head + b.size - b.tail) % b.size + 1

/-- Abstraction function: the live samples, oldest first. -/
def RB.live (b : RB α) : List (Sample α) :=
  match b.buffer with
  | none => []
  | some l => (List.range b.count).filterMap (fun k => l[(b.tail + k) % b.size]?)

/-- Representation invariant -/
structure RB.Inv (b : RB α) (n : ℕ) : Prop where
  pos : 0 < n
  size : b.size = n
  head : b.head < n
  tail : b.tail < n
  buf : ∃ l, b.buffer = some l ∧ l.length = n ∧
    (b.firstWrite = true → b.tail = b.head ∧ ∀ x, l[b.head]? = some x → x.time_us = 0)

theorem filterMap_some_of {l : List (Sample α)} {n : ℕ} (hn : l.length = n) (hpos : 0 < n) (t c : ℕ) :
    (List.range c).filterMap (fun k => l[(t + k) % n]?) =
      (List.range c).map (fun k => l[(t + k) % n]'(by rw [hn]; exact Nat.mod_lt _ hpos)) := by
  induction c with
  | zero => rfl
  | succ c ih =>
    rw [List.range_succ, List.filterMap_append, List.map_append, ih]
    simp [hn, Nat.mod_lt _ hpos]

theorem RB.live_eq {b : RB α} {n : ℕ} {l : List (Sample α)} (hb : b.buffer = some l) (hn : l.length = n)
    (hpos : 0 < n) (hs : b.size = n) :
    b.live = (List.range b.count).map
      (fun k => l[(b.tail + k) % n]'(by rw [hn]; exact Nat.mod_lt _ hpos)) := by
  unfold RB.live; rw [hb]; simp only; rw [hs]; exact filterMap_some_of hn hpos _ _

theorem count_le {b : RB α} {n : ℕ} (h : b.Inv n) : b.count ≤ n := by
  unfold RB.count; split
  · exact Nat.zero_le _
  · rw [h.size]; exact Nat.mod_lt _ h.pos

theorem isMatch_iff (ts : UInt64) (x : Sample α) : isMatch ts x = true ↔ Spec.Eligible ts x := by
  unfold isMatch Spec.Eligible
  simp only [Bool.and_eq_true, decide_eq_true_eq, ge_iff_le, UInt64.le_iff_toNat_le,
    UInt64.lt_iff_toNat_lt, UInt64.toNat_add]
  have h1 : ts.toNat < 2 ^ 64 := ts.toNat_lt
  have h2 : x.time_us.toNat < 2 ^ 64 := x.time_us.toNat_lt
  have h3 : (100000 : UInt64).toNat = 100000 := by decide
  rw [h3]
  omega

/-! ### facts about the specification -/

theorem Spec.pop_none_iff (ts : UInt64) (q : List (Sample α)) :
    Spec.pop ts q = none ↔ ∀ s ∈ q, ¬ Spec.Eligible ts s := by
  induction q with
  | nil => simp [Spec.pop]
  | cons s q ih =>
    unfold Spec.pop
    cases h : Spec.pop ts q with
    | none =>
      rw [h] at ih; simp only [true_iff] at ih
      by_cases he : Spec.Eligible ts s <;> simp [he]
      exact ih
    | some r =>
      rw [h] at ih
      simp only [reduceCtorEq, false_iff, List.mem_cons, forall_eq_or_imp, not_and] at ih ⊢
      intro _ hc; exact ih hc

theorem Spec.pop_append {ts : UInt64} {a b : List (Sample α)} {x : Sample α} (hx : Spec.Eligible ts x)
    (hb : ∀ s ∈ b, ¬ Spec.Eligible ts s) : Spec.pop ts (a ++ x :: b) = some (x, b) := by
  induction a with
  | nil =>
    simp only [List.nil_append]
    unfold Spec.pop
    rw [(Spec.pop_none_iff ts b).mpr hb]; simp [hx]
  | cons y a ih => simp only [List.cons_append]; unfold Spec.pop; rw [ih]

theorem Spec.pop_some_split {ts : UInt64} {q q' : List (Sample α)} {x : Sample α}
    (h : Spec.pop ts q = some (x, q')) :
    ∃ older, q = older ++ x :: q' ∧ Spec.Eligible ts x ∧ ∀ s ∈ q', ¬ Spec.Eligible ts s := by
  induction q with
  | nil => simp [Spec.pop] at h
  | cons s q ih =>
    unfold Spec.pop at h
    cases hp : Spec.pop ts q with
    | none =>
      rw [hp] at h; simp only at h
      split at h
      · next he =>
        simp only [Option.some.injEq, Prod.mk.injEq] at h
        obtain ⟨rfl, rfl⟩ := h
        exact ⟨[], rfl, he, (Spec.pop_none_iff _ _).mp hp⟩
      · cases h
    | some r =>
      rw [hp] at h; simp only [Option.some.injEq] at h; subst h
      obtain ⟨o, ho, h1, h2⟩ := ih hp
      exact ⟨s :: o, by rw [ho]; rfl, h1, h2⟩

/-! ### constructor -/

theorem inv_new [Inhabited α] {n : ℕ} (h0 : 0 < n) (h1 : n < 256) : (RB.new n : RB α).Inv n := by
  have hm : n % 256 = n := Nat.mod_eq_of_lt h1
  have hne : (n == 0) = false := by simp; omega
  unfold RB.new RB.allocate RB.blank RB.valid
  rw [hm]; simp only [Option.isSome_none, Bool.false_and, Bool.false_eq_true, if_false, hne]
  refine ⟨h0, rfl, h0, h0, _, rfl, by simp, ?_⟩
  intro _; refine ⟨rfl, ?_⟩
  intro x hx
  simp only at hx
  rw [List.getElem?_replicate, if_pos h0, Option.some.injEq] at hx
  rw [← hx]; rfl

theorem live_new [Inhabited α] {n : ℕ} (h0 : 0 < n) (h1 : n < 256) : (RB.new n : RB α).live = [] := by
  have hm : n % 256 = n := Nat.mod_eq_of_lt h1
  have hne : (n == 0) = false := by simp; omega
  unfold RB.new RB.allocate RB.blank RB.valid RB.live RB.count
  rw [hm]; simp [hne]

/-! ### push -/

theorem push_refine {b : RB α} {n : ℕ} (h : b.Inv n) (s : Sample α) :
    ∃ b', b.push s = .ok b' ∧ b'.Inv n ∧ b'.live = Spec.push n b.live s := by
  obtain ⟨hpos, hsz, hhd, htl, l, hbuf, hlen, hfw⟩ := h
  have hinv : b.Inv n := ⟨hpos, hsz, hhd, htl, l, hbuf, hlen, hfw⟩
  cases hf : b.firstWrite with
  | true =>
    obtain ⟨hth, _⟩ := hfw hf
    refine ⟨{ b with buffer := some (l.set b.head s), head := b.head, firstWrite := false }, ?_, ?_, ?_⟩
    · unfold RB.push; simp [hf, hbuf, hlen, hhd]
    · exact ⟨hpos, hsz, hhd, htl, _, rfl, by simp [hlen], by simp⟩
    · have h1 : b.live = [] := by unfold RB.live RB.count; simp [hf, hbuf]
      rw [h1]
      unfold RB.live RB.count
      simp only [Bool.false_eq_true, if_false, Spec.push, Spec.keepNewest, List.nil_append,
        List.length_singleton, hsz, hth]
      have h2 : (b.head + n - b.head) % n = 0 := by
        rw [Nat.add_sub_cancel_left]; exact Nat.mod_self n
      rw [h2]
      have h3 : (1 : ℕ) - n = 0 := by omega
      rw [h3]
      simp [List.range_succ, Nat.mod_eq_of_lt hhd, List.getElem?_set, hlen, hhd]
  | false =>
    have hne : ¬ (b.size = 0) := by omega
    have hcnt : b.count = (b.head + n - b.tail) % n + 1 := by unfold RB.count; simp [hf, hsz]
    have hlive := RB.live_eq hbuf hlen hpos hsz
    set hn := (b.head + 1) % n with hhn
    have hhn_lt : hn < n := Nat.mod_lt _ hpos
    by_cases hov : hn = b.tail
    · -- full: the oldest sample is overwritten
      have hc : (b.head + n - b.tail) % n = n - 1 := by
        rcases Nat.lt_or_ge (b.head + 1) n with h1 | h1
        · have : hn = b.head + 1 := Nat.mod_eq_of_lt h1
          have h2 : b.head + n - b.tail = n - 1 := by omega
          rw [h2]; exact Nat.mod_eq_of_lt (by omega)
        · have h1' : b.head + 1 = n := by omega
          have : hn = 0 := by rw [hhn, h1']; exact Nat.mod_self n
          have h2 : b.head + n - b.tail = (n - 1) + n := by omega
          rw [h2, Nat.add_mod_right]; exact Nat.mod_eq_of_lt (by omega)
      refine ⟨{ b with buffer := some (l.set hn s), head := hn, tail := (b.tail + 1) % b.size }, ?_, ?_, ?_⟩
      · unfold RB.push; simp [hf, hbuf, hlen, hsz, ← hhn, hov, htl]
        omega
      · exact ⟨hpos, hsz, hhn_lt, by simp only [hsz]; exact Nat.mod_lt _ hpos, _, rfl, by simp [hlen],
          by simp [hf]⟩
      · set t' := (b.tail + 1) % n with ht'
        have hcnt' : (hn + n - t') % n = n - 1 := by
          rcases Nat.lt_or_ge (b.tail + 1) n with h1 | h1
          · have : t' = b.tail + 1 := Nat.mod_eq_of_lt h1
            have h2 : hn + n - t' = n - 1 := by omega
            rw [h2]; exact Nat.mod_eq_of_lt (by omega)
          · have h1' : b.tail + 1 = n := by omega
            have : t' = 0 := by rw [ht', h1']; exact Nat.mod_self n
            have h2 : hn + n - t' = (n - 1) + n := by omega
            rw [h2, Nat.add_mod_right]; exact Nat.mod_eq_of_lt (by omega)
        have hl' := RB.live_eq (b := { b with buffer := some (l.set hn s), head := hn, tail := t' })
          (l := l.set hn s) (n := n) rfl (by simp [hlen]) hpos hsz
        rw [show (b.tail + 1) % b.size = t' by rw [ht', hsz], hl', hlive]
        unfold Spec.push Spec.keepNewest
        simp only [RB.count, hf, Bool.false_eq_true, if_false, hsz, hcnt', hc]
        apply List.ext_getElem
        · simp; omega
        · intro i hi1 hi2
          simp only [List.length_map, List.length_range] at hi1
          simp only [List.getElem_map, List.getElem_range, List.getElem_drop, List.getElem_append,
            List.length_map, List.length_range, List.length_append, List.length_singleton]
          have e1 : n - 1 + 1 = n := by omega
          have e2 : n - 1 + 1 + 1 - n = 1 := by omega
          rw [List.getElem_set]
          by_cases hil : i = n - 1
          · have e3 : (t' + i) % n = hn := by
              rw [hov, ht', hil, Nat.mod_add_mod]
              have : b.tail + 1 + (n - 1) = b.tail + n := by omega
              rw [this, Nat.add_mod_right]; exact Nat.mod_eq_of_lt htl
            rw [if_pos e3.symm, dif_neg (by omega)]
            simp
          · have e3 : ¬ (hn = (t' + i) % n) := by
              rw [hov, ht', Nat.mod_add_mod]
              intro hc2
              rcases Nat.lt_or_ge (b.tail + 1 + i) n with h1 | h1
              · rw [Nat.mod_eq_of_lt h1] at hc2; omega
              · rw [Nat.mod_eq_sub_mod h1, Nat.mod_eq_of_lt (by omega)] at hc2; omega
            rw [if_neg e3, dif_pos (by omega)]
            congr 1
            rw [ht', Nat.mod_add_mod, e2]; congr 1; omega
    · -- not full
      refine ⟨{ b with buffer := some (l.set hn s), head := hn, firstWrite := false }, ?_, ?_, ?_⟩
      · unfold RB.push; simp [hf, hbuf, hlen, hsz, ← hhn, hhn_lt, hov]
        omega
      · exact ⟨hpos, hsz, hhn_lt, htl, _, rfl, by simp [hlen], by simp⟩
      · set c := (b.head + n - b.tail) % n with hcdef
        have hc_lt : c < n := Nat.mod_lt _ hpos
        have hc1 : (hn + n - b.tail) % n = c + 1 ∧ c + 1 < n := by
          rcases Nat.lt_or_ge (b.head + 1) n with h1 | h1
          · have : hn = b.head + 1 := Nat.mod_eq_of_lt h1
            rcases Nat.lt_or_ge b.head b.tail with h2 | h2
            · have e : c = b.head + n - b.tail := by rw [hcdef]; exact Nat.mod_eq_of_lt (by omega)
              have e' : hn + n - b.tail < n := by omega
              rw [Nat.mod_eq_of_lt e']; omega
            · have e : c = b.head - b.tail := by
                rw [hcdef]
                have : b.head + n - b.tail = (b.head - b.tail) + n := by omega
                rw [this, Nat.add_mod_right]; exact Nat.mod_eq_of_lt (by omega)
              have : hn + n - b.tail = (hn - b.tail) + n := by omega
              rw [this, Nat.add_mod_right, Nat.mod_eq_of_lt (by omega)]; omega
          · have h1' : b.head + 1 = n := by omega
            have : hn = 0 := by rw [hhn, h1']; exact Nat.mod_self n
            have e : c = b.head - b.tail := by
              rw [hcdef]
              have : b.head + n - b.tail = (b.head - b.tail) + n := by omega
              rw [this, Nat.add_mod_right]; exact Nat.mod_eq_of_lt (by omega)
            have e' : hn + n - b.tail < n := by omega
            rw [Nat.mod_eq_of_lt e']; omega
        have hidx : (b.tail + (c + 1)) % n = hn := by
          have hcle : b.tail + c = b.head ∨ b.tail + c = b.head + n := by
            rcases Nat.lt_or_ge b.head b.tail with h2 | h2
            · right
              have e : c = b.head + n - b.tail := by rw [hcdef]; exact Nat.mod_eq_of_lt (by omega)
              omega
            · left
              have e : c = b.head - b.tail := by
                rw [hcdef]
                have : b.head + n - b.tail = (b.head - b.tail) + n := by omega
                rw [this, Nat.add_mod_right]; exact Nat.mod_eq_of_lt (by omega)
              omega
          rcases hcle with h2 | h2
          · rw [← Nat.add_assoc, h2]
          · rw [← Nat.add_assoc, h2, hhn]
            have : b.head + n + 1 = b.head + 1 + n := by omega
            rw [this, Nat.add_mod_right]
        have hl' := RB.live_eq (b := { b with buffer := some (l.set hn s), head := hn, firstWrite := false })
          (l := l.set hn s) (n := n) rfl (by simp [hlen]) hpos hsz
        rw [hl', hlive]
        unfold Spec.push Spec.keepNewest
        simp only [RB.count, hf, Bool.false_eq_true, if_false, hsz, hc1.1, ← hcdef]
        apply List.ext_getElem
        · simp; omega
        · intro i hi1 hi2
          simp only [List.length_map, List.length_range] at hi1
          simp only [List.getElem_map, List.getElem_range, List.getElem_drop, List.getElem_append,
            List.length_map, List.length_range, List.length_append, List.length_singleton]
          have e2 : c + 1 + 1 - n = 0 := by omega
          rw [List.getElem_set]
          by_cases hil : i = c + 1
          · rw [if_pos (by rw [hil]; exact hidx.symm), dif_neg (by omega)]; simp
          · have e3 : ¬ (hn = (b.tail + i) % n) := by
              rw [← hidx]
              intro hc2
              rcases Nat.lt_or_ge (b.tail + i) n with h1 | h1 <;>
              rcases Nat.lt_or_ge (b.tail + (c + 1)) n with h3 | h3
              · rw [Nat.mod_eq_of_lt h1, Nat.mod_eq_of_lt h3] at hc2; omega
              · rw [Nat.mod_eq_of_lt h1, Nat.mod_eq_sub_mod h3, Nat.mod_eq_of_lt (by omega)] at hc2; omega
              · rw [Nat.mod_eq_sub_mod h1, Nat.mod_eq_of_lt h3, Nat.mod_eq_of_lt (by omega)] at hc2; omega
              · rw [Nat.mod_eq_sub_mod h1, Nat.mod_eq_sub_mod h3, Nat.mod_eq_of_lt (by omega),
                  Nat.mod_eq_of_lt (by omega)] at hc2; omega
            rw [if_neg e3, dif_pos (by omega)]
            congr 1
            rw [e2]; simp

end Ecl.RingBuffer
