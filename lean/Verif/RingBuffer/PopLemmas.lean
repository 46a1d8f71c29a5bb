import Verif.RingBuffer.Lemmas
import Mathlib.Data.Nat.ModEq

namespace Ecl.RingBuffer

variable {α : Type*}

theorem mod_inj {n t i j : ℕ} (hi : i < n) (hj : j < n) (h : (t + i) % n = (t + j) % n) : i = j := by
  have := Nat.ModEq.add_left_cancel' t (h : t + i ≡ t + j [MOD n])
  have h' : i % n = j % n := this
  rwa [Nat.mod_eq_of_lt hi, Nat.mod_eq_of_lt hj] at h'

theorem head_eq {b : RB α} {n : ℕ} (h : b.Inv n) (hf : b.firstWrite = false) :
    (b.tail + (b.count - 1)) % n = b.head := by
  have h1 := h.head; have h2 := h.tail; have h3 := h.pos
  unfold RB.count; rw [hf, h.size]; simp only [Bool.false_eq_true, if_false, Nat.add_sub_cancel]
  rw [Nat.add_mod_mod]
  have : b.tail + (b.head + n - b.tail) = b.head + n := by omega
  rw [this, Nat.add_mod_right]; exact Nat.mod_eq_of_lt h1

theorem count_pos {b : RB α} (hf : b.firstWrite = false) : 1 ≤ b.count := by
  unfold RB.count; rw [hf]; simp

theorem scanIndex_eq {b : RB α} {n : ℕ} (h : b.Inv n) (hf : b.firstWrite = false) {i : ℕ}
    (hi : i < b.count) : b.scanIndex i = (b.tail + (b.count - 1 - i)) % n := by
  have h1 := h.head; have h2 := h.tail; have h3 := h.pos
  have hc := count_le h
  have he := head_eq h hf
  unfold RB.scanIndex; rw [h.size]
  rcases Nat.lt_or_ge (b.tail + (b.count - 1)) n with h4 | h4
  · rw [Nat.mod_eq_of_lt h4] at he
    rw [if_pos (by omega), Nat.mod_eq_of_lt (by omega)]; omega
  · rw [Nat.mod_eq_sub_mod h4, Nat.mod_eq_of_lt (by omega)] at he
    rcases Nat.lt_or_ge (b.tail + (b.count - 1 - i)) n with h5 | h5
    · rw [Nat.mod_eq_of_lt h5, if_neg (by omega)]; omega
    · rw [Nat.mod_eq_sub_mod h5, Nat.mod_eq_of_lt (by omega), if_pos (by omega)]; omega

theorem popFrom_spec {b : RB α} {n : ℕ} (h : b.Inv n) (hf : b.firstWrite = false)
    {l : List (Sample α)} (hlen : l.length = n) (ts : UInt64) (m i : ℕ) (hm : i + m = n)
    (hi : i < b.count)
    (hno : ∀ j, b.count - 1 - i < j → j < b.count → ∀ x, l[(b.tail + j) % n]? = some x →
      ¬ Spec.Eligible ts x) :
    (∃ k x, k < b.count ∧ l[(b.tail + k) % n]? = some x ∧ Spec.Eligible ts x ∧
      (∀ j, k < j → j < b.count → ∀ x, l[(b.tail + j) % n]? = some x → ¬ Spec.Eligible ts x) ∧
      b.popFrom l ts i m = .ok (some (b.consume l ((b.tail + k) % n) x, x))) ∨
    ((∀ j, j < b.count → ∀ x, l[(b.tail + j) % n]? = some x → ¬ Spec.Eligible ts x) ∧
      b.popFrom l ts i m = .ok none) := by
  have hc := count_le h
  induction m generalizing i with
  | zero => omega
  | succ m ih =>
    have hidx := scanIndex_eq h hf hi
    have hlt : (b.tail + (b.count - 1 - i)) % n < l.length := by rw [hlen]; exact Nat.mod_lt _ h.pos
    have hget : l[(b.tail + (b.count - 1 - i)) % n]? = some (l[(b.tail + (b.count - 1 - i)) % n]) :=
      List.getElem?_eq_getElem hlt
    set x := l[(b.tail + (b.count - 1 - i)) % n] with hx
    unfold RB.popFrom
    simp only [hidx, hget]
    by_cases he : Spec.Eligible ts x
    · left
      refine ⟨b.count - 1 - i, x, by omega, hget, he, hno, ?_⟩
      rw [if_pos ((isMatch_iff ts x).mpr he)]
    · rw [if_neg (by rw [isMatch_iff]; exact he)]
      have hno' : ∀ j, b.count - 1 - i ≤ j → j < b.count → ∀ x, l[(b.tail + j) % n]? = some x →
          ¬ Spec.Eligible ts x := by
        intro j hj1 hj2 y hy
        rcases Nat.lt_or_ge (b.count - 1 - i) j with h1 | h1
        · exact hno j h1 hj2 y hy
        · have : j = b.count - 1 - i := by omega
          subst this; rw [hget] at hy; cases hy; exact he
      by_cases ht : (b.tail + (b.count - 1 - i)) % n = b.tail
      · right
        have h0 : b.count - 1 - i = 0 := by
          apply mod_inj (n := n) (t := b.tail) (by omega) h.pos
          rw [ht, Nat.add_zero]; exact (Nat.mod_eq_of_lt h.tail).symm
        refine ⟨fun j hj => hno' j (by omega) hj, ?_⟩
        simp [ht]
      · have h0 : b.count - 1 - i ≠ 0 := by
          intro h0; rw [h0, Nat.add_zero] at ht; exact ht (Nat.mod_eq_of_lt h.tail)
        have hres := ih (i + 1) (by omega) (by omega)
          (fun j hj1 hj2 => hno' j (by omega) hj2)
        simp only [beq_iff_eq, ht, if_false]
        exact hres

theorem consume_spec {b : RB α} {n : ℕ} (h : b.Inv n) (hf : b.firstWrite = false)
    {l : List (Sample α)} (hbuf : b.buffer = some l) (hlen : l.length = n) {k : ℕ} (hk : k < b.count)
    (x : Sample α) :
    (b.consume l ((b.tail + k) % n) x).Inv n ∧
      (b.consume l ((b.tail + k) % n) x).live = b.live.drop (k + 1) := by
  have hc := count_le h
  have he := head_eq h hf
  have hpos := h.pos
  have hlive := RB.live_eq hbuf hlen hpos h.size
  have hidx : (b.tail + k) % n < n := Nat.mod_lt _ hpos
  unfold RB.consume
  by_cases hh : (b.tail + k) % n = b.head
  · have hk' : k = b.count - 1 := by
      apply mod_inj (n := n) (t := b.tail) (by omega) (by omega)
      rw [hh, he]
    simp only [hh, beq_self_eq_true, if_true]
    refine ⟨⟨hpos, h.size, h.head, h.head, _, rfl, by simp [hlen], ?_⟩, ?_⟩
    · intro _; refine ⟨rfl, ?_⟩
      intro y hy
      simp only [List.getElem?_set, hlen, h.head] at hy
      simp at hy; rw [← hy]
    · have h1 : b.live.length = b.count := by rw [hlive]; simp
      rw [List.drop_eq_nil_of_le (by omega)]
      unfold RB.live RB.count; simp
  · have hk' : k + 1 < b.count := by
      rcases Nat.lt_or_ge (k + 1) b.count with h1 | h1
      · exact h1
      · exfalso; apply hh; have : k = b.count - 1 := by omega
        rw [this]; exact he
    have hb1 : (((b.tail + k) % n) == b.head) = false := by simp [hh]
    simp only [hb1, Bool.false_eq_true, if_false]
    have ht : ((b.tail + k) % n + 1) % b.size = (b.tail + (k + 1)) % n := by
      rw [h.size, Nat.mod_add_mod, Nat.add_assoc]
    rw [ht]
    set t' := (b.tail + (k + 1)) % n with ht'
    have ht'lt : t' < n := Nat.mod_lt _ hpos
    set idx := (b.tail + k) % n with hidxdef
    refine ⟨⟨hpos, h.size, h.head, ht'lt, _, rfl, by simp [hlen], by simp [hf]⟩, ?_⟩
    have hcnt' : (b.head + n - t') % n + 1 = b.count - (k + 1) := by
      have h1 := h.head; have h2 := h.tail
      rcases Nat.lt_or_ge (b.tail + (b.count - 1)) n with h4 | h4
      · rw [Nat.mod_eq_of_lt h4] at he
        have : t' = b.tail + (k + 1) := by rw [ht']; exact Nat.mod_eq_of_lt (by omega)
        have e : b.head + n - t' = (b.head - t') + n := by omega
        rw [e, Nat.add_mod_right, Nat.mod_eq_of_lt (by omega)]; omega
      · rw [Nat.mod_eq_sub_mod h4, Nat.mod_eq_of_lt (by omega)] at he
        rcases Nat.lt_or_ge (b.tail + (k + 1)) n with h5 | h5
        · have : t' = b.tail + (k + 1) := by rw [ht']; exact Nat.mod_eq_of_lt h5
          rw [Nat.mod_eq_of_lt (by omega)]; omega
        · have : t' = b.tail + (k + 1) - n := by
            rw [ht', Nat.mod_eq_sub_mod h5]; exact Nat.mod_eq_of_lt (by omega)
          have e : b.head + n - t' = (b.head - t') + n := by omega
          rw [e, Nat.add_mod_right, Nat.mod_eq_of_lt (by omega)]; omega
    have hl' := RB.live_eq (b := { b with buffer := some (l.set idx { x with time_us := 0 }), tail := t' })
      (l := l.set idx { x with time_us := 0 }) (n := n) rfl (by simp [hlen]) hpos h.size
    rw [hl', hlive]
    have hcc : ({ b with buffer := some (l.set idx { x with time_us := 0 }), tail := t' } : RB α).count
        = b.count - (k + 1) := by
      show (if b.firstWrite then 0 else (b.head + b.size - t') % b.size + 1) = _
      rw [hf, h.size]; simpa using hcnt'
    rw [hcc]
    apply List.ext_getElem
    · simp
    · intro i hi1 hi2
      simp only [List.length_map, List.length_range] at hi1
      simp only [List.getElem_map, List.getElem_range, List.getElem_drop]
      rw [List.getElem_set]
      have e3 : ¬ idx = (t' + i) % n := by
        rw [hidxdef, ht', Nat.mod_add_mod, Nat.add_assoc]
        intro hcon
        have := mod_inj (n := n) (t := b.tail) (by omega) (by omega) hcon
        omega
      rw [if_neg e3]
      congr 1
      rw [ht', Nat.mod_add_mod, Nat.add_assoc]

theorem live_getElem? {b : RB α} {n : ℕ} (h : b.Inv n) {l : List (Sample α)} (hbuf : b.buffer = some l)
    (hlen : l.length = n) {k : ℕ} (hk : k < b.count) : b.live[k]? = l[(b.tail + k) % n]? := by
  rw [RB.live_eq hbuf hlen h.pos h.size]
  have : (b.tail + k) % n < l.length := by rw [hlen]; exact Nat.mod_lt _ h.pos
  simp [hk, List.getElem?_eq_getElem this]

theorem live_length {b : RB α} {n : ℕ} (h : b.Inv n) : b.live.length = b.count := by
  obtain ⟨l, hbuf, hlen, _⟩ := h.buf
  rw [RB.live_eq hbuf hlen h.pos h.size]; simp

theorem pop_refine {b : RB α} {n : ℕ} (h : b.Inv n) (ts : UInt64) (hts : 100000 ≤ ts.toNat) :
    (∃ b' x q', b.pop ts = .ok (some (b', x)) ∧ b'.Inv n ∧ Spec.pop ts b.live = some (x, q') ∧ b'.live = q') ∨
    (b.pop ts = .ok none ∧ Spec.pop ts b.live = none) := by
  obtain ⟨l, hbuf, hlen, hfw⟩ := h.buf
  have hpos := h.pos
  cases hf : b.firstWrite with
  | true =>
    right
    obtain ⟨hth, hz⟩ := hfw hf
    have hl : b.live = [] := by unfold RB.live RB.count; simp [hf, hbuf]
    rw [hl]
    refine ⟨?_, rfl⟩
    have hlt : b.head < l.length := by rw [hlen]; exact h.head
    have hget := List.getElem?_eq_getElem hlt
    have ht0 := hz _ hget
    have hnm : isMatch ts l[b.head] = false := by
      rw [Bool.eq_false_iff]; intro hc
      rw [isMatch_iff] at hc
      have := hc.2.1; rw [ht0] at this
      simp at this; omega
    unfold RB.pop; rw [hbuf]; simp only
    obtain ⟨m, hm⟩ : ∃ m, b.size = m + 1 := ⟨b.size - 1, by rw [h.size]; omega⟩
    rw [hm]
    unfold RB.popFrom RB.scanIndex
    simp [hget, hnm, hth]
  | false =>
    have hcp := count_pos hf
    have hres := popFrom_spec h hf hlen ts n 0 (by omega) (by omega) (fun j h1 h2 => by omega)
    have hpop : b.pop ts = b.popFrom l ts 0 n := by unfold RB.pop; rw [hbuf, h.size]
    rcases hres with ⟨k, x, hk, hx, hel, hno, hr⟩ | ⟨hno, hr⟩
    · left
      obtain ⟨hi, hl⟩ := consume_spec h hf hbuf hlen hk x
      refine ⟨_, x, b.live.drop (k + 1), by rw [hpop, hr], hi, ?_, hl⟩
      have hxk : b.live[k]? = some x := by rw [live_getElem? h hbuf hlen hk]; exact hx
      have hsplit : b.live = b.live.take k ++ x :: b.live.drop (k + 1) := by
        obtain ⟨hkl, hxe⟩ := List.getElem?_eq_some_iff.mp hxk
        rw [← hxe, List.getElem_cons_drop, List.take_append_drop]
      conv_lhs => rw [hsplit]
      apply Spec.pop_append hel
      intro s hs
      obtain ⟨j, hj⟩ := List.mem_iff_getElem?.mp hs
      rw [List.getElem?_drop] at hj
      have hjl : k + 1 + j < b.count := by
        rw [← live_length h]
        exact (List.getElem?_eq_some_iff.mp hj).1
      rw [live_getElem? h hbuf hlen hjl] at hj
      exact hno _ (by omega) hjl s hj
    · right
      refine ⟨by rw [hpop, hr], ?_⟩
      rw [Spec.pop_none_iff]
      intro s hs
      obtain ⟨j, hj⟩ := List.mem_iff_getElem?.mp hs
      have hjl : j < b.count := by
        rw [← live_length h]; exact (List.getElem?_eq_some_iff.mp hj).1
      rw [live_getElem? h hbuf hlen hjl] at hj
      exact hno _ hjl s hj

end Ecl.RingBuffer
