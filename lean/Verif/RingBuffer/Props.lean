import Verif.RingBuffer.PopLemmas

/-!
# Properties C01, C02, C03 — `RingBuffer` is a bounded FIFO
-/

namespace Ecl.RingBuffer

variable {α : Type*}

/-- Run a list of client operations on the concrete buffer (`Except` = undefined behaviour),
collecting the results of the pop calls. -/
def RB.run : List (Spec.Op α) → RB α → Except UB (RB α × List (Option (Sample α)))
  | [], b => .ok (b, [])
  | .push s :: ops, b =>
    match b.push s with
    | .error e => .error e
    | .ok b' => RB.run ops b'
  | .pop ts :: ops, b =>
    match b.pop ts with
    | .error e => .error e
    | .ok none =>
      match RB.run ops b with
      | .error e => .error e
      | .ok (b', out) => .ok (b', none :: out)
    | .ok (some (b', x)) =>
      match RB.run ops b' with
      | .error e => .error e
      | .ok (b'', out) => .ok (b'', some x :: out)

/-- every query time in the list is at least 100 ms -/
def QueriesLate (ops : List (Spec.Op α)) : Prop :=
  ∀ ts, Spec.Op.pop ts ∈ ops → 100000 ≤ ts.toNat

theorem run_refine (n : ℕ) (ops : List (Spec.Op α)) (hq : QueriesLate ops) (b : RB α) (h : b.Inv n) :
    ∃ b', b.run ops = .ok (b', (Spec.run n ops b.live).2) ∧ b'.Inv n ∧
      b'.live = (Spec.run n ops b.live).1 := by
  induction ops generalizing b with
  | nil => exact ⟨b, rfl, h, rfl⟩
  | cons op ops ih =>
    have hq' : QueriesLate ops := fun ts hts => hq ts (List.mem_cons_of_mem _ hts)
    cases op with
    | push s =>
      obtain ⟨b1, h1, hi1, hl1⟩ := push_refine h s
      obtain ⟨b2, h2, hi2, hl2⟩ := ih hq' b1 hi1
      refine ⟨b2, ?_, hi2, ?_⟩
      · unfold RB.run; rw [h1]; simp only; rw [h2, hl1]; rfl
      · rw [hl2, hl1]; rfl
    | pop ts =>
      have hts : 100000 ≤ ts.toNat := hq ts (by simp)
      rcases pop_refine h ts hts with ⟨b1, x, q', h1, hi1, hs, hl⟩ | ⟨h1, hs⟩
      · obtain ⟨b2, h2, hi2, hl2⟩ := ih hq' b1 hi1
        refine ⟨b2, ?_, hi2, ?_⟩
        · unfold RB.run Spec.run; rw [h1, hs]; simp only; rw [h2, hl]
        · unfold Spec.run; rw [hs, hl2, hl]
      · obtain ⟨b2, h2, hi2, hl2⟩ := ih hq' b h
        refine ⟨b2, ?_, hi2, ?_⟩
        · unfold RB.run Spec.run; rw [h1, hs]; simp only; rw [h2]
        · unfold Spec.run; rw [hs, hl2]

/-- **C01 (refinement).** For every capacity `n` in 1..255 and every sequence of push/pop calls (query
times of at least 100 ms), the freshly constructed ring buffer runs without undefined behaviour, returns
exactly the results of the abstract queue that keeps the newest `n` unconsumed samples, and ends up with
exactly the abstract queue's content. -/
theorem ringbuffer_refines_queue [Inhabited α] (n : ℕ) (h0 : 0 < n) (h1 : n < 256)
    (ops : List (Spec.Op α)) (hq : QueriesLate ops) :
    ∃ b, (RB.new n : RB α).run ops = .ok (b, (Spec.run n ops []).2) ∧ b.live = (Spec.run n ops []).1 := by
  obtain ⟨b, hb, _, hl⟩ := run_refine n ops hq (RB.new n) (inv_new h0 h1)
  rw [live_new h0 h1] at hb hl
  exact ⟨b, hb, hl⟩

/-- the abstract queue never exceeds its capacity -/
theorem spec_length_le (n : ℕ) (ops : List (Spec.Op α)) (q : List (Sample α)) (hq : q.length ≤ n) :
    (Spec.run n ops q).1.length ≤ n := by
  induction ops generalizing q with
  | nil => exact hq
  | cons op ops ih =>
    cases op with
    | push s =>
      apply ih; unfold Spec.push Spec.keepNewest
      rw [List.length_drop]; omega
    | pop ts =>
      unfold Spec.run
      cases hp : Spec.pop ts q with
      | none => exact ih q hq
      | some r =>
        obtain ⟨x, q'⟩ := r
        obtain ⟨o, ho, _⟩ := Spec.pop_some_split hp
        simp only
        apply ih
        rw [ho] at hq; simp at hq; omega

/-- **C01 (accessors).** If any sample is live, `get_newest`/`get_oldest` return the newest/oldest live
sample; the internal bounds hold in every state reached by late-query histories. -/
theorem ringbuffer_accessors [Inhabited α] (n : ℕ) (h0 : 0 < n) (h1 : n < 256)
    (ops : List (Spec.Op α)) (hq : QueriesLate ops) (b : RB α) (out : List (Option (Sample α)))
    (hrun : (RB.new n : RB α).run ops = .ok (b, out)) (x : Sample α) :
    ((Spec.run n ops []).1.getLast? = some x → b.getNewest = .ok x) ∧
    ((Spec.run n ops []).1.head? = some x → b.getOldest = .ok x) := by
  obtain ⟨b', hb, hi, hl⟩ := run_refine n ops hq (RB.new n : RB α) (inv_new h0 h1)
  rw [hrun] at hb; simp only [Except.ok.injEq, Prod.mk.injEq] at hb
  obtain ⟨rfl, _⟩ := hb
  rw [live_new h0 h1] at hl
  rw [← hl]
  obtain ⟨l, hbuf, hlen, _⟩ := hi.buf
  have hll := live_length hi
  have hne : ∀ {y}, y ∈ b.live → b.firstWrite = false := by
    intro y hy
    cases hf : b.firstWrite with
    | false => rfl
    | true => unfold RB.live RB.count at hy; simp [hf, hbuf] at hy
  constructor
  · intro hx
    have hf := hne (List.mem_of_getLast? hx)
    have hc := count_pos hf
    rw [List.getLast?_eq_getElem?, hll, live_getElem? hi hbuf hlen (by omega), head_eq hi hf] at hx
    unfold RB.getNewest; rw [hbuf]; simp [hx]
  · intro hx
    have hf := hne (List.mem_of_head? hx)
    have hc := count_pos hf
    rw [List.head?_eq_getElem?, live_getElem? hi hbuf hlen (by omega), Nat.add_zero,
      Nat.mod_eq_of_lt hi.tail] at hx
    unfold RB.getOldest; rw [hbuf]; simp [hx]

/-- **C01 (allocation).** `allocate` with the current size changes nothing; with another positive size
below 256 it yields an empty buffer of exactly that capacity; size zero is refused and changes nothing. -/
theorem ringbuffer_allocate [Inhabited α] (b : RB α) (n m : ℕ) (h : b.Inv n) :
    (m = n → b.allocate m = (b, true)) ∧
    (m = 0 → b.allocate m = (b, false)) ∧
    (0 < m → m ≠ n → ∃ b', b.allocate m = (b', true) ∧ b'.Inv m ∧ b'.live = []) := by
  obtain ⟨l, hbuf, hlen, _⟩ := h.buf
  have hv : b.valid = true := by unfold RB.valid; simp [hbuf, h.size, h.pos]
  have hp := h.pos
  refine ⟨?_, ?_, ?_⟩
  · rintro rfl; unfold RB.allocate; simp [hv, h.size]
  · rintro rfl; unfold RB.allocate; simp [h.size]; omega
  · intro hm hmn
    have e1 : (m == b.size) = false := by simp [h.size, hmn]
    have e2 : (m == 0) = false := by simp; omega
    refine ⟨⟨some (List.replicate m (Sample.zero α)), 0, 0, m, true⟩, by unfold RB.allocate; simp [e1, e2], ?_, ?_⟩
    · refine ⟨hm, rfl, hm, hm, _, rfl, by simp, ?_⟩
      intro _; refine ⟨rfl, ?_⟩
      intro x hx
      simp only at hx
      rw [List.getElem?_replicate, if_pos hm, Option.some.injEq] at hx
      rw [← hx]; rfl
    · unfold RB.live RB.count; simp

/-- **C02.** From any state reached by a late-query history, a pop at `ts ≥ 100 ms` succeeds iff a live
sample is eligible; on success it returns the newest eligible live sample `x`, and exactly the samples
newer than `x` remain; on failure nothing changes. -/
theorem pop_delivers_newest_eligible [Inhabited α] (n : ℕ) (h0 : 0 < n) (h1 : n < 256)
    (ops : List (Spec.Op α)) (hq : QueriesLate ops) (b : RB α) (out : List (Option (Sample α)))
    (hrun : (RB.new n : RB α).run ops = .ok (b, out)) (ts : UInt64) (hts : 100000 ≤ ts.toNat) :
    ((∃ s ∈ b.live, Spec.Eligible ts s) ∧
      ∃ b' x older newer, b.pop ts = .ok (some (b', x)) ∧ b.live = older ++ x :: newer ∧
        Spec.Eligible ts x ∧ (∀ s ∈ newer, ¬ Spec.Eligible ts s) ∧ b'.live = newer) ∨
    ((∀ s ∈ b.live, ¬ Spec.Eligible ts s) ∧ b.pop ts = .ok none) := by
  obtain ⟨b', hb, hi, _⟩ := run_refine n ops hq (RB.new n : RB α) (inv_new h0 h1)
  rw [hrun] at hb; simp only [Except.ok.injEq, Prod.mk.injEq] at hb
  obtain ⟨rfl, _⟩ := hb
  rcases pop_refine hi ts hts with ⟨b2, x, q', hp, _, hs, hl⟩ | ⟨hp, hs⟩
  · left
    obtain ⟨o, ho, he, hno⟩ := Spec.pop_some_split hs
    refine ⟨⟨x, by rw [ho]; simp, he⟩, b2, x, o, q', hp, ho, he, hno, hl⟩
  · right; exact ⟨(Spec.pop_none_iff _ _).mp hs, hp⟩

/-- the samples pushed by a history, in order -/
def pushed : List (Spec.Op α) → List (Sample α)
  | [] => []
  | .push s :: ops => s :: pushed ops
  | .pop _ :: ops => pushed ops

theorem spec_delivered_sublist (n : ℕ) (ops : List (Spec.Op α)) (q : List (Sample α)) :
    List.Sublist ((Spec.run n ops q).2.filterMap id) (q ++ pushed ops) := by
  induction ops generalizing q with
  | nil => simp [Spec.run]
  | cons op ops ih =>
    cases op with
    | push s =>
      unfold Spec.run pushed
      refine (ih (Spec.push n q s)).trans ?_
      have : q ++ s :: pushed ops = (q ++ [s]) ++ pushed ops := by simp
      rw [this]
      exact List.Sublist.append (List.drop_sublist _ _) (List.Sublist.refl _)
    | pop ts =>
      unfold Spec.run pushed
      cases hp : Spec.pop ts q with
      | none => simpa using ih q
      | some r =>
        obtain ⟨x, q'⟩ := r
        obtain ⟨o, ho, _⟩ := Spec.pop_some_split hp
        simp only [List.filterMap_cons, id]
        rw [ho, List.append_assoc, List.cons_append]
        exact List.Sublist.trans ((ih q').cons_cons x) (List.sublist_append_right _ _)

/-- **C02 (at most once, in order).** The samples delivered over any late-query history are a sublist of
the samples pushed: each pushed sample is delivered at most once, unmodified and in arrival order. -/
theorem delivered_at_most_once [Inhabited α] (n : ℕ) (h0 : 0 < n) (h1 : n < 256)
    (ops : List (Spec.Op α)) (hq : QueriesLate ops) (b : RB α) (out : List (Option (Sample α)))
    (hrun : (RB.new n : RB α).run ops = .ok (b, out)) :
    List.Sublist (out.filterMap id) (pushed ops) := by
  obtain ⟨b', hb, _⟩ := ringbuffer_refines_queue n h0 h1 ops hq
  rw [hrun] at hb; simp only [Except.ok.injEq, Prod.mk.injEq] at hb
  rw [hb.2]
  simpa using spec_delivered_sublist n ops ([] : List (Sample α))

/-- Non-vacuity of C01/C02: a concrete history of capacity 2 that wraps, pops and overwrites. -/
example : ∃ b, (RB.new 2 : RB ℕ).run
    [.push ⟨100000, 1⟩, .push ⟨150000, 2⟩, .push ⟨300000, 3⟩, .pop 200000, .pop 200000, .pop 350000]
    = .ok (b, [some ⟨150000, 2⟩, none, some ⟨300000, 3⟩]) ∧ b.live = [] := ⟨_, rfl, rfl⟩

example : QueriesLate (α := ℕ)
    [.push ⟨100000, 1⟩, .push ⟨150000, 2⟩, .push ⟨300000, 3⟩, .pop 200000, .pop 200000, .pop 350000] := by
  intro ts h; simp at h; rcases h with rfl | rfl | rfl <;> decide

/-- **C03 (the contract fails for early queries).** There is a history with a query time below 100 ms in
which one pushed sample is delivered twice by the ring buffer (a consumed slot is only marked by
`time_us = 0`), so the unrestricted FIFO contract is false. -/
theorem early_query_redelivers :
    ∃ (ops : List (Spec.Op ℕ)) (b : RB ℕ) (out : List (Option (Sample ℕ))),
      (RB.new 1 : RB ℕ).run ops = .ok (b, out) ∧ (pushed ops).length = 1 ∧
      (out.filterMap id).map Sample.data = [7, 7] :=
  ⟨[.push ⟨50000, 7⟩, .pop 60000, .pop 60000], _, _, rfl, rfl, rfl⟩

/-- **C03.** An early query even delivers a sample from a buffer nothing was ever pushed to. -/
theorem early_query_invents_sample :
    ∃ (b : RB ℕ) (x : Sample ℕ), (RB.new 3 : RB ℕ).run [.pop 99999] = .ok (b, [some x]) :=
  ⟨_, _, rfl⟩

/-- The constructor takes a `size_t` but allocates with `uint8_t`: requesting 256 slots leaves the buffer
unallocated and the first push dereferences a null pointer. -/
theorem constructor_256_unusable (s : Sample ℕ) :
    (RB.new 256 : RB ℕ).valid = false ∧ (RB.new 256 : RB ℕ).push s = .error .nullDeref := ⟨rfl, rfl⟩

/-- More generally the capacity obtained is the requested one modulo 256. -/
theorem constructor_truncates [Inhabited α] (n : ℕ) : (RB.new n : RB α).size = n % 256 := by
  unfold RB.new RB.allocate RB.blank RB.valid
  simp only [Option.isSome_none, Bool.false_and, Bool.false_eq_true, if_false]
  split
  · next h => simp at h; simp [h]
  · rfl

/-- **C03 (unallocated buffer).** A buffer constructed with a size that is a multiple of 256 is not allocated: every query answers "no sample"
without touching memory, while every push dereferences a null pointer. -/
theorem unallocated_buffer [Inhabited α] (n : ℕ) (h : n % 256 = 0) (ts : UInt64) (s : Sample α) :
    (RB.new n : RB α).valid = false ∧ (RB.new n : RB α).pop ts = .ok none ∧ (RB.new n : RB α).push s = .error .nullDeref := by
  have e : (RB.new n : RB α) = RB.blank := by
    unfold RB.new RB.allocate RB.blank RB.valid
    simp [h]
  rw [e]
  exact ⟨rfl, rfl, rfl⟩

example : (512 : ℕ) % 256 = 0 := rfl

end Ecl.RingBuffer
