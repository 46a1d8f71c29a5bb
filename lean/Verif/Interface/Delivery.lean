import Verif.Interface.Props

/-!
# Property C146 — no accepted sample is lost, and each is fused at the first filter step that reaches its time

`_min_obs_interval_us` is introduced in the code with the words "the minimum interval between observations required to
guarantee no loss of data; this will occur if data is overwritten before its time stamp falls behind the fusion time
horizon" (EKF/estimator_interface.cpp:80-83).  Here the guarantee is stated for whole histories and proved, under
conditions on the pace of the sensor and of the filter; it is also shown to fail while the IMU buffer is filling.
-/

namespace Ecl.Interface

open Ecl.RingBuffer

variable {α : Type*}

/-! ### Specification -/

/-- What the filter ought to receive.  No buffer: the list `all` of everything accepted so far is kept for ever.  A
filter step whose horizon moves from `τ` to `t` receives the samples that became due in between, `τ < time ≤ t`. -/
def Spec.dueRun : ℕ → List (Sample α) → List (RingBuffer.Spec.Op α) → List (List (Sample α))
  | _, _, [] => []
  | τ, all, .push s :: ops => dueRun τ (all ++ [s]) ops
  | τ, all, .pop t :: ops =>
    all.filter (fun s => decide (τ < s.time_us.toNat ∧ s.time_us.toNat ≤ t.toNat)) :: dueRun t.toNat all ops

/-- the horizon after a history -/
def Spec.horizon : ℕ → List (RingBuffer.Spec.Op α) → ℕ
  | τ, [] => τ
  | τ, .push _ :: ops => horizon τ ops
  | _, .pop t :: ops => horizon t.toNat ops

/-- The pace of a history, seen at the buffer of capacity `n` (`τ`: current horizon, `last`: last stamp pushed):
samples arrive before the horizon has passed them, at least `g` apart and at most `n * g` ahead of the horizon; the
horizon moves forward by at most `g` and at most 100 ms per step. -/
def Spec.Timely (n g : ℕ) : ℕ → ℕ → List (RingBuffer.Spec.Op α) → Prop
  | _, _, [] => True
  | τ, last, .push s :: ops =>
    (τ < s.time_us.toNat ∧ last + g ≤ s.time_us.toNat ∧ s.time_us.toNat ≤ τ + n * g ∧
      s.time_us.toNat + 100000 < 2 ^ 64) ∧ Timely n g τ s.time_us.toNat ops
  | τ, last, .pop t :: ops =>
    (100000 ≤ t.toNat ∧ τ ≤ t.toNat ∧ t.toNat ≤ τ + g ∧ t.toNat ≤ τ + 100000) ∧ Timely n g t.toNat last ops

/-! ### The queue -/

/-- stamps at least `g` apart -/
def Spaced (g : ℕ) (q : List (Sample α)) : Prop := q.Pairwise fun a b => a.time_us.toNat + g ≤ b.time_us.toNat

theorem spaced_length {g : ℕ} {q : List (Sample α)} (h : Spaced g q) (τ : ℕ) (hτ : ∀ s ∈ q, τ < s.time_us.toNat)
    (x : Sample α) (hx : q.getLast? = some x) : τ + 1 + (q.length - 1) * g ≤ x.time_us.toNat := by
  induction q generalizing τ with
  | nil => simp at hx
  | cons a q ih =>
    cases q with
    | nil => simp at hx; subst hx; have := hτ a (by simp); simp; omega
    | cons b q =>
      rw [Spaced, List.pairwise_cons] at h
      have hlast : (b :: q).getLast? = some x := by simpa [List.getLast?_cons_cons] using hx
      have ha := hτ a (by simp)
      have := ih h.2 (τ + g) (fun s hs => by have := h.1 s hs; omega) hlast
      simp only [List.length_cons, Nat.add_sub_cancel] at this ⊢
      have e : (q.length + 1) * g = q.length * g + g := by ring
      rw [e]; omega

theorem spaced_push {n g : ℕ} {q : List (Sample α)} {s : Sample α} (τ : ℕ) (hs : Spaced g q)
    (hτ : ∀ x ∈ q, τ < x.time_us.toNat) (h : τ < s.time_us.toNat)
    (hlast : ∀ x ∈ q, x.time_us.toNat + g ≤ s.time_us.toNat) (hw : s.time_us.toNat ≤ τ + n * g) :
    Spaced g (q ++ [s]) ∧ RingBuffer.Spec.push n q s = q ++ [s] := by
  have hsp : Spaced g (q ++ [s]) := by
    rw [Spaced, List.pairwise_append]
    refine ⟨hs, by simp, ?_⟩
    intro a ha b hb; simp at hb; subst hb; exact hlast a ha
  refine ⟨hsp, ?_⟩
  have hl := spaced_length hsp τ (by
    intro x hx; simp at hx; rcases hx with hx | rfl
    · exact hτ x hx
    · exact h) s (by simp)
  simp only [List.length_append, List.length_cons, List.length_nil, zero_add, Nat.add_sub_cancel] at hl
  have hlen : q.length < n := by
    by_contra hc
    have := Nat.mul_le_mul_right g (Nat.le_of_not_lt hc)
    omega
  unfold RingBuffer.Spec.push RingBuffer.Spec.keepNewest
  rw [show (q ++ [s]).length - n = 0 by simp; omega, List.drop_zero]

theorem due_head {g : ℕ} {q : List (Sample α)} (τ : ℕ) (t : UInt64) (hs : Spaced g q)
    (hτ : ∀ x ∈ q, τ < x.time_us.toNat) (hr : ∀ x ∈ q, x.time_us.toNat + 100000 < 2 ^ 64)
    (h1 : t.toNat ≤ τ + g) (h2 : t.toNat ≤ τ + 100000) :
    (∃ x q', q = x :: q' ∧ x.time_us.toNat ≤ t.toNat ∧ (∀ y ∈ q', t.toNat < y.time_us.toNat) ∧
      RingBuffer.Spec.pop t q = some (x, q')) ∨
    ((∀ y ∈ q, t.toNat < y.time_us.toNat) ∧ RingBuffer.Spec.pop t q = none) := by
  have hnone : ∀ q' : List (Sample α), (∀ y ∈ q', t.toNat < y.time_us.toNat) → RingBuffer.Spec.pop t q' = none := by
    intro q' hq'
    rw [RingBuffer.Spec.pop_none_iff]
    intro y hy he
    have := hq' y hy; have := he.1; omega
  cases q with
  | nil => right; exact ⟨by simp, rfl⟩
  | cons x q' =>
    rw [Spaced, List.pairwise_cons] at hs
    have hx := hτ x (by simp)
    have hq' : ∀ y ∈ q', t.toNat < y.time_us.toNat := fun y hy => by have := hs.1 y hy; omega
    by_cases hxt : x.time_us.toNat ≤ t.toNat
    · left
      refine ⟨x, q', rfl, hxt, hq', ?_⟩
      unfold RingBuffer.Spec.pop
      rw [hnone q' hq']
      have : RingBuffer.Spec.Eligible t x := ⟨hxt, by omega, hr x (by simp)⟩
      simp [this]
    · right
      have : ∀ y ∈ x :: q', t.toNat < y.time_us.toNat := by
        intro y hy; simp at hy; rcases hy with rfl | hy
        · omega
        · exact hq' y hy
      exact ⟨this, hnone _ this⟩

theorem queue_delivers_due (n g : ℕ) (ops : List (RingBuffer.Spec.Op α)) (τ last : ℕ) (all q : List (Sample α))
    (hq : q = all.filter fun s => decide (τ < s.time_us.toNat)) (hs : Spaced g q)
    (hr : ∀ x ∈ q, x.time_us.toNat + 100000 < 2 ^ 64) (hl : ∀ x ∈ q, x.time_us.toNat ≤ last)
    (h : Spec.Timely n g τ last ops) :
    (RingBuffer.Spec.run n ops q).2.map Option.toList = Spec.dueRun τ all ops ∧
    (RingBuffer.Spec.run n ops q).1 =
      (all ++ pushed ops).filter (fun s => decide (Spec.horizon τ ops < s.time_us.toNat)) := by
  induction ops generalizing τ last all q with
  | nil =>
    refine ⟨rfl, ?_⟩
    unfold RingBuffer.Spec.run Spec.horizon pushed
    rw [List.append_nil]; exact hq
  | cons op ops ih =>
    have hτ : ∀ x ∈ q, τ < x.time_us.toNat := by intro x hx; rw [hq] at hx; simpa using (List.mem_filter.mp hx).2
    cases op with
    | push s =>
      obtain ⟨⟨h1, h2, h3, h4⟩, h5⟩ := h
      obtain ⟨hsp, hp⟩ := spaced_push (n := n) τ hs hτ h1 (fun x hx => by have := hl x hx; omega) h3
      have := ih τ s.time_us.toNat (all ++ [s]) (q ++ [s]) (by
        rw [List.filter_append, ← hq]; simp [h1]) hsp (by
        intro x hx; simp at hx; rcases hx with hx | rfl
        · exact hr x hx
        · exact h4) (by
        intro x hx; simp at hx; rcases hx with hx | rfl
        · have := hl x hx; omega
        · exact le_refl _) h5
      unfold RingBuffer.Spec.run Spec.dueRun Spec.horizon pushed
      rw [hp]
      refine ⟨this.1, ?_⟩
      rw [this.2, List.append_assoc]; rfl
    | pop t =>
      obtain ⟨⟨_, h2, h3, h4⟩, h5⟩ := h
      have hfl : (all.filter fun s => decide (τ < s.time_us.toNat ∧ s.time_us.toNat ≤ t.toNat)) =
          q.filter fun s => decide (s.time_us.toNat ≤ t.toNat) := by
        rw [hq, List.filter_filter]; congr 1; funext s; by_cases a : τ < s.time_us.toNat <;>
          by_cases b : s.time_us.toNat ≤ t.toNat <;> simp [a, b]
      have hfr : (all.filter fun s => decide (t.toNat < s.time_us.toNat)) =
          q.filter fun s => decide (t.toNat < s.time_us.toNat) := by
        rw [hq, List.filter_filter]; congr 1; funext s
        by_cases b : t.toNat < s.time_us.toNat
        · simp [b]; omega
        · simp [b]
      rcases due_head τ t hs hτ hr h3 h4 with ⟨x, q', e, hxt, hnew, hp⟩ | ⟨hnew, hp⟩
      · have hq' : q' = all.filter fun s => decide (t.toNat < s.time_us.toNat) := by
          rw [hfr, e, List.filter_cons_of_neg (by simpa using hxt), List.filter_eq_self.mpr]
          intro y hy; simpa using hnew y hy
        have hmem : ∀ y ∈ q', y ∈ q := fun y hy => by rw [e]; exact List.mem_cons_of_mem _ hy
        have := ih t.toNat last all q' hq' (by rw [e, Spaced, List.pairwise_cons] at hs; exact hs.2)
          (fun y hy => hr y (hmem y hy)) (fun y hy => hl y (hmem y hy)) h5
        unfold RingBuffer.Spec.run Spec.dueRun Spec.horizon pushed
        rw [hp]
        refine ⟨?_, this.2⟩
        simp only [List.map_cons, Option.toList_some]
        rw [this.1, hfl, e, List.filter_cons_of_pos (by simpa using hxt), List.filter_eq_nil_iff.mpr]
        intro y hy; have := hnew y hy; simp; omega
      · have hq' : q = all.filter fun s => decide (t.toNat < s.time_us.toNat) := by
          rw [hfr, List.filter_eq_self.mpr]
          intro y hy; simpa using hnew y hy
        have := ih t.toNat last all q hq' hs hr hl h5
        unfold RingBuffer.Spec.run Spec.dueRun Spec.horizon pushed
        rw [hp]
        refine ⟨?_, this.2⟩
        simp only [List.map_cons, Option.toList_none]
        rw [this.1, hfl, List.filter_eq_nil_iff.mpr]
        intro y hy; have := hnew y hy; simp; omega

theorem timely_late (n g : ℕ) (ops : List (RingBuffer.Spec.Op α)) (τ last : ℕ) (h : Spec.Timely n g τ last ops) :
    QueriesLate ops := by
  induction ops generalizing τ last with
  | nil => intro ts hts; simp at hts
  | cons op ops ih =>
    cases op with
    | push s => intro ts hts; simp at hts; exact ih _ _ h.2 ts hts
    | pop t =>
      intro ts hts; simp at hts
      rcases hts with rfl | hts
      · exact h.1.1
      · exact ih _ _ h.2 ts hts

/-- **C146 (buffer).** For every capacity 1..255 and every timely history, each query of the ring buffer returns
exactly the samples that became due since the previous query — one or none —, nothing is lost, nothing comes twice
and nothing comes late; what remains in the buffer is exactly what is not yet due. -/
theorem buffer_delivers_due [Inhabited α] (n g : ℕ) (h0 : 0 < n) (h1 : n < 256) (τ : ℕ)
    (ops : List (RingBuffer.Spec.Op α)) (h : Spec.Timely n g τ 0 ops) :
    ∃ b out, (RB.new n : RB α).run ops = .ok (b, out) ∧ out.map Option.toList = Spec.dueRun τ [] ops ∧
      b.live = (pushed ops).filter (fun s => decide (Spec.horizon τ ops < s.time_us.toNat)) := by
  obtain ⟨b, hb, hl⟩ := ringbuffer_refines_queue (α := α) n h0 h1 ops (timely_late n g ops τ 0 h)
  have := queue_delivers_due n g ops τ 0 [] [] rfl (by simp [Spaced]) (by simp) (by simp) h
  exact ⟨b, _, hb, this.1, by rw [hl, this.2]; simp⟩

theorem dueRun_flatten (n g : ℕ) (ops : List (RingBuffer.Spec.Op α)) (τ last : ℕ) (all : List (Sample α))
    (hs : all.Pairwise fun a b => a.time_us.toNat ≤ b.time_us.toNat) (hl : ∀ x ∈ all, x.time_us.toNat ≤ last)
    (h : Spec.Timely n g τ last ops) :
    (Spec.dueRun τ all ops).flatten = (all ++ pushed ops).filter
      (fun s => decide (τ < s.time_us.toNat ∧ s.time_us.toNat ≤ Spec.horizon τ ops)) ∧ τ ≤ Spec.horizon τ ops := by
  induction ops generalizing τ last all with
  | nil =>
    refine ⟨?_, le_refl _⟩
    unfold Spec.dueRun Spec.horizon pushed
    rw [List.flatten_nil, eq_comm, List.filter_eq_nil_iff]
    intro x _; simp
  | cons op ops ih =>
    cases op with
    | push s =>
      obtain ⟨⟨h1, h2, _⟩, h5⟩ := h
      have := ih τ s.time_us.toNat (all ++ [s]) (by
        rw [List.pairwise_append]
        refine ⟨hs, by simp, ?_⟩
        intro a ha b hb; simp at hb; subst hb; have := hl a ha; omega) (by
        intro x hx; simp at hx; rcases hx with hx | rfl
        · have := hl x hx; omega
        · exact le_refl _) h5
      unfold Spec.dueRun Spec.horizon pushed
      rw [this.1, List.append_assoc]
      exact ⟨rfl, this.2⟩
    | pop t =>
      obtain ⟨⟨_, h2, _, _⟩, h5⟩ := h
      have := ih t.toNat last all hs hl h5
      have hpush : ∀ (ops : List (RingBuffer.Spec.Op α)) (τ last : ℕ), Spec.Timely n g τ last ops →
          ∀ x ∈ pushed ops, τ < x.time_us.toNat := by
        intro ops
        induction ops with
        | nil => intro _ _ _ x hx; simp [pushed] at hx
        | cons op ops ih2 =>
          intro τ last h x hx
          cases op with
          | push s =>
            simp [pushed] at hx
            rcases hx with rfl | hx
            · exact h.1.1
            · exact ih2 _ _ h.2 x hx
          | pop t =>
            have := ih2 _ _ h.2 x hx; have := h.1.2.1; omega
      have hnew := hpush ops t.toNat last h5
      unfold Spec.dueRun Spec.horizon pushed
      rw [List.flatten_cons, this.1]
      refine ⟨?_, le_trans h2 this.2⟩
      have hh := this.2
      clear this h5 ih
      -- `all` is sorted, so the two ranges follow one another
      have hsplit : ∀ all : List (Sample α), (all.Pairwise fun a b => a.time_us.toNat ≤ b.time_us.toNat) →
          (all.filter fun s => decide (τ < s.time_us.toNat ∧ s.time_us.toNat ≤ t.toNat)) ++
            (all.filter fun s => decide (t.toNat < s.time_us.toNat ∧ s.time_us.toNat ≤ Spec.horizon t.toNat ops)) =
          all.filter fun s => decide (τ < s.time_us.toNat ∧ s.time_us.toNat ≤ Spec.horizon t.toNat ops) := by
        intro all hs
        induction all with
        | nil => rfl
        | cons a all iha =>
          rw [List.pairwise_cons] at hs
          have ih' := iha hs.2
          by_cases ha : a.time_us.toNat ≤ t.toNat
          · by_cases hb : τ < a.time_us.toNat
            · rw [List.filter_cons_of_pos (by simp; omega), List.filter_cons_of_neg (by simp; omega),
                List.filter_cons_of_pos (by simp; omega), List.cons_append, ih']
            · rw [List.filter_cons_of_neg (by simp; omega), List.filter_cons_of_neg (by simp; omega),
                List.filter_cons_of_neg (by simp; omega), ih']
          · have hz : (all.filter fun s => decide (τ < s.time_us.toNat ∧ s.time_us.toNat ≤ t.toNat)) = [] := by
              rw [List.filter_eq_nil_iff]; intro y hy; have := hs.1 y hy; simp; omega
            rw [hz, List.nil_append] at ih'
            rw [List.filter_cons_of_neg (by simp; omega), hz, List.nil_append]
            by_cases hc : a.time_us.toNat ≤ Spec.horizon t.toNat ops
            · rw [List.filter_cons_of_pos (by simp; omega), List.filter_cons_of_pos (by simp; omega), ih']
            · rw [List.filter_cons_of_neg (by simp; omega), List.filter_cons_of_neg (by simp; omega), ih']
      rw [List.filter_append, ← List.append_assoc, hsplit all hs, List.filter_append]
      congr 1
      apply List.filter_congr
      intro x hx
      have := hnew x hx
      have e : (t.toNat < x.time_us.toNat) = (τ < x.time_us.toNat) := by
        apply propext; constructor <;> intro _ <;> omega
      simp only [e]

/-- **C146 (nothing lost).** The samples delivered over a timely history are exactly the samples pushed whose time the
horizon has reached, each once and in order. -/
theorem buffer_delivers_all [Inhabited α] (n g : ℕ) (h0 : 0 < n) (h1 : n < 256) (τ : ℕ)
    (ops : List (RingBuffer.Spec.Op α)) (h : Spec.Timely n g τ 0 ops) :
    ∃ b out, (RB.new n : RB α).run ops = .ok (b, out) ∧
      out.filterMap id = (pushed ops).filter
        (fun s => decide (τ < s.time_us.toNat ∧ s.time_us.toNat ≤ Spec.horizon τ ops)) := by
  obtain ⟨b, out, hb, ho, _⟩ := buffer_delivers_due (α := α) n g h0 h1 τ ops h
  refine ⟨b, out, hb, ?_⟩
  have e := (dueRun_flatten n g ops τ 0 [] (by simp) (by simp) h).1
  rw [← ho, List.nil_append] at e
  rw [← e]
  clear e ho hb
  induction out with
  | nil => rfl
  | cons o out ih =>
    cases o with
    | none => exact ih
    | some x => exact congrArg (x :: ·) ih

/-- non-vacuity: capacity 3, samples 40 ms apart, filter steps of 10 ms that trail the samples by up to 100 ms -/
def exTimely : List (RingBuffer.Spec.Op ℕ) :=
  [.push ⟨240000, 1⟩, .pop 210000, .push ⟨280000, 2⟩, .pop 220000, .push ⟨320000, 3⟩, .pop 240000, .pop 260000,
    .push ⟨360000, 4⟩, .pop 290000, .pop 300000, .push ⟨400000, 5⟩, .pop 330000]

example : Spec.Timely 3 40000 200000 0 exTimely := by
  simp [Spec.Timely, exTimely, UInt64.toNat_ofNat]

example : Spec.dueRun 200000 [] exTimely =
    [[], [], [⟨240000, 1⟩], [], [⟨280000, 2⟩], [], [⟨320000, 3⟩]] := by decide +kernel

/-! ### The sensor input -/

/-- The pace of a history seen from outside (`D`: configured delay in us, `e`: bound on the rounding error of the
time stamp shift, see C15, `τ`: horizon, `last`: stamp of the last accepted sample).  Offered stamps do not decrease.
A sample the rate limit lets through comes with a limit of at least `g + 2 e - 1`, before the horizon has passed it and at
most `n * g` ahead of the horizon.  The horizon moves as in `Timely`. -/
def Spec.Paced (n D g e : ℕ) : ℕ → UInt64 → List (POp α) → Prop
  | _, _, [] => True
  | τ, last, .offer m s :: ops =>
    last.toNat ≤ s.time_us.toNat ∧
    if m.toNat < s.time_us.toNat - last.toNat then
      (g + 2 * e ≤ m.toNat + 1 ∧ τ + D + 5000 + e < s.time_us.toNat ∧
        s.time_us.toNat + e ≤ τ + n * g + D + 5000 ∧ s.time_us.toNat + 100000 + e < 2 ^ 64) ∧
      Paced n D g e τ s.time_us ops
    else Paced n D g e τ last ops
  | τ, last, .pop t :: ops =>
    (100000 ≤ t.toNat ∧ τ ≤ t.toNat ∧ t.toNat ≤ τ + g ∧ t.toNat ≤ τ + 100000) ∧ Paced n D g e t.toNat last ops

theorem paced_timely (n D g e : ℕ) (sh : UInt64 → UInt64) (ops : List (POp α)) (τ : ℕ) (last : UInt64) (l : ℕ)
    (hsh : ∀ m s, POp.offer m s ∈ ops →
      s.time_us.toNat ≤ (sh s.time_us).toNat + D + 5000 + e ∧ (sh s.time_us).toNat + D + 5000 ≤ s.time_us.toNat + e)
    (hl : l + D + 5000 ≤ last.toNat + e ∨ l + g ≤ τ)
    (h : Spec.Paced n D g e τ last ops) : Spec.Timely n g τ l (Spec.thin sh last ops) := by
  induction ops generalizing τ last l with
  | nil => trivial
  | cons op ops ih =>
    have hsh' := fun m s (hm : POp.offer m s ∈ ops) => hsh m s (List.mem_cons_of_mem _ hm)
    cases op with
    | offer m s =>
      obtain ⟨hle, h⟩ := h
      have e1 : (s.time_us - last).toNat = s.time_us.toNat - last.toNat :=
        UInt64.toNat_sub_of_le _ _ (by rwa [UInt64.le_iff_toNat_le])
      unfold Spec.thin
      rw [e1]
      by_cases hg : m.toNat < s.time_us.toNat - last.toNat
      · rw [if_pos hg] at h ⊢
        obtain ⟨⟨h1, h2, h3, h4⟩, h5⟩ := h
        obtain ⟨a, b⟩ := hsh m s (by simp)
        refine ⟨⟨?_, ?_, ?_, ?_⟩, ih τ s.time_us _ hsh' (.inl b) h5⟩
        · show τ < (sh s.time_us).toNat; omega
        · show l + g ≤ (sh s.time_us).toNat; omega
        · show (sh s.time_us).toNat ≤ τ + n * g; omega
        · show (sh s.time_us).toNat + 100000 < 2 ^ 64; omega
      · rw [if_neg hg] at h ⊢
        exact ih τ last l hsh' hl h
    | pop t =>
      unfold Spec.thin
      refine ⟨h.1, ih t.toNat last l hsh' ?_ h.2⟩
      have := h.1.2.1
      omega

/-- **C146 (sensor input).** For every buffer length below 256, delay and paced history of offers and filter steps
whose time stamp shifts are defined and accurate to `e`: the input runs without undefined behaviour, and every filter
step receives exactly the accepted samples — with their shifted stamps — that became due since the previous step. -/
theorem port_delivers_due [Inhabited α] (obsLen D g e : ℕ) (h1 : obsLen < 256) (sh : UInt64 → UInt64) (τ : ℕ)
    (hτ : g ≤ τ) (ops : List (POp α))
    (hs : ∀ m s, POp.offer m s ∈ ops → shiftStamp s.time_us D = .ok (sh s.time_us) ∧
      s.time_us.toNat ≤ (sh s.time_us).toNat + D + 5000 + e ∧ (sh s.time_us).toNat + D + 5000 ≤ s.time_us.toNat + e)
    (h : Spec.Paced (max 1 obsLen) D g e τ 0 ops) :
    ∃ p out, (Port.init α).run obsLen D ops = .ok (p, out) ∧
      out.map Option.toList = Spec.dueRun τ [] (Spec.thin sh 0 ops) ∧
      out.filterMap id = ((Spec.accepted 0 ops).map fun s => (⟨sh s.time_us, s.data⟩ : Sample α)).filter
        (fun s => decide (τ < s.time_us.toNat ∧ s.time_us.toNat ≤ Spec.horizon τ (Spec.thin sh 0 ops))) := by
  have ht := paced_timely (max 1 obsLen) D g e sh ops τ 0 0 (fun m s hm => (hs m s hm).2) (.inr (by omega)) h
  have hlate := timely_late _ _ _ _ _ ht
  have hq : ∀ ts, POp.pop ts ∈ ops → 100000 ≤ ts.toNat := by
    have hmem : ∀ (ops : List (POp α)) (last : UInt64) (ts : UInt64), POp.pop ts ∈ ops →
        RingBuffer.Spec.Op.pop ts ∈ Spec.thin sh last ops := by
      intro ops
      induction ops with
      | nil => intro _ _ h; simp at h
      | cons op ops ih =>
        intro last ts h
        cases op with
        | offer m s =>
          simp at h
          unfold Spec.thin
          split
          · exact List.mem_cons_of_mem _ (ih _ _ h)
          · exact ih _ _ h
        | pop t =>
          unfold Spec.thin
          simp at h
          rcases h with rfl | h
          · simp
          · exact List.mem_cons_of_mem _ (ih _ _ h)
    exact fun ts h => hlate ts (hmem ops 0 ts h)
  obtain ⟨p, hp, _⟩ := port_refines_thinned_queue obsLen D h1 sh ops hq (fun m s hm => (hs m s hm).1)
  have hd := queue_delivers_due (max 1 obsLen) g _ τ 0 [] [] rfl (by simp [Spaced]) (by simp) (by simp) ht
  refine ⟨p, _, hp, hd.1, ?_⟩
  obtain ⟨b, out, hb, ho⟩ := buffer_delivers_all (α := α) (max 1 obsLen) g (by omega) (by omega) τ _ ht
  obtain ⟨b', hb', _⟩ := ringbuffer_refines_queue (α := α) (max 1 obsLen) (by omega) (by omega) _ hlate
  rw [hb] at hb'
  simp only [Except.ok.injEq, Prod.mk.injEq] at hb'
  rw [← hb'.2, ho, thin_pushes_accepted]

/-- **C146 (the rate limit).** With the limit computed from a window of `now - τ` us and a buffer of `n ≥ 2` slots,
`n` accepted intervals always exceed the window by more than one interval, so the condition "at most `n * g` ahead of the horizon" of a
paced history holds with `g = m + 1` for every stamp up to `now + m + 1`. -/
theorem rate_limit_window (now τ : UInt64) (n : ℕ) (m : UInt32) (h2 : 2 ≤ n) (h3 : n < 256) (hle : τ.toNat ≤ now.toNat)
    (hw : now.toNat - τ.toNat < 2 ^ 32) (h : minObsInterval now τ n = .ok m) :
    now.toNat + m.toNat + 1 < τ.toNat + n * (m.toNat + 1) := by
  obtain ⟨r, hr, hv⟩ := (minObsInterval_defined_iff now τ n).2 h2 h3
  rw [h] at hr; simp only [Except.ok.injEq] at hr; subst hr
  rw [UInt64.toNat_sub_of_le _ _ (by rwa [UInt64.le_iff_toNat_le]), Nat.mod_eq_of_lt (by
    exact lt_of_le_of_lt (Nat.div_le_self _ _) hw)] at hv
  have hlt := Nat.lt_mul_div_succ (now.toNat - τ.toNat) (show 0 < n - 1 by omega)
  rw [← hv] at hlt
  obtain ⟨k, rfl⟩ : ∃ k, n = k + 1 := ⟨n - 1, by omega⟩
  have e : (k + 1) * (m.toNat + 1) = k * (m.toNat + 1) + m.toNat + 1 := by ring
  rw [Nat.add_sub_cancel] at hlt
  omega

/-! ### A concrete sensor input, and what happens without the conditions -/

/-- non-vacuity: 110 ms window and 9 slots (the default GPS set-up), limit 13750 us, a 25 Hz sensor with 5 ms delay -/
def exPaced : List (POp ℕ) :=
  [.offer 13750 ⟨260000, 1⟩, .pop 210000, .offer 13750 ⟨265000, 2⟩, .pop 220000, .offer 13750 ⟨300000, 3⟩, .pop 230000,
    .pop 240000, .offer 13750 ⟨340000, 4⟩, .pop 250000, .pop 260000, .pop 270000, .pop 280000, .pop 290000]

example : minObsInterval 310000 200000 9 = .ok 13750 := by decide +kernel

example : Spec.Paced 9 5000 13751 0 200000 0 exPaced := by
  simp [Spec.Paced, exPaced, UInt64.toNat_ofNat, UInt32.toNat_ofNat]

example : ∀ m s, POp.offer m s ∈ exPaced → shiftStamp s.time_us 5000 = .ok (s.time_us - 10000) ∧
    s.time_us.toNat ≤ (s.time_us - 10000).toNat + 5000 + 5000 + 0 ∧
    (s.time_us - 10000).toNat + 5000 + 5000 ≤ s.time_us.toNat + 0 := by
  intro m s h
  simp [exPaced] at h
  rcases h with ⟨rfl, rfl⟩ | ⟨rfl, rfl⟩ | ⟨rfl, rfl⟩ | ⟨rfl, rfl⟩ <;> exact ⟨by decide +kernel, by decide +kernel, by decide +kernel⟩

/-- **C146 (why the pace of the filter matters).** If a filter step spans two samples, the older one is discarded
undelivered even though it was accepted in good time. -/
theorem long_step_loses_sample :
    ∃ (ops : List (RingBuffer.Spec.Op ℕ)) (b : RB ℕ) (out : List (Option (Sample ℕ))),
      (RB.new 9 : RB ℕ).run ops = .ok (b, out) ∧ (pushed ops).map (·.data) = [1, 2] ∧
      out.filterMap id = [⟨215000, 2⟩] ∧ b.live = [] :=
  ⟨[.pop 200000, .push ⟨205000, 1⟩, .push ⟨215000, 2⟩, .pop 220000], _, _, rfl, rfl, rfl, rfl⟩

/-- **C146 (why arrival in time matters).** A sample that arrives 100 ms or more after the horizon passed its time is
accepted and never delivered, at whatever later time the filter asks. -/
theorem stale_sample_never_delivered [Inhabited α] (n : ℕ) (h0 : 0 < n) (h1 : n < 256) (s : Sample α) (t : UInt64)
    (ht : 100000 ≤ t.toNat) (hs : s.time_us.toNat + 100000 ≤ t.toNat) :
    ∃ b, (RB.new n : RB α).run [.push s, .pop t] = .ok (b, [none]) ∧ b.live = [s] := by
  have hq : QueriesLate [RingBuffer.Spec.Op.push s, .pop t] := by
    intro ts h; simp at h; subst h; exact ht
  obtain ⟨b, hb, hl⟩ := ringbuffer_refines_queue (α := α) n h0 h1 _ hq
  have hk : RingBuffer.Spec.push n [] s = [s] := by
    unfold RingBuffer.Spec.push RingBuffer.Spec.keepNewest
    have e : ([] ++ [s] : List (Sample α)).length - n = 0 := by simp; omega
    rw [e]; rfl
  have hp : RingBuffer.Spec.pop t [s] = none := by
    unfold RingBuffer.Spec.pop RingBuffer.Spec.pop
    have : ¬ RingBuffer.Spec.Eligible t s := fun he => by have := he.2.1; omega
    simp [this]
  unfold RingBuffer.Spec.run at hb hl
  rw [hk] at hb hl
  unfold RingBuffer.Spec.run at hb hl
  rw [hp] at hb hl
  exact ⟨b, hb, hl⟩

example : (205000 : UInt64).toNat + 100000 ≤ (305000 : UInt64).toNat := by decide +kernel

/-- 200 Hz samples offered while the IMU buffer fills: IMU steps every 10 ms from 200 ms on, limit recomputed at each -/
def startup : List (POp ℕ) :=
  (List.range 22).map fun k =>
    .offer (UInt32.ofNat (10000 * ((k + 1) / 2) / 8)) ⟨UInt64.ofNat (205001 + 5000 * k), k⟩

/-- **C146 (refutation of the comment).** The interval computed by the code does not guarantee that no accepted sample
is overwritten before the horizon reaches it: with the default observation buffer of 9 slots, while the IMU buffer is
filling — horizon still at its first sample, 200 ms — every one of the 22 samples offered comes with the limit the code
computes at the IMU step at most 10 ms before, 13 of them are accepted, all ahead of the horizon, and only 9 are kept. -/
theorem startup_overwrites_accepted :
    (∀ m s, POp.offer m s ∈ startup → ∃ now : UInt64, now.toNat ≤ s.time_us.toNat ∧ s.time_us.toNat < now.toNat + 10000 ∧
      minObsInterval now 200000 9 = .ok m ∧ 200000 + 5000 < s.time_us.toNat) ∧
    (Spec.accepted 0 startup).map (·.data) = [0, 1, 2, 3, 4, 5, 6, 8, 10, 12, 14, 17, 20] ∧
    ∃ p, (Port.init ℕ).run 9 0 startup = .ok (p, []) ∧
      p.buf.live.map (·.data) = [4, 5, 6, 8, 10, 12, 14, 17, 20] := by
  refine ⟨?_, by decide +kernel, ?_⟩
  · intro m s h
    simp only [startup, List.mem_map, List.mem_range, POp.offer.injEq] at h
    obtain ⟨k, hk, rfl, rfl⟩ := h
    refine ⟨UInt64.ofNat (200000 + 10000 * ((k + 1) / 2)), ?_⟩
    revert k
    decide +kernel
  · have : (match (Port.init ℕ).run 9 0 startup with
        | .ok (p, out) => decide (out = []) && decide (p.buf.live.map (·.data) = [4, 5, 6, 8, 10, 12, 14, 17, 20])
        | .error _ => false) = true := by decide +kernel
    revert this
    generalize (Port.init ℕ).run 9 0 startup = r
    intro h
    match r, h with
    | .ok (p, out), h =>
      simp only [Bool.and_eq_true, decide_eq_true_eq] at h
      exact ⟨p, by rw [h.1], h.2⟩

end Ecl.Interface
