import Verif.Interface.Model
import Verif.RingBuffer.Props
import Mathlib.Data.List.Chain
import Mathlib.Tactic.FieldSimp
import Mathlib.Data.Rat.Floor

/-!
# Properties C11 – C15 — sensor front end: rate limiting, averaging, sizing, time stamps
-/

namespace Ecl.Interface

open Ecl.RingBuffer

variable {α : Type*}

/-! ### C15: time stamp shift -/

/-- **C15.** Whenever the shift is defined and does not go below zero, the new stamp differs from
`time - delay - 5000 us` by at most one unit in the last place of the sensor time as a float. -/
theorem shift_error_le_ulp (t : UInt64) (D : ℕ) (r : UInt64) (h : shiftStamp t D = .ok r)
    (h5 : D + 5000 + 2 ^ ulpExp t.toNat ≤ t.toNat) :
    |(r.toNat : ℤ) - (t.toNat - D - 5000)| ≤ ((2 ^ ulpExp t.toNat : ℕ) : ℤ) := by
  unfold shiftStamp at h
  simp only at h
  split at h
  · exact absurd h (by simp)
  next hD =>
  split at h
  swap
  · exact absurd h (by simp)
  next hlt =>
  simp only [Except.ok.injEq] at h
  have e1 := rnd24_error t.toNat
  have e2 := rnd24_error (rnd24 t.toNat - D)
  -- when the shifted value reaches the next binade there is nothing to round
  have hmono : (2 ^ ulpExp (rnd24 t.toNat - D) ≤ 2 ^ ulpExp t.toNat) ∨
      (rnd24 (rnd24 t.toNat - D) = rnd24 t.toNat - D) := by
    by_cases hc : rnd24 t.toNat - D < 2 ^ (ulpExp t.toNat + 24)
    · left; exact Nat.pow_le_pow_right (by norm_num) (ulpExp_mono hc)
    · right
      have h1 := rnd24_le t.toNat
      have : D = 0 := by
        have : 0 < 2 ^ (ulpExp t.toNat + 24) := by positivity
        omega
      subst this
      simpa using rnd24_idem t.toNat
  generalize 2 ^ ulpExp t.toNat = u at *
  have hb : |(rnd24 (rnd24 t.toNat - D) : ℤ) - (t.toNat - D)| ≤ (u : ℤ) := by
    have hc : ((rnd24 t.toNat - D : ℕ) : ℤ) = (rnd24 t.toNat : ℤ) - D := by omega
    rcases hmono with hm | hm
    · rw [hc] at e2
      have : 2 * |(rnd24 (rnd24 t.toNat - D) : ℤ) - ((rnd24 t.toNat : ℤ) - D)| ≤ u :=
        le_trans e2 (by exact_mod_cast hm)
      rw [abs_le]
      have a1 := abs_le.mp (show |(rnd24 t.toNat : ℤ) - t.toNat| ≤ |(rnd24 t.toNat : ℤ) - t.toNat| from le_rfl)
      have a2 := abs_le.mp (show |(rnd24 (rnd24 t.toNat - D) : ℤ) - ((rnd24 t.toNat : ℤ) - D)| ≤ _ from le_rfl)
      constructor <;> omega
    · rw [hm, hc]
      have hn : 0 ≤ |(rnd24 t.toNat : ℤ) - t.toNat| := abs_nonneg _
      have : (rnd24 t.toNat : ℤ) - D - (t.toNat - D) = rnd24 t.toNat - t.toNat := by ring
      rw [this]; omega
  have hb' := abs_le.mp hb
  rw [← h]
  have hge : 5000 ≤ rnd24 (rnd24 t.toNat - D) := by omega
  have h5000 : (10 * 1000 / 2 : UInt64) = 5000 := by decide
  rw [h5000, u64_sub_toNat_of_le (by rw [u64_le_iff, UInt64.toNat_ofNat_of_lt' hlt]; exact hge),
    UInt64.toNat_ofNat_of_lt' hlt]
  rw [abs_le]
  have : (5000 : UInt64).toNat = 5000 := by decide
  rw [this]
  constructor <;> omega

/-- **C15.** Below 2^24 us (16.8 s) the shift is exact (and defined unless it would be negative). -/
theorem shift_exact_small (t : UInt64) (D : ℕ) (ht : t.toNat < 2 ^ 24) (hD : D + 5000 ≤ t.toNat) :
    ∃ r, shiftStamp t D = .ok r ∧ r.toNat = t.toNat - D - 5000 := by
  unfold shiftStamp
  simp only
  rw [rnd24_small ht, if_neg (by omega), rnd24_small (by omega), if_pos (by omega)]
  refine ⟨_, rfl, ?_⟩
  have hlt : t.toNat - D < 2 ^ 64 := by omega
  have h5000 : (10 * 1000 / 2 : UInt64) = 5000 := by decide
  have h5 : (5000 : UInt64).toNat = 5000 := by decide
  rw [h5000, u64_sub_toNat_of_le (by rw [u64_le_iff, UInt64.toNat_ofNat_of_lt' hlt, h5]; omega),
    UInt64.toNat_ofNat_of_lt' hlt, h5]

/-- a time stamp in the middle between two adjacent floats is moved by half a unit in the last place -/
theorem rnd24_halfway (k : ℕ) : rnd24 (2 ^ (24 + k) + 2 ^ k) = 2 ^ (24 + k) := by
  have hlog : Nat.log2 (2 ^ (24 + k) + 2 ^ k) = 24 + k := by
    have hk : 2 ^ k < 2 ^ (24 + k) := Nat.pow_lt_pow_right (by norm_num) (by omega)
    have h0 : 2 ^ (24 + k) + 2 ^ k ≠ 0 := by positivity
    apply le_antisymm
    · have : Nat.log2 (2 ^ (24 + k) + 2 ^ k) < 24 + k + 1 := by
        rw [Nat.log2_lt h0]; rw [pow_succ 2 (24 + k)]; omega
      omega
    · rw [Nat.le_log2 h0]; exact Nat.le_add_right _ _
  unfold rnd24 ulpExp
  simp only [hlog]
  have e : 24 + k - 23 = k + 1 := by omega
  have hp : 2 ^ (24 + k) = 2 ^ 23 * 2 ^ (k + 1) := by rw [← pow_add]; congr 1; omega
  have hk1 : 2 ^ (k + 1) = 2 * 2 ^ k := by rw [pow_succ]; ring
  have hk0 : 0 < 2 ^ k := by positivity
  have hlt : 2 ^ k < 2 ^ (k + 1) := by omega
  have hmod : (2 ^ (24 + k) + 2 ^ k) % 2 ^ (k + 1) = 2 ^ k := by
    rw [hp, Nat.add_comm, Nat.add_mul_mod_self_right, Nat.mod_eq_of_lt hlt]
  have hdiv : (2 ^ (24 + k) + 2 ^ k) / 2 ^ (k + 1) = 2 ^ 23 := by
    rw [hp, Nat.add_comm, Nat.add_mul_div_right _ _ (by positivity), Nat.div_eq_of_lt hlt, Nat.zero_add]
  rw [e, hmod, hdiv, if_neg (by omega), if_neg (by omega), if_pos (by norm_num), hp]

/-- **C15 (error grows without bound).** For every `k` up to 39 the sensor time `2^(24+k) + 2^k` is moved back by
`2^k` us more than requested, even with a delay of zero. -/
theorem shift_error_unbounded (k : ℕ) (hk : k < 40) :
    ∃ r, shiftStamp (UInt64.ofNat (2 ^ (24 + k) + 2 ^ k)) 0 = .ok r ∧
      r.toNat + 5000 + 2 ^ k = (UInt64.ofNat (2 ^ (24 + k) + 2 ^ k)).toNat := by
  have hp : 2 ^ (24 + k) ≤ 2 ^ 63 := Nat.pow_le_pow_right (by norm_num) (by omega)
  have hq : 2 ^ k ≤ 2 ^ 39 := Nat.pow_le_pow_right (by norm_num) (by omega)
  have h24 : 2 ^ 24 ≤ 2 ^ (24 + k) := Nat.pow_le_pow_right (by norm_num) (by omega)
  have hlt : 2 ^ (24 + k) + 2 ^ k < 2 ^ 64 := by omega
  have hlt2 : 2 ^ (24 + k) < 2 ^ 64 := by omega
  unfold shiftStamp
  simp only
  have hrr : rnd24 (2 ^ (24 + k)) = 2 ^ (24 + k) := by
    have := rnd24_idem (2 ^ (24 + k) + 2 ^ k); rwa [rnd24_halfway] at this
  rw [UInt64.toNat_ofNat_of_lt' hlt, rnd24_halfway, if_neg (by omega), Nat.sub_zero, hrr, if_pos hlt2]
  refine ⟨_, rfl, ?_⟩
  have h5000 : (10 * 1000 / 2 : UInt64) = 5000 := by decide
  have h5 : (5000 : UInt64).toNat = 5000 := by decide
  rw [h5000, u64_sub_toNat_of_le (by rw [u64_le_iff, UInt64.toNat_ofNat_of_lt' hlt2, h5]; omega),
    UInt64.toNat_ofNat_of_lt' hlt2, h5]
  omega

/-- **C15.** A sensor time before the configured delay makes the conversion undefined. -/
theorem shift_undefined_early (t : UInt64) (D : ℕ) (ht : t.toNat < 2 ^ 24) (hD : t.toNat < D) :
    shiftStamp t D = .error .floatToUint := by
  unfold shiftStamp; simp only; rw [rnd24_small ht, if_pos hD]

example : shiftStamp 1000000 110000 = .ok 885000 := by decide +kernel
/-- one hour after boot a stamp can be off by 128 us -/
example : shiftStamp 3600000129 0 = .ok (3600000000 + 256 - 5000) := by decide +kernel

/-! ### C11: rate limiting -/

/-- client operations on one sensor input: a sample offered while the minimum interval is `m`, or a query by the
filter -/
inductive POp (α : Type*)
  | offer (m : UInt32) (s : Sample α)
  | pop (ts : UInt64)

/-- run a history on the sensor input -/
def Port.run [Inhabited α] (obsLen D : ℕ) : List (POp α) → Port α → Except UB (Port α × List (Option (Sample α)))
  | [], p => .ok (p, [])
  | .offer m s :: ops, p =>
    match p.set obsLen D m s with
    | .error e => .error e
    | .ok p' => Port.run obsLen D ops p'
  | .pop ts :: ops, p =>
    match p.buf.pop ts with
    | .error e => .error (.ring e)
    | .ok none =>
      match Port.run obsLen D ops p with
      | .error e => .error e
      | .ok (p', out) => .ok (p', none :: out)
    | .ok (some (b, x)) =>
      match Port.run obsLen D ops { p with buf := b } with
      | .error e => .error e
      | .ok (p', out) => .ok (p', some x :: out)

/-- Specification of the thinning: what is left of a history when a sample is dropped iff it arrives no more than
the minimum interval after the last accepted one, and accepted samples get the stamp `sh time`. -/
def Spec.thin (sh : UInt64 → UInt64) : UInt64 → List (POp α) → List (RingBuffer.Spec.Op α)
  | _, [] => []
  | last, .offer m s :: ops =>
    if m.toNat < (s.time_us - last).toNat then .push ⟨sh s.time_us, s.data⟩ :: thin sh s.time_us ops
    else thin sh last ops
  | last, .pop ts :: ops => .pop ts :: thin sh last ops

/-- the accepted samples of a history, as offered -/
def Spec.accepted : UInt64 → List (POp α) → List (Sample α)
  | _, [] => []
  | last, .offer m s :: ops =>
    if m.toNat < (s.time_us - last).toNat then s :: accepted s.time_us ops else accepted last ops
  | last, .pop _ :: ops => accepted last ops

/-- the samples offered in a history -/
def Spec.offered : List (POp α) → List (Sample α)
  | [] => []
  | .offer _ s :: ops => s :: offered ops
  | .pop _ :: ops => offered ops

/-- ready input whose buffer either has capacity `n` or is the untouched one-slot buffer -/
structure Port.Ready (p : Port α) (n : ℕ) : Prop where
  init : p.initialised = true
  ok : p.fail = false
  inv : p.buf.Inv n ∨ (p.buf.Inv 1 ∧ p.buf.live = [] ∧ 1 < n)

theorem gap_iff (t last : UInt64) (m : UInt32) : t - last > m.toUInt64 ↔ m.toNat < (t - last).toNat := by
  rw [gt_iff_lt, u64_lt_iff]; simp

theorem set_ready [Inhabited α] {p : Port α} {obsLen D : ℕ} (_h1 : obsLen < 256)
    (hp : p.Ready (max 1 obsLen)) (m : UInt32) (s : Sample α) (t' : UInt64) (hs : shiftStamp s.time_us D = .ok t') :
    ∃ p', p.set obsLen D m s = .ok p' ∧ p'.Ready (max 1 obsLen) ∧
      (m.toNat < (s.time_us - p.timeLast).toNat →
        p'.timeLast = s.time_us ∧ p'.buf.live = RingBuffer.Spec.push (max 1 obsLen) p.buf.live ⟨t', s.data⟩) ∧
      (¬ m.toNat < (s.time_us - p.timeLast).toNat →
        p'.timeLast = p.timeLast ∧ p'.buf.live = p.buf.live) := by
  -- the allocation step
  have halloc : ∃ b, (if p.buf.size < obsLen then p.buf.allocate obsLen else (p.buf, true)) = (b, true) ∧
      b.Inv (max 1 obsLen) ∧ b.live = p.buf.live := by
    rcases hp.inv with hi | ⟨hi, hl, hn⟩
    · have hsz := hi.size
      refine ⟨p.buf, ?_, hi, rfl⟩
      rw [if_neg (by omega)]
    · have hsz := hi.size
      have hle : p.buf.size < obsLen := by omega
      obtain ⟨b, hb, hbi, hbl⟩ := (ringbuffer_allocate p.buf 1 obsLen hi).2.2 (by omega) (by omega)
      refine ⟨b, ?_, ?_, by rw [hbl, hl]⟩
      · rw [if_pos hle, hb]
      · have : max 1 obsLen = obsLen := by omega
        rw [this]; exact hbi
  obtain ⟨b, hb, hbi, hbl⟩ := halloc
  obtain ⟨b', hb', hbi', hbl'⟩ := push_refine hbi (⟨t', s.data⟩ : Sample α)
  unfold Port.set
  rw [if_neg (by simp [hp.init, hp.ok]), hb]
  simp only [Bool.not_true, Bool.false_eq_true, if_false]
  by_cases hg : m.toNat < (s.time_us - p.timeLast).toNat
  · rw [if_pos ((gap_iff _ _ _).mpr hg), hs]
    simp only
    rw [hb']
    refine ⟨_, rfl, ⟨hp.init, rfl, .inl hbi'⟩, fun _ => ⟨rfl, ?_⟩, fun hn => absurd hg hn⟩
    show b'.live = _
    rw [hbl', hbl]
  · rw [if_neg (fun h => hg ((gap_iff _ _ _).mp h))]
    exact ⟨_, rfl, ⟨hp.init, rfl, .inl hbi⟩, fun h => absurd h hg, fun _ => ⟨rfl, hbl⟩⟩

theorem port_run_refine [Inhabited α] (obsLen D : ℕ) (h1 : obsLen < 256) (sh : UInt64 → UInt64) (ops : List (POp α))
    (hq : ∀ ts, POp.pop ts ∈ ops → 100000 ≤ ts.toNat)
    (hs : ∀ m s, POp.offer m s ∈ ops → shiftStamp s.time_us D = .ok (sh s.time_us))
    (p : Port α) (hp : p.Ready (max 1 obsLen)) :
    ∃ p', p.run obsLen D ops = .ok (p', (RingBuffer.Spec.run (max 1 obsLen)
        (Spec.thin sh p.timeLast ops) p.buf.live).2) ∧
      p'.buf.live = (RingBuffer.Spec.run (max 1 obsLen) (Spec.thin sh p.timeLast ops) p.buf.live).1 := by
  induction ops generalizing p with
  | nil => exact ⟨p, rfl, rfl⟩
  | cons op ops ih =>
    have hq' : ∀ ts, POp.pop ts ∈ ops → 100000 ≤ ts.toNat := fun ts h => hq ts (List.mem_cons_of_mem _ h)
    have hs' : ∀ m s, POp.offer m s ∈ ops → shiftStamp s.time_us D = .ok (sh s.time_us) :=
      fun m s h => hs m s (List.mem_cons_of_mem _ h)
    cases op with
    | offer m s =>
      obtain ⟨p1, e1, hr1, hacc, hrej⟩ := set_ready h1 hp m s _ (hs m s (by simp))
      obtain ⟨p2, e2, hl2⟩ := ih hq' hs' p1 hr1
      refine ⟨p2, ?_, ?_⟩
      · unfold Port.run Spec.thin; rw [e1]; simp only; rw [e2]
        split
        · next hg => rw [(hacc hg).1, (hacc hg).2]; rfl
        · next hg => rw [(hrej hg).1, (hrej hg).2]
      · unfold Spec.thin; rw [hl2]
        split
        · next hg => rw [(hacc hg).1, (hacc hg).2]; rfl
        · next hg => rw [(hrej hg).1, (hrej hg).2]
    | pop ts =>
      have hts : 100000 ≤ ts.toNat := hq ts (by simp)
      have hcase : (∃ b x, p.buf.pop ts = .ok (some (b, x)) ∧ RingBuffer.Spec.pop ts p.buf.live = some (x, b.live) ∧
          b.Inv (max 1 obsLen)) ∨ (p.buf.pop ts = .ok none ∧ RingBuffer.Spec.pop ts p.buf.live = none) := by
        rcases hp.inv with hi | ⟨hi, hl, _⟩
        · rcases pop_refine hi ts hts with ⟨b1, x, q', e, hi1, hsp, hlq⟩ | h
          · left; exact ⟨b1, x, e, by rw [hlq, hsp], hi1⟩
          · right; exact h
        · rcases pop_refine hi ts hts with ⟨b1, x, q', e, hi1, hsp, hlq⟩ | h
          · rw [hl] at hsp; simp [RingBuffer.Spec.pop] at hsp
          · right; exact h
      rcases hcase with ⟨b, x, e, hsp, hi⟩ | ⟨e, hsp⟩
      · obtain ⟨p2, e2, hl2⟩ := ih hq' hs' { p with buf := b } ⟨hp.init, hp.ok, .inl hi⟩
        refine ⟨p2, ?_, ?_⟩
        · unfold Port.run Spec.thin RingBuffer.Spec.run; rw [e, hsp]; simp only; rw [e2]
        · unfold Spec.thin RingBuffer.Spec.run; rw [hsp, hl2]
      · obtain ⟨p2, e2, hl2⟩ := ih hq' hs' p hp
        refine ⟨p2, ?_, ?_⟩
        · unfold Port.run Spec.thin RingBuffer.Spec.run; rw [e, hsp]; simp only; rw [e2]
        · unfold Spec.thin RingBuffer.Spec.run; rw [hsp, hl2]

/-- **C11.** For every configured buffer length below 256, every delay and every history of offered samples (whose
time shift is defined, see C15) and filter queries (at 100 ms or later), the sensor input runs without undefined
behaviour and answers exactly like a queue of the newest `max 1 obsLen` samples that receives the thinned,
time-shifted samples. -/
theorem port_refines_thinned_queue [Inhabited α] (obsLen D : ℕ) (h1 : obsLen < 256) (sh : UInt64 → UInt64)
    (ops : List (POp α)) (hq : ∀ ts, POp.pop ts ∈ ops → 100000 ≤ ts.toNat)
    (hs : ∀ m s, POp.offer m s ∈ ops → shiftStamp s.time_us D = .ok (sh s.time_us)) :
    ∃ p', (Port.init α).run obsLen D ops =
        .ok (p', (RingBuffer.Spec.run (max 1 obsLen) (Spec.thin sh 0 ops) []).2) ∧
      p'.buf.live = (RingBuffer.Spec.run (max 1 obsLen) (Spec.thin sh 0 ops) []).1 := by
  have hl : (Port.init α).buf.live = [] := live_new (by norm_num) (by norm_num)
  have hr : (Port.init α).Ready (max 1 obsLen) := by
    refine ⟨rfl, rfl, ?_⟩
    by_cases h : obsLen ≤ 1
    · left; rw [max_eq_left h]; exact inv_new (by norm_num) (by norm_num)
    · right; exact ⟨inv_new (by norm_num) (by norm_num), hl, by omega⟩
  have := port_run_refine obsLen D h1 sh ops hq hs (Port.init α) hr
  rwa [hl] at this

/-- **C11.** The queue receives exactly the accepted samples, with unchanged payload. -/
theorem thin_pushes_accepted (sh : UInt64 → UInt64) (last : UInt64) (ops : List (POp α)) :
    RingBuffer.pushed (Spec.thin sh last ops) =
      (Spec.accepted last ops).map (fun s => ⟨sh s.time_us, s.data⟩) := by
  induction ops generalizing last with
  | nil => rfl
  | cons op ops ih =>
    cases op with
    | offer m s =>
      unfold Spec.thin Spec.accepted
      split
      · rw [List.map_cons, ← ih]; rfl
      · exact ih last
    | pop ts => exact ih last

/-- **C11.** Accepted samples are a sublist of the offered ones: arrival order, each at most once. -/
theorem accepted_sublist (last : UInt64) (ops : List (POp α)) :
    List.Sublist (Spec.accepted last ops) (Spec.offered ops) := by
  induction ops generalizing last with
  | nil => exact List.Sublist.refl _
  | cons op ops ih =>
    cases op with
    | offer m s =>
      unfold Spec.accepted Spec.offered
      split
      · exact (ih _).cons_cons s
      · exact (ih _).cons s
    | pop ts => exact ih last

theorem accepted_chain_aux (m0 : ℕ) (last : UInt64) (ops : List (POp α))
    (hm : ∀ m s, POp.offer m s ∈ ops → m0 ≤ m.toNat) :
    (∀ s ∈ (Spec.accepted last ops).head?, m0 < (s.time_us - last).toNat) ∧
    (Spec.accepted last ops).IsChain (fun a b => m0 < (b.time_us - a.time_us).toNat) := by
  induction ops generalizing last with
  | nil => simp [Spec.accepted]
  | cons op ops ih =>
    have hm' : ∀ m s, POp.offer m s ∈ ops → m0 ≤ m.toNat := fun m s h => hm m s (List.mem_cons_of_mem _ h)
    cases op with
    | offer m s =>
      unfold Spec.accepted
      split
      · next hg =>
        have := hm m s (by simp)
        refine ⟨by simp; omega, ?_⟩
        rw [List.isChain_cons]
        exact ⟨fun b hb => (ih s.time_us hm').1 b hb, (ih s.time_us hm').2⟩
      · exact ih last hm'
    | pop ts => exact ih last hm'

/-- **C11.** Two consecutively accepted samples are more than the minimum interval apart (modulo 2^64). -/
theorem accepted_gap (m0 : ℕ) (last : UInt64) (ops : List (POp α))
    (hm : ∀ m s, POp.offer m s ∈ ops → m0 ≤ m.toNat) :
    (Spec.accepted last ops).IsChain (fun a b => m0 < (b.time_us - a.time_us).toNat) :=
  (accepted_chain_aux m0 last ops hm).2

/-- **C11.** Data are ignored before initialisation and after a failed buffer allocation. -/
theorem port_ignores (p : Port α) [Inhabited α] (obsLen D : ℕ) (m : UInt32) (s : Sample α)
    (h : p.initialised = false ∨ p.fail = true) : p.set obsLen D m s = .ok p := by
  unfold Port.set; rw [if_pos]; rcases h with h | h <;> simp [h]

/-- Non-vacuity of C11: three samples, the second arrives too early; both others are delivered. -/
example : ∃ p', (Port.init ℕ).run 3 10000
    [.offer 20000 ⟨500000, 1⟩, .offer 20000 ⟨515000, 2⟩, .pop 490000, .offer 20000 ⟨530000, 3⟩, .pop 520000] =
      .ok (p', [some ⟨485000, 1⟩, some ⟨515000, 3⟩]) := ⟨_, rfl⟩

/-! ### C12: averaging -/

section averaging
variable {K V : Type*} [Field K] [AddCommGroup V] [Module K V]

/-- run a list of samples without any acceptance in between, then one accepted sample -/
def Averager.run (K : Type*) {V : Type*} [Field K] [AddCommGroup V] [Module K V] (minInt : UInt32) :
    Averager V → List (UInt64 × V) → Except UB (Averager V × List (UInt64 × V))
  | a, [] => .ok (a, [])
  | a, (t, v) :: xs =>
    match a.add (K := K) minInt t v with
    | .error e => .error e
    | .ok (a', o) =>
      match Averager.run K minInt a' xs with
      | .error e => .error e
      | .ok (a'', out) => .ok (a'', o.toList ++ out)

/-- Specification: cut the sample sequence into groups; a group ends with the first sample that arrives more than
`m` after the end of the previous group.  Returns the finished groups and the unfinished rest.
`cur` is the current group so far. -/
def Spec.groups (m : ℕ) : UInt64 → List (UInt64 × V) → List (UInt64 × V) → List (List (UInt64 × V)) × List (UInt64 × V)
  | _, cur, [] => ([], cur)
  | last, cur, x :: xs =>
    if m < (x.1 - last).toNat then
      let r := groups m x.1 [] xs
      ((cur ++ [x]) :: r.1, r.2)
    else groups m last (cur ++ [x]) xs

/-- Specification: mean of a group; the time is averaged in whole milliseconds -/
def Spec.mean (K : Type*) {V : Type*} [Field K] [AddCommGroup V] [Module K V] (g : List (UInt64 × V)) : UInt64 × V :=
  (UInt64.ofNat (1000 * ((g.map fun x => x.1.toNat / 1000).sum / g.length)),
    ((g.length : K)⁻¹) • (g.map Prod.snd).sum)

/-- the accumulators hold exactly the current group -/
structure Averager.Holds (a : Averager V) (last : UInt64) (cur : List (UInt64 × V)) : Prop where
  last : a.timeLast = last
  count : a.count.toNat = cur.length
  sum : a.sum = (cur.map Prod.snd).sum
  tsum : a.tsum.toNat = (cur.map fun x => x.1.toNat / 1000).sum

theorem tsum_bound (g : List (UInt64 × V)) :
    (g.map fun x => x.1.toNat / 1000).sum ≤ g.length * 18446744073709551 := by
  induction g with
  | nil => simp
  | cons x xs ih =>
    have := x.1.toNat_lt
    simp only [List.map_cons, List.sum_cons, List.length_cons]
    omega

theorem add_holds {a : Averager V} {last : UInt64} {cur : List (UInt64 × V)} (h : a.Holds last cur)
    (hlen : cur.length < 255) (m : UInt32) (x : UInt64 × V) :
    (m.toNat < (x.1 - last).toNat →
      ∃ a', a.add (K := K) m x.1 x.2 = .ok (a', some (Spec.mean K (cur ++ [x]))) ∧ a'.Holds x.1 []) ∧
    (¬ m.toNat < (x.1 - last).toNat →
      ∃ a', a.add (K := K) m x.1 x.2 = .ok (a', none) ∧ a'.Holds last (cur ++ [x])) := by
  have hb := tsum_bound (cur ++ [x])
  have hts : (a.tsum + x.1 / 1000).toNat = ((cur ++ [x]).map fun y => y.1.toNat / 1000).sum := by
    have hx : (x.1 / 1000).toNat = x.1.toNat / 1000 := by simp
    rw [UInt64.toNat_add, hx, h.tsum, Nat.mod_eq_of_lt]
    · simp
    · simp at hb
      omega
  have hc : (a.count + 1).toNat = cur.length + 1 := by
    rw [UInt8.toNat_add, h.count]
    have : (1 : UInt8).toNat = 1 := rfl
    rw [this, Nat.mod_eq_of_lt]
    omega
  have hsum : a.sum + x.2 = ((cur ++ [x]).map Prod.snd).sum := by rw [h.sum]; simp
  constructor
  · intro hg
    unfold Averager.add
    simp only
    rw [h.last, if_pos ((gap_iff _ _ _).mpr hg), if_neg (by
      intro h0; have := congrArg UInt8.toNat h0; rw [hc] at this; simp at this)]
    refine ⟨⟨0, 0, 0, x.1⟩, ?_, ⟨rfl, rfl, rfl, rfl⟩⟩
    unfold Spec.mean
    rw [hsum, hc, ← hts]
    congr 4
    · apply UInt64.toNat_inj.mp
      have hc64 : (a.count + 1).toUInt64.toNat = (cur ++ [x]).length := by rw [UInt8.toNat_toUInt64, hc]; simp
      rw [UInt64.toNat_mul, UInt64.toNat_div, hc64]
      simp only [UInt64.toNat_ofNat', UInt64.reduceToNat]
    · simp
  · intro hg
    unfold Averager.add
    simp only
    rw [h.last, if_neg (fun hh => hg ((gap_iff _ _ _).mp hh))]
    exact ⟨_, rfl, ⟨rfl, by rw [hc]; simp, hsum, hts⟩⟩

theorem avg_run_aux (m : UInt32) (xs : List (UInt64 × V)) (a : Averager V) (last : UInt64) (cur : List (UInt64 × V))
    (h : a.Holds last cur)
    (hlen : ∀ g ∈ (Spec.groups m.toNat last cur xs).1, g.length ≤ 255)
    (hrest : (Spec.groups m.toNat last cur xs).2.length ≤ 255) :
    ∃ a', a.run K m xs = .ok (a', (Spec.groups m.toNat last cur xs).1.map (Spec.mean K)) := by
  induction xs generalizing a last cur with
  | nil => exact ⟨a, rfl⟩
  | cons x xs ih =>
    have hmono : ∀ (ys : List (UInt64 × V)) (l : UInt64) (c : List (UInt64 × V)),
        (∀ g ∈ (Spec.groups m.toNat l c ys).1, g.length ≤ 255) → (Spec.groups m.toNat l c ys).2.length ≤ 255 →
        c.length ≤ 255 := by
      intro ys
      induction ys with
      | nil => intro l c _ h2; exact h2
      | cons y ys ihy =>
        intro l c h1 h2
        unfold Spec.groups at h1 h2
        split at h1
        · have := h1 (c ++ [y]) (by simp); simp at this; omega
        · next hh => rw [if_neg hh] at h2; have := ihy l (c ++ [y]) h1 h2; simp at this; omega
    have hc : cur.length < 255 := by
      unfold Spec.groups at hlen hrest
      split at hlen
      · have := hlen (cur ++ [x]) (by simp); simp at this; omega
      · next hh => rw [if_neg hh] at hrest; have := hmono xs _ _ hlen hrest; simp at this; omega
    obtain ⟨hacc, hrej⟩ := add_holds (K := K) h hc m x
    obtain ⟨xt, xv⟩ := x
    by_cases hg : m.toNat < (xt - last).toNat
    · obtain ⟨a1, e1, h1⟩ := hacc hg
      have e : Spec.groups m.toNat last cur ((xt, xv) :: xs) =
        ((cur ++ [(xt, xv)]) :: (Spec.groups m.toNat xt [] xs).1, (Spec.groups m.toNat xt [] xs).2) := by
        conv_lhs => unfold Spec.groups
        rw [if_pos hg]
      rw [e] at hlen hrest ⊢
      obtain ⟨a2, e2⟩ := ih a1 xt [] h1 (fun g hg => hlen g (List.mem_cons_of_mem _ hg)) hrest
      refine ⟨a2, ?_⟩
      unfold Averager.run
      simp only at e1
      rw [e1]; simp only; rw [e2]; rfl
    · obtain ⟨a1, e1, h1⟩ := hrej hg
      have e : Spec.groups m.toNat last cur ((xt, xv) :: xs) = Spec.groups m.toNat last (cur ++ [(xt, xv)]) xs := by
        conv_lhs => unfold Spec.groups
        rw [if_neg hg]
      rw [e] at hlen hrest ⊢
      obtain ⟨a2, e2⟩ := ih a1 last _ h1 hlen hrest
      refine ⟨a2, ?_⟩
      unfold Averager.run
      simp only at e1
      rw [e1]; simp only; rw [e2]; rfl

/-- **C12.** For every sequence of samples in which at most 255 samples fall between two pushes, the values handed
to the buffer are exactly the means of the consecutive groups: every sample enters exactly one mean. -/
theorem averager_means (m : UInt32) (xs : List (UInt64 × V))
    (hlen : ∀ g ∈ (Spec.groups m.toNat 0 [] xs).1, g.length ≤ 255)
    (hrest : (Spec.groups m.toNat 0 [] xs).2.length ≤ 255) :
    ∃ a', (Averager.init V).run K m xs = .ok (a', (Spec.groups m.toNat 0 [] xs).1.map (Spec.mean K)) :=
  avg_run_aux m xs _ 0 [] ⟨rfl, rfl, rfl, rfl⟩ hlen hrest

/-- **C12 (partition).** The groups are consecutive, non-overlapping and exhaustive. -/
theorem groups_partition (m : ℕ) (last : UInt64) (cur xs : List (UInt64 × V)) :
    (Spec.groups m last cur xs).1.flatten ++ (Spec.groups m last cur xs).2 = cur ++ xs := by
  induction xs generalizing last cur with
  | nil => simp [Spec.groups]
  | cons x xs ih =>
    unfold Spec.groups
    split
    · simp only [List.flatten_cons, List.append_assoc, ih]; simp
    · rw [ih]; simp

/-- the counter value after `n` samples that did not complete a group -/
theorem run_counts (m : UInt32) (last : UInt64) (xs : List (UInt64 × V)) (a : Averager V) (hl : a.timeLast = last)
    (h : ∀ x ∈ xs, ¬ m.toNat < (x.1 - last).toNat) :
    ∃ a', a.run K m xs = .ok (a', []) ∧ a'.timeLast = last ∧ a'.count.toNat = (a.count.toNat + xs.length) % 256 ∧
      a'.sum = a.sum + (xs.map Prod.snd).sum := by
  induction xs generalizing a with
  | nil => exact ⟨a, rfl, hl, by simp [Nat.mod_eq_of_lt a.count.toNat_lt], by simp⟩
  | cons x xs ih =>
    obtain ⟨xt, xv⟩ := x
    have hx := h (xt, xv) (by simp)
    obtain ⟨a2, e2, hl2, hc2, hs2⟩ := ih
      { a with count := a.count + 1, sum := a.sum + xv, tsum := a.tsum + xt / 1000 } hl
      (fun y hy => h y (List.mem_cons_of_mem _ hy))
    refine ⟨a2, ?_, hl2, ?_, ?_⟩
    · unfold Averager.run Averager.add
      simp only
      rw [hl, if_neg (fun hh => hx ((gap_iff _ _ _).mp hh))]
      simp only
      rw [← hl, e2]; rfl
    · rw [hc2]
      simp only [UInt8.toNat_add, List.length_cons]
      have : (1 : UInt8).toNat = 1 := rfl
      rw [this]
      omega
    · rw [hs2]; simp [add_assoc]

/-- **C12 (failure).** If exactly 255 samples precede the one that completes a group, the 8-bit counter wraps to
zero and the time average divides by zero. -/
theorem averager_256_divides_by_zero (m : UInt32) (last : UInt64) (xs : List (UInt64 × V)) (x : UInt64 × V)
    (a : Averager V) (hl : a.timeLast = last) (h0 : a.count = 0) (hlen : xs.length = 255)
    (h : ∀ x ∈ xs, ¬ m.toNat < (x.1 - last).toNat) (hx : m.toNat < (x.1 - last).toNat) :
    ∃ a', a.run K m xs = .ok (a', []) ∧ a'.add (K := K) m x.1 x.2 = .error .divByZero := by
  obtain ⟨a', e, hl', hc, _⟩ := run_counts (K := K) m last xs a hl h
  refine ⟨a', e, ?_⟩
  unfold Averager.add
  simp only
  rw [hl', if_pos ((gap_iff _ _ _).mpr hx), if_pos]
  apply UInt8.toNat_inj.mp
  rw [UInt8.toNat_add, hc, h0, hlen]; rfl

/-- **C12 (failure).** In a longer group the sum of all `n` samples is divided by `n mod 256` instead of `n`. -/
theorem averager_long_group_wrong (m : UInt32) (last : UInt64) (xs : List (UInt64 × V)) (x : UInt64 × V)
    (a : Averager V) (hl : a.timeLast = last) (h0 : a.count = 0) (hs0 : a.sum = 0)
    (hlen : (xs.length + 1) % 256 ≠ 0)
    (h : ∀ x ∈ xs, ¬ m.toNat < (x.1 - last).toNat) (hx : m.toNat < (x.1 - last).toNat) :
    ∃ a' a'' t, a.run K m xs = .ok (a', []) ∧ a'.add (K := K) m x.1 x.2 =
      .ok (a'', some (t, ((((xs.length + 1) % 256 : ℕ) : K)⁻¹) • ((xs ++ [x]).map Prod.snd).sum)) := by
  obtain ⟨a', e, hl', hc, hs⟩ := run_counts (K := K) m last xs a hl h
  have hc1 : (a'.count + 1).toNat = (xs.length + 1) % 256 := by
    rw [UInt8.toNat_add, hc, h0]
    have : (1 : UInt8).toNat = 1 := rfl
    have h00 : (0 : UInt8).toNat = 0 := rfl
    rw [this, h00]; omega
  refine ⟨a', ?_⟩
  unfold Averager.add
  simp only
  rw [hl', if_pos ((gap_iff _ _ _).mpr hx), if_neg (by
    intro hz; have := congrArg UInt8.toNat hz; rw [hc1] at this; exact hlen this)]
  refine ⟨⟨0, 0, 0, x.1⟩, 1000 * ((a'.tsum + x.1 / 1000) / (a'.count + 1).toUInt64), e, ?_⟩
  rw [hc1, hs, hs0]; simp

/-- Non-vacuity of C12: two groups, of sizes two and one. -/
example : Spec.groups (V := ℚ) 30000 0 [] [(20000, 4), (40000, 6), (100000, 8)] =
    ([[(20000, 4), (40000, 6)], [(100000, 8)]], []) := by decide +kernel
example : (Spec.mean ℚ [((20000 : UInt64), (4 : ℚ)), (40000, 6)]) = (30000, 5) := by
  unfold Spec.mean; ext
  · decide
  · norm_num
example : ∃ (xs : List (UInt64 × ℚ)), xs.length = 255 ∧ ∀ x ∈ xs, ¬ (30000 < (x.1 - 0).toNat) :=
  ⟨List.replicate 255 (0, 1), List.length_replicate, by intro x hx; rw [List.eq_of_mem_replicate hx]; decide⟩

end averaging

/-! ### C13, C14: buffer sizing -/

section sizing
variable {K : Type*} [Field K] [LinearOrder K] [IsStrictOrderedRing K] [FloorRing K]

/-- the delays that count for a configuration (specification) -/
def Spec.relevantDelays (p : DelayParams K) : List K :=
  [p.baro, p.auxvel, p.airspeed] ++ (if p.useMag then [p.mag] else []) ++ (if p.useRange then [p.range] else []) ++
    (if p.maskGps then [p.gps] else []) ++ (if p.maskFlow then [p.flow] else []) ++ (if p.maskEv then [p.ev] else [])

omit [Field K] [IsStrictOrderedRing K] [FloorRing K] in
/-- **C13.** The sizing delay is the largest of the delays of the configured sensors (and one of them). -/
theorem maxDelay_isMax (p : DelayParams K) :
    maxDelay p ∈ Spec.relevantDelays p ∧ ∀ d ∈ Spec.relevantDelays p, d ≤ maxDelay p := by
  have key : ∀ (c : Bool) (x m : K) (l : List K), (m ∈ l ∧ ∀ d ∈ l, d ≤ m) →
      ((if c then mmax x m else m) ∈ l ++ (if c then [x] else []) ∧
        ∀ d ∈ l ++ (if c then [x] else []), d ≤ (if c then mmax x m else m)) := by
    intro c x m l ⟨h1, h2⟩
    cases c
    · simpa using ⟨h1, h2⟩
    · simp only [if_true, mmax_eq]
      constructor
      · rcases le_total x m with h | h
        · rw [max_eq_right h]; simp [h1]
        · rw [max_eq_left h]; simp
      · intro d hd
        simp only [List.mem_append, List.mem_singleton] at hd
        rcases hd with hd | rfl
        · exact le_trans (h2 d hd) (le_max_right _ _)
        · exact le_max_left _ _
  unfold maxDelay Spec.relevantDelays
  simp only
  apply key; apply key; apply key; apply key; apply key
  simp only [mmax_eq]
  refine ⟨?_, ?_⟩
  · simp only [List.mem_cons, List.not_mem_nil, or_false]
    rcases max_choice p.baro (max p.auxvel p.airspeed) with h | h
    · left; exact h
    · right; rw [h]; exact max_choice _ _
  · intro d hd
    simp only [List.mem_cons, List.not_mem_nil, or_false] at hd
    rcases hd with rfl | rfl | rfl <;> simp

/-- **C13.** If sizing succeeds, the IMU buffer covers the largest delay with one spare slot and not more than
that, and the observation buffer length is at most the IMU buffer length; for a positive delay and interval it is
at least one and, unless capped by the IMU length, covers 1.5 times the delay at the given sensor interval. -/
theorem bufferLengths_spec (p : DelayParams K) (imuLen obsLen : ℕ) (h : bufferLengths p = .ok (imuLen, obsLen)) :
    maxDelay p ≤ 10 * ((imuLen : K) - 1) ∧ 10 * ((imuLen : K) - 2) < maxDelay p ∧
    obsLen ≤ imuLen ∧ imuLen < 256 ∧
    (0 < maxDelay p → 0 < p.intervalMin → 1 ≤ obsLen ∧ 2 ≤ imuLen ∧
      (obsLen < imuLen → maxDelay p * (3 / 2) ≤ obsLen * (p.intervalMin : K) ∧
        ((obsLen : K) - 1) * p.intervalMin < maxDelay p * (3 / 2))) ∧
    (maxDelay p = 0 → obsLen = 0 ∧ imuLen = 1) := by
  unfold bufferLengths toU8 at h
  split at h
  · exact absurd h (by simp)
  next i hi =>
  split at hi
  swap
  · exact absurd hi (by simp)
  next hri =>
  simp only [Except.ok.injEq] at hi
  split at h
  · exact absurd h (by simp)
  next hz =>
  split at h
  · exact absurd h (by simp)
  next o ho =>
  split at ho
  swap
  · exact absurd ho (by simp)
  next hro =>
  simp only [Except.ok.injEq, Prod.mk.injEq] at h ho
  obtain ⟨rfl, rfl⟩ := h
  have hiz : (i : ℤ) = ⌈maxDelay p / 10⌉ + 1 := by omega
  have hoz : (o : ℤ) = ⌈maxDelay p * (3 / 2) / (p.intervalMin : K)⌉ := by omega
  have hik : (i : K) = (⌈maxDelay p / 10⌉ : K) + 1 := by
    have : ((i : ℤ) : K) = ((⌈maxDelay p / 10⌉ + 1 : ℤ) : K) := by rw [hiz]
    push_cast at this; exact this
  have hok : (o : K) = (⌈maxDelay p * (3 / 2) / (p.intervalMin : K)⌉ : K) := by
    have : ((o : ℤ) : K) = ((⌈maxDelay p * (3 / 2) / (p.intervalMin : K)⌉ : ℤ) : K) := by rw [hoz]
    push_cast at this; exact this
  have c1 := Int.le_ceil (maxDelay p / 10)
  have c2 := Int.ceil_lt_add_one (maxDelay p / 10)
  have d1 := Int.le_ceil (maxDelay p * (3 / 2) / (p.intervalMin : K))
  have d2 := Int.ceil_lt_add_one (maxDelay p * (3 / 2) / (p.intervalMin : K))
  rw [← hok] at d1 d2
  have e10 : maxDelay p / 10 * 10 = maxDelay p := by field_simp
  refine ⟨by rw [hik]; linarith, by rw [hik]; linarith, min_le_right _ _, by omega, ?_, ?_⟩
  · intro hpos hint
    have hik' : (0 : K) < p.intervalMin := by exact_mod_cast hint
    have hi2 : 0 < ⌈maxDelay p / 10⌉ := Int.ceil_pos.mpr (by positivity)
    have ho1 : 0 < ⌈maxDelay p * (3 / 2) / (p.intervalMin : K)⌉ := Int.ceil_pos.mpr (by positivity)
    refine ⟨by omega, by omega, fun hlt => ?_⟩
    have : min o i = o := by omega
    rw [this]
    rw [div_le_iff₀ hik'] at d1
    refine ⟨d1, ?_⟩
    have : (o : K) - 1 < maxDelay p * (3 / 2) / (p.intervalMin : K) := by linarith
    rwa [lt_div_iff₀ hik'] at this
  · intro h0
    rw [h0] at hiz hoz
    simp at hiz hoz
    omega

/-- **C13.** Sizing succeeds exactly if both lengths fit into eight bits and the interval is not zero. -/
theorem bufferLengths_defined_iff (p : DelayParams K) :
    (∃ r, bufferLengths p = .ok r) ↔
      p.intervalMin ≠ 0 ∧ (-1 ≤ ⌈maxDelay p / 10⌉ ∧ ⌈maxDelay p / 10⌉ ≤ 254) ∧
      (0 ≤ ⌈maxDelay p * (3 / 2) / (p.intervalMin : K)⌉ ∧ ⌈maxDelay p * (3 / 2) / (p.intervalMin : K)⌉ ≤ 255) := by
  unfold bufferLengths toU8
  by_cases h1 : 0 ≤ ⌈maxDelay p / 10⌉ + 1 ∧ ⌈maxDelay p / 10⌉ + 1 < 256
  · rw [if_pos h1]
    simp only
    by_cases hz : p.intervalMin = 0
    · rw [if_pos hz]; simp [hz]
    · rw [if_neg hz]
      by_cases h2 : 0 ≤ ⌈maxDelay p * (3 / 2) / (p.intervalMin : K)⌉ ∧
          ⌈maxDelay p * (3 / 2) / (p.intervalMin : K)⌉ < 256
      · rw [if_pos h2]; simp only [Except.ok.injEq, exists_eq', true_iff]
        exact ⟨hz, by omega, by omega⟩
      · rw [if_neg h2]; simp only [reduceCtorEq, exists_false, false_iff]
        rintro ⟨_, _, h⟩; exact h2 (by omega)
  · rw [if_neg h1]; simp only [reduceCtorEq, exists_false, false_iff]
    rintro ⟨_, h, _⟩; exact h1 (by omega)

/-- the parameters of EKF/common.h:210-232 with GPS, mag, flow aiding, as rational numbers -/
def defaultDelays : DelayParams ℚ := ⟨0, 5, 100, 0, 5, 110, 5, 175, true, false, true, false, false, 20⟩

example : bufferLengths defaultDelays = .ok (12, 9) := by
  unfold bufferLengths maxDelay defaultDelays toU8 mmax; norm_num
  decide

/-- with an empty observation buffer the divisor wraps round: no minimum interval is enforced -/
theorem minObsInterval_empty (t td : UInt64) (h : (t - td).toNat < 2 ^ 64 - 1) : minObsInterval t td 0 = .ok 0 := by
  unfold minObsInterval
  rw [if_neg (by decide), if_pos rfl]
  congr 1
  apply UInt32.toNat_inj.mp
  rw [UInt64.toNat_toUInt32, UInt64.toNat_div]
  have e : ((0 : UInt64) - 1).toNat = 2 ^ 64 - 1 := by decide
  rw [e, Nat.div_eq_of_lt h]
  rfl

/-- **C14.** The minimum observation interval is computed without dividing by zero iff the observation buffer length
is not one; for length two or more it is the quotient (truncated to 32 bits). -/
theorem minObsInterval_defined_iff (t td : UInt64) (obsLen : ℕ) :
    (minObsInterval t td obsLen = .error .divByZero ↔ obsLen = 1) ∧
    (2 ≤ obsLen → obsLen < 256 →
      ∃ r, minObsInterval t td obsLen = .ok r ∧ r.toNat = (t - td).toNat / (obsLen - 1) % 2 ^ 32) := by
  unfold minObsInterval
  constructor
  · constructor
    · intro h; by_contra hne; rw [if_neg hne] at h; split at h <;> exact absurd h (by simp)
    · intro h; rw [if_pos h]
  · intro h2 h3
    rw [if_neg (by omega), if_neg (by omega)]
    refine ⟨_, rfl, ?_⟩
    rw [UInt64.toNat_toUInt32, UInt64.toNat_div, UInt64.toNat_ofNat_of_lt' (by
      show obsLen - 1 < 2 ^ 64; omega)]

/-- a plausible configuration (10 ms airspeed delay only, default 20 ms sensor interval) -/
def shortDelays : DelayParams ℚ := ⟨0, 5, 10, 0, 5, 110, 5, 175, true, false, false, false, false, 20⟩

/-- **C14 (refutation).** There is a configuration for which sizing succeeds with an observation buffer of length
one, and then the first down-sampled IMU sample divides by zero. -/
theorem minObsInterval_divides_by_zero :
    ∃ p : DelayParams ℚ, 0 < maxDelay p ∧ bufferLengths p = .ok (2, 1) ∧
      ∀ t td, minObsInterval t td 1 = .error .divByZero := by
  refine ⟨shortDelays, ?_, ?_, fun t td => rfl⟩
  · unfold maxDelay shortDelays mmax; norm_num
  · unfold bufferLengths maxDelay shortDelays toU8 mmax; norm_num; decide

/-- **C13 (finding).** The GPS delay is ignored unless GPS aiding is enabled in the fusion mask, although GPS data
are also used as height source. -/
theorem gps_delay_ignored_without_mask (p : DelayParams K) (h : p.maskGps = false) (d : K) :
    maxDelay { p with gps := d } = maxDelay p := by
  unfold maxDelay; simp [h]

end sizing

end Ecl.Interface
