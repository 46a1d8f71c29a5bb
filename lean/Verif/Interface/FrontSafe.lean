import Verif.Interface.Props
import Verif.Interface.Front

/-!
# No undefined behaviour at the sensor interface, whatever the interleaving
-/

namespace Ecl.Interface

open Ecl.RingBuffer

variable {K : Type*} [Field K] [Inhabited K] {α : Type*} [Inhabited α] {β : Type*} [Inhabited β]

/-! ## Specification -/

/-- Configuration: two to 255 observation slots, at most 255 IMU slots, delays below 16.7 s -/
structure Spec.Sized (c : Cfg) : Prop where
  obs : 2 ≤ c.obsLen ∧ c.obsLen < 256
  imu : 1 ≤ c.imuLen ∧ c.imuLen < 256
  mag : c.dMag < 2 ^ 24
  baro : c.dBaro < 2 ^ 24
  gps : c.dGps < 2 ^ 24
  plain : ∀ k, c.dPlain k < 2 ^ 24

/-- Time stamps: later than the sensor's delay (plus 1 ms for the averaged sensors), below 2^62; successive magnetometer stamps, and
successive barometer stamps, at least `g` apart; the fusion horizon lies at most `M` times the number of observation slots less one
behind; queries not before 100 ms.  `a`, `b` = last magnetometer, barometer stamp.  Nothing is assumed of the order in which
different sensors arrive, of their contents, or of the order of the other stamps. -/
def Spec.Timed (c : Cfg) (g M : ℕ) : ℕ → ℕ → List (FOp K α) → Prop
  | _, _, [] => True
  | a, b, .imu now delayed :: ops => (now - delayed).toNat ≤ M * (c.obsLen - 1) ∧ Timed c g M a b ops
  | a, b, .drag .. :: ops => Timed c g M a b ops
  | a, b, .mag t _ :: ops => a + g ≤ t.toNat ∧ c.dMag + 1000 ≤ t.toNat ∧ t.toNat < 2 ^ 62 ∧ Timed c g M t.toNat b ops
  | a, b, .baro t _ _ :: ops => b + g ≤ t.toNat ∧ c.dBaro + 1000 ≤ t.toNat ∧ t.toNat < 2 ^ 62 ∧ Timed c g M a t.toNat ops
  | a, b, .gps t _ _ :: ops => c.dGps ≤ t.toNat ∧ t.toNat < 2 ^ 62 ∧ Timed c g M a b ops
  | a, b, .plain k s :: ops => c.dPlain k ≤ s.time_us.toNat ∧ s.time_us.toNat < 2 ^ 62 ∧ Timed c g M a b ops
  | a, b, .popMag ts :: ops => 100000 ≤ ts.toNat ∧ Timed c g M a b ops
  | a, b, .popBaro ts :: ops => 100000 ≤ ts.toNat ∧ Timed c g M a b ops
  | a, b, .popGps ts :: ops => 100000 ≤ ts.toNat ∧ Timed c g M a b ops
  | a, b, .popPlain _ ts :: ops => 100000 ≤ ts.toNat ∧ Timed c g M a b ops
  | a, b, .popDrag ts :: ops => 100000 ≤ ts.toNat ∧ Timed c g M a b ops

/-! ## Components -/

theorem rnd24_ge {t D : ℕ} (hD : D < 2 ^ 24) (h : D ≤ t) : D ≤ rnd24 t := by
  by_cases ht : t < 2 ^ 24
  · rw [rnd24_small ht]; exact h
  · have he := rnd24_error t
    have hu := ulp_le t (by omega)
    have : ((2 ^ ulpExp t : ℕ) : ℤ) * 2 ^ 23 ≤ t := by exact_mod_cast hu
    have h1 := neg_abs_le ((rnd24 t : ℤ) - t)
    have h2 : (2 ^ 24 : ℤ) ≤ t := by exact_mod_cast (by omega : 2 ^ 24 ≤ t)
    have h3 : (D : ℤ) < 2 ^ 24 := by exact_mod_cast hD
    have : (D : ℤ) ≤ rnd24 t := by omega
    exact_mod_cast this

theorem shift_defined {t : UInt64} {D : ℕ} (hD : D < 2 ^ 24) (h : D ≤ t.toNat) (ht : t.toNat < 2 ^ 62) : ∃ r, shiftStamp t D = .ok r := by
  have h1 := rnd24_ge hD h
  have up : ∀ n k : ℕ, 24 ≤ k → n < 2 ^ k → rnd24 n ≤ 2 ^ k := by
    intro n k hk hn
    refine le_trans (rnd24_le n) (Nat.pow_le_pow_right (by norm_num) ?_)
    unfold ulpExp
    by_cases h0 : n = 0
    · subst h0; simp; omega
    · have : Nat.log2 n < k := (Nat.log2_lt h0).mpr hn
      omega
  have h2 := up t.toNat 62 (by norm_num) ht
  have h3 := up (rnd24 t.toNat - D) 63 (by norm_num) (by
    have : (2 : ℕ) ^ 62 < 2 ^ 63 := by norm_num
    omega)
  unfold shiftStamp
  simp only
  rw [if_neg (by omega), if_pos (by
    have : (2 : ℕ) ^ 63 < 2 ^ 64 := by norm_num
    omega)]
  exact ⟨_, rfl⟩

/-- an input that has not been disabled and whose buffer is allocated or still the initial slot -/
structure Port.Good (p : Port β) (n : ℕ) : Prop where
  ok : p.fail = false
  inv : p.buf.Inv n ∨ (p.buf.Inv 1 ∧ p.buf.live = [] ∧ 1 < n)

theorem good_start {p : Port β} {n : ℕ} (h : p.Good n) : p.start.Good n := ⟨h.ok, h.inv⟩

theorem good_alloc {p : Port β} {n : ℕ} (h : p.Good n) :
    ∃ b, (if p.buf.size < n then p.buf.allocate n else (p.buf, true)) = (b, true) ∧ b.Inv n := by
  rcases h.inv with hi | ⟨hi, _, hn⟩
  · exact ⟨p.buf, by rw [if_neg (by have := hi.size; omega)], hi⟩
  · have hsz := hi.size
    obtain ⟨b, hb, hbi, _⟩ := (ringbuffer_allocate p.buf 1 n hi).2.2 (by omega) (by omega)
    exact ⟨b, by rw [if_pos (by omega), hb], hbi⟩

theorem good_prep {p : Port β} {n : ℕ} (h : p.Good n) :
    (p.prep n = (p, false)) ∨ ∃ b, p.prep n = ({ p with buf := b, fail := false }, true) ∧ b.Inv n := by
  obtain ⟨b, hb, hi⟩ := good_alloc h
  unfold Port.prep
  by_cases hin : p.initialised = true
  · right
    refine ⟨b, ?_, hi⟩
    rw [if_neg (by simp [hin, h.ok]), hb]; rfl
  · left
    rw [if_pos (by simp [hin])]

theorem set_safe {p : Port β} {n D : ℕ} (hn : 1 ≤ n) (h1 : n < 256) (h : p.Good n) (m : UInt32) (s : Sample β) (hs : ∃ r, shiftStamp s.time_us D = .ok r) :
    ∃ p', p.set n D m s = .ok p' ∧ p'.Good n := by
  by_cases hin : p.initialised = true
  · have hmax : max 1 n = n := by omega
    obtain ⟨r, hr⟩ := hs
    obtain ⟨p', e, hr', _⟩ := set_ready h1 (p := p) (by rw [hmax]; exact ⟨hin, h.ok, h.inv⟩) m s r hr
    rw [hmax] at hr'
    exact ⟨p', e, hr'.ok, hr'.inv⟩
  · exact ⟨p, port_ignores p n D m s (Or.inl (by simpa using hin)), h⟩

theorem query_safe {p : Port β} {n : ℕ} (h : p.Good n) (ts : UInt64) (hts : 100000 ≤ ts.toNat) : ∃ p' o, p.query ts = .ok (p', o) ∧ p'.Good n := by
  unfold Port.query
  rcases h.inv with hi | ⟨hi, hl, hn⟩
  · rcases pop_refine hi ts hts with ⟨b1, x, q', e, hi1, _, _⟩ | h'
    · rw [e]; exact ⟨_, _, rfl, h.ok, .inl hi1⟩
    · rw [h'.1]; exact ⟨_, _, rfl, h⟩
  · rcases pop_refine hi ts hts with ⟨b1, x, q', e, hi1, hsp, _⟩ | h'
    · rw [hl] at hsp; simp [RingBuffer.Spec.pop] at hsp
    · rw [h'.1]; exact ⟨_, _, rfl, h⟩

theorem gps_safe {p : Port β} {n D : ℕ} (h : p.Good n) (m : UInt32) (need : Bool) (t : UInt64) (fix : ℕ) (x : β)
    (hs : ∃ r, shiftStamp t D = .ok r) : ∃ p', gpsSet p n D m need t fix x = .ok p' ∧ p'.Good n := by
  unfold gpsSet
  rcases good_prep h with e | ⟨b, e, hi⟩
  · rw [e]; exact ⟨p, rfl, h⟩
  · rw [e]
    simp only [Bool.not_true, Bool.false_eq_true, if_false]
    obtain ⟨r, hr⟩ := hs
    obtain ⟨b', hb', hbi', _⟩ := push_refine hi (⟨r, x⟩ : Sample β)
    split
    · rw [hr]
      simp only
      rw [hb']
      exact ⟨_, rfl, rfl, .inl hbi'⟩
    · exact ⟨_, rfl, rfl, .inl hi⟩

theorem drag_safe {c : Cfg} (hc : Spec.Sized c) {p : Port (K × K)} (h : p.Good c.obsLen) (a : DragAcc K) (t : UInt64) (dvx dvy dvdt : K) :
    ∃ p' a', dragSet c p a t dvx dvy dvdt = .ok (p', a') ∧ p'.Good c.obsLen := by
  unfold dragSet
  obtain ⟨b, hb, hi⟩ := good_alloc h
  split
  · rw [hb]
    simp only [Bool.not_true, Bool.false_eq_true, if_false]
    unfold Cfg.ratio
    rw [if_neg (by have := hc.obs; omega)]
    simp only
    split
    · exact ⟨_, _, rfl, rfl, .inl hi⟩
    · next a' tm x y _ =>
      obtain ⟨b', hb', hbi', _⟩ := push_refine hi (⟨tm, x, y⟩ : Sample (K × K))
      rw [hb']
      exact ⟨_, _, rfl, rfl, .inl hbi'⟩
  · exact ⟨_, _, rfl, h⟩

section avg
variable {V : Type*} [AddCommGroup V] [Module K V] [Inhabited V]

/-- the accumulators hold a group of samples that arrived within `M` -/
def Averager.Good (D g M : ℕ) (msg : ℕ) (a : Averager V) : Prop :=
  ∃ (last : UInt64) (cur : List (UInt64 × V)), a.Holds last cur ∧ last.toNat ≤ msg ∧ cur.length * g ≤ msg - last.toNat ∧
    cur.length * g ≤ M ∧ ∀ x ∈ cur, D + 1000 ≤ x.1.toNat ∧ x.1.toNat < 2 ^ 62

theorem mean_bounds {D : ℕ} (l : List (UInt64 × V)) (hl : l ≠ []) (h : ∀ x ∈ l, D + 1000 ≤ x.1.toNat ∧ x.1.toNat < 2 ^ 62) :
    D ≤ (Spec.mean K l).1.toNat ∧ (Spec.mean K l).1.toNat < 2 ^ 62 := by
  have hlen : 0 < l.length := List.length_pos_iff.mpr hl
  have lo : ∀ l : List (UInt64 × V), (∀ x ∈ l, D + 1000 ≤ x.1.toNat ∧ x.1.toNat < 2 ^ 62) →
      l.length * ((D + 1000) / 1000) ≤ (l.map fun x => x.1.toNat / 1000).sum ∧ (l.map fun x => x.1.toNat / 1000).sum ≤ l.length * ((2 ^ 62 - 1) / 1000) := by
    intro l
    induction l with
    | nil => intro _; simp
    | cons x xs ih =>
      intro h
      obtain ⟨i1, i2⟩ := ih fun y hy => h y (List.mem_cons_of_mem _ hy)
      obtain ⟨j1, j2⟩ := h x (by simp)
      have k1 : (D + 1000) / 1000 ≤ x.1.toNat / 1000 := Nat.div_le_div_right j1
      have k2 : x.1.toNat / 1000 ≤ (2 ^ 62 - 1) / 1000 := Nat.div_le_div_right (by omega)
      simp only [List.map_cons, List.sum_cons, List.length_cons, Nat.add_mul, one_mul]
      omega
  obtain ⟨l1, l2⟩ := lo l h
  have q1 : (D + 1000) / 1000 ≤ (l.map fun x => x.1.toNat / 1000).sum / l.length := (Nat.le_div_iff_mul_le hlen).mpr (by rw [Nat.mul_comm]; exact l1)
  have q2 : (l.map fun x => x.1.toNat / 1000).sum / l.length ≤ (2 ^ 62 - 1) / 1000 := by
    have := Nat.div_le_div_right (c := l.length) l2
    rwa [Nat.mul_div_cancel_left _ hlen] at this
  have e : (Spec.mean K l).1.toNat = 1000 * ((l.map fun x => x.1.toNat / 1000).sum / l.length) := by
    unfold Spec.mean
    rw [UInt64.toNat_ofNat_of_lt']
    show _ < 2 ^ 64
    omega
  rw [e]
  generalize (l.map fun x => x.1.toNat / 1000).sum / l.length = q at *
  constructor <;> omega

theorem avg_safe {n D g M msg : ℕ} (hD : D < 2 ^ 24) (hM : M < 255 * g) {p : Port V} (h : p.Good n)
    {a : Averager V} (ha : a.Good D g M msg) (m : UInt32) (hm : m.toNat ≤ M) (t : UInt64) (ht : msg + g ≤ t.toNat)
    (h1 : D + 1000 ≤ t.toNat) (h2 : t.toNat < 2 ^ 62) (v : V) (post : V → V) :
    ∃ p' a', avgSet (K := K) p a n D m t v post = .ok (p', a') ∧ p'.Good n ∧ a'.Good D g M t.toNat := by
  obtain ⟨last, cur, hh, hl, hg, hcM, hx⟩ := ha
  have hg0 : 0 < g := by omega
  have hlen : cur.length < 255 := by
    by_contra hc
    have : 255 * g ≤ cur.length * g := Nat.mul_le_mul_right g (by omega)
    omega
  have hsub : (t - last).toNat = t.toNat - last.toNat := by
    rw [UInt64.toNat_sub_of_le]
    exact UInt64.le_iff_toNat_le.mpr (by omega)
  unfold avgSet
  rcases good_prep h with e | ⟨b, e, hi⟩
  · rw [e]
    exact ⟨_, _, rfl, h, last, cur, hh, by omega, by omega, hcM, hx⟩
  · rw [e]
    simp only [Bool.not_true, Bool.false_eq_true, if_false]
    have hx' : ∀ x ∈ cur ++ [(t, v)], D + 1000 ≤ x.1.toNat ∧ x.1.toNat < 2 ^ 62 := by
      intro x hm
      rcases List.mem_append.mp hm with hm | hm
      · exact hx x hm
      · rw [List.mem_singleton.mp hm]; exact ⟨h1, h2⟩
    obtain ⟨c1, c2⟩ := add_holds (K := K) hh hlen m (t, v)
    by_cases hp : m.toNat < (t - last).toNat
    · obtain ⟨a', ea, hold⟩ := c1 hp
      rw [ea]
      obtain ⟨m1, m2⟩ := mean_bounds (K := K) (cur ++ [(t, v)]) (by simp) hx'
      obtain ⟨r, hr⟩ := shift_defined hD m1 m2
      simp only
      rw [show Spec.mean K (cur ++ [(t, v)]) = ((Spec.mean K (cur ++ [(t, v)])).1, (Spec.mean K (cur ++ [(t, v)])).2) from rfl]
      simp only
      rw [hr]
      obtain ⟨b', hb', hbi', _⟩ := push_refine hi (⟨r, post (Spec.mean K (cur ++ [(t, v)])).2⟩ : Sample V)
      simp only
      rw [hb']
      refine ⟨_, _, rfl, ⟨rfl, .inl hbi'⟩, t, [], hold, le_refl _, by simp, by simp, by simp⟩
    · obtain ⟨a', ea, hold⟩ := c2 hp
      rw [ea]
      have hln : (cur ++ [(t, v)]).length * g = cur.length * g + g := by simp [Nat.add_mul]
      refine ⟨_, _, rfl, ⟨rfl, .inl hi⟩, last, cur ++ [(t, v)], hold, by omega, by rw [hln]; omega, by rw [hln]; omega, hx'⟩

end avg

/-- all inputs usable -/
structure Front.Good (c : Cfg) (g M a b : ℕ) (f : Front K α) : Prop where
  int : f.minInt.toNat ≤ M
  mag : f.mag.Good c.obsLen
  magAvg : f.magAvg.Good c.dMag g M a
  baro : f.baro.Good c.obsLen
  baroAvg : f.baroAvg.Good c.dBaro g M b
  gps : f.gps.Good c.obsLen
  plain : ∀ k, (f.plain k).Good (c.plainLen k)
  drag : f.drag.Good c.obsLen

theorem run_safe (c : Cfg) (hc : Spec.Sized c) (g M : ℕ) (hM : M < 255 * g) (ops : List (FOp K α)) (a b : ℕ) (f : Front K α)
    (hf : f.Good c g M a b) (ht : Spec.Timed c g M a b ops) : ∃ f' os a' b', f.run c ops = .ok (f', os) ∧ f'.Good c g M a' b' := by
  induction ops generalizing a b f with
  | nil => exact ⟨f, [], a, b, rfl, hf⟩
  | cons op ops ih =>
    have fin : ∀ f1 o1 a1 b1, f.step c op = .ok (f1, o1) → f1.Good c g M a1 b1 → Spec.Timed c g M a1 b1 ops →
        ∃ f' os a' b', f.run c (op :: ops) = .ok (f', os) ∧ f'.Good c g M a' b' := by
      intro f1 o1 a1 b1 e1 h1 t1
      obtain ⟨f', os, a', b', e2, h2⟩ := ih a1 b1 f1 h1 t1
      refine ⟨f', o1 ++ os, a', b', ?_, h2⟩
      unfold Front.run
      rw [e1]; simp only
      rw [e2]
    obtain ⟨hi, hmg, hma, hb, hba, hgp, hpl, hd⟩ := hf
    cases op with
    | imu now delayed =>
      obtain ⟨t1, t2⟩ := ht
      obtain ⟨r, er, hr⟩ := (minObsInterval_defined_iff now delayed c.obsLen).2 hc.obs.1 hc.obs.2
      refine fin ({ f with minInt := r, mag := f.mag.start, baro := f.baro.start, gps := f.gps.start, plain := fun k => (f.plain k).start, drag := f.drag.start }) [] a b (by simp only [Front.step]; rw [er]) ⟨?_, good_start hmg, hma, good_start hb, hba, good_start hgp,
        fun k => good_start (hpl k), good_start hd⟩ t2
      show r.toNat ≤ M
      rw [hr]
      refine le_trans (Nat.mod_le _ _) ?_
      refine le_trans (Nat.div_le_div_right t1) ?_
      rw [Nat.mul_div_cancel _ (by have := hc.obs.1; omega)]
    | drag t dvx dvy dvdt =>
      obtain ⟨p', a', e, h'⟩ := drag_safe hc hd f.dragAcc t dvx dvy dvdt
      exact fin ({ f with drag := p', dragAcc := a' }) [] a b (by simp only [Front.step]; rw [e]) ⟨hi, hmg, hma, hb, hba, hgp, hpl, h'⟩ ht
    | mag t v =>
      obtain ⟨t1, t2, t3, t4⟩ := ht
      obtain ⟨p', a', e, h', h''⟩ := avg_safe (K := K) hc.mag hM hmg hma f.minInt hi t t1 t2 t3 v id
      exact fin ({ f with mag := p', magAvg := a' }) [] t.toNat b (by simp only [Front.step]; rw [e]) ⟨hi, h', h'', hb, hba, hgp, hpl, hd⟩ t4
    | baro t v cc =>
      obtain ⟨t1, t2, t3, t4⟩ := ht
      obtain ⟨p', a', e, h', h''⟩ := avg_safe (K := K) hc.baro hM hb hba f.minInt hi t t1 t2 t3 v cc
      exact fin ({ f with baro := p', baroAvg := a' }) [] a t.toNat (by simp only [Front.step]; rw [e]) ⟨hi, hmg, hma, h', h'', hgp, hpl, hd⟩ t4
    | gps t fix x =>
      obtain ⟨t1, t2, t3⟩ := ht
      obtain ⟨p', e, h'⟩ := gps_safe hgp f.minInt c.needGps t fix x (shift_defined hc.gps t1 t2)
      exact fin ({ f with gps := p' }) [] a b (by simp only [Front.step]; rw [e]) ⟨hi, hmg, hma, hb, hba, h', hpl, hd⟩ t3
    | plain k s =>
      obtain ⟨t1, t2, t3⟩ := ht
      have hk : 1 ≤ c.plainLen k ∧ c.plainLen k < 256 := by
        have := hc.obs; have := hc.imu
        cases k <;> simp only [Cfg.plainLen] <;> omega
      obtain ⟨p', e, h'⟩ := set_safe hk.1 hk.2 (hpl k) f.minInt s (shift_defined (hc.plain k) t1 t2)
      refine fin ({ f with plain := Function.update f.plain k p' }) [] a b (by simp only [Front.step]; rw [e]) ⟨hi, hmg, hma, hb, hba, hgp, fun k' => ?_, hd⟩ t3
      show (Function.update f.plain k p' k').Good _
      by_cases hkk : k' = k
      · subst hkk; simpa using h'
      · rw [Function.update_of_ne hkk]; exact hpl k'
    | popMag ts =>
      obtain ⟨t1, t2⟩ := ht
      obtain ⟨p', o, e, h'⟩ := query_safe hmg ts t1
      exact fin ({ f with mag := p' }) [.mag o] a b (by simp only [Front.step]; rw [e]) ⟨hi, h', hma, hb, hba, hgp, hpl, hd⟩ t2
    | popBaro ts =>
      obtain ⟨t1, t2⟩ := ht
      obtain ⟨p', o, e, h'⟩ := query_safe hb ts t1
      exact fin ({ f with baro := p' }) [.baro o] a b (by simp only [Front.step]; rw [e]) ⟨hi, hmg, hma, h', hba, hgp, hpl, hd⟩ t2
    | popGps ts =>
      obtain ⟨t1, t2⟩ := ht
      obtain ⟨p', o, e, h'⟩ := query_safe hgp ts t1
      exact fin ({ f with gps := p' }) [.gps o] a b (by simp only [Front.step]; rw [e]) ⟨hi, hmg, hma, hb, hba, h', hpl, hd⟩ t2
    | popPlain k ts =>
      obtain ⟨t1, t2⟩ := ht
      obtain ⟨p', o, e, h'⟩ := query_safe (hpl k) ts t1
      refine fin ({ f with plain := Function.update f.plain k p' }) [.plain k o] a b (by simp only [Front.step]; rw [e]) ⟨hi, hmg, hma, hb, hba, hgp, fun k' => ?_, hd⟩ t2
      show (Function.update f.plain k p' k').Good _
      by_cases hkk : k' = k
      · subst hkk; simpa using h'
      · rw [Function.update_of_ne hkk]; exact hpl k'
    | popDrag ts =>
      obtain ⟨t1, t2⟩ := ht
      obtain ⟨p', o, e, h'⟩ := query_safe hd ts t1
      exact fin ({ f with drag := p' }) [.drag o] a b (by simp only [Front.step]; rw [e]) ⟨hi, hmg, hma, hb, hba, hgp, hpl, h'⟩ t2

theorem good_new {n : ℕ} (hn : 1 ≤ n) : (⟨false, false, RB.new 1, 0⟩ : Port β).Good n := by
  refine ⟨rfl, ?_⟩
  have h1 : (RB.new 1 : RB β).Inv 1 := inv_new (by norm_num) (by norm_num)
  by_cases h : n = 1
  · subst h; exact .inl h1
  · exact .inr ⟨h1, rfl, by omega⟩

/-- **C156 (safety).** From power-on, with a supported configuration and admissible time stamps, no interleaving of messages, IMU
updates and queries of the nine streams leads to undefined behaviour or disables an input, provided fewer than 255 samples of an
averaged sensor fit into the longest rate-limit interval (`M < 255 g`). -/
theorem interface_safe (c : Cfg) (hc : Spec.Sized c) (g M : ℕ) (hM : M < 255 * g) (ops : List (FOp K α))
    (ht : Spec.Timed c g M 0 0 ops) :
    ∃ f os, Front.run c ops Front.init = .ok (f, os) ∧ f.mag.fail = false ∧ f.baro.fail = false ∧ f.gps.fail = false ∧
      (∀ k, (f.plain k).fail = false) ∧ f.drag.fail = false := by
  have hl : 1 ≤ c.obsLen := by have := hc.obs.1; omega
  have hp : ∀ k, 1 ≤ c.plainLen k := by
    intro k; have := hc.imu.1
    cases k <;> simp only [Cfg.plainLen] <;> omega
  have av : ∀ (V : Type _) [AddCommGroup V] D, (Averager.init V).Good D g M 0 := fun V _ D =>
    ⟨0, [], ⟨rfl, rfl, rfl, rfl⟩, le_refl _, by simp, by simp, by simp⟩
  obtain ⟨f, os, a', b', e, h⟩ := run_safe c hc g M hM ops 0 0 (Front.init : Front K α)
    ⟨Nat.zero_le _, good_new hl, av _ _, good_new hl, av _ _, good_new hl, fun k => good_new (hp k), good_new hl⟩ ht
  exact ⟨f, os, e, h.mag.ok, h.baro.ok, h.gps.ok, fun k => (h.plain k).ok, h.drag.ok⟩

/-- number of samples an input can hold: optical flow has as many slots as the IMU, all others the observation buffer length -/
def Spec.capacity (c : Cfg) : Plain → ℕ
  | .flow => c.imuLen
  | .airspeed | .range | .ev | .auxvel => c.obsLen

/-- **C156 (capacity).** In the same histories the buffer of every input has exactly its configured capacity from the first message on; before that it
is the empty initial slot. -/
theorem interface_capacity (c : Cfg) (hc : Spec.Sized c) (g M : ℕ) (hM : M < 255 * g) (ops : List (FOp K α)) (ht : Spec.Timed c g M 0 0 ops) :
    ∃ f os, Front.run c ops Front.init = .ok (f, os) ∧
      (f.mag.buf.size = c.obsLen ∨ f.mag.buf.size = 1 ∧ f.mag.buf.live = []) ∧ (f.baro.buf.size = c.obsLen ∨ f.baro.buf.size = 1 ∧ f.baro.buf.live = []) ∧
      (f.gps.buf.size = c.obsLen ∨ f.gps.buf.size = 1 ∧ f.gps.buf.live = []) ∧
      (∀ k, (f.plain k).buf.size = Spec.capacity c k ∨ (f.plain k).buf.size = 1 ∧ (f.plain k).buf.live = []) ∧
      (f.drag.buf.size = c.obsLen ∨ f.drag.buf.size = 1 ∧ f.drag.buf.live = []) := by
  have hl : 1 ≤ c.obsLen := by have := hc.obs.1; omega
  have hp : ∀ k, 1 ≤ c.plainLen k := by
    intro k; have := hc.imu.1
    cases k <;> simp only [Cfg.plainLen] <;> omega
  have av : ∀ (V : Type _) [AddCommGroup V] D, (Averager.init V).Good D g M 0 := fun V _ D =>
    ⟨0, [], ⟨rfl, rfl, rfl, rfl⟩, le_refl _, by simp, by simp, by simp⟩
  obtain ⟨f, os, a', b', e, h⟩ := run_safe c hc g M hM ops 0 0 (Front.init : Front K α)
    ⟨Nat.zero_le _, good_new hl, av _ _, good_new hl, av _ _, good_new hl, fun k => good_new (hp k), good_new hl⟩ ht
  have cap : ∀ {β : Type _} [Inhabited β] {p : Port β} {n : ℕ}, p.Good n → p.buf.size = n ∨ p.buf.size = 1 ∧ p.buf.live = [] := by
    intro β _ p n hg
    rcases hg.inv with hi | ⟨hi, hl, _⟩
    · exact .inl hi.size
    · exact .inr ⟨hi.size, hl⟩
  have cap' : ∀ {β : Type _} [Inhabited β] {p : Port β} {n : ℕ}, p.Good n → p.buf.size = n ∨ p.buf.size = 1 ∧ p.buf.live = [] := by
    intro β _ p n hg
    rcases hg.inv with hi | ⟨hi, hl, _⟩
    · exact .inl hi.size
    · exact .inr ⟨hi.size, hl⟩
  refine ⟨f, os, e, cap h.mag, cap h.baro, cap' h.gps, fun k => ?_, cap h.drag⟩
  have hk : Spec.capacity c k = c.plainLen k := by cases k <;> rfl
  rw [hk]
  exact cap' (h.plain k)

/-- **C156 (which GPS messages are stored).** A GPS message that arrives at an initialised input which has not been disabled: it is stored, with the
time stamp shifted back by the delay, exactly if GPS is needed, the fix is at least three-dimensional and it comes more than the minimum interval after the
last stored one; the oldest sample makes room.  Otherwise nothing is stored and the rate limit still refers to the last stored message. -/
theorem gps_message_stored {p : Port β} {n D : ℕ} (h : p.Good n) (hin : p.initialised = true) (m : UInt32) (need : Bool) (t r : UInt64) (fix : ℕ) (x : β)
    (hs : shiftStamp t D = .ok r) : ∃ p', gpsSet p n D m need t fix x = .ok p' ∧ p'.initialised = true ∧ p'.Good n ∧
      (need = true ∧ 3 ≤ fix ∧ m.toNat < (t - p.timeLast).toNat → p'.buf.live = RingBuffer.Spec.push n p.buf.live ⟨r, x⟩ ∧ p'.timeLast = t) ∧
      (¬ (need = true ∧ 3 ≤ fix ∧ m.toNat < (t - p.timeLast).toNat) → p'.buf.live = p.buf.live ∧ p'.timeLast = p.timeLast) := by
  have ha : ∃ b, p.prep n = ({ p with buf := b, fail := false }, true) ∧ b.Inv n ∧ b.live = p.buf.live := by
    unfold Port.prep
    rw [if_neg (by simp [hin, h.ok])]
    rcases h.inv with hi | ⟨hi, hl, hn⟩
    · exact ⟨p.buf, by rw [if_neg (by have := hi.size; omega)]; rfl, hi, rfl⟩
    · have hsz := hi.size
      obtain ⟨b, hb, hbi, hbl⟩ := (ringbuffer_allocate p.buf 1 n hi).2.2 (by omega) (by omega)
      exact ⟨b, by rw [if_pos (by omega), hb]; rfl, hbi, by rw [hbl, hl]⟩
  obtain ⟨b, e, hi, hl⟩ := ha
  have hm : (t - p.timeLast > m.toUInt64) ↔ m.toNat < (t - p.timeLast).toNat := by
    rw [gt_iff_lt, UInt64.lt_iff_toNat_lt]; simp
  unfold gpsSet
  rw [e]
  simp only [Bool.not_true, Bool.false_eq_true, if_false]
  obtain ⟨b', hb', hbi', hbl'⟩ := push_refine hi (⟨r, x⟩ : Sample β)
  by_cases hc : t - p.timeLast > m.toUInt64 ∧ need = true ∧ fix > 2
  · rw [if_pos hc, hs]
    simp only
    rw [hb']
    refine ⟨_, rfl, hin, ⟨rfl, .inl hbi'⟩, fun _ => ⟨by rw [← hl]; exact hbl', rfl⟩, fun hn => absurd ⟨hc.2.1, hc.2.2, hm.mp hc.1⟩ hn⟩
  · rw [if_neg hc]
    exact ⟨_, rfl, hin, ⟨rfl, .inl hi⟩, fun hn => absurd ⟨hm.mpr hn.2.2, hn.1, hn.2.1⟩ hc, fun _ => ⟨hl, rfl⟩⟩

/-- the hypotheses of `gps_message_stored` are met by the freshly started input, and both outcomes occur: a 3D fix is stored, a 2D fix is not -/
example : (Port.start (⟨false, false, RB.new 1, 0⟩ : Port ℕ)).Good 11 ∧ shiftStamp 520000 110000 = .ok 405000 ∧
    (match gpsSet (Port.start (⟨false, false, RB.new 1, 0⟩ : Port ℕ)) 11 110000 20000 true 520000 3 8 with | .ok p => p.buf.live.length | _ => 0) = 1 ∧
    (match gpsSet (Port.start (⟨false, false, RB.new 1, 0⟩ : Port ℕ)) 11 110000 20000 true 520000 2 8 with | .ok p => p.buf.live.length | _ => 0) = 0 :=
  ⟨good_start (good_new (by norm_num)), by decide +kernel, by decide +kernel, by decide +kernel⟩

/-- **C156 (before initialisation).** Until the first IMU update every message is discarded. -/
theorem messages_before_imu_ignored (c : Cfg) (f : Front K α) (t : UInt64) (v : Fin 3 → K) (h : K) (comp : K → K) (fix : ℕ) (x : α) (k : Plain)
    (s : Sample α) (hm : f.mag.initialised = false) (hb : f.baro.initialised = false) (hg : f.gps.initialised = false)
    (hp : (f.plain k).initialised = false) :
    f.step c (.mag t v) = .ok (f, []) ∧ f.step c (.baro t h comp) = .ok (f, []) ∧ f.step c (.gps t fix x) = .ok (f, []) ∧
      f.step c (.plain k s) = .ok (f, []) := by
  refine ⟨?_, ?_, ?_, ?_⟩
  · simp only [Front.step, avgSet, Port.prep, hm, Bool.not_false, Bool.true_or, if_true]
  · simp only [Front.step, avgSet, Port.prep, hb, Bool.not_false, Bool.true_or, if_true]
  · simp only [Front.step, gpsSet, Port.prep, hg, Bool.not_false, Bool.true_or, if_true]
  · simp only [Front.step, Port.set, hp, Bool.not_false, Bool.true_or, if_true, Function.update_eq_self]

/-! ## A concrete history: 11 observation slots, mixed messages, two queries -/

/-- configuration of the examples -/
def exCfg : Cfg := ⟨15, 11, 0, 0, 110000, fun _ => 100000, true, true⟩

/-- mixed history of the examples: magnetometer and GPS before initialisation (discarded), then three sensors interleaved -/
def exOps : List (FOp ℚ ℕ) :=
  [.mag 400000 ![1, 2, 3], .gps 410000 3 7, .imu 500000 380000, .mag 510000 ![1, 0, 0], .drag 510000 1 2 (1 / 10), .baro 515000 20 id, .mag 520000 ![3, 0, 0], .gps 520000 3 8,
    .plain .range ⟨530000, 9⟩, .gps 525000 3 10, .mag 560000 ![5, 6, 7], .popMag 600000, .popGps 450000, .popPlain .range 500000, .popGps 460000]

theorem exSized : Spec.Sized exCfg := ⟨by decide, by decide, by decide, by decide, by decide, fun k => by cases k <;> decide⟩

theorem exTimed : Spec.Timed exCfg 1000 12000 0 0 exOps := by
  simp only [exOps, Spec.Timed, exCfg]; decide

/-- the hypotheses of `interface_safe` are met -/
example : ∃ f os, Front.run exCfg exOps Front.init = .ok (f, os) ∧ f.mag.fail = false ∧ f.baro.fail = false ∧ f.gps.fail = false ∧
    (∀ k, (f.plain k).fail = false) ∧ f.drag.fail = false := interface_safe exCfg exSized 1000 12000 (by norm_num) exOps exTimed

/-- and of `interface_capacity`: magnetometer, GPS and range have their 11 slots, optical flow still the initial one, and 15 after a message -/
example : (match Front.run exCfg exOps Front.init with
    | .ok (f, _) => decide (f.mag.buf.size = 11 ∧ f.gps.buf.size = 11 ∧ (f.plain .range).buf.size = 11 ∧ (f.plain .flow).buf.size = 1)
    | _ => false) = true ∧
    (match Front.run exCfg (exOps ++ [.plain .flow ⟨600000, 1⟩]) Front.init with
    | .ok (f, _) => decide ((f.plain .flow).buf.size = 15)
    | _ => false) = true := by constructor <;> decide +kernel

/-- answers of the example: the mean of the last two magnetometer samples, the accepted GPS message, the range, nothing more -/
example : (match Front.run exCfg exOps Front.init with
    | .ok (_, [.mag (some m), .gps (some g), .plain .range (some r), .gps none]) =>
      decide (m.time_us.toNat = 535000 ∧ m.data 0 = 4 ∧ m.data 2 = 7 / 2 ∧ g.data = 8 ∧ r.data = 9)
    | _ => false) = true := by decide +kernel

/-- and of `streams_independent`: the GPS stream of the same history, alone -/
example : (match Front.run exCfg (exOps.filter (Spec.concerns .gps)) Front.init with
    | .ok (_, [.gps (some g), .gps none]) => decide (g.data = 8)
    | _ => false) = true := by decide +kernel

end Ecl.Interface
