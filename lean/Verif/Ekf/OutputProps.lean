import Verif.Ekf.Output
import Verif.Ekf.ResetProps
import Verif.RingBuffer.Props

/-!
# Properties of the output predictor (C70, C71)
-/

noncomputable section

namespace Ecl.Ekf

open Ecl.ImuDownSampler (ImuSample AxisAngleLib normalize)
open Ecl.RingBuffer
open scoped Matrix

/-! ### Ring buffer accessors in terms of the live content -/

theorem firstWrite_of_live {α : Type*} {b : RB α} {n : ℕ} (h : b.Inv n) (hne : b.live ≠ []) : b.firstWrite = false := by
  obtain ⟨l, hbuf, hlen, -⟩ := h.buf
  cases hf : b.firstWrite with
  | false => rfl
  | true => exfalso; apply hne; unfold RB.live RB.count; simp [hf, hbuf]

theorem newest_of_live {α : Type*} {b : RB α} {n : ℕ} (h : b.Inv n) {x : Sample α} (hx : b.live.getLast? = some x) :
    b.getNewest = .ok x := by
  have hf := firstWrite_of_live h (by intro h0; rw [h0] at hx; simp at hx)
  obtain ⟨l, hbuf, hlen, -⟩ := h.buf
  have hc := count_pos hf
  rw [List.getLast?_eq_getElem?, live_length h, live_getElem? h hbuf hlen (by omega), head_eq h hf] at hx
  unfold RB.getNewest; rw [hbuf]; simp [hx]

theorem oldest_of_live {α : Type*} {b : RB α} {n : ℕ} (h : b.Inv n) {x : Sample α} (hx : b.live.head? = some x) :
    b.getOldest = .ok x := by
  have hf := firstWrite_of_live h (by intro h0; rw [h0] at hx; simp at hx)
  obtain ⟨l, hbuf, hlen, -⟩ := h.buf
  have hc := count_pos hf
  rw [List.head?_eq_getElem?, live_getElem? h hbuf hlen (by omega), Nat.add_zero, Nat.mod_eq_of_lt h.tail] at hx
  unfold RB.getOldest; rw [hbuf]; simp [hx]

/-! ### Vertical output correction -/

/-- Specification: add `c` to every vertical velocity, keep the oldest height, and integrate the corrected velocities
forward with the trapezoidal rule. -/
def Spec.integrate (c : ℝ) (p : VertData ℝ) : List (Sample (VertData ℝ)) → List (Sample (VertData ℝ))
  | [] => []
  | x :: r =>
    let y : VertData ℝ :=
      ⟨x.data.vertVel + c, p.vertVelInteg + (p.vertVel + (x.data.vertVel + c)) / 2 * x.data.dt, x.data.dt⟩
    ⟨x.time_us, y⟩ :: Spec.integrate c y r

def Spec.correctVertical (c : ℝ) : List (Sample (VertData ℝ)) → List (Sample (VertData ℝ))
  | [] => []
  | x :: r =>
    let y : VertData ℝ := ⟨x.data.vertVel + c, x.data.vertVelInteg, x.data.dt⟩
    ⟨x.time_us, y⟩ :: Spec.integrate c y r

/-- corrected samples by position -/
def corrAt (c : ℝ) (slot : ℕ → Sample (VertData ℝ)) : ℕ → Sample (VertData ℝ)
  | 0 => ⟨(slot 0).time_us, (slot 0).data.vertVel + c, (slot 0).data.vertVelInteg, (slot 0).data.dt⟩
  | k + 1 =>
    ⟨(slot (k + 1)).time_us, (slot (k + 1)).data.vertVel + c,
      (corrAt c slot k).data.vertVelInteg + ((corrAt c slot k).data.vertVel + ((slot (k + 1)).data.vertVel + c)) * (1 / 2) *
        (slot (k + 1)).data.dt, (slot (k + 1)).data.dt⟩

theorem slot_inj {n t j k : ℕ} (hj : j < n) (hk : k < n) (h : (t + j) % n = (t + k) % n) : j = k := by
  have := Nat.ModEq.add_left_cancel' t (show t + j ≡ t + k [MOD n] from h)
  unfold Nat.ModEq at this
  rwa [Nat.mod_eq_of_lt hj, Nat.mod_eq_of_lt hk] at this

theorem next_slot (n t j : ℕ) : ((t + j) % n + 1) % n = (t + (j + 1)) % n := by
  rw [Nat.mod_add_mod]; rfl

theorem vertLoop_tail {n : ℕ} (c : ℝ) (t : ℕ) (slot : ℕ → Sample (VertData ℝ)) (m : ℕ) :
    ∀ (j : ℕ) (l : List (Sample (VertData ℝ))), 1 ≤ j → j + m < n → l.length = n →
      (∀ k, k ≤ j → l[(t + k) % n]? = some (corrAt c slot k)) →
      (∀ k, j < k → k < n → l[(t + k) % n]? = some (slot k)) →
      ∃ l', vertLoop n c l j ((t + j) % n) m = .ok l' ∧ l'.length = n ∧
        (∀ k, k ≤ j + m → l'[(t + k) % n]? = some (corrAt c slot k)) := by
  induction m with
  | zero => intro j l _ _ hl h1 _; exact ⟨l, rfl, hl, h1⟩
  | succ m ih =>
    intro j l hj hjm hl h1 h2
    have hn : 0 < n := by omega
    have hnext := next_slot n t j
    have hc := h1 j le_rfl
    have hx := h2 (j + 1) (by omega) (by omega)
    have hj0 : (j == 0) = false := by simp; omega
    rw [vertLoop]
    simp only [hnext, hc, hx, hj0, Bool.false_eq_true, if_false]
    have hlt : ∀ k, (t + k) % n < l.length := fun k => by rw [hl]; exact Nat.mod_lt _ hn
    have := ih (j + 1) ((l.set ((t + j) % n) (corrAt c slot j)).set ((t + (j + 1)) % n) (corrAt c slot (j + 1)))
      (by omega) (by omega) (by simp [hl]) ?_ ?_
    · obtain ⟨l', e1, e2, e3⟩ := this
      exact ⟨l', e1, e2, fun k hk => e3 k (by omega)⟩
    · intro k hk
      rw [List.getElem?_set, List.getElem?_set]
      by_cases hk1 : k = j + 1
      · subst hk1; rw [if_pos rfl, if_pos (by simp [hlt])]
      · have hne : (t + (j + 1)) % n ≠ (t + k) % n := fun h => hk1 (slot_inj (by omega) (by omega) h.symm)
        rw [if_neg hne]
        by_cases hk2 : k = j
        · subst hk2; rw [if_pos rfl, if_pos (hlt _)]
        · have hne2 : (t + j) % n ≠ (t + k) % n := fun h => hk2 (slot_inj (by omega) (by omega) h.symm)
          rw [if_neg hne2]; exact h1 k (by omega)
    · intro k hk hkn
      rw [List.getElem?_set, List.getElem?_set]
      have hne : (t + (j + 1)) % n ≠ (t + k) % n := fun h => by have := slot_inj (by omega) hkn h; omega
      have hne2 : (t + j) % n ≠ (t + k) % n := fun h => by have := slot_inj (by omega) hkn h; omega
      rw [if_neg hne, if_neg hne2]; exact h2 k (by omega) hkn

theorem vertLoop_spec {n : ℕ} (hn : 2 ≤ n) (c : ℝ) (t : ℕ) (ht : t < n) (l : List (Sample (VertData ℝ)))
    (hl : l.length = n) (slot : ℕ → Sample (VertData ℝ)) (hs : ∀ k, k < n → l[(t + k) % n]? = some (slot k)) :
    ∃ l', vertLoop n c l 0 t (n - 1) = .ok l' ∧ l'.length = n ∧
      ∀ k, k < n → l'[(t + k) % n]? = some (corrAt c slot k) := by
  obtain ⟨m, rfl⟩ : ∃ m, n = m + 2 := ⟨n - 2, by omega⟩
  have h0 := hs 0 (by omega)
  have h1 := hs 1 (by omega)
  rw [Nat.add_zero, Nat.mod_eq_of_lt ht] at h0
  rw [show m + 2 - 1 = m + 1 by omega, vertLoop]
  simp only [h0, h1]
  have hlt : ∀ k, (t + k) % (m + 2) < l.length := fun k => by rw [hl]; exact Nat.mod_lt _ (by omega)
  have hbeq : ((0 : ℕ) == 0) = true := rfl
  simp only [hbeq, if_true]
  have ht0 : t = (t + 0) % (m + 2) := by rw [Nat.add_zero, Nat.mod_eq_of_lt ht]
  have := vertLoop_tail (n := m + 2) c t slot m 1
    ((l.set t (corrAt c slot 0)).set ((t + 1) % (m + 2)) (corrAt c slot 1)) le_rfl (by omega) (by simp [hl]) ?_ ?_
  · obtain ⟨l', e1, e2, e3⟩ := this
    exact ⟨l', e1, e2, fun k hk => e3 k (by omega)⟩
  · intro k hk
    rw [List.getElem?_set, List.getElem?_set]
    by_cases hk1 : k = 1
    · subst hk1; rw [if_pos rfl, if_pos (by simp [hlt])]
    · have hk0 : k = 0 := by omega
      subst hk0
      have hne : (t + 1) % (m + 2) ≠ (t + 0) % (m + 2) := fun h => by
        have := slot_inj (by omega) (by omega) h; omega
      rw [if_neg hne, if_pos ht0, if_pos (by rw [hl]; exact ht)]
  · intro k hk hkn
    rw [List.getElem?_set, List.getElem?_set]
    have hne : (t + 1) % (m + 2) ≠ (t + k) % (m + 2) := fun h => by have := slot_inj (by omega) hkn h; omega
    have hne2 : t ≠ (t + k) % (m + 2) := fun h => by
      rw [ht0] at h
      have h' : (t + 0) % (m + 2) = (t + k) % (m + 2) := by rw [← ht0] at h; rw [← ht0]; exact h
      have := slot_inj (by omega) hkn h'; omega
    rw [if_neg hne, if_neg hne2]; exact hs k hkn

theorem integrate_eq (c : ℝ) (slot : ℕ → Sample (VertData ℝ)) (m : ℕ) (j : ℕ) :
    Spec.integrate c (corrAt c slot j).data ((List.range m).map fun k => slot (j + 1 + k)) =
      (List.range m).map fun k => corrAt c slot (j + 1 + k) := by
  induction m generalizing j with
  | zero => rfl
  | succ m ih =>
    rw [List.range_succ_eq_map, List.map_cons, List.map_map, List.map_cons, List.map_map, Spec.integrate]
    have h1 : (⟨(slot (j + 1 + 0)).data.vertVel + c, (corrAt c slot j).data.vertVelInteg +
        ((corrAt c slot j).data.vertVel + ((slot (j + 1 + 0)).data.vertVel + c)) / 2 * (slot (j + 1 + 0)).data.dt,
        (slot (j + 1 + 0)).data.dt⟩ : VertData ℝ) = (corrAt c slot (j + 1)).data := by
      rw [Nat.add_zero]; simp only [corrAt]; congr 1; ring
    have h2 : ∀ g : ℕ → Sample (VertData ℝ), (List.range m).map ((fun k => g (j + 1 + k)) ∘ Nat.succ) =
        (List.range m).map fun k => g (j + 1 + 1 + k) := by
      intro g
      apply List.map_congr_left
      intro k _
      show g (j + 1 + (k + 1)) = g (j + 1 + 1 + k)
      congr 1; omega
    simp only [h1]
    rw [h2, h2, ih (j + 1)]
    congr 1

theorem correctVertical_eq (c : ℝ) (slot : ℕ → Sample (VertData ℝ)) (m : ℕ) :
    Spec.correctVertical c ((List.range m).map slot) = (List.range m).map (corrAt c slot) := by
  cases m with
  | zero => rfl
  | succ m =>
    rw [List.range_succ_eq_map, List.map_cons, List.map_map, List.map_cons, List.map_map, Spec.correctVertical]
    have := integrate_eq c slot m 0
    have h2 : ∀ g : ℕ → Sample (VertData ℝ), (List.range m).map (g ∘ Nat.succ) = (List.range m).map fun k => g (0 + 1 + k) := by
      intro g
      apply List.map_congr_left
      intro k _
      show g (k + 1) = g (0 + 1 + k)
      rw [Nat.zero_add, Nat.add_comm]
    rw [h2, h2, ← this]
    rfl

/-- **C71.** With at least two slots, the vertical correction changes exactly the stored history as specified: constant
velocity correction for every stored sample, oldest height kept, heights re-integrated from the corrected velocities; the
current vertical output becomes the newest corrected sample with its interval restarted at zero. -/
theorem applyVert_spec {b : RB (VertData ℝ)} {n : ℕ} (hn : 2 ≤ n) (h : b.Inv n) (hne : b.live ≠ []) (c : ℝ) :
    ∃ b' x, applyVert b c = .ok (b', ⟨x.time_us, x.data.vertVel, x.data.vertVelInteg, 0⟩) ∧ b'.Inv n ∧
      b'.live = Spec.correctVertical c b.live ∧ b'.live.getLast? = some x := by
  have hf := firstWrite_of_live h hne
  obtain ⟨l, hbuf, hlen, hz⟩ := h.buf
  have hpos := h.pos
  let slot : ℕ → Sample (VertData ℝ) := fun k => l[(b.tail + k) % n]'(by rw [hlen]; exact Nat.mod_lt _ hpos)
  have hs : ∀ k, k < n → l[(b.tail + k) % n]? = some (slot k) := fun k _ => by
    rw [List.getElem?_eq_getElem]
  obtain ⟨l', e1, e2, e3⟩ := vertLoop_spec hn c b.tail h.tail l hlen slot hs
  let b' : RB (VertData ℝ) := { b with buffer := some l' }
  have hinv : b'.Inv n := ⟨hpos, h.size, h.head, h.tail, l', rfl, e2, fun hfw => by
    have : b.firstWrite = true := hfw
    rw [hf] at this; cases this⟩
  have hlive : b'.live = Spec.correctVertical c b.live := by
    rw [RB.live_eq hbuf hlen hpos h.size, RB.live_eq (b := b') rfl e2 hpos h.size]
    show _ = Spec.correctVertical c ((List.range b.count).map slot)
    rw [correctVertical_eq]
    apply List.map_congr_left
    intro k hk
    have hk' : k < n := lt_of_lt_of_le (List.mem_range.mp hk) (count_le hinv)
    have := e3 k hk'
    rw [List.getElem?_eq_getElem (by rw [e2]; exact Nat.mod_lt _ hpos)] at this
    exact Option.some.inj this
  have hcount := count_pos hf
  have hl1 : b'.live.length = b.count := by
    rw [RB.live_eq (b := b') rfl e2 hpos h.size]; simp [RB.count]; rfl
  obtain ⟨x, hx⟩ : ∃ x, b'.live.getLast? = some x := by
    rw [← Option.isSome_iff_exists, List.getLast?_isSome]
    intro h0; rw [h0] at hl1; simp at hl1; omega
  have hnew := newest_of_live hinv hx
  refine ⟨b', x, ?_, hinv, hlive, hx⟩
  unfold applyVert
  rw [hbuf]
  simp only
  have e1' : vertLoop b.size c l 0 b.tail (b.size - 1) = .ok l' := by rw [h.size]; exact e1
  rw [e1']
  simp only
  have hnew' : ({ b with buffer := some l' } : RB (VertData ℝ)).getNewest = .ok x := hnew
  rw [hnew']

/-- **C71 (finding).** With a single slot (no sensor delay configured) the loop body never runs: the correction is not
applied at all. -/
theorem applyVert_single_slot {b : RB (VertData ℝ)} (h : b.Inv 1) (hne : b.live ≠ []) (c : ℝ) :
    ∃ x, b.live = [x] ∧ applyVert b c = .ok (b, ⟨x.time_us, x.data.vertVel, x.data.vertVelInteg, 0⟩) := by
  have hf := firstWrite_of_live h hne
  obtain ⟨l, hbuf, hlen, hz⟩ := h.buf
  have hc : b.count = 1 := by
    have := count_le h; have := count_pos hf; omega
  obtain ⟨x, hx⟩ : ∃ x, b.live = [x] := by
    rw [← List.length_eq_one_iff, RB.live_eq hbuf hlen h.pos h.size]; simp [hc]
  refine ⟨x, hx, ?_⟩
  have hnew := newest_of_live h (x := x) (by rw [hx]; rfl)
  unfold applyVert
  rw [hbuf]
  rw [show b.size - 1 = 0 by rw [h.size]]
  simp only [vertLoop]
  have hb : ({ b with buffer := some l, size := 1 } : RB (VertData ℝ)) = b := by
    cases b; simp at hbuf; simp [hbuf]; exact h.size.symm
  have hb2 : ({ b with buffer := some l } : RB (VertData ℝ)) = b := by
    cases b; simp at hbuf; simp [hbuf]
  first
    | rw [hb2, hnew]
    | rw [hb, hnew]

/-! ### C70: output predictor step -/

/-- **C70 (INS step).** Between EKF updates the output is a pure strap-down solution: attitude advanced by the
bias-corrected delta angle plus the tracking correction, velocity by the bias-corrected force in the new attitude plus
gravity, position by trapezoidal integration; the alternative vertical output gets the same vertical increments; history
and tracking integrators are untouched. -/
theorem output_ins (L : AxisAngleLib) (i : OutIn) (imu : ImuSample) (o : Out) (hq : o.outNew.data.quat.normSq = 1)
    (hu : i.imuUpdated = false) :
    ∃ o', o.calculate L i imu = .ok o' ∧
      let k := i.dtImuAvg / i.dtEkfAvg
      let q' := o.outNew.data.quat.mul (L.exp fun j => imu.deltaAng j - k * i.state.dAngBias j + o.dAngCorr j)
      let f : V3 ℝ := q'.dcm *ᵥ (fun j => imu.deltaVel j - k * i.state.dVelBias j)
      let dv : V3 ℝ := ![f 0, f 1, f 2 + 980665 / 100000 * imu.deltaVelDt]
      o'.outNew.time_us = imu.timeUs ∧ o'.outNew.data.quat = q' ∧ q'.normSq = 1 ∧ o'.rNow = q'.dcm ∧
      o'.outNew.data.vel = o.outNew.data.vel + dv ∧
      (∀ j, o'.outNew.data.pos j = o.outNew.data.pos j +
        (o.outNew.data.vel j + o'.outNew.data.vel j) / 2 * imu.deltaVelDt) ∧
      o'.vertNew.data.vertVel - o.vertNew.data.vertVel = o'.outNew.data.vel 2 - o.outNew.data.vel 2 ∧
      o'.vertNew.data.vertVelInteg - o.vertNew.data.vertVelInteg = o'.outNew.data.pos 2 - o.outNew.data.pos 2 ∧
      o'.vertNew.data.dt = o.vertNew.data.dt + imu.deltaVelDt ∧
      (imu.deltaVelDt > 1 / 10000 → ∀ j, o'.velDeriv j = dv j / imu.deltaVelDt) ∧
      (imu.deltaAngDt > 1 / 10000 → o'.velImuRel = q'.dcm *ᵥ
        cross3 (fun j => imu.deltaAng j / imu.deltaAngDt) i.imuPosBody) ∧
      o'.outBuf = o.outBuf ∧ o'.vertBuf = o.vertBuf ∧ o'.dAngCorr = o.dAngCorr ∧
      o'.velErrInteg = o.velErrInteg ∧ o'.posErrInteg = o.posErrInteg ∧
      o.calculateQuaternion L i imu = q' := by
  refine ⟨o.ins L i imu, by simp [Out.calculate, hu], ?_⟩
  intro k q' f dv
  have harg : (fun j => imu.deltaAng j - k * i.state.dAngBias j + o.dAngCorr j) =
      imu.deltaAng - (i.dtImuAvg / i.dtEkfAvg) • i.state.dAngBias + o.dAngCorr := by
    funext j; simp [k]
  have hq'u : q'.normSq = 1 := by
    show (o.outNew.data.quat.mul _).normSq = 1
    rw [Quat.normSq_mul, hq, L.exp_unit, one_mul]
  have hn : normalize (o.outNew.data.quat.mul (L.exp (imu.deltaAng - (i.dtImuAvg / i.dtEkfAvg) • i.state.dAngBias + o.dAngCorr)))
      = q' := by
    rw [← harg]; exact ImuDownSampler.normalize_unit hq'u
  have hf : f = q'.dcm *ᵥ (imu.deltaVel - (i.dtImuAvg / i.dtEkfAvg) • i.state.dVelBias) := by
    show q'.dcm *ᵥ _ = _
    congr 1
  have hR : (o.ins L i imu).rNow = q'.dcm := by
    show (normalize _).dcm = _; rw [hn]
  have hdv : dv = ![(q'.dcm *ᵥ (imu.deltaVel - (i.dtImuAvg / i.dtEkfAvg) • i.state.dVelBias)) 0,
      (q'.dcm *ᵥ (imu.deltaVel - (i.dtImuAvg / i.dtEkfAvg) • i.state.dVelBias)) 1,
      (q'.dcm *ᵥ (imu.deltaVel - (i.dtImuAvg / i.dtEkfAvg) • i.state.dVelBias)) 2 + oneG * imu.deltaVelDt] := by
    rw [← hf]; rfl
  have hvel : (o.ins L i imu).outNew.data.vel = o.outNew.data.vel + dv := by
    rw [hdv, ← hR]; rfl
  have hpos : (o.ins L i imu).outNew.data.pos = o.outNew.data.pos +
      (imu.deltaVelDt * (1 / 2)) • ((o.ins L i imu).outNew.data.vel + o.outNew.data.vel) := rfl
  have hvv : (o.ins L i imu).vertNew.data.vertVel = o.vertNew.data.vertVel + dv 2 := by
    rw [hdv, ← hR]; rfl
  have hvi : (o.ins L i imu).vertNew.data.vertVelInteg = o.vertNew.data.vertVelInteg +
      ((imu.deltaVelDt * (1 / 2)) • ((o.ins L i imu).outNew.data.vel + o.outNew.data.vel)) 2 := rfl
  refine ⟨rfl, hn, hq'u, hR, hvel, ?_, ?_, ?_, rfl, ?_, ?_, rfl, rfl, rfl, rfl, rfl, hn⟩
  · intro j; rw [hpos]; simp only [Pi.add_apply, Pi.smul_apply, smul_eq_mul]; ring
  · rw [hvv, hvel]; simp
  · rw [hvi, hpos]; simp only [Pi.add_apply]; ring
  · intro h j
    have : (o.ins L i imu).velDeriv = if imu.deltaVelDt > 1 / 10000 then (1 / imu.deltaVelDt) • dv else o.velDeriv := by
      rw [hdv, ← hR]; rfl
    rw [this, if_pos h]; simp only [Pi.smul_apply, smul_eq_mul]; ring
  · intro h
    have : (o.ins L i imu).velImuRel = if imu.deltaAngDt > 1 / 10000 then
      (o.ins L i imu).rNow *ᵥ cross3 ((1 / imu.deltaAngDt) • imu.deltaAng) i.imuPosBody else o.velImuRel := rfl
    rw [this, if_pos h, hR]
    congr 2
    funext j; simp only [Pi.smul_apply, smul_eq_mul]; ring

/-- complementary filter gain as documented: `dt / tau` with the time constant limited to `[dt, 10 s]` -/
def Spec.gain (dt tau : ℝ) : ℝ := dt / max dt (min tau 10)

/-- **C70 (gain).** The tracking gains lie in `(0, 1]` for every time constant. -/
theorem trackGain_range (dt tau : ℝ) (h0 : 0 < dt) (h1 : dt ≤ 10) :
    trackGain dt tau = Spec.gain dt tau ∧ 0 < Spec.gain dt tau ∧ Spec.gain dt tau ≤ 1 ∧ dt / 10 ≤ Spec.gain dt tau := by
  have hpos : 0 < max dt (min tau 10) := lt_max_of_lt_left h0
  refine ⟨?_, div_pos h0 hpos, ?_, ?_⟩
  · unfold trackGain Spec.gain; rw [constrain_eq h1]
  · unfold Spec.gain; rw [div_le_one hpos]; exact le_max_left _ _
  · unfold Spec.gain
    exact div_le_div_of_nonneg_left h0.le hpos (max_le h1 (min_le_right _ _))

/-- **C70 (attitude correction).** The delta-angle error has norm at most 2 and the same value for the two quaternions
`q`, `-q` representing the delayed output attitude (unless the error is exactly half a turn); the applied correction is
that error times a gain in `[0, 1/2]`; if the delayed output attitude equals the EKF attitude the correction vanishes. -/
theorem attCorrection_spec (i : OutIn) (t : UInt64) (d : Quat ℝ) (hd : d.normSq = 1) (hs : i.state.quat.normSq = 1)
    (hdt : 0 < i.dtImuAvg) :
    norm3 (attCorrection i t d).1 ≤ 2 ∧
    (∃ g, 0 ≤ g ∧ g ≤ 1 / 2 ∧ ∀ j, (attCorrection i t d).2 j = g * (attCorrection i t d).1 j) ∧
    ((i.state.quat.inversed.mul d).w ≠ 0 → attCorrection i t ⟨-d.w, -d.x, -d.y, -d.z⟩ = attCorrection i t d) ∧
    (d = i.state.quat → (attCorrection i t d).2 = 0) := by
  have hu : (i.state.quat.inversed.mul d).normSq = 1 := by rw [Quat.normSq_mul, quat_inv_unit hs, hd, one_mul]
  have hn : normalize (i.state.quat.inversed.mul d) = i.state.quat.inversed.mul d := ImuDownSampler.normalize_unit hu
  have hneg : i.state.quat.inversed.mul ⟨-d.w, -d.x, -d.y, -d.z⟩ =
      ⟨-(i.state.quat.inversed.mul d).w, -(i.state.quat.inversed.mul d).x, -(i.state.quat.inversed.mul d).y,
        -(i.state.quat.inversed.mul d).z⟩ := by
    ext <;> simp only [Quat.mul] <;> ring
  have hnn : normalize (i.state.quat.inversed.mul ⟨-d.w, -d.x, -d.y, -d.z⟩) =
      ⟨-(i.state.quat.inversed.mul d).w, -(i.state.quat.inversed.mul d).x, -(i.state.quat.inversed.mul d).y,
        -(i.state.quat.inversed.mul d).z⟩ := by
    rw [hneg]; apply ImuDownSampler.normalize_unit
    rw [← hu]; simp only [Quat.normSq]; ring
  refine ⟨?_, ?_, ?_, ?_⟩
  · unfold attCorrection
    simp only [hn]
    generalize i.state.quat.inversed.mul d = e at hu
    unfold norm3
    rw [Real.sqrt_le_left (by norm_num)]
    unfold Quat.normSq at hu
    split <;> simp <;> nlinarith [mul_self_nonneg e.w]
  · refine ⟨1 / 2 * i.dtImuAvg / max (((t - i.delayedTime).toNat : ℝ) * (1 / 1000000)) i.dtImuAvg, ?_, ?_, fun j => rfl⟩
    · exact div_nonneg (by linarith) (le_max_of_le_right hdt.le)
    · rw [div_le_iff₀ (lt_max_of_lt_right hdt)]
      have := le_max_right (((t - i.delayedTime).toNat : ℝ) * (1 / 1000000)) i.dtImuAvg
      linarith
  · intro hw
    unfold attCorrection
    simp only [hn, hnn]
    generalize i.state.quat.inversed.mul d = e at *
    have : (![(if -e.w ≥ 0 then (-2 : ℝ) else 2) * -e.x, (if -e.w ≥ 0 then (-2 : ℝ) else 2) * -e.y,
        (if -e.w ≥ 0 then (-2 : ℝ) else 2) * -e.z] : V3 ℝ) =
        ![(if e.w ≥ 0 then (-2 : ℝ) else 2) * e.x, (if e.w ≥ 0 then (-2 : ℝ) else 2) * e.y,
        (if e.w ≥ 0 then (-2 : ℝ) else 2) * e.z] := by
      rcases lt_or_gt_of_ne hw with h | h
      · rw [if_pos (by linarith), if_neg (by linarith)]; funext j; fin_cases j <;> simp
      · rw [if_neg (by linarith), if_pos (by linarith)]; funext j; fin_cases j <;> simp
    rw [this]
  · intro hds
    have hone : i.state.quat.inversed.mul d = Quat.one := by rw [hds]; exact quat_inv_mul hs
    unfold attCorrection
    rw [hone] at hn
    simp only [hone, hn]
    funext j; fin_cases j <;> simp [Quat.one]

theorem push_ne_nil {α : Type*} {n : ℕ} (hn : 0 < n) (q : List (Sample α)) (s : Sample α) :
    Spec.push n q s ≠ [] := by
  unfold Spec.push Spec.keepNewest
  intro h
  have := congrArg List.length h
  simp at this; omega

theorem push_getLast? {α : Type*} {n : ℕ} (hn : 0 < n) (q : List (Sample α)) (s : Sample α) :
    (Spec.push n q s).getLast? = some s := by
  unfold Spec.push Spec.keepNewest
  rw [List.getLast?_drop]
  simp only [List.length_append, List.length_singleton, List.getLast?_append, List.getLast?_singleton, Option.some_or]
  rw [if_neg (by omega)]

/-- **C70 (correction step).** When a new EKF update is available, the strap-down output is appended to the history (the
oldest entry drops out), and then the whole history and the current output are shifted by one common velocity and one
common position correction, computed from the tracking error of the oldest entry; the vertical history is corrected as
in C71.  No memory error can occur. -/
theorem output_correct (L : AxisAngleLib) (i : OutIn) (imu : ImuSample) (o : Out) (n : ℕ) (hn : 2 ≤ n)
    (ho : o.outBuf.Inv n) (hv : o.vertBuf.Inv n) (hu : i.imuUpdated = true) (hdt : 0 < i.dtEkfAvg) (hdt' : i.dtEkfAvg ≤ 10) :
    let p := o.ins L i imu
    ∃ o' od vd, o.calculate L i imu = .ok o' ∧ o'.outBuf.Inv n ∧ o'.vertBuf.Inv n ∧
      (Spec.push n o.outBuf.live p.outNew).head? = some od ∧ (Spec.push n o.vertBuf.live p.vertNew).head? = some vd ∧
      (let gv := Spec.gain i.dtEkfAvg i.velTau
       let gp := Spec.gain i.dtEkfAvg i.posTau
       let ev : V3 ℝ := fun j => i.state.vel j - od.data.vel j
       let ep : V3 ℝ := fun j => i.state.pos j - od.data.pos j
       let cv : V3 ℝ := fun j => gv * ev j + gv ^ 2 / 10 * o'.velErrInteg j
       let cp : V3 ℝ := fun j => gp * ep j + gp ^ 2 / 10 * o'.posErrInteg j
       let cz := gp * (i.state.pos 2 - vd.data.vertVelInteg) + 11 / 10 * gv * (i.state.vel 2 - vd.data.vertVel)
       o'.velErrInteg = o.velErrInteg + ev ∧ o'.posErrInteg = o.posErrInteg + ep ∧
       o'.outBuf.live = (Spec.push n o.outBuf.live p.outNew).map
         (fun s => ⟨s.time_us, s.data.quat, s.data.vel + cv, s.data.pos + cp⟩) ∧
       o'.outNew = ⟨p.outNew.time_us, p.outNew.data.quat, p.outNew.data.vel + cv, p.outNew.data.pos + cp⟩ ∧
       o'.vertBuf.live = Spec.correctVertical cz (Spec.push n o.vertBuf.live p.vertNew) ∧
       (∃ x, o'.vertBuf.live.getLast? = some x ∧ o'.vertNew = ⟨x.time_us, x.data.vertVel, x.data.vertVelInteg, 0⟩) ∧
       o'.dAngCorr = (attCorrection i imu.timeUs od.data.quat).2 ∧
       o'.trackErr = ![norm3 (attCorrection i imu.timeUs od.data.quat).1, norm3 ev, norm3 ep] ∧
       o'.rNow = p.rNow) := by
  intro p
  have hpo : p.outBuf = o.outBuf := rfl
  have hpv : p.vertBuf = o.vertBuf := rfl
  obtain ⟨b1, e1, i1, l1⟩ := push_refine (n := n) (b := p.outBuf) ho p.outNew
  obtain ⟨b2, e2, i2, l2⟩ := push_refine (n := n) (b := p.vertBuf) hv p.vertNew
  rw [hpo] at l1; rw [hpv] at l2
  have hn0 : 0 < n := by omega
  have ne1 : b1.live ≠ [] := by rw [l1]; exact push_ne_nil hn0 _ _
  have ne2 : b2.live ≠ [] := by rw [l2]; exact push_ne_nil hn0 _ _
  obtain ⟨od, hod⟩ : ∃ x, b1.live.head? = some x := by
    cases h : b1.live with
    | nil => exact absurd h ne1
    | cons a t => exact ⟨a, rfl⟩
  obtain ⟨vd, hvd⟩ : ∃ x, b2.live.head? = some x := by
    cases h : b2.live with
    | nil => exact absurd h ne2
    | cons a t => exact ⟨a, rfl⟩
  have e3 := oldest_of_live i1 hod
  have e4 := oldest_of_live i2 hvd
  have hnew : b1.getNewest = .ok p.outNew := newest_of_live i1 (by rw [l1]; exact push_getLast? hn0 _ _)
  obtain ⟨b3, x, e5, i3, l3, hlast⟩ := applyVert_spec hn i2 ne2
    ((i.state.pos 2 - vd.data.vertVelInteg) * trackGain i.dtEkfAvg i.posTau +
      (i.state.vel 2 - vd.data.vertVel) * trackGain i.dtEkfAvg i.velTau * (11 / 10))
  let gv := trackGain i.dtEkfAvg i.velTau
  let gp := trackGain i.dtEkfAvg i.posTau
  let velInteg := p.velErrInteg + (i.state.vel - od.data.vel)
  let posInteg := p.posErrInteg + (i.state.pos - od.data.pos)
  let cv := gv • (i.state.vel - od.data.vel) + (sq gv * (1 / 10)) • velInteg
  let cp := gp • (i.state.pos - od.data.pos) + (sq gp * (1 / 10)) • posInteg
  let f : OutData ℝ → OutData ℝ := fun o => { o with vel := o.vel + cv, pos := o.pos + cp }
  have e6 : applyOut b1 cv cp = .ok (b1.mapAll f, ⟨p.outNew.time_us, f p.outNew.data⟩) := by
    unfold applyOut
    simp only
    rw [mapAll_getNewest f b1 hnew]
  have hcalc : o.calculate L i imu = .ok { p with
      outBuf := b1.mapAll f, outNew := ⟨p.outNew.time_us, f p.outNew.data⟩, vertBuf := b3
      vertNew := ⟨x.time_us, x.data.vertVel, x.data.vertVelInteg, 0⟩, dAngCorr := (attCorrection i imu.timeUs od.data.quat).2
      velErrInteg := velInteg, posErrInteg := posInteg
      trackErr := ![norm3 (attCorrection i imu.timeUs od.data.quat).1, norm3 (i.state.vel - od.data.vel),
        norm3 (i.state.pos - od.data.pos)] } := by
    unfold Out.calculate
    simp only [hu, if_true]
    unfold Out.correct
    show (p.outBuf.push p.outNew >>= fun outBuf => _) = _
    rw [e1]
    show (p.vertBuf.push p.vertNew >>= fun vertBuf => _) = _
    rw [e2]
    show (b1.getOldest >>= fun od => _) = _
    rw [e3]
    show (b2.getOldest >>= fun vd => _) = _
    rw [e4]
    show (applyVert b2 ((i.state.pos 2 - vd.data.vertVelInteg) * trackGain i.dtEkfAvg i.posTau +
      (i.state.vel 2 - vd.data.vertVel) * trackGain i.dtEkfAvg i.velTau * (11 / 10)) >>= fun rv => _) = _
    rw [e5]
    show (applyOut b1 cv cp >>= fun ro => _) = _
    rw [e6]
    rfl
  have hgv := (trackGain_range i.dtEkfAvg i.velTau hdt hdt').1
  have hgp := (trackGain_range i.dtEkfAvg i.posTau hdt hdt').1
  have hcv : cv = fun j => Spec.gain i.dtEkfAvg i.velTau * (i.state.vel j - od.data.vel j) +
      Spec.gain i.dtEkfAvg i.velTau ^ 2 / 10 * velInteg j := by
    funext j
    show gv * (i.state.vel j - od.data.vel j) + (sq gv * (1 / 10)) * velInteg j = _
    rw [show gv = Spec.gain i.dtEkfAvg i.velTau from hgv]; unfold sq; ring
  have hcp : cp = fun j => Spec.gain i.dtEkfAvg i.posTau * (i.state.pos j - od.data.pos j) +
      Spec.gain i.dtEkfAvg i.posTau ^ 2 / 10 * posInteg j := by
    funext j
    show gp * (i.state.pos j - od.data.pos j) + (sq gp * (1 / 10)) * posInteg j = _
    rw [show gp = Spec.gain i.dtEkfAvg i.posTau from hgp]; unfold sq; ring
  refine ⟨_, od, vd, hcalc, mapAll_inv f i1, i3, l1 ▸ hod, l2 ▸ hvd, rfl, rfl, ?_, ?_, ?_, ⟨x, hlast, rfl⟩, rfl, rfl, rfl⟩
  · show (b1.mapAll f).live = _
    rw [live_mapAll, l1]
    apply List.map_congr_left
    intro s _
    show (⟨s.time_us, { s.data with vel := s.data.vel + cv, pos := s.data.pos + cp }⟩ : Sample (OutData ℝ)) = _
    rw [hcv, hcp]
  · show (⟨p.outNew.time_us, { p.outNew.data with vel := p.outNew.data.vel + cv, pos := p.outNew.data.pos + cp }⟩ :
      Sample (OutData ℝ)) = _
    rw [hcv, hcp]
  · rw [l3, l2, hgv, hgp]
    congr 1; ring

/-- Non-vacuity: a two-slot history satisfies the invariants. -/
example : ∃ (b : RB (OutData ℝ)) (v : RB (VertData ℝ)), b.Inv 2 ∧ v.Inv 2 ∧ b.live.length = 1 ∧ v.live.length = 1 := by
  refine ⟨⟨some [⟨5, ⟨⟨1, 0, 0, 0⟩, 0, 0⟩⟩, ⟨0, ⟨⟨0, 0, 0, 0⟩, 0, 0⟩⟩], 0, 0, 2, false⟩,
    ⟨some [⟨5, ⟨1, 2, 3⟩⟩, ⟨0, ⟨0, 0, 0⟩⟩], 0, 0, 2, false⟩, ?_, ?_, ?_, ?_⟩
  · exact ⟨by norm_num, rfl, by norm_num, by norm_num, _, rfl, rfl, by simp⟩
  · exact ⟨by norm_num, rfl, by norm_num, by norm_num, _, rfl, rfl, by simp⟩
  · simp [RB.live, RB.count]
  · simp [RB.live, RB.count]

end Ecl.Ekf
