import Verif.Boot.Props
import Verif.Cov.BookkeepProps
import Verif.Yaw.Course

/-!
# The states, covariance, outputs and flags set by the initialisation; what `reset` leaves behind
-/

namespace Ecl.Boot

open Ecl.Ekf Ecl.Cov Ecl.ImuDownSampler Ecl.AlphaFilter
open scoped Matrix

/-- samples taken into account by an `update` call of an uninitialised filter -/
noncomputable def taken (m : Option (UInt64 × V3 ℝ)) (h : Option (UInt64 × ℝ)) (s : St) : St :=
  takeBaro h (takeMag m { s with core := s.core.filterImu })

theorem taken_keeps (m : Option (UInt64 × V3 ℝ)) (h : Option (UInt64 × ℝ)) (s : St) :
    (taken m h s).flt.y = s.flt.y ∧ (taken m h s).flt.ter = s.flt.ter ∧ (taken m h s).core = s.core.take m h := by
  refine ⟨?_, ?_, take_core m h s⟩
  all_goals
    unfold taken takeBaro takeMag
    rcases m with _ | ⟨t, v⟩ <;> rcases h with _ | ⟨u, w⟩
    · rfl
    · by_cases hu : (u != 0) = true <;> simp [hu]
    · by_cases hu : (t != 0) = true <;> simp [hu]
    · by_cases ht : (t != 0) = true <;> by_cases hu : (u != 0) = true <;> simp [ht, hu]

theorem init_setUp (c : Cfg) (m : Option (UInt64 × V3 ℝ)) (h : Option (UInt64 × ℝ)) (s s' : St) (e : initialiseFilter c m h s = .ok (s', true)) :
    s'.core = s.core.take m h ∧ ∃ q, initialiseTilt s'.core.accel.state s'.core.gyro.state = some q ∧
      setUp c q s'.core { (taken m h s).flt with hgt := ⟨true, false, false, false⟩ } = .ok s'.flt := by
  have hk := (taken_keeps m h s).2.2
  unfold initialiseFilter at e
  change (if _ then _ else (if c.magType ≤ 2 ∧ (taken m h s).core.magCount.toNat < c.obsLen then (.ok (taken m h s, false) : Except RingBuffer.UB (St × Bool))
    else if (taken m h s).core.baroCount.toNat < c.obsLen then .ok (taken m h s, false)
    else match initialiseTilt (taken m h s).core.accel.state (taken m h s).core.gyro.state with
      | none => .ok (_, false)
      | some q => match setUp c q (taken m h s).core { (taken m h s).flt with hgt := ⟨true, false, false, false⟩ } with
        | .error u => .error u
        | .ok f => .ok ({ core := (taken m h s).core, flt := f }, true))) = _ at e
  split at e
  · simp at e
  · split at e
    · simp at e
    · split at e
      · simp at e
      · split at e
        · simp at e
        · next q hq =>
          split at e
          · simp at e
          · next f hf =>
            simp only [Except.ok.injEq, Prod.mk.injEq, and_true] at e
            subst e
            exact ⟨hk, q, hq, hf⟩

/-- quality of the inputs of the output alignment: the stored outputs have unit attitudes -/
structure Spec.OutputsOk (e : Est ℝ) : Prop where
  oldest : ∃ o, e.outBuf.getOldest = .ok o ∧ o.data.quat.normSq = 1
  newest : ∃ n, e.outBuf.getNewest = .ok n ∧ n.data.quat.normSq = 1
  live : ∀ x ∈ e.outBuf.live, x.data.quat.normSq = 1

theorem quatSq {q : Quat ℝ} (h : q.normSq = 1) : q.w ^ 2 + q.x ^ 2 + q.y ^ 2 + q.z ^ 2 = 1 := by
  unfold Quat.normSq at h; linarith

/-- **C134.** The call of `update` that initialises the filter in a compass mode sets up, from the filtered IMU and magnetometer data, a unit attitude in which the
measured specific force points straight up, and earth field states whose horizontal part points to the declination in use and which, rotated into the body, are the filtered
measurement.  Velocity, position, biases and wind keep their values (zero after power-on or `reset`).  Yaw is reported as aligned; the barometer is the only height source. The
oldest stored output equals the state.  All fusion timers start now. -/
theorem initial_state (c : Cfg) (lib : QuatLib c.lib.ofDcm c.lib.normalize) (m : Option (UInt64 × V3 ℝ)) (h : Option (UInt64 × ℝ)) (s s' : St)
    (e : initialiseFilter c m h s = .ok (s', true)) (hmag : c.magType ≤ 2) (hev : s.flt.y.evYaw = false) (ht : s.core.tDel ≠ s.flt.y.tAlign)
    (ho : Spec.OutputsOk s.flt.y.est) :
    let x := s'.flt.y.est.state
    let a := s'.core.accel.state
    let b := s'.flt.magLpf.state
    let f := x.quat.dcm *ᵥ b
    let d := Yaw.getMagDeclination { c.yaw with tDel := s.core.tDel, magType := c.magType } s.flt.y
    x.quat.normSq = 1 ∧ x.quat.dcm *ᵥ a = ![0, 0, -norm3 a] ∧
    x.magI = f ∧ f 0 * Real.sin d = f 1 * Real.cos d ∧ 0 ≤ f 0 * Real.cos d + f 1 * Real.sin d ∧ x.quat.dcmᵀ *ᵥ x.magI = b ∧
    x = { s.flt.y.est.state with quat := x.quat, magI := x.magI } ∧
    s'.flt.y.R = x.quat.dcm ∧ s'.flt.y.yawAlign = true ∧ s'.flt.hgt = ⟨true, false, false, false⟩ ∧
    (∃ t, s'.flt.y.est.outBuf.getOldest = .ok ⟨t, ⟨x.quat, x.vel, x.pos⟩⟩) ∧
    (∃ t, s'.flt.y.est.outBuf.getNewest = .ok ⟨t, s'.flt.y.est.outNew⟩) ∧
    s'.flt.tHgt = s.core.now ∧ s'.flt.tHorPos = s.core.now ∧ s'.flt.tDelPos = s.core.now ∧ s'.flt.tHorVel = s.core.now ∧ s'.flt.tOf = s.core.now ∧
    s'.flt.ter.tHagl = s.core.now ∧ s'.flt.ter.tFlow = s.core.now := by
  intro x a b f d
  obtain ⟨hc, q, hq, hs⟩ := init_setUp c m h s s' e
  obtain ⟨hty, htt, -⟩ := taken_keeps m h s
  obtain ⟨hu, -, -, hg⟩ := (initialiseTilt_spec _ _).2 q hq
  have hfi := filterImu_counts s.core
  have hnow : s'.core.now = s.core.now := by rw [hc]; exact hfi.2.2.2.2.2.2.2
  have htd : s'.core.tDel = s.core.tDel := by rw [hc]; exact hfi.2.2.2.2.2.2.1
  unfold setUp at hs
  simp only at hs
  rw [hty, htt, hnow, htd] at hs
  generalize hyeq : ({ s.flt.y with est := { s.flt.y.est with state := { s.flt.y.est.state with quat := q } }, R := q.dcm } : Yaw.St) = y at hs
  have y1 : y.est.state = { s.flt.y.est.state with quat := q } := by rw [← hyeq]
  have y2 : y.R = q.dcm := by rw [← hyeq]
  have y3 : y.tAlign = s.flt.y.tAlign := by rw [← hyeq]
  have y4 : y.evYaw = s.flt.y.evYaw := by rw [← hyeq]
  have y5 : y.est.outBuf = s.flt.y.est.outBuf := by rw [← hyeq]
  have hcr := Yaw.compass_reset (L := c.lib) lib { c.yaw with tDel := s.core.tDel, magType := c.magType } (taken m h s).flt.magLpf.state false false y
    (by rw [y1]; exact hu) (by rw [y2, y1]) (by rw [y3]; exact ht) hmag (by rw [y4]; exact hev)
  have hout : (Yaw.resetMagHeading c.lib { c.yaw with tDel := s.core.tDel, magType := c.magType } (taken m h s).flt.magLpf.state false false y).1.est.outBuf = y.est.outBuf := by
    unfold Yaw.resetMagHeading
    rw [if_neg (by rw [y3]; exact ht), if_neg (by show ¬ (c.magType ≥ 5); omega)]
    rw [y4, hev]
    simp only [Bool.false_eq_true, if_false]
    rw [if_pos hmag]
    simp only [Yaw.setMagI, Yaw.resetQuatStateYaw, Est.resetQuatStateYaw, Bool.false_eq_true, if_false]
  have hdecl : Yaw.getMagDeclination { c.yaw with tDel := s.core.tDel, magType := c.magType } y = d := by
    unfold d Yaw.getMagDeclination
    rw [y1, ← hyeq]
  generalize hR : Yaw.resetMagHeading c.lib { c.yaw with tDel := s.core.tDel, magType := c.magType } (taken m h s).flt.magLpf.state false false y = r at hs hcr hout
  obtain ⟨r1, r2, ⟨psi, r3⟩, r4, r5, r6, r7, r8, r9, r10⟩ := hcr
  rw [hdecl] at r4 r5
  obtain ⟨o, ho1, ho2⟩ := ho.oldest
  obtain ⟨n, hn1, hn2⟩ := ho.newest
  have hal := alignOutputFilter_spec c.lib.normalize lib.normalize_unit r.1.est o n (by rw [hout, y5]; exact ho1) (by rw [hout, y5]; exact hn1) r2
    (by rw [hout, y5]; exact ho.live) ho2 hn2
  obtain ⟨e', a1, a2, a3, qd, a4, a5, a6, a7, a8⟩ := hal
  rw [a1] at hs
  simp only [Except.ok.injEq] at hs
  have hx : x = r.1.est.state := by
    show s'.flt.y.est.state = _
    rw [← hs, ← a3]
  have hb : b = (taken m h s).flt.magLpf.state := by
    show s'.flt.magLpf.state = _
    rw [← hs]
  have hrot := Yaw.quat_rot r2
  have hf : x.magI = f := by
    show x.magI = x.quat.dcm *ᵥ b
    rw [hx, hb, ← r7, Matrix.mulVec_mulVec, Quat.dcm_mul_transpose _ r2, Matrix.one_mulVec]
  have hsc := Real.sin_sq_add_cos_sq d
  have hsq : 0 ≤ Real.sqrt ((y.est.state.quat.dcm *ᵥ (taken m h s).flt.magLpf.state) 0 ^ 2 + (y.est.state.quat.dcm *ᵥ (taken m h s).flt.magLpf.state) 1 ^ 2) := Real.sqrt_nonneg _
  refine ⟨by rw [hx]; exact r2, ?_, hf, ?_, ?_, ?_, ?_, ?_, ?_, ?_, ?_, ?_, ?_⟩
  · show x.quat.dcm *ᵥ s'.core.accel.state = _
    rw [hx, r3, ← Matrix.mulVec_mulVec, y1]
    show Yaw.Spec.turn psi *ᵥ (q.dcm *ᵥ _) = _
    rw [hg]
    obtain ⟨t0, t1, t2⟩ := Yaw.turn_apply psi ![0, 0, -norm3 s'.core.accel.state]
    funext i
    fin_cases i
    · show (Yaw.Spec.turn psi *ᵥ ![0, 0, -norm3 s'.core.accel.state]) 0 = 0
      rw [t0]; simp
    · show (Yaw.Spec.turn psi *ᵥ ![0, 0, -norm3 s'.core.accel.state]) 1 = 0
      rw [t1]; simp
    · show (Yaw.Spec.turn psi *ᵥ ![0, 0, -norm3 s'.core.accel.state]) 2 = _
      rw [t2]; rfl
  · rw [← hf, hx, r4, r5]; ring
  · rw [← hf, hx, r4, r5]
    have : ∀ k : ℝ, 0 ≤ k → 0 ≤ k * Real.cos d * Real.cos d + k * Real.sin d * Real.sin d := by
      intro k hk
      have : k * Real.cos d * Real.cos d + k * Real.sin d * Real.sin d = k * (Real.sin d ^ 2 + Real.cos d ^ 2) := by ring
      rw [this, hsc]; linarith
    exact this _ hsq
  · rw [hx, hb]; exact r7
  · rw [hx]; rw [y1] at r8; exact r8
  · rw [hx, ← r9, ← hs]
  · rw [← hs]; exact r1
  · rw [← hs]
  · refine ⟨o.time_us, ?_⟩
    rw [hx, ← hs]; exact a2
  · refine ⟨n.time_us, ?_⟩
    rw [← hs]; exact a6
  · rw [← hs]
    exact ⟨rfl, rfl, rfl, rfl, rfl, rfl, rfl⟩

/-- **C134 (covariance).** After the initialising call the covariance is valid; outside the attitude block it is diagonal with the documented initial standard deviations; the
height variance is that of the barometer whatever height sensor is configured; attitude and the other states are uncorrelated. -/
theorem initial_covariance (c : Cfg) (m : Option (UInt64 × V3 ℝ)) (h : Option (UInt64 × ℝ)) (s s' : St) (e : initialiseFilter c m h s = .ok (s', true))
    (hq : s'.flt.y.est.state.quat.normSq = 1) :
    Spec.PSD s'.flt.y.cov.P ∧
    (∀ i j : Fin N, 4 ≤ i.val → 4 ≤ j.val → s'.flt.y.cov.P i j =
      if i = j then Spec.initialSd { c.cov with rngHgt := false, gpsHgt := false } i ^ 2 else 0) ∧
    (∀ i j : Fin N, i.val < 4 → 4 ≤ j.val → s'.flt.y.cov.P i j = 0 ∧ s'.flt.y.cov.P j i = 0) ∧
    s'.flt.y.cov.P 9 9 = max c.cov.baroNoise (1 / 100) ^ 2 := by
  obtain ⟨hc, q, -, hs⟩ := init_setUp c m h s s' e
  unfold setUp at hs
  simp only at hs
  generalize Yaw.resetMagHeading c.lib _ _ false false _ = r at hs
  cases hal : Est.alignOutputFilter c.lib.normalize ({ r.1 with yawAlign := r.2 } : Yaw.St).est with
  | error u => rw [hal] at hs; exact absurd hs (by simp)
  | ok e' =>
    rw [hal] at hs
    simp only [Except.ok.injEq] at hs
    have hst : e'.state = r.1.est.state := by
      unfold Est.alignOutputFilter at hal
      split at hal
      · exact absurd hal (by simp)
      · simp only at hal
        split at hal
        · exact absurd hal (by simp)
        · simp only [Except.ok.injEq] at hal
          rw [← hal]
    have hq' : s'.flt.y.est.state.quat = r.1.est.state.quat := by rw [← hs, ← hst]
    rw [hq'] at hq
    set X : InitIn := { c.cov with quat := r.1.est.state.quat, rngHgt := false, gpsHgt := false } with hX
    have hP : s'.flt.y.cov.P = if c.magType ≤ 2 then increaseQuatYawErrVariance r.1.est.state.quat (sq (max c.yaw.hdgNoise (1 / 100))) (initialiseCovariance X r.1.cov).1.P
        else (initialiseCovariance X r.1.cov).1.P := by
      rw [← hs]
    have hvalid := init_valid X r.1.cov
    have hqs := quatSq hq
    have hz : ∀ i : Fin N, 4 ≤ i.val → Spec.yawDir r.1.est.state.quat i = 0 := by
      intro i hi
      unfold Spec.yawDir
      rw [if_neg (by omega), if_neg (by omega), if_neg (by omega), if_neg (by omega)]
    have hentry : ∀ i j : Fin N, 4 ≤ i.val ∨ 4 ≤ j.val → s'.flt.y.cov.P i j = (initialiseCovariance X r.1.cov).1.P i j := by
      intro i j hij
      rw [hP]
      by_cases hm : c.magType ≤ 2
      · rw [if_pos hm, yaw_variance_increase _ hqs]
        rcases hij with hi | hj
        · rw [hz i hi]; ring
        · rw [hz j hj]; ring
      · rw [if_neg hm]
    have hsd : ∀ i, Spec.initialSd X i = Spec.initialSd { c.cov with rngHgt := false, gpsHgt := false } i := fun i => rfl
    refine ⟨?_, ?_, ?_, ?_⟩
    · rw [hP]
      by_cases hm : c.magType ≤ 2
      · rw [if_pos hm]
        exact (yaw_variance_increase_valid _ hqs _ (by unfold sq; exact mul_self_nonneg _) _ hvalid).1
      · rw [if_neg hm]; exact hvalid
    · intro i j hi hj
      rw [hentry i j (Or.inl hi), (init_spec X r.1.cov i j).1 hi hj, hsd]
    · intro i j hi hj
      rw [hentry i j (Or.inr hj), hentry j i (Or.inl hj)]
      exact (init_spec X r.1.cov i j).2.1 hi hj
    · rw [hentry 9 9 (Or.inl (by decide)), (init_spec X r.1.cov 9 9).1 (by decide) (by decide), if_pos rfl]
      rfl

/-- **C134 (terrain).** After the initialising call on the ground the terrain lies the configured ground clearance below the vertical position state, with that standard
deviation; in the air with a healthy range sensor it lies at the measured distance below; the terrain estimate is valid in both cases. -/
theorem initial_terrain (c : Cfg) (m : Option (UInt64 × V3 ℝ)) (h : Option (UInt64 × ℝ)) (s s' : St) (e : initialiseFilter c m h s = .ok (s', true)) :
    let z := s'.flt.y.est.state.pos 2
    (c.ter.inAir = false → s'.flt.ter.vpos = z + c.ter.flow.gndClearance ∧ s'.flt.ter.var = c.ter.flow.gndClearance ^ 2 ∧ s'.flt.ter.init = true) ∧
    (c.ter.inAir = true → c.ter.useRange = true → c.ter.rngHealthy = true →
      s'.flt.ter.vpos = z + c.ter.distBottom ∧ s'.flt.ter.var = c.ter.rngNoise ^ 2 ∧ s'.flt.ter.init = true) := by
  intro z
  obtain ⟨hc, q, -, hs⟩ := init_setUp c m h s s' e
  unfold setUp at hs
  simp only at hs
  generalize Yaw.resetMagHeading c.lib _ _ false false _ = r at hs
  cases hal : Est.alignOutputFilter c.lib.normalize ({ r.1 with yawAlign := r.2 } : Yaw.St).est with
  | error u => rw [hal] at hs; exact absurd hs (by simp)
  | ok e' =>
    rw [hal] at hs
    simp only [Except.ok.injEq] at hs
    have hst : e'.state = r.1.est.state := by
      unfold Est.alignOutputFilter at hal
      split at hal
      · exact absurd hal (by simp)
      · simp only at hal
        split at hal
        · exact absurd hal (by simp)
        · simp only [Except.ok.injEq] at hal
          rw [← hal]
    have hz : z = r.1.est.state.pos 2 := by show s'.flt.y.est.state.pos 2 = _; rw [← hs, ← hst]
    have hsq : ∀ a : ℝ, sq a = a ^ 2 := fun a => (pow_two a).symm
    refine ⟨fun h1 => ?_, fun h1 h2 h3 => ?_⟩
    · rw [hz, ← hs, ← hsq]
      simp [Terrain.initHagl, h1]
    · rw [hz, ← hs, ← hsq]
      simp [Terrain.initHagl, h1, h2, h3]

/-! ## Reset -/

/-- **C135.** `reset` takes the filter out of operation: uninitialised, all states zero with level attitude, no aiding, no height source; the next `update` cannot report a
run before new IMU data. -/
theorem reset_stops (c : Cfg) (r : Rest) (s : St) (m : Option (UInt64 × V3 ℝ)) (h : Option (UInt64 × ℝ)) :
    (reset s).core.init = false ∧ (reset s).flt.y.est.state = ⟨⟨1, 0, 0, 0⟩, 0, 0, 0, 0, 0, 0, 0⟩ ∧ (reset s).flt.y.est.outNew = ⟨⟨1, 0, 0, 0⟩, 0, 0⟩ ∧
    (reset s).flt.y.gps = false ∧ (reset s).flt.y.yawAlign = false ∧ (reset s).flt.hgt = ⟨false, false, false, false⟩ ∧
    ∀ s' b, update c r m h (reset s) = .ok (s', b) → b = false := by
  refine ⟨rfl, rfl, rfl, rfl, rfl, rfl, fun s' b hu => ?_⟩
  obtain ⟨-, u2, u3⟩ := update_core c r m h (reset s) s' b hu
  by_cases ho : Spec.imuOk (reset s).core.newest
  · rw [(u3 rfl ho).2.2]
    show (_ && false) = false
    rw [Bool.and_false]
  · exact (u2 rfl ho).2

/-- **C135 (finding).** The sample counters and the IMU averages survive `reset`: a filter that has been initialised before is initialised again by the very next `update`, without
any new barometer or magnetometer data (if the vehicle is still), keeping the barometer offset of before; the reset count of the filter averages is not restarted either. -/
theorem reset_reinitialises (c : Cfg) (r : Rest) (s s' : St) (b : Bool) (hi : Spec.imuOk s.core.newest) (hb : c.obsLen ≤ s.core.baroCount.toNat)
    (hm : c.obsLen ≤ s.core.magCount.toNat) (hf : s.core.first = false)
    (hst : Spec.still ((9 / 10 : ℝ) • s.core.accel.state + (1 / 10 : ℝ) • specificForce s.core.newest)
      ((9 / 10 : ℝ) • s.core.gyro.state + (1 / 10 : ℝ) • bodyRate s.core.newest))
    (ha : s.core.accel.alpha = 1 / 10) (hg : s.core.gyro.alpha = 1 / 10)
    (hu : update c r none none (reset s) = .ok (s', b)) : s'.core.init = true := by
  obtain ⟨-, -, u3⟩ := update_core c r none none (reset s) s' b hu
  rw [(u3 rfl hi).2.1]
  unfold Core.ready Core.take Core.filterImu
  have hf' : (reset s).core.first = false := hf
  rw [hf']
  simp only [Bool.false_eq_true, if_false, Filter.update]
  refine ⟨fun _ => hm, hb, ?_⟩
  have e1 : (reset s).core.accel = s.core.accel := rfl
  have e2 : (reset s).core.gyro = s.core.gyro := rfl
  have e3 : (reset s).core.newest = s.core.newest := rfl
  rw [e1, e2, e3, ha, hg, show (1 - 1 / 10 : ℝ) = 9 / 10 by norm_num]
  exact hst

/-- **C135 (finding).** The time of the last heading reset survives `reset`.  If the filter is reset and updated before the delayed time horizon has moved on from the last heading reset
(for instance straight after a heading reset), the new initialisation believes the heading has just been reset: it reports yaw as aligned although the attitude has been set to
zero yaw, and leaves the earth field at zero. -/
theorem reset_false_alignment (c : Cfg) (m : Option (UInt64 × V3 ℝ)) (h : Option (UInt64 × ℝ)) (s s' : St) (ht : s.core.tDel = s.flt.y.tAlign)
    (e : initialiseFilter c m h (reset s) = .ok (s', true)) :
    s'.flt.y.yawAlign = true ∧ s'.flt.y.est.state.magI = 0 ∧ s'.flt.y.est.state.quat.dcm 1 0 = 0 ∧ 0 ≤ s'.flt.y.est.state.quat.dcm 0 0 := by
  obtain ⟨hc, q, hq, hs⟩ := init_setUp c m h (reset s) s' e
  obtain ⟨hty, htt, -⟩ := taken_keeps m h (reset s)
  obtain ⟨-, hz1, hz2, -⟩ := (initialiseTilt_spec _ _).2 q hq
  have hfi := filterImu_counts (reset s).core
  have htd : s'.core.tDel = s.core.tDel := by rw [hc]; exact hfi.2.2.2.2.2.2.1
  unfold setUp at hs
  simp only at hs
  rw [hty, htd] at hs
  have hr : Yaw.resetMagHeading c.lib { c.yaw with tDel := s.core.tDel, magType := c.magType } (taken m h (reset s)).flt.magLpf.state false false
      { (reset s).flt.y with est := { (reset s).flt.y.est with state := { (reset s).flt.y.est.state with quat := q } }, R := q.dcm } =
      ({ (reset s).flt.y with est := { (reset s).flt.y.est with state := { (reset s).flt.y.est.state with quat := q } }, R := q.dcm }, true) :=
    Yaw.no_second_reset (L := c.lib) _ _ _ _ _ ht
  rw [hr] at hs
  simp only at hs
  split at hs
  · exact absurd hs (by simp)
  · next e' hal =>
    simp only [Except.ok.injEq] at hs
    have hst : e'.state = { (reset s).flt.y.est.state with quat := q } := by
      unfold Est.alignOutputFilter at hal
      split at hal
      · exact absurd hal (by simp)
      · simp only at hal
        split at hal
        · exact absurd hal (by simp)
        · simp only [Except.ok.injEq] at hal
          rw [← hal]
    have hst' : s'.flt.y.est.state = { (reset s).flt.y.est.state with quat := q } := by rw [← hs]; exact hst
    refine ⟨by rw [← hs], by rw [hst']; rfl, by rw [hst']; exact hz1, by rw [hst']; exact hz2⟩

end Ecl.Boot
