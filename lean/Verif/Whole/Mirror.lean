import Verif.Whole.MirrorFuse

/-!
# The filter does not know left from right (C164)

A flight and its mirror image: north and down stay, east becomes west; forward and down stay, right becomes left.  Vectors change their east or right
component, angular rates the other two.  The code has separate, machine-generated expressions for the X and Y axes of every sensor and for every entry of
the covariance; the theorem says that they fit together: the estimate of the mirrored flight is the mirror image of the estimate.  The steps are those of
`Whole.Model`: EKF/ekf.cpp:54-309, covariance.cpp, vel_pos_fusion.cpp, airspeed_fusion.cpp, sideslip_fusion.cpp, drag_fusion.cpp, optflow_fusion.cpp, and the resets
of ekf_helper.cpp that do not choose a yaw angle.  Steps that go through an angle in (-π, π] are not mirrored exactly at the end of that interval and are
left out: magnetometer, declination, heading and GPS yaw fusion, yaw resets, tilt initialisation.
-/

namespace Ecl.Whole

open Ecl.Cov Ecl.Fusion Ecl.Ekf
open Ecl.ImuDownSampler (ImuSample AxisAngleLib)
open scoped Matrix
open Spec (mirV mirR mirM mir2 mir2R mirQ)

noncomputable section

/-! ## Specification -/

/-- the mirror image of the filter -/
def Spec.mirW (w : W) : W :=
  { w with
    f := { w.f with
      s := fun i => Spec.mirSign i * w.f.s i
      M := { w.f.M with
        P := fun i j => Spec.mirSign i * Spec.mirSign j * w.f.M.P i j
        saved := { w.f.M.saved with ef := fun i j => if (i = 1 ↔ j = 1) then w.f.M.saved.ef i j else -w.f.M.saved.ef i j } } }
    R := mirM w.R
    accelLpf := mir2 w.accelLpf
    angRateRaw := mirR w.angRateRaw }

/-- the mirror image of what a prediction reads -/
def Spec.mirPredict (x : PredictIn) : PredictIn :=
  { x with imu := { x.imu with deltaAng := mirR x.imu.deltaAng, deltaVel := mirV x.imu.deltaVel }, earthRate := mirR x.earthRate }

/-- the mirror image of the measurements a velocity or position reset reads -/
def Spec.mirReset (x : Meas.RIn) : Meas.RIn :=
  { x with gpsVel := mirV x.gpsVel, gpsPos := mir2 x.gpsPos, flow := mir2R x.flow, R := mirM x.R, visVel := mirV x.visVel, evPosMeas := mirV x.evPosMeas,
           REv := mirM x.REv, lastKnown := mir2 x.lastKnown }

/-- the mirror image of a step: vector measurements and innovations are mirrored; times, variances, gates, parameters, heights and airspeeds stay -/
def Spec.mirOp : Op → Op
  | .predict x => .predict (Spec.mirPredict x)
  | .hvel x i0 i1 g r0 r1 a => .hvel x i0 (-i1) g r0 r1 a
  | .hpos x i0 i1 g r0 r1 b a => .hpos x i0 (-i1) g r0 r1 b a
  | .drag x a => .drag (Spec.mirDrag x) a
  | .flow x a => .flow (Spec.mirFlow x) a
  | .velocityReset x a => .velocityReset (Spec.mirReset x) a
  | .positionReset x a => .positionReset (Spec.mirReset x) a
  | op => op

/-- the steps covered; a prediction with a limit on the accelerometer bias that is not negative, and a library whose rotation vector conversion
has the mirror symmetry -/
def Spec.MirrorOk : Op → Prop
  | .predict x => (∀ v, x.L.exp (mirR v) = mirQ (x.L.exp v)) ∧ 0 ≤ x.accBiasLim
  | .tilt _ _ => False
  | .mag _ _ => False
  | .declination .. => False
  | .heading _ _ => False
  | .gpsYaw _ _ => False
  | .magYaw .. => False
  | .courseYaw .. => False
  | .gsfYaw .. => False
  | .evYaw .. => False
  | .yawReset .. => False
  | _ => True

/-! ## Proof -/

local notation "μ" => Spec.mirSign

/-- the sign change on the filter -/
def mirrorW (w : W) : W := { w with f := sgF μ w.f, R := mirM w.R, accelLpf := mir2 w.accelLpf, angRateRaw := mirR w.angRateRaw }

theorem mirW_eq (w : W) : Spec.mirW w = mirrorW w := by
  have e : (fun i j : Fin 2 => if (i = 1 ↔ j = 1) then w.f.M.saved.ef i j else -w.f.M.saved.ef i j) = (sgSave μ w.f.M.saved).ef := by
    funext i j
    fin_cases i <;> fin_cases j
    · show w.f.M.saved.ef 0 0 = μ 16 * μ 16 * w.f.M.saved.ef 0 0
      rw [mir_16]; ring
    · show -w.f.M.saved.ef 0 1 = μ 16 * μ 17 * w.f.M.saved.ef 0 1
      rw [mir_16, mir_17]; ring
    · show -w.f.M.saved.ef 1 0 = μ 17 * μ 16 * w.f.M.saved.ef 1 0
      rw [mir_16, mir_17]; ring
    · show w.f.M.saved.ef 1 1 = μ 17 * μ 17 * w.f.M.saved.ef 1 1
      rw [mir_17]; ring
  unfold Spec.mirW
  rw [e]
  rfl

def mirSt (t : State ℝ) : State ℝ :=
  ⟨mirQ t.quat, mirV t.vel, mirV t.pos, mirR t.dAngBias, mirV t.dVelBias, mirV t.magI, mirV t.magB, mir2 t.wind⟩

theorem toState_mir (s : Vec ℝ) : toState (sgV μ s) = mirSt (toState s) := by
  unfold toState mirSt
  rw [mir_att]
  congr 1
  all_goals (funext i; fin_cases i <;> first | exact one_mul _ | exact neg_one_mul _)

theorem ofState_mir (t : State ℝ) : ofState (mirSt t) = sgV μ (ofState t) := by
  funext i
  fin_cases i
  · exact (one_mul (t.quat.w)).symm
  · exact (neg_one_mul (t.quat.x)).symm
  · exact (one_mul (t.quat.y)).symm
  · exact (neg_one_mul (t.quat.z)).symm
  · exact (one_mul (t.vel 0)).symm
  · exact (neg_one_mul (t.vel 1)).symm
  · exact (one_mul (t.vel 2)).symm
  · exact (one_mul (t.pos 0)).symm
  · exact (neg_one_mul (t.pos 1)).symm
  · exact (one_mul (t.pos 2)).symm
  · exact (neg_one_mul (t.dAngBias 0)).symm
  · exact (one_mul (t.dAngBias 1)).symm
  · exact (neg_one_mul (t.dAngBias 2)).symm
  · exact (one_mul (t.dVelBias 0)).symm
  · exact (neg_one_mul (t.dVelBias 1)).symm
  · exact (one_mul (t.dVelBias 2)).symm
  · exact (one_mul (t.magI 0)).symm
  · exact (neg_one_mul (t.magI 1)).symm
  · exact (one_mul (t.magI 2)).symm
  · exact (one_mul (t.magB 0)).symm
  · exact (neg_one_mul (t.magB 1)).symm
  · exact (one_mul (t.magB 2)).symm
  · exact (one_mul (t.wind 0)).symm
  · exact (neg_one_mul (t.wind 1)).symm

theorem mirQ_mul (p q : Quat ℝ) : (mirQ p).mul (mirQ q) = mirQ (p.mul q) := by
  unfold mirQ Quat.mul
  simp only [Quat.mk.injEq]
  refine ⟨?_, ?_, ?_, ?_⟩ <;> ring

theorem mirQ_normalize (q : Quat ℝ) : ImuDownSampler.normalize (mirQ q) = mirQ (ImuDownSampler.normalize q) := by
  have hn : (mirQ q).normSq = q.normSq := by unfold mirQ Quat.normSq; ring
  unfold ImuDownSampler.normalize
  rw [hn]
  simp only [mirQ, neg_div]

theorem constrain_negl (v l : ℝ) (hl : 0 ≤ l) : constrain (-v) (-l) l = -constrain v (-l) l := by
  have := constrain_sign (e := -1) (by norm_num) v l hl
  rwa [neg_one_mul, neg_one_mul] at this

theorem constrainV_mirV (v : V3 ℝ) (l : ℝ) (hl : 0 ≤ l) : constrainV (mirV v) (-l) l = mirV (constrainV v (-l) l) := by
  funext i
  fin_cases i
  · rfl
  · exact constrain_negl _ _ hl
  · rfl

theorem constrainV_mirR (v : V3 ℝ) (l : ℝ) (hl : 0 ≤ l) : constrainV (mirR v) (-l) l = mirR (constrainV v (-l) l) := by
  funext i
  fin_cases i
  · exact constrain_negl _ _ hl
  · rfl
  · exact constrain_negl _ _ hl

theorem constrainV_mir2 (v : Fin 2 → ℝ) (l : ℝ) (hl : 0 ≤ l) : constrainV (mir2 v) (-l) l = mir2 (constrainV v (-l) l) := by
  funext i
  fin_cases i
  · rfl
  · exact constrain_negl _ _ hl

theorem m_constrain (dt lim : ℝ) (hd : 0 ≤ dt) (hl : 0 ≤ lim) (t : State ℝ) : constrainStates dt lim (mirSt t) = mirSt (constrainStates dt lim t) := by
  have ha : 0 ≤ Ekf.radians 20 * dt := by unfold Ekf.radians; positivity
  have hv : 0 ≤ lim * dt := mul_nonneg hl hd
  unfold constrainStates mirSt
  dsimp only
  rw [constrainV_mirV _ _ (by norm_num), constrainV_mirV _ _ (by norm_num), constrainV_mirR _ _ ha, constrainV_mirV _ _ hv, constrainV_mirV _ _ (by norm_num),
    constrainV_mirV _ _ (by norm_num), constrainV_mir2 _ _ (by norm_num)]
  simp only [mirQ, constrain_negl _ _ (zero_le_one (α := ℝ))]

theorem mirV_sub (a b : V3 ℝ) : mirV a - mirV b = mirV (a - b) := by
  funext i; fin_cases i <;> simp [mirV] <;> ring

theorem mirV_add (a b : V3 ℝ) : mirV a + mirV b = mirV (a + b) := by
  funext i; fin_cases i <;> simp [mirV] <;> ring

theorem mirV_smul (c : ℝ) (a : V3 ℝ) : c • mirV a = mirV (c • a) := by
  funext i; fin_cases i <;> simp [mirV]

theorem mirR_sub (a b : V3 ℝ) : mirR a - mirR b = mirR (a - b) := by
  funext i; fin_cases i <;> simp [mirR] <;> ring

theorem mirR_smul (c : ℝ) (a : V3 ℝ) : c • mirR a = mirR (c • a) := by
  funext i; fin_cases i <;> simp [mirR]

def mirStrap (s : Strap) : Strap := ⟨mirSt s.state, mirM s.R, mir2 s.accelLpf, s.dtEkfAvg, mirR s.angRateRaw⟩

theorem m_strap (L : AxisAngleLib) (hL : ∀ v, L.exp (mirR v) = mirQ (L.exp v)) (lim : ℝ) (hl : 0 ≤ lim) (er : V3 ℝ) (imu : ImuSample) (s : Strap) (hd : 0 ≤ s.dtEkfAvg) :
    Strap.predict L lim (mirR er) { imu with deltaAng := mirR imu.deltaAng, deltaVel := mirV imu.deltaVel } (mirStrap s) = mirStrap (Strap.predict L lim er imu s) := by
  have h1 : mirR imu.deltaAng - mirR s.state.dAngBias - imu.deltaAngDt • ((mirM s.R)ᵀ *ᵥ mirR er) =
      mirR (imu.deltaAng - s.state.dAngBias - imu.deltaAngDt • (s.Rᵀ *ᵥ er)) := by
    rw [mirM_tr, mirM_mirR, mirR_smul, mirR_sub, mirR_sub]
  unfold Strap.predict
  dsimp only [mirStrap]
  rw [show (mirSt s.state).dAngBias = mirR s.state.dAngBias from rfl, h1, hL, show (mirSt s.state).quat = mirQ s.state.quat from rfl, mirQ_mul, mirQ_normalize,
    mirQ_dcm, show (mirSt s.state).dVelBias = mirV s.state.dVelBias from rfl, mirV_sub, mirM_mirV, show (mirSt s.state).vel = mirV s.state.vel from rfl,
    show (mirSt s.state).pos = mirV s.state.pos from rfl]
  generalize ImuDownSampler.normalize (s.state.quat.mul (L.exp (imu.deltaAng - s.state.dAngBias - imu.deltaAngDt • (s.Rᵀ *ᵥ er)))) = q
  generalize q.dcm *ᵥ (imu.deltaVel - s.state.dVelBias) = dv
  have hv : (![(mirV s.state.vel + mirV dv) 0, (mirV s.state.vel + mirV dv) 1, (mirV s.state.vel + mirV dv) 2 + oneG * imu.deltaVelDt] : V3 ℝ) =
      mirV ![(s.state.vel + dv) 0, (s.state.vel + dv) 1, (s.state.vel + dv) 2 + oneG * imu.deltaVelDt] := by
    rw [mirV_add]; rfl
  rw [hv]
  generalize (![(s.state.vel + dv) 0, (s.state.vel + dv) 1, (s.state.vel + dv) 2 + oneG * imu.deltaVelDt] : V3 ℝ) = v
  rw [mirV_add, mirV_smul, mirV_add, ← m_constrain _ _ hd hl]
  congr 1
  · funext i
    fin_cases i
    · rfl
    · show -s.accelLpf 1 * (1 - imu.deltaVelDt) + -dv 1 = -(s.accelLpf 1 * (1 - imu.deltaVelDt) + dv 1)
      ring
  · rw [mirR_smul]
    split <;> rfl

theorem m_predict (x : PredictIn) (hL : ∀ v, x.L.exp (mirR v) = mirQ (x.L.exp v)) (hl : 0 ≤ x.accBiasLim) (w : W) (hd : 0 ≤ w.dtEkfAvg) :
    predict (Spec.mirPredict x) (mirrorW w) = mirrorW (predict x w) := by
  have hs := m_strap x.L hL x.accBiasLim hl x.earthRate x.imu ⟨toState w.f.s, w.R, w.accelLpf, w.dtEkfAvg, w.angRateRaw⟩ hd
  have e0 : (⟨toState (mirrorW w).f.s, (mirrorW w).R, (mirrorW w).accelLpf, (mirrorW w).dtEkfAvg, (mirrorW w).angRateRaw⟩ : Strap) =
      mirStrap ⟨toState w.f.s, w.R, w.accelLpf, w.dtEkfAvg, w.angRateRaw⟩ := by
    show (⟨toState (sgV μ w.f.s), _, _, _, _⟩ : Strap) = _
    rw [toState_mir]; rfl
  have e1 : ∀ L lim er, (Spec.mirPredict x).L = L → (Spec.mirPredict x).accBiasLim = lim → (Spec.mirPredict x).earthRate = er →
      Strap.predict (Spec.mirPredict x).L (Spec.mirPredict x).accBiasLim (Spec.mirPredict x).earthRate (Spec.mirPredict x).imu
        ⟨toState (mirrorW w).f.s, (mirrorW w).R, (mirrorW w).accelLpf, (mirrorW w).dtEkfAvg, (mirrorW w).angRateRaw⟩ =
      mirStrap (Strap.predict x.L x.accBiasLim x.earthRate x.imu ⟨toState w.f.s, w.R, w.accelLpf, w.dtEkfAvg, w.angRateRaw⟩) := by
    intro L lim er _ _ _
    rw [e0]
    exact hs
  unfold predict
  rw [e1 _ _ _ rfl rfl rfl]
  generalize Strap.predict x.L x.accBiasLim x.earthRate x.imu ⟨toState w.f.s, w.R, w.accelLpf, w.dtEkfAvg, w.angRateRaw⟩ = p
  dsimp only
  have n1 : norm3 (mirR x.imu.deltaAng) = norm3 x.imu.deltaAng := by
    unfold norm3 mirR; congr 1; simp
  have n2 : norm3 (mirV x.imu.deltaVel) = norm3 x.imu.deltaVel := by
    unfold norm3 mirV; congr 1; simp
  set c : CovIn ℝ :=
    { inh := { x.inh with rot2 := p.R 2, clipping := x.imu.clip, dAngNorm := norm3 x.imu.deltaAng, dVelNorm := norm3 x.imu.deltaVel }
      nz := { x.nz with mag3D := w.f.M.mag3D, clipping := x.imu.clip, velD := p.state.vel 2 }
      quat := p.state.quat, dAng := x.imu.deltaAng, dVel := x.imu.deltaVel, dAngBias := p.state.dAngBias, dVelBias := p.state.dVelBias
      dtEkfAvg := p.dtEkfAvg, now := x.now, badAccBias := x.badAccBias } with hcd
  set c' : CovIn ℝ :=
    { inh := { x.inh with rot2 := mirM p.R 2, clipping := x.imu.clip, dAngNorm := norm3 (mirR x.imu.deltaAng), dVelNorm := norm3 (mirV x.imu.deltaVel) }
      nz := { x.nz with mag3D := w.f.M.mag3D, clipping := x.imu.clip, velD := p.state.vel 2 }
      quat := mirQ p.state.quat, dAng := mirR x.imu.deltaAng, dVel := mirV x.imu.deltaVel, dAngBias := mirR p.state.dAngBias, dVelBias := mirV p.state.dVelBias
      dtEkfAvg := p.dtEkfAvg, now := x.now, badAccBias := x.badAccBias } with hcd'
  have hin : c'.predIn = Mirror.predIn c.predIn := rfl
  have hp := sg_predictCovariance mir_isSign c c'
    ⟨⟨w.angFilt, w.accFilt, w.inhibit, w.f.prevVar, w.f.P⟩, w.heightRate, w.acc, w.f.timeCheck, w.f.badAccBias, w.clip⟩
    (fun P i j => by rw [hin]; exact Mirror.p_all P c.predIn i j)
    (fun s => by
      show (max (1 / filterPeriod * norm3 (mirR x.imu.deltaAng)) _, max (1 / filterPeriod * norm3 (mirV x.imu.deltaVel)) _) = _
      rw [n1, n2]; rfl)
    (fun u v a => by
      have : |mirM p.R 2 a| = |p.R 2 a| := by
        fin_cases a
        · rfl
        · exact abs_neg _
        · rfl
      unfold inhibitAxis
      show (inhibitAll c.inh u v || !(decide (|mirM p.R 2 a| > 8 / 10) || x.inh.inAir) || x.imu.clip a) = _
      rw [this])
    rfl rfl rfl rfl
  have e : (⟨⟨(mirrorW w).angFilt, (mirrorW w).accFilt, (mirrorW w).inhibit, (mirrorW w).f.prevVar, (mirrorW w).f.P⟩, (mirrorW w).heightRate, (mirrorW w).acc,
      (mirrorW w).f.timeCheck, (mirrorW w).f.badAccBias, (mirrorW w).clip⟩ : CovSt ℝ) =
      sgC μ ⟨⟨w.angFilt, w.accFilt, w.inhibit, w.f.prevVar, w.f.P⟩, w.heightRate, w.acc, w.f.timeCheck, w.f.badAccBias, w.clip⟩ := rfl
  rw [e]
  refine Eq.trans (b := ({ f := { s := ofState (mirSt p.state), M := { sgMag μ w.f.M with P := (predictCovariance c' (sgC μ ⟨⟨w.angFilt, w.accFilt, w.inhibit, w.f.prevVar, w.f.P⟩, w.heightRate, w.acc, w.f.timeCheck, w.f.badAccBias, w.clip⟩)).ist.P }, prevVar := (predictCovariance c' (sgC μ ⟨⟨w.angFilt, w.accFilt, w.inhibit, w.f.prevVar, w.f.P⟩, w.heightRate, w.acc, w.f.timeCheck, w.f.badAccBias, w.clip⟩)).ist.prevVar, timeCheck := (predictCovariance c' (sgC μ ⟨⟨w.angFilt, w.accFilt, w.inhibit, w.f.prevVar, w.f.P⟩, w.heightRate, w.acc, w.f.timeCheck, w.f.badAccBias, w.clip⟩)).timeCheck, badAccBias := (predictCovariance c' (sgC μ ⟨⟨w.angFilt, w.accFilt, w.inhibit, w.f.prevVar, w.f.P⟩, w.heightRate, w.acc, w.f.timeCheck, w.f.badAccBias, w.clip⟩)).badAccBias }, R := mirM p.R, accelLpf := mir2 p.accelLpf, dtEkfAvg := p.dtEkfAvg, angRateRaw := mirR p.angRateRaw, inhibit := (predictCovariance c' (sgC μ ⟨⟨w.angFilt, w.accFilt, w.inhibit, w.f.prevVar, w.f.P⟩, w.heightRate, w.acc, w.f.timeCheck, w.f.badAccBias, w.clip⟩)).ist.inhibit, angFilt := (predictCovariance c' (sgC μ ⟨⟨w.angFilt, w.accFilt, w.inhibit, w.f.prevVar, w.f.P⟩, w.heightRate, w.acc, w.f.timeCheck, w.f.badAccBias, w.clip⟩)).ist.angFilt, accFilt := (predictCovariance c' (sgC μ ⟨⟨w.angFilt, w.accFilt, w.inhibit, w.f.prevVar, w.f.P⟩, w.heightRate, w.acc, w.f.timeCheck, w.f.badAccBias, w.clip⟩)).ist.accFilt, heightRate := (predictCovariance c' (sgC μ ⟨⟨w.angFilt, w.accFilt, w.inhibit, w.f.prevVar, w.f.P⟩, w.heightRate, w.acc, w.f.timeCheck, w.f.badAccBias, w.clip⟩)).heightRate, acc := (predictCovariance c' (sgC μ ⟨⟨w.angFilt, w.accFilt, w.inhibit, w.f.prevVar, w.f.P⟩, w.heightRate, w.acc, w.f.timeCheck, w.f.badAccBias, w.clip⟩)).acc, clip := (predictCovariance c' (sgC μ ⟨⟨w.angFilt, w.accFilt, w.inhibit, w.f.prevVar, w.f.P⟩, w.heightRate, w.acc, w.f.timeCheck, w.f.badAccBias, w.clip⟩)).badAccClipping } : W)) rfl ?_
  rw [hp, ofState_mir]
  rfl

/-! ### resets -/

theorem m_onEst (g g' : Meas.Flt → Meas.Flt) (aux : Est ℝ) (f : Filt)
    (hg : ∀ t : State ℝ, (g' ⟨{ aux with state := mirSt t }, sgM μ f.P, true⟩).est.state = mirSt (g ⟨{ aux with state := t }, f.P, true⟩).est.state ∧
      (g' ⟨{ aux with state := mirSt t }, sgM μ f.P, true⟩).P = sgM μ (g ⟨{ aux with state := t }, f.P, true⟩).P) :
    onEst g' aux (sgF μ f) = sgF μ (onEst g aux f) := by
  obtain ⟨h1, h2⟩ := hg (toState f.s)
  unfold onEst
  dsimp only
  rw [sgF_s, sgF_P, toState_mir, h1, h2, ofState_mir]
  rfl

theorem m_setXYv (t : State ℝ) (a b a' b' : ℝ) (ha : a' = a) (hb : b' = -b) :
    ({ mirSt t with vel := setXY (mirV t.vel) ![a', b'] } : State ℝ) = mirSt { t with vel := setXY t.vel ![a, b] } := by
  subst ha hb
  rfl

theorem m_setXYp (t : State ℝ) (a b a' b' : ℝ) (ha : a' = a) (hb : b' = -b) :
    ({ mirSt t with pos := setXY (mirV t.pos) ![a', b'] } : State ℝ) = mirSt { t with pos := setXY t.pos ![a, b] } := by
  subst ha hb
  rfl

theorem m_velReset (x : Meas.RIn) (aux : Est ℝ) (f : Filt) :
    onEst (Meas.resetVelocity (Spec.mirReset x)) aux (sgF μ f) = sgF μ (onEst (Meas.resetVelocity x) aux f) := by
  refine m_onEst _ _ aux f fun t => ?_
  have hr : Meas.flowResetRange (Spec.mirReset x) (mirSt t) = Meas.flowResetRange x t := rfl
  unfold Meas.resetVelocity
  rw [show (Spec.mirReset x).gps = x.gps from rfl, show (Spec.mirReset x).gpsHealthy = x.gpsHealthy from rfl, show (Spec.mirReset x).optFlow = x.optFlow from rfl,
    show (Spec.mirReset x).evVel = x.evVel from rfl]
  split
  · exact ⟨rfl, sg_uncorrSet mir_isSign _ _ _ _⟩
  split
  · unfold Meas.velToFlow
    dsimp only
    rw [hr, show (Spec.mirReset x).clearance = x.clearance from rfl, show (Spec.mirReset x).flowVar = x.flowVar from rfl,
      show (Spec.mirReset x).R = mirM x.R from rfl, show (Spec.mirReset x).flow = mir2R x.flow from rfl, show (Spec.mirReset x).flowDt = x.flowDt from rfl]
    generalize Meas.flowResetRange x t = r
    have hb : (![-r * mir2R x.flow 1 / x.flowDt, r * mir2R x.flow 0 / x.flowDt, 0] : V3 ℝ) = mirV ![-r * x.flow 1 / x.flowDt, r * x.flow 0 / x.flowDt, 0] := by
      funext i
      fin_cases i
      · rfl
      · show r * -x.flow 0 / x.flowDt = -(r * x.flow 0 / x.flowDt); ring
      · rfl
    rw [hb, mirM_mirV]
    refine ⟨?_, sg_uncorrSet mir_isSign _ _ _ _⟩
    split
    · exact m_setXYv t _ _ _ _ rfl rfl
    · exact m_setXYv t 0 0 0 0 rfl (by ring)
  split
  · exact ⟨rfl, sg_uncorrSet mir_isSign _ _ _ _⟩
  · exact ⟨m_setXYv t 0 0 0 0 rfl (by ring), sg_uncorrSet mir_isSign _ _ _ _⟩

theorem m_posReset (x : Meas.RIn) (aux : Est ℝ) (f : Filt) :
    onEst (Meas.resetHorizontalPosition (Spec.mirReset x)) aux (sgF μ f) = sgF μ (onEst (Meas.resetHorizontalPosition x) aux f) := by
  refine m_onEst _ _ aux f fun t => ?_
  unfold Meas.resetHorizontalPosition
  rw [show (Spec.mirReset x).gps = x.gps from rfl, show (Spec.mirReset x).evPos = x.evPos from rfl, show (Spec.mirReset x).optFlow = x.optFlow from rfl,
    show (Spec.mirReset x).inAir = x.inAir from rfl]
  dsimp only
  split
  · exact ⟨rfl, sg_uncorrSet mir_isSign _ _ _ _⟩
  split
  · unfold Meas.posToVision
    rw [show (Spec.mirReset x).rotateEv = x.rotateEv from rfl, show (Spec.mirReset x).REv = mirM x.REv from rfl, show (Spec.mirReset x).evPosMeas = mirV x.evPosMeas from rfl,
      mirM_mirV]
    dsimp only
    refine ⟨?_, sg_uncorrSet mir_isSign _ _ _ _⟩
    cases x.rotateEv
    · exact m_setXYp t _ _ _ _ rfl rfl
    · exact m_setXYp t _ _ _ _ rfl rfl
  split
  · refine ⟨?_, sg_uncorrSet mir_isSign _ _ _ _⟩
    split
    · exact m_setXYp t 0 0 0 0 rfl (by ring)
    · rfl
  · exact ⟨rfl, sg_uncorrSet mir_isSign _ _ _ _⟩

theorem m_heightReset (x : Control.HIn) (h : Control.HSt) (f : Filt) : resetHeight x h (sgF μ f) = sgF μ (resetHeight x h f) := by
  have h9 : ∀ (v : ℝ) s, Function.update (sgV μ s) 9 v = sgV μ (Function.update s 9 v) := fun v s => sg_set (by rw [mir_9, one_mul]) s
  have h6 : ∀ (v : ℝ) s, Function.update (sgV μ s) 6 v = sgV μ (Function.update s 6 v) := fun v s => sg_set (by rw [mir_6, one_mul]) s
  unfold resetHeight
  dsimp only
  simp only [sgF_s, sgF_M]
  split_ifs <;> simp only [sgF, sgMag, h9, h6, sg_uncorrSet mir_isSign]

theorem yawInc_mir (q : Quat ℝ) (v : ℝ) (i j : Fin 4) : yawVarInc (mirQ q) v i j = sQ i * sQ j * yawVarInc q v i j := by
  fin_cases i <;> fin_cases j <;> simp [yawVarInc, mirQ, sQ, sq] <;> first | done | ring1 | (left; ring1)

theorem m_yawVar (q : Quat ℝ) (v : ℝ) (P : Mat ℝ) : increaseQuatYawErrVariance (mirQ q) v (sgM μ P) = sgM μ (increaseQuatYawErrVariance q v P) := by
  funext i j
  unfold increaseQuatYawErrVariance
  show _ = μ i * μ j * _
  beta_reduce
  by_cases c : i.val < 4 ∧ j.val < 4
  · rw [dif_pos c, dif_pos c, yawInc_mir]
    unfold sgM
    rw [mir_q i c.1, mir_q j c.2]; ring
  · rw [dif_neg c, dif_neg c]; rfl

theorem m_setS3 (k : ℕ) (s : Vec ℝ) : setS3 k (fun _ => 0) (sgV μ s) = sgV μ (setS3 k (fun _ => 0) s) :=
  sg_setS3 k (fun _ => 0) (fun _ => 0) (fun i c => by rw [mul_zero]) s

/-- one step -/
theorem m_step (w : W) (op : Op) (ho : Spec.MirrorOk op) (hd : 0 ≤ w.dtEkfAvg) : step (mirrorW w) (Spec.mirOp op) = mirrorW (step w op) := by
  have F : ∀ {f f' : Filt}, f' = sgF μ f → ({ mirrorW w with f := f' } : W) = mirrorW { w with f := f } := by
    rintro f f' rfl
    rfl
  cases op with
  | reset =>
    have e : (fun i : Fin N => if i = 0 then (1 : ℝ) else 0) = sgV μ (fun i => if i = 0 then 1 else 0) := by
      funext i
      unfold sgV
      beta_reduce
      by_cases c : i = 0
      · subst c; rw [if_pos rfl, mir_0, one_mul]
      · rw [if_neg c, mul_zero]
    have e2 : (0 : V3 ℝ) = mirR 0 := by funext i; fin_cases i <;> simp [mirR]
    show reset (mirrorW w) = mirrorW (reset w)
    unfold reset mirrorW sgF
    rw [← e, ← e2]
    rfl
  | initCov x => exact F (m_initCov x w.f)
  | predict x => exact m_predict x ho.1 ho.2 w hd
  | hvel x i0 i1 g r0 r1 a =>
    have := sg_hvel mir_isSign x i0 i1 g r0 r1 { a with f := w.f }
    rw [mir_4, mir_5, one_mul, neg_one_mul] at this
    exact F this
  | vvel x i g r a => exact F (sg_vvel mir_isSign mir_6 x i g r { a with f := w.f })
  | hpos x i0 i1 g r0 r1 b a =>
    have := sg_hpos mir_isSign x i0 i1 g r0 r1 b { a with f := w.f }
    rw [mir_7, mir_8, one_mul, neg_one_mul] at this
    exact F this
  | vpos x i g r a => exact F (sg_vpos mir_isSign mir_9 x i g r { a with f := w.f })
  | airspeed x a => exact F (m_airspeed x { a with f := w.f })
  | sideslip x a => exact F (m_sideslip x { a with f := w.f })
  | drag x a => exact F (m_drag x { a with f := w.f })
  | flow x a => exact F (m_flow x { a with f := w.f })
  | wind x => exact F (m_resetWind x w.f)
  | velocityReset x a => exact F (m_velReset x a w.f)
  | positionReset x a => exact F (m_posReset x a w.f)
  | heightReset x s => exact F (m_heightReset x s w.f)
  | yawVariance v =>
    refine F ?_
    rw [show (mirrorW w).f = sgF μ w.f from rfl, sgF_s, sgF_MP, mir_att, m_yawVar]
    rfl
  | resetMagCov n => exact F (congrArg (fun m => ({ sgF μ w.f with M := m } : Filt)) (sg_resetMagCov mir_isSign n w.f.M))
  | clearMagCov => exact F (congrArg (fun m => ({ sgF μ w.f with M := m } : Filt)) (sg_clearMagCov mir_isSign w.f.M))
  | startMag3D => exact F (congrArg (fun m => ({ sgF μ w.f with M := m } : Filt)) (sg_startMag3D mir_isSign w.f.M))
  | startMagHdg => exact F (congrArg (fun m => ({ sgF μ w.f with M := m } : Filt)) (sg_startMagHdg mir_isSign w.f.M))
  | stopMag3D => exact F (congrArg (fun m => ({ sgF μ w.f with M := m } : Filt)) (sg_stopMag3D mir_isSign w.f.M))
  | stopMagHdg => exact F (congrArg (fun m => ({ sgF μ w.f with M := m } : Filt)) (sg_stopMagHdg w.f.M))
  | gyroBias sw =>
    refine F ?_
    rw [show (mirrorW w).f = sgF μ w.f from rfl, sgF_s, sgF_P]
    have h2 : (resetGyroBias sw (sgM μ w.f.P)).2 = sgM μ (resetGyroBias sw w.f.P).2 := sg_uncorrSet mir_isSign _ _ _ _
    rw [h2, show (resetGyroBias sw (sgM μ w.f.P)).1 = fun _ => 0 from rfl, m_setS3 10]
    rfl
  | accelBias sw =>
    refine F ?_
    rw [show (mirrorW w).f = sgF μ w.f from rfl, sgF_s, sgF_P]
    have h2 : (resetAccelBias sw (sgM μ w.f.P)).2.1 = sgM μ (resetAccelBias sw w.f.P).2.1 := sg_uncorrSet mir_isSign _ _ _ _
    have h3 : (resetAccelBias sw (sgM μ w.f.P)).2.2 = (resetAccelBias sw w.f.P).2.2 := by
      funext i
      show (resetAccelBias sw (sgM μ w.f.P)).2.1 _ _ = (resetAccelBias sw w.f.P).2.1 _ _
      rw [h2, sgM_diag mir_isSign]
    rw [h2, h3, show (resetAccelBias sw (sgM μ w.f.P)).1 = fun _ => 0 from rfl, m_setS3 13]
    rfl
  | magBias n =>
    refine F ?_
    rw [show (mirrorW w).f = sgF μ w.f from rfl, sgF_s, sgF_M]
    have h2 : (resetMagBias n (sgMag μ w.f.M)).2 = sgMag μ (resetMagBias n w.f.M).2 := by
      unfold resetMagBias
      dsimp only [sgMag]
      rw [sg_uncorrSet mir_isSign]
      rfl
    rw [h2, show (resetMagBias n (sgMag μ w.f.M)).1 = fun _ => 0 from rfl, m_setS3 19]
    rfl
  | yawGyroVariance sw =>
    refine F ?_
    rw [show (mirrorW w).f = sgF μ w.f from rfl, sgF_MP, sg_uncorrSet mir_isSign]
    rfl
  | _ => exact ho.elim

theorem step_dt (w : W) (op : Op) (hd : 0 ≤ w.dtEkfAvg) : 0 ≤ (step w op).dtEkfAvg := by
  cases op with
  | reset => show (0 : ℝ) ≤ filterPeriod; unfold filterPeriod; norm_num
  | predict x =>
    show 0 ≤ (Strap.predict x.L x.accBiasLim x.earthRate x.imu ⟨toState w.f.s, w.R, w.accelLpf, w.dtEkfAvg, w.angRateRaw⟩).dtEkfAvg
    show 0 ≤ Interface.ekfAvgStep w.dtEkfAvg x.imu.deltaVelDt x.imu.deltaAngDt
    unfold Interface.ekfAvgStep
    dsimp only
    have : 0 ≤ constrain (1 / 2 * (x.imu.deltaVelDt + x.imu.deltaAngDt)) (1 / 2 * (1 / 100)) (2 * (1 / 100)) := by
      unfold constrain
      split_ifs <;> linarith
    linarith
  | tilt a g =>
    show 0 ≤ (match initialiseTilt a g with
      | some q => ({ w with f := { w.f with s := ofState { toState w.f.s with quat := q } }, R := q.dcm } : W)
      | none => w).dtEkfAvg
    split <;> exact hd
  | _ => exact hd

/-! ## Theorems -/

/-- **C164.** The mirrored flight gives the mirrored estimate: for every filter and every history of the steps covered, running the mirror image of the
history from the mirror image of the filter ends in the mirror image of the filter, with every state, covariance and stored value. -/
theorem mirror_run (l : List Op) : ∀ (w : W), 0 ≤ w.dtEkfAvg → (∀ op ∈ l, Spec.MirrorOk op) →
    run (Spec.mirW w) (l.map Spec.mirOp) = Spec.mirW (run w l) := by
  induction l with
  | nil => exact fun _ _ _ => rfl
  | cons op l ih =>
    intro w hd hl
    show run (step (Spec.mirW w) (Spec.mirOp op)) (l.map Spec.mirOp) = Spec.mirW (run (step w op) l)
    rw [← ih (step w op) (step_dt w op hd) fun o ho => hl o (List.mem_cons_of_mem _ ho)]
    congr 1
    rw [mirW_eq, mirW_eq, m_step w op (hl op List.mem_cons_self) hd]

/-- the states that change sign in a mirror: roll and yaw part of the attitude, east velocity and position, roll and yaw gyro bias, right accelerometer
bias, east and right magnetic field, east wind -/
def Spec.Odd (i : Fin N) : Prop := Spec.mirSign i = -1

theorem fixed_even {w : W} (h : Spec.mirW w = w) (i : Fin N) (hi : Spec.Odd i) : w.f.s i = 0 := by
  have e := congrFun (congrArg (fun w : W => w.f.s) h) i
  have : Spec.mirSign i * w.f.s i = w.f.s i := e
  rw [hi] at this
  linarith

/-- **C164 (flight in a plane).** A filter that is its own mirror image, given only data that are their own mirror image, never produces an east velocity,
an east position, a roll or heading component, an east wind or a bias on the mirrored axes, and never correlates these with the states in the plane. -/
theorem planar_flight_stays_planar (w : W) (hd : 0 ≤ w.dtEkfAvg) (hw : Spec.mirW w = w) (l : List Op) (hl : ∀ op ∈ l, Spec.MirrorOk op ∧ Spec.mirOp op = op) :
    (∀ i, Spec.Odd i → (run w l).f.s i = 0) ∧ (∀ i j, Spec.Odd i → ¬ Spec.Odd j → (run w l).f.M.P i j = 0 ∧ (run w l).f.M.P j i = 0) := by
  have hm : l.map Spec.mirOp = l := by
    conv_rhs => rw [← List.map_id l]
    exact List.map_congr_left fun op ho => (hl op ho).2
  have h := mirror_run l w hd fun op ho => (hl op ho).1
  rw [hw, hm] at h
  have h' : Spec.mirW (run w l) = run w l := h.symm
  refine ⟨fun i hi => fixed_even h' i hi, fun i j hi hj => ?_⟩
  have hj1 : Spec.mirSign j = 1 := (mul_self_eq_one_iff.mp (mir_isSign j)).resolve_right hj
  have e : ∀ a b, Spec.mirSign a * Spec.mirSign b * (run w l).f.M.P a b = (run w l).f.M.P a b :=
    fun a b => congrFun (congrFun (congrArg (fun w : W => w.f.M.P) h') a) b
  have e1 := e i j
  have e2 := e j i
  rw [hi, hj1] at e1 e2
  exact ⟨by linarith, by linarith⟩

/-! ### Non-vacuity -/

/-- the rotation vector conversion of the library used by the code has the mirror symmetry -/
theorem matrixLib_mirror (v : V3 ℝ) : ImuDownSampler.matrixLib.exp (mirR v) = mirQ (ImuDownSampler.matrixLib.exp v) := by
  show ImuDownSampler.axisAngleExp (mirR v) = mirQ (ImuDownSampler.axisAngleExp v)
  have hn : mirR v 0 ^ 2 + mirR v 1 ^ 2 + mirR v 2 ^ 2 = v 0 ^ 2 + v 1 ^ 2 + v 2 ^ 2 := by
    show (-v 0) ^ 2 + v 1 ^ 2 + (-v 2) ^ 2 = _
    ring
  unfold ImuDownSampler.axisAngleExp
  dsimp only
  rw [hn]
  generalize Real.sqrt (v 0 ^ 2 + v 1 ^ 2 + v 2 ^ 2) = n
  split
  · show Quat.one = mirQ Quat.one
    simp [mirQ, Quat.one]
  · show (⟨_, -v 0 / n * _, v 1 / n * _, -v 2 / n * _⟩ : Quat ℝ) = ⟨_, -(v 0 / n * _), v 1 / n * _, -(v 2 / n * _)⟩
    simp only [neg_div, neg_mul]

/-- the estimator after construction is its own mirror image -/
theorem mirW_powerOn : Spec.mirW powerOn = powerOn := by
  have e1 : (fun i : Fin N => Spec.mirSign i * powerOn.f.s i) = powerOn.f.s := by
    funext i
    show Spec.mirSign i * (if i = 0 then (1 : ℝ) else 0) = if i = 0 then 1 else 0
    by_cases c : i = 0
    · subst c; rw [if_pos rfl, mir_0, one_mul]
    · rw [if_neg c, mul_zero]
  have e2 : (fun i j : Fin N => Spec.mirSign i * Spec.mirSign j * powerOn.f.M.P i j) = powerOn.f.M.P := by
    funext i j
    exact mul_zero _
  have e3 : (fun i j : Fin 2 => if (i = 1 ↔ j = 1) then powerOn.f.M.saved.ef i j else -powerOn.f.M.saved.ef i j) = powerOn.f.M.saved.ef := by
    funext i j
    show (if (i = 1 ↔ j = 1) then (0 : ℝ) else -0) = 0
    split <;> simp
  have e4 : mirM powerOn.R = powerOn.R := by
    show mirM (1 : M3 ℝ) = 1
    funext i j
    fin_cases i <;> fin_cases j <;> simp [mirM]
  have e5 : mir2 powerOn.accelLpf = powerOn.accelLpf := by
    show mir2 0 = 0
    funext i
    fin_cases i <;> simp [mir2]
  have e6 : mirR powerOn.angRateRaw = powerOn.angRateRaw := by
    show mirR 0 = 0
    funext i
    fin_cases i <;> simp [mirR]
  unfold Spec.mirW
  rw [e1, e2, e3, e4, e5, e6]

/-- a flight in the plane: initialised, predicted with a pitch rate and a forward acceleration, north velocity and height fused -/
example (c : InitIn) (x : PredictIn) (v : VPIn) (a : VPSt) (hL : x.L = ImuDownSampler.matrixLib) (hl : x.accBiasLim = 4 / 10) (hg : x.imu.deltaAng = ![0, 1 / 100, 0])
    (hv : x.imu.deltaVel = ![1 / 100, 0, -1 / 10]) (he : x.earthRate = 0) :
    ∀ op ∈ [Op.reset, .initCov c, .predict x, .hvel v (1 / 2) 0 5 1 1 a, .vpos v 1 5 1 a], Spec.MirrorOk op ∧ Spec.mirOp op = op := by
  have hp : Spec.mirPredict x = x := by
    have h1 : mirR x.imu.deltaAng = x.imu.deltaAng := by rw [hg]; funext i; fin_cases i <;> simp [mirR]
    have h2 : mirV x.imu.deltaVel = x.imu.deltaVel := by rw [hv]; funext i; fin_cases i <;> simp [mirV]
    have h3 : mirR x.earthRate = x.earthRate := by rw [he]; funext i; fin_cases i <;> simp [mirR]
    unfold Spec.mirPredict
    rw [h1, h2, h3]
  intro op ho
  simp only [List.mem_cons, List.not_mem_nil, or_false] at ho
  rcases ho with rfl | rfl | rfl | rfl | rfl
  · exact ⟨trivial, rfl⟩
  · exact ⟨trivial, rfl⟩
  · refine ⟨⟨fun v => ?_, ?_⟩, ?_⟩
    · rw [hL]; exact matrixLib_mirror v
    · rw [hl]; norm_num
    · show Op.predict (Spec.mirPredict x) = _
      rw [hp]
  · refine ⟨trivial, ?_⟩
    show Op.hvel v (1 / 2) (-0) 5 1 1 a = _
    rw [neg_zero]
  · exact ⟨trivial, rfl⟩

/-- a flight that is not: an east innovation changes sign -/
example (v : VPIn) (a : VPSt) : Spec.mirOp (.hvel v 1 2 5 1 1 a) = .hvel v 1 (-2) 5 1 1 a := rfl

/-- why the magnetometer is left out: an earth field estimate pointing exactly south is its own mirror image, but limiting its declination turns it to
the east, not half to each side -/
theorem south_field_not_mirrored (x : DeclIn) (h0 : declRefMin x = (0, 1 / 1000)) (s : Vec ℝ) (h16 : s 16 = -1) (h17 : s 17 = 0) :
    Spec.mirSign 16 * s 16 = s 16 ∧ Spec.mirSign 17 * s 17 = s 17 ∧ limitDeclination x s 17 = Real.sin (1 / 2) ∧ limitDeclination x (fun i => Spec.mirSign i * s i) 17 = Real.sin (1 / 2) := by
  have key : ∀ t : Vec ℝ, t 16 = -1 → t 17 = 0 → limitDeclination x t 17 = Real.sin (1 / 2) := by
    intro t h16 h17
    have hh : Real.sqrt (t 16 * t 16 + t 17 * t 17) = 1 := by rw [h16, h17]; norm_num
    have ha : atan2 (t 17) (t 16) = Real.pi := by
      rw [h16, h17]
      unfold atan2
      rw [show (⟨-1, 0⟩ : ℂ) = -1 from by apply Complex.ext <;> simp]
      exact Complex.arg_neg_one
    unfold limitDeclination
    dsimp only
    rw [h0, hh]
    dsimp only
    rw [if_neg (show ¬ ((1 : ℝ) < 1 / 1000) by norm_num)]
    dsimp only
    rw [ha, if_pos (by linarith [Real.pi_gt_three])]
    unfold setMagNE
    rw [if_neg (by decide), if_pos (by decide), zero_add, one_mul]
  have e16 : sgV μ s 16 = s 16 := by unfold sgV; rw [mir_16, one_mul]
  have e17 : sgV μ s 17 = s 17 := by unfold sgV; rw [h17, mul_zero]
  exact ⟨e16, e17, key s h16 h17, key _ (e16.trans h16) (e17.trans h17)⟩

end

end Ecl.Whole
