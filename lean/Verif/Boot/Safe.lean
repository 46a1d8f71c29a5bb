import Verif.Boot.Average

/-!
# No undefined behaviour at start-up, and a concrete start-up
-/

namespace Ecl.Boot

open Ecl.Ekf Ecl.Cov Ecl.ImuDownSampler Ecl.AlphaFilter
open scoped Matrix

/-- the output buffer can be read -/
def Spec.readable (e : Est ℝ) : Prop := (∃ o, e.outBuf.getOldest = .ok o) ∧ ∃ n, e.outBuf.getNewest = .ok n

theorem heading_outBuf (L : Yaw.Lib) (x : Yaw.In) (m : V3 ℝ) (iv : Bool) (s : Yaw.St) : (Yaw.resetMagHeading L x m iv false s).1.est.outBuf = s.est.outBuf := by
  unfold Yaw.resetMagHeading
  simp only
  by_cases h1 : x.tDel = s.tAlign
  · rw [if_pos h1]
  rw [if_neg h1]
  by_cases h2 : x.magType ≥ 5
  · rw [if_pos h2]
  rw [if_neg h2]
  cases h3 : s.evYaw
  · simp only [Bool.false_eq_true, if_false]
    by_cases h4 : x.magType ≤ 2
    · rw [if_pos h4]; rfl
    rw [if_neg h4]
    by_cases h5 : x.magType = 4 ∧ s.inhibited = true
    · rw [if_pos h5]
    · rw [if_neg h5]
  · simp only [if_true]; rfl

theorem align_readable (nrm : Quat ℝ → Quat ℝ) (e : Est ℝ) (h : Spec.readable e) : ∃ e', e.alignOutputFilter nrm = .ok e' ∧ Spec.readable e' := by
  obtain ⟨⟨o, ho⟩, ⟨n, hn⟩⟩ := h
  unfold Est.alignOutputFilter
  rw [ho]
  simp only
  rw [mapAll_getNewest _ _ hn]
  refine ⟨_, rfl, ⟨_, mapAll_getOldest _ _ ho⟩, ⟨_, mapAll_getNewest _ _ hn⟩⟩

theorem setUp_total (c : Cfg) (q : Quat ℝ) (b : Core) (f : Flt) (h : Spec.readable f.y.est) : ∃ f', setUp c q b f = .ok f' ∧ Spec.readable f'.y.est := by
  unfold setUp
  simp only
  have h1 := heading_outBuf c.lib { c.yaw with tDel := b.tDel, magType := c.magType } f.magLpf.state false
    { f.y with est := { f.y.est with state := { f.y.est.state with quat := q } }, R := q.dcm }
  generalize Yaw.resetMagHeading c.lib _ _ false false _ = r at h1
  have h2 : Spec.readable r.1.est := by
    unfold Spec.readable at h ⊢
    rw [h1]; exact h
  obtain ⟨e', he, hr⟩ := align_readable c.lib.normalize r.1.est h2
  rw [he]
  exact ⟨_, rfl, hr⟩

theorem init_total (c : Cfg) (m : Option (UInt64 × V3 ℝ)) (h : Option (UInt64 × ℝ)) (s : St) (hr : Spec.readable s.flt.y.est) :
    ∃ s' ok, initialiseFilter c m h s = .ok (s', ok) ∧ Spec.readable s'.flt.y.est := by
  obtain ⟨k1, k2, -⟩ := taken_keeps m h s
  unfold initialiseFilter
  by_cases h1 : s.core.newest.deltaVelDt < 1 / 10000 ∨ s.core.newest.deltaAngDt < 1 / 10000
  · rw [if_pos h1]; exact ⟨_, _, rfl, hr⟩
  rw [if_neg h1]
  simp only
  change ∃ s' ok, (if c.magType ≤ 2 ∧ (taken m h s).core.magCount.toNat < c.obsLen then (.ok (taken m h s, false) : Except RingBuffer.UB (St × Bool))
    else if (taken m h s).core.baroCount.toNat < c.obsLen then .ok (taken m h s, false)
    else match initialiseTilt (taken m h s).core.accel.state (taken m h s).core.gyro.state with
      | none => .ok ({ (taken m h s) with flt := { (taken m h s).flt with hgt := ⟨true, false, false, false⟩ } }, false)
      | some q => match setUp c q (taken m h s).core { (taken m h s).flt with hgt := ⟨true, false, false, false⟩ } with
        | .error u => .error u
        | .ok f => .ok ({ core := (taken m h s).core, flt := f }, true)) = _ ∧ _
  have hr' : Spec.readable (taken m h s).flt.y.est := by rw [k1]; exact hr
  generalize taken m h s = u at hr'
  by_cases h2 : c.magType ≤ 2 ∧ u.core.magCount.toNat < c.obsLen
  · rw [if_pos h2]; exact ⟨_, _, rfl, hr'⟩
  rw [if_neg h2]
  by_cases h3 : u.core.baroCount.toNat < c.obsLen
  · rw [if_pos h3]; exact ⟨_, _, rfl, hr'⟩
  rw [if_neg h3]
  cases hq : initialiseTilt u.core.accel.state u.core.gyro.state with
  | none => exact ⟨_, _, rfl, hr'⟩
  | some q =>
    obtain ⟨f', e1, e2⟩ := setUp_total c q u.core { u.flt with hgt := ⟨true, false, false, false⟩ } hr'
    simp only
    rw [e1]
    exact ⟨_, _, rfl, e2⟩

/-- **C132 (safety).** In every order of calls the start-up code performs no undefined operation, provided the running filter keeps the output buffer readable (it is
allocated by the constructor and by the first IMU sample). -/
theorem startup_safe (c : Cfg) (r : Rest) (hrun : ∀ b f, Spec.readable f.y.est → Spec.readable (r.run b f).y.est)
    (hout : ∀ b f, Spec.readable f.y.est → Spec.readable (r.out b f).y.est) (l : List Ev)
    (hother : ∀ g, Ev.other g ∈ l → ∀ f, Spec.readable f.y.est → Spec.readable (g f).y.est) (s : St) (hr : Spec.readable s.flt.y.est) :
    ∃ s', runAll c r s l = .ok s' ∧ Spec.readable s'.flt.y.est := by
  have hrf : ∀ t : St, Spec.readable t.flt.y.est → Spec.readable (runFilter r t).1.flt.y.est := by
    intro t ht
    unfold runFilter
    simp only
    refine hout _ _ ?_
    split
    · exact hrun _ _ ht
    · exact ht
  induction l generalizing s with
  | nil => exact ⟨s, rfl, hr⟩
  | cons e l ih =>
    have hother' : ∀ g, Ev.other g ∈ l → ∀ f, Spec.readable f.y.est → Spec.readable (g f).y.est := fun g hg => hother g (List.mem_cons_of_mem _ hg)
    unfold runAll
    cases e with
    | imu now ds =>
      simp only [step]
      refine ih hother' _ ?_
      unfold setImu; cases ds <;> exact hr
    | reset => simp only [step]; exact ih hother' _ hr
    | other g => simp only [step]; exact ih hother' _ (hother g List.mem_cons_self _ hr)
    | update m h =>
      simp only [step]
      have : ∃ s1 b, update c r m h s = .ok (s1, b) ∧ Spec.readable s1.flt.y.est := by
        unfold update
        cases hi : s.core.init
        · simp only [Bool.not_false, if_true]
          obtain ⟨s1, ok, e1, e2⟩ := init_total c m h s hr
          rw [e1]
          simp only
          cases ok
          · exact ⟨_, _, rfl, e2⟩
          · exact ⟨_, _, rfl, hrf _ e2⟩
        · simp only [Bool.not_true, Bool.false_eq_true, if_false]
          exact ⟨_, _, rfl, hrf _ hr⟩
      obtain ⟨s1, b, e1, e2⟩ := this
      rw [e1]
      exact ih hother' s1 e2

/-! ## A concrete start-up -/

noncomputable section

/-- level vehicle, 10 ms of IMU data at exactly 10 m/s² -/
def exImu : ImuSample := ⟨10000, 0, ![0, 0, -(1 / 10)], 1 / 100, 1 / 100, fun _ => false⟩

def exCov : InitIn := ⟨⟨1, 0, 0, 0⟩, 1 / 10, 1 / 2, 1 / 2, 10, 1 / 10, 2, 3, false, true, 1 / 10, 1 / 5, 1 / 20, 1⟩

def exTer : Terrain.In where
  now := 0
  inAir := false
  s := 0
  p99 := 0
  dt := 1 / 100
  flow := ⟨1 / 10, 0, 0, 0, 1 / 100, 255, 0, 0, 1, 0, 3, 1 / 10, 1 / 2, 1, 0, ⟨fun _ => false, false, false, 1 / 100, 0, false⟩, exCov⟩
  rngNoise := 0
  rngNoiseScaler := 0
  rngGate := 1
  vehVarScaler := 0
  pNoise := 0
  gradient := 0
  useRange := true
  useFlow := false
  rngHealthy := false
  distBottom := 0
  range := 0

def exCfg : Cfg := ⟨Yaw.exLib, 2, 0, Yaw.exIn ⟨1, 0, 0, 0⟩, exCov, exTer⟩

def exTerSt : Terrain.St := ⟨0, 0, 0, 0, 0, false, false, false, false, false, 0, 0, 0, 0, 0, false, 0⟩

def exFlt : Flt where
  y := Yaw.exSt ⟨1, 0, 0, 0⟩ 0 false false false
  hgt := ⟨false, false, false, false⟩
  ter := exTerSt
  magLpf := ⟨1 / 10, 0⟩
  baroOff := 0
  prevDvelVar := 0
  tHgt := 0
  tHorPos := 0
  tDelPos := 0
  tHorVel := 0
  tOf := 0

def exRest : Rest := ⟨fun _ f => f, fun _ f => f⟩

/-- two samples of each sensor, in two calls -/
def exHistory : List Ev := [.update (some (5, ![1 / 5, 0, 2 / 5])) (some (6, 100)), .imu 20000 none, .update (some (15, ![1 / 5, 0, 2 / 5])) (some (16, 102))]

theorem exStill : Spec.still ![0, 0, -10] 0 := by
  have h1 : norm3 ![0, 0, -10] = 10 := by
    unfold norm3
    rw [show ((![0, 0, -10] : V3 ℝ) 0 * (![0, 0, -10] : V3 ℝ) 0 + (![0, 0, -10] : V3 ℝ) 1 * (![0, 0, -10] : V3 ℝ) 1 +
      (![0, 0, -10] : V3 ℝ) 2 * (![0, 0, -10] : V3 ℝ) 2) = 10 ^ 2 by simp; norm_num]
    exact Real.sqrt_sq (by norm_num)
  refine ⟨by rw [h1]; norm_num, by rw [h1]; norm_num, ?_⟩
  have := Real.pi_pos
  have h0 : norm3 (0 : V3 ℝ) = 0 := by unfold norm3; simp
  rw [h0]; positivity

theorem exImu_rest : Spec.imuOk exImu ∧ (∀ k, exImu.deltaVel k = (![0, 0, -10] : V3 ℝ) k * exImu.deltaVelDt) ∧ ∀ k, exImu.deltaAng k = (0 : V3 ℝ) k * exImu.deltaAngDt := by
  refine ⟨⟨by norm_num [exImu], by norm_num [exImu]⟩, fun k => ?_, fun k => by simp [exImu]⟩
  fin_cases k <;> norm_num [exImu]

theorem exReadable : Spec.readable exFlt.y.est := ⟨⟨_, rfl⟩, ⟨_, rfl⟩⟩

/-- The start-up of the example: it runs, and the filter is initialised with exactly two samples of each sensor. -/
theorem exStarts : ∃ s, runAll exCfg exRest ⟨Core.powerOn, exFlt⟩ (.imu 10000 (some (exImu, 7)) :: exHistory) = .ok s ∧ s.core.init = true := by
  obtain ⟨s, e, -⟩ := startup_safe exCfg exRest (fun _ _ h => h) (fun _ _ h => h) (.imu 10000 (some (exImu, 7)) :: exHistory)
    (by intro g hg; simp [exHistory] at hg) ⟨Core.powerOn, exFlt⟩ exReadable
  refine ⟨s, e, initialised_at_rest exCfg exRest exFlt ![0, 0, -10] 0 exStill (by decide) exImu 7 10000 exHistory ?_ (by decide) s e (by decide) (fun _ => by decide)⟩
  intro x hx
  simp only [exHistory, List.mem_cons, List.not_mem_nil, or_false] at hx
  rcases hx with rfl | rfl | rfl | rfl
  · exact exImu_rest
  · trivial
  · trivial
  · trivial

/-- one sample of each is not enough -/
example : ∃ s, runAll exCfg exRest ⟨Core.powerOn, exFlt⟩ (.imu 10000 (some (exImu, 7)) :: exHistory.take 2) = .ok s ∧ s.core.init = false := by
  obtain ⟨s, e, -⟩ := startup_safe exCfg exRest (fun _ _ h => h) (fun _ _ h => h) (.imu 10000 (some (exImu, 7)) :: exHistory.take 2)
    (by intro g hg; simp [exHistory] at hg) ⟨Core.powerOn, exFlt⟩ exReadable
  refine ⟨s, e, ?_⟩
  by_contra hc
  rw [Bool.not_eq_false] at hc
  have := (initialised_has_data exCfg exRest exFlt _ s e hc).1
  exact absurd this (by decide)

/-- the history before the initialising call of the example meets the hypotheses of the averages -/
example : (∀ x ∈ exHistory.reverse, Spec.plain x) ∧ Spec.imuOk exImu ∧ Spec.heights exHistory.reverse = [102, 100] ∧
    Spec.average (Spec.heights exHistory.reverse) = 100.2 := by
  refine ⟨?_, exImu_rest.1, rfl, ?_⟩
  · intro x hx
    simp only [exHistory, List.reverse_cons, List.reverse_nil, List.nil_append, List.cons_append, List.mem_cons, List.not_mem_nil, or_false] at hx
    rcases hx with rfl | rfl | rfl <;> trivial
  · show (9 / 10 : ℝ) • (100 : ℝ) + (1 / 10 : ℝ) • (102 : ℝ) = 100.2
    norm_num

/-- the IMU averages of the example: both calls see the one sample of the buffer -/
example : Spec.newestImu exImu exHistory.dropLast.reverse :: Spec.seen exImu exHistory.dropLast.reverse = [exImu, exImu] ∧
    Spec.average ([exImu, exImu].map fun x k => x.deltaVel k / x.deltaVelDt) 2 = -10 := by
  refine ⟨rfl, ?_⟩
  show (9 / 10 : ℝ) * (exImu.deltaVel 2 / exImu.deltaVelDt) + (1 / 10 : ℝ) * (exImu.deltaVel 2 / exImu.deltaVelDt) = -10
  rw [exImu_rest.2.1]
  have : (![0, 0, -10] : V3 ℝ) 2 = -10 := rfl
  rw [this]
  norm_num [exImu]

theorem exReady (m : Option (UInt64 × V3 ℝ)) (h : Option (UInt64 × ℝ)) (s : St) (h1 : s.core.newest = exImu) (h2 : s.core.first = false)
    (h3 : s.core.accel = ⟨1 / 10, ![0, 0, -10]⟩) (h4 : s.core.gyro = ⟨1 / 10, 0⟩) (h5 : 2 ≤ (s.core.take m h).magCount.toNat) (h6 : 2 ≤ (s.core.take m h).baroCount.toNat)
    (h7 : Spec.readable s.flt.y.est) : ∃ s', initialiseFilter exCfg m h s = .ok (s', true) := by
  obtain ⟨s', ok, e, -⟩ := init_total exCfg m h s h7
  have hr := ((init_core _ _ _ s s' ok e).2 (by rw [h1]; exact exImu_rest.1)).2
  have hok : ok = true := by
    rw [hr]
    have hsm := rest_sample exImu_rest
    refine ⟨fun _ => h5, h6, ?_⟩
    unfold Core.take Core.filterImu
    rw [h1, h2, h3, h4]
    simp only [Bool.false_eq_true, if_false, Filter.update, hsm.1, hsm.2]
    have g1 : (1 - 1 / 10 : ℝ) • (![0, 0, -10] : V3 ℝ) + (1 / 10 : ℝ) • (![0, 0, -10] : V3 ℝ) = ![0, 0, -10] := by
      rw [← add_smul]; norm_num
    have g2 : (1 - 1 / 10 : ℝ) • (0 : V3 ℝ) + (1 / 10 : ℝ) • (0 : V3 ℝ) = 0 := by simp
    rw [g1, g2]
    exact exStill
  subst hok
  exact ⟨s', e⟩

/-- hypotheses of the initial state: an initialising attempt from a filter that has seen one sample of each, with stored outputs of unit attitude -/
theorem exAttempt : ∃ s s', s.core.init = false ∧ initialiseFilter exCfg (some (15, ![1 / 5, 0, 2 / 5])) (some (16, 102)) s = .ok (s', true) ∧ exCfg.magType ≤ 2 ∧
    s.flt.y.evYaw = false ∧ s.core.tDel ≠ s.flt.y.tAlign ∧ Spec.OutputsOk s.flt.y.est := by
  set s : St := ⟨{ Core.powerOn with first := false, accel := ⟨1 / 10, ![0, 0, -10]⟩, magCount := 1, baroCount := 1, newest := exImu, tDel := 7 }, exFlt⟩ with hs
  obtain ⟨s', e⟩ := exReady (some (15, ![1 / 5, 0, 2 / 5])) (some (16, 102)) s rfl rfl rfl rfl (by decide) (by decide) exReadable
  refine ⟨s, s', rfl, e, by decide, rfl, by decide, ⟨⟨_, rfl, ?_⟩, ⟨_, rfl, ?_⟩, ?_⟩⟩
  · norm_num [Quat.normSq]
  · norm_num [Quat.normSq]
  · intro x hx
    have : x = ⟨10, ⟨⟨1, 0, 0, 0⟩, 0, 0⟩⟩ := by
      have hl : s.flt.y.est.outBuf.live = [⟨10, ⟨⟨1, 0, 0, 0⟩, 0, 0⟩⟩] := by
        show RingBuffer.RB.live (⟨some [⟨10, ⟨⟨1, 0, 0, 0⟩, 0, 0⟩⟩], 0, 0, 1, false⟩ : RingBuffer.RB (OutData ℝ)) = _
        simp [RingBuffer.RB.live, RingBuffer.RB.count]
      rw [hl] at hx
      simpa using hx
    rw [this]
    norm_num [Quat.normSq]

/-- hypotheses of the two findings about `reset`: a filter that has run, at the time of its last heading reset (`tDel = tAlign = 0`) -/
example : ∃ s s', s.core.init = true ∧ s.core.tDel = s.flt.y.tAlign ∧ initialiseFilter exCfg none none (reset s) = .ok (s', true) := by
  set s : St := ⟨{ Core.powerOn with init := true, first := false, accel := ⟨1 / 10, ![0, 0, -10]⟩, magCount := 40, baroCount := 30, newest := exImu }, exFlt⟩ with hs
  obtain ⟨s', e⟩ := exReady none none (reset s) rfl rfl rfl rfl (by decide) (by decide) exReadable
  exact ⟨s, s', rfl, rfl, e⟩

end

end Ecl.Boot
