import Verif.Aid.Disabled
import Lean.Elab.Tactic

/-!
# Optical flow that is switched off has no influence on the control decisions (C160)

The switch keeps flow out of everything but its own bookkeeping: `flowReady`, `flowInh`, `tGood`, `tBad`.
-/

namespace Ecl.Aid

/-! ## Specification -/

/-- inputs that differ in the optical flow data only: arrival, quality, compensation, motion tests, timing, result of the fusion, and the terrain and error figures
that only the decision to use flow reads -/
def Spec.OtherFlow (x x' : In) : Prop := x' = { x with
  flowPop := x'.flowPop, flowGood := x'.flowGood, flowComp := x'.flowComp, motionExcessive := x'.motionExcessive, deadReckoning := x'.deadReckoning
  gpsErr07 := x'.gpsErr07, gpsErr10 := x'.gpsErr10, terrainValid := x'.terrainValid, flowMid := x'.flowMid, tHagl := x'.tHagl, tFlow := x'.tFlow
  flowOk := x'.flowOk }

/-- states that differ in the bookkeeping about flow samples only -/
def Spec.SameButFlow (s s' : St) : Prop :=
  s' = { s with flowReady := s'.flowReady, flowInh := s'.flowInh, tGood := s'.tGood, tBad := s'.tBad }

/-! ## Proof -/

structure Flows where
  a : Bool
  b : Bool
  c : UInt64
  d : UInt64

def putFlows (v : Flows) (s : St) : St := { s with flowReady := v.a, flowInh := v.b, tGood := v.c, tBad := v.d }

def flowsOf (s : St) : Flows := ⟨s.flowReady, s.flowInh, s.tGood, s.tBad⟩

def FlowR (s s' : St) : Prop := ∃ v, s' = putFlows v s

def FlowRP (p p' : St × Bool) : Prop := ∃ v, p' = (putFlows v p.1, p.2)

theorem fr_of {s s' : St} (h : s' = putFlows (flowsOf s') s) : FlowR s s' := ⟨_, h⟩

theorem frp_of {s s' : St} {b b' : Bool} (h : FlowR s s') (hb : b' = b) : FlowRP (s, b) (s', b') := by
  obtain ⟨v, rfl⟩ := h
  exact ⟨v, by rw [hb]⟩

theorem fr_let {a a' : St} {f g : St → St} (h : FlowR a a') (k : ∀ t v, FlowR (f t) (g (putFlows v t))) : FlowR (f a) (g a') := by
  obtain ⟨v, rfl⟩ := h
  exact k a v

theorem fr_letP {a a' : St × Bool} {f g : St × Bool → St} (h : FlowRP a a') (k : ∀ t b v, FlowR (f (t, b)) (g (putFlows v t, b))) :
    FlowR (f a) (g a') := by
  obtain ⟨v, rfl⟩ := h
  exact k a.1 a.2 v

theorem fr_letV {α : Type} {a a' : α} {f g : α → St} (h : a' = a) (k : ∀ t, FlowR (f t) (g t)) : FlowR (f a) (g a') := by
  subst h; exact k _

theorem frp_let {a a' : St} {f g : St → St × Bool} (h : FlowR a a') (k : ∀ t v, FlowRP (f t) (g (putFlows v t))) :
    FlowRP (f a) (g a') := by
  obtain ⟨v, rfl⟩ := h
  exact k a v

theorem fr_ite {c c' : Prop} [Decidable c] [Decidable c'] {a a' b b' : St} (e : c' = c) (ha : FlowR a a') (hb : FlowR b b') :
    FlowR (if c then a else b) (if c' then a' else b') := by
  subst e
  by_cases h : c'
  · rw [if_pos h, if_pos h]; exact ha
  · rw [if_neg h, if_neg h]; exact hb

theorem frp_ite {c c' : Prop} [Decidable c] [Decidable c'] {a a' b b' : St × Bool} (e : c' = c) (ha : FlowRP a a') (hb : FlowRP b b') :
    FlowRP (if c then a else b) (if c' then a' else b') := by
  subst e
  by_cases h : c'
  · rw [if_pos h, if_pos h]; exact ha
  · rw [if_neg h, if_neg h]; exact hb

theorem fr_act (a : Act) {s s' : St} (h : FlowR s s') : FlowR (s.act a) (s'.act a) := by
  obtain ⟨v, rfl⟩ := h
  exact ⟨v, rfl⟩

theorem fr_evt (a : Evt) {s s' : St} (h : FlowR s s') : FlowR (s.evt a) (s'.evt a) := by
  obtain ⟨v, rfl⟩ := h
  exact ⟨v, rfl⟩

open Lean Meta Elab Tactic in
/-- one step through the body of two runs of a function, chosen by the form of the goal -/
elab "fr_step" : tactic => withMainContext do
  let g ← getMainGoal
  let t ← instantiateMVars (← g.getType)
  let rel := t.getAppFn.constName?
  unless rel == some ``FlowR || rel == some ``FlowRP do throwError "not a relation"
  let pair := rel == some ``FlowRP
  let a := (t.getArg! 0).headBeta.consumeMData
  let a' := (t.getArg! 1).headBeta.consumeMData
  let ap (n : Name) : TacticM Unit := do
    replaceMainGoal (← g.apply (← mkConstWithFreshMVarLevels n))
  match a, a' with
  | .letE nm ty v b _, .letE _ _ v' b' _ =>
    let f := Expr.lam nm ty b .default
    let f' := Expr.lam nm ty b' .default
    if ty.isConstOf ``St then
      let e ← mkAppOptM (if pair then ``frp_let else ``fr_let) #[some v, some v', some f, some f']
      let [h, k] ← (do
        let (ms, _, _) ← forallMetaTelescope (← inferType e)
        g.assign (mkAppN e ms)
        pure (ms.toList.map (·.mvarId!))) | throwError "let"
      let (_, k) ← k.introN 2
      replaceMainGoal [h, ← k.change ((← k.getType).headBeta)]
    else if ty.isAppOfArity ``Prod 2 then
      let e ← mkAppOptM ``fr_letP #[some v, some v', some f, some f']
      let (ms, _, _) ← forallMetaTelescope (← inferType e)
      g.assign (mkAppN e ms)
      let (_, k) ← ms[1]!.mvarId!.introN 3
      replaceMainGoal [ms[0]!.mvarId!, k]
    else
      let e ← mkAppOptM ``fr_letV #[none, some v, some v', some f, some f']
      let (ms, _, _) ← forallMetaTelescope (← inferType e)
      g.assign (mkAppN e ms)
      let (_, k) ← ms[1]!.mvarId!.introN 1
      ms[0]!.mvarId!.refl
      replaceMainGoal [k]
  | _, _ =>
    if a.isProj || a.isFVar then evalTactic (← `(tactic| exact fr_of rfl)); return
    let some n := a.getAppFn.constName? | evalTactic (← `(tactic| exact fr_of rfl))
    if n == ``ite then ap (if pair then ``frp_ite else ``fr_ite)
    else if n == ``Prod.mk then ap ``frp_of
    else if n == ``St.mk || n == ``Prod.fst then evalTactic (← `(tactic| exact fr_of rfl))
    else ap (`Ecl.Aid ++ (Name.mkSimple ("fr_" ++ n.getString!)))

macro "fr_all" : tactic => `(tactic| repeat' first | exact rfl | fr_step)

theorem fr_stopMag3D {s s' : St} (h : FlowR s s') : FlowR (stopMag3D s) (stopMag3D s') := by
  obtain ⟨v, rfl⟩ := h
  unfold stopMag3D
  fr_all


theorem fr_stopMagHdg {s s' : St} (h : FlowR s s') : FlowR (stopMagHdg s) (stopMagHdg s') := by
  obtain ⟨v, rfl⟩ := h
  unfold stopMagHdg
  fr_all


theorem fr_clearMagCov {s s' : St} (h : FlowR s s') : FlowR (clearMagCov s) (clearMagCov s') := by
  obtain ⟨v, rfl⟩ := h
  unfold clearMagCov
  fr_all


theorem fr_stopMag {s s' : St} (h : FlowR s s') : FlowR (stopMag s) (stopMag s') := by
  obtain ⟨v, rfl⟩ := h
  unfold stopMag
  fr_all


theorem fr_startMagHdg {s s' : St} (h : FlowR s s') : FlowR (startMagHdg s) (startMagHdg s') := by
  obtain ⟨v, rfl⟩ := h
  unfold startMagHdg
  fr_all


theorem fr_startMag3D {s s' : St} (h : FlowR s s') : FlowR (startMag3D s) (startMag3D s') := by
  obtain ⟨v, rfl⟩ := h
  unfold startMag3D
  fr_all


theorem fr_resetMagStates {s s' : St} (h : FlowR s s') : FlowR (resetMagStates s) (resetMagStates s') := by
  obtain ⟨v, rfl⟩ := h
  unfold resetMagStates
  fr_all


theorem fr_resetVel (x : In) {s s' : St} (h : FlowR s s') : FlowR (resetVel x s) (resetVel x s') := by
  obtain ⟨v, rfl⟩ := h
  unfold resetVel
  fr_all


theorem fr_resetPos (x : In) {s s' : St} (h : FlowR s s') : FlowR (resetPos x s) (resetPos x s') := by
  obtain ⟨v, rfl⟩ := h
  unfold resetPos
  fr_all


theorem fr_resetMagHeading (x : In) {s s' : St} (h : FlowR s s') : FlowRP (resetMagHeading x s) (resetMagHeading x s') := by
  obtain ⟨v, rfl⟩ := h
  unfold resetMagHeading
  fr_all


theorem fr_declareFault {s s' : St} (h : FlowR s s') : FlowR (declareFault s) (declareFault s') := by
  obtain ⟨v, rfl⟩ := h
  unfold declareFault
  fr_all


theorem fr_courseYaw {s s' : St} (h : FlowR s s') : FlowR (courseYaw s) (courseYaw s') := by
  obtain ⟨v, rfl⟩ := h
  unfold courseYaw
  fr_all


theorem fr_courseAlign (x : In) {s s' : St} (h : FlowR s s') : FlowR (courseAlign x s) (courseAlign x s') := by
  obtain ⟨v, rfl⟩ := h
  unfold courseAlign
  fr_all


theorem fr_realignYawGps (x : In) {s s' : St} (h : FlowR s s') : FlowRP (realignYawGps x s) (realignYawGps x s') := by
  obtain ⟨v, rfl⟩ := h
  unfold realignYawGps
  fr_all


theorem fr_resetYawToGsf (x : In) {s s' : St} (h : FlowR s s') : FlowRP (resetYawToGsf x s) (resetYawToGsf x s') := by
  obtain ⟨v, rfl⟩ := h
  unfold resetYawToGsf
  fr_all


theorem fr_fuseVelHor (x : In) (ok : Bool) {s s' : St} (h : FlowR s s') : FlowR (fuseVelHor x ok s) (fuseVelHor x ok s') := by
  obtain ⟨v, rfl⟩ := h
  unfold fuseVelHor
  fr_all


theorem fr_fusePos (x : In) (v : PosVar) (ok : Bool) {s s' : St} (h : FlowR s s') : FlowR (fusePos x v ok s) (fusePos x v ok s') := by
  obtain ⟨v, rfl⟩ := h
  unfold fusePos
  fr_all


theorem fr_otherStopped {s s' : St} (h : FlowR s s') : FlowR (otherStopped s) (otherStopped s') := by
  obtain ⟨v, rfl⟩ := h
  unfold otherStopped
  fr_all


theorem fr_checkHagl (x : In) {s s' : St} (h : FlowR s s') : FlowR (checkHagl x s) (checkHagl x s') := by
  obtain ⟨v, rfl⟩ := h
  unfold checkHagl
  fr_all


theorem fr_groundYawReset (x : In) {s s' : St} (h : FlowR s s') : FlowR (groundYawReset x s) (groundYawReset x s') := by
  obtain ⟨v, rfl⟩ := h
  unfold groundYawReset
  fr_all


theorem fr_airYawReset (x : In) {s s' : St} (h : FlowR s s') : FlowR (airYawReset x s) (airYawReset x s') := by
  obtain ⟨v, rfl⟩ := h
  unfold airYawReset
  fr_all


theorem fr_velPosReset (x : In) {s s' : St} (h : FlowR s s') : FlowR (velPosReset x s) (velPosReset x s') := by
  obtain ⟨v, rfl⟩ := h
  unfold velPosReset
  fr_all


theorem fr_check3D (x : In) {s s' : St} (h : FlowR s s') : FlowR (check3D x s) (check3D x s') := by
  obtain ⟨v, rfl⟩ := h
  unfold check3D
  fr_all


theorem fr_selectMagAuto (x : In) {s s' : St} (h : FlowR s s') : FlowR (selectMagAuto x s) (selectMagAuto x s') := by
  obtain ⟨v, rfl⟩ := h
  unfold selectMagAuto
  fr_all


theorem fr_selectMode (x : In) {s s' : St} (h : FlowR s s') : FlowR (selectMode x s) (selectMode x s') := by
  obtain ⟨v, rfl⟩ := h
  unfold selectMode
  fr_all


theorem fr_checkDecl (x : In) {s s' : St} (h : FlowR s s') : FlowR (checkDecl x s) (checkDecl x s') := by
  obtain ⟨v, rfl⟩ := h
  unfold checkDecl
  fr_all


theorem fr_checkInhibition (x : In) {s s' : St} (h : FlowR s s') : FlowR (checkInhibition x s) (checkInhibition x s') := by
  obtain ⟨v, rfl⟩ := h
  unfold checkInhibition
  fr_all


theorem fr_runMagFusions {s s' : St} (h : FlowR s s') : FlowR (runMagFusions s) (runMagFusions s') := by
  obtain ⟨v, rfl⟩ := h
  unfold runMagFusions
  fr_all


theorem fr_magWithData (x : In) {s s' : St} (h : FlowR s s') : FlowR (magWithData x s) (magWithData x s') := by
  obtain ⟨v, rfl⟩ := h
  unfold magWithData
  fr_all


theorem fr_magPrepare (x : In) {s s' : St} (h : FlowR s s') : FlowR (magPrepare x s) (magPrepare x s') := by
  obtain ⟨v, rfl⟩ := h
  unfold magPrepare
  fr_all


theorem fr_magMain (x : In) {s s' : St} (h : FlowR s s') : FlowR (magMain x s) (magMain x s') := by
  obtain ⟨v, rfl⟩ := h
  unfold magMain
  fr_all


theorem fr_controlMag (x : In) {s s' : St} (h : FlowR s s') : FlowR (controlMag x s) (controlMag x s') := by
  obtain ⟨v, rfl⟩ := h
  unfold controlMag
  fr_all


theorem fr_startGps {s s' : St} (h : FlowR s s') : FlowR (startGps s) (startGps s') := by
  obtain ⟨v, rfl⟩ := h
  unfold startGps
  fr_all


theorem fr_stopGps {s s' : St} (h : FlowR s s') : FlowR (stopGps s) (stopGps s') := by
  obtain ⟨v, rfl⟩ := h
  unfold stopGps
  fr_all


theorem fr_startGpsYaw {s s' : St} (h : FlowR s s') : FlowR (startGpsYaw s) (startGpsYaw s') := by
  obtain ⟨v, rfl⟩ := h
  unfold startGpsYaw
  fr_all


theorem fr_gpsYawUse (x : In) {s s' : St} (h : FlowR s s') : FlowR (gpsYawUse x s) (gpsYawUse x s') := by
  obtain ⟨v, rfl⟩ := h
  unfold gpsYawUse
  fr_all


theorem fr_controlGpsYaw (x : In) {s s' : St} (h : FlowR s s') : FlowR (controlGpsYaw x s) (controlGpsYaw x s') := by
  obtain ⟨v, rfl⟩ := h
  unfold controlGpsYaw
  fr_all


theorem fr_gpsHeading (x : In) {s s' : St} (h : FlowR s s') : FlowR (gpsHeading x s) (gpsHeading x s') := by
  obtain ⟨v, rfl⟩ := h
  unfold gpsHeading
  fr_all


theorem fr_gpsStart (x : In) {s s' : St} (h : FlowR s s') : FlowR (gpsStart x s) (gpsStart x s') := by
  obtain ⟨v, rfl⟩ := h
  unfold gpsStart
  fr_all


theorem fr_gpsFailing (x : In) {s s' : St} (h : FlowR s s') : FlowR (gpsFailing x s) (gpsFailing x s') := by
  obtain ⟨v, rfl⟩ := h
  unfold gpsFailing
  fr_all


theorem fr_gsfAlign (x : In) {s s' : St} (h : FlowR s s') : FlowR (gsfAlign x s) (gsfAlign x s') := by
  obtain ⟨v, rfl⟩ := h
  unfold gsfAlign
  fr_all


theorem fr_gsfReset (x : In) {s s' : St} (h : FlowR s s') : FlowR (gsfReset x s) (gsfReset x s') := by
  obtain ⟨v, rfl⟩ := h
  unfold gsfReset
  fr_all


theorem fr_gpsTimeoutReset (x : In) {s s' : St} (h : FlowR s s') : FlowR (gpsTimeoutReset x s) (gpsTimeoutReset x s') := by
  obtain ⟨v, rfl⟩ := h
  unfold gpsTimeoutReset
  fr_all


theorem fr_gpsResets (x : In) {s s' : St} (h : FlowR s s') : FlowR (gpsResets x s) (gpsResets x s') := by
  obtain ⟨v, rfl⟩ := h
  unfold gpsResets
  fr_all


theorem fr_gpsFuse (x : In) {s s' : St} (h : FlowR s s') : FlowR (gpsFuse x s) (gpsFuse x s') := by
  obtain ⟨v, rfl⟩ := h
  unfold gpsFuse
  fr_all


theorem fr_controlGps (x : In) {s s' : St} (h : FlowR s s') : FlowR (controlGps x s) (controlGps x s') := by
  obtain ⟨v, rfl⟩ := h
  unfold controlGps
  fr_all


theorem fr_evStart (x : In) {s s' : St} (h : FlowR s s') : FlowR (evStart x s) (evStart x s') := by
  obtain ⟨v, rfl⟩ := h
  unfold evStart
  fr_all


theorem fr_startEvYaw {s s' : St} (h : FlowR s s') : FlowR (startEvYaw s) (startEvYaw s') := by
  obtain ⟨v, rfl⟩ := h
  unfold startEvYaw
  fr_all


theorem fr_evYawStart (x : In) {s s' : St} (h : FlowR s s') : FlowR (evYawStart x s) (evYawStart x s') := by
  obtain ⟨v, rfl⟩ := h
  unfold evYawStart
  fr_all


theorem fr_evPosUse (x : In) {s s' : St} (h : FlowR s s') : FlowR (evPosUse x s) (evPosUse x s') := by
  obtain ⟨v, rfl⟩ := h
  unfold evPosUse
  fr_all


theorem fr_evVelUse (x : In) {s s' : St} (h : FlowR s s') : FlowR (evVelUse x s) (evVelUse x s') := by
  obtain ⟨v, rfl⟩ := h
  unfold evVelUse
  fr_all


theorem fr_stopEv {s s' : St} (h : FlowR s s') : FlowR (stopEv s) (stopEv s') := by
  obtain ⟨v, rfl⟩ := h
  unfold stopEv
  fr_all


theorem fr_controlEv (x : In) {s s' : St} (h : FlowR s s') : FlowR (controlEv x s) (controlEv x s') := by
  obtain ⟨v, rfl⟩ := h
  unfold controlEv
  fr_all


theorem fr_controlAir (x : In) {s s' : St} (h : FlowR s s') : FlowR (controlAir x s) (controlAir x s') := by
  obtain ⟨v, rfl⟩ := h
  unfold controlAir
  fr_all


theorem fr_controlBeta (x : In) {s s' : St} (h : FlowR s s') : FlowR (controlBeta x s) (controlBeta x s') := by
  obtain ⟨v, rfl⟩ := h
  unfold controlBeta
  fr_all


theorem fr_controlDrag (x : In) {s s' : St} (h : FlowR s s') : FlowR (controlDrag x s) (controlDrag x s') := by
  obtain ⟨v, rfl⟩ := h
  unfold controlDrag
  fr_all


theorem fr_controlAux (x : In) {s s' : St} (h : FlowR s s') : FlowR (controlAux x s) (controlAux x s') := by
  obtain ⟨v, rfl⟩ := h
  unfold controlAux
  fr_all


theorem fr_controlFake (x : In) {s s' : St} (h : FlowR s s') : FlowR (controlFake x s) (controlFake x s') := by
  obtain ⟨v, rfl⟩ := h
  unfold controlFake
  fr_all


theorem fr_requests (x : In) {s s' : St} (h : FlowR s s') : FlowR (requests x s) (requests x s') := by
  obtain ⟨v, rfl⟩ := h
  unfold requests
  fr_all


theorem fr_tiltAlign (x : In) {s s' : St} (h : FlowR s s') : FlowR (tiltAlign x s) (tiltAlign x s') := by
  obtain ⟨v, rfl⟩ := h
  unfold tiltAlign
  fr_all



/-- with the switch off and flow not in use, the flow code only keeps its own books -/
theorem flow_books (x : In) (s : St) (hx : x.useOf = false) (hs : s.optFlow = false) : FlowR s (controlFlow x s) := by
  have m : ∀ s : St, FlowR s (flowQuality x (flowMotion x s)) := by
    intro s
    unfold flowQuality flowMotion
    split_ifs <;> exact fr_of rfl
  have hm := m s
  unfold controlFlow
  dsimp only
  generalize flowQuality x (flowMotion x s) = t at hm ⊢
  obtain ⟨v, hv⟩ := hm
  have ho : t.optFlow = false := by rw [hv]; exact hs
  suffices hh : FlowR t (if t.flowReady = true then if (t.optFlow && (!x.useOf || flowInhibit x t)) = true then stopFlow { t with flowInh := flowInhibit x t }
      else flowUse x (flowStart x { t with flowInh := flowInhibit x t })
      else if (t.optFlow && !decide (x.tDel ≤ x.tFlow + 10000000)) = true then stopFlow t else t) by
    obtain ⟨w, hw⟩ := hh
    exact ⟨w, hw.trans (by rw [hv]; rfl)⟩
  have hst : ∀ t : St, flowStart x t = t := by
    intro t
    unfold flowStart
    rw [hx]
    rfl
  have hus : ∀ t : St, t.optFlow = false → flowUse x t = t := by
    intro t ht
    unfold flowUse
    rw [ht]
    rfl
  have hn : ¬ ((t.optFlow && (!x.useOf || flowInhibit x t)) = true) := by rw [ho]; simp
  have hm : ¬ ((t.optFlow && !decide (x.tDel ≤ x.tFlow + 10000000)) = true) := by rw [ho]; simp
  by_cases c : t.flowReady = true
  · rw [if_pos c, if_neg (by exact hn), hst, hus _ (by exact ho)]
    exact fr_of rfl
  · rw [if_neg c, if_neg hm]
    exact fr_of rfl

theorem fr_controlFlow_off (x x' : In) {s s' : St} (h : FlowR s s') (hx : x.useOf = false) (hx' : x'.useOf = false) (hs : s.optFlow = false) :
    FlowR (controlFlow x s) (controlFlow x' s') := by
  obtain ⟨v, rfl⟩ := h
  obtain ⟨a, ha⟩ := flow_books x s hx hs
  obtain ⟨b, hb⟩ := flow_books x' (putFlows v s) hx' hs
  rw [ha, hb]
  exact fr_of rfl

/-- the inputs with other flow data -/
def withFlow (x y : In) : In := { x with
  flowPop := y.flowPop, flowGood := y.flowGood, flowComp := y.flowComp, motionExcessive := y.motionExcessive, deadReckoning := y.deadReckoning
  gpsErr07 := y.gpsErr07, gpsErr10 := y.gpsErr10, terrainValid := y.terrainValid, flowMid := y.flowMid, tHagl := y.tHagl, tFlow := y.tFlow
  flowOk := y.flowOk }

section
variable (x y : In)
theorem withFlow_requests : requests (withFlow x y) = requests x := rfl
theorem withFlow_tiltAlign : tiltAlign (withFlow x y) = tiltAlign x := rfl
theorem withFlow_controlMag : controlMag (withFlow x y) = controlMag x := rfl
theorem withFlow_controlGps : controlGps (withFlow x y) = controlGps x := rfl
theorem withFlow_controlAir : controlAir (withFlow x y) = controlAir x := rfl
theorem withFlow_controlBeta : controlBeta (withFlow x y) = controlBeta x := rfl
theorem withFlow_controlDrag : controlDrag (withFlow x y) = controlDrag x := rfl
theorem withFlow_controlEv : controlEv (withFlow x y) = controlEv x := rfl
theorem withFlow_controlAux : controlAux (withFlow x y) = controlAux x := rfl
theorem withFlow_controlFake : controlFake (withFlow x y) = controlFake x := rfl
end

theorem fr_step_off (x y : In) {s s' : St} (h : FlowR s s') (hx : x.useOf = false) (hs : s.optFlow = false) : FlowR (step x s) (step (withFlow x y) s') := by
  unfold step
  dsimp only
  rw [withFlow_requests, withFlow_tiltAlign, withFlow_controlMag, withFlow_controlGps, withFlow_controlAir, withFlow_controlBeta, withFlow_controlDrag,
    withFlow_controlEv, withFlow_controlAux, withFlow_controlFake]
  refine fr_controlFake _ (fr_controlAux _ (fr_controlEv _ (fr_controlDrag _ (fr_controlBeta _ (fr_controlAir _ (fr_controlGps _ ?_))))))
  have h0 : FlowR (tiltAlign x (requests x { s with log := [], evts := [] })) (tiltAlign x (requests x { s' with log := [], evts := [] })) :=
    fr_tiltAlign _ (fr_requests _ (by obtain ⟨v, rfl⟩ := h; exact fr_of rfl))
  have h1 : FlowR (flowArrival x (tiltAlign x (requests x { s with log := [], evts := [] })))
      (flowArrival (withFlow x y) (tiltAlign x (requests x { s' with log := [], evts := [] }))) := by
    obtain ⟨v, hv⟩ := h0
    rw [hv]
    have : ∀ (z : In) (t : St), FlowR t (flowArrival z t) := by
      intro z t
      unfold flowArrival
      split_ifs
      · exact fr_of rfl
      · exact fr_of rfl
    obtain ⟨a, ha⟩ := this x (tiltAlign x (requests x { s with log := [], evts := [] }))
    obtain ⟨b, hb⟩ := this (withFlow x y) (putFlows v (tiltAlign x (requests x { s with log := [], evts := [] })))
    rw [ha, hb]
    exact fr_of rfl
  refine fr_controlFlow_off x (withFlow x y) (fr_controlMag x h1) hx hx ?_
  simp [hs]

/-! ## Theorems -/

/-- **C160, flow.** If the flow bit of the fusion mode is never set, and flow is not in use at the start, then the flow data do not matter: any two histories that
differ in them only lead at every step to the same modes, requests, fusions, resets, events and time stamps, flow's own bookkeeping about its samples excepted; flow is never used. -/
theorem flow_off_irrelevant (l l' : List In) (s s' : St) (hl : List.Forall₂ Spec.OtherFlow l l') (hs : Spec.SameButFlow s s')
    (hx : ∀ x ∈ l, x.useOf = false) (h0 : s.optFlow = false) :
    Spec.SameButFlow (run s l) (run s' l') ∧ List.Forall₂ Spec.SameButFlow (trace s l) (trace s' l') ∧ (run s l).optFlow = false := by
  induction hl generalizing s s' with
  | nil => exact ⟨hs, .nil, h0⟩
  | @cons x x' l l' h _ ih =>
    have hx0 := hx x List.mem_cons_self
    obtain ⟨y, rfl⟩ : ∃ y, x' = withFlow x y := ⟨x', h⟩
    obtain ⟨v, hv⟩ := fr_step_off x y ⟨flowsOf s', hs⟩ hx0 h0
    have hst : Spec.SameButFlow (step x s) (step (withFlow x y) s') := by
      rw [hv]; rfl
    have ho : (step x s).optFlow = false := by
      unfold step
      dsimp only
      simp only [controlFake_optFlow, controlAux_optFlow, controlEv_optFlow, controlDrag_optFlow, controlBeta_optFlow, controlAir_optFlow, controlGps_optFlow]
      obtain ⟨w, hw⟩ := flow_books x (controlMag x (flowArrival x (tiltAlign x (requests x { s with log := [], evts := [] })))) hx0 (by simp [h0])
      rw [hw]
      show (controlMag x _).optFlow = false
      simp [h0]
    have := ih (step x s) (step (withFlow x y) s') hst (fun z hz => hx z (List.mem_cons_of_mem _ hz)) ho
    exact ⟨by rw [run, run]; exact this.1, by rw [trace, trace]; exact .cons hst this.2.1, by rw [run]; exact this.2.2⟩

/-- the hypotheses can be met: flow off, GPS aiding in flight, one history with flow samples and one without; the books differ, the decisions do not.  With the bit set
flow would be used -/
example : let l (of fl : Bool) : List In :=
      [{ useOf := of, tiltConverged := true, magReady := true, flowPop := fl, flowGood := true, flowComp := true, now := 40000000, tDel := 39900000 },
       { useOf := of, magReady := true, gpsReady := true, useGps := true, nedInit := true, tGps := 40000000, lastPass := 40000000, now := 40100000, tDel := 40000000
         flowPop := fl, flowGood := true, flowComp := true, deadReckoning := fl, terrainValid := true, inAir := true }]
    List.Forall₂ Spec.OtherFlow (l false false) (l false true) ∧ Spec.SameButFlow (run {} (l false false)) (run {} (l false true)) ∧ (run {} (l false true)).gps = true ∧
      (run {} (l false true)).flowReady ≠ (run {} (l false false)).flowReady ∧ (run {} (l false true)).optFlow = false ∧ (run {} (l true true)).optFlow = true := by
  intro l
  have h : List.Forall₂ Spec.OtherFlow (l false false) (l false true) := .cons (by unfold Spec.OtherFlow; rfl) (.cons (by unfold Spec.OtherFlow; rfl) .nil)
  exact ⟨h, (flow_off_irrelevant _ _ {} {} h rfl (by decide) rfl).1, by decide +kernel, by decide +kernel, by decide +kernel, by decide +kernel⟩

end Ecl.Aid
