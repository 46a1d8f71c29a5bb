import Verif.Interface.FrontSafe
import Verif.Aid.Align

/-!
# GPS heading without GPS position

`setGpsData` (EKF/estimator_interface.cpp:186-190) stores a message only if GPS position aiding is on or GPS is the selected height
source.  The bit for heading from a pair of antennas is not part of the condition.
-/

namespace Ecl.Interface

open Ecl.RingBuffer

variable {K : Type*} [Field K] [Inhabited K] {α : Type*} [Inhabited α] {β : Type*} [Inhabited β]

/-- `need_gps`, EKF/estimator_interface.cpp:187, from the parameters `fusion_mode` and `vdist_sensor_type`; `MASK_USE_GPS` is bit 0
and `VDIST_SENSOR_GPS` is 1, EKF/common.h:179-200 -/
def needGpsOf (fusionMode vdist : ℕ) : Bool := fusionMode.testBit 0 || vdist == 1

/-! ## Specification -/

/-- the parameters switch on heading from GPS (bit 7 of the fusion mode), but neither GPS position (bit 0) nor GPS height -/
def Spec.HeadingOnly (fusionMode vdist : ℕ) : Prop :=
  fusionMode.testBit 7 = true ∧ fusionMode.testBit 0 = false ∧ vdist ≠ 1

/-- GPS queries are made after the first 100 ms -/
def Spec.LateGps (ops : List (FOp K α)) : Prop := ∀ ts, FOp.popGps ts ∈ ops → 100000 ≤ ts.toNat

/-! ## Delivery -/

/-- an input that holds nothing -/
structure Port.Empty (p : Port β) (n : ℕ) : Prop where
  good : p.Good n
  empty : p.buf.live = []

theorem empty_prep {p : Port β} {n : ℕ} (h : p.Empty n) : (p.prep n).1.Empty n := by
  obtain ⟨hg, he⟩ := h
  unfold Port.prep
  by_cases hin : (!p.initialised || p.fail) = true
  · rw [if_pos hin]; exact ⟨hg, he⟩
  rw [if_neg hin]
  rcases hg.inv with hi | ⟨hi, _, hn⟩
  · have := hi.size
    rw [if_neg (by omega)]
    exact ⟨⟨rfl, .inl hi⟩, he⟩
  · have hsz := hi.size
    obtain ⟨b, hb, hbi, hl⟩ := (ringbuffer_allocate p.buf 1 n hi).2.2 (by omega) (by omega)
    rw [if_pos (by omega), hb]
    exact ⟨⟨rfl, .inl hbi⟩, hl⟩

theorem empty_set {p q : Port β} {n D : ℕ} (h : p.Empty n) (m : UInt32) (t : UInt64) (fix : ℕ) (x : β)
    (e : gpsSet p n D m false t fix x = .ok q) : q.Empty n := by
  have h' := empty_prep h
  unfold gpsSet at e
  dsimp only at e
  split_ifs at e
  · cases e; exact h'
  · simp_all
  · cases e; exact h'

theorem empty_query {p q : Port β} {n : ℕ} (h : p.Empty n) (ts : UInt64) (hts : 100000 ≤ ts.toNat) (o : Option (Sample β))
    (e : p.query ts = .ok (q, o)) : q = p ∧ o = none := by
  obtain ⟨hg, he⟩ := h
  have : ∀ k, p.buf.Inv k → p.buf.pop ts = .ok none := by
    intro k hk
    rcases pop_refine hk ts hts with ⟨b1, x, q', _, _, hsp, _⟩ | h'
    · rw [he] at hsp; simp [RingBuffer.Spec.pop] at hsp
    · exact h'.1
  unfold Port.query at e
  rcases hg.inv with hi | ⟨hi, _, _⟩ <;> rw [this _ hi] at e <;> cases e <;> exact ⟨rfl, rfl⟩

/-- with GPS not needed every event leaves the GPS input empty and no event delivers a GPS sample -/
theorem empty_step {c : Cfg} (hc : c.needGps = false) {f g : Front K α} (h : f.gps.Empty c.obsLen) (op : FOp K α) (o : List (FOut K α))
    (ht : ∀ ts, op = .popGps ts → 100000 ≤ ts.toNat) (e : f.step c op = .ok (g, o)) :
    g.gps.Empty c.obsLen ∧ ∀ s, FOut.gps (some s) ∉ o := by
  cases op with
  | imu a b =>
    simp only [Front.step] at e
    split at e
    · cases e
    · cases e; exact ⟨⟨⟨h.good.ok, h.good.inv⟩, h.empty⟩, by simp⟩
  | gps t fix x =>
    simp only [Front.step] at e
    rw [hc] at e
    split at e
    · cases e
    · next p he => cases e; exact ⟨empty_set h _ _ _ _ he, by simp⟩
  | popGps ts =>
    simp only [Front.step] at e
    split at e
    · cases e
    · next p k he =>
      obtain ⟨rfl, rfl⟩ := empty_query h ts (ht ts rfl) _ he
      cases e; exact ⟨h, by simp⟩
  | drag _ _ _ _ | mag _ _ | baro _ _ _ | plain _ _ | popMag _ | popBaro _ | popPlain _ _ | popDrag _ =>
    simp only [Front.step] at e
    split at e
    · cases e
    · cases e; exact ⟨h, by simp⟩

theorem init_empty (n : ℕ) (hn : 1 < n) : (Front.init : Front K α).gps.Empty n := by
  have e : (Front.init : Front K α).gps = ⟨false, false, RB.new 1, 0⟩ := rfl
  have : (RB.new 1 : RB α).Inv 1 ∧ (RB.new 1 : RB α).live = [] :=
    ⟨inv_new (by norm_num) (by norm_num), live_new (by norm_num) (by norm_num)⟩
  rw [e]
  exact ⟨⟨rfl, .inr ⟨this.1, this.2, hn⟩⟩, this.2⟩

theorem empty_run {c : Cfg} (hc : c.needGps = false) (ops : List (FOp K α)) (f g : Front K α) (h : f.gps.Empty c.obsLen)
    (os : List (FOut K α)) (ht : Spec.LateGps ops) (e : Front.run c ops f = .ok (g, os)) : ∀ s, FOut.gps (some s) ∉ os := by
  induction ops generalizing f os with
  | nil => cases e; simp
  | cons op ops ih =>
    simp only [Front.run] at e
    split at e
    · cases e
    · next f1 o1 h1 =>
      split at e
      · cases e
      · next g1 o2 h2 =>
        cases e
        obtain ⟨a, b⟩ := empty_step hc h op o1 (fun ts q => ht ts (by rw [q]; exact List.mem_cons_self)) h1
        have := ih f1 a o2 (fun ts q => ht ts (List.mem_cons_of_mem _ q)) h2
        intro s
        rw [List.mem_append]
        rintro (k | k)
        · exact b s k
        · exact this s k

/-- **C161.** GPS position off and height source not GPS: whatever the history of messages, IMU updates and queries, no GPS sample is
ever delivered to the filter, also if heading from GPS is switched on. -/
theorem heading_only_gets_no_samples (c : Cfg) (fusionMode vdist : ℕ) (hc : c.needGps = needGpsOf fusionMode vdist)
    (hm : Spec.HeadingOnly fusionMode vdist) (hn : 1 < c.obsLen) (ops : List (FOp K α)) (ht : Spec.LateGps ops) (g : Front K α)
    (os : List (FOut K α)) (e : Front.run c ops Front.init = .ok (g, os)) : ∀ s, FOut.gps (some s) ∉ os := by
  refine empty_run ?_ ops _ g (init_empty _ hn) os ht e
  rw [hc]
  unfold needGpsOf
  simp [hm.2.1, hm.2.2]

end Ecl.Interface

namespace Ecl.Aid

/-- one update without a GPS sample starts no GPS heading and fuses none -/
theorem noGps_step (x : In) (s : St) (hr : x.gpsReady = false) (h : s.gpsYaw = false) :
    (step x s).gpsYaw = false ∧ Act.fuseGpsYaw ∉ (step x s).log := by
  set e := controlFlow x (controlMag x (stMag x s)) with he
  have hs : step x s = controlFake x (controlAux x (controlEv x (controlDrag x (controlBeta x (controlAir x (controlGps x e)))))) := rfl
  constructor
  · have e2 : e.gpsYaw = false := by rw [he]; unfold stMag; simpa using h
    rw [hs]
    have : (controlGps x e).gpsYaw = false := by
      unfold controlGps; rw [if_neg (by simp [hr])]; split_ifs <;> simp [e2, stopGps]
    simpa using this
  · have hg : (controlGps x e).log.countP isGpsYaw = e.log.countP isGpsYaw := by
      unfold controlGps
      rw [if_neg (by simp [hr])]
      split_ifs <;> simp
    have h0 : e.log.countP isGpsYaw = 0 := by rw [he]; unfold stMag; simp
    have : (step x s).log.countP isGpsYaw = 0 := by
      rw [hs]
      simp only [controlFake_isGpsYaw, controlAux_isGpsYaw, controlEv_isGpsYaw, controlDrag_isGpsYaw, controlBeta_isGpsYaw,
        controlAir_isGpsYaw, hg, h0]
    rw [List.countP_eq_zero] at this
    exact fun q => this _ q rfl

/-- **C161.** Without GPS samples the GPS heading mode is never entered and no GPS heading is fused, whatever the other inputs and
whatever the parameters, for the whole flight. -/
theorem no_samples_no_gps_heading (xs : List In) (hx : ∀ x ∈ xs, x.gpsReady = false) (s : St) (hs : s.gpsYaw = false) :
    ∀ t ∈ trace s xs, t.gpsYaw = false ∧ Act.fuseGpsYaw ∉ t.log := by
  induction xs generalizing s with
  | nil => intro t ht; cases ht
  | cons x xs ih =>
    intro t ht
    have k := noGps_step x s (hx x List.mem_cons_self) hs
    rcases List.mem_cons.mp ht with rfl | ht
    · exact k
    · exact ih (fun y hy => hx y (List.mem_cons_of_mem _ hy)) _ k.1 t ht

end Ecl.Aid

namespace Ecl.Interface

open Ecl.RingBuffer

variable {K : Type*} [Field K] [Inhabited K] {α : Type*} [Inhabited α]

/-- the GPS samples handed to the filter, one entry per query -/
def Spec.gpsAnswers : List (FOut K α) → List (Option (Sample α))
  | [] => []
  | .gps s :: os => s :: Spec.gpsAnswers os
  | _ :: os => Spec.gpsAnswers os

theorem mem_gpsAnswers (os : List (FOut K α)) (s : Option (Sample α)) : s ∈ Spec.gpsAnswers os ↔ FOut.gps s ∈ os := by
  induction os with
  | nil => simp [Spec.gpsAnswers]
  | cons o os ih => cases o <;> simp [Spec.gpsAnswers, ih]

/-- **C161, refuted wish: the heading bit alone selects GPS heading.**  Interface and control logic together.  The fusion mode has the
GPS heading bit but not the GPS position bit, and GPS is not the height source.  The controller runs on any inputs in which a GPS sample
is reported ready exactly when the interface hands one over.  Then GPS heading is never started and never fused. -/
theorem heading_bit_alone_has_no_effect (c : Cfg) (fusionMode vdist : ℕ) (hc : c.needGps = needGpsOf fusionMode vdist)
    (hm : Spec.HeadingOnly fusionMode vdist) (hn : 1 < c.obsLen) (ops : List (FOp K α)) (ht : Spec.LateGps ops) (g : Front K α)
    (os : List (FOut K α)) (e : Front.run c ops Front.init = .ok (g, os)) (xs : List Aid.In)
    (hx : xs.map (fun x => x.gpsReady) = (Spec.gpsAnswers os).map Option.isSome) :
    ∀ t ∈ Aid.trace {} xs, t.gpsYaw = false ∧ Aid.Act.fuseGpsYaw ∉ t.log := by
  refine Aid.no_samples_no_gps_heading xs ?_ {} rfl
  intro x hxm
  have hmem : x.gpsReady ∈ (Spec.gpsAnswers os).map Option.isSome := by rw [← hx]; exact List.mem_map_of_mem hxm
  obtain ⟨o, ho, eo⟩ := List.mem_map.mp hmem
  cases o with
  | none => rw [← eo]; rfl
  | some s => exact absurd ((mem_gpsAnswers _ _).mp ho) (heading_only_gets_no_samples c fusionMode vdist hc hm hn ops ht g os e s)

/-- fusion mode 128 (heading bit only) with barometric height, and the same with the position bit -/
example : Spec.HeadingOnly 128 0 ∧ needGpsOf 128 0 = false ∧ needGpsOf 129 0 = true ∧ needGpsOf 128 1 = true := by
  unfold Spec.HeadingOnly needGpsOf; decide

/-- a 3-D fix with antenna heading: delivered with the position bit set, not delivered with the heading bit alone -/
def headingOps : List (FOp ℚ ℕ) := [.imu 1000000 900000, .gps 1100000 3 7, .popGps 1095000]

def headingCfg (mode : ℕ) : Cfg := ⟨10, 5, 0, 0, 0, fun _ => 0, needGpsOf mode 0, false⟩

/-- **C161, the code line.** The same 3-D fix is delivered with fusion mode 129 and is lost with fusion mode 128. -/
theorem same_fix_lost :
    ((Front.run (headingCfg 129) headingOps Front.init).toOption.map fun r => Spec.gpsAnswers r.2) = some [some ⟨1095000, 7⟩] ∧
    ((Front.run (headingCfg 128) headingOps Front.init).toOption.map fun r => Spec.gpsAnswers r.2) = some [none] := by
  decide +kernel

/-- `heading_bit_alone_has_no_effect` applies to that history and to a controller update with tilt alignment converged -/
example : ∃ g os, Front.run (headingCfg 128) headingOps Front.init = .ok (g, os) ∧
    ∀ t ∈ Aid.trace {} [{ tiltConverged := true, useGpsYaw := true, gpsYawFinite := true, antennaOk := true, now := 1100000, tDel := 1095000 }],
      t.gpsYaw = false ∧ Aid.Act.fuseGpsYaw ∉ t.log := by
  have hs := same_fix_lost.2
  cases h : Front.run (headingCfg 128) headingOps Front.init with
  | error u => rw [h] at hs; simp [Except.toOption] at hs
  | ok r =>
    obtain ⟨g, os⟩ := r
    rw [h] at hs
    simp only [Except.toOption, Option.map_some, Option.some.injEq] at hs
    refine ⟨g, os, rfl, heading_bit_alone_has_no_effect (headingCfg 128) 128 0 rfl (by unfold Spec.HeadingOnly; decide) (by decide) headingOps ?_ g os h _ ?_⟩
    · intro ts hts
      simp [headingOps] at hts
      subst hts; decide
    · rw [hs]; rfl

end Ecl.Interface
