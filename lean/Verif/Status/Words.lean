import Verif.Interface.Model
import Mathlib.Tactic.IntervalCases
import Mathlib.Tactic.FinCases

/-!
# Status words — EKF/common.h:389-437, 485-502, EKF/ekf_helper.cpp:961-981

Bit fields are allocated from the least significant bit and the machine is little endian (the ABI of every PX4 target); the
padding bits of the unions are ordinary memory.
-/

namespace Ecl.Status

/-! ## Model -/

/-- memory of a `fault_status_u`, EKF/common.h:389-412: 18 one-bit flags, so 32 bits of storage; `value` is a `uint16_t` -/
abbrev FaultMem := BitVec 32

/-- read flag number `i` of the union -/
def FaultMem.flag (m : FaultMem) (i : ℕ) : Bool := m.getLsbD i

/-- read `_fault_status.value` -/
def FaultMem.value (m : FaultMem) : BitVec 16 := m.setWidth 16

/-- write `_fault_status.value = v` : the two low bytes of the memory -/
def FaultMem.setValue (m : FaultMem) (v : BitVec 16) : FaultMem := ((m >>> 16) <<< 16) ||| v.setWidth 32

/-- write flag number `i` -/
def FaultMem.setFlag (m : FaultMem) (i : ℕ) (b : Bool) : FaultMem :=
  if b then m ||| ((1#32) <<< i) else m &&& ~~~((1#32) <<< i)

/-- memory of an `innovation_fault_status_u`, EKF/common.h:415-437: 13 flags, `value` covers all of them -/
abbrev InnovMem := BitVec 16

/-- `value |= (1 << k)` or `value &= ~(1 << k)`, EKF/mag_fusion.cpp:177-183, EKF/optflow_fusion.cpp:246-252 -/
def InnovMem.mark (m : InnovMem) (k : ℕ) (fail : Bool) : InnovMem :=
  if fail then m ||| ((1#16) <<< k) else m &&& ~~~((1#16) <<< k)

/-- flag bits of the innovation status, EKF/common.h:417-429 -/
def rejectVerPos : ℕ := 3
def rejectMag (axis : Fin 3) : ℕ := 4 + axis.val
def rejectHagl : ℕ := 10
def rejectFlow (axis : Fin 2) : ℕ := 11 + axis.val

/-- marking of the three magnetometer axes in `fuseMag`, EKF/mag_fusion.cpp:174-184 -/
def markMag (m : InnovMem) (fail : Fin 3 → Bool) : InnovMem :=
  ((m.mark (0 + 3) (fail 0)).mark (1 + 3) (fail 1)).mark (2 + 3) (fail 2)

/-- marking of the two optical flow axes in `fuseOptFlow`, EKF/optflow_fusion.cpp:245-253 -/
def markFlow (m : InnovMem) (fail : Fin 2 → Bool) : InnovMem :=
  (m.mark (0 + 10) (fail 0)).mark (1 + 10) (fail 1)

/-- inputs of `get_ekf_soln_status` -/
structure SolnIn where
  fault : FaultMem
  aid : Interface.AidFlags
  tiltAlign : Bool
  yawAlign : Bool
  baroHgt : Bool
  evHgt : Bool
  gpsHgt : Bool
  rngHgt : Bool
  /-- `isTerrainEstimateValid()` -/
  haglValid : Bool
  /-- `_gps_vel_test_ratio` -/
  gpsVel : ℚ × ℚ
  /-- `_gps_pos_test_ratio(0)` -/
  gpsPos : ℚ
  /-- `_mag_test_ratio` -/
  mag : ℚ × ℚ × ℚ
  yaw : ℚ

/-- bit field assignment `soln_status.flags.<i> = b` -/
def setBit (w : BitVec 16) (i : ℕ) (b : Bool) : BitVec 16 :=
  if b then w ||| ((1#16) <<< i) else w &&& ~~~((1#16) <<< i)

/-- `get_ekf_soln_status`, EKF/ekf_helper.cpp:961-981. `garbage` is the content of the uninitialised local union. -/
def solnStatus (x : SolnIn) (garbage : BitVec 16) : BitVec 16 :=
  let ok := decide (x.fault.value = 0#16)
  let w := garbage
  let w := setBit w 0 (x.tiltAlign && x.yawAlign && ok)
  let velH := (x.aid.active || (x.aid.fuseBeta && x.aid.fuseAspd)) && ok
  let w := setBit w 1 velH
  let velV := (x.baroHgt || x.evHgt || x.gpsHgt || x.rngHgt) && ok
  let w := setBit w 2 velV
  let rel := (x.aid.gps || x.aid.evPos || x.aid.optFlow) && ok
  let w := setBit w 3 rel
  let abs := (x.aid.gps || x.aid.evPos) && ok
  let w := setBit w 4 abs
  let w := setBit w 5 velV
  let w := setBit w 6 x.haglValid
  let w := setBit w 7 (!velH)
  let w := setBit w 8 rel
  let w := setBit w 9 abs
  let velBad := decide (x.gpsVel.1 > 1) || decide (x.gpsVel.2 > 1)
  let posBad := decide (x.gpsPos > 1)
  let magGood := decide (max (max x.mag.1 x.mag.2.1) x.mag.2.2 < 1) && decide (x.yaw < 1)
  let w := setBit w 10 ((velBad || posBad) && magGood)
  setBit w 11 (x.fault.flag 16)

/-! ## Specification -/

/-- names of the fault flags by position -/
def Spec.badAccVertical : ℕ := 16
def Spec.badAccClipping : ℕ := 17

/-- no fault other than the last two (vertical acceleration, clipping) is flagged -/
def Spec.NoFault16 (m : FaultMem) : Prop := ∀ i < 16, m.flag i = false

/-! ## Theorems -/

theorem getLsbD_mark {n : ℕ} (w : BitVec n) (hn : 0 < n) (k i : ℕ) (b : Bool) (hk : k < n) :
    (if b then w ||| ((BitVec.ofNat n 1) <<< k) else w &&& ~~~((BitVec.ofNat n 1) <<< k)).getLsbD i
      = if i = k then b else w.getLsbD i := by
  have h1 : ((BitVec.ofNat n 1) <<< k).getLsbD i = decide (i = k) := by
    rw [BitVec.getLsbD_shiftLeft]
    by_cases h : i = k
    · subst h; simp [hk, BitVec.getLsbD_ofNat]; omega
    · by_cases h2 : i < k
      · simp [h2, h]
      · have : i - k ≠ 0 := by omega
        simp only [h, decide_false, Bool.and_eq_false_imp]
        intro _
        rw [BitVec.getLsbD_ofNat]
        have : Nat.testBit 1 (i - k) = false := by
          simp [Nat.testBit_eq_decide_div_mod_eq, Nat.div_eq_of_lt (Nat.one_lt_two_pow this)]
        simp [this]
  cases b
  · simp only [Bool.false_eq_true, if_false, BitVec.getLsbD_and, BitVec.getLsbD_not, h1]
    by_cases h : i = k
    · subst h; simp
    · simp only [h, decide_false, Bool.not_false, Bool.and_true, if_false]
      by_cases hi : i < n
      · simp [hi]
      · have := BitVec.getLsbD_of_ge w i (by omega)
        simp [this]
  · simp only [if_true, BitVec.getLsbD_or, h1]
    by_cases h : i = k <;> simp [h]

theorem setBit_get (w : BitVec 16) (k i : ℕ) (b : Bool) (hk : k < 16) :
    (setBit w k b).getLsbD i = if i = k then b else w.getLsbD i := getLsbD_mark w (by norm_num) k i b hk

theorem mark_get (w : InnovMem) (k i : ℕ) (b : Bool) (hk : k < 16) :
    (w.mark k b).getLsbD i = if i = k then b else w.getLsbD i := getLsbD_mark w (by norm_num) k i b hk

/-- **C56 (fault word).** Clearing the word clears exactly the first 16 flags; the last two survive. The word is zero iff none
of the first 16 flags is set. Writing one flag changes no other. -/
theorem fault_word (m : FaultMem) :
    (∀ i, (m.setValue 0#16).flag i = if i < 16 then false else m.flag i) ∧
    (m.value = 0#16 ↔ Spec.NoFault16 m) ∧
    (∀ k b i, k < 18 → (m.setFlag k b).flag i = if i = k then b else m.flag i) := by
  refine ⟨fun i => ?_, ?_, fun k b i hk => getLsbD_mark m (by norm_num) k i b (by omega)⟩
  · unfold FaultMem.flag FaultMem.setValue
    simp only [BitVec.getLsbD_or, BitVec.getLsbD_shiftLeft, BitVec.getLsbD_ushiftRight]
    by_cases h : i < 16
    · simp [h]
    · rw [if_neg h]
      by_cases h2 : i < 32
      · simp [h, h2, show 16 + (i - 16) = i by omega]
      · have := BitVec.getLsbD_of_ge m i (by omega)
        simp [h2, this]
  · unfold Spec.NoFault16 FaultMem.flag FaultMem.value
    constructor
    · intro h i hi
      have := congrArg (fun v => v.getLsbD i) h
      simpa [BitVec.getLsbD_setWidth, hi] using this
    · intro h
      apply BitVec.eq_of_getLsbD_eq
      intro i hi
      simp [hi, h i hi]

/-- **C56 refuted.** A filter whose vertical accelerometer is flagged bad still reports a zero fault word, hence "good"
solution bits, and re-initialisation does not clear the flag. -/
theorem last_flags_invisible : ∃ m : FaultMem,
    m.flag Spec.badAccVertical = true ∧ m.flag Spec.badAccClipping = true ∧ m.value = 0#16 ∧
    (m.setValue 0#16).flag Spec.badAccVertical = true ∧ (m.setValue 0#16).flag Spec.badAccClipping = true :=
  ⟨0x30000#32, by decide, by decide, by decide, by decide, by decide⟩

set_option maxHeartbeats 1000000 in
/-- **C56 (solution status).** The twelve defined bits of the status word. -/
theorem soln_bits (x : SolnIn) (g : BitVec 16) :
    let w := solnStatus x g
    let ok := Spec.NoFault16 x.fault
    let horizontal := x.aid.gps = true ∨ x.aid.optFlow = true ∨ x.aid.evPos = true ∨ x.aid.evVel = true ∨
      (x.aid.fuseAspd = true ∧ x.aid.fuseBeta = true)
    let height := x.baroHgt = true ∨ x.gpsHgt = true ∨ x.rngHgt = true ∨ x.evHgt = true
    let bit (i : ℕ) := w.getLsbD i = true
    (bit 0 ↔ x.tiltAlign = true ∧ x.yawAlign = true ∧ ok) ∧
    (bit 1 ↔ horizontal ∧ ok) ∧
    (bit 2 ↔ height ∧ ok) ∧
    (bit 3 ↔ (x.aid.gps = true ∨ x.aid.evPos = true ∨ x.aid.optFlow = true) ∧ ok) ∧
    (bit 4 ↔ (x.aid.gps = true ∨ x.aid.evPos = true) ∧ ok) ∧
    (bit 5 ↔ bit 2) ∧ (bit 6 ↔ x.haglValid = true) ∧ (bit 7 ↔ ¬ bit 1) ∧ (bit 8 ↔ bit 3) ∧ (bit 9 ↔ bit 4) ∧
    (bit 10 ↔ (1 < x.gpsVel.1 ∨ 1 < x.gpsVel.2 ∨ 1 < x.gpsPos) ∧ x.mag.1 < 1 ∧ x.mag.2.1 < 1 ∧ x.mag.2.2 < 1 ∧ x.yaw < 1) ∧
    (bit 11 ↔ x.fault.flag Spec.badAccVertical = true) := by
  intro w ok horizontal height bit
  have hok : decide (x.fault.value = 0#16) = true ↔ ok := by
    rw [decide_eq_true_eq]; exact (fault_word x.fault).2.1
  have hact : x.aid.active = true ↔ horizontal := by
    unfold Interface.AidFlags.active Interface.AidFlags.count horizontal
    cases x.aid.gps <;> cases x.aid.optFlow <;> cases x.aid.evPos <;> cases x.aid.evVel <;> cases x.aid.fuseAspd <;>
      cases x.aid.fuseBeta <;> simp
  have hw : w = solnStatus x g := rfl
  unfold solnStatus at hw
  generalize hokd : decide (x.fault.value = 0#16) = okd at hok hw
  generalize hactd : x.aid.active = actd at hact hw
  have hb1 : bit 1 ↔ ((actd || (x.aid.fuseBeta && x.aid.fuseAspd)) && okd) = true := by
    show w.getLsbD 1 = true ↔ _
    rw [hw]; simp only [setBit_get, Nat.reduceLT, Nat.reduceEqDiff, if_false, if_true, OfNat.one_ne_ofNat]
  have hact2 : (actd || (x.aid.fuseBeta && x.aid.fuseAspd)) = true ↔ horizontal := by
    rw [Bool.or_eq_true, hact, Bool.and_eq_true]
    constructor
    · rintro (h | h)
      · exact h
      · exact Or.inr (Or.inr (Or.inr (Or.inr ⟨h.2, h.1⟩)))
    · exact Or.inl
  refine ⟨?_, ?_, ?_, ?_, ?_, ?_, ?_, ?_, ?_, ?_, ?_, ?_⟩
  · show w.getLsbD 0 = true ↔ _
    rw [hw]; simp only [setBit_get, Nat.reduceLT, Nat.reduceEqDiff, if_false, if_true, OfNat.zero_ne_ofNat, zero_ne_one, Nat.ofNat_pos, zero_lt_one, ← hok, Bool.and_eq_true, and_assoc]
  · rw [hb1, Bool.and_eq_true, hok, hact2]
  · show w.getLsbD 2 = true ↔ _
    rw [hw]; simp only [setBit_get, Nat.reduceLT, Nat.reduceEqDiff, if_false, if_true, ← hok, height, Bool.and_eq_true, Bool.or_eq_true]
    clear * -; tauto
  · show w.getLsbD 3 = true ↔ _
    rw [hw]; simp only [setBit_get, Nat.reduceLT, Nat.reduceEqDiff, if_false, if_true, ← hok, Bool.and_eq_true, Bool.or_eq_true]
    clear * -; tauto
  · show w.getLsbD 4 = true ↔ _
    rw [hw]; simp only [setBit_get, Nat.reduceLT, Nat.reduceEqDiff, if_false, if_true, ← hok, Bool.and_eq_true, Bool.or_eq_true]
  · show w.getLsbD 5 = true ↔ w.getLsbD 2 = true
    rw [hw]; simp only [setBit_get, Nat.reduceLT, Nat.reduceEqDiff, if_false, if_true]
  · show w.getLsbD 6 = true ↔ _
    rw [hw]; simp only [setBit_get, Nat.reduceLT, Nat.reduceEqDiff, if_false, if_true]
  · rw [hb1]
    show w.getLsbD 7 = true ↔ _
    rw [hw]; simp only [setBit_get, Nat.reduceLT, Nat.reduceEqDiff, if_false, if_true, Bool.not_eq_true', Bool.not_eq_true]
  · show w.getLsbD 8 = true ↔ w.getLsbD 3 = true
    rw [hw]; simp only [setBit_get, Nat.reduceLT, Nat.reduceEqDiff, if_false, if_true]
  · show w.getLsbD 9 = true ↔ w.getLsbD 4 = true
    rw [hw]; simp only [setBit_get, Nat.reduceLT, Nat.reduceEqDiff, if_false, if_true]
  · show w.getLsbD 10 = true ↔ _
    rw [hw]; simp only [setBit_get, Nat.reduceLT, Nat.reduceEqDiff, if_false, if_true, Bool.and_eq_true, Bool.or_eq_true,
      decide_eq_true_eq, gt_iff_lt, max_lt_iff]
    clear * -; tauto
  · show w.getLsbD 11 = true ↔ _
    rw [hw]; simp only [setBit_get, Nat.reduceLT, if_true]; rfl

/-- **C56 refuted (upper bits).** The four bits above the defined ones are whatever the uninitialised local held, so two calls
in the same filter state may return different words. -/
theorem soln_upper_bits (x : SolnIn) (g : BitVec 16) :
    (∀ i, 12 ≤ i → (solnStatus x g).getLsbD i = g.getLsbD i) ∧ solnStatus x 0#16 ≠ solnStatus x 0x8000#16 := by
  have h : ∀ g i, 12 ≤ i → (solnStatus x g).getLsbD i = g.getLsbD i := by
    intro g i hi
    unfold solnStatus
    simp only [setBit_get, Nat.reduceLT]
    rw [if_neg (by omega), if_neg (by omega), if_neg (by omega), if_neg (by omega), if_neg (by omega), if_neg (by omega),
      if_neg (by omega), if_neg (by omega), if_neg (by omega), if_neg (by omega), if_neg (by omega), if_neg (by omega)]
  refine ⟨h g, fun he => ?_⟩
  have := congrArg (fun v => v.getLsbD 15) he
  simp only [h _ 15 (by norm_num)] at this
  exact absurd this (by decide)

/-- **C88 refuted (rejection bits).** The magnetometer axes are reported one bit too low: X in the bit of the vertical
position, Y in X, Z in Y; the Z bit is never written. The optical flow axes likewise: X in the height above ground bit, Y in
X; the Y bit is never written. All other bits are left alone. -/
theorem rejection_bits_shifted (m : InnovMem) (mag : Fin 3 → Bool) (flow : Fin 2 → Bool) :
    ((markMag m mag).getLsbD rejectVerPos = mag 0 ∧ (markMag m mag).getLsbD (rejectMag 0) = mag 1 ∧
     (markMag m mag).getLsbD (rejectMag 1) = mag 2 ∧ (markMag m mag).getLsbD (rejectMag 2) = m.getLsbD (rejectMag 2)) ∧
    ((markFlow m flow).getLsbD rejectHagl = flow 0 ∧ (markFlow m flow).getLsbD (rejectFlow 0) = flow 1 ∧
     (markFlow m flow).getLsbD (rejectFlow 1) = m.getLsbD (rejectFlow 1)) ∧
    (∀ i, ¬ (3 ≤ i ∧ i ≤ 5) → (markMag m mag).getLsbD i = m.getLsbD i) ∧
    (∀ i, ¬ (10 ≤ i ∧ i ≤ 11) → (markFlow m flow).getLsbD i = m.getLsbD i) := by
  unfold markMag markFlow rejectVerPos rejectMag rejectHagl rejectFlow
  refine ⟨⟨?_, ?_, ?_, ?_⟩, ⟨?_, ?_, ?_⟩, fun i hi => ?_, fun i hi => ?_⟩ <;> simp only [mark_get, Nat.reduceAdd, Nat.reduceLT]
  · simp
  · simp
  · simp
  · simp
  · simp
  · simp
  · simp
  · rw [if_neg (by omega), if_neg (by omega), if_neg (by omega)]
  · rw [if_neg (by omega), if_neg (by omega)]

/-- **C88 (consequence).** A passing magnetometer X check erases a vertical position rejection, and a passing optical flow X
check erases a height above ground rejection. -/
theorem passing_mag_hides_height_rejection : ∃ m : InnovMem, m.getLsbD rejectVerPos = true ∧ m.getLsbD rejectHagl = true ∧
    (markMag m (fun _ => false)).getLsbD rejectVerPos = false ∧ (markFlow m (fun _ => false)).getLsbD rejectHagl = false :=
  ⟨0x408#16, by decide, by decide, by decide, by decide⟩

end Ecl.Status
