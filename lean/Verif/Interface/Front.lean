import Verif.Interface.Props2

/-!
# All sensor inputs together — EKF/estimator_interface.cpp:124-476

One state for the eight message inputs and the drag data derived from the IMU; a history is any interleaving of messages, IMU
updates and filter queries.  `K` are the real numbers of the averages, `α` the payload of the inputs that are not averaged.
-/

namespace Ecl.Interface

open Ecl.RingBuffer

/-- inputs with identical code: `setAirspeedData`, `setRangeData`, `setOpticalFlowData`, `setExtVisionData`, `setAuxVelData` -/
inductive Plain | airspeed | range | flow | ev | auxvel
  deriving DecidableEq, Repr

/-- configuration read by the inputs: buffer lengths (EKF/estimator_interface.h:264, 272), delays in microseconds
(EKF/common.h:218-227), the fusion mode bits -/
structure Cfg where
  imuLen : ℕ
  obsLen : ℕ
  dMag : ℕ
  dBaro : ℕ
  dGps : ℕ
  dPlain : Plain → ℕ
  /-- `(fusion_mode & MASK_USE_GPS) || vdist_sensor_type == VDIST_SENSOR_GPS` -/
  needGps : Bool
  /-- `fusion_mode & MASK_USE_DRAG` -/
  useDrag : Bool

/-- buffer length required by a plain input: optical flow uses the IMU buffer length, EKF/estimator_interface.cpp:345 -/
def Cfg.plainLen (c : Cfg) : Plain → ℕ
  | .flow => c.imuLen
  | _ => c.obsLen

/-- the members of all inputs -/
structure Front (K α : Type*) where
  /-- `_min_obs_interval_us` -/
  minInt : UInt32
  mag : Port (Fin 3 → K)
  magAvg : Averager (Fin 3 → K)
  baro : Port K
  baroAvg : Averager K
  gps : Port α
  plain : Plain → Port α
  drag : Port (K × K)
  dragAcc : DragAcc K

variable {K : Type*} [Field K] [Inhabited K] {α : Type*} [Inhabited α] {β : Type*} [Inhabited β]

/-- member initialisers, EKF/estimator_interface.h:306, 352-371, 408, 419-441 -/
def Front.init : Front K α :=
  ⟨0, ⟨false, false, RB.new 1, 0⟩, Averager.init _, ⟨false, false, RB.new 1, 0⟩, Averager.init _, ⟨false, false, RB.new 1, 0⟩,
    fun _ => ⟨false, false, RB.new 1, 0⟩, ⟨false, false, RB.new 1, 0⟩, ⟨0, 0, 0, 0, 0⟩⟩

/-- guard and allocation at the head of every setter, e.g. EKF/estimator_interface.cpp:126-140, 173-187, 233-247; `false` = return -/
def Port.prep (p : Port β) (n : ℕ) : Port β × Bool :=
  if !p.initialised || p.fail then (p, false)
  else
    let a := if p.buf.size < n then p.buf.allocate n else (p.buf, true)
    ({ p with buf := a.1, fail := !a.2 }, a.2)

/-- `setMagData`, EKF/estimator_interface.cpp:124-167, and `setBaroData` :231-276 (`post` is `compensateBaroForDynamicPressure`,
:262, and the identity for the magnetometer) -/
def avgSet {V : Type*} [AddCommGroup V] [Module K V] [Inhabited V] (p : Port V) (a : Averager V) (n D : ℕ) (minInt : UInt32) (t : UInt64)
    (v : V) (post : V → V) : Except UB (Port V × Averager V) :=
  let q := p.prep n
  if !q.2 then .ok (q.1, a)
  else
    match a.add (K := K) minInt t v with
    | .error u => .error u
    | .ok (a', none) => .ok (q.1, a')
    | .ok (a', some (tm, m)) =>
      match shiftStamp tm D with
      | .error u => .error u
      | .ok t' =>
        match q.1.buf.push ⟨t', post m⟩ with
        | .error u => .error (.ring u)
        | .ok b => .ok ({ q.1 with buf := b }, a')

/-- `setGpsData`, EKF/estimator_interface.cpp:169-229; `x` is the payload computed from the message (and from the origin, C115) -/
def gpsSet (p : Port β) (n D : ℕ) (minInt : UInt32) (need : Bool) (t : UInt64) (fix : ℕ) (x : β) : Except UB (Port β) :=
  let q := p.prep n
  if !q.2 then .ok q.1
  else if t - q.1.timeLast > minInt.toUInt64 ∧ need = true ∧ fix > 2 then
    match shiftStamp t D with
    | .error u => .error u
    | .ok t' =>
      match q.1.buf.push ⟨t', x⟩ with
      | .error u => .error (.ring u)
      | .ok b => .ok { q.1 with buf := b, timeLast := t }
  else .ok q.1

/-- `min_sample_ratio`, EKF/estimator_interface.cpp:453: `ceilf` of a quotient of two numbers below 256, which binary32 does not
move onto an integer; division by zero gives infinity, whose conversion is undefined -/
def Cfg.ratio (c : Cfg) : Except UB UInt8 :=
  if c.obsLen = 0 then .error .floatToUint else .ok (UInt8.ofNat ((c.imuLen + c.obsLen - 1) / c.obsLen))

/-- `setDragData`, EKF/estimator_interface.cpp:428-476 -/
def dragSet (c : Cfg) (p : Port (K × K)) (a : DragAcc K) (t : UInt64) (dvx dvy dvdt : K) : Except UB (Port (K × K) × DragAcc K) :=
  if c.useDrag && !p.fail then
    let al := if p.buf.size < c.obsLen then p.buf.allocate c.obsLen else (p.buf, true)
    let p := { p with buf := al.1, fail := !al.2 }
    if p.fail then .ok (p, a)
    else
      match c.ratio with
      | .error u => .error u
      | .ok r =>
        match a.add r t dvx dvy dvdt with
        | (a', none) => .ok (p, a')
        | (a', some (tm, x, y)) =>
          match p.buf.push ⟨tm, x, y⟩ with
          | .error u => .error (.ring u)
          | .ok b => .ok ({ p with buf := b }, a')
  else .ok (p, a)

/-- what happens at the interface -/
inductive FOp (K α : Type*)
  /-- IMU sample at time `now` completing a down-sampled interval; `delayed` = time of the sample at the fusion horizon -/
  | imu (now delayed : UInt64)
  /-- the drag part of the same call (`setDragData` gets the high rate sample) -/
  | drag (t : UInt64) (dvx dvy dvdt : K)
  | mag (t : UInt64) (v : Fin 3 → K)
  | baro (t : UInt64) (h : K) (comp : K → K)
  | gps (t : UInt64) (fix : ℕ) (x : α)
  | plain (k : Plain) (s : Sample α)
  | popMag (ts : UInt64)
  | popBaro (ts : UInt64)
  | popGps (ts : UInt64)
  | popPlain (k : Plain) (ts : UInt64)
  | popDrag (ts : UInt64)

/-- answer to a filter query (`none` = no sample due) -/
inductive FOut (K α : Type*)
  | mag (s : Option (Sample (Fin 3 → K)))
  | baro (s : Option (Sample K))
  | gps (s : Option (Sample α))
  | plain (k : Plain) (s : Option (Sample α))
  | drag (s : Option (Sample (K × K)))

/-- `pop_first_older_than` on the buffer of an input, EKF/RingBuffer.h:120-154 -/
def Port.query (p : Port β) (ts : UInt64) : Except UB (Port β × Option (Sample β)) :=
  match p.buf.pop ts with
  | .error u => .error (.ring u)
  | .ok none => .ok (p, none)
  | .ok (some (b, x)) => .ok ({ p with buf := b }, some x)

/-- the interface is initialised by the first IMU message, EKF/estimator_interface.cpp:52-54 (allocation succeeds) -/
def Port.start (p : Port β) : Port β := { p with initialised := true }

/-- one event; EKF/estimator_interface.cpp:49-86 (`imu`, `drag`), 124-426 (setters), filter queries as in EKF/control.cpp -/
def Front.step (c : Cfg) (f : Front K α) : FOp K α → Except UB (Front K α × List (FOut K α))
  | .imu now delayed =>
    match minObsInterval now delayed c.obsLen with
    | .error u => .error u
    | .ok m => .ok ({ f with minInt := m, mag := f.mag.start, baro := f.baro.start, gps := f.gps.start,
                             plain := fun k => (f.plain k).start, drag := f.drag.start }, [])
  | .drag t dvx dvy dvdt =>
    match dragSet c f.drag f.dragAcc t dvx dvy dvdt with
    | .error u => .error u
    | .ok (p, a) => .ok ({ f with drag := p, dragAcc := a }, [])
  | .mag t v =>
    match avgSet (K := K) f.mag f.magAvg c.obsLen c.dMag f.minInt t v id with
    | .error u => .error u
    | .ok (p, a) => .ok ({ f with mag := p, magAvg := a }, [])
  | .baro t h comp =>
    match avgSet (K := K) f.baro f.baroAvg c.obsLen c.dBaro f.minInt t h comp with
    | .error u => .error u
    | .ok (p, a) => .ok ({ f with baro := p, baroAvg := a }, [])
  | .gps t fix x =>
    match gpsSet f.gps c.obsLen c.dGps f.minInt c.needGps t fix x with
    | .error u => .error u
    | .ok p => .ok ({ f with gps := p }, [])
  | .plain k s =>
    match (f.plain k).set (c.plainLen k) (c.dPlain k) f.minInt s with
    | .error u => .error u
    | .ok p => .ok ({ f with plain := Function.update f.plain k p }, [])
  | .popMag ts =>
    match f.mag.query ts with
    | .error u => .error u
    | .ok (p, o) => .ok ({ f with mag := p }, [.mag o])
  | .popBaro ts =>
    match f.baro.query ts with
    | .error u => .error u
    | .ok (p, o) => .ok ({ f with baro := p }, [.baro o])
  | .popGps ts =>
    match f.gps.query ts with
    | .error u => .error u
    | .ok (p, o) => .ok ({ f with gps := p }, [.gps o])
  | .popPlain k ts =>
    match (f.plain k).query ts with
    | .error u => .error u
    | .ok (p, o) => .ok ({ f with plain := Function.update f.plain k p }, [.plain k o])
  | .popDrag ts =>
    match f.drag.query ts with
    | .error u => .error u
    | .ok (p, o) => .ok ({ f with drag := p }, [.drag o])

/-- a history and the answers to its queries -/
def Front.run (c : Cfg) : List (FOp K α) → Front K α → Except UB (Front K α × List (FOut K α))
  | [], f => .ok (f, [])
  | op :: ops, f =>
    match f.step c op with
    | .error u => .error u
    | .ok (f', o) =>
      match Front.run c ops f' with
      | .error u => .error u
      | .ok (g, os) => .ok (g, o ++ os)

/-! ## Specification -/

/-- the nine data streams -/
inductive Stream | mag | baro | gps | plain (k : Plain) | drag
  deriving DecidableEq

/-- the events of a stream: its messages, its queries and the IMU updates -/
def Spec.concerns (σ : Stream) : FOp K α → Bool
  | .imu _ _ => true
  | .drag .. => σ = .drag
  | .mag .. => σ = .mag
  | .baro .. => σ = .baro
  | .gps .. => σ = .gps
  | .plain k _ => σ = .plain k
  | .popMag _ => σ = .mag
  | .popBaro _ => σ = .baro
  | .popGps _ => σ = .gps
  | .popPlain k _ => σ = .plain k
  | .popDrag _ => σ = .drag

/-- the answers of a stream -/
def Spec.answers (σ : Stream) : FOut K α → Bool
  | .mag _ => σ = .mag
  | .baro _ => σ = .baro
  | .gps _ => σ = .gps
  | .plain k _ => σ = .plain k
  | .drag _ => σ = .drag

/-- the members of a stream agree -/
def Spec.Same (σ : Stream) (f g : Front K α) : Prop :=
  f.minInt = g.minInt ∧ match σ with
  | .mag => f.mag = g.mag ∧ f.magAvg = g.magAvg
  | .baro => f.baro = g.baro ∧ f.baroAvg = g.baroAvg
  | .gps => f.gps = g.gps
  | .plain k => f.plain k = g.plain k
  | .drag => f.drag = g.drag ∧ f.dragAcc = g.dragAcc

/-! ## Independence -/

theorem same_refl (σ : Stream) (f : Front K α) : Spec.Same σ f f := by
  refine ⟨rfl, ?_⟩
  cases σ <;> simp

/-- an event of another stream changes nothing -/
theorem step_other (c : Cfg) (σ : Stream) (f g : Front K α) (op : FOp K α) (o : List (FOut K α)) (h : f.step c op = .ok (g, o))
    (hc : Spec.concerns σ op = false) : Spec.Same σ f g ∧ o.filter (Spec.answers σ) = [] := by
  cases op with
  | imu a b => simp [Spec.concerns] at hc
  | drag t dvx dvy dvdt =>
    simp only [Front.step] at h
    split at h
    · cases h
    · cases h; refine ⟨⟨rfl, ?_⟩, rfl⟩; cases σ <;> simp_all [Spec.concerns]
  | mag t v =>
    simp only [Front.step] at h
    split at h
    · cases h
    · cases h; refine ⟨⟨rfl, ?_⟩, rfl⟩; cases σ <;> simp_all [Spec.concerns]
  | baro t v cc =>
    simp only [Front.step] at h
    split at h
    · cases h
    · cases h; refine ⟨⟨rfl, ?_⟩, rfl⟩; cases σ <;> simp_all [Spec.concerns]
  | gps t v cc =>
    simp only [Front.step] at h
    split at h
    · cases h
    · cases h; refine ⟨⟨rfl, ?_⟩, rfl⟩; cases σ <;> simp_all [Spec.concerns]
  | plain k s =>
    simp only [Front.step] at h
    split at h
    · cases h
    · cases h; refine ⟨⟨rfl, ?_⟩, rfl⟩
      cases σ with
      | plain k' =>
        have : k' ≠ k := by intro e; simp [Spec.concerns, e] at hc
        show f.plain k' = Function.update f.plain k _ k'
        rw [Function.update_of_ne this]
      | _ => simp
  | popMag ts =>
    simp only [Front.step] at h
    split at h
    · cases h
    · cases h; refine ⟨⟨rfl, ?_⟩, ?_⟩ <;> cases σ <;> simp_all [Spec.concerns, Spec.answers]
  | popBaro ts =>
    simp only [Front.step] at h
    split at h
    · cases h
    · cases h; refine ⟨⟨rfl, ?_⟩, ?_⟩ <;> cases σ <;> simp_all [Spec.concerns, Spec.answers]
  | popGps ts =>
    simp only [Front.step] at h
    split at h
    · cases h
    · cases h; refine ⟨⟨rfl, ?_⟩, ?_⟩ <;> cases σ <;> simp_all [Spec.concerns, Spec.answers]
  | popPlain k ts =>
    simp only [Front.step] at h
    split at h
    · cases h
    · cases h
      have hc' : σ ≠ .plain k := by intro e; simp [Spec.concerns, e] at hc
      refine ⟨⟨rfl, ?_⟩, by simp [Spec.answers, hc']⟩
      cases σ with
      | plain k' =>
        have : k' ≠ k := by intro e; exact hc' (by rw [e])
        show f.plain k' = Function.update f.plain k _ k'
        rw [Function.update_of_ne this]
      | _ => simp
  | popDrag ts =>
    simp only [Front.step] at h
    split at h
    · cases h
    · cases h; refine ⟨⟨rfl, ?_⟩, ?_⟩ <;> cases σ <;> simp_all [Spec.concerns, Spec.answers]

/-- an event of the stream has the same effect on it whatever the other streams hold -/
theorem step_own (c : Cfg) (σ : Stream) (f f' g : Front K α) (op : FOp K α) (o : List (FOut K α)) (h : f.step c op = .ok (g, o))
    (hs : Spec.Same σ f f') (hc : Spec.concerns σ op = true) :
    ∃ g', f'.step c op = .ok (g', o.filter (Spec.answers σ)) ∧ Spec.Same σ g g' := by
  obtain ⟨hm, hs⟩ := hs
  cases op with
  | imu a b =>
    simp only [Front.step] at h ⊢
    split at h
    · cases h
    · cases h
      refine ⟨_, rfl, rfl, ?_⟩
      cases σ <;> simp_all
  | drag t dvx dvy dvdt =>
    have e : σ = .drag := by simpa [Spec.concerns] using hc
    subst e
    simp only [Front.step] at h ⊢
    obtain ⟨h1, h2⟩ := hs
    rw [← h1, ← h2]
    split at h
    · cases h
    · next p a he => cases h; exact ⟨_, rfl, hm, rfl, rfl⟩
  | mag t v =>
    have e : σ = .mag := by simpa [Spec.concerns] using hc
    subst e
    simp only [Front.step] at h ⊢
    obtain ⟨h1, h2⟩ := hs
    rw [← h1, ← h2, ← hm]
    split at h
    · cases h
    · next p a he => cases h; exact ⟨_, rfl, rfl, rfl, rfl⟩
  | baro t v cc =>
    have e : σ = .baro := by simpa [Spec.concerns] using hc
    subst e
    simp only [Front.step] at h ⊢
    obtain ⟨h1, h2⟩ := hs
    rw [← h1, ← h2, ← hm]
    split at h
    · cases h
    · next p a he => cases h; exact ⟨_, rfl, rfl, rfl, rfl⟩
  | gps t v cc =>
    have e : σ = .gps := by simpa [Spec.concerns] using hc
    subst e
    simp only [Front.step] at h ⊢
    have h1 : f.gps = f'.gps := hs
    rw [← h1, ← hm]
    split at h
    · cases h
    · next p he => cases h; exact ⟨_, rfl, rfl, rfl⟩
  | plain k s =>
    have e : σ = .plain k := by simpa [Spec.concerns] using hc
    subst e
    simp only [Front.step] at h ⊢
    have h1 : f.plain k = f'.plain k := hs
    rw [← h1, ← hm]
    split at h
    · cases h
    · next p he =>
      cases h
      refine ⟨_, rfl, rfl, ?_⟩
      show Function.update f.plain k p k = Function.update f'.plain k p k
      simp
  | popMag ts =>
    have e : σ = .mag := by simpa [Spec.concerns] using hc
    subst e
    simp only [Front.step] at h ⊢
    obtain ⟨h1, h2⟩ := hs
    rw [← h1]
    split at h
    · cases h
    · next p a he => cases h; exact ⟨_, rfl, hm, rfl, h2⟩
  | popBaro ts =>
    have e : σ = .baro := by simpa [Spec.concerns] using hc
    subst e
    simp only [Front.step] at h ⊢
    obtain ⟨h1, h2⟩ := hs
    rw [← h1]
    split at h
    · cases h
    · next p a he => cases h; exact ⟨_, rfl, hm, rfl, h2⟩
  | popGps ts =>
    have e : σ = .gps := by simpa [Spec.concerns] using hc
    subst e
    simp only [Front.step] at h ⊢
    have h1 : f.gps = f'.gps := hs
    rw [← h1]
    split at h
    · cases h
    · next p a he => cases h; exact ⟨_, rfl, hm, rfl⟩
  | popPlain k ts =>
    have e : σ = .plain k := by simpa [Spec.concerns] using hc
    subst e
    simp only [Front.step] at h ⊢
    have h1 : f.plain k = f'.plain k := hs
    rw [← h1]
    split at h
    · cases h
    · next p a he =>
      cases h
      have hf : List.filter (Spec.answers (Stream.plain k)) [(FOut.plain k a : FOut K α)] = [FOut.plain k a] := by simp [Spec.answers]
      rw [hf]
      refine ⟨_, rfl, hm, ?_⟩
      show Function.update f.plain k p k = Function.update f'.plain k p k
      simp
  | popDrag ts =>
    have e : σ = .drag := by simpa [Spec.concerns] using hc
    subst e
    simp only [Front.step] at h ⊢
    obtain ⟨h1, h2⟩ := hs
    rw [← h1]
    split at h
    · cases h
    · next p a he => cases h; exact ⟨_, rfl, hm, rfl, h2⟩

theorem same_trans {σ : Stream} {f g h : Front K α} (a : Spec.Same σ f g) (b : Spec.Same σ g h) : Spec.Same σ f h := by
  obtain ⟨a0, a1⟩ := a
  obtain ⟨b0, b1⟩ := b
  refine ⟨a0.trans b0, ?_⟩
  cases σ with
  | mag => exact ⟨a1.1.trans b1.1, a1.2.trans b1.2⟩
  | baro => exact ⟨a1.1.trans b1.1, a1.2.trans b1.2⟩
  | gps => exact Eq.trans a1 b1
  | plain k => exact Eq.trans a1 b1
  | drag => exact ⟨a1.1.trans b1.1, a1.2.trans b1.2⟩

theorem same_symm {σ : Stream} {f g : Front K α} (a : Spec.Same σ f g) : Spec.Same σ g f := by
  obtain ⟨a0, a1⟩ := a
  refine ⟨a0.symm, ?_⟩
  cases σ with
  | mag => exact ⟨a1.1.symm, a1.2.symm⟩
  | baro => exact ⟨a1.1.symm, a1.2.symm⟩
  | gps => exact Eq.symm a1
  | plain k => exact Eq.symm a1
  | drag => exact ⟨a1.1.symm, a1.2.symm⟩

theorem run_own (c : Cfg) (σ : Stream) (ops : List (FOp K α)) (f f' g : Front K α) (os : List (FOut K α)) (h : f.run c ops = .ok (g, os))
    (hs : Spec.Same σ f f') :
    ∃ g', f'.run c (ops.filter (Spec.concerns σ)) = .ok (g', os.filter (Spec.answers σ)) ∧ Spec.Same σ g g' := by
  induction ops generalizing f f' g os with
  | nil => cases h; exact ⟨f', rfl, hs⟩
  | cons op ops ih =>
    unfold Front.run at h
    split at h
    · cases h
    · next f1 o1 e1 =>
      split at h
      · cases h
      · next g1 os1 e2 =>
        cases h
        by_cases hc : Spec.concerns σ op = true
        · obtain ⟨f1', e1', hs1⟩ := step_own c σ f f' f1 op o1 e1 hs hc
          obtain ⟨g', e2', hs2⟩ := ih f1 f1' _ _ e2 hs1
          refine ⟨g', ?_, hs2⟩
          rw [List.filter_cons_of_pos hc, List.filter_append]
          unfold Front.run
          rw [e1']; simp only
          rw [e2']
        · have hc' : Spec.concerns σ op = false := by simpa using hc
          obtain ⟨hs1, ho⟩ := step_other c σ f f1 op o1 e1 hc'
          obtain ⟨g', e2', hs2⟩ := ih f1 f' _ _ e2 (same_trans (same_symm hs1) hs)
          refine ⟨g', ?_, hs2⟩
          rw [List.filter_cons_of_neg hc, List.filter_append, ho, List.nil_append, e2']

/-- **C156 (independence).** For every history of messages, IMU updates and queries, every stream holds and answers exactly what
it would hold and answer if the messages and queries of all other streams were left out. -/
theorem streams_independent (c : Cfg) (σ : Stream) (ops : List (FOp K α)) (f g : Front K α) (os : List (FOut K α))
    (h : f.run c ops = .ok (g, os)) :
    ∃ g', f.run c (ops.filter (Spec.concerns σ)) = .ok (g', os.filter (Spec.answers σ)) ∧ Spec.Same σ g g' :=
  run_own c σ ops f f g os h (same_refl σ f)

end Ecl.Interface
