import Verif.Basic.Time
import Mathlib.Tactic.Linarith
import Mathlib.Data.List.Induction
import Mathlib.Algebra.Order.Field.Rat

/-!
# Vertical accelerometer health — EKF/control.cpp:900-956

One call per filter update.  The two innovation ratios are floats that may be NaN (`none`): they are quotients by a square
root of an innovation variance (EKF/vel_pos_fusion.cpp:82, 153).
-/

namespace Ecl.VertAccel

/-- What one call of `checkVerticalAccelerationHealth` reads (EKF/control.cpp:900-956): the current time `_time_last_imu`,
the time stamps of the last height and vertical velocity fusion attempts with their innovation ratios, four status flags and the
accelerometer clipping flags of the delayed IMU sample -/
structure Frame where
  now : UInt64
  /-- `_vert_pos_fuse_attempt_time_us`, EKF/ekf.h:405 -/
  tPos : UInt64
  /-- `_vert_vel_fuse_time_us`, EKF/ekf.h:407 -/
  tVel : UInt64
  /-- `_vert_pos_innov_ratio`; `none` is NaN -/
  posRatio : Option ℚ
  /-- `_vert_vel_innov_ratio`; `none` is NaN -/
  velRatio : Option ℚ
  gpsHgt : Bool
  gps : Bool
  evHgt : Bool
  evVel : Bool
  /-- `_imu_sample_delayed.delta_vel_clipping[0..2]` -/
  clipX : Bool
  clipY : Bool
  clipZ : Bool
deriving DecidableEq

/-- The members the function writes: `_clip_counter` (16-bit, shown to stay ≤ 100), `_time_bad_vert_accel`,
`_time_good_vert_accel` (EKF/ekf.h:525-528) and `_fault_status.flags.bad_acc_vertical` -/
structure St where
  clip : ℕ := 0
  tBad : UInt64 := 0
  tGood : UInt64 := 0
  flag : Bool := false
deriving DecidableEq

/-- float comparison `r > l`; false for NaN -/
def gt (r : Option ℚ) (l : ℚ) : Bool := match r with | none => false | some v => decide (l < v)

/-- `is_inertial_nav_falling`, EKF/control.cpp:907-922 (`lim` = `_params.vert_innov_test_lim`) -/
def falling (lim : ℚ) (f : Frame) : Bool :=
  if isRecent f.now f.tPos 1000000 then
    if isRecent f.now f.tVel 1000000 then
      (gt f.velRatio lim && gt f.posRatio 0) || (gt f.posRatio lim && gt f.velRatio 0)
    else gt f.posRatio lim
  else false

/-- `are_vertical_pos_and_vel_independant`, EKF/control.cpp:908-915 -/
def independent (f : Frame) : Bool :=
  if isRecent f.now f.tPos 1000000 then
    if isRecent f.now f.tVel 1000000 then !((f.gpsHgt && f.gps) || (f.evHgt && f.evVel)) else false
  else false

/-- `is_clipping`, EKF/control.cpp:926-928 -/
def clipping (f : Frame) : Bool := f.clipX || f.clipY || f.clipZ

/-- the clip counter, EKF/control.cpp:925, 929-933 (`clip_count_limit` = 1000 / FILTER_UPDATE_PERIOD_MS = 100) -/
def countClip (c : ℕ) (clipped : Bool) : ℕ :=
  if clipped && decide (c < 100) then c + 1 else if 0 < c then c - 1 else c

/-- `bad_vert_accel`, EKF/control.cpp:934-939, given the updated counter -/
def badNow (lim : ℚ) (c : ℕ) (f : Frame) : Bool := (independent f || decide (0 < c)) && falling lim f

/-- one call of `checkVerticalAccelerationHealth`, EKF/control.cpp:900-956 (BADACC_PROBATION = 10e6, EKF/common.h:209) -/
def step (lim : ℚ) (s : St) (f : Frame) : St :=
  let c := countClip s.clip (clipping f)
  let bad := badNow lim c f
  let tBad := if bad then f.now else s.tBad
  let tGood := if bad then s.tGood else f.now
  { clip := c, tBad := tBad, tGood := tGood,
    flag := if s.flag then isRecent f.now tBad 10000000 else bad }

/-- consecutive filter updates -/
def run (lim : ℚ) (s : St) (fs : List Frame) : St := fs.foldl (step lim) s

namespace Spec

/-- both ratios positive and one above the limit; with no current vertical velocity, the height ratio above the limit.
NaN never counts. -/
def Falling (lim : ℚ) (f : Frame) : Prop :=
  f.now < f.tPos + 1000000 ∧
  ((f.now < f.tVel + 1000000 ∧ ∃ p v, f.posRatio = some p ∧ f.velRatio = some v ∧
      ((lim < v ∧ 0 < p) ∨ (lim < p ∧ 0 < v))) ∨
   (¬ f.now < f.tVel + 1000000 ∧ ∃ p, f.posRatio = some p ∧ lim < p))

/-- height and vertical velocity both current and not both from GPS nor both from external vision -/
def Independent (f : Frame) : Prop :=
  f.now < f.tPos + 1000000 ∧ f.now < f.tVel + 1000000 ∧
  ¬ (f.gpsHgt = true ∧ f.gps = true) ∧ ¬ (f.evHgt = true ∧ f.evVel = true)

/-- number of samples with any accelerometer axis clipped -/
def clipped (fs : List Frame) : ℕ := fs.countP (fun f => f.clipX || f.clipY || f.clipZ)

/-- number of samples without a clipped axis -/
def clean (fs : List Frame) : ℕ := fs.countP (fun f => !(f.clipX || f.clipY || f.clipZ))

end Spec

theorem falling_iff (lim : ℚ) (f : Frame) : falling lim f = true ↔ Spec.Falling lim f := by
  unfold falling Spec.Falling
  have e1 := isRecent_iff f.now f.tPos 1000000
  have e2 := isRecent_iff f.now f.tVel 1000000
  simp only [gt_iff_lt] at e1 e2
  rw [← e1, ← e2]
  cases h1 : isRecent f.now f.tPos 1000000 <;> cases h2 : isRecent f.now f.tVel 1000000 <;>
    cases h3 : f.posRatio <;> cases h4 : f.velRatio <;> simp [gt]

theorem independent_iff (f : Frame) : independent f = true ↔ Spec.Independent f := by
  unfold independent Spec.Independent
  have e1 := isRecent_iff f.now f.tPos 1000000
  have e2 := isRecent_iff f.now f.tVel 1000000
  simp only [gt_iff_lt] at e1 e2
  rw [← e1, ← e2]
  cases h1 : isRecent f.now f.tPos 1000000 <;> cases h2 : isRecent f.now f.tVel 1000000 <;>
    cases f.gpsHgt <;> cases f.gps <;> cases f.evHgt <;> cases f.evVel <;> simp

theorem run_nil (lim : ℚ) (s : St) : run lim s [] = s := rfl
theorem run_append (lim : ℚ) (s : St) (a b : List Frame) : run lim s (a ++ b) = run lim (run lim s a) b := by
  simp [run]
theorem run_snoc (lim : ℚ) (s : St) (a : List Frame) (f : Frame) : run lim s (a ++ [f]) = step lim (run lim s a) f := by
  simp [run]
theorem run_cons (lim : ℚ) (s : St) (f : Frame) (a : List Frame) : run lim s (f :: a) = run lim (step lim s f) a := rfl
theorem step_clip (lim : ℚ) (s : St) (f : Frame) : (step lim s f).clip = countClip s.clip (clipping f) := rfl

theorem step_flag (lim : ℚ) (s : St) (f : Frame) : (step lim s f).flag =
    if s.flag then isRecent f.now (step lim s f).tBad 10000000 else badNow lim (countClip s.clip (clipping f)) f := rfl
theorem step_tBad (lim : ℚ) (s : St) (f : Frame) : (step lim s f).tBad =
    if badNow lim (countClip s.clip (clipping f)) f then f.now else s.tBad := rfl

theorem countClip_le (c : ℕ) (b : Bool) (h : c ≤ 100) : countClip c b ≤ 100 := by
  unfold countClip
  cases b <;> simp <;> split_ifs <;> omega

/-- the counter never exceeds 100, so the 16-bit member cannot overflow -/
theorem clip_bounded (lim : ℚ) (s : St) (fs : List Frame) (h : s.clip ≤ 100) : (run lim s fs).clip ≤ 100 := by
  induction fs using List.reverseRecOn with
  | nil => exact h
  | append_singleton l f ih => rw [run_snoc, step_clip]; exact countClip_le _ _ ih

theorem counts_snoc (l : List Frame) (f : Frame) :
    (clipping f = true → Spec.clipped (l ++ [f]) = Spec.clipped l + 1 ∧ Spec.clean (l ++ [f]) = Spec.clean l) ∧
    (clipping f = false → Spec.clipped (l ++ [f]) = Spec.clipped l ∧ Spec.clean (l ++ [f]) = Spec.clean l + 1) := by
  unfold Spec.clipped Spec.clean clipping
  constructor <;> intro h <;> rw [List.countP_append, List.countP_append] <;> simp only [List.countP_cons, List.countP_nil, h] <;> simp

theorem counts_length (l : List Frame) : Spec.clipped l + Spec.clean l = l.length := by
  unfold Spec.clipped Spec.clean
  rw [List.length_eq_countP_add_countP (fun f : Frame => f.clipX || f.clipY || f.clipZ)]
  congr 1
  apply List.countP_congr; simp

/-- **C118 (clipping, soundness).** From a start without clipping evidence, a positive counter means that in some run of the
latest samples the clipped ones outnumber the clean ones by at least the counter. -/
theorem clip_evidence (lim : ℚ) (s : St) (fs : List Frame) (h0 : s.clip = 0) :
    ∃ a b, fs = a ++ b ∧ Spec.clean b + (run lim s fs).clip ≤ Spec.clipped b := by
  induction fs using List.reverseRecOn with
  | nil => exact ⟨[], [], rfl, by simp [run, h0, Spec.clean, Spec.clipped]⟩
  | append_singleton l f ih =>
    obtain ⟨a, b, rfl, hb⟩ := ih
    rw [run_snoc, step_clip]
    set c := (run lim s (a ++ b)).clip
    obtain ⟨k1, k2⟩ := counts_snoc b f
    by_cases hz : countClip c (clipping f) = 0
    · exact ⟨a ++ b ++ [f], [], by simp, by simp [hz, Spec.clean, Spec.clipped]⟩
    · refine ⟨a, b ++ [f], by simp, ?_⟩
      unfold countClip at hz ⊢
      cases hc : clipping f with
      | true =>
        obtain ⟨e1, e2⟩ := k1 hc
        rw [e1, e2]; rw [hc] at hz
        simp only [Bool.true_and, decide_eq_true_eq] at hz ⊢
        split_ifs at hz ⊢ <;> omega
      | false =>
        obtain ⟨e1, e2⟩ := k2 hc
        rw [e1, e2]; rw [hc] at hz
        simp only [Bool.false_and] at hz ⊢
        split_ifs at hz ⊢ <;> first | omega | simp_all

/-- Auxiliary invariant of the completeness proof over a window: either the counter is at least the excess of clipped over clean
samples, or it touched its ceiling and has not had the time to fall. -/
theorem window_inv (lim : ℚ) (s : St) (b : List Frame) :
    (Spec.clipped b ≤ (run lim s b).clip + Spec.clean b) ∨
    (∃ k, 100 ≤ (run lim s b).clip + k ∧ k ≤ b.length ∧
      (k = b.length → b ≠ [] → 101 ≤ (run lim s b).clip + k ∨ Spec.clipped b ≤ 1)) := by
  induction b using List.reverseRecOn with
  | nil => left; simp [Spec.clipped, Spec.clean]
  | append_singleton l f ih =>
    rw [run_snoc, step_clip]
    obtain ⟨k1, k2⟩ := counts_snoc l f
    rw [List.length_append, List.length_singleton]
    set c := (run lim s l).clip
    rcases ih with h | ⟨k, h1, h2, h3⟩
    · by_cases htop : clipping f = true ∧ 100 ≤ c
      · obtain ⟨e1, e2⟩ := k1 htop.1
        right
        refine ⟨1, ?_, by omega, ?_⟩
        · unfold countClip; simp [htop.1]; split_ifs <;> omega
        · intro hk _
          have : l.length = 0 := by omega
          rw [List.length_eq_zero_iff] at this
          subst this
          right; rw [e1]; simp [Spec.clipped]
      · left
        unfold countClip
        cases hc : clipping f with
        | true =>
          obtain ⟨e1, e2⟩ := k1 hc
          rw [e1, e2]
          simp only [hc, true_and] at htop
          simp only [Bool.true_and, decide_eq_true_eq]
          split_ifs <;> omega
        | false =>
          obtain ⟨e1, e2⟩ := k2 hc
          rw [e1, e2]
          simp only [Bool.false_and]
          split_ifs <;> first | omega | simp_all
    · right
      refine ⟨k + 1, ?_, by omega, ?_⟩
      · unfold countClip; split_ifs <;> omega
      · intro hk _
        have hk' : k = l.length := by omega
        by_cases hl : l = []
        · subst hl
          right
          cases hc : clipping f with
          | true => rw [(k1 hc).1]; simp [Spec.clipped]
          | false => rw [(k2 hc).1]; simp [Spec.clipped]
        · have h3' := h3 hk' hl
          cases hc : clipping f with
          | true =>
            left
            have hpos := List.length_pos_iff.2 hl
            unfold countClip
            simp only [Bool.true_and, decide_eq_true_eq]
            split_ifs <;> omega
          | false =>
            obtain ⟨e1, e2⟩ := k2 hc
            rw [e1]
            rcases h3' with h | h
            · left; unfold countClip; simp only [Bool.false_and]
              split_ifs <;> first | omega | simp_all
            · right; exact h

/-- **C118 (clipping, completeness).** Whatever the state before: if among the last at most 100 samples (one second of
filter updates) the clipped ones outnumber the clean ones, the counter is positive. -/
theorem clip_majority_seen (lim : ℚ) (s : St) (a b : List Frame) (hlen : b.length ≤ 100)
    (hmaj : Spec.clean b < Spec.clipped b) : 0 < (run lim s (a ++ b)).clip := by
  rw [run_append]
  rcases window_inv lim (run lim s a) b with h | ⟨k, h1, h2, h3⟩
  · omega
  · by_contra hc
    have hz : (run lim (run lim s a) b).clip = 0 := by omega
    have hk : k = b.length := by omega
    have hne : b ≠ [] := by rintro rfl; simp [Spec.clipped] at hmaj
    rcases h3 hk hne with h | h
    · omega
    · have hl := counts_length b
      omega

/-- **C118 (clipping, forgetting).** 100 samples without clipping always clear the evidence. -/
theorem clip_forgotten (lim : ℚ) (s : St) (a b : List Frame) (h0 : s.clip ≤ 100) (hb : ∀ f ∈ b, clipping f = false)
    (hlen : 100 ≤ b.length) : (run lim s (a ++ b)).clip = 0 := by
  rw [run_append]
  have h := clip_bounded lim s a h0
  generalize run lim s a = t at h
  have : ∀ b : List Frame, (∀ f ∈ b, clipping f = false) → (run lim t b).clip ≤ t.clip - b.length := by
    intro b
    induction b using List.reverseRecOn with
    | nil => intro _; simp [run]
    | append_singleton l f ih =>
      intro hb
      have i := ih (fun g hg => hb g (by simp [hg]))
      rw [run_snoc, step_clip, hb f (by simp), List.length_append, List.length_singleton]
      unfold countClip
      simp only [Bool.false_and]
      split_ifs <;> first | omega | simp_all
  have := this b hb
  omega

/-- the evidence of bad vertical acceleration at the last of a nonempty series of updates (fs then f) -/
def badAt (lim : ℚ) (s : St) (fs : List Frame) (f : Frame) : Prop :=
  Spec.Falling lim f ∧ (Spec.Independent f ∨ 0 < (run lim s (fs ++ [f])).clip)

theorem badNow_iff (lim : ℚ) (s : St) (fs : List Frame) (f : Frame) :
    badNow lim (countClip (run lim s fs).clip (clipping f)) f = true ↔ badAt lim s fs f := by
  unfold badNow badAt
  rw [run_snoc, step_clip, ← falling_iff, ← independent_iff]
  simp [and_comm]

/-- time stamps do not go backwards along the updates and leave room for adding the probation time -/
def Clock (fs : List Frame) : Prop :=
  fs.Pairwise (fun f g => f.now.toNat ≤ g.now.toNat) ∧ ∀ f ∈ fs, f.now.toNat + 10000000 < 2 ^ 64

theorem Clock.init {l : List Frame} {f : Frame} (h : Clock (l ++ [f])) : Clock l ∧ (∀ g ∈ l, g.now.toNat ≤ f.now.toNat) ∧
    f.now.toNat + 10000000 < 2 ^ 64 := by
  obtain ⟨h1, h2⟩ := h
  rw [List.pairwise_append] at h1
  exact ⟨⟨h1.1, fun g hg => h2 g (by simp [hg])⟩, fun g hg => h1.2.2 g hg f (by simp), h2 f (by simp)⟩

theorem recent_nat (now ts : UInt64) (h : ts.toNat + 10000000 < 2 ^ 64) :
    isRecent now ts 10000000 = true ↔ now.toNat < ts.toNat + 10000000 :=
  (timeout_meaning now ts 10000000 (by simpa using h)).2

/-- what is known after a series of updates: the stamp of the last bad evidence, the stamp of the last update without, and the flag -/
theorem run_inv (lim : ℚ) (s : St) (fs : List Frame) (h0 : s.flag = false) (hck : Clock fs) :
    let t := run lim s fs
    ((∀ a f b, fs = a ++ f :: b → ¬ badAt lim s a f) ∧ t.tBad = s.tBad ∧ t.flag = false ∨
      (∃ a f b, fs = a ++ f :: b ∧ badAt lim s a f ∧ t.tBad = f.now ∧
        (∀ a' f' b', fs = a' ++ f' :: b' → badAt lim s a' f' → f'.now.toNat ≤ f.now.toNat) ∧
        (∀ g ∈ fs.getLast?, t.flag = true ↔ g.now.toNat < f.now.toNat + 10000000))) := by
  induction fs using List.reverseRecOn with
  | nil => left; exact ⟨fun a f b h => by simp at h, rfl, h0⟩
  | append_singleton l g ih =>
    obtain ⟨hl, hmono, hroom⟩ := hck.init
    have hb := badNow_iff lim s l g
    have hsplit : ∀ a f b, l ++ [g] = a ++ f :: b → (b = [] ∧ a = l ∧ f = g) ∨ (∃ b', b = b' ++ [g] ∧ l = a ++ f :: b') := by
      intro a f b h
      rcases List.eq_nil_or_concat b with rfl | ⟨b', x, rfl⟩
      · left
        obtain ⟨e1, e2⟩ := List.append_inj' h rfl
        simp at e2
        exact ⟨rfl, e1.symm, e2.symm⟩
      · right
        have h' : l ++ [g] = (a ++ f :: b') ++ [x] := by rw [h]; simp
        obtain ⟨e1, e2⟩ := List.append_inj' h' rfl
        simp at e2
        exact ⟨b', by simp [e2], e1⟩
    have hlast : (l ++ [g]).getLast? = some g := by simp
    simp only [run_snoc, hlast, Option.mem_def, Option.some.injEq, forall_eq']
    by_cases hbad : badAt lim s l g
    · right
      refine ⟨l, g, [], rfl, hbad, ?_, ?_, ?_⟩
      · show (if _ then _ else _) = _
        rw [if_pos (hb.2 hbad)]
      · intro a' f' b' he _
        rcases hsplit a' f' b' he with ⟨_, _, rfl⟩ | ⟨b'', _, rfl⟩
        · exact le_rfl
        · exact hmono f' (by simp)
      · have : g.now.toNat < g.now.toNat + 10000000 := by omega
        simp only [this, iff_true]
        rw [step_flag, step_tBad, hb.2 hbad, if_pos rfl]
        by_cases hF : (run lim s l).flag = true
        on_goal 1 => rw [if_pos hF]
        on_goal 2 => rw [if_neg hF]
        exact (recent_nat _ _ hroom).2 this
    · have hnb : badNow lim (countClip (run lim s l).clip (clipping g)) g = false := by
        rw [← Bool.not_eq_true, hb]; exact hbad
      have htb : (step lim (run lim s l) g).tBad = (run lim s l).tBad := by
        show (if _ then _ else _) = _
        rw [if_neg (by rw [hnb]; simp)]
      have hfl : (step lim (run lim s l) g).flag = if (run lim s l).flag = true then isRecent g.now (run lim s l).tBad 10000000 else false := by
        rw [step_flag, htb, hnb]
      rcases ih hl with ⟨i1, i2, i3⟩ | ⟨a, f, b, rfl, i2, i3, i4, i5⟩
      · left
        refine ⟨?_, by rw [htb, i2], by rw [hfl, i3]; rfl⟩
        intro a f b he
        rcases hsplit a f b he with ⟨_, rfl, rfl⟩ | ⟨b'', _, rfl⟩
        · exact hbad
        · exact i1 a f b'' rfl
      · right
        refine ⟨a, f, b ++ [g], by simp, i2, by rw [htb, i3], ?_, ?_⟩
        · intro a' f' b' he hb'
          rcases hsplit a' f' b' he with ⟨_, rfl, rfl⟩ | ⟨b'', _, he'⟩
          · exact absurd hb' hbad
          · exact i4 a' f' b'' he' hb'
        · rw [hfl, i3]
          obtain ⟨q, hq⟩ : ∃ q, (a ++ f :: b).getLast? = some q := by
            cases hh : (a ++ f :: b).getLast? with
            | none => simp at hh
            | some q => exact ⟨q, rfl⟩
          have hqm : q ∈ a ++ f :: b := List.mem_of_getLast? hq
          have i5' := i5 q (by simp [hq])
          have hqn := hmono q hqm
          have hfr : f.now.toNat + 10000000 < 2 ^ 64 := hl.2 f (by simp)
          by_cases hF : (run lim s (a ++ f :: b)).flag = true
          · rw [if_pos hF, recent_nat _ _ hfr]
          · rw [if_neg hF]
            have : ¬ q.now.toNat < f.now.toNat + 10000000 := fun hh => hF (i5'.2 hh)
            simp; omega

/-- **C118 (fault flag).** From a start with the fault not declared and with a clock that does not go backwards: after any number
of filter updates the vertical accelerometer fault is declared exactly when there was an update with bad evidence (the inertial
navigation falling according to independent height and velocity measurements, or according to any of them during clipping)
less than 10 s before the latest update. -/
theorem fault_iff_recent_evidence (lim : ℚ) (s : St) (fs : List Frame) (g : Frame) (h0 : s.flag = false) (hck : Clock (fs ++ [g])) :
    (run lim s (fs ++ [g])).flag = true ↔
      ∃ a f b, fs ++ [g] = a ++ f :: b ∧ badAt lim s a f ∧ g.now.toNat < f.now.toNat + 10000000 := by
  rcases run_inv lim s (fs ++ [g]) h0 hck with ⟨i1, -, i3⟩ | ⟨a, f, b, i1, i2, i3, i4, i5⟩
  · rw [i3]
    constructor
    · intro h; cases h
    · rintro ⟨a, f, b, he, hb, _⟩; exact absurd hb (i1 a f b he)
  · rw [i5 g (by simp)]
    constructor
    · intro h; exact ⟨a, f, b, i1, i2, h⟩
    · rintro ⟨a', f', b', he, hb, hlt⟩
      have := i4 a' f' b' he hb
      omega

/-- the stamp of the last update without bad evidence -/
theorem good_inv (lim : ℚ) (s : St) (fs : List Frame) (hck : Clock fs) :
    let t := run lim s fs
    ((∀ a f b, fs = a ++ f :: b → badAt lim s a f) ∧ t.tGood = s.tGood) ∨
      (∃ a f b, fs = a ++ f :: b ∧ ¬ badAt lim s a f ∧ t.tGood = f.now ∧
        ∀ a' f' b', fs = a' ++ f' :: b' → ¬ badAt lim s a' f' → f'.now.toNat ≤ f.now.toNat) := by
  induction fs using List.reverseRecOn with
  | nil => left; exact ⟨fun a f b h => by simp at h, rfl⟩
  | append_singleton l g ih =>
    obtain ⟨hl, hmono, hroom⟩ := hck.init
    have hb := badNow_iff lim s l g
    have hsplit : ∀ a f b, l ++ [g] = a ++ f :: b → (b = [] ∧ a = l ∧ f = g) ∨ (∃ b', b = b' ++ [g] ∧ l = a ++ f :: b') := by
      intro a f b h
      rcases List.eq_nil_or_concat b with rfl | ⟨b', x, rfl⟩
      · left
        obtain ⟨e1, e2⟩ := List.append_inj' h rfl
        simp at e2
        exact ⟨rfl, e1.symm, e2.symm⟩
      · right
        have h' : l ++ [g] = (a ++ f :: b') ++ [x] := by rw [h]; simp
        obtain ⟨e1, e2⟩ := List.append_inj' h' rfl
        simp at e2
        exact ⟨b', by simp [e2], e1⟩
    simp only [run_snoc]
    by_cases hbad : badAt lim s l g
    · have htg : (step lim (run lim s l) g).tGood = (run lim s l).tGood := by
        show (if _ then _ else _) = _
        rw [if_pos (hb.2 hbad)]
      rcases ih hl with ⟨i1, i2⟩ | ⟨a, f, b, rfl, i2, i3, i4⟩
      · left
        refine ⟨?_, by rw [htg, i2]⟩
        intro a f b he
        rcases hsplit a f b he with ⟨_, rfl, rfl⟩ | ⟨b'', _, rfl⟩
        · exact hbad
        · exact i1 a f b'' rfl
      · right
        refine ⟨a, f, b ++ [g], by simp, i2, by rw [htg, i3], ?_⟩
        intro a' f' b' he hb'
        rcases hsplit a' f' b' he with ⟨_, rfl, rfl⟩ | ⟨b'', _, he'⟩
        · exact absurd hbad hb'
        · exact i4 a' f' b'' he' hb'
    · right
      refine ⟨l, g, [], rfl, hbad, ?_, ?_⟩
      · show (if _ then _ else _) = _
        rw [if_neg (by rw [hb]; exact hbad)]
      · intro a' f' b' he _
        rcases hsplit a' f' b' he with ⟨_, _, rfl⟩ | ⟨b'', _, rfl⟩
        · exact le_rfl
        · exact hmono f' (by simp)

/-- **C118 (continuous fault).** The "continuously bad" condition of the height reset (EKF/control.cpp:785, the value the height model
takes as `tGoodVert`) holds after a series of updates exactly when every update of the last `delay` microseconds showed bad evidence
(and the value left by the time before the series is older than that too). -/
theorem continuous_bad_iff (lim : ℚ) (s : St) (fs : List Frame) (g : Frame) (delay : UInt64) (hck : Clock (fs ++ [g]))
    (hroom : ∀ f ∈ fs ++ [g], f.now.toNat + delay.toNat < 2 ^ 64) (hs : s.tGood.toNat + delay.toNat < 2 ^ 64)
    (hs0 : ∀ f ∈ fs ++ [g], s.tGood.toNat ≤ f.now.toNat) :
    isTimedOut g.now (run lim s (fs ++ [g])).tGood delay = true ↔
      s.tGood.toNat + delay.toNat < g.now.toNat ∧
      ∀ a f b, fs ++ [g] = a ++ f :: b → g.now.toNat ≤ f.now.toNat + delay.toNat → badAt lim s a f := by
  rcases good_inv lim s (fs ++ [g]) hck with ⟨i1, i2⟩ | ⟨a, f, b, i1, i2, i3, i4⟩
  · rw [i2, (timeout_meaning _ _ _ hs).1]
    exact ⟨fun h => ⟨h, fun a f b he _ => i1 a f b he⟩, fun h => h.1⟩
  · have hf : f ∈ fs ++ [g] := by rw [i1]; simp
    rw [i3, (timeout_meaning _ _ _ (hroom f hf)).1]
    constructor
    · intro h
      refine ⟨by have := hs0 f hf; omega, ?_⟩
      intro a' f' b' he hle
      by_contra hnb
      have := i4 a' f' b' he hnb
      omega
    · rintro ⟨-, h⟩
      by_contra hc
      exact i2 (h a f b i1 (by omega))

/-! ## Findings -/

/-- an update with only a barometer height that is current and wrong by `r` standard deviations -/
def sample (t : UInt64) (r : ℚ) (clip : Bool) : Frame :=
  ⟨t, t, 0, some r, none, false, false, false, false, clip, false, false⟩

/-- **C118 (finding).** The comment asks for "more than 50% clipping affected IMU samples within the past 1 second".  One clipped
sample after any number of clean ones suffices. -/
theorem one_clipped_sample_suffices (lim : ℚ) (s : St) (a : List Frame) (f : Frame) (hf : clipping f = true)
    (hfall : Spec.Falling lim f) : badAt lim s a f ∧ 0 < (run lim s (a ++ [f])).clip := by
  have : 0 < (run lim s (a ++ [f])).clip := by
    apply clip_majority_seen lim s a [f] (by simp)
    have hf' : (f.clipX || f.clipY || f.clipZ) = true := hf
    simp only [Spec.clean, Spec.clipped, List.countP_cons, List.countP_nil, hf']; simp
  exact ⟨⟨hfall, Or.inr this⟩, this⟩

/-- **C118 (finding).** Conversely the window is not one second: after 100 clipped samples followed by 99 clean ones (one clipped
sample among the last 100) clipping still counts as frequent. -/
theorem old_clipping_counts (lim : ℚ) (f g : Frame) (hf : clipping f = true) (hg : clipping g = false) :
    (run lim {} (List.replicate 100 f ++ List.replicate 99 g)).clip = 1 := by
  have h1 : ∀ n, n ≤ 100 → (run lim {} (List.replicate n f)).clip = n := by
    intro n
    induction n with
    | zero => intro _; rfl
    | succ n ih =>
      intro hn
      rw [List.replicate_succ', run_snoc, step_clip, ih (by omega), hf]
      unfold countClip
      simp; omega
  have h2 : ∀ (t : St) n, n ≤ t.clip → (run lim t (List.replicate n g)).clip = t.clip - n := by
    intro t n
    induction n with
    | zero => intro _; rfl
    | succ n ih =>
      intro hn
      rw [List.replicate_succ', run_snoc, step_clip, ih (by omega), hg]
      unfold countClip
      simp only [Bool.false_and]
      split_ifs <;> first | omega | simp_all
  rw [run_append, h2 _ 99 (by rw [h1 100 le_rfl]; omega), h1 100 le_rfl]

/-- **C118 (finding).** A NaN height innovation ratio (negative innovation variance) is taken for healthy. -/
theorem nan_is_healthy (lim : ℚ) (s : St) (a : List Frame) (f : Frame) (h : f.posRatio = none) : ¬ badAt lim s a f := by
  rintro ⟨⟨-, h1⟩, -⟩
  rcases h1 with ⟨-, p, v, hp, -⟩ | ⟨-, p, hp, -⟩ <;> rw [h] at hp <;> cases hp

/-- Non-vacuity: a clipped sample at 20 s with the height 4 standard deviations off declares the fault, which is kept by a
clean sample 9.9 s later and dropped 10 s later. -/
example : (run 3 {} [sample 20000000 4 true]).flag = true ∧
    (run 3 {} [sample 20000000 4 true, sample 29900000 0 false]).flag = true ∧
    (run 3 {} [sample 20000000 4 true, sample 30000000 0 false]).flag = false ∧
    (run 3 {} [sample 20000000 4 false]).flag = false := by decide +kernel

/-- Non-vacuity of the clock hypothesis and the evidence for that series. -/
example : Clock [sample 20000000 4 true, sample 29900000 0 false] ∧ badAt 3 {} [] (sample 20000000 4 true) := by
  refine ⟨⟨?_, ?_⟩, ?_⟩
  · simp [sample]
  · simp [sample]
  · rw [← badNow_iff]; decide +kernel

/-- Non-vacuity of the continuous condition: bad evidence for 0.6 s with a 0.5 s delay. -/
example : isTimedOut 20600000 (run 3 {} [sample 19900000 0 false, sample 20000000 4 true, sample 20300000 4 true,
    sample 20600000 4 true]).tGood 500000 = true := by decide +kernel

end Ecl.VertAccel
