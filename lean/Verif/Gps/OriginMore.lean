import Verif.Gps.Origin

/-!
# C38, C115 — rough fixes, what is stored with a GPS sample

Added after mutation testing: the return value of `collect_gps`, the rough-fix branch and the position stored with the sample.
-/

namespace Ecl.Gps

variable (g : GeoLib) (p : Params)

/-- **C38.** A message is collected exactly when there is an origin (possibly set by this very message) and the fix is at least 3D. -/
theorem collected_iff (x : OIn) (o : Org) :
    (collect g p x o).2 = true ↔ (collect g p x o).1.ned = true ∧ 3 ≤ x.msg.fix := by
  unfold collect
  simp only [Bool.and_eq_true, decide_eq_true_iff]

/-- everything the rough-fix branch must leave alone -/
def Spec.sameReference (a b : Org) : Prop :=
  a.ned = b.ned ∧ a.ref = b.ref ∧ a.refT = b.refT ∧ a.alt = b.alt ∧ a.orgT = b.orgT ∧ a.gsfReq = b.gsfReq ∧ a.gsfT = b.gsfT ∧
  a.eph = b.eph ∧ a.epv = b.epv ∧ a.hgtStart = b.hgtStart ∧ a.info = b.info

/-- **C115 (rough fix).** As long as there is no origin, a message that does not set it but has a 2D fix with an accuracy better than 1000 m
provides declination, inclination, strength and earth rate for its position, and requests a yaw reset if the declination was unknown and the
magnetometer is in use; any other message changes none of these.  The reference is never touched. -/
theorem rough_fix (x : OIn) (o : Org) (h0 : o.ned = false) (h1 : (collect g p x o).1.ned = false) :
    let n := (collect g p x o).1
    Spec.sameReference n o ∧
    (2 ≤ x.msg.fix ∧ x.msg.eph < 1000 →
      n.decl = some (g.declination x.msg.pos) ∧ n.incl = some (g.inclination x.msg.pos) ∧ n.strength = some (g.strength x.msg.pos) ∧
      n.earthRate = g.earthRate x.msg.pos.1 ∧ (n.magReq = true ↔ o.magReq = true ∨ (x.magType ≠ 5 ∧ o.decl = none))) ∧
    (¬ (2 ≤ x.msg.fix ∧ x.msg.eph < 1000) →
      n.decl = o.decl ∧ n.incl = o.incl ∧ n.strength = o.strength ∧ n.earthRate = o.earthRate ∧ n.magReq = o.magReq) := by
  intro n
  have hng : ¬ (x.filterInit = true ∧ (isGood g p x.toIn o.chk).2 = true) := fun h => by
    rw [(origin_set_iff g p x o).mpr (Or.inr h)] at h1; simp at h1
  obtain ⟨o1, ho1⟩ : ∃ o1 : Org, o1 = { o with chk := (isGood g p x.toIn o.chk).1, passed := (isGood g p x.toIn o.chk).2 } := ⟨_, rfl⟩
  have hn : n = roughFix g x o1 := by
    show (collect g p x o).1 = _
    unfold collect
    simp only [h0, Bool.not_false, Bool.and_true, if_true]
    rw [if_neg (by rw [Bool.and_eq_true]; exact hng), ho1]
    simp only [h0]
  have f1 : o1.decl = o.decl := by rw [ho1]
  have f2 : o1.magReq = o.magReq := by rw [ho1]
  rw [hn]
  by_cases hc : 2 ≤ x.msg.fix ∧ x.msg.eph < 1000
  · unfold roughFix setMag
    rw [if_pos hc]
    simp only []
    refine ⟨?_, fun _ => ?_, fun h => absurd hc h⟩
    · rw [ho1]; unfold Spec.sameReference; split_ifs <;> exact ⟨rfl, rfl, rfl, rfl, rfl, rfl, rfl, rfl, rfl, rfl, rfl⟩
    · by_cases hm : x.magType = 5
      · rw [if_neg (by simpa using hm)]
        refine ⟨by trivial, by trivial, by trivial, by trivial, ?_⟩
        show o1.magReq = true ↔ _
        rw [f2]; simp [hm]
      · rw [if_pos hm, f1]
        cases hd : o.decl
        · refine ⟨by trivial, by trivial, by trivial, by trivial, ?_⟩
          simp [hm]
        · refine ⟨by trivial, by trivial, by trivial, by trivial, ?_⟩
          show o1.magReq = true ↔ _
          rw [f2]; simp
  · unfold roughFix
    rw [if_neg hc]
    refine ⟨?_, fun h => absurd h hc, fun _ => ?_⟩
    · rw [ho1]; exact ⟨rfl, rfl, rfl, rfl, rfl, rfl, rfl, rfl, rfl, rfl, rfl⟩
    · rw [ho1]; exact ⟨rfl, rfl, rfl, rfl, rfl⟩

/-- calls that can change the origin -/
inductive OrgEv
  | gps (x : OIn)
  | command (now : UInt64) (new : ℝ × ℝ) (altitude : ℝ) (aiding : Bool) (posN posE posD : ℝ)

/-- one call -/
noncomputable def orgStep (o : Org) : OrgEv → Org
  | .gps x => (setGps g p x o).1
  | .command now new alt aiding n e d => (setGlobalOrigin g now new alt aiding n e d o).1

/-- **C115.** In every history of GPS messages and commanded origins, an initialised origin has a reference position: the projection used for
the samples is always defined. -/
theorem origin_has_reference (o : Org) (h : o.ned = true → o.ref.isSome = true) (es : List OrgEv) :
    (es.foldl (orgStep g p) o).ned = true → (es.foldl (orgStep g p) o).ref.isSome = true := by
  induction es generalizing o with
  | nil => exact h
  | cons e es ih =>
    refine ih _ ?_
    intro hn
    cases e with
    | gps x =>
      unfold orgStep setGps at hn ⊢
      by_cases hx : 2 < x.msg.fix
      · simp only [hx, if_true] at hn ⊢
        by_cases h0 : o.ned = true
        · have := (origin_never_moves g p o h0 [x]).2.1
          show (collectAll g p o [x]).ref.isSome = true
          rw [this]; exact h h0
        · rw [(origin_values g p x o hn (by simpa using h0)).1]; rfl
      · simp only [hx, if_false] at hn ⊢
        exact h hn
    | command now new alt aiding n e d =>
      unfold orgStep setGlobalOrigin
      cases o.ref <;> cases aiding <;> rfl

/-- **C115 (stored position).** The horizontal position stored with a sample is the projection of the message position onto the origin if there
is one after the message has been processed, and (0, 0) otherwise; messages without 3D fix store nothing. -/
theorem stored_position (x : OIn) (o : Org) (h : o.ned = true → o.ref.isSome = true) :
    (x.msg.fix ≤ 2 → (setGps g p x o).2 = none) ∧
    (2 < x.msg.fix → (setGps g p x o).1.ned = true →
      ∃ r, (setGps g p x o).1.ref = some r ∧ (setGps g p x o).2 = some (g.project r x.msg.pos)) ∧
    (2 < x.msg.fix → (setGps g p x o).1.ned = false → (setGps g p x o).2 = some (0, 0)) := by
  refine ⟨fun hx => ?_, fun hx hn => ?_, fun hx hn => ?_⟩
  · unfold setGps; rw [if_neg (by omega)]
  · have hr := origin_has_reference g p o h [.gps x] hn
    have hr' : (setGps g p x o).1.ref.isSome = true := hr
    obtain ⟨r, hr⟩ := Option.isSome_iff_exists.mp hr'
    refine ⟨r, hr, ?_⟩
    unfold setGps at hr hn ⊢
    simp only [hx, if_true] at hr hn ⊢
    rw [if_pos ((collected_iff g p x o).mpr ⟨hn, by omega⟩), hr]; rfl
  · unfold setGps at hn ⊢
    simp only [hx, if_true] at hn ⊢
    rw [if_neg (fun hc => by rw [((collected_iff g p x o).mp hc).1] at hn; simp at hn)]

/-- **C115, finding.** A sample received just before the origin is set keeps the position (0, 0) in the buffer; the origin set by the next message
may be anywhere, so the buffered position does not describe the place of the message: there are two consecutive messages, the second setting the
origin, such that the first one's stored position differs from its projection onto that origin. -/
theorem early_sample_misplaced (g : GeoLib) (p : Params) (x y : OIn) (o : Org) (hx : 2 < x.msg.fix)
    (h0 : o.ned = false) (hb : x.filterInit = false ∨ (isGood g p x.toIn o.chk).2 = false)
    (r : ℝ × ℝ) (hr : (setGps g p y (setGps g p x o).1).1.ref = some r) (hne : g.project r x.msg.pos ≠ (0, 0)) :
    (setGps g p x o).2 = some (0, 0) ∧ (setGps g p x o).2 ≠ (setGps g p y (setGps g p x o).1).1.ref.map (fun q => g.project q x.msg.pos) := by
  have hn : (setGps g p x o).1.ned = false := by
    unfold setGps; simp only [hx, if_true]
    rw [Bool.eq_false_iff]; intro hc
    rcases (origin_set_iff g p x o).mp hc with h | ⟨h1, h2⟩
    · rw [h0] at h; simp at h
    · rcases hb with h | h
      · rw [h] at h1; simp at h1
      · rw [h] at h2; simp at h2
  have := (stored_position g p x o (fun h => by rw [h0] at h; simp at h)).2.2 hx hn
  refine ⟨this, ?_⟩
  rw [this, hr]
  intro hc
  exact hne (Option.some.inj hc).symm

/-! ## Non-vacuity -/

/-- `rough_fix` applies: the filter is not initialised yet -/
example (x : OIn) (h : x.filterInit = false) : (collect exGeo exParams x exOrg).1.ned = false := by
  rw [Bool.eq_false_iff]; intro hc
  rcases (origin_set_iff _ _ _ _).mp hc with h' | ⟨h', -⟩
  · exact Bool.false_ne_true h'
  · rw [h] at h'; exact Bool.false_ne_true h'

/-- `stored_position` with an origin set by the message itself -/
example : (setGps exGeo exParams (exOIn 12000000) exOrg).1.ned = true ∧ 2 < (exOIn 12000000).msg.fix := by
  have hf : 2 < (exOIn 12000000).msg.fix := (show 2 < 3 by decide)
  refine ⟨?_, hf⟩
  have hn : (collect exGeo exParams (exOIn 12000000) exOrg).1.ned = true :=
    (origin_set_iff _ _ _ _).mpr (Or.inr ⟨rfl, exOrg_good⟩)
  unfold setGps
  rw [if_pos hf]
  exact hn

/-- `early_sample_misplaced` applies: a first message before the filter is initialised, a second one that sets the origin while aiding
has already carried the vehicle 10 m -/
example : ∃ r, (setGps exGeo exParams (exOIn 12000000) (setGps exGeo exParams { exOIn 12000000 with filterInit := false } exOrg).1).1.ref = some r := by
  have hf : 2 < (exOIn 12000000).msg.fix := (show 2 < 3 by decide)
  have hn : ∀ o : Org, o.ref = none ∨ (∃ r, o.ref = some r) := fun o => by cases o.ref <;> simp
  rcases hn (setGps exGeo exParams (exOIn 12000000) (setGps exGeo exParams { exOIn 12000000 with filterInit := false } exOrg).1).1 with h | h
  · exfalso
    have h2 : (setGps exGeo exParams { exOIn 12000000 with filterInit := false } exOrg).1.chk =
        (isGood exGeo exParams (exIn 12000000) exOrg.chk).1 := by
      unfold setGps
      rw [if_pos (by exact hf)]
      unfold collect
      simp only [Bool.false_and, Bool.false_eq_true, if_false]
      split_ifs
      · unfold roughFix setMag; simp only []; split_ifs <;> rfl
      · rfl
    have hned : (setGps exGeo exParams (exOIn 12000000) (setGps exGeo exParams { exOIn 12000000 with filterInit := false } exOrg).1).1.ned = true := by
      unfold setGps
      rw [if_pos hf, if_pos (by exact hf)]
      refine (origin_set_iff _ _ _ _).mpr (Or.inr ⟨rfl, ?_⟩)
      have e : (collect exGeo exParams { exOIn 12000000 with filterInit := false } exOrg).1.chk =
          (isGood exGeo exParams (exIn 12000000) exOrg.chk).1 := by
        have := h2; unfold setGps at this; rw [if_pos (by exact hf)] at this; exact this
      show (isGood exGeo exParams (exIn 12000000) (collect exGeo exParams { exOIn 12000000 with filterInit := false } exOrg).1.chk).2 = true
      rw [e]
      obtain ⟨k1, k2, k3, k⟩ := exIn_ok 12000000 exOrg.chk ⟨rfl, rfl, rfl, rfl, rfl, rfl⟩ (fun h => absurd h (by decide))
      have hlf : (isGood exGeo exParams (exIn 12000000) exOrg.chk).1.lastFail = 1000000 := by
        rw [isGood_lastFail, if_neg (fun hh => k ((anyFail_iff _ _).mp hh)), if_neg (show ¬ exOrg.chk.lastFail = 0 by decide)]
        rfl
      obtain ⟨-, -, -, k'⟩ := exIn_ok 12000000 (isGood exGeo exParams (exIn 12000000) exOrg.chk).1 k1 (fun _ => ⟨k2, k3⟩)
      rw [isGood_result, isGood_lastFail, if_neg (fun hh => k' ((anyFail_iff _ _).mp hh)), hlf]
      rw [if_neg (by decide)]
      decide
    have := origin_has_reference exGeo exParams exOrg (fun h => absurd h (by decide))
      [.gps { exOIn 12000000 with filterInit := false }, .gps (exOIn 12000000)] hned
    have h3 : (setGps exGeo exParams (exOIn 12000000) (setGps exGeo exParams { exOIn 12000000 with filterInit := false } exOrg).1).1.ref.isSome = true := this
    rw [h] at h3
    simp at h3
  · exact h

end Ecl.Gps
