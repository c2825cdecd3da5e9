import Verif.Lemmas.CurveReal
import Verif.Theorems.C29
/-!
# Helper lemmas: curves, sensors and speeds built through the API, in exact arithmetic
-/

namespace GpsGen
open Finset

/-- Random numbers as `rnd.Float64()` returns them. -/
def UnitDraws (f : ℕ → ℝ) : Prop := ∀ i, 0 ≤ f i ∧ f i ≤ 1

/-- A curve with binomial weights whose control heights lie between its bounds and obey its mode. -/
def GoodCurve (c : Curve ℝ) (k : ℕ) : Prop :=
  ∃ y, Shaped c k y ∧ (∀ i, i ≤ k → min c.min c.max ≤ y i ∧ y i ≤ max c.min c.max) ∧
    (hasBit c.mode 14 = true → y 0 = c.min) ∧ (hasBit c.mode 13 = true → y k = c.min)

theorem good_new (mn mx : ℝ) (cps : Int) (mode : Int) (draws : ℕ → ℝ) (h : 0 < cps)
    (hd : UnitDraws draws) : GoodCurve (Curve.new mn mx cps mode draws) (cps.toNat - 1) := by
  refine ⟨_, shaped_new mn mx cps mode draws h, fun i _ => heightAt_bounds _ _ _ _ _ hd i, ?_, ?_⟩
  · intro hb
    exact if_pos ⟨hb, rfl⟩
  · intro hb
    unfold heightAt
    split
    · rfl
    · exact if_pos ⟨hb, rfl⟩

theorem good_shuffle {c : Curve ℝ} {k : ℕ} (h : GoodCurve c k) {draws : ℕ → ℝ}
    (hd : UnitDraws draws) : GoodCurve (c.shuffle draws) k := by
  obtain ⟨y, hs, -⟩ := h
  refine ⟨_, shaped_shuffle hs draws, fun i _ => heightAt_bounds _ _ _ _ _ hd i, ?_, ?_⟩
  · intro hb
    exact if_pos ⟨hb, rfl⟩
  · intro hb
    unfold heightAt
    split
    · rfl
    · exact if_pos ⟨hb, rfl⟩

/-- Evaluating such a curve. -/
theorem good_point {c c' : Curve ℝ} {k : ℕ} {t : ℝ} {p : Pt ℝ} (h : GoodCurve c k)
    (hp : c.point t = .ok (c', p)) :
    GoodCurve c' k ∧ c'.min = c.min ∧ c'.max = c.max ∧ c'.mode = c.mode ∧ p.x = k * t ∧
    (0 ≤ t → t ≤ 1 → min c.min c.max ≤ p.y ∧ p.y ≤ max c.min c.max) ∧
    (hasBit c.mode 14 = true → t = 0 → p.y = c.min) ∧
    (hasBit c.mode 13 = true → t = 1 → p.y = c.min) := by
  obtain ⟨hc, h1, h2, h3, -⟩ := C29.point_preserves c c' t p hp
  obtain ⟨y, hs, hb, hm0, hm1⟩ := h
  obtain ⟨c'', hv⟩ := shaped_point hs t
  rw [hp] at hv
  cases hv
  refine ⟨⟨y, shaped_congr hs hc, ?_, ?_, ?_⟩, h1, h2, h3, rfl, ?_, ?_, ?_⟩
  · rw [h1, h2]; exact hb
  · rw [h1, h3]; exact hm0
  · rw [h1, h3]; exact hm1
  · intro h0 h1
    exact bern_bounds k t _ _ h0 h1 y hb
  · intro hb ht
    subst ht
    simp only [bern_zero]
    rw [sum_eq_single 0 (by intro i _ hi; simp [hi]) (by simp)]
    simp [hm0 hb]
  · intro hb ht
    subst ht
    simp only
    rw [sum_eq_single k (by
      intro i hi hne
      rw [bern_one k i (by simpa [Nat.lt_succ_iff] using hi), if_neg hne, mul_zero]) (by simp)]
    rw [bern_one k k le_rfl]
    simp [hm1 hb]

theorem good_point_ok {c : Curve ℝ} {k : ℕ} (h : GoodCurve c k) (t : ℝ) :
    ∃ c' p, c.point t = .ok (c', p) := by
  obtain ⟨y, hs, -⟩ := h
  obtain ⟨c'', hv⟩ := shaped_point hs t
  exact ⟨_, _, hv⟩

/-! ## Sensors -/

/-- A sensor over a good curve with the sensor's own bounds. -/
def GoodSensor (s : Sensor ℝ) : Prop := (∃ k, GoodCurve s.gen k) ∧ s.gen.min = s.min ∧ s.gen.max = s.max

theorem validateAmplitude_ok {a : Int} (h : validateAmplitude a = .ok ()) : 4 ≤ a ∧ a ≤ 512 := by
  unfold validateAmplitude at h
  split at h
  · cases h
  split at h
  · cases h
  omega

theorem sensor_new_eq {F : Type} [GoFloat F] {uid : String} {draws : ℕ → F} {name : String} {mn mx : F}
    {amp : Int} {mode : UInt16} {s : Sensor F} (h : Sensor.new uid draws name mn mx amp mode = .ok s) :
    4 ≤ amp ∧ amp ≤ 512 ∧
    s = ⟨uid, name, mn, mx, lit 0, lit 0, Curve.new mn mx amp (normSensorMode mode) draws⟩ := by
  unfold Sensor.new at h
  obtain ⟨_, ha, h⟩ := bind_eq_ok h
  split at h
  · cases h
  · cases h
    exact ⟨(validateAmplitude_ok ha).1, (validateAmplitude_ok ha).2, rfl⟩

theorem sensor_restore_eq {F : Type} [GoFloat F] {p : Option String} {draws : ℕ → F} {name : String}
    {mn mx : F} {amp : Int} {mode : UInt16} {s : Sensor F}
    (h : Sensor.restore p draws name mn mx amp mode = .ok s) :
    ∃ uid, p = some uid ∧ 4 ≤ amp ∧ amp ≤ 512 ∧
    s = ⟨uid, name, mn, mx, lit 0, lit 0, Curve.new mn mx amp (normSensorMode mode) draws⟩ := by
  unfold Sensor.restore at h
  split at h
  · cases h
  · rename_i sid
    split at h
    · cases h
    · obtain ⟨_, ha, h⟩ := bind_eq_ok h
      cases h
      exact ⟨sid, rfl, (validateAmplitude_ok ha).1, (validateAmplitude_ok ha).2, rfl⟩

theorem sensor_new_good {uid : String} {draws : ℕ → ℝ} {name : String} {mn mx : ℝ} {amp : Int}
    {mode : UInt16} {s : Sensor ℝ} (hd : UnitDraws draws)
    (h : Sensor.new uid draws name mn mx amp mode = .ok s) : GoodSensor s := by
  obtain ⟨h1, -, rfl⟩ := sensor_new_eq h
  exact ⟨⟨_, good_new _ _ _ _ _ (by omega) hd⟩, rfl, rfl⟩

theorem sensor_shuffle_good {s : Sensor ℝ} (h : GoodSensor s) {draws : ℕ → ℝ} (hd : UnitDraws draws) :
    GoodSensor (s.shuffle draws) := by
  obtain ⟨⟨k, hk⟩, h1, h2⟩ := h
  exact ⟨⟨k, good_shuffle hk hd⟩, h1, h2⟩

theorem sensor_next_eq {F : Type} [GoFloat F] {s s' : Sensor F} {t : F} (h : s.next t = .ok s') :
    ∃ g p, s.gen.point t = .ok (g, p) ∧ s' = { s with gen := g, valX := p.x, valY := p.y } := by
  unfold Sensor.next at h
  obtain ⟨⟨g, p⟩, h1, h⟩ := bind_eq_ok h
  cases h
  exact ⟨g, p, h1, rfl⟩

/-- A sensor step keeps the curve good; for a parameter in the unit interval the value is between
the bounds. -/
theorem sensor_next_good {s s' : Sensor ℝ} {t : ℝ} (h : GoodSensor s) (hn : s.next t = .ok s') :
    GoodSensor s' ∧ s'.min = s.min ∧ s'.max = s.max ∧
    (0 ≤ t → t ≤ 1 → min s.min s.max ≤ s'.valY ∧ s'.valY ≤ max s.min s.max) := by
  obtain ⟨g, p, hp, rfl⟩ := sensor_next_eq hn
  obtain ⟨⟨k, hk⟩, h1, h2⟩ := h
  obtain ⟨a, b, c, -, -, d, -⟩ := good_point hk hp
  refine ⟨⟨⟨k, a⟩, b.trans h1, c.trans h2⟩, rfl, rfl, ?_⟩
  rw [← h1, ← h2]
  exact d

/-! ## Speed -/

/-- A speed over a good curve with its own bounds, which are ordered, non-negative and not both
zero. -/
def GoodSpeed (s : Speed ℝ) : Prop :=
  (∃ k, GoodCurve s.gen k) ∧ s.gen.min = s.min ∧ s.gen.max = s.max ∧ 0 ≤ s.min ∧ s.min ≤ s.max ∧ 0 < s.max

theorem speed_new_good {draws : ℕ → ℝ} {mn mx : ℝ} {amp : Int} {s : Speed ℝ} (hd : UnitDraws draws)
    (h : Speed.new draws mn mx amp = .ok s) : GoodSpeed s := by
  unfold Speed.new at h
  split at h
  · cases h
  rename_i h1
  split at h
  · cases h
  generalize hm : (if (mx <=. lit 0) = true then mn else mx) = mx' at h
  simp only at h
  split at h
  · cases h
  rename_i h2
  simp only [real_lt, real_lit, decide_eq_true_eq, not_lt, Rat.cast_zero] at h1 h2
  by_cases hz : ((mn ==. lit 0) && (mx' ==. lit 0)) = true
  · rw [if_pos hz] at h
    obtain ⟨_, ha, h⟩ := bind_eq_ok h
    cases h
    have := validateAmplitude_ok ha
    refine ⟨⟨_, good_new _ _ _ _ _ (by omega) hd⟩, rfl, rfl, ?_, ?_, ?_⟩ <;> simp
  · rw [if_neg hz] at h
    obtain ⟨_, ha, h⟩ := bind_eq_ok h
    cases h
    have := validateAmplitude_ok ha
    refine ⟨⟨_, good_new _ _ _ _ _ (by omega) hd⟩, rfl, rfl, h1, h2, ?_⟩
    simp only [real_eq, real_lit, Rat.cast_zero, Bool.and_eq_true, decide_eq_true_eq, not_and] at hz
    rcases lt_or_eq_of_le (h1.trans h2) with h | h
    · exact h
    · exact absurd h.symm (hz (le_antisymm (h ▸ h2) h1))

theorem speed_shuffle_good {s : Speed ℝ} (h : GoodSpeed s) {draws : ℕ → ℝ} (hd : UnitDraws draws) :
    GoodSpeed (s.shuffle draws) := by
  obtain ⟨⟨k, hk⟩, h⟩ := h
  exact ⟨⟨k, good_shuffle hk hd⟩, h⟩

theorem speed_next_good {s s' : Speed ℝ} {t : ℝ} (h : GoodSpeed s) (hn : s.next t = .ok s') :
    GoodSpeed s' ∧ s'.min = s.min ∧ s'.max = s.max ∧
    (0 ≤ t → t ≤ 1 → s.min ≤ s'.value ∧ s'.value ≤ s.max) := by
  unfold Speed.next at hn
  split at hn
  · rename_i hst
    cases hn
    refine ⟨h, rfl, rfl, fun _ _ => ?_⟩
    simp only [Speed.value, hst, if_true]
    exact ⟨le_rfl, h.2.2.2.2.1⟩
  · rename_i hst
    obtain ⟨⟨g, p⟩, hp, hn⟩ := bind_eq_ok hn
    cases hn
    obtain ⟨⟨k, hk⟩, h1, h2, h3, h4, h5⟩ := h
    obtain ⟨a, b, c, -, -, d, -⟩ := good_point hk hp
    refine ⟨⟨⟨k, a⟩, b.trans h1, c.trans h2, h3, h4, h5⟩, rfl, rfl, fun ht0 ht1 => ?_⟩
    have := d ht0 ht1
    rw [h1, h2, min_eq_left h4, max_eq_right h4] at this
    unfold Speed.value
    split
    · exact ⟨le_rfl, h4⟩
    · exact this

end GpsGen
