import Verif.Model.Device
import Verif.Model.NumReal
import Verif.Lemmas.DeviceNext
import Verif.Lemmas.Toy
import Mathlib.Tactic.Linarith
import Mathlib.Tactic.FieldSimp
/-!
# C49: degrees, minutes and seconds

Exact arithmetic. Proved: the ranges, the exact sum and the direction of a coordinate other than zero.
At zero the code writes the letter of the negative direction, "S" or "W" (`zero_direction`).
-/

namespace GpsGen
namespace C49

/-- The degrees, minutes and seconds of a coordinate: the specification. -/
structure Spec (pos neg : String) (v : ℝ) (x : DMS ℝ) : Prop where
  degrees : 0 ≤ x.degrees
  minutes : 0 ≤ x.minutes ∧ x.minutes < 60
  seconds : 0 ≤ x.seconds ∧ x.seconds < 60
  sum : (x.degrees : ℝ) + x.minutes / 60 + x.seconds / 3600 = |v|
  positive : 0 < v → x.direction = pos
  negative : v < 0 → x.direction = neg

/-- **C49.** -/
theorem dms_exact (pos neg : String) (v : ℝ) : Spec pos neg v (toDMS pos neg v) := by
  have ha := abs_nonneg v
  set a := |v| with ha'
  have hd : (toDMS pos neg v).degrees = ⌊a⌋ := by
    simp [toDMS, real_toInt, ha']
  have hf0 : 0 ≤ a - ⌊a⌋ := by linarith [Int.floor_le a]
  have hf1 : a - ⌊a⌋ < 1 := by linarith [Int.lt_floor_add_one a]
  have hm : (toDMS pos neg v).minutes = ⌊(a - ⌊a⌋) * 60⌋ := by
    have h60 : (0 : ℝ) ≤ (a - ⌊a⌋) * 60 := by linarith
    have e : (toDMS pos neg v).minutes = GoMath.toInt ((a - ⌊a⌋) * 60 : ℝ) := by
      simp [toDMS, real_toInt, ha']
    rw [e, real_toInt, if_pos h60]
  have hs : (toDMS pos neg v).seconds = (a - ⌊a⌋ - ⌊(a - ⌊a⌋) * 60⌋ / 60) * 3600 := by
    have e : (toDMS pos neg v).seconds =
        (a - (toDMS pos neg v).degrees - (toDMS pos neg v).minutes / 60) * 3600 := by
      simp [toDMS, ha']
    rw [e, hd, hm]
  have g1 := Int.floor_le ((a - ⌊a⌋) * 60)
  have g2 := Int.lt_floor_add_one ((a - ⌊a⌋) * 60)
  refine ⟨?_, ⟨?_, ?_⟩, ⟨?_, ?_⟩, ?_, ?_, ?_⟩
  · rw [hd]; exact Int.floor_nonneg.mpr ha
  · rw [hm]; exact Int.floor_nonneg.mpr (by linarith)
  · rw [hm, Int.floor_lt]; push_cast; linarith
  · rw [hs]; linarith
  · rw [hs]; linarith
  · rw [hd, hm, hs]; ring
  · intro h; simp [toDMS, h]
  · intro h; simp [toDMS, not_lt.mpr h.le]

/-- Which conversions are published. -/
theorem location_dms {F : Type} [GoMath F] {n : Navigator F} {s s' : DevState F} (h : n.update s = .ok s') :
    s'.loc.latDms = toDMS "N" "S" n.point.lat ∧ s'.loc.lonDms = toDMS "E" "W" n.point.lon := by
  unfold Navigator.update at h
  obtain ⟨_, -, h⟩ := bind_eq_ok h
  obtain ⟨_, -, h⟩ := bind_eq_ok h
  obtain ⟨_, -, h⟩ := bind_eq_ok h
  obtain ⟨_, -, h⟩ := bind_eq_ok h
  obtain ⟨_, -, h⟩ := bind_eq_ok h
  obtain ⟨_, -, h⟩ := bind_eq_ok h
  cases h
  exact ⟨rfl, rfl⟩

/-- Both halves of every published location are exact. -/
theorem location_exact (n : Navigator ℝ) (s s' : DevState ℝ) (h : n.update s = .ok s') :
    Spec "N" "S" n.point.lat s'.loc.latDms ∧ Spec "E" "W" n.point.lon s'.loc.lonDms := by
  rw [(location_dms h).1, (location_dms h).2]
  exact ⟨dms_exact .., dms_exact ..⟩

/-- The equator is south and the prime meridian west. -/
theorem zero_direction (pos neg : String) : (toDMS pos neg (0 : ℝ)).direction = neg := by
  simp [toDMS]

/-! Non-vacuity: 55.7525 degrees west. -/

example : toDMS "E" "W" (Toy.of (-223/4 - 1/400)) = ⟨55, 45, Toy.of 9, "W"⟩ := by decide +kernel

end C49
end GpsGen
