import Verif.Theorems.C46
/-!
# C47: the destination lies at the requested distance

Exact arithmetic; start latitude in [-90, 90]. The longitude is in [-180, 180) for start longitudes from
-360 on, in particular for every valid one; below that the normalisation fails (`far_west`), so the claim for
all real start longitudes is false and the theorems are partial.
-/

namespace GpsGen
namespace C47
open Real

/-- `Destination` returns this point. -/
theorem dest_dot (φ δ θ : ℝ) (hc : 0 ≤ cos φ) :
    let s := sin φ * cos δ + cos φ * sin δ * cos θ
    dot φ (arcsin s) (Complex.arg ⟨cos δ - sin φ * sin (arcsin s), sin θ * sin δ * cos φ⟩) = cos δ := by
  intro s
  obtain ⟨s1, s2⟩ := dest_sin_abs φ δ θ
  have hs : sin (arcsin s) = s := sin_arcsin s1 s2
  have hcs : 0 ≤ cos (arcsin s) := cos_arcsin_nonneg s
  have hsq := sin_sq_add_cos_sq (arcsin s)
  rw [hs] at hsq
  have hp := dest_polar φ δ θ
  obtain ⟨p1, -⟩ := polar (x := cos δ - sin φ * s) (y := sin θ * sin δ * cos φ)
    (mul_nonneg hc hcs) (by
      have : (cos φ * cos (arcsin s)) ^ 2 = cos φ ^ 2 * (1 - s ^ 2) := by
        rw [mul_pow]; congr 1; linarith
      rw [this]; exact hp)
  unfold dot
  rw [hs, p1]
  ring

theorem lat_range (lat lon m b : ℝ) :
    -90 ≤ (destination lat lon m b).lat ∧ (destination lat lon m b).lat ≤ 90 := by
  rw [destination_rad]
  have hp := pi_pos
  set s := sin (rad lat) * cos (m / 6371000) + cos (rad lat) * sin (m / 6371000) * cos (rad b)
  have h1 := neg_pi_div_two_le_arcsin s
  have h2 := arcsin_le_pi_div_two s
  have e : (90 : ℝ) = π / 2 * (180 / π) := by field_simp; norm_num
  have hq : 0 < 180 / π := by positivity
  constructor
  · rw [e, ← neg_mul]
    exact mul_le_mul_of_nonneg_right (by linarith) hq.le
  · rw [e]
    exact mul_le_mul_of_nonneg_right h2 hq.le

theorem lon_range_partial (lat lon m b : ℝ) (h : -360 ≤ lon) :
    -180 ≤ (destination lat lon m b).lon ∧ (destination lat lon m b).lon < 180 := by
  rw [destination_rad]
  have hp := pi_pos
  set a := Complex.arg ⟨_, _⟩ with ha
  have h1 := Complex.neg_pi_lt_arg (⟨cos (m / 6371000) - sin (rad lat) * sin (arcsin (sin (rad lat) * cos (m / 6371000) +
    cos (rad lat) * sin (m / 6371000) * cos (rad b))), sin (rad b) * sin (m / 6371000) * cos (rad lat)⟩ : ℂ)
  have hl : -(2 * π) ≤ rad lon := by unfold rad; nlinarith
  obtain ⟨n1, n2⟩ := normLon_range (l := rad lon + a) (by rw [← ha] at h1; linarith)
  have e : (180 : ℝ) = π * (180 / π) := by field_simp
  have hq : 0 < 180 / π := by positivity
  constructor
  · show -180 ≤ normLon (rad lon + a) * (180 / π)
    rw [show (-180 : ℝ) = -π * (180 / π) by rw [neg_mul, ← e]]
    exact mul_le_mul_of_nonneg_right n1 hq.le
  · show normLon (rad lon + a) * (180 / π) < 180
    calc _ < π * (180 / π) := mul_lt_mul_of_pos_right n2 hq
      _ = 180 := by field_simp

/-- **C47, distance.** The destination is at the requested distance. -/
theorem distance_requested (lat lon m b : ℝ) (hlat : -90 ≤ lat ∧ lat ≤ 90) (h0 : 0 ≤ m) (h1 : m ≤ π * 6371000) :
    distance lat lon (destination lat lon m b).lat (destination lat lon m b).lon = m := by
  have hd := dest_dot (rad lat) (m / 6371000) (rad b) (cos_rad_nonneg hlat)
  simp only at hd
  rw [distance_arccos, destination_rad]
  simp only
  rw [rad_deg]
  set s := sin (rad lat) * cos (m / 6371000) + cos (rad lat) * sin (m / 6371000) * cos (rad b)
  set a := Complex.arg ⟨cos (m / 6371000) - sin (rad lat) * sin (arcsin s), sin (rad b) * sin (m / 6371000) * cos (rad lat)⟩
  obtain ⟨k, hk⟩ := normLon_shift (rad lon + a)
  have e : rad (normLon (rad lon + a) * (180 / π) - lon) = a + k * (2 * π) := by
    have : rad (normLon (rad lon + a) * (180 / π) - lon) = rad (normLon (rad lon + a) * (180 / π)) - rad lon := by
      unfold rad; ring
    rw [this, rad_deg, hk]; ring
  have e2 : dot (rad lat) (arcsin s) (a + k * (2 * π)) = dot (rad lat) (arcsin s) a := by
    unfold dot; rw [cos_add_int_mul_two_pi]
  rw [e, e2, hd, arccos_cos (by positivity) (by rw [div_le_iff₀ (by norm_num)]; linarith)]
  field_simp

/-- **C47.** For every valid start point, any bearing and any distance up to half the circumference. -/
theorem destination_requested_partial (lat lon m b : ℝ) (hlat : -90 ≤ lat ∧ lat ≤ 90) (hlon : -180 ≤ lon ∧ lon ≤ 180)
    (h0 : 0 ≤ m) (h1 : m ≤ π * 6371000) :
    let p := destination lat lon m b
    distance lat lon p.lat p.lon = m ∧ (-90 ≤ p.lat ∧ p.lat ≤ 90) ∧ (-180 ≤ p.lon ∧ p.lon < 180) :=
  ⟨distance_requested lat lon m b hlat h0 h1, lat_range lat lon m b, lon_range_partial lat lon m b (by linarith [hlon.1])⟩

/-- The latitude follows the sine formula of navigation, so the bearing is not ignored: going north from a
point away from the pole raises the latitude by the angular distance. -/
theorem due_north (lat lon m : ℝ) (h0 : 0 ≤ m) (hlat : -90 ≤ lat)
    (h1 : lat + m / 6371000 * (180 / π) ≤ 90) :
    (destination lat lon m 0).lat = lat + m / 6371000 * (180 / π) := by
  have hp := pi_pos
  rw [destination_rad]
  simp only
  have e : rad 0 = 0 := by simp [rad]
  rw [e, cos_zero, mul_one, ← sin_add]
  have hd : 0 ≤ m / 6371000 := by positivity
  have hq : rad (lat + m / 6371000 * (180 / π)) = rad lat + m / 6371000 := by
    have : rad (lat + m / 6371000 * (180 / π)) = rad lat + rad (m / 6371000 * (180 / π)) := by unfold rad; ring
    rw [this, rad_deg]
  rw [← hq, arcsin_sin]
  · unfold rad; field_simp
  · have : 0 ≤ m / 6371000 * (180 / π) := by positivity
    unfold rad; nlinarith
  · unfold rad; nlinarith

/-- Start longitudes below -360 are not normalised: two full turns west of the origin, without moving, the
longitude is -360. -/
theorem far_west : (destination (0 : ℝ) (-720) 0 0).lon = -360 := by
  have hp := pi_pos
  rw [destination_rad]
  simp only [zero_div, cos_zero, sin_zero, mul_zero, zero_mul]
  have e0 : rad 0 = 0 := by simp [rad]
  simp only [e0, sin_zero, mul_one, zero_mul, sub_zero, add_zero]
  have ea : Complex.arg ⟨1, 0⟩ = 0 := by
    rw [Complex.arg_eq_zero_iff]; exact ⟨zero_le_one, rfl⟩
  rw [ea]
  have er : rad (-720) + 0 + 3 * π = -π := by unfold rad; ring
  unfold normLon
  rw [er]
  have hdiv : -π / (2 * π) = -(1 / 2) := by field_simp
  have hm : realMod (-π) (2 * π) = -π := by
    unfold realMod
    rw [hdiv, if_neg (by norm_num)]
    have : ⌈(-(1 / 2) : ℝ)⌉ = 0 := by rw [Int.ceil_eq_iff]; norm_num
    rw [this]; simp
  rw [hm]; field_simp; ring

/-! Non-vacuity: a quarter of the circumference north from the equator is the pole. -/

example : (destination (0 : ℝ) 20 (π / 2 * 6371000) 0).lat = 90 := by
  have hp := pi_pos
  rw [due_north _ _ _ (by positivity) (by norm_num)]
  · field_simp; norm_num
  · apply le_of_eq; field_simp; norm_num

end C47
end GpsGen
