import Mathlib.Geometry.Euclidean.Angle.Unoriented.TriangleInequality
import Mathlib.Analysis.InnerProductSpace.PiL2
import Verif.Lemmas.Sphere
import Verif.Lemmas.GeoReal
/-!
# C46: the great-circle distance is a sane distance

Exact arithmetic. The specification places a coordinate on the unit sphere in three dimensions.
-/

namespace GpsGen
namespace C46
open Real InnerProductGeometry

/-! ## Specification -/

/-- The point of the unit sphere with the given latitude and longitude in degrees. -/
noncomputable def position (lat lon : ℝ) : EuclideanSpace ℝ (Fin 3) :=
  !₂[cos (lat * (π / 180)) * cos (lon * (π / 180)), cos (lat * (π / 180)) * sin (lon * (π / 180)),
    sin (lat * (π / 180))]

/-! ## Lemmas -/

theorem inner_position (latA lonA latB lonB : ℝ) : inner ℝ (position latA lonA) (position latB lonB) =
    dot (rad latA) (rad latB) (rad (lonB - lonA)) := by
  have e : rad (lonB - lonA) = lonB * (π / 180) - lonA * (π / 180) := by unfold rad; ring
  rw [e]
  unfold position dot rad
  rw [cos_sub]
  simp only [PiLp.inner_apply, Fin.sum_univ_three]
  simp
  ring

theorem dot_self (φ : ℝ) : dot φ φ 0 = 1 := by
  unfold dot
  rw [cos_zero]
  linear_combination sin_sq_add_cos_sq φ

theorem norm_position (lat lon : ℝ) : ‖position lat lon‖ = 1 := by
  have h := inner_position lat lon lat lon
  rw [sub_self, show rad 0 = 0 by simp [rad], dot_self, real_inner_self_eq_norm_sq] at h
  have := norm_nonneg (position lat lon)
  nlinarith

/-! ## Theorems -/

/-- The distance is the Earth's radius times the angle between the two points. -/
theorem distance_angle (latA lonA latB lonB : ℝ) :
    distance latA lonA latB lonB = 6371000 * angle (position latA lonA) (position latB lonB) := by
  rw [distance_arccos, ← inner_position]
  unfold angle
  rw [norm_position, norm_position, mul_one, div_one]

/-- **C46, symmetry.** -/
theorem symmetric (latA lonA latB lonB : ℝ) : distance latB lonB latA lonA = distance latA lonA latB lonB := by
  rw [distance_angle, distance_angle, angle_comm]

/-- **C46, bounds.** -/
theorem bounds (latA lonA latB lonB : ℝ) :
    0 ≤ distance latA lonA latB lonB ∧ distance latA lonA latB lonB ≤ π * 6371000 := by
  rw [distance_angle]
  have h1 := angle_nonneg (position latA lonA) (position latB lonB)
  have h2 := angle_le_pi (position latA lonA) (position latB lonB)
  constructor <;> linarith

/-- **C46, zero.** The distance is zero exactly if the points of the sphere coincide. -/
theorem zero_iff (latA lonA latB lonB : ℝ) :
    distance latA lonA latB lonB = 0 ↔ position latA lonA = position latB lonB := by
  rw [distance_angle]
  constructor
  · intro h
    have h0 : angle (position latA lonA) (position latB lonB) = 0 := by linarith
    rw [angle_eq_zero_iff] at h0
    obtain ⟨-, r, hr, e⟩ := h0
    have hn := congrArg norm e
    rw [norm_smul, norm_position, norm_position, Real.norm_eq_abs, abs_of_pos hr, mul_one] at hn
    rw [e, ← hn, one_smul]
  · intro h
    rw [h, angle_self (by rw [← norm_ne_zero_iff, norm_position]; exact one_ne_zero), mul_zero]

/-- Away from the poles and with longitudes in [-180, 180), it is zero exactly for equal coordinates. -/
theorem zero_iff_equal (latA lonA latB lonB : ℝ) (ha : -90 < latA ∧ latA < 90) (hb : -90 < latB ∧ latB < 90)
    (la : -180 ≤ lonA ∧ lonA < 180) (lb : -180 ≤ lonB ∧ lonB < 180) :
    distance latA lonA latB lonB = 0 ↔ latA = latB ∧ lonA = lonB := by
  rw [zero_iff]
  have hp := pi_pos
  refine ⟨fun h => ?_, fun ⟨h1, h2⟩ => by rw [h1, h2]⟩
  have h0 : cos (rad latA) * cos (rad lonA) = cos (rad latB) * cos (rad lonB) := congrFun (congrArg WithLp.ofLp h) 0
  have h1 : cos (rad latA) * sin (rad lonA) = cos (rad latB) * sin (rad lonB) := congrFun (congrArg WithLp.ofLp h) 1
  have h2 : sin (rad latA) = sin (rad latB) := congrFun (congrArg WithLp.ofLp h) 2
  have hlat : rad latA = rad latB := by
    refine injOn_sin ⟨?_, ?_⟩ ⟨?_, ?_⟩ h2 <;> (unfold rad; nlinarith [ha.1, ha.2, hb.1, hb.2])
  rw [hlat] at h0 h1
  have hc := cos_rad_pos hb
  obtain ⟨k, hk⟩ := angle_of_cos_sin (mul_left_cancel₀ hc.ne' h0) (mul_left_cancel₀ hc.ne' h1)
  have hlon : rad lonA = rad lonB := by
    refine shift_unique ⟨?_, ?_⟩ ⟨?_, ?_⟩ hk <;> (unfold rad; nlinarith [la.1, la.2, lb.1, lb.2])
  unfold rad at hlat hlon
  have hne : π / 180 ≠ 0 := by positivity
  exact ⟨mul_right_cancel₀ hne hlat, mul_right_cancel₀ hne hlon⟩

/-- **C46, longitudes.** Only the difference of the longitudes matters, and only up to full turns. -/
theorem longitude_shift (latA lonA latB lonB d : ℝ) (k : ℤ) :
    distance latA (lonA + d) latB (lonB + d + 360 * k) = distance latA lonA latB lonB := by
  rw [distance_arccos, distance_arccos]
  have e : rad (lonB + d + 360 * k - (lonA + d)) = rad (lonB - lonA) + k * (2 * π) := by
    unfold rad; ring
  rw [e]
  unfold dot
  rw [cos_add_int_mul_two_pi]

/-- The triangle inequality. -/
theorem triangle (latA lonA latB lonB latC lonC : ℝ) :
    distance latA lonA latC lonC ≤ distance latA lonA latB lonB + distance latB lonB latC lonC := by
  rw [distance_angle, distance_angle, distance_angle, ← mul_add]
  have := angle_le_angle_add_angle (position latA lonA) (position latB lonB) (position latC lonC)
  linarith

/-- **C46, conversions.** A haversine survives the conversion to a distance and back. -/
theorem haversine_round (h : ℝ) (h0 : 0 ≤ h) (h1 : h ≤ 1) : distanceToHaversine (distanceFromHaversine h) = h := by
  simp only [distanceToHaversine, distanceFromHaversine, radius_eq, real_mul, real_div, real_lit, real_sin,
    real_asin, real_sqrt, Rat.cast_ofNat]
  have e : ((1 / 2 : ℚ) : ℝ) * (6371000 * 2 * arcsin (sqrt h)) / 6371000 = arcsin (sqrt h) := by
    push_cast; ring
  rw [e, sin_arcsin (by linarith [sqrt_nonneg h]) (by rw [sqrt_le_iff]; constructor <;> linarith), mul_self_sqrt h0]

/-- A distance of at most half the circumference survives the conversion to a haversine and back. -/
theorem distance_round (m : ℝ) (h0 : 0 ≤ m) (h1 : m ≤ π * 6371000) :
    distanceFromHaversine (distanceToHaversine m) = m := by
  simp only [distanceToHaversine, distanceFromHaversine, radius_eq, real_mul, real_div, real_lit, real_sin,
    real_asin, real_sqrt, Rat.cast_ofNat]
  have e : ((1 / 2 : ℚ) : ℝ) * m / 6371000 = m / (2 * 6371000) := by push_cast; ring
  have hp := pi_pos
  have b0 : 0 ≤ m / (2 * 6371000) := by positivity
  have b1 : m / (2 * 6371000) ≤ π / 2 := by rw [div_le_iff₀ (by norm_num)]; linarith
  rw [e, sqrt_mul_self (sin_nonneg_of_nonneg_of_le_pi b0 (by linarith)), arcsin_sin (by linarith) b1]
  field_simp

/-- The haversine of two points lies in [0, 1], so that both conversions apply. -/
theorem haversine_range (latA lonA latB lonB : ℝ) :
    0 ≤ haversine latA lonA latB lonB ∧ haversine latA lonA latB lonB ≤ 1 := by
  rw [haversine_dot]
  have h1 := dot_le (rad latA) (rad latB) (rad (lonB - lonA))
  have h2 := neg_one_le_dot (rad latA) (rad latB) (rad (lonB - lonA))
  constructor <;> linarith

/-- `NormalizeDistance` of a non-negative distance: less than the circumference, the same haversine. -/
theorem normalize_range (m : ℝ) (h : 0 ≤ m) :
    0 ≤ normalizeDistance m ∧ normalizeDistance m < 2 * π * 6371000 ∧
      distanceToHaversine (normalizeDistance m) = distanceToHaversine m := by
  have e : (twoPiR : ℝ) = 2 * π * 6371000 := by simp [twoPiR, radius_eq]; ring
  have hp : (0 : ℝ) < 2 * π * 6371000 := by positivity
  have hr := realMod_range h hp
  obtain ⟨k, hk⟩ := realMod_eq m (2 * π * 6371000)
  simp only [normalizeDistance, e, real_fmod]
  refine ⟨hr.1, hr.2, ?_⟩
  simp only [distanceToHaversine, radius_eq, real_mul, real_div, real_lit, real_sin]
  rw [hk]
  have e2 : ((1 / 2 : ℚ) : ℝ) * (m - 2 * π * 6371000 * k) / 6371000 =
      ((1 / 2 : ℚ) : ℝ) * m / 6371000 - k * π := by push_cast; ring
  rw [e2]
  have h2 := sin_half_sq (2 * (((1 / 2 : ℚ) : ℝ) * m / 6371000 - k * π))
  have h3 := sin_half_sq (2 * (((1 / 2 : ℚ) : ℝ) * m / 6371000))
  have c : cos (2 * (((1 / 2 : ℚ) : ℝ) * m / 6371000 - k * π)) = cos (2 * (((1 / 2 : ℚ) : ℝ) * m / 6371000)) := by
    rw [show 2 * (((1 / 2 : ℚ) : ℝ) * m / 6371000 - k * π) =
      2 * (((1 / 2 : ℚ) : ℝ) * m / 6371000) - k * (2 * π) by ring, cos_sub_int_mul_two_pi]
  rw [mul_div_cancel_left₀ _ two_ne_zero] at h2 h3
  rw [h2, h3, c]

/-! Non-vacuity: half the equator, and a quarter meridian. -/

example : distance (0 : ℝ) 0 0 180 = π * 6371000 := by
  rw [distance_equator _ _ (by norm_num)]
  unfold degLen
  norm_num
  ring

example : distance (0 : ℝ) 0 90 0 = π / 2 * 6371000 := by
  rw [distance_arccos]
  have e : dot (rad 0) (rad 90) (rad (0 - 0)) = 0 := by
    have : rad 90 = π / 2 := by unfold rad; ring
    unfold dot
    rw [this, cos_pi_div_two]
    simp [rad]
  rw [e, arccos_zero]; ring

end C46
end GpsGen
