import Mathlib.Analysis.SpecialFunctions.Trigonometric.Angle
import Mathlib.Tactic.LinearCombination
import Mathlib.Tactic.FieldSimp
import Verif.Model.NumReal
import Verif.Model.Geo
/-!
# Helper lemmas: the formulas of package geo in exact arithmetic

Angles are in radians; `dot` is the cosine of the angle between two points of the unit sphere.
-/

namespace GpsGen
open Real

/-- Cosine of the angle between the points (φ1, λ1) and (φ2, λ2), with Δ = λ2 - λ1. -/
noncomputable def dot (φ1 φ2 Δ : ℝ) : ℝ := cos φ1 * cos φ2 * cos Δ + sin φ1 * sin φ2

theorem dot_comm (φ1 φ2 Δ : ℝ) : dot φ2 φ1 (-Δ) = dot φ1 φ2 Δ := by
  unfold dot; rw [cos_neg]; ring

theorem cross_sq (φ1 φ2 Δ : ℝ) :
    (cos φ1 * sin φ2 - sin φ1 * cos φ2 * cos Δ) ^ 2 + (sin Δ * cos φ2) ^ 2 = 1 - dot φ1 φ2 Δ ^ 2 := by
  unfold dot
  have h1 := sin_sq_add_cos_sq φ1
  have h2 := sin_sq_add_cos_sq φ2
  have h3 := sin_sq_add_cos_sq Δ
  linear_combination (sin φ2 ^ 2 + cos φ2 ^ 2 * cos Δ ^ 2) * h1 + h2 + cos φ2 ^ 2 * h3

theorem dot_sq_le (φ1 φ2 Δ : ℝ) : dot φ1 φ2 Δ ^ 2 ≤ 1 := by
  have := cross_sq φ1 φ2 Δ
  nlinarith [sq_nonneg (cos φ1 * sin φ2 - sin φ1 * cos φ2 * cos Δ), sq_nonneg (sin Δ * cos φ2)]

theorem dot_le (φ1 φ2 Δ : ℝ) : dot φ1 φ2 Δ ≤ 1 := (abs_le_one_iff_mul_self_le_one.mpr
  (by have := dot_sq_le φ1 φ2 Δ; nlinarith) |> abs_le.mp).2

theorem neg_one_le_dot (φ1 φ2 Δ : ℝ) : -1 ≤ dot φ1 φ2 Δ := (abs_le_one_iff_mul_self_le_one.mpr
  (by have := dot_sq_le φ1 φ2 Δ; nlinarith) |> abs_le.mp).1

theorem sin_half_sq (x : ℝ) : sin (x / 2) * sin (x / 2) = (1 - cos x) / 2 := by
  have h := cos_two_mul (x / 2)
  rw [show 2 * (x / 2) = x by ring] at h
  have h2 := sin_sq_add_cos_sq (x / 2)
  linear_combination h2 + h / 2

/-- The haversine formula. -/
theorem hav_dot (φ1 φ2 Δ : ℝ) : sin ((φ2 - φ1) / 2) * sin ((φ2 - φ1) / 2) +
    cos φ1 * cos φ2 * sin (Δ / 2) * sin (Δ / 2) = (1 - dot φ1 φ2 Δ) / 2 := by
  have h1 := sin_half_sq (φ2 - φ1)
  have h2 := sin_half_sq Δ
  rw [cos_sub] at h1
  unfold dot
  linear_combination h1 + cos φ1 * cos φ2 * h2

/-- Degrees to radians. -/
noncomputable def rad (x : ℝ) : ℝ := x * (π / 180)

theorem radians_eq : (radians : ℝ) = π / 180 := by simp [radians]
theorem degrees_eq : (degrees : ℝ) = 180 / π := by simp [degrees]
theorem radius_eq : (earthRadius : ℝ) = 6371000 := by simp [earthRadius]

theorem haversine_dot (latA lonA latB lonB : ℝ) :
    haversine latA lonA latB lonB = (1 - dot (rad latA) (rad latB) (rad (lonB - lonA))) / 2 := by
  rw [← hav_dot]
  simp only [haversine, radians_eq, real_add, real_sub, real_mul, real_div, real_lit, real_sin, real_cos,
    Rat.cast_ofNat, rad]
  ring_nf

theorem two_arcsin_sqrt {d : ℝ} (h1 : -1 ≤ d) (h2 : d ≤ 1) : 2 * arcsin (sqrt ((1 - d) / 2)) = arccos d := by
  have h0 : 0 ≤ (1 - d) / 2 := by linarith
  set a := arcsin (sqrt ((1 - d) / 2)) with ha
  have hs : sin a = sqrt ((1 - d) / 2) := sin_arcsin (by linarith [sqrt_nonneg ((1 - d) / 2)])
    (by rw [sqrt_le_iff]; constructor <;> linarith)
  have hn : 0 ≤ a := arcsin_nonneg.mpr (sqrt_nonneg _)
  have hp : a ≤ π / 2 := arcsin_le_pi_div_two _
  have hc : cos (2 * a) = d := by
    rw [cos_two_mul']
    have := sin_sq_add_cos_sq a
    have h3 : sin a ^ 2 = (1 - d) / 2 := by rw [hs, sq_sqrt h0]
    linarith
  rw [← hc, arccos_cos (by linarith) (by linarith)]

/-- The distance is the radius times the angle between the points. -/
theorem distance_arccos (latA lonA latB lonB : ℝ) :
    distance latA lonA latB lonB = 6371000 * arccos (dot (rad latA) (rad latB) (rad (lonB - lonA))) := by
  rw [← two_arcsin_sqrt (neg_one_le_dot ..) (dot_le ..), ← haversine_dot]
  simp only [distance, distanceFromHaversine, radius_eq, real_mul, real_lit, real_asin, real_sqrt, Rat.cast_ofNat]
  ring

/-- Polar coordinates. -/
theorem polar {x y r : ℝ} (hr : 0 ≤ r) (h : x ^ 2 + y ^ 2 = r ^ 2) :
    r * cos (Complex.arg ⟨x, y⟩) = x ∧ r * sin (Complex.arg ⟨x, y⟩) = y := by
  have hn : ‖(⟨x, y⟩ : ℂ)‖ = r := by
    rw [Complex.norm_eq_sqrt_sq_add_sq, h, sqrt_sq hr]
  have h1 := Complex.norm_mul_cos_arg ⟨x, y⟩
  have h2 := Complex.norm_mul_sin_arg ⟨x, y⟩
  rw [hn] at h1 h2
  exact ⟨h1, h2⟩

theorem realMod_eq (x y : ℝ) : ∃ k : ℤ, realMod x y = x - y * k := by
  unfold realMod
  split
  · exact ⟨_, rfl⟩
  · exact ⟨_, rfl⟩

theorem realMod_range {x y : ℝ} (hx : 0 ≤ x) (hy : 0 < y) : 0 ≤ realMod x y ∧ realMod x y < y := by
  have hd : 0 ≤ x / y := div_nonneg hx hy.le
  unfold realMod
  rw [if_pos hd]
  have h1 := Int.floor_le (x / y)
  have h2 := Int.lt_floor_add_one (x / y)
  have e : y * (x / y) = x := by field_simp
  constructor
  · nlinarith
  · nlinarith

/-- The longitude as `Destination` normalises it. -/
noncomputable def normLon (l : ℝ) : ℝ := realMod (l + 3 * π) (2 * π) - π

theorem normLon_shift (l : ℝ) : ∃ k : ℤ, normLon l = l + k * (2 * π) := by
  obtain ⟨k, h⟩ := realMod_eq (l + 3 * π) (2 * π)
  refine ⟨1 - k, ?_⟩
  unfold normLon
  rw [h]; push_cast; ring

theorem normLon_range {l : ℝ} (h : -(3 * π) ≤ l) : -π ≤ normLon l ∧ normLon l < π := by
  have := realMod_range (x := l + 3 * π) (y := 2 * π) (by linarith) two_pi_pos
  unfold normLon
  constructor <;> linarith [this.1, this.2]

/-- The representative in [-π, π) is unique. -/
theorem shift_unique {a b : ℝ} (ha : -π ≤ a ∧ a < π) (hb : -π ≤ b ∧ b < π) {k : ℤ}
    (h : a = b + k * (2 * π)) : a = b := by
  have hp := pi_pos
  have h1 : (k : ℝ) < 1 := by nlinarith [ha.1, ha.2, hb.1, hb.2]
  have h2 : (-1 : ℝ) < k := by nlinarith [ha.1, ha.2, hb.1, hb.2]
  have h1' : k < 1 := by exact_mod_cast h1
  have h2' : -1 < k := by exact_mod_cast h2
  have : k = 0 := by omega
  rw [h, this]; simp

theorem angle_of_cos_sin {a b : ℝ} (hc : cos a = cos b) (hs : sin a = sin b) : ∃ k : ℤ, a = b + k * (2 * π) := by
  have h := Real.Angle.cos_sin_inj hc hs
  obtain ⟨k, hk⟩ := Real.Angle.angle_eq_iff_two_pi_dvd_sub.mp h
  exact ⟨k, by linarith⟩

/-- `Destination` in radians. -/
theorem destination_rad (lat lon m b : ℝ) :
    let φ := rad lat
    let δ := m / 6371000
    let θ := rad b
    let s := sin φ * cos δ + cos φ * sin δ * cos θ
    destination lat lon m b = ⟨arcsin s * (180 / π), normLon (rad lon +
      Complex.arg ⟨cos δ - sin φ * sin (arcsin s), sin θ * sin δ * cos φ⟩) * (180 / π)⟩ := by
  simp only [destination, radians_eq, degrees_eq, radius_eq, real_add, real_sub, real_mul, real_div, real_lit,
    real_sin, real_cos, real_asin, real_atan2, real_fmod, real_pi, Rat.cast_ofNat, rad, normLon]

theorem dest_sin_le (φ δ θ : ℝ) : (sin φ * cos δ + cos φ * sin δ * cos θ) ^ 2 ≤ 1 := by
  have h := dot_sq_le φ (π / 2 - δ) θ
  unfold dot at h
  rw [cos_pi_div_two_sub, sin_pi_div_two_sub] at h
  nlinarith

theorem dest_sin_abs (φ δ θ : ℝ) : -1 ≤ sin φ * cos δ + cos φ * sin δ * cos θ ∧
    sin φ * cos δ + cos φ * sin δ * cos θ ≤ 1 :=
  abs_le.mp (abs_le_one_iff_mul_self_le_one.mpr (by have := dest_sin_le φ δ θ; nlinarith))

/-- The two arguments of the arc tangent. -/
theorem dest_polar (φ δ θ : ℝ) : let s := sin φ * cos δ + cos φ * sin δ * cos θ
    (cos δ - sin φ * s) ^ 2 + (sin θ * sin δ * cos φ) ^ 2 = (cos φ) ^ 2 * (1 - s ^ 2) := by
  simp only
  have h1 := sin_sq_add_cos_sq φ
  have h2 := sin_sq_add_cos_sq δ
  have h3 := sin_sq_add_cos_sq θ
  have e1 : sin φ ^ 2 = 1 - cos φ ^ 2 := by linarith
  have e2 : sin δ ^ 2 = 1 - cos δ ^ 2 := by linarith
  have e3 : sin θ ^ 2 = 1 - cos θ ^ 2 := by linarith
  have x : cos δ - sin φ * (sin φ * cos δ + cos φ * sin δ * cos θ) =
      cos φ * (cos φ * cos δ - sin φ * sin δ * cos θ) := by
    linear_combination (-cos δ) * h1
  rw [x]
  linear_combination (cos φ ^ 2 * cos δ ^ 2 + cos φ ^ 2 * sin δ ^ 2 * cos θ ^ 2) * h1 + cos φ ^ 2 * h2 +
    cos φ ^ 2 * sin δ ^ 2 * h3

theorem rad_deg (x : ℝ) : rad (x * (180 / π)) = x := by
  unfold rad
  have := pi_ne_zero
  field_simp

theorem cos_rad_nonneg {x : ℝ} (h : -90 ≤ x ∧ x ≤ 90) : 0 ≤ cos (rad x) := by
  have hp := pi_pos
  apply cos_nonneg_of_neg_pi_div_two_le_of_le
  · unfold rad; nlinarith [h.1]
  · unfold rad; nlinarith [h.2]

theorem cos_rad_pos {x : ℝ} (h : -90 < x ∧ x < 90) : 0 < cos (rad x) := by
  have hp := pi_pos
  apply cos_pos_of_mem_Ioo
  constructor
  · unfold rad; nlinarith [h.1]
  · unfold rad; nlinarith [h.2]

end GpsGen
