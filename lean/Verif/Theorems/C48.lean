import Verif.Theorems.C47
import Verif.Model.Route
import Verif.Lemmas.DeviceNext
/-!
# C48: walking a segment to its end reaches its end point

Exact arithmetic. Proved for all points away from the poles, antipodal ones included.
-/

namespace GpsGen
namespace C48
open Real

/-- A coordinate away from the poles. -/
structure Valid (p : LatLon ℝ) : Prop where
  lat : -90 < p.lat ∧ p.lat < 90
  lon : -180 ≤ p.lon ∧ p.lon < 180

theorem lat_rad {p : LatLon ℝ} (h : Valid p) : -(π / 2) ≤ rad p.lat ∧ rad p.lat ≤ π / 2 := by
  have hp := pi_pos
  constructor <;> (unfold rad; nlinarith [h.lat.1, h.lat.2])

theorem lon_rad {p : LatLon ℝ} (h : Valid p) : -π ≤ rad p.lon ∧ rad p.lon < π := by
  have hp := pi_pos
  constructor <;> (unfold rad; nlinarith [h.lon.1, h.lon.2])

theorem bearing_rad (latA lonA latB lonB : ℝ) : ∃ k : ℤ, rad (bearing latA lonA latB lonB) =
    Complex.arg ⟨cos (rad latA) * sin (rad latB) - sin (rad latA) * cos (rad latB) * cos (rad (lonB - lonA)),
      sin (rad (lonB - lonA)) * cos (rad latB)⟩ + k * (2 * π) := by
  simp only [bearing, radians_eq, degrees_eq, real_add, real_sub, real_mul, real_lit, real_sin, real_cos,
    real_atan2, real_fmod, Rat.cast_ofNat]
  obtain ⟨k, hk⟩ := realMod_eq (Complex.arg ⟨cos (rad latA) * sin (rad latB) - sin (rad latA) * cos (rad latB) *
    cos (rad (lonB - lonA)), sin (rad (lonB - lonA)) * cos (rad latB)⟩ * (180 / π) + 360) 360
  refine ⟨1 - k, ?_⟩
  unfold rad at hk ⊢
  rw [hk]
  have := pi_ne_zero
  field_simp
  push_cast
  ring

/-- **C48, bearing.** -/
theorem bearing_range (latA lonA latB lonB : ℝ) :
    0 ≤ bearing latA lonA latB lonB ∧ bearing latA lonA latB lonB < 360 := by
  simp only [bearing, degrees_eq, real_add, real_sub, real_mul, real_lit, real_sin, real_cos,
    real_atan2, real_fmod, Rat.cast_ofNat]
  apply realMod_range _ (by norm_num)
  have hp := pi_pos
  set a := Complex.arg ⟨_, _⟩ with ha
  have h1 : -π < a := by rw [ha]; exact Complex.neg_pi_lt_arg _
  have hq : 0 < 180 / π := by positivity
  have e : -π * (180 / π) = -180 := by field_simp
  have := mul_lt_mul_of_pos_right h1 hq
  linarith

/-- **C48, end point.** -/
theorem reaches_end (a b : LatLon ℝ) (ha : Valid a) (hb : Valid b) :
    destination a.lat a.lon (distance a.lat a.lon b.lat b.lon) (bearing a.lat a.lon b.lat b.lon) = b := by
  have hp := pi_pos
  obtain ⟨k, hk⟩ := bearing_rad a.lat a.lon b.lat b.lon
  have hca := cos_rad_pos ha.lat
  have hcb := cos_rad_pos hb.lat
  rw [destination_rad, distance_arccos]
  set φ1 := rad a.lat
  set φ2 := rad b.lat
  set Δ := rad (b.lon - a.lon) with hΔ
  set D := dot φ1 φ2 Δ with hD
  have hδ : 6371000 * arccos D / 6371000 = arccos D := by field_simp
  rw [hδ]
  have hcos : cos (arccos D) = D := cos_arccos (neg_one_le_dot ..) (dot_le ..)
  have hsin : sin (arccos D) = sqrt (1 - D ^ 2) := sin_arccos D
  have hsin0 : 0 ≤ sin (arccos D) := by rw [hsin]; exact sqrt_nonneg _
  have hsq : sin (arccos D) ^ 2 = 1 - D ^ 2 := by
    have := sin_sq_add_cos_sq (arccos D); rw [hcos] at this; linarith
  obtain ⟨p1, p2⟩ := polar (x := cos φ1 * sin φ2 - sin φ1 * cos φ2 * cos Δ) (y := sin Δ * cos φ2) hsin0
    (by rw [hsq]; exact cross_sq φ1 φ2 Δ)
  set θ0 := Complex.arg ⟨cos φ1 * sin φ2 - sin φ1 * cos φ2 * cos Δ, sin Δ * cos φ2⟩
  have hct : cos (rad (bearing a.lat a.lon b.lat b.lon)) = cos θ0 := by rw [hk, cos_add_int_mul_two_pi]
  have hst : sin (rad (bearing a.lat a.lon b.lat b.lon)) = sin θ0 := by rw [hk, sin_add_int_mul_two_pi]
  rw [hct, hst, hcos]
  have hs : sin φ1 * D + cos φ1 * sin (arccos D) * cos θ0 = sin φ2 := by
    rw [mul_assoc, p1, hD]
    unfold dot
    linear_combination (sin φ2) * sin_sq_add_cos_sq φ1
  rw [hs]
  have hφ : arcsin (sin φ2) = φ2 := arcsin_sin (lat_rad hb).1 (lat_rad hb).2
  rw [hφ]
  have hx : D - sin φ1 * sin φ2 = cos φ1 * cos φ2 * cos Δ := by rw [hD]; unfold dot; ring
  have hy : sin θ0 * sin (arccos D) * cos φ1 = cos φ1 * cos φ2 * sin Δ := by
    rw [mul_comm (sin θ0), p2]; ring
  rw [hx, hy]
  have hr : 0 < cos φ1 * cos φ2 := mul_pos hca hcb
  obtain ⟨q1, q2⟩ := polar (x := cos φ1 * cos φ2 * cos Δ) (y := cos φ1 * cos φ2 * sin Δ) hr.le
    (by linear_combination (cos φ1 * cos φ2) ^ 2 * sin_sq_add_cos_sq Δ)
  obtain ⟨j, hj⟩ := angle_of_cos_sin (mul_left_cancel₀ hr.ne' q1) (mul_left_cancel₀ hr.ne' q2)
  set α := Complex.arg ⟨cos φ1 * cos φ2 * cos Δ, cos φ1 * cos φ2 * sin Δ⟩ with hα
  have hα1 : -π < α := by rw [hα]; exact Complex.neg_pi_lt_arg _
  obtain ⟨i, hi⟩ := normLon_shift (rad a.lon + α)
  have hrng := normLon_range (l := rad a.lon + α) (by
    have := (lon_rad ha).1
    linarith)
  have hlon : normLon (rad a.lon + α) = rad b.lon := by
    refine shift_unique (k := i + j) hrng (lon_rad hb) ?_
    rw [hi, hj, hΔ]
    have : rad (b.lon - a.lon) = rad b.lon - rad a.lon := by unfold rad; ring
    rw [this]; push_cast; ring
  rw [hlon]
  have back : ∀ x : ℝ, rad x * (180 / π) = x := by intro x; unfold rad; field_simp
  show (⟨rad b.lat * (180 / π), rad b.lon * (180 / π)⟩ : LatLon ℝ) = b
  rw [back, back]

/-- **C48, start point.** -/
theorem stays_at_start (a : LatLon ℝ) (b : ℝ) (ha : Valid a) : destination a.lat a.lon 0 b = a := by
  have hp := pi_pos
  have hca := cos_rad_pos ha.lat
  rw [destination_rad]
  simp only [zero_div, cos_zero, sin_zero, mul_zero, zero_mul, mul_one, add_zero]
  have hφ : arcsin (sin (rad a.lat)) = rad a.lat := arcsin_sin (lat_rad ha).1 (lat_rad ha).2
  rw [hφ]
  have e : 1 - sin (rad a.lat) * sin (rad a.lat) = cos (rad a.lat) ^ 2 := by
    linarith [sin_sq_add_cos_sq (rad a.lat), sq (sin (rad a.lat))]
  have ea : Complex.arg ⟨1 - sin (rad a.lat) * sin (rad a.lat), 0⟩ = 0 := by
    rw [Complex.arg_eq_zero_iff, e]; exact ⟨by positivity, rfl⟩
  rw [ea, add_zero]
  obtain ⟨i, hi⟩ := normLon_shift (rad a.lon)
  obtain ⟨h1, h2⟩ := lon_rad ha
  have hlon : normLon (rad a.lon) = rad a.lon :=
    shift_unique (normLon_range (by linarith)) ⟨h1, h2⟩ hi
  rw [hlon]
  have back : ∀ x : ℝ, rad x * (180 / π) = x := by intro x; unfold rad; field_simp
  rw [back, back]

theorem raw_spec (i : Int) (pts : List (LatLon ℝ)) : ∀ s ∈ rawSegments i pts,
    s.pointA ∈ pts ∧ s.pointB ∈ pts ∧ s.dist = distance s.pointA.lat s.pointA.lon s.pointB.lat s.pointB.lon ∧
    s.bearing = bearing s.pointA.lat s.pointA.lon s.pointB.lat s.pointB.lon := by
  induction pts generalizing i with
  | nil => intro s h; cases h
  | cons a pts ih =>
    cases pts with
    | nil => intro s h; cases h
    | cons b rest =>
      intro s h
      rw [rawSegments, List.mem_cons] at h
      rcases h with rfl | h
      · exact ⟨by simp, by simp, rfl, rfl⟩
      · obtain ⟨h1, h2, h3⟩ := ih _ s h
        exact ⟨List.mem_cons_of_mem _ h1, List.mem_cons_of_mem _ h2, h3⟩

/-- The relations do not matter. -/
theorem relate_spec (P : Segment ℝ → Prop) (hP : ∀ s r, P s → P { s with rel := r }) (i : Int) (p : Segment ℝ)
    (l : List (Segment ℝ)) (hp : P p) (hl : ∀ s ∈ l, P s) : ∀ s ∈ relateSegments i p l, P s := by
  induction l generalizing i p with
  | nil => intro s h; rw [relateSegments, List.mem_singleton] at h; rw [h]; exact hp
  | cons q l ih =>
    intro s h
    rw [relateSegments] at h
    split at h <;> rw [List.mem_cons] at h
    · rcases h with rfl | h
      · exact hP _ _ hp
      · exact ih _ _ (hP _ _ (hl q (by simp))) (fun s hs => hl s (by simp [hs])) s h
    · rcases h with rfl | h
      · exact hp
      · exact ih _ _ (hl q (by simp)) (fun s hs => hl s (by simp [hs])) s h

/-- **C48, segments.** Every segment of a track made from valid points: `DestinationTo` its length is its end
point, `DestinationTo(0)` its start point, and `DestinationTo(m)` is at distance `m` from its start. -/
theorem segment_walk (pts : List (LatLon ℝ)) (hv : ∀ p ∈ pts, Valid p) (id color : String)
    (t : Track ℝ) (h : Track.new id color pts = .ok t) (s : Segment ℝ) (hs : s ∈ t.segments) :
    s.destinationTo s.dist = s.pointB ∧ s.destinationTo 0 = s.pointA ∧
      ∀ m, 0 ≤ m → m ≤ s.dist →
        distance s.pointA.lat s.pointA.lon (s.destinationTo m).lat (s.destinationTo m).lon = m := by
  have key : s.pointA ∈ pts ∧ s.pointB ∈ pts ∧
      s.dist = distance s.pointA.lat s.pointA.lon s.pointB.lat s.pointB.lon ∧
      s.bearing = bearing s.pointA.lat s.pointA.lon s.pointB.lat s.pointB.lon := by
    have hm : ∃ d, makeSegments pts = .ok (t.segments, d) := by
      unfold Track.new at h
      obtain ⟨⟨segs, d⟩, hm, h⟩ := bind_eq_ok h
      cases h
      exact ⟨d, hm⟩
    obtain ⟨d, hm⟩ := hm
    unfold makeSegments at hm
    split at hm
    · cases hm
    · have hraw := raw_spec 0 pts
      simp only at hm
      split at hm
      · rw [(Prod.mk.inj (Except.ok.inj hm)).1.symm] at hs; cases hs
      · rename_i p rest he
        rw [he] at hraw
        rw [(Prod.mk.inj (Except.ok.inj hm)).1.symm] at hs
        exact relate_spec _ (fun s r h => h) 1 p rest (hraw p (by simp)) (fun s hs => hraw s (by simp [hs])) s hs
  obtain ⟨h1, h2, h3, h4⟩ := key
  have va := hv _ h1
  have vb := hv _ h2
  unfold Segment.destinationTo
  refine ⟨?_, stays_at_start s.pointA s.bearing va, fun m m0 m1 => ?_⟩
  · rw [h3, h4]; exact reaches_end s.pointA s.pointB va vb
  · refine C47.distance_requested _ _ _ _ ⟨va.lat.1.le, va.lat.2.le⟩ m0 ?_
    rw [h3] at m1
    exact le_trans m1 (C46.bounds ..).2

/-! Non-vacuity: the end of a segment from Moscow to Sydney. -/

example : destination (55.75 : ℝ) 37.62 (distance 55.75 37.62 (-33.87) 151.21) (bearing 55.75 37.62 (-33.87) 151.21) =
    ⟨-33.87, 151.21⟩ :=
  reaches_end ⟨55.75, 37.62⟩ ⟨-33.87, 151.21⟩ ⟨by norm_num, by norm_num⟩ ⟨by norm_num, by norm_num⟩

end C48
end GpsGen
