import Verif.Lemmas.NearDest
import Verif.Lemmas.NearBearing
import Verif.Theorems.C80
/-!
# Points along a segment in doubles
-/

namespace GpsGen
open F64 C28.Double C46.Double HavErr C83

attribute [local irreducible] Round64.rndQ Round64.pow2

theorem exact_distance (a b c d : ℝ) : exact a b c d = distance a b c d := by
  unfold exact
  rw [← C46.distance_angle]

theorem exact_comm (a b c d : ℝ) : exact c d a b = exact a b c d := by
  rw [exact_distance, exact_distance]
  exact C46.symmetric ..

theorem exact_triangle (a b c d e f : ℝ) : exact a b e f ≤ exact a b c d + exact c d e f := by
  rw [exact_distance, exact_distance, exact_distance]
  exact C46.triangle ..

theorem exact_nonneg (a b c d : ℝ) : 0 ≤ exact a b c d := by
  rw [exact_distance]
  exact (C46.bounds ..).1

theorem exact_le (a b c d : ℝ) : exact a b c d ≤ Real.pi * 6371000 := by
  rw [exact_distance]
  exact (C46.bounds ..).2

/-- The angle between two directions from the same point. -/
theorem heading_inner (lat lon b b' : ℝ) :
    inner ℝ (C80.heading lat lon b) (C80.heading lat lon b') = Real.cos (rad b - rad b') := by
  unfold C80.heading
  simp only [PiLp.inner_apply, Fin.sum_univ_three]
  have h1 := Real.sin_sq_add_cos_sq (rad lon)
  have h2 := Real.sin_sq_add_cos_sq (rad lat)
  simp
  rw [Real.cos_sub]
  linear_combination (Real.sin (rad lat) ^ 2 * Real.cos (rad b) * Real.cos (rad b') + Real.sin (rad b) * Real.sin (rad b')) * h1 +
    Real.cos (rad b) * Real.cos (rad b') * h2

/-- Destinations with different bearings. -/
theorem destination_turn (lat lon b b' m e : ℝ) (hlat : -90 < lat ∧ lat < 90) (he : Turn (rad b) (rad b') e)
    (hse : |Real.sin (m / 6371000)| * e ≤ 1) :
    exact (destination lat lon m b).lat (destination lat lon m b).lon
      (destination lat lon m b').lat (destination lat lon m b').lon ≤ 10100000 * (|Real.sin (m / 6371000)| * e) := by
  have e0 : 0 ≤ e := by obtain ⟨k, h⟩ := he; exact (abs_nonneg _).trans h
  unfold exact InnerProductGeometry.angle
  rw [C46.norm_position, C46.norm_position, mul_one, div_one, C80.destination_position _ _ _ _ hlat,
    C80.destination_position _ _ _ _ hlat]
  set δ := m / 6371000
  have hi : inner ℝ (Real.cos δ • C46.position lat lon + Real.sin δ • C80.heading lat lon b)
      (Real.cos δ • C46.position lat lon + Real.sin δ • C80.heading lat lon b') =
      Real.cos δ ^ 2 + Real.sin δ ^ 2 * Real.cos (rad b - rad b') := by
    rw [inner_add_left, inner_add_right, inner_add_right]
    simp only [real_inner_smul_left, real_inner_smul_right, C80.position_heading, heading_inner,
      real_inner_comm (C46.position lat lon) (C80.heading lat lon b)]
    rw [real_inner_self_eq_norm_sq, C46.norm_position]
    ring
  rw [hi]
  set d := Real.cos δ ^ 2 + Real.sin δ ^ 2 * Real.cos (rad b - rad b') with hd
  have h1 := Real.sin_sq_add_cos_sq δ
  have h2 := sin_half_sq (rad b - rad b')
  have hd1 : (1 - d) / 2 = (Real.sin δ * Real.sin ((rad b - rad b') / 2)) ^ 2 := by
    rw [hd]
    linear_combination Real.sin δ ^ 2 * (-h2) - h1 / 2
  have hs : √((1 - d) / 2) = |Real.sin δ| * |Real.sin ((rad b - rad b') / 2)| := by
    rw [hd1, Real.sqrt_sq_eq_abs, abs_mul]
  have hh : |Real.sin ((rad b - rad b') / 2)| ≤ e / 2 := by
    have := he.sin_half
    apply abs_le_of_sq_le_sq _ (by linarith)
    nlinarith
  have hle : √((1 - d) / 2) ≤ |Real.sin δ| * e / 2 := by
    rw [hs]
    have := mul_le_mul_of_nonneg_left hh (abs_nonneg (Real.sin δ))
    linarith
  have c1 := Real.cos_le_one (rad b - rad b')
  have c2 := Real.neg_one_le_cos (rad b - rad b')
  have s0 := sq_nonneg (Real.sin δ)
  have d1 : d ≤ 1 := by nlinarith
  have d2 : -1 ≤ d := by nlinarith [sq_nonneg (Real.cos δ)]
  rw [← two_arcsin_sqrt d2 d1]
  have := arcsin_le_mul (Real.sqrt_nonneg _) (hle.trans (by linarith) : √((1 - d) / 2) ≤ 1)
  have hp : Real.pi < 315 / 100 := by have := Real.pi_lt_d2; norm_num at *; linarith
  have hp0 := Real.pi_pos
  have h3 : Real.pi / 2 * √((1 - d) / 2) ≤ 1575 / 1000 * (|Real.sin δ| * e / 2) :=
    mul_le_mul (by linarith) hle (Real.sqrt_nonneg _) (by norm_num)
  linarith [mul_nonneg (abs_nonneg (Real.sin δ)) e0]

theorem sin_lower {x : ℝ} (h0 : 0 ≤ x) (h1 : x ≤ 8 / 100) : 99 / 100 * x ≤ Real.sin x := by
  rcases h0.eq_or_lt with rfl | h
  · simp
  have := Real.sin_gt_sub_cube h
  have : x ^ 3 ≤ x * (8 / 100) ^ 2 := by nlinarith [mul_nonneg h0 h0]
  norm_num at *
  linarith

/-- The point at `m` metres along a segment, in doubles. -/
theorem segment_near [MathLib] (L : Library) (A : Accurate) (T : Arctan) {latA lonA latB lonB meters : F64} {a o c d m D : ℚ}
    (h1 : Is latA a) (h2 : Is lonA o) (h3 : Is latB c) (h4 : Is lonB d) (ha : |a| ≤ 80) (ho : -180 ≤ o ∧ o < 180)
    (hc : |c| ≤ 80) (hd : -180 ≤ d ∧ d < 180) (hD : exact a o c d ≤ 500000) (h5 : Is meters m) (m0 : 0 ≤ m)
    (h6 : Is (distance latA lonA latB lonB) D) (mD : m ≤ D) :
    ∃ p q : ℚ, Is (destination latA lonA meters (bearing latA lonA latB lonB)).lat p ∧
      Is (destination latA lonA meters (bearing latA lonA latB lonB)).lon q ∧ |p| ≤ 86 ∧ |q| ≤ 181 ∧
      ∃ (k : ℝ) (P : LatLon ℝ), P = destination (a : ℝ) o k (bearing (a : ℝ) o c d) ∧ 0 ≤ k ∧ k ≤ exact a o c d ∧
        |k - m| ≤ 1 / 10 ^ 6 ∧ exact a o P.lat P.lon = k ∧ exact P.lat P.lon c d = exact a o c d - k ∧
        exact P.lat P.lon p q ≤ 1 / 30000 := by
  have ho' : |o| ≤ 180 := abs_le.mpr ⟨ho.1, ho.2.le⟩
  have hd' : |d| ≤ 180 := abs_le.mpr ⟨hd.1, hd.2.le⟩
  have pi1 : 314 / 100 < Real.pi := by have := Real.pi_gt_d2; norm_num at *; linarith
  have pi2 : Real.pi < 315 / 100 := by have := Real.pi_lt_d2; norm_num at *; linarith
  -- the length
  obtain ⟨D', hD', eD'⟩ := micrometre L A latA lonA latB lonB a o c d ⟨h1, h2, h3, h4, ⟨ha.trans (by norm_num), ho'⟩, ⟨hc.trans (by norm_num), hd'⟩⟩
    (hD.trans (by norm_num))
  obtain rfl := is_unique h6 hD'
  set E := exact a o c d with hE
  have E0 : 0 ≤ E := exact_nonneg _ _ _ _
  have mD' : (m : ℝ) ≤ D := by exact_mod_cast mD
  have m0' : (0 : ℝ) ≤ m := by exact_mod_cast m0
  have eD := abs_lt.mp eD'.2
  have mE : (m : ℝ) ≤ E + 1 / 10 ^ 6 := by linarith [eD.2]
  -- the bearing
  obtain ⟨β, hβ, β0, β1, tβ⟩ := bearing_near A T h1 h2 h3 h4 (ha.trans (by norm_num)) ho' (hc.trans (by norm_num)) hd'
  set b := bearing (a : ℝ) o c d with hb
  set G := destination (a : ℝ) o m β with hG
  have lat1 : -90 < (a : ℝ) ∧ (a : ℝ) < 90 := by
    have h := abs_le.mp (abs_real ha)
    push_cast at h
    constructor <;> linarith [h.1, h.2]
  have eG : exact a o G.lat G.lon = m := by
    rw [exact_distance]
    exact C47.distance_requested _ _ _ _ ⟨lat1.1.le, lat1.2.le⟩ m0' (by linarith)
  have latG : |G.lat| ≤ 85 := by
    have r := C47.lat_range (a : ℝ) o m β
    have ha90 : |(a : ℝ)| ≤ 90 := abs_le.mpr ⟨lat1.1.le, lat1.2.le⟩
    have hl := lat_le_exact (a : ℝ) o G.lat G.lon ha90 (abs_le.mpr r)
    rw [eG] at hl
    have e : rad G.lat - rad a = (G.lat - a) * (Real.pi / 180) := by unfold rad; ring
    rw [e, abs_mul, abs_of_pos (by positivity : 0 < Real.pi / 180)] at hl
    have h8 : |G.lat - a| ≤ 5 := by
      by_contra hcon
      push Not at hcon
      have := mul_lt_mul_of_pos_right hcon (by positivity : 0 < Real.pi / 180)
      linarith
    have ha80 : |(a : ℝ)| ≤ 80 := by exact_mod_cast ha
    have := abs_add_le (G.lat - a) a
    rw [sub_add_cancel] at this
    linarith
  have hm7 : |m| ≤ 10000000 := by
    rw [abs_of_nonneg m0]
    have : (m : ℝ) ≤ 10000000 := by linarith
    exact_mod_cast this
  obtain ⟨p, q, hp, hq, p1, q1, epq⟩ := destination_near A T h1 h2 h5 hβ (ha.trans (by norm_num)) (ho'.trans (by norm_num)) hm7
    (by rw [abs_of_nonneg β0]; linarith) latG
  refine ⟨p, q, hp, hq, p1, q1, ?_⟩
  -- the exact point
  have vA : C48.Valid ⟨(a : ℝ), o⟩ := ⟨lat1, by show (-180 : ℝ) ≤ o; exact_mod_cast ho.1, by show (o : ℝ) < 180; exact_mod_cast ho.2⟩
  have vB : C48.Valid ⟨(c : ℝ), d⟩ := by
    have h := abs_le.mp (abs_real hc)
    push_cast at h
    exact ⟨⟨by linarith [h.1], by linarith [h.2]⟩, by show (-180 : ℝ) ≤ d; exact_mod_cast hd.1, by show (d : ℝ) < 180; exact_mod_cast hd.2⟩
  have hend : destination (a : ℝ) o E b = ⟨c, d⟩ := by
    rw [hE, exact_distance]
    exact C48.reaches_end ⟨a, o⟩ ⟨c, d⟩ vA vB
  set k := min (m : ℝ) E with hk
  have k0 : 0 ≤ k := le_min m0' E0
  have kE : k ≤ E := min_le_right _ _
  have km : |k - m| ≤ 1 / 10 ^ 6 := by
    rw [abs_le]
    rcases min_cases (m : ℝ) E with ⟨h, h'⟩ | ⟨h, h'⟩
    · rw [hk, h]; constructor <;> linarith
    · rw [hk, h]; constructor <;> linarith
  have piR : (1000000 : ℝ) ≤ Real.pi * 6371000 := by linarith
  have e1 : exact a o (destination (a : ℝ) o k b).lat (destination (a : ℝ) o k b).lon = k := by
    rw [exact_distance]
    exact C47.distance_requested _ _ _ _ ⟨lat1.1.le, lat1.2.le⟩ k0 (by linarith)
  have e2 : exact (destination (a : ℝ) o k b).lat (destination (a : ℝ) o k b).lon c d = E - k := by
    have := C80.destination_apart (a : ℝ) o b k E lat1 (by rw [abs_le]; constructor <;> linarith)
    rw [hend] at this
    rw [exact_distance, this, abs_sub_comm, abs_of_nonneg (by linarith)]
  refine ⟨k, _, rfl, k0, kE, km, e1, e2, ?_⟩
  -- the distance of the two
  have t1 := exact_triangle (destination (a : ℝ) o k b).lat (destination (a : ℝ) o k b).lon G.lat G.lon p q
  suffices hmain : exact (destination (a : ℝ) o k b).lat (destination (a : ℝ) o k b).lon G.lat G.lon ≤ 1 / 10 ^ 5 by
    linarith
  rcases le_or_gt (66 / 10 ^ 14) (Real.sin (E / 6371000)) with hs | hs
  · set P := destination (a : ℝ) o m b with hP
    have e3 : exact (destination (a : ℝ) o k b).lat (destination (a : ℝ) o k b).lon P.lat P.lon = |k - m| := by
      rw [exact_distance]
      refine C80.destination_apart (a : ℝ) o b k m lat1 (by linarith)
    have x0 : 0 ≤ E / 6371000 := by positivity
    have x1 : E / 6371000 ≤ 8 / 100 := by rw [div_le_iff₀ (by norm_num)]; linarith
    have hlow := sin_lower x0 x1
    have hup : Real.sin (E / 6371000) ≤ E / 6371000 := Real.sin_le x0
    set S := Real.sin (E / 6371000)
    have S0 : 0 < S := lt_of_lt_of_le (by norm_num) hs
    have xm : (m : ℝ) / 6371000 ≤ E / 6371000 + 16 / 10 ^ 14 := by
      rw [div_le_iff₀ (by norm_num), add_mul, div_mul_cancel₀ _ (by norm_num)]
      linarith
    have xm0 : 0 ≤ (m : ℝ) / 6371000 := by positivity
    have sm : |Real.sin ((m : ℝ) / 6371000)| ≤ 130 / 100 * S := by
      have := Real.abs_sin_le_abs (x := (m : ℝ) / 6371000)
      rw [abs_of_nonneg xm0] at this
      linarith
    have sm1 : |Real.sin ((m : ℝ) / 6371000)| * (106 / 10 ^ 16 / S + 6 / 10 ^ 15) ≤ 15 / 10 ^ 15 := by
      have hq0 : 0 ≤ 106 / 10 ^ 16 / S + 6 / 10 ^ 15 := by positivity
      refine (mul_le_mul_of_nonneg_right sm hq0).trans ?_
      rw [mul_add, show 130 / 100 * S * (106 / 10 ^ 16 / S) = 130 / 100 * (106 / 10 ^ 16) by field_simp]
      linarith
    have e4 := destination_turn (a : ℝ) o b β m _ lat1 (tβ hs).symm (sm1.trans (by norm_num))
    have t2 := exact_triangle (destination (a : ℝ) o k b).lat (destination (a : ℝ) o k b).lon P.lat P.lon G.lat G.lon
    linarith
  · have x0 : 0 ≤ E / 6371000 := by positivity
    have x1 : E / 6371000 ≤ 8 / 100 := by rw [div_le_iff₀ (by norm_num)]; linarith
    have hlow := sin_lower x0 x1
    have hE5 : E ≤ 43 / 10 ^ 7 := by
      have : E / 6371000 ≤ 67 / 10 ^ 14 := by linarith
      rw [div_le_iff₀ (by norm_num)] at this
      linarith
    have t2 := exact_triangle (destination (a : ℝ) o k b).lat (destination (a : ℝ) o k b).lon a o G.lat G.lon
    rw [exact_comm (a : ℝ) o, e1, eG] at t2
    linarith

end GpsGen
