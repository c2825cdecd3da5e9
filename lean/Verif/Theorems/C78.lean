import Verif.Theorems.C50
import Verif.Model.NumReal
import Mathlib.Analysis.Real.Pi.Bounds
/-!
# C78: a random route runs around its centre

Exact arithmetic. The corners of a random track are given by angles that grow from corner to corner and by
radii of at least `level / 10000` degrees, so far the claim. But the angles cover `6 * math.Phi`, about 9.7
radians, where one turn would be `2 * math.Pi`: the tracks run around the centre more than one and a half
times. As stated, with one turn, the property is false.
-/

namespace GpsGen
namespace C78

open C50

/-! ## Specification -/

/-- The point at angle `θ` and distance `R`, in degrees, of a centre. -/
noncomputable def polar (c : LatLon ℝ) (R θ : ℝ) : LatLon ℝ := ⟨c.lat + R * Real.sin θ, c.lon + R * Real.cos θ⟩

/-- A closed line of 16 corners around `c`, given by radii and angles in ascending order. -/
structure Around (c : LatLon ℝ) (R θ : Nat → ℝ) (pts : List (LatLon ℝ)) : Prop where
  count : pts.length = 17
  corner : ∀ k < 16, pts[k]? = some (polar c (R k) (θ k))
  closed : pts[16]? = pts[0]?
  radius : ∀ k < 16, 0 < R k
  ascending : ∀ k < 15, θ k ≤ θ (k + 1)

/-- Such a line that runs around once. -/
def Circuit (c : LatLon ℝ) (pts : List (LatLon ℝ)) : Prop :=
  ∃ R θ, Around c R θ pts ∧ θ 15 ≤ θ 0 + 2 * Real.pi

/-- What the generators of package math/rand deliver, apart from 16 uniform draws of exactly zero. -/
structure Draws (rnd : TrackRnd ℝ) : Prop where
  uniform : ∀ j, 0 ≤ rnd.u j ∧ rnd.u j < 1
  nonzero : ∃ j ≤ 15, 0 < rnd.u j
  exponential : ∀ j, 0 ≤ rnd.e j
  name : NameOk rnd.name

/-- The claim. -/
def Claim : Prop := ∀ (lon lat : ℝ) (numTrack level : Int) (uid color : String) (name : Nat → Nat)
  (rnd : Nat → TrackRnd ℝ) (r : Route ℝ), NameOk name → (∀ i, Draws (rnd i)) →
  randomRoute lon lat numTrack level uid color name rnd = .ok r →
  ∀ t ∈ r.tracks, Circuit ⟨lat, lon⟩ (C01.readBack t.segments)

/-! ## Corners -/

/-- The golden ratio, to 62 decimals. -/
noncomputable def ratio : ℝ := (161803398874989484820458683436563811772030917980576286213544862 / 10 ^ 62 : ℚ)

/-- The sum of the first draws. -/
noncomputable def total (u : Nat → ℝ) (k : Nat) : ℝ := ((List.range (k + 1)).map u).sum

theorem offset_eq (u : Nat → ℝ) (k : Nat) : polygonOffset u k = total u k := by
  induction k with
  | zero => simp [polygonOffset, total]
  | succ k ih =>
    rw [polygonOffset, ih]
    unfold total
    rw [List.range_succ (n := k + 1)]
    simp

/-- The angle of a corner. -/
noncomputable def angle (u : Nat → ℝ) (k : Nat) : ℝ := total u k * 6 * ratio / total u 15

/-- The radius of a corner. -/
noncomputable def radius (level : ℝ) (e : ℝ) : ℝ := level * (1 + 4 * e) / 10000

theorem total_succ (u : Nat → ℝ) (k : Nat) : total u (k + 1) = total u k + u (k + 1) := by
  rw [← offset_eq, ← offset_eq]; rfl

theorem total_nonneg {u : Nat → ℝ} (h : ∀ j, 0 ≤ u j) (k : Nat) : 0 ≤ total u k := by
  induction k with
  | zero => simpa [total] using h 0
  | succ k ih => rw [total_succ]; linarith [h (k + 1)]

theorem total_pos {u : Nat → ℝ} (h : ∀ j, 0 ≤ u j) {j k : Nat} (hj : j ≤ k) (hp : 0 < u j) : 0 < total u k := by
  induction k with
  | zero =>
    obtain rfl : j = 0 := by omega
    simpa [total] using hp
  | succ k ih =>
    rw [total_succ]
    rcases Nat.lt_or_ge k j with hk | hk
    · obtain rfl : j = k + 1 := by omega
      linarith [total_nonneg h k]
    · linarith [ih hk, h (k + 1)]

theorem Draws.total_pos {rnd : TrackRnd ℝ} (h : Draws rnd) : 0 < total rnd.u 15 := by
  obtain ⟨j, hj, hp⟩ := h.nonzero
  exact C78.total_pos (fun i => (h.uniform i).1) hj hp

theorem ratio_bounds : (161803 / 100000 : ℝ) < ratio ∧ ratio < 161804 / 100000 := by
  unfold ratio
  constructor <;> norm_num

theorem clamp_eq {z : ℝ} (h0 : 0 ≤ z) (h1 : z ≤ 1000) : clampZoom z = z := by
  unfold clampZoom
  have e1 : (z <. lit 0) = false := by
    simp only [real_lt, real_lit, Rat.cast_zero, decide_eq_false_iff_not, not_lt]; exact h0
  have e2 : ((lit 1000 : ℝ) <. z) = false := by
    simp only [real_lt, real_lit, decide_eq_false_iff_not, not_lt]; norm_num; exact h1
  have e3 : (if (z <. lit 0) = true then lit 0 else z) = z := if_neg (by rw [e1]; decide)
  rw [e3, if_neg (by rw [e2]; decide)]

theorem point_eq {z : ℝ} (hz : 0 < z) (u : Nat → ℝ) (k : Nat) (e : ℝ) :
    polygonPoint z (polygonOffset u 15) (polygonOffset u k) e =
      (radius z e * Real.sin (angle u k), radius z e * Real.cos (angle u k)) := by
  unfold polygonPoint
  have h0 : ((lit 0 : ℝ) <. z) = true := by
    simp only [real_lt, real_lit, Rat.cast_zero, decide_eq_true_eq]; exact hz
  have hf : randFactor (lit (1 / 10000) : ℝ) (lit (5 / 10000)) e *. z = radius z e := by
    unfold randFactor radius
    simp only [real_add, real_mul, real_sub, real_lit]
    push_cast
    ring
  have ha : (polygonOffset u k *. lit 6 *. phi) /. polygonOffset u 15 = angle u k := by
    unfold angle phi ratio
    simp only [real_mul, real_div, real_lit, offset_eq]
    push_cast
    rfl
  simp only [h0, if_true, hf, ha]
  rfl

theorem corners_eq {z : ℝ} (hz : 0 < z) (h1 : z ≤ 1000) (lat lon : ℝ) (rnd : TrackRnd ℝ) :
    corners lat lon z rnd = (List.range 16 ++ [0]).map
      fun k => polar ⟨lat, lon⟩ (radius z (rnd.e k)) (angle rnd.u k) := by
  unfold corners
  apply List.map_congr_left
  intro k _
  rw [clamp_eq hz.le h1, point_eq hz]
  simp only [real_add, polar]
  rw [add_comm lat, add_comm lon]

/-- The tracks of a random route, corner by corner. -/
theorem track_corners (lon lat : ℝ) (numTrack level : Int) (uid color : String) (name : Nat → Nat)
    (rnd : Nat → TrackRnd ℝ) (hname : NameOk name) (hn : ∀ i, NameOk (rnd i).name) (r : Route ℝ)
    (h : randomRoute lon lat numTrack level uid color name rnd = .ok r) (i : Nat) (t : Track ℝ)
    (ht : r.tracks[i]? = some t) :
    C01.readBack t.segments = (List.range 16 ++ [0]).map fun k =>
      polar ⟨lat, lon⟩ (radius (levelOf level) ((rnd (tracksOf numTrack - 1 - i)).e k))
        (angle (rnd (tracksOf numTrack - 1 - i)).u k) := by
  obtain ⟨r', s, h', -, -, -, -, -, htr⟩ := route_tracks lon lat numTrack level uid color name rnd hname hn
  rw [h] at h'
  cases h'
  have h1 := htr i t ht
  have hl : (lit ((levelOf level : Int) : ℚ) : ℝ) = ((levelOf level : Int) : ℝ) := by
    rw [real_lit, Rat.cast_intCast]
  have hlo : (10 : ℝ) ≤ ((levelOf level : Int) : ℝ) := by
    exact_mod_cast (by unfold levelOf; omega : (10 : Int) ≤ levelOf level)
  have hhi : ((levelOf level : Int) : ℝ) ≤ 600 := by
    exact_mod_cast (by unfold levelOf; omega : levelOf level ≤ (600 : Int))
  rw [hl] at h1
  obtain ⟨t', s', h2, -, -, h3, -⟩ := random_track lat lon ((levelOf level : Int) : ℝ)
    (rnd (tracksOf numTrack - 1 - i)) (hn _)
  rw [h1] at h2
  cases h2
  rw [h3]
  exact corners_eq (by linarith) (by linarith) lat lon _

theorem angle_mono {rnd : TrackRnd ℝ} (h : Draws rnd) (k : Nat) : angle rnd.u k ≤ angle rnd.u (k + 1) := by
  unfold angle
  have hr : 0 < ratio := by linarith [ratio_bounds.1]
  apply div_le_div_of_nonneg_right _ h.total_pos.le
  rw [total_succ]
  have := (h.uniform (k + 1)).1
  nlinarith

theorem angle_last {rnd : TrackRnd ℝ} (h : Draws rnd) : angle rnd.u 15 = 6 * ratio := by
  unfold angle
  have := h.total_pos.ne'
  field_simp

/-- **C78, what holds.** Every track of a random route is a closed line of 16 corners around the given point,
with angles in ascending order. Each radius is the level times `(1 + 4 e) / 10000` degrees and each angle is
proportional to the sum of the draws up to the corner. The last angle is six times the golden ratio: more than
one and a half turns and less than two. -/
theorem surrounds_partial (lon lat : ℝ) (numTrack level : Int) (uid color : String) (name : Nat → Nat)
    (rnd : Nat → TrackRnd ℝ) (hname : NameOk name) (hd : ∀ i, Draws (rnd i)) :
    ∃ r, randomRoute lon lat numTrack level uid color name rnd = .ok r ∧ r.tracks.length = tracksOf numTrack ∧
      ∀ (i : Nat) t, r.tracks[i]? = some t → ∃ R θ, Around ⟨lat, lon⟩ R θ (C01.readBack t.segments) ∧
        (∀ k, R k = levelOf level * (1 + 4 * (rnd (tracksOf numTrack - 1 - i)).e k) / 10000) ∧
        (∀ k, θ k * total (rnd (tracksOf numTrack - 1 - i)).u 15 =
          6 * ratio * total (rnd (tracksOf numTrack - 1 - i)).u k) ∧
        θ 15 = 6 * ratio ∧ 3 * Real.pi < θ 15 ∧ θ 15 < 4 * Real.pi := by
  obtain ⟨r, s, h, hlen, -⟩ := route_tracks lon lat numTrack level uid color name rnd hname (fun i => (hd i).name)
  refine ⟨r, h, hlen, fun i t ht => ?_⟩
  have hc := track_corners lon lat numTrack level uid color name rnd hname (fun i => (hd i).name) r h i t ht
  set d := rnd (tracksOf numTrack - 1 - i) with hdd
  have hD : Draws d := hd _
  have hlo : (10 : ℝ) ≤ ((levelOf level : Int) : ℝ) := by
    exact_mod_cast (by unfold levelOf; omega : (10 : Int) ≤ levelOf level)
  have hT := hD.total_pos.ne'
  refine ⟨fun k => radius (levelOf level) (d.e k), angle d.u, ⟨?_, ?_, ?_, ?_, ?_⟩, fun k => rfl, ?_,
    angle_last hD, ?_, ?_⟩
  · rw [hc]; simp
  · intro k hk
    rw [hc, List.getElem?_map, List.getElem?_append_left (by simpa using hk), List.getElem?_range hk]
    rfl
  · rw [hc]; rfl
  · intro k _
    have := hD.exponential k
    unfold radius
    positivity
  · exact fun k _ => angle_mono hD k
  · intro k
    unfold angle
    field_simp
  · rw [angle_last hD]
    linarith [ratio_bounds.1, Real.pi_lt_d2]
  · rw [angle_last hD]
    linarith [ratio_bounds.2, Real.pi_gt_d2]

/-- The distance of a point at angle `θ` and radius `R` from the centre, in degrees. -/
theorem polar_distance (c : LatLon ℝ) (R θ : ℝ) :
    ((polar c R θ).lat - c.lat) ^ 2 + ((polar c R θ).lon - c.lon) ^ 2 = R ^ 2 := by
  have := Real.sin_sq_add_cos_sq θ
  unfold polar
  simp only
  nlinarith [this]

/-- **C78, distance.** No corner is nearer to the given point than `level / 10000` degrees; there is no bound
from above, as exponential draws have none. -/
theorem corner_distance (lon lat : ℝ) (numTrack level : Int) (uid color : String) (name : Nat → Nat)
    (rnd : Nat → TrackRnd ℝ) (hname : NameOk name) (hd : ∀ i, Draws (rnd i)) (r : Route ℝ)
    (h : randomRoute lon lat numTrack level uid color name rnd = .ok r) (t : Track ℝ) (ht : t ∈ r.tracks)
    (p : LatLon ℝ) (hp : p ∈ C01.readBack t.segments) :
    ((levelOf level : ℝ) / 10000) ^ 2 ≤ (p.lat - lat) ^ 2 + (p.lon - lon) ^ 2 := by
  obtain ⟨i, hi⟩ := List.getElem?_of_mem ht
  rw [track_corners lon lat numTrack level uid color name rnd hname (fun i => (hd i).name) r h i t hi] at hp
  obtain ⟨k, -, rfl⟩ := List.mem_map.mp hp
  have hlo : (10 : ℝ) ≤ ((levelOf level : Int) : ℝ) := by
    exact_mod_cast (by unfold levelOf; omega : (10 : Int) ≤ levelOf level)
  have he := (hd (tracksOf numTrack - 1 - i)).exponential k
  have hpd := polar_distance ⟨lat, lon⟩ (radius (levelOf level) ((rnd (tracksOf numTrack - 1 - i)).e k))
    (angle (rnd (tracksOf numTrack - 1 - i)).u k)
  simp only at hpd
  rw [hpd]
  apply pow_le_pow_left₀ (by positivity)
  unfold radius
  apply div_le_div_of_nonneg_right _ (by norm_num)
  nlinarith

/-- **C78, cities.** The routes for New York, Moscow and Paris always succeed and have three tracks of 16
corners, each at least 0.012 degrees away from the centre of the city. -/
theorem cities (uid color : String) (name : Nat → Nat) (rnd : Nat → TrackRnd ℝ) (hname : NameOk name)
    (hd : ∀ i, Draws (rnd i)) :
    ∀ x ∈ [((randomRouteForNewYork uid color name rnd : Go (Route ℝ)), (⟨40.7128, -74.006⟩ : LatLon ℝ)),
      (randomRouteForMoscow uid color name rnd, ⟨55.753437064373315, 37.621096697276414⟩),
      (randomRouteForParis uid color name rnd, ⟨48.855323829674006, 2.349892200521907⟩)],
    ∃ r, x.1 = .ok r ∧ r.tracks.length = 3 ∧ ∀ t ∈ r.tracks, (C01.readBack t.segments).length = 17 ∧
      ∀ p ∈ C01.readBack t.segments, 0.012 ^ 2 ≤ (p.lat - x.2.lat) ^ 2 + (p.lon - x.2.lon) ^ 2 := by
  have key : ∀ lon lat lon' lat' : ℝ, lon = lon' → lat = lat' →
      ∃ r, randomRoute lon lat 3 120 uid color name rnd = .ok r ∧
      r.tracks.length = 3 ∧ ∀ t ∈ r.tracks, (C01.readBack t.segments).length = 17 ∧
      ∀ p ∈ C01.readBack t.segments, 0.012 ^ 2 ≤ (p.lat - lat') ^ 2 + (p.lon - lon') ^ 2 := by
    rintro lon lat _ _ rfl rfl
    obtain ⟨r, h, hl, ha⟩ := surrounds_partial lon lat 3 120 uid color name rnd hname hd
    refine ⟨r, h, hl, fun t ht => ⟨?_, fun p hp => ?_⟩⟩
    · obtain ⟨i, hi⟩ := List.getElem?_of_mem ht
      obtain ⟨R, θ, hA, -⟩ := ha i t hi
      exact hA.count
    · have := corner_distance lon lat 3 120 uid color name rnd hname hd r h t ht p hp
      have e : ((levelOf 120 : Int) : ℝ) = 120 := by norm_num [levelOf]
      rw [e] at this
      calc (0.012 : ℝ) ^ 2 = (120 / 10000) ^ 2 := by norm_num
        _ ≤ _ := this
  intro x hx
  simp only [List.mem_cons, List.not_mem_nil, or_false] at hx
  rcases hx with rfl | rfl | rfl
  · exact key _ _ _ _ (by rw [real_lit]; norm_num) (by rw [real_lit]; norm_num)
  · exact key _ _ _ _ (by rw [real_lit]; norm_num) (by rw [real_lit]; norm_num)
  · exact key _ _ _ _ (by rw [real_lit]; norm_num) (by rw [real_lit]; norm_num)

/-! ## The claim fails -/

/-- Equal draws. -/
noncomputable def even : TrackRnd ℝ := ⟨fun _ => 1 / 2, fun _ => 0, "t", "red", fun _ => 0⟩

theorem even_draws : Draws even := ⟨fun _ => by norm_num [even], ⟨0, by norm_num, by norm_num [even]⟩, fun _ => le_refl _, fun _ => by norm_num [even]⟩

theorem even_total (k : Nat) : total even.u k = (k + 1) / 2 := by
  induction k with
  | zero => simp [total, even]
  | succ k ih =>
    rw [total_succ, ih]
    simp only [even]
    push_cast
    ring

theorem even_angle (k : Nat) : angle even.u k = (k + 1) * (6 * ratio / 16) := by
  unfold angle
  rw [even_total, even_total]
  push_cast
  ring

/-- Two descriptions of the same point have the same angle up to whole turns. -/
theorem polar_inj {c : LatLon ℝ} {R R' θ θ' : ℝ} (hR : 0 < R) (hR' : 0 < R') (h : polar c R θ = polar c R' θ') :
    Real.cos (θ - θ') = 1 := by
  have hs : R * Real.sin θ = R' * Real.sin θ' := by
    have := congrArg LatLon.lat h; simpa [polar] using this
  have hc : R * Real.cos θ = R' * Real.cos θ' := by
    have := congrArg LatLon.lon h; simpa [polar] using this
  have h1 := Real.sin_sq_add_cos_sq θ
  have h2 := Real.sin_sq_add_cos_sq θ'
  have hRR : R = R' := by
    have e1 : R ^ 2 = R' ^ 2 := by
      calc R ^ 2 = (R * Real.sin θ) ^ 2 + (R * Real.cos θ) ^ 2 := by nlinarith
        _ = (R' * Real.sin θ') ^ 2 + (R' * Real.cos θ') ^ 2 := by rw [hs, hc]
        _ = R' ^ 2 := by nlinarith
    nlinarith
  subst hRR
  have hs' := mul_left_cancel₀ hR.ne' hs
  have hc' := mul_left_cancel₀ hR.ne' hc
  rw [Real.cos_sub, hs', hc']
  nlinarith

/-- **C78 fails.** With equal draws the 16 corners are 0.6 radians apart, which takes more than one turn. -/
theorem claim_fails : ¬ Claim := by
  intro hcl
  have hn : NameOk (fun _ => 0) := fun _ => by norm_num
  obtain ⟨r, h, hl, ha⟩ := surrounds_partial 0 0 1 10 "r" "red" (fun _ => 0) (fun _ => even) hn (fun _ => even_draws)
  obtain ⟨t, ht⟩ : ∃ t, r.tracks[0]? = some t := by
    have : 0 < r.tracks.length := by rw [hl]; decide
    exact ⟨_, List.getElem?_eq_getElem this⟩
  have hm : t ∈ r.tracks := List.mem_of_getElem? ht
  obtain ⟨R, θ, hA, hend⟩ := hcl 0 0 1 10 "r" "red" (fun _ => 0) (fun _ => even) r hn (fun _ => even_draws) h t hm
  have hc := track_corners 0 0 1 10 "r" "red" (fun _ => 0) (fun _ => even) hn (fun _ => even_draws.name) r h 0 t ht
  set δ := 6 * ratio / 16 with hδ
  have hb := ratio_bounds
  -- Each corner lies where the draws put it, so the angles agree up to whole turns.
  have hk : ∀ k < 16, ∃ n : ℤ, θ k = (k + 1) * δ + n * (2 * Real.pi) := by
    intro k hk
    have h1 := hA.corner k hk
    rw [hc, List.getElem?_map, List.getElem?_append_left (by simpa using hk), List.getElem?_range hk] at h1
    have h2 := Option.some.inj h1
    have hpos : 0 < radius (levelOf 10) (even.e k) := by
      unfold radius levelOf even; norm_num
    have h3 := polar_inj (hA.radius k hk) hpos h2.symm
    obtain ⟨n, hn⟩ := (Real.cos_eq_one_iff _).mp h3
    refine ⟨n, ?_⟩
    have e := even_angle k
    simp only [← hδ] at e
    rw [← e]
    linarith
  -- An increment is at least the one between the draws, as the next smaller one is negative.
  have hstep : ∀ k < 15, θ k + δ ≤ θ (k + 1) := by
    intro k hk'
    obtain ⟨n, hn⟩ := hk k (by omega)
    obtain ⟨m, hm⟩ := hk (k + 1) (by omega)
    have hasc := hA.ascending k hk'
    push_cast at hm
    have hge : n ≤ m := by
      by_contra hlt
      have : (m : ℝ) + 1 ≤ n := by exact_mod_cast (by omega : m + 1 ≤ n)
      have hp := Real.pi_gt_d2
      nlinarith
    have : (n : ℝ) ≤ m := by exact_mod_cast hge
    have hp := Real.pi_pos
    nlinarith
  have hsum : ∀ k ≤ 15, θ 0 + k * δ ≤ θ k := by
    intro k
    induction k with
    | zero => intro _; simp
    | succ k ih =>
      intro hk'
      have := ih (by omega)
      have := hstep k (by omega)
      push_cast
      linarith
  have := hsum 15 (le_refl _)
  have hp := Real.pi_lt_d2
  push_cast at this
  linarith

/-! ## Examples -/

/-- The draws of the counterexample: a track with 17 points, from angle 0.6 to angle 9.7. -/
example : ∃ r, randomRoute 20 10 (-5) 1000 "r" "red" (fun _ => 3) (fun _ => even) = .ok r ∧ r.tracks.length = 1 ∧
    ∀ (i : Nat) t, r.tracks[i]? = some t → ∃ R θ, Around ⟨10, 20⟩ R θ (C01.readBack t.segments) ∧ R 5 = 0.06 ∧
      θ 15 = 16 * θ 0 := by
  obtain ⟨r, h, hl, ha⟩ := surrounds_partial 20 10 (-5) 1000 "r" "red" (fun _ => 3) (fun _ => even)
    (fun _ => by norm_num) (fun _ => even_draws)
  refine ⟨r, h, hl, fun i t ht => ?_⟩
  obtain ⟨R, θ, hA, hR, hθ, -⟩ := ha i t ht
  refine ⟨R, θ, hA, ?_, ?_⟩
  · rw [hR 5]; norm_num [even, levelOf]
  · have h0 := hθ 0
    have h15 := hθ 15
    rw [even_total, even_total] at h0
    rw [even_total] at h15
    push_cast at h0 h15
    linarith

end C78
end GpsGen
