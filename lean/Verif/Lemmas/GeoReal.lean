import Mathlib.Analysis.Real.Pi.Bounds
import Verif.Model.NumReal
import Verif.Model.Route
import Verif.Model.Navigator
/-!
# Helper lemmas: concrete routes on the equator, in exact arithmetic
-/

namespace GpsGen

/-- Length of one degree along the equator. -/
noncomputable def degLen : ℝ := 6371000 * (Real.pi / 180)

theorem degLen_gt : 100000 < degLen := by
  unfold degLen
  have := Real.pi_gt_three
  linarith

theorem arcsin_abs_sin {x : ℝ} (h : |x| ≤ Real.pi / 2) : Real.arcsin |Real.sin x| = |x| := by
  obtain ⟨h1, h2⟩ := abs_le.mp h
  by_cases hx : 0 ≤ x
  · rw [abs_of_nonneg (Real.sin_nonneg_of_nonneg_of_le_pi hx (by linarith [Real.pi_pos])),
      Real.arcsin_sin h1 h2, abs_of_nonneg hx]
  · have hx' : x ≤ 0 := le_of_not_ge hx
    rw [abs_of_nonpos (Real.sin_nonpos_of_nonpos_of_neg_pi_le hx' (by linarith [Real.pi_pos])),
      ← Real.sin_neg, Real.arcsin_sin (by linarith) (by linarith), abs_of_nonpos hx']

theorem distance_equator (a b : ℝ) (h : |b - a| ≤ 180) :
    distance (F := ℝ) 0 a 0 b = degLen * |b - a| := by
  have hπ := Real.pi_pos
  have e : b * (Real.pi / 180) - a * (Real.pi / 180) = (b - a) * (Real.pi / 180) := by ring
  simp only [distance, distanceFromHaversine, haversine, earthRadius, radians, real_add, real_sub,
    real_mul, real_div, real_lit, real_sin, real_cos, real_asin, real_sqrt, real_pi, zero_mul,
    sub_zero, Rat.cast_ofNat, zero_div, Real.sin_zero, Real.cos_zero, mul_one, zero_add, one_mul]
  rw [e, Real.sqrt_mul_self_eq_abs, arcsin_abs_sin]
  · rw [abs_div, abs_mul, abs_of_pos (show (0:ℝ) < 2 by norm_num),
      abs_of_pos (show 0 < Real.pi / 180 by positivity)]
    unfold degLen; ring
  · rw [abs_div, abs_mul, abs_of_pos (show (0:ℝ) < 2 by norm_num),
      abs_of_pos (show 0 < Real.pi / 180 by positivity)]
    calc |b - a| * (Real.pi / 180) / 2 ≤ 180 * (Real.pi / 180) / 2 := by gcongr
      _ = Real.pi / 2 := by ring

/-- The equator point with the given longitude. -/
noncomputable def eqPt (a : ℝ) : LatLon ℝ := ⟨0, a⟩

/-- The segment from longitude `a` to longitude `b` as built by `makeSegments`. -/
noncomputable def eqSeg (a b : ℝ) (i rel : Int) : Segment ℝ :=
  ⟨eqPt a, eqPt b, degLen * |b - a|, bearing 0 a 0 b, i, rel⟩

/-- The track with the single segment from longitude `a` to longitude `b`. -/
noncomputable def eqTrack (id color : String) (a b : ℝ) : Track ℝ :=
  ⟨id, [eqSeg a b 0 (-1)], color, "", none, degLen * |b - a|, false, 0⟩

theorem eqTrack_new (id color : String) (a b : ℝ) (h : |b - a| ≤ 180) :
    Track.new id color [eqPt a, eqPt b] = .ok (eqTrack id color a b) := by
  simp [Track.new, makeSegments, rawSegments, relateSegments, isClosedPts, eqPt, eqTrack, eqSeg,
    distance_equator a b h, bind, Except.bind, pure, Except.pure]

/-- The route holding just that track. -/
noncomputable def eqRoute (id tid color : String) (a b : ℝ) : Route ℝ :=
  ⟨id, degLen * |b - a|, color, "", [eqTrack tid color a b], none, 1⟩

theorem eqRoute_new (id tid color : String) (a b : ℝ) :
    (Route.new id color).addTrack (some (eqTrack tid color a b)) = eqRoute id tid color a b := by
  simp [Route.addTrack, Route.updateState, Route.new, eqRoute, eqTrack]

theorem eqSeg_nonempty (a b : ℝ) (i rel : Int) (h : a ≠ b) : (eqSeg a b i rel).isEmpty = false := by
  have := degLen_gt
  have h2 : b - a ≠ 0 := sub_ne_zero.mpr (Ne.symm h)
  have h3 : degLen ≠ 0 := by linarith
  simp [Segment.isEmpty, eqSeg, h2, h3]

/-- A new navigator with the given offline setting and otherwise default options. -/
noncomputable def freshNav (skip : Bool) : Navigator ℝ where
  routes := []
  routeIndex := 0
  trackIndex := 0
  segmentIndex := 0
  currentSegmentDistance := 0
  currentRouteDistance := 0
  currentTrackDistance := 0
  currentDistance := 0
  offlineIndex := 0
  point := ⟨0, 0⟩
  elevation := ⟨"", "elevation", 1, 500, 0, 0, Curve.new 1 500 4 (normSensorMode 0) (fun _ => 0)⟩
  offline := if skip then none else some (Random.new 1 10)
  distance := 0
  skipOffline := skip
  version := 0

theorem freshNav_new (skip : Bool) :
    Navigator.new "" (fun _ => (0 : ℝ)) (if skip then [.skipOffline] else []) =
      .ok (freshNav skip) := by
  have h : ¬ goLen "elevation" = 0 := by decide
  cases skip <;>
  norm_num [Navigator.new, NavOptions.apply, NavOptions.default, NavOptions.validateOffline,
    NavOptions.validateElevation, Sensor.new, validateAmplitude, freshNav, bind, Except.bind, pure,
    Except.pure, h]

end GpsGen
