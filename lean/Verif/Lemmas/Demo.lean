import Verif.Lemmas.GeoReal
import Verif.Lemmas.LoopOutcome
/-!
# Helper lemmas: a navigator on a one-degree route, used by examples and counterexamples
-/

namespace GpsGen
open Navigator

/-- The route from longitude 0 to longitude 1 on the equator. -/
noncomputable def oneRoute : Route ℝ := eqRoute "r" "t" "#000000" 0 1

/-- A new navigator that was given this route. -/
noncomputable def oneNav (skip : Bool) : Navigator ℝ :=
  { freshNav skip with routes := [oneRoute], distance := degLen, version := 1 }

theorem oneNav_add (skip : Bool) : (freshNav skip).addRoute [some oneRoute] = (oneNav skip, none) := by
  simp [addRoute, addLoop, freshNav, hasRoute, reset, resetIndexes, calcRouteDistance, nextVersion,
      oneRoute, oneNav, eqRoute]

theorem oneNav_route (skip : Bool) : (oneNav skip).route? = some oneRoute := rfl

theorem oneNav_online (skip : Bool) : (oneNav skip).nextOffline.2 = false := by
  cases skip <;> rfl

theorem oneSeg_nonempty : (eqSeg 0 1 0 (-1)).isEmpty = false := eqSeg_nonempty _ _ _ _ (by norm_num)

theorem oneNav_curSeg (skip : Bool) : (oneNav skip).curSeg = eqSeg 0 1 0 (-1) := by
  have : (oneNav skip).seg? = some (eqSeg 0 1 0 (-1)) := rfl
  simp [curSeg, this, oneSeg_nonempty]

theorem oneNav_fits (skip : Bool) (d : ℝ) : (oneNav skip).Fits d ↔ d ≤ degLen := by
  unfold Fits
  rw [oneNav_curSeg]
  have h0 : (oneNav skip).currentSegmentDistance = 0 := rfl
  rw [h0]
  simp [oneSeg_nonempty]
  simp [eqSeg]

theorem oneNav_atLast (skip : Bool) : (oneNav skip).AtLast := rfl

/-- A step of at most one degree lands on the segment. -/
theorem oneNav_step (skip : Bool) (t s : ℝ) (x : UInt32) (h : t * s ≤ degLen) :
    (oneNav skip).nextLocation t s x = .ok ((oneNav skip).land (t * s), true) :=
  nextLocation_land _ t s x oneRoute (oneNav_route skip) (oneNav_online skip)
    ((oneNav_fits skip _).mpr h)

/-- A longer step completes a lap. -/
theorem oneNav_over (t s : ℝ) (x : UInt32) (h : degLen < t * s) :
    (oneNav true).nextLocation t s x = .ok ((oneNav true).leaveTrack oneRoute, false) := by
  have := nextLocation_leave (oneNav true) t s x oneRoute (oneNav_route true) (oneNav_online true)
    (fun hf => absurd ((oneNav_fits true _).mp hf) (not_le.mpr h)) (Or.inr (oneNav_atLast true))
  rw [this]
  rfl

end GpsGen
