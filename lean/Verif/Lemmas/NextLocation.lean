import Verif.Lemmas.Basic
import Verif.Lemmas.Lists
/-!
# Helper lemmas: panic-free description of `NextLocation`
-/

namespace GpsGen
variable {F : Type}

namespace Navigator

/-- The segment returned by `CurrentSegment`. -/
def curSeg [GoFloat F] (n : Navigator F) : Segment F :=
  match n.seg? with
  | some s => if s.isEmpty then Segment.zero else s
  | none => Segment.zero

theorem currentSegment_eq' [GoFloat F] (n : Navigator F) (h : n.IndexOk) :
    n.currentSegment = .ok n.curSeg := currentSegment_eq n h

theorem curSeg_nonempty [GoFloat F] (n : Navigator F) (h : n.curSeg.isEmpty = false) :
    n.seg? = some n.curSeg := by
  unfold curSeg at h ⊢
  cases hs : n.seg? with
  | none => rw [hs] at h; simp [zero_isEmpty] at h
  | some s =>
    rw [hs] at h
    simp only at h ⊢
    by_cases he : s.isEmpty
    · simp [he, zero_isEmpty] at h
    · simp [he]

theorem indexOk_of_route {n : Navigator F} {r : Route F} (h : n.route? = some r) : n.IndexOk := by
  have : (goAt? n.routes n.routeIndex).isSome := by
    unfold route? at h; rw [h]; rfl
  exact Or.inr (goAt?_isSome.mp this)

theorem route_of_indexOk {n : Navigator F} (h : n.IndexOk) (hr : n.routes ≠ []) :
    ∃ r, n.route? = some r ∧ r ∈ n.routes := by
  rcases h with h | h
  · exact absurd h hr
  · have := goAt?_isSome.mpr h
    obtain ⟨r, h'⟩ := Option.isSome_iff_exists.mp this
    refine ⟨r, h', ?_⟩
    exact List.mem_of_getElem? (goAt?_eq_some.mp h').2

/-- Leaving the current track: `nextTrack` and, if that fails, `nextRoute`. -/
def leaveTrack [GoFloat F] (n : Navigator F) (r : Route F) : Navigator F :=
  if n.trackIndex < r.numTracks - 1 then
    { n with currentSegmentDistance := lit 0, segmentIndex := 0, currentTrackDistance := lit 0
             trackIndex := n.trackIndex + 1 }
  else if n.routeIndex < n.routes.length - 1 then
    { n with currentSegmentDistance := lit 0, segmentIndex := 0, currentTrackDistance := lit 0
             trackIndex := 0, currentRouteDistance := lit 0, routeIndex := n.routeIndex + 1 }
  else
    { n with currentSegmentDistance := lit 0, segmentIndex := 0, currentTrackDistance := lit 0
             trackIndex := 0, currentRouteDistance := lit 0, routeIndex := 0
             currentDistance := lit (1/10) }

/-- Moving to the next segment of the track. -/
def advanceSegment [GoFloat F] (n : Navigator F) : Navigator F :=
  { n with currentSegmentDistance := lit 0, segmentIndex := n.segmentIndex + 1 }

/-- Arriving at a position on the current segment. -/
def land [GoMath F] (n : Navigator F) (d : F) : Navigator F :=
  let m := n.updateDist d
  let meters := if n.isStartSegment then lit 1 else n.currentSegmentDistance +. d
  { m with point := n.curSeg.destinationTo meters }

/-- One iteration of the loop of `NextLocation`, without panics. -/
theorem nextLoop_succ [GoMath F] (d : F) (x : UInt32) (fuel : Nat) (n : Navigator F) (r : Route F)
    (hr : n.route? = some r) :
    nextLoop d x (fuel + 1) n =
      if !n.curSeg.isEmpty && (n.currentSegmentDistance +. d <=. n.curSeg.dist) then
        .ok (n.land d, true)
      else if !n.curSeg.isEmpty &&
          decide (n.segmentIndex ≠ ((n.track?.map Track.numSegments).getD 0) - 1) then
        if n.curSeg.hasRelation then nextLoop d x fuel n.advanceSegment
        else (n.advanceSegment.toOffline x).map (fun m => (m, false))
      else ((n.leaveTrack r).toOffline x).map (fun m => (m, false)) := by
  have hI := indexOk_of_route hr
  have hlen : 0 ≤ n.routeIndex ∧ n.routeIndex < n.routes.length := by
    have : (goAt? n.routes n.routeIndex).isSome := by unfold route? at hr; rw [hr]; rfl
    exact goAt?_isSome.mp this
  conv => lhs; unfold nextLoop
  unfold isValidDistance
  rw [currentSegment_eq' n hI]
  simp only [ok_bind, pure_eq_ok]
  by_cases hv : n.curSeg.isEmpty
  · -- empty segment: leave the track
    simp only [hv, if_true, Bool.not_true, Bool.false_and, Bool.false_eq_true, if_false]
    have key : ∃ m, n.nextSegment = .ok (m, Segment.zero) ∧
        (m = n ∨ m = n.advanceSegment) := by
      unfold nextSegment
      rw [currentTrack_eq n hI]
      simp only [ok_bind, pure_eq_ok]
      cases ht : n.track? with
      | none => exact ⟨n, rfl, Or.inl rfl⟩
      | some t =>
        simp only
        split
        · exact ⟨n, rfl, Or.inl rfl⟩
        · rw [currentSegment_eq' n hI]
          have hz : n.curSeg = Segment.zero := by
            unfold curSeg at hv ⊢
            cases hs : n.seg? with
            | none => rfl
            | some s =>
              rw [hs] at hv
              simp only at hv ⊢
              by_cases he : s.isEmpty
              · simp [he]
              · simp [he] at hv
          refine ⟨n.advanceSegment, ?_, Or.inr rfl⟩
          rw [hz]; rfl
    obtain ⟨m, hm, hm'⟩ := key
    rw [hm]
    simp only [ok_bind, zero_isEmpty, Bool.not_true, Bool.false_eq_true, if_false]
    have hmr : m.routes = n.routes ∧ m.routeIndex = n.routeIndex ∧ m.trackIndex = n.trackIndex := by
      rcases hm' with rfl | rfl <;> simp [advanceSegment]
    have hlt : m.leaveTrack r = n.leaveTrack r := by
      rcases hm' with rfl | rfl <;> rfl
    have hcr : ({ m with currentSegmentDistance := lit 0, segmentIndex := 0 } :
        Navigator F).currentRoute = .ok (some r) := by
      have hI' : ({ m with currentSegmentDistance := lit 0, segmentIndex := 0 } :
        Navigator F).IndexOk := by
          unfold IndexOk; simp only [hmr.1, hmr.2.1]; exact hI
      rw [currentRoute_eq _ hI']
      simp only [route?, hmr.1, hmr.2.1]
      exact congrArg _ hr
    unfold nextTrack
    simp only [hcr, ok_bind]
    rw [← hlt]
    unfold leaveTrack nextRoute
    by_cases h1 : m.trackIndex < r.numTracks - 1
    · simp [h1]; rfl
    · by_cases h2 : m.routeIndex < (m.routes.length : Int) - 1
      · simp [h1, h2]; rfl
      · simp [h1, h2]; rfl
  · have hv' : n.curSeg.isEmpty = false := by simpa using hv
    simp only [hv', Bool.not_false, Bool.true_and, Bool.false_eq_true, if_false]
    by_cases hd : (n.currentSegmentDistance +. d <=. n.curSeg.dist) = true
    · simp only [hd, if_true]
      have hI' : (n.updateDist d).IndexOk := hI
      rw [currentSegment_eq' _ hI']
      have hc : (n.updateDist d).curSeg = n.curSeg := rfl
      simp only [ok_bind, hc, hv', Bool.false_eq_true, if_false]
      unfold land
      split <;> rfl
    · simp only [hd, if_false, Bool.false_eq_true]
      have hseg := curSeg_nonempty n hv'
      obtain ⟨t, ht⟩ : ∃ t, n.track? = some t := by
        unfold seg? at hseg
        cases h : n.track? with
        | none => rw [h] at hseg; simp at hseg
        | some t => exact ⟨t, rfl⟩
      unfold nextSegment
      rw [currentTrack_eq n hI, ht]
      simp only [ok_bind, pure_eq_ok, Option.map_some, Option.getD_some]
      by_cases hl : n.segmentIndex = t.numSegments - 1
      · simp only [hl, if_true, ok_bind, zero_isEmpty, Bool.not_true, Bool.false_eq_true, if_false,
          ne_eq, not_true, decide_false]
        have hcr : ({ n with currentSegmentDistance := lit 0, segmentIndex := 0 } :
            Navigator F).currentRoute = .ok (some r) := by
          have hI' : ({ n with currentSegmentDistance := lit 0, segmentIndex := 0 } :
            Navigator F).IndexOk := hI
          rw [currentRoute_eq _ hI']
          exact congrArg _ hr
        unfold nextTrack
        simp only [hcr, ok_bind]
        unfold leaveTrack nextRoute
        by_cases h1 : n.trackIndex < r.numTracks - 1
        · simp [h1]; rfl
        · by_cases h2 : n.routeIndex < (n.routes.length : Int) - 1
          · simp [h1, h2]; rfl
          · simp [h1, h2]; rfl
      · simp only [hl, if_false, ne_eq, not_false_eq_true, decide_true, if_true]
        rw [currentSegment_eq' n hI]
        simp only [ok_bind, hv', Bool.not_false, if_true]
        by_cases hrel : n.curSeg.hasRelation
        · simp [hrel, advanceSegment]
        · simp only [hrel, Bool.not_false, if_true, Bool.false_eq_true, if_false]
          rfl

end Navigator
end GpsGen
