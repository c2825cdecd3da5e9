import Verif.Lemmas.Basic
/-!
# Helper lemmas: outcomes of `DestinationTo`
-/

namespace GpsGen
variable {F : Type}

namespace Navigator

/-- The state after a successful jump. -/
def jumped [GoMath F] (n : Navigator F) (d : F) (ri ti si : Int) (s : Segment F) (rd crd ctd : F) :
    Navigator F :=
  { n with point := s.destinationTo (GoFloat.abs (d -. rd)), routeIndex := ri, trackIndex := ti
           segmentIndex := si, currentSegmentDistance := GoFloat.abs (d -. rd)
           currentDistance := rd +. GoFloat.abs (d -. rd)
           currentRouteDistance := crd +. GoFloat.abs (d -. rd)
           currentTrackDistance := ctd +. GoFloat.abs (d -. rd) }

/-- The distance actually used by `DestinationTo`. -/
def jumpDist [GoFloat F] (n : Navigator F) (m : F) : F := if n.distance <. m then n.distance else m

theorem destinationTo_cases [GoMath F] (n : Navigator F) (m : F) :
    n.destinationTo m = (n, false) ∨
    ∃ route ri rd track ti rd2 crd s si rd3 crd3 ctd,
      (n.jumpDist m <. lit 1) = false ∧
      jumpRoutes (n.jumpDist m) 0 0 (lit 0) none n.routes = (some route, ri, rd) ∧
      jumpTracks (n.jumpDist m) 0 0 rd (lit 0) none route.tracks = (some track, ti, rd2, crd) ∧
      jumpSegments (n.jumpDist m) 0 0 rd2 crd (lit 0) Segment.zero track.segments =
        (s, si, rd3, crd3, ctd) ∧
      s.isEmpty = false ∧
      n.destinationTo m = (n.jumped (n.jumpDist m) ri ti si s rd3 crd3 ctd, true) := by
  unfold destinationTo jumpDist
  generalize (if (n.distance <. m) = true then n.distance else m) = d
  simp only
  by_cases hd : (d <. lit 1) = true
  · left; rw [if_pos hd]
  rw [if_neg hd]
  rcases h1 : jumpRoutes d 0 0 (lit 0) none n.routes with ⟨_ | route, ri, rd⟩
  · left; rfl
  simp only
  rcases h2 : jumpTracks d 0 0 rd (lit 0) none route.tracks with ⟨_ | track, ti, rd2, crd⟩
  · left; rfl
  simp only
  rcases h3 : jumpSegments d 0 0 rd2 crd (lit 0) Segment.zero track.segments with
    ⟨s, si, rd3, crd3, ctd⟩
  by_cases he : s.isEmpty = true
  · left; simp only [he, if_true]
  · right
    refine ⟨route, ri, rd, track, ti, rd2, crd, s, si, rd3, crd3, ctd, by simpa using hd, rfl, h2, h3,
      by simpa using he, ?_⟩
    simp only [he]
    rfl

end Navigator
end GpsGen
