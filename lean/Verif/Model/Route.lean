import Verif.Model.Geo
import Verif.Model.Properties
import Verif.Model.Types
/-!
# Package navigator: segments, tracks, routes
-/

namespace GpsGen

variable {F : Type}

/-! ## Name -/

/-- navigator/types.go:17-23, 35-43 `ParseName`. A `Name` is modelled by its string. -/
def parseName (name : String) : Except Err String :=
  if goLen name < 3 then .error .nameTooShort
  else if goLen name > 256 then .error .nameTooLong
  else .ok name

/-! ## Segment -/

/-- navigator/route_track_segment.go:9-16 `Segment`. The getters (navigator/route_track_segment.go:22-39, 49-51) are the fields. -/
structure Segment (F : Type) where
  pointA : LatLon F
  pointB : LatLon F
  dist : F
  bearing : F
  index : Int
  rel : Int
  deriving DecidableEq, Repr, Inhabited

/-- The zero value `Segment{}`. -/
def Segment.zero [GoFloat F] : Segment F :=
  ⟨⟨lit 0, lit 0⟩, ⟨lit 0, lit 0⟩, lit 0, lit 0, 0, 0⟩

/-- navigator/route_track_segment.go:54-56 `IsEmpty`. -/
def Segment.isEmpty [GoFloat F] (s : Segment F) : Bool := s.dist ==. lit 0

/-- navigator/route_track_segment.go:91-93 `hasRelation`. -/
def Segment.hasRelation (s : Segment F) : Bool := s.rel != -1

/-- navigator/route_track_segment.go:43-46 `DestinationTo`. -/
def Segment.destinationTo [GoMath F] (s : Segment F) (meters : F) : LatLon F :=
  destination s.pointA.lat s.pointA.lon meters s.bearing

/-- First loop of `makeSegments` (navigator/route_track_segment.go:103-122): the segments with
indices from `i` on, before relations are assigned. -/
def rawSegments [GoMath F] : Int → List (LatLon F) → List (Segment F)
  | i, a :: b :: rest =>
    ⟨a, b, distance a.lat a.lon b.lat b.lon, bearing a.lat a.lon b.lat b.lon, i, -1⟩ ::
      rawSegments (i + 1) (b :: rest)
  | _, _ => []

/-- Second loop of `makeSegments` (navigator/route_track_segment.go:124-132); `p` is
`segments[s-1]`. -/
def relateSegments [GoFloat F] : Int → Segment F → List (Segment F) → List (Segment F)
  | _, p, [] => [p]
  | s, p, q :: rest =>
    if p.pointB.goEq q.pointA then
      { p with rel := s - 1 } :: relateSegments (s + 1) { q with rel := s } rest
    else p :: relateSegments (s + 1) q rest

/-- navigator/route_track_segment.go:95-135 `makeSegments`. -/
def makeSegments [GoMath F] (points : List (LatLon F)) : Except Err (List (Segment F) × F) :=
  if points.length < 2 then .error .invalidRoutePath else
  let raw := rawSegments 0 points
  let dist := raw.foldl (fun d s => d +. s.dist) (lit 0)
  match raw with
  | [] => .ok ([], dist)
  | p :: rest => .ok (relateSegments 1 p rest, dist)

/-! ## Track -/

/-- navigator/route_track.go:15-24 `Track`; `props = none` is a nil map. The getters `ID`, `IsClosed`, `Color` and `Name`
(navigator/route_track.go:63-80) are the fields. -/
structure Track (F : Type) where
  id : String
  segments : List (Segment F)
  color : String
  name : String
  props : Option (PMap F)
  dist : F
  isClosed : Bool
  version : Int
  deriving DecidableEq, Repr, Inhabited

/-- navigator/route_track.go:179-187 `isClosed`, including its comparison of `p2.Lat` with
itself. -/
def isClosedPts [GoFloat F] (points : List (LatLon F)) : Bool :=
  if points.length < 3 then false else
  match points.head?, points.getLast? with
  | some p1, some p2 => (p1.lon ==. p2.lon) && (p2.lat ==. p2.lat)
  | _, _ => false

/-- navigator/route_track.go:30-42 `NewTrack`; `uid` and `color` are the generated UUID and
colour. -/
def Track.new [GoMath F] (uid color : String) (points : List (LatLon F)) : Except Err (Track F) := do
  let (segments, dist) ← makeSegments points
  return ⟨uid, segments, color, "", none, dist, isClosedPts points, 0⟩

/-- navigator/route_track.go:45-60 `RestoreTrack`. -/
def Track.restore [GoMath F] (trackID color : String) (points : List (LatLon F)) :
    Except Err (Track F) :=
  if goLen trackID = 0 then .error .emptyTrackID else do
  let (segments, dist) ← makeSegments points
  return ⟨trackID, segments, color, "", none, dist, isClosedPts points, 0⟩

/-- navigator/route_track.go:83-91 `ChangeColor`; `parsed` is the normalised colour returned by
`colorful.Hex`, `none` if it fails. -/
def Track.changeColor (t : Track F) (parsed : Option String) : Track F × Option Err :=
  match parsed with
  | none => (t, some .invalidColor)
  | some c => ({ t with color := c, version := t.version + 1 }, none)

/-- navigator/route_track.go:94-102 `ChangeName`. -/
def Track.changeName (t : Track F) (name : String) : Track F × Option Err :=
  match parseName name with
  | .error e => (t, some e)
  | .ok n => ({ t with name := n, version := t.version + 1 }, none)

/-- navigator/route_track.go:110-115 `Props`: creates the map on first use. -/
def Track.propsOf (t : Track F) : Track F × PMap F :=
  match t.props with
  | none => ({ t with props := some PMap.make }, PMap.make)
  | some p => (t, p)

/-- navigator/route_track.go:118-120 `NumSegments`. -/
def Track.numSegments (t : Track F) : Int := t.segments.length

/-- navigator/route_track.go:123-128 `SegmentAt`. -/
def Track.segmentAt [GoFloat F] (t : Track F) (i : Int) : Segment F :=
  (goAt? t.segments i).getD Segment.zero

/-! ## Route -/

/-- navigator/route.go:14-22 `Route`. -/
structure Route (F : Type) where
  id : String
  dist : F
  color : String
  name : String
  tracks : List (Track F)
  props : Option (PMap F)
  version : Int
  deriving DecidableEq, Repr, Inhabited

/-- navigator/route.go:28-34 `NewRoute`. -/
def Route.new [GoFloat F] (uid color : String) : Route F := ⟨uid, lit 0, color, "", [], none, 0⟩

/-- navigator/route.go:37-48 `RestoreRoute`. -/
def Route.restore [GoFloat F] (routeID color : String) (props : Option (PMap F)) : Route F :=
  ⟨routeID, lit 0, color, "", [], props, 0⟩

/-- navigator/route.go:235-240 `updateState`. -/
def Route.updateState [GoFloat F] (r : Route F) : Route F :=
  { r with dist := r.tracks.foldl (fun d t => d +. t.dist) (lit 0) }

/-- navigator/route.go:166-176 `AddTrack`; `none` is a nil track. -/
def Route.addTrack [GoFloat F] (r : Route F) : Option (Track F) → Route F
  | none => r
  | some t =>
    let r := { r with tracks := r.tracks ++ [t] }
    let r := r.updateState
    { r with version := r.version + 1 }

/-- navigator/route.go:51-57 `RouteFromTracks`. -/
def Route.fromTracks [GoFloat F] (uid color : String) (tracks : List (Option (Track F))) : Route F :=
  tracks.foldl Route.addTrack (Route.new uid color)

/-- navigator/route.go:109-111 `NumTracks`. -/
def Route.numTracks (r : Route F) : Int := r.tracks.length

/-- navigator/route.go:114-119 `TrackAt`. -/
def Route.trackAt (r : Route F) (i : Int) : Option (Track F) := goAt? r.tracks i

/-- The search-and-remove loop shared by `RemoveTrack`, `RemoveRoute`, `RemoveSensor` and
`delete`: drop the first element satisfying `p`, reporting whether there was one. -/
def removeFirst {α : Type} (p : α → Bool) : List α → List α × Bool
  | [] => ([], false)
  | a :: as => if p a then (as, true) else
    let (bs, ok) := removeFirst p as
    (a :: bs, ok)

/-- navigator/route.go:122-140 `RemoveTrack`. -/
def Route.removeTrack [GoFloat F] (r : Route F) (trackID : String) : Route F × Bool :=
  if goLen trackID = 0 ∨ goLen trackID > 36 then (r, false) else
  let (ts, ok) := removeFirst (fun t : Track F => t.id == trackID) r.tracks
  if ok then
    let r := { r with tracks := ts }
    let r := r.updateState
    ({ r with version := r.version + 1 }, true)
  else (r, false)

/-- navigator/route.go:143-154 `TrackByID`; note that a successful lookup increments the
version. -/
def Route.trackByID (r : Route F) (trackID : String) : Route F × Option (Track F) :=
  if goLen trackID = 0 ∨ goLen trackID > 36 then (r, none) else
  match r.tracks.find? (fun t => t.id == trackID) with
  | some t => ({ r with version := r.version + 1 }, some t)
  | none => (r, none)

/-- navigator/route.go:242-249 `indexTrack`. -/
def Route.indexTrack (r : Route F) (trackID : String) : Int :=
  match r.tracks.findIdx? (fun t => t.id == trackID) with
  | some i => i
  | none => -1

/-- navigator/route.go:70-77 `ChangeColor`; `parsed` is `color.Hex()` of a valid colour, `none` if
the colour is invalid. -/
def Route.changeColor (r : Route F) (parsed : Option String) : Route F × Option Err :=
  match parsed with
  | none => (r, some .invalidColor)
  | some c => ({ r with color := c, version := r.version + 1 }, none)

/-- navigator/route.go:90-98 `ChangeName`. -/
def Route.changeName (r : Route F) (name : String) : Route F × Option Err :=
  match parseName name with
  | .error e => (r, some e)
  | .ok n => ({ r with name := n, version := r.version + 1 }, none)

/-- navigator/route.go:101-106 `Props`. -/
def Route.propsOf (r : Route F) : Route F × PMap F :=
  match r.props with
  | none => ({ r with props := some PMap.make }, PMap.make)
  | some p => (r, p)

end GpsGen
