import Verif.Model.Route
/-!
# Package navigator: navigator.go and options.go
-/

namespace GpsGen

variable {F : Type}

/-- navigator/navigator.go:12-28 `Navigator`. `offline = none` is a nil pointer. Indices and
version are unbounded integers. The getters `Location`, `Routes`, `TrackIndex`, `RouteIndex`, `SegmentIndex`, `Elevation` and
`OfflineDuration` (navigator/navigator.go:65-67, 251-255, 305-322, 330-332) are the fields; `Routes` returns a copy of the slice,
`Elevation` the last value of the elevation sensor. -/
structure Navigator (F : Type) where
  routes : List (Route F)
  routeIndex : Int
  trackIndex : Int
  segmentIndex : Int
  currentSegmentDistance : F
  currentRouteDistance : F
  currentTrackDistance : F
  currentDistance : F
  offlineIndex : Int
  point : LatLon F
  elevation : Sensor F
  offline : Option Random
  distance : F
  skipOffline : Bool
  version : Int
  deriving DecidableEq, Repr, Inhabited

/-! ## Options -/

/-- navigator/options.go:42-47 `navigatorOptions`. -/
structure NavOptions (F : Type) where
  elevationMin : F
  elevationMax : F
  elevationMode : UInt16
  minOffline : Int
  maxOffline : Int
  elevationAmplitude : Int
  skipOffline : Bool

/-- navigator/options.go:100-108 `defaultOptions`. -/
def NavOptions.default [GoFloat F] : NavOptions F := ⟨lit 1, lit 500, 0, 1, 10, 4, false⟩

/-- navigator/options.go:20-40: the three option constructors. -/
inductive NavOption (F : Type) where
  | skipOffline
  | elevation (min max : F) (amplitude : Int) (mode : UInt16)
  | offline (min max : Int)

/-- Applying one option (navigator/options.go:20-40). -/
def NavOptions.apply (o : NavOptions F) : NavOption F → NavOptions F
  | .skipOffline => { o with skipOffline := true }
  | .elevation min max amp mode =>
    { o with elevationMin := min, elevationMax := max, elevationAmplitude := amp,
             elevationMode := mode }
  | .offline min max => { o with minOffline := min, maxOffline := max }

/-- navigator/options.go:78-98 `validateOffline`. -/
def NavOptions.validateOffline (o : NavOptions F) : Except Err (NavOptions F) :=
  if o.minOffline < 0 then .error .minOffline else
  if o.maxOffline > 3600 then .error .maxOffline else
  let o := if o.minOffline > o.maxOffline then { o with minOffline := o.maxOffline - 1 } else o
  let o := if o.maxOffline < o.minOffline then { o with maxOffline := o.minOffline + 1 } else o
  let o := if o.minOffline = 0 ∧ o.maxOffline = 0 then { o with minOffline := 0, maxOffline := 10 }
    else o
  .ok o

/-- navigator/options.go:56-76 `validateElevation`. -/
def NavOptions.validateElevation [GoFloat F] (o : NavOptions F) : Except Err (NavOptions F) :=
  if o.elevationMin <. lit 0 then .error .minElevation else
  if lit 50000 <. o.elevationMax then .error .maxElevation else
  let o := if o.elevationMax <. o.elevationMin then
    { o with elevationMin := o.elevationMax -. lit 1 } else o
  let o := if o.elevationMax <. o.elevationMin then
    { o with elevationMax := o.elevationMin +. lit 1 } else o
  let o := if (o.elevationMin ==. lit 0) && (o.elevationMax ==. lit 0) then
    { o with elevationMin := lit 0, elevationMax := lit 0 +. lit 100 } else o
  .ok o

/-- navigator/navigator.go:31-62 `New`; `uid` and `draws` are the random choices made by
`NewSensor`. -/
def Navigator.new [GoFloat F] (uid : String) (draws : Nat → F) (opts : List (NavOption F)) :
    Except Err (Navigator F) := do
  let o := opts.foldl NavOptions.apply NavOptions.default
  let o ← o.validateOffline
  let o ← o.validateElevation
  let elevation ← Sensor.new uid draws "elevation" o.elevationMin o.elevationMax
    o.elevationAmplitude o.elevationMode
  return {
    routes := [], routeIndex := 0, trackIndex := 0, segmentIndex := 0
    currentSegmentDistance := lit 0, currentRouteDistance := lit 0
    currentTrackDistance := lit 0, currentDistance := lit 0
    offlineIndex := 0, point := ⟨lit 0, lit 0⟩, elevation := elevation
    offline := if o.skipOffline then none else some (Random.new o.minOffline o.maxOffline)
    distance := lit 0, skipOffline := o.skipOffline, version := 0 }

namespace Navigator

/-! ## Getters -/

/-- navigator/navigator.go:258-263 `CurrentRoute`: `n.routes[n.routeIndex]` may panic. -/
def currentRoute (n : Navigator F) : Go (Option (Route F)) :=
  if n.routes.isEmpty then .ok none else do
  let r ← goIndex n.routes n.routeIndex
  return some r

/-- navigator/navigator.go:266-272 `CurrentTrack`. -/
def currentTrack (n : Navigator F) : Go (Option (Track F)) := do
  match ← n.currentRoute with
  | none => return none
  | some r => return r.trackAt n.trackIndex

/-- navigator/navigator.go:275-289 `CurrentSegment`. -/
def currentSegment [GoFloat F] (n : Navigator F) : Go (Segment F) := do
  match ← n.currentRoute with
  | none => return Segment.zero
  | some r =>
    match r.trackAt n.trackIndex with
    | none => return Segment.zero
    | some t =>
      let s := t.segmentAt n.segmentIndex
      return if s.isEmpty then Segment.zero else s

/-- navigator/navigator.go:297-302 `RouteAt`. -/
def routeAt (n : Navigator F) (i : Int) : Option (Route F) := goAt? n.routes i

/-- navigator/navigator.go:292-294 `NumRoutes`. -/
def numRoutes (n : Navigator F) : Int := n.routes.length

/-- navigator/navigator.go:70-76 `CurrentBearing`. -/
def currentBearing [GoFloat F] (n : Navigator F) : Go F := do
  let s ← n.currentSegment
  return if s.isEmpty then lit 0 else s.bearing

/-- navigator/navigator.go:197-203 `RouteDistance`. -/
def routeDistance [GoFloat F] (n : Navigator F) : Go F := do
  match ← n.currentRoute with
  | none => return lit 0
  | some r => return r.dist

/-- navigator/navigator.go:211-217 `TrackDistance`. -/
def trackDistance [GoFloat F] (n : Navigator F) : Go F := do
  match ← n.currentTrack with
  | none => return lit 0
  | some t => return t.dist

/-- navigator/navigator.go:225-231 `SegmentDistance`. -/
def segmentDistance [GoFloat F] (n : Navigator F) : Go F := do
  let s ← n.currentSegment
  return if s.isEmpty then lit 0 else s.dist

/-- navigator/navigator.go:325-327 `IsOffline`. -/
def isOffline (n : Navigator F) : Bool := n.offlineIndex > 0

/-- navigator/navigator.go:99-110 `Sum`. -/
def sum (n : Navigator F) : Int × Int × Int :=
  (n.version,
   n.routes.foldl (fun a r => a + r.version) 0,
   n.routes.foldl (fun b r => r.tracks.foldl (fun b t => b + t.version) b) 0)

/-- navigator/navigator.go:124-134 `RouteByID`. -/
def routeByID (n : Navigator F) (routeID : String) : Except Err (Route F) :=
  if goLen routeID = 0 ∨ goLen routeID > 36 then .error .routeNotFound else
  match n.routes.find? (fun r => r.id == routeID) with
  | some r => .ok r
  | none => .error .routeNotFound

/-- navigator/navigator.go:779-786 `hasRoute`. -/
def hasRoute (routes : List (Route F)) (id : String) : Bool := routes.any (fun r => id == r.id)

/-- navigator/navigator.go:788-798 `indexRoute`. -/
def indexRoute (n : Navigator F) (routeID : String) : Int :=
  if goLen routeID = 0 then -1 else
  match n.routes.findIdx? (fun r => r.id == routeID) with
  | some i => i
  | none => -1

/-! ## Route management -/

/-- navigator/navigator.go:769-777 `resetIndexes`. -/
def resetIndexes [GoFloat F] (n : Navigator F) : Navigator F :=
  { n with routeIndex := 0, trackIndex := 0, segmentIndex := 0
           currentSegmentDistance := lit 0, currentRouteDistance := lit 0
           currentTrackDistance := lit 0, currentDistance := lit 0 }

/-- navigator/navigator.go:762-767 `calcRouteDistance`. -/
def calcRouteDistance [GoFloat F] (n : Navigator F) : Navigator F :=
  { n with distance := n.routes.foldl (fun d r => d +. r.dist) (lit 0) }

/-- navigator/navigator.go:687-690 `Reset`. -/
def reset [GoFloat F] (n : Navigator F) : Navigator F := n.resetIndexes.calcRouteDistance

/-- navigator/navigator.go:800-802 `nextVersion`. -/
def nextVersion (n : Navigator F) : Navigator F := { n with version := n.version + 1 }

/-- The loop of `AddRoute` (navigator/navigator.go:84-90): the routes kept and the counter `ok`. -/
def addLoop : List (Route F) → Nat → List (Option (Route F)) → List (Route F) × Nat
  | held, ok, [] => (held, ok)
  | held, ok, none :: rest => addLoop held ok rest
  | held, ok, some r :: rest =>
    if hasRoute held r.id then addLoop held ok rest else addLoop (held ++ [r]) (ok + 1) rest

/-- navigator/navigator.go:79-96 `AddRoute`. -/
def addRoute [GoFloat F] (n : Navigator F) (routes : List (Option (Route F))) :
    Navigator F × Option Err :=
  if routes.length = 0 then (n, some .noRoutes) else
  let (held, ok) := addLoop n.routes 0 routes
  let n := { n with routes := held }
  if ok > 0 then (n.reset.nextVersion, none) else (n, none)

/-- navigator/navigator.go:113-121 `ResetRoutes`. -/
def resetRoutes [GoFloat F] (n : Navigator F) : Navigator F × Bool :=
  if n.routes.length = 0 then (n, false) else
  (({ n with routes := [] } : Navigator F).reset.nextVersion, true)

/-- navigator/navigator.go:149-165 `RemoveRoute`. -/
def removeRoute [GoFloat F] (n : Navigator F) (routeID : String) : Navigator F × Bool :=
  if goLen routeID = 0 ∨ goLen routeID > 36 then (n, false) else
  let (rs, ok) := removeFirst (fun r : Route F => r.id == routeID) n.routes
  if ok then (({ n with routes := rs } : Navigator F).nextVersion.reset, true) else (n, false)

/-- Replace the first element satisfying `p` by its image. Models mutation of a route through the
pointer found by a search loop. -/
def updateFirst {α : Type} (p : α → Bool) (f : α → α) : List α → List α
  | [] => []
  | a :: as => if p a then f a :: as else a :: updateFirst p f as

/-- navigator/navigator.go:168-184 `RemoveTrack`. -/
def removeTrack [GoFloat F] (n : Navigator F) (routeID trackID : String) : Navigator F × Bool :=
  if goLen routeID = 0 ∨ goLen routeID > 36 ∨ goLen trackID = 0 ∨ goLen trackID > 36 then (n, false)
  else
  match n.routeByID routeID with
  | .error _ => (n, false)
  | .ok r =>
    let (_, ok) := r.removeTrack trackID
    let rs := updateFirst (fun r : Route F => r.id == routeID)
      (fun r => (r.removeTrack trackID).1) n.routes
    let n := { n with routes := rs }
    if ok then (n.nextVersion, true) else (n, false)

/-! ## Moves -/

/-- navigator/navigator.go:239-248 `IsFinish`; it clears the marker. -/
def isFinish [GoFloat F] (n : Navigator F) : Navigator F × Bool :=
  if n.routeIndex == 0 && n.trackIndex == 0 && n.segmentIndex == 0 &&
      (n.currentDistance ==. lit (1/10)) then
    ({ n with currentDistance := lit 0 }, true)
  else (n, false)

/-- navigator/navigator.go:423-472 `MoveToSegment`. -/
def moveToSegment [GoFloat F] (n : Navigator F) (routeIndex trackIndex segmentIndex : Int) :
    Go (Navigator F × Bool) :=
  if n.routes.length = 0 then .ok (n, false) else
  if n.routeIndex = routeIndex ∧ n.trackIndex = trackIndex ∧ n.segmentIndex = segmentIndex then
    .ok (n, false) else
  if routeIndex < 0 ∨ routeIndex > n.routes.length - 1 then .ok (n, false) else do
  let route ← goIndex n.routes routeIndex
  if route.tracks.length = 0 then .ok (n, false) else
  if trackIndex < 0 ∨ trackIndex > route.tracks.length - 1 then .ok (n, false) else
  match route.trackAt trackIndex with
  | none => .error .nilDeref
  | some track =>
    if segmentIndex < 0 ∨ segmentIndex > track.segments.length - 1 then .ok (n, false) else
    let segment := track.segmentAt segmentIndex
    let m := n
    let m := if segmentIndex ≠ n.segmentIndex then
      { m with currentSegmentDistance := lit 0 } else m
    let m := if trackIndex ≠ n.trackIndex then
      { m with currentTrackDistance := lit 0, currentSegmentDistance := lit 0 } else m
    let m := if routeIndex ≠ n.routeIndex then
      { m with currentRouteDistance := lit 0, currentTrackDistance := lit 0,
               currentSegmentDistance := lit 0 } else m
    .ok ({ m with point := segment.pointA, routeIndex := routeIndex, trackIndex := trackIndex,
                  segmentIndex := segmentIndex, offlineIndex := 0 }, true)

/-- navigator/navigator.go:413-415 `MoveToRoute`. -/
def moveToRoute [GoFloat F] (n : Navigator F) (routeIndex : Int) : Go (Navigator F × Bool) :=
  n.moveToSegment routeIndex 0 0

/-- navigator/navigator.go:418-420 `MoveToTrack`. -/
def moveToTrack [GoFloat F] (n : Navigator F) (routeIndex trackIndex : Int) :
    Go (Navigator F × Bool) :=
  n.moveToSegment routeIndex trackIndex 0

/-- navigator/navigator.go:370-377 `NextRoute`. -/
def toNextRoute [GoFloat F] (n : Navigator F) : Go (Navigator F × Bool) :=
  if n.routeIndex < n.routes.length - 1 then n.moveToRoute (n.routeIndex + 1) else .ok (n, false)

/-- navigator/navigator.go:380-387 `PrevRoute`. -/
def toPrevRoute [GoFloat F] (n : Navigator F) : Go (Navigator F × Bool) :=
  if n.routeIndex > 0 then n.moveToRoute (n.routeIndex - 1) else .ok (n, false)

/-- navigator/navigator.go:390-396 `MoveToRouteByID`. -/
def moveToRouteByID [GoFloat F] (n : Navigator F) (routeID : String) : Go (Navigator F × Bool) :=
  let index := n.indexRoute routeID
  if index = -1 then .ok (n, false) else n.moveToRoute index

/-- navigator/navigator.go:399-410 `MoveToTrackByID`. -/
def moveToTrackByID [GoFloat F] (n : Navigator F) (routeID trackID : String) :
    Go (Navigator F × Bool) :=
  let routeIndex := n.indexRoute routeID
  if routeIndex = -1 then .ok (n, false) else do
  let route ← goIndex n.routes routeIndex
  let trackIndex := route.indexTrack trackID
  if trackIndex = -1 then .ok (n, false) else n.moveToTrack routeIndex trackIndex

/-! ## Offline -/

/-- navigator/navigator.go:480-485 `ToOffline`; `x` is the raw random draw. -/
def toOffline (n : Navigator F) (x : UInt32) : Go (Navigator F) :=
  if n.skipOffline then .ok n else
  match n.offline with
  | none => .error .nilDeref
  | some r => .ok { n with offlineIndex := r.value x }

/-- navigator/navigator.go:711-720 `nextOffline`. -/
def nextOffline (n : Navigator F) : Navigator F × Bool :=
  if n.skipOffline then (n, false) else
  if n.offlineIndex > 0 then ({ n with offlineIndex := n.offlineIndex - 1 }, true) else (n, false)

/-! ## Elevation -/

/-- navigator/navigator.go:488-490 `NextElevation`. -/
def nextElevation [GoFloat F] (n : Navigator F) (tick : F) : Go (Navigator F) := do
  let e ← n.elevation.next tick
  return { n with elevation := e }

/-- navigator/navigator.go:493-495 `ShuffleElevation`. -/
def shuffleElevation [GoFloat F] (n : Navigator F) (draws : Nat → F) : Navigator F :=
  { n with elevation := n.elevation.shuffle draws }

/-! ## NextLocation -/

/-- navigator/navigator.go:692-697 `updateDist`. -/
def updateDist [GoFloat F] (n : Navigator F) (d : F) : Navigator F :=
  { n with currentDistance := n.currentDistance +. d
           currentSegmentDistance := n.currentSegmentDistance +. d
           currentTrackDistance := n.currentTrackDistance +. d
           currentRouteDistance := n.currentRouteDistance +. d }

/-- navigator/navigator.go:699-705 `isValidDistance`. -/
def isValidDistance [GoFloat F] (n : Navigator F) (d : F) : Go Bool := do
  let s ← n.currentSegment
  return if s.isEmpty then false else n.currentSegmentDistance +. d <=. s.dist

/-- navigator/navigator.go:707-709 `isStartSegment`. -/
def isStartSegment [GoFloat F] (n : Navigator F) : Bool :=
  n.segmentIndex == 0 && (n.currentSegmentDistance ==. lit 0)

/-- navigator/navigator.go:722-734 `nextSegment`. It returns the segment being left. -/
def nextSegment [GoFloat F] (n : Navigator F) : Go (Navigator F × Segment F) := do
  match ← n.currentTrack with
  | none => return (n, Segment.zero)
  | some t =>
    if n.segmentIndex = t.numSegments - 1 then return (n, Segment.zero) else
    let s ← n.currentSegment
    return ({ n with currentSegmentDistance := lit 0, segmentIndex := n.segmentIndex + 1 }, s)

/-- navigator/navigator.go:736-750 `nextTrack`. -/
def nextTrack [GoFloat F] (n : Navigator F) : Go (Navigator F × Bool) := do
  let n := { n with currentSegmentDistance := lit 0, segmentIndex := 0 }
  match ← n.currentRoute with
  | none => return (n, false)
  | some r =>
    let n := { n with currentTrackDistance := lit 0 }
    if n.trackIndex < r.numTracks - 1 then
      return ({ n with trackIndex := n.trackIndex + 1 }, true)
    else
      return ({ n with trackIndex := 0 }, false)

/-- navigator/navigator.go:752-760 `nextRoute`. -/
def nextRoute [GoFloat F] (n : Navigator F) : Navigator F :=
  let n : Navigator F := { n with currentRouteDistance := lit 0 }
  if n.routeIndex < n.routes.length - 1 then { n with routeIndex := n.routeIndex + 1 }
  else { n with routeIndex := 0, currentDistance := lit (1/10) }

/-- The loop of `NextLocation` (navigator/navigator.go:509-543) with an iteration budget;
`x` is the random draw of a `ToOffline` call (at most one is made). -/
def nextLoop [GoMath F] (newDist : F) (x : UInt32) : Nat → Navigator F → Go (Navigator F × Bool)
  | 0, _ => .error .diverge
  | fuel + 1, n => do
    if ← n.isValidDistance newDist then
      let isStartSeg := n.isStartSegment
      let n := n.updateDist newDist
      let segment ← n.currentSegment
      if segment.isEmpty then return (n, false)
      else if isStartSeg then return ({ n with point := segment.destinationTo (lit 1) }, true)
      else return ({ n with point := segment.destinationTo n.currentSegmentDistance }, true)
    else
      let (n, seg) ← n.nextSegment
      if !seg.isEmpty then
        if !seg.hasRelation then
          let n ← n.toOffline x
          return (n, false)
        else nextLoop newDist x fuel n
      else
        let (n, moved) ← n.nextTrack
        let n := if !moved then n.nextRoute else n
        let n ← n.toOffline x
        return (n, false)

/-- The iteration budget for `NextLocation`: one more than the number of segments of the current
track. C08 proves that it is never exhausted. -/
def loopBudget (n : Navigator F) : Nat :=
  match n.currentTrack with
  | .ok (some t) => t.segments.length + 1
  | _ => 1

/-- navigator/navigator.go:498-545 `NextLocation`. -/
def nextLocation [GoMath F] (n : Navigator F) (tick speed : F) (x : UInt32) :
    Go (Navigator F × Bool) :=
  if n.routes.length = 0 then .ok (n, false) else
  let (n, off) := n.nextOffline
  if off then .ok (n, false) else
  nextLoop (tick *. speed) x n.loopBudget n

/-! ## DestinationTo -/

/-- First loop of `jump` (navigator/navigator.go:629-636): last route visited, the accumulated
`routeIndex` and `routeDist`. `i` is the loop counter. -/
def jumpRoutes [GoFloat F] (d : F) : Int → Int → F → Option (Route F) → List (Route F) →
    Option (Route F) × Int × F
  | _, ri, rd, last, [] => (last, ri, rd)
  | i, ri, rd, _, r :: rs =>
    if d <. r.dist +. rd then (some r, ri + i, rd)
    else jumpRoutes d (i + 1) (ri + i) (rd +. r.dist) (some r) rs

/-- Second loop of `jump` (navigator/navigator.go:641-652): last track visited, the accumulated
`trackIndex`, `routeDist` and `curRouteDist`. -/
def jumpTracks [GoFloat F] (d : F) : Int → Int → F → F → Option (Track F) → List (Track F) →
    Option (Track F) × Int × F × F
  | _, ti, rd, crd, last, [] => (last, ti, rd, crd)
  | i, ti, rd, crd, _, t :: ts =>
    if d <. t.dist +. rd then (some t, ti + i, rd, crd)
    else jumpTracks d (i + 1) (ti + i) (rd +. t.dist) (crd +. t.dist) (some t) ts

/-- Third loop of `jump` (navigator/navigator.go:657-669): last segment visited, `segmentIndex`,
`routeDist`, `curRouteDist` and `curTrackDist`. -/
def jumpSegments [GoFloat F] (d : F) : Int → Int → F → F → F → Segment F → List (Segment F) →
    Segment F × Int × F × F × F
  | _, si, rd, crd, ctd, last, [] => (last, si, rd, crd, ctd)
  | i, si, rd, crd, ctd, _, s :: ss =>
    if s.isEmpty then jumpSegments d (i + 1) si rd crd ctd s ss
    else if d <. s.dist +. rd then (s, i, rd, crd, ctd)
    else jumpSegments d (i + 1) i (rd +. s.dist) (crd +. s.dist) (ctd +. s.dist) s ss

/-- navigator/navigator.go:609-684 `jump`, called by `DestinationTo` (475-477). -/
def destinationTo [GoMath F] (n : Navigator F) (meters : F) : Navigator F × Bool :=
  let d := if n.distance <. meters then n.distance else meters
  if d <. lit 1 then (n, false) else
  match jumpRoutes d 0 0 (lit 0) none n.routes with
  | (none, _, _) => (n, false)
  | (some route, ri, rd) =>
    match jumpTracks d 0 0 rd (lit 0) none route.tracks with
    | (none, _, _, _) => (n, false)
    | (some track, ti, rd, crd) =>
      match jumpSegments d 0 0 rd crd (lit 0) Segment.zero track.segments with
      | (segment, si, rd, crd, ctd) =>
        if segment.isEmpty then (n, false) else
        let diff := GoFloat.abs (d -. rd)
        ({ n with point := segment.destinationTo diff, routeIndex := ri, trackIndex := ti,
                  segmentIndex := si, currentSegmentDistance := diff,
                  currentDistance := rd +. diff, currentRouteDistance := crd +. diff,
                  currentTrackDistance := ctd +. diff }, true)

end Navigator

end GpsGen
