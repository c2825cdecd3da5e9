import Verif.Model.NavHistory
/-!
# 64-bit integers

The other model files use unbounded integers for Go's `int`. Here are the functions of the navigator that compute with `int`, once
more, with the arithmetic of a 64-bit machine: every result is reduced to 64 bits. C100 shows that they do the same.

All other functions of the navigator only copy and compare integers, or subtract 1 from the length of a slice, which is less than
`2^63`. Versions are counters that are only compared with earlier values; see `sum64`.
-/

namespace GpsGen

variable {F : Type}

/-- The 64-bit two's complement integer with the same last 64 bits. -/
def wrap64 (x : Int) : Int := (x + 2 ^ 63) % 2 ^ 64 - 2 ^ 63

/-- types/random.go:24-26 `Value`. The difference is reduced to 64 bits and then to 32; the sum is reduced to 64 bits. -/
def Random.value64 (r : Random) (x : UInt32) : Int :=
  wrap64 ((uint32n x (wrap64 (r.max - r.min) % 2 ^ 32).toNat : Int) + r.min)

/-- navigator/options.go:78-98 `validateOffline`. -/
def NavOptions.validateOffline64 (o : NavOptions F) : Except Err (NavOptions F) :=
  if o.minOffline < 0 then .error .minOffline else
  if o.maxOffline > 3600 then .error .maxOffline else
  let o := if o.minOffline > o.maxOffline then { o with minOffline := wrap64 (o.maxOffline - 1) } else o
  let o := if o.maxOffline < o.minOffline then { o with maxOffline := wrap64 (o.minOffline + 1) } else o
  let o := if o.minOffline = 0 ∧ o.maxOffline = 0 then { o with minOffline := 0, maxOffline := 10 }
    else o
  .ok o

/-- navigator/navigator.go:31-62 `New`. -/
def Navigator.new64 [GoFloat F] (uid : String) (draws : Nat → F) (opts : List (NavOption F)) :
    Except Err (Navigator F) := do
  let o := opts.foldl NavOptions.apply NavOptions.default
  let o ← o.validateOffline64
  let o ← o.validateElevation
  let elevation ← Sensor.new uid draws "elevation" o.elevationMin o.elevationMax
    o.elevationAmplitude o.elevationMode
  return {
    routes := [], routeIndex := 0, trackIndex := 0, segmentIndex := 0
    currentSegmentDistance := lit 0, currentRouteDistance := lit 0
    currentTrackDistance := lit 0, currentDistance := lit 0
    offlineIndex := 0, point := ⟨lit 0, lit 0⟩, elevation := elevation
    offline := if o.skipOffline then none else some (Random.new o.minOffline o.maxOffline)
    distance := lit 0, skipOffline := o.skipOffline, version := 0 }

namespace Navigator

/-- navigator/navigator.go:99-110 `Sum`. -/
def sum64 (n : Navigator F) : Int × Int × Int :=
  (wrap64 n.version,
   n.routes.foldl (fun a r => wrap64 (a + wrap64 r.version)) 0,
   n.routes.foldl (fun b r => r.tracks.foldl (fun b t => wrap64 (b + wrap64 t.version)) b) 0)

/-- navigator/navigator.go:370-377 `NextRoute`. -/
def toNextRoute64 [GoFloat F] (n : Navigator F) : Go (Navigator F × Bool) :=
  if n.routeIndex < n.routes.length - 1 then n.moveToRoute (wrap64 (n.routeIndex + 1)) else .ok (n, false)

/-- navigator/navigator.go:380-387 `PrevRoute`. -/
def toPrevRoute64 [GoFloat F] (n : Navigator F) : Go (Navigator F × Bool) :=
  if n.routeIndex > 0 then n.moveToRoute (wrap64 (n.routeIndex - 1)) else .ok (n, false)

/-- navigator/navigator.go:480-485 `ToOffline`. -/
def toOffline64 (n : Navigator F) (x : UInt32) : Go (Navigator F) :=
  if n.skipOffline then .ok n else
  match n.offline with
  | none => .error .nilDeref
  | some r => .ok { n with offlineIndex := r.value64 x }

/-- navigator/navigator.go:711-720 `nextOffline`. -/
def nextOffline64 (n : Navigator F) : Navigator F × Bool :=
  if n.skipOffline then (n, false) else
  if n.offlineIndex > 0 then ({ n with offlineIndex := wrap64 (n.offlineIndex - 1) }, true) else (n, false)

/-- navigator/navigator.go:722-734 `nextSegment`. -/
def nextSegment64 [GoFloat F] (n : Navigator F) : Go (Navigator F × Segment F) := do
  match ← n.currentTrack with
  | none => return (n, Segment.zero)
  | some t =>
    if n.segmentIndex = t.numSegments - 1 then return (n, Segment.zero) else
    let s ← n.currentSegment
    return ({ n with currentSegmentDistance := lit 0, segmentIndex := wrap64 (n.segmentIndex + 1) }, s)

/-- navigator/navigator.go:736-750 `nextTrack`. -/
def nextTrack64 [GoFloat F] (n : Navigator F) : Go (Navigator F × Bool) := do
  let n := { n with currentSegmentDistance := lit 0, segmentIndex := 0 }
  match ← n.currentRoute with
  | none => return (n, false)
  | some r =>
    let n := { n with currentTrackDistance := lit 0 }
    if n.trackIndex < r.numTracks - 1 then
      return ({ n with trackIndex := wrap64 (n.trackIndex + 1) }, true)
    else
      return ({ n with trackIndex := 0 }, false)

/-- navigator/navigator.go:752-760 `nextRoute`. -/
def nextRoute64 [GoFloat F] (n : Navigator F) : Navigator F :=
  let n : Navigator F := { n with currentRouteDistance := lit 0 }
  if n.routeIndex < n.routes.length - 1 then { n with routeIndex := wrap64 (n.routeIndex + 1) }
  else { n with routeIndex := 0, currentDistance := lit (1/10) }

/-- The loop of `NextLocation`, navigator/navigator.go:509-543. -/
def nextLoop64 [GoMath F] (newDist : F) (x : UInt32) : Nat → Navigator F → Go (Navigator F × Bool)
  | 0, _ => .error .diverge
  | fuel + 1, n => do
    if ← n.isValidDistance newDist then
      let isStartSeg := n.isStartSegment
      let n := n.updateDist newDist
      let segment ← n.currentSegment
      if segment.isEmpty then return (n, false)
      else if isStartSeg then return ({ n with point := segment.destinationTo (lit 1) }, true)
      else return ({ n with point := segment.destinationTo n.currentSegmentDistance }, true)
    else
      let (n, seg) ← n.nextSegment64
      if !seg.isEmpty then
        if !seg.hasRelation then
          let n ← n.toOffline64 x
          return (n, false)
        else nextLoop64 newDist x fuel n
      else
        let (n, moved) ← n.nextTrack64
        let n := if !moved then n.nextRoute64 else n
        let n ← n.toOffline64 x
        return (n, false)

/-- navigator/navigator.go:498-545 `NextLocation`. -/
def nextLocation64 [GoMath F] (n : Navigator F) (tick speed : F) (x : UInt32) :
    Go (Navigator F × Bool) :=
  if n.routes.length = 0 then .ok (n, false) else
  let (n, off) := n.nextOffline64
  if off then .ok (n, false) else
  nextLoop64 (tick *. speed) x n.loopBudget n

/-- First loop of `jump`, navigator/navigator.go:629-636. -/
def jumpRoutes64 [GoFloat F] (d : F) : Int → Int → F → Option (Route F) → List (Route F) →
    Option (Route F) × Int × F
  | _, ri, rd, last, [] => (last, ri, rd)
  | i, ri, rd, _, r :: rs =>
    if d <. r.dist +. rd then (some r, wrap64 (ri + i), rd)
    else jumpRoutes64 d (wrap64 (i + 1)) (wrap64 (ri + i)) (rd +. r.dist) (some r) rs

/-- Second loop of `jump`, navigator/navigator.go:641-652. -/
def jumpTracks64 [GoFloat F] (d : F) : Int → Int → F → F → Option (Track F) → List (Track F) →
    Option (Track F) × Int × F × F
  | _, ti, rd, crd, last, [] => (last, ti, rd, crd)
  | i, ti, rd, crd, _, t :: ts =>
    if d <. t.dist +. rd then (some t, wrap64 (ti + i), rd, crd)
    else jumpTracks64 d (wrap64 (i + 1)) (wrap64 (ti + i)) (rd +. t.dist) (crd +. t.dist) (some t) ts

/-- Third loop of `jump`, navigator/navigator.go:657-669. -/
def jumpSegments64 [GoFloat F] (d : F) : Int → Int → F → F → F → Segment F → List (Segment F) →
    Segment F × Int × F × F × F
  | _, si, rd, crd, ctd, last, [] => (last, si, rd, crd, ctd)
  | i, si, rd, crd, ctd, _, s :: ss =>
    if s.isEmpty then jumpSegments64 d (wrap64 (i + 1)) si rd crd ctd s ss
    else if d <. s.dist +. rd then (s, i, rd, crd, ctd)
    else jumpSegments64 d (wrap64 (i + 1)) i (rd +. s.dist) (crd +. s.dist) (ctd +. s.dist) s ss

/-- navigator/navigator.go:609-684 `jump`, called by `DestinationTo` (475-477). -/
def destinationTo64 [GoMath F] (n : Navigator F) (meters : F) : Navigator F × Bool :=
  let d := if n.distance <. meters then n.distance else meters
  if d <. lit 1 then (n, false) else
  match jumpRoutes64 d 0 0 (lit 0) none n.routes with
  | (none, _, _) => (n, false)
  | (some route, ri, rd) =>
    match jumpTracks64 d 0 0 rd (lit 0) none route.tracks with
    | (none, _, _, _) => (n, false)
    | (some track, ti, rd, crd) =>
      match jumpSegments64 d 0 0 rd crd (lit 0) Segment.zero track.segments with
      | (segment, si, rd, crd, ctd) =>
        if segment.isEmpty then (n, false) else
        let diff := GoFloat.abs (d -. rd)
        ({ n with point := segment.destinationTo diff, routeIndex := ri, trackIndex := ti,
                  segmentIndex := si, currentSegmentDistance := diff,
                  currentDistance := rd +. diff, currentRouteDistance := crd +. diff,
                  currentTrackDistance := ctd +. diff }, true)

/-- Execute one operation, forgetting its result. -/
def step64 [GoMath F] (n : Navigator F) : NavOp F → Go (Navigator F)
  | .toNextRoute => n.toNextRoute64.map (·.1)
  | .toPrevRoute => n.toPrevRoute64.map (·.1)
  | .destinationTo m => .ok (n.destinationTo64 m).1
  | .toOffline x => n.toOffline64 x
  | .nextLocation tick speed x => (n.nextLocation64 tick speed x).map (·.1)
  | op => n.step op

/-- Execute a history. -/
def run64 [GoMath F] (n : Navigator F) : List (NavOp F) → Go (Navigator F)
  | [] => .ok n
  | op :: ops => n.step64 op >>= fun n' => n'.run64 ops

end Navigator

end GpsGen
