import Verif.Model.Navigator
/-!
# Snapshots

The protobuf messages of proto/snapshot.proto and the `Snapshot` / `FromSnapshot` methods of the
packages curve, types and navigator. Sub-messages are pointers in Go, hence `Option`; elements of
repeated message fields are never nil after decoding. `int` and `int64` are both unbounded integers.
-/

namespace GpsGen

variable {F : Type}

/-! ## Messages (proto/snapshot.proto) -/

/-- `Snapshot.PointLatLon`, lines 10-13. -/
structure LatLonMsg (F : Type) where
  lon : F
  lat : F
  deriving DecidableEq, Repr

/-- `Snapshot.Curve.Point`, lines 18-21. -/
structure PointMsg (F : Type) where
  x : F
  y : F
  deriving DecidableEq, Repr

/-- `Snapshot.Curve.ControlPoint`, lines 24-27. -/
structure ControlPointMsg (F : Type) where
  vp : Option (PointMsg F)
  cp : Option (PointMsg F)
  deriving DecidableEq, Repr

/-- `Snapshot.Curve`, lines 16-33. -/
structure CurveMsg (F : Type) where
  points : List (ControlPointMsg F)
  mode : Int
  min : F
  max : F
  deriving DecidableEq, Repr

/-- `Snapshot.CommonType`, lines 36-41. -/
structure CommonMsg (F : Type) where
  min : F
  max : F
  val : F
  gen : Option (CurveMsg F)
  deriving DecidableEq, Repr

/-- `Snapshot.BatteryType`, lines 44-49. -/
structure BatteryMsg (F : Type) where
  min : F
  max : F
  chargeTime : Int
  val : F
  deriving DecidableEq, Repr

/-- `Snapshot.SensorType`, lines 52-60. -/
structure SensorMsg (F : Type) where
  id : String
  min : F
  max : F
  valX : F
  valY : F
  name : String
  gen : Option (CurveMsg F)
  deriving DecidableEq, Repr

/-- A `bytes props` field as seen by `json.Unmarshal` into a `map[string]interface{}`: no bytes, the
document `null`, an object, or bytes that are rejected. -/
inductive RawProps (F : Type) where
  | empty
  | null
  | object (o : JObj F)
  | invalid
  deriving DecidableEq, Repr

/-- `Snapshot.Navigator.Route.Track.Segment`, lines 70-77. -/
structure SegmentMsg (F : Type) where
  pointA : Option (LatLonMsg F)
  pointB : Option (LatLonMsg F)
  distance : F
  bearing : F
  index : Int
  rel : Int
  deriving DecidableEq, Repr

/-- `Snapshot.Navigator.Route.Track`, lines 69-87. `P` is the type of property fields: their JSON reading by
default, the bytes themselves in the wire format (`Verif.Model.Wire`). -/
structure TrackMsg (F : Type) (P : Type := RawProps F) where
  id : String
  segments : List (SegmentMsg F)
  color : String
  props : P
  distance : F
  isClosed : Bool
  name : String
  version : Int
  deriving DecidableEq, Repr

/-- `Snapshot.Navigator.Route`, lines 68-96. -/
structure RouteMsg (F : Type) (P : Type := RawProps F) where
  id : String
  distance : F
  color : String
  tracks : List (TrackMsg F P)
  props : P
  name : String
  version : Int
  deriving DecidableEq, Repr

/-- `Snapshot.Navigator`, lines 67-118. -/
structure NavMsg (F : Type) (P : Type := RawProps F) where
  routes : List (RouteMsg F P)
  routeIndex : Int
  trackIndex : Int
  segmentIndex : Int
  currentSegmentDistance : F
  currentRouteDistance : F
  currentTrackDistance : F
  currentDistance : F
  offlineIndex : Int
  point : Option (LatLonMsg F)
  elevation : Option (SensorMsg F)
  offlineMin : Int
  offlineMax : Int
  distance : F
  skipOffline : Bool
  version : Int
  deriving DecidableEq, Repr

/-- `Snapshot`, lines 8-132. -/
structure SnapMsg (F : Type) (P : Type := RawProps F) where
  id : String
  userId : String
  tick : F
  duration : F
  model : String
  descr : String
  status : Int
  color : String
  navigator : Option (NavMsg F P)
  speed : Option (CommonMsg F)
  battery : Option (BatteryMsg F)
  sensors : List (SensorMsg F)
  deriving DecidableEq, Repr

/-- Field access through a message pointer. -/
def deref {α : Type} : Option α → Go α
  | some a => .ok a
  | none => .error .nilDeref

/-! ## Curve -/

/-- curve/curve.go:107-128 `Snapshot`. -/
def Curve.snapshot (c : Curve F) : CurveMsg F :=
  ⟨c.points.map (fun p => ⟨some ⟨p.vp.x, p.vp.y⟩, some ⟨p.cp.x, p.cp.y⟩⟩), c.mode, c.min, c.max⟩

/-- One control point of `FromSnapshot` (curve/curve.go:137-140). -/
def CP.fromMsg (m : ControlPointMsg F) : Go (CP F) := do
  let vp ← deref m.vp
  let cp ← deref m.cp
  return ⟨⟨vp.x, vp.y⟩, ⟨cp.x, cp.y⟩⟩

/-- curve/curve.go:131-142 `FromSnapshot` on a new curve. -/
def Curve.fromSnapshot (m : Option (CurveMsg F)) : Go (Curve F) := do
  let m ← deref m
  let pts ← m.points.mapM CP.fromMsg
  return ⟨pts, m.mode, m.min, m.max⟩

/-! ## Sensor, Speed, Battery -/

/-- types/sensor.go:157-167 `Snapshot`. -/
def Sensor.snapshot (s : Sensor F) : SensorMsg F :=
  ⟨s.id, s.min, s.max, s.valX, s.valY, s.name, some s.gen.snapshot⟩

/-- types/sensor.go:170-179 `FromSnapshot` on a new sensor. -/
def Sensor.fromSnapshot (m : Option (SensorMsg F)) : Go (Sensor F) := do
  let m ← deref m
  let gen ← Curve.fromSnapshot m.gen
  return ⟨m.id, m.name, m.min, m.max, m.valX, m.valY, gen⟩

/-- types/speed.go:110-117 `Snapshot`. -/
def Speed.snapshot (s : Speed F) : CommonMsg F := ⟨s.min, s.max, s.val, some s.gen.snapshot⟩

/-- types/speed.go:120-126 `FromSnapshot` on a new speed. -/
def Speed.fromSnapshot (m : Option (CommonMsg F)) : Go (Speed F) := do
  let m ← deref m
  let gen ← Curve.fromSnapshot m.gen
  return ⟨m.min, m.max, m.val, gen⟩

/-- types/battery.go:106-113 `Snapshot`. -/
def Battery.snapshot (b : Battery F) : BatteryMsg F := ⟨b.min, b.max, b.chargeTime, b.val⟩

/-- types/battery.go:116-121 `FromSnapshot` on a new battery. -/
def Battery.fromSnapshot (m : Option (BatteryMsg F)) : Go (Battery F) := do
  let m ← deref m
  return ⟨m.min, m.max, m.val, m.chargeTime⟩

/-! ## Properties -/

/-- `if props != nil { raw, _ = json.Marshal(props) }` (navigator/route.go:184-187,
navigator/route_track.go:136-139); a marshalling error leaves the field empty. -/
def rawProps [GoFloat F] : Option (PMap F) → RawProps F
  | none => .empty
  | some m => match m.marshal with
    | none => .empty
    | some o => .object o

/-- `json.Unmarshal(raw, &props)` into a fresh map when there are bytes: the resulting map (nil for
the document `null`) and whether an error was returned. On an error nothing is stored. -/
def RawProps.load [GoFloat F] : RawProps F → Option (PMap F) × Bool
  | .empty => (none, true)
  | .null => (none, true)
  | .object o => (some o.unmarshal, true)
  | .invalid => (some PMap.make, false)

/-! ## Segment, Track, Route -/

/-- navigator/route_track_segment.go:59-74 `Snapshot`. -/
def Segment.snapshot (s : Segment F) : SegmentMsg F :=
  ⟨some ⟨s.pointA.lon, s.pointA.lat⟩, some ⟨s.pointB.lon, s.pointB.lat⟩, s.dist, s.bearing, s.index,
    s.rel⟩

/-- navigator/route_track_segment.go:77-89 `SegmentFromSnapshot`. -/
def Segment.fromSnapshot (m : SegmentMsg F) : Go (Segment F) := do
  let a ← deref m.pointA
  let b ← deref m.pointB
  return ⟨⟨a.lat, a.lon⟩, ⟨b.lat, b.lon⟩, m.distance, m.bearing, m.index, m.rel⟩

/-- navigator/route_track.go:131-150 `Snapshot`. -/
def Track.snapshot [GoFloat F] (t : Track F) : TrackMsg F :=
  ⟨t.id, t.segments.map Segment.snapshot, t.color, rawProps t.props, t.dist, t.isClosed, t.name,
    t.version⟩

/-- navigator/route_track.go:157-177 `TrackFromSnapshot` on a new track. JSON errors are ignored. -/
def Track.fromSnapshot [GoFloat F] (m : TrackMsg F) : Go (Track F) := do
  let segs ← m.segments.mapM Segment.fromSnapshot
  return ⟨m.id, segs, m.color, m.name, m.props.load.1, m.distance, m.isClosed, m.version⟩

/-- navigator/route.go:179-197 `Snapshot`. -/
def Route.snapshot [GoFloat F] (r : Route F) : RouteMsg F :=
  ⟨r.id, r.dist, r.color, r.tracks.map Track.snapshot, rawProps r.props, r.name, r.version⟩

/-- The zero value `Route{}`. -/
def Route.zero [GoFloat F] : Route F := ⟨"", lit 0, "", "", [], none, 0⟩

/-- navigator/route.go:200-233 `RouteFromSnapshot` on a new route. It returns the route as left
behind (unchanged if an error is returned) and the error. -/
def Route.fromSnapshot [GoFloat F] (m : RouteMsg F) : Go (Route F × Option Err) := do
  let tracks ← m.tracks.mapM Track.fromSnapshot
  let (props, ok) := m.props.load
  if !ok then return (Route.zero, some .invalidProps)
  else if goLen m.name > 0 then
    match parseName m.name with
    | .error e => return (Route.zero, some e)
    | .ok name => return (⟨m.id, m.distance, m.color, name, tracks, props, m.version⟩, none)
  else return (⟨m.id, m.distance, m.color, "", tracks, props, m.version⟩, none)

/-! ## Navigator -/

/-- navigator/navigator.go:548-574 `Snapshot`. -/
def Navigator.snapshot [GoFloat F] (n : Navigator F) : NavMsg F where
  routes := n.routes.map Route.snapshot
  routeIndex := n.routeIndex
  trackIndex := n.trackIndex
  segmentIndex := n.segmentIndex
  currentSegmentDistance := n.currentSegmentDistance
  currentRouteDistance := n.currentRouteDistance
  currentTrackDistance := n.currentTrackDistance
  currentDistance := n.currentDistance
  offlineIndex := n.offlineIndex
  point := some ⟨n.point.lon, n.point.lat⟩
  elevation := some n.elevation.snapshot
  offlineMin := match n.offline with | some r => r.min | none => 0
  offlineMax := match n.offline with | some r => r.max | none => 0
  distance := n.distance
  skipOffline := n.skipOffline
  version := n.version

/-- navigator/navigator.go:577-607 `FromSnapshot` on a navigator that already exists. Only its
`skipOffline` flag and `offline` field matter; they are the arguments. The error of
`RouteFromSnapshot` is ignored. `snap == nil` is treated in `Navigator.restore`. -/
def Navigator.fromSnapshotOnto [GoFloat F] (skip : Bool) (offline : Option Random) (m : NavMsg F) :
    Go (Navigator F) := do
  let routes ← m.routes.mapM (fun r => do let (r, _) ← Route.fromSnapshot r; return r)
  let point ← deref m.point
  let elevation ← Sensor.fromSnapshot m.elevation
  return {
    routes := routes
    routeIndex := m.routeIndex
    trackIndex := m.trackIndex
    segmentIndex := m.segmentIndex
    currentSegmentDistance := m.currentSegmentDistance
    currentRouteDistance := m.currentRouteDistance
    currentTrackDistance := m.currentTrackDistance
    currentDistance := m.currentDistance
    offlineIndex := m.offlineIndex
    point := ⟨point.lat, point.lon⟩
    elevation := elevation
    offline := if skip then offline else some (Random.new m.offlineMin m.offlineMax)
    distance := m.distance
    skipOffline := m.skipOffline
    version := m.version }

/-- `FromSnapshot` on an existing navigator `n`; a nil snapshot changes nothing. -/
def Navigator.restore [GoFloat F] (n : Navigator F) : Option (NavMsg F) → Go (Navigator F)
  | none => .ok n
  | some m => Navigator.fromSnapshotOnto n.skipOffline n.offline m

/-- `new(Navigator)` followed by `FromSnapshot`, as in device.go:762-763. With a nil snapshot the
navigator stays zero; its nil `elevation` makes the following `Update` panic (navigator.go:358), so
that case is a panic here. -/
def Navigator.fromSnapshot [GoFloat F] : Option (NavMsg F) → Go (Navigator F)
  | none => .error .nilDeref
  | some m => Navigator.fromSnapshotOnto false none m

/-! ## io.go -/

/-- io.go:69-80 `EncodeRoutes`, up to the wire format. -/
def encodeRoutes [GoFloat F] (rs : List (Route F)) : Except Err (List (RouteMsg F)) :=
  if rs.length = 0 then .error .noRoutes else .ok (rs.map Route.snapshot)

/-- io.go:83-98 `DecodeRoutes`, from the parsed message; the error of `RouteFromSnapshot` is
ignored. -/
def decodeRoutes [GoFloat F] (ms : List (RouteMsg F)) : Go (List (Route F)) :=
  ms.mapM (fun m => do let (r, _) ← Route.fromSnapshot m; return r)

/-- io.go:37-48 `EncodeSensors`, up to the wire format. -/
def encodeSensors (ss : List (Sensor F)) : Except Err (List (SensorMsg F)) :=
  if ss.length = 0 then .error .invalidSnapshot else .ok (ss.map Sensor.snapshot)

/-- io.go:51-66 `DecodeSensors`, from the parsed message. -/
def decodeSensors (ms : List (SensorMsg F)) : Go (List (Sensor F)) :=
  ms.mapM (fun m => Sensor.fromSnapshot (some m))

end GpsGen
