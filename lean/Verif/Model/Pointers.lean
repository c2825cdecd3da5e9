import Verif.Model.GeoJson
import Verif.Model.Gpx
import Verif.Model.Wire
/-!
# The exporters with the pointers a caller may pass

The encoders of io.go take pointers. The other model files describe them for values that exist; here an argument may
also be nil, or a zero value that no constructor made (`new(types.Sensor)`, `new(Device)`). The zero `Route` is an
ordinary value of `Route F`.
-/

namespace GpsGen
variable {F : Type}

/-- A `*types.Sensor`: nil, a zero value without generator, or a sensor. -/
inductive SensorPtr (F : Type) where
  | nil
  | blank
  | made (s : Sensor F)

/-- A `*Device`: nil, a zero value without navigator, or a device. -/
inductive DevicePtr (F : Type) where
  | nil
  | blank
  | made (d : Device F)

/-- types/sensor.go:157-167 `Snapshot`: reads the fields, then `t.gen.Snapshot()`, which takes `len(c.points)`
(curve/curve.go:108). -/
def SensorPtr.snapshot : SensorPtr F → Go (SensorMsg F)
  | .nil => .error .nilDeref
  | .blank => .error .nilDeref
  | .made s => .ok s.snapshot

/-- io.go:43-45: the loop of `EncodeSensors`. -/
def snapshotSensors : List (SensorPtr F) → Go (List (SensorMsg F))
  | [] => .ok []
  | s :: rest => do
    let m ← s.snapshot
    let ms ← snapshotSensors rest
    return m :: ms

/-- io.go:37-48 `EncodeSensors`. -/
def encodeSensorsPtr [WireFloat F] (ss : List (SensorPtr F)) : Go (Except Err Bytes) :=
  if ss.length = 0 then .ok (.error .invalidSnapshot) else do
  let ms ← snapshotSensors ss
  return .ok (protoMarshal encSensors ⟨ms⟩)

/-- navigator/route.go:179-197 `Snapshot`: takes `len(r.tracks)` first. -/
def snapshotRoutePtr [GoFloat F] : Option (Route F) → Go (RouteMsg F)
  | none => .error .nilDeref
  | some r => .ok r.snapshot

/-- io.go:75-77: the loop of `EncodeRoutes`. -/
def snapshotRoutes [GoFloat F] : List (Option (Route F)) → Go (List (RouteMsg F))
  | [] => .ok []
  | r :: rest => do
    let m ← snapshotRoutePtr r
    let ms ← snapshotRoutes rest
    return m :: ms

/-- io.go:69-80 `EncodeRoutes`. -/
def encodeRoutesPtr [GoFloat F] [WireFloat F] (print : RawProps F → Bytes) (rs : List (Option (Route F))) :
    Go (Except Err Bytes) :=
  if rs.length = 0 then .ok (.error .noRoutes) else do
  let ms ← snapshotRoutes rs
  return .ok (protoMarshal encRoutes ⟨ms.map (·.mapProps print)⟩)

/-- geojson/feature_collection.go:19-68 `ToFeatureCollection`: `route.NumTracks()` (line 23) is called on every
entry. The features are collected before anything is marshalled. -/
def featureRoutes : List (Option (Route F)) → Go (List (Route F))
  | [] => .ok []
  | none :: _ => .error .nilDeref
  | some r :: rest => do
    let rs ← featureRoutes rest
    return r :: rs

/-- geojson/encoding.go:22-27 `Encode`, io.go:101-103 `EncodeGeoJSONRoutes`. -/
def geoEncodePtr [GoFloat F] (rs : List (Option (Route F))) : Go (Except Err (List (Option (Feature F)))) :=
  if rs.length = 0 then .ok (.error .noRoutes) else do
  let rs ← featureRoutes rs
  match toFeatures rs with
  | none => return .error .marshalFailed
  | some fs => return .ok fs

/-- The loop of gpx/encoding.go:35-76: per route its points and its extension node; `route.NumTracks()` (line 38) is
called on every entry. -/
def gpxNodes (T : GpxText F) : List (Option (Route F)) →
    Go (List (List (List (LatLon F))) × List GpxRouteNode)
  | [] => .ok ([], [])
  | none :: _ => .error .nilDeref
  | some r :: rest => do
    let (ps, ns) ← gpxNodes T rest
    return (r.tracks.map (gpxPoints T) :: ps, gpxRouteNode T r :: ns)

/-- gpx/encoding.go:21-81 `Encode`, io.go:111-113 `EncodeGPXRoutes`. -/
def gpxEncodePtr (T : GpxText F) (rs : List (Option (Route F))) : Go (Except Err (GpxDoc F)) :=
  if rs.length = 0 then .ok (.error .noRoutes) else do
  let (ps, ns) ← gpxNodes T rs
  return .ok ⟨[], ps, [], [("gpsgen", ns)]⟩

/-- io.go:15-21 `EncodeTracker`: nil gives empty data and no error; on a zero device `Update` reaches the nil state
(device.go:823-824, navigator.go:805). The device after the call comes with the data. -/
def encodeTrackerPtr [GoMath F] [WireFloat F] (print : RawProps F → Bytes) : DevicePtr F → Go (DevicePtr F × Bytes)
  | .nil => .ok (.nil, [])
  | .blank => .error .nilDeref
  | .made d => do
    let (d, data) ← encodeTrackerBytes print d
    return (.made d, data)

end GpsGen
