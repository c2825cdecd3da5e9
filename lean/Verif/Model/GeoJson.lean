import Verif.Model.Route
/-!
# Package geojson

geojson/feature_collection.go and geojson/encoding.go on the level of the parsed `FeatureCollection`.

Simplifications: JSON text and the orb library are modelled in `GeoText`; encoding here goes to the tree that parsing the text
gives, where all numbers are floats and coordinates are printable (not NaN or infinite). That encoding creates the
missing property maps of the routes and tracks it reads is not modelled. Nested property values of foreign documents are read as `PVal.other`.
Generated ids and colours are arguments: `gen 0` for the route, `gen (k + 1)` for its track number `k`.
-/

namespace GpsGen

variable {F : Type}

/-- JSON values. -/
inductive GVal (F : Type) where
  | null
  | str (s : String)
  | bool (b : Bool)
  | num (f : F)
  | arr (l : List (GVal F))
  | obj (l : List (String × GVal F))

/-- JSON objects as Go maps; the order stands for the unspecified iteration order. -/
abbrev GMap (F : Type) := List (String × GVal F)

/-- `m[k]` with presence flag. -/
def GMap.get? (m : GMap F) (k : String) : Option (GVal F) := (m.find? (fun e => e.1 == k)).map (·.2)

/-- `m[k] = v`. -/
def GMap.set (m : GMap F) (k : String) (v : GVal F) : GMap F :=
  if m.any (fun e => e.1 == k) then m.map (fun e => if e.1 == k then (k, v) else e) else m ++ [(k, v)]

/-- `delete(m, k)`. -/
def GMap.remove (m : GMap F) (k : String) : GMap F := m.filter (fun e => !(e.1 == k))

/-- `properties.Properties(m).String(k)` (properties/properties.go:19-25), the value only. -/
def GMap.getString (m : GMap F) (k : String) : String :=
  match m.get? k with
  | some (.str s) => s
  | _ => ""

/-- A property value read from JSON. -/
def GVal.toPVal : GVal F → PVal F
  | .null => .null
  | .str s => .str s
  | .bool b => .bool b
  | .num f => .float f
  | .arr _ => .other 0
  | .obj _ => .other 1

/-- Properties read from JSON. -/
def GMap.toPMap (m : GMap F) : PMap F := m.map fun e => (e.1, e.2.toPVal)

/-- A property value written to JSON and read back; `none` = `json.Marshal` fails. -/
def PVal.toGVal [GoFloat F] : PVal F → Option (GVal F)
  | .null => some .null
  | .str s => some (.str s)
  | .bool b => some (.bool b)
  | .int i => some (.num (lit i))
  | .int32 i => some (.num (lit i))
  | .int64 i => some (.num (lit i))
  | .float f => some (.num f)
  | .other _ => none

/-- Properties written to JSON. -/
def PMap.toGMap [GoFloat F] (m : PMap F) : Option (GMap F) :=
  m.mapM fun e => e.2.toGVal.map fun v => (e.1, v)

/-- orb.Geometry other than a collection; `other` stands for the types `parseGeometry` rejects (Point, nested
collection). -/
inductive Geom (F : Type) where
  | lineString (pts : List (LatLon F))
  | multiLineString (lines : List (List (LatLon F)))
  | polygon (rings : List (List (LatLon F)))
  | multiPolygon (polys : List (List (List (LatLon F))))
  | multiPoint (pts : List (LatLon F))
  | other
  deriving DecidableEq

/-- The geometry of a feature. -/
inductive Geometry (F : Type) where
  | single (g : Geom F)
  | collection (gs : List (Geom F))

/-- orb/geojson `Feature`; missing properties and a missing geometry are nil. -/
structure Feature (F : Type) where
  type : String
  props : Option (GMap F)
  geometry : Option (Geometry F)

/-! ## Encoding -/

/-- geojson/feature_collection.go:79-89 `copyPoints`, also gpx/encoding.go:281-301. -/
def Track.points : List (Segment F) → List (LatLon F)
  | [] => []
  | [s] => [s.pointA, s.pointB]
  | s :: rest => s.pointA :: Track.points rest

/-- feature_collection.go:28-32: the geometry of a track. -/
def Track.geom (t : Track F) : Geom F :=
  if t.isClosed then .polygon [Track.points t.segments] else .lineString (Track.points t.segments)

/-- feature_collection.go:34-41, 70-77: the JSON form of `trackInfo`. -/
def Track.info [GoFloat F] (t : Track F) : Option (GVal F) := do
  let props ← t.propsOf.2.toGMap
  return .obj [("trackID", .str t.id), ("name", .str t.name), ("color", .str t.color), ("distance", .num t.dist),
    ("numSegments", .num (lit t.numSegments)), ("properties", .obj props)]

/-- feature_collection.go:54-63: the properties of a route's feature; the route's own properties come last and
overwrite. -/
def Route.featureProps [GoFloat F] (r : Route F) : Option (GMap F) := do
  let infos ← r.tracks.mapM Track.info
  let own ← r.propsOf.2.toGMap
  let base : GMap F := [("routeID", .str r.id), ("color", .str r.color), ("name", .str r.name),
    ("numTracks", .num (lit r.numTracks)), ("tracksInfo", .arr infos), ("distance", .num r.dist),
    ("units", .str "meters")]
  return own.foldl (fun m e => m.set e.1 e.2) base

/-- feature_collection.go:48-53: one track gives its geometry, several a collection. -/
def Route.geometry (r : Route F) : Geometry F :=
  match r.tracks.map Track.geom with
  | [g] => .single g
  | gs => .collection gs

/-- feature_collection.go:19-67 `ToFeatureCollection`; routes without tracks are skipped. `none` = marshalling
the result fails. -/
def toFeatures [GoFloat F] : List (Route F) → Option (List (Option (Feature F)))
  | [] => some []
  | r :: rs =>
    if r.tracks.length = 0 then toFeatures rs else do
      let props ← r.featureProps
      let rest ← toFeatures rs
      return some ⟨"Feature", some props, some r.geometry⟩ :: rest

/-- geojson/encoding.go:22-27 `Encode`. -/
def geoEncode [GoFloat F] (rs : List (Route F)) : Except Err (List (Option (Feature F))) :=
  if rs.length = 0 then .error .noRoutes else
  match toFeatures rs with
  | none => .error .marshalFailed
  | some fs => .ok fs

/-! ## Decoding -/

/-- feature_collection.go:70-77 `trackInfo`, the fields that are read. -/
structure TrackInfo (F : Type) where
  id : String
  color : String
  props : GMap F

/-- geojson/encoding.go:85-103, one element of `tracksInfo`. The name is read but never used. -/
def TrackInfo.read : GVal F → TrackInfo F
  | .obj m => ⟨GMap.getString m "trackID", GMap.getString m "color",
      match GMap.get? m "properties" with
      | some (.obj p) => p
      | _ => []⟩
  | _ => ⟨"", "", []⟩

/-- geojson/encoding.go:68-72 `routeExists`. -/
def routeExists (props : GMap F) : Bool := (props.get? "routeID").isSome && (props.get? "color").isSome

/-- geojson/encoding.go:111-119 `resetProps`. -/
def resetProps (props : GMap F) : GMap F :=
  ((((((props.remove "routeID").remove "color").remove "distance").remove "tracksInfo").remove "numTracks").remove
    "name").remove "units"

/-- geojson/encoding.go:74-109 `restoreRoute`, without the properties: the route shares its map with the feature,
from which the caller then deletes the reserved keys. -/
def restoreRoute [GoFloat F] (props : GMap F) : Except Err (Route F × List (TrackInfo F)) :=
  match props.get? "tracksInfo" with
  | some (.arr l) =>
    let route := Route.restore (props.getString "routeID") (props.getString "color") (some (resetProps props).toPMap)
    let name := props.getString "name"
    let route := if goLen name > 0 then (route.changeName name).1 else route
    .ok (route, l.map TrackInfo.read)
  | _ => .error .invalidTracksInfo

/-- geojson/encoding.go:121-127 `parseProperties`. -/
def parseProperties (r : Route F) (props : PMap F) : Route F :=
  { r with props := some (r.propsOf.2.merge props) }

/-- A new track at the end of the route (`NewTrack`, `AddTrack`). -/
def addNewTrack [GoMath F] (gen : Nat → String × String) (r : Route F) (pts : List (LatLon F)) : Except Err (Route F) := do
  let t ← Track.new (gen (r.tracks.length + 1)).1 (gen (r.tracks.length + 1)).2 pts
  return r.addTrack (some t)

/-- The same for several point lists. -/
def addNewTracks [GoMath F] (gen : Nat → String × String) : Route F → List (List (LatLon F)) → Except Err (Route F)
  | r, [] => .ok r
  | r, p :: ps => do
    let r ← addNewTrack gen r p
    addNewTracks gen r ps

/-- geojson/encoding.go:152-164, 178-190: a line or ring; the track information used is always the first one. If
`RestoreTrack` fails the nil track is used before the error is looked at. -/
def addLine [GoMath F] (gen : Nat → String × String) (r : Route F) (tracks : List (TrackInfo F))
    (pts : List (LatLon F)) : Go (Except Err (Route F)) :=
  match tracks with
  | [] => .ok (addNewTrack gen r pts)
  | info :: _ => match Track.restore info.id info.color pts with
    | .error _ => .error .nilDeref
    | .ok t => .ok (.ok (r.addTrack (some { t with props := some (t.propsOf.2.merge info.props.toPMap) })))

/-- geojson/encoding.go:150-221 `parseGeometry`; `none` is a nil geometry. -/
def parseGeometry [GoMath F] (gen : Nat → String × String) (r : Route F) (tracks : List (TrackInfo F)) :
    Option (Geom F) → Go (Except Err (Route F))
  | some (.lineString pts) => addLine gen r tracks pts
  | some (.multiLineString ls) =>
    if tracks.length > 0 then .ok (.error .invalidRoute) else .ok (addNewTracks gen r ls)
  | some (.polygon []) => .ok (.ok r)
  | some (.polygon (ring :: _)) => addLine gen r tracks ring
  | some (.multiPolygon ps) =>
    if tracks.length > 0 then .ok (.error .invalidRoute) else .ok (addNewTracks gen r (ps.filterMap List.head?))
  | some (.multiPoint pts) =>
    if tracks.length > 0 then .ok (.error .invalidRoute) else .ok (addNewTrack gen r pts)
  | some .other => .ok (.error .invalidGeometryType)
  | none => .error .nilDeref

/-- The loop of geojson/encoding.go:142-146. -/
def parseCollection [GoMath F] (gen : Nat → String × String) (tracks : List (TrackInfo F)) :
    Route F → List (Geom F) → Go (Except Err (Route F))
  | r, [] => .ok (.ok r)
  | r, g :: gs => match parseGeometry gen r tracks (some g) with
    | .error p => .error p
    | .ok (.error e) => .ok (.error e)
    | .ok (.ok r) => parseCollection gen tracks r gs

/-- geojson/encoding.go:129-148 `parseGeometries`; `tracks = none` is a nil slice. -/
def parseGeometries [GoMath F] (gen : Nat → String × String) (r : Route F) (tracks : Option (List (TrackInfo F)))
    (g : Option (Geometry F)) : Go (Except Err (Route F)) :=
  match g with
  | some (.collection gs) =>
    if (tracks.map List.length).getD gs.length ≠ gs.length then .ok (.error .invalidRoute)
    else parseCollection gen (tracks.getD []) r gs
  | some (.single g) =>
    if (tracks.map List.length).getD 1 ≠ 1 then .ok (.error .invalidRoute)
    else parseGeometry gen r (tracks.getD []) (some g)
  | none =>
    if (tracks.map List.length).getD 1 ≠ 1 then .ok (.error .invalidRoute)
    else parseGeometry gen r (tracks.getD []) none

/-- geojson/encoding.go:37-63, one feature; `none` = skipped. -/
def decodeFeature [GoMath F] (gen : Nat → String × String) : Option (Feature F) → Go (Except Err (Option (Route F)))
  | none => .error .nilDeref
  | some f =>
    if f.type ≠ "Feature" then .ok (.ok none) else
    match f.props with
    | none => (parseGeometries gen (Route.new (gen 0).1 (gen 0).2) none f.geometry).map (Except.map some)
    | some props =>
      if routeExists props then
        match restoreRoute props with
        | .error e => .ok (.error e)
        | .ok (route, infos) => (parseGeometries gen (parseProperties route (resetProps props).toPMap) (some infos)
            f.geometry).map (Except.map some)
      else (parseGeometries gen (parseProperties (Route.new (gen 0).1 (gen 0).2) props.toPMap) none
        f.geometry).map (Except.map some)

/-- The loop over the features; feature number `i` draws from `gen i`. -/
def decodeFeatures [GoMath F] (gen : Nat → Nat → String × String) :
    Nat → List (Option (Feature F)) → Go (Except Err (List (Route F)))
  | _, [] => .ok (.ok [])
  | i, f :: fs => match decodeFeature (gen i) f with
    | .error p => .error p
    | .ok (.error e) => .ok (.error e)
    | .ok (.ok o) => match decodeFeatures gen (i + 1) fs with
      | .error p => .error p
      | .ok (.error e) => .ok (.error e)
      | .ok (.ok rs) => .ok (.ok (o.toList ++ rs))

/-- geojson/encoding.go:30-66 `Decode` of a parsed document; `none` is the document `null`, which leaves a nil
collection. -/
def geoDecode [GoMath F] (gen : Nat → Nat → String × String) (doc : Option (List (Option (Feature F)))) :
    Go (Except Err (List (Route F))) :=
  match doc with
  | none => .error .nilDeref
  | some fs => decodeFeatures gen 0 fs

end GpsGen
