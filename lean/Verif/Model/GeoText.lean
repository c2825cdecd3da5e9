import Verif.Model.GeoJson
import Verif.Model.JsonText
/-!
# GeoJSON documents as text

`Encode`, `Decode` and `ParseFeatureCollection` of package geojson on bytes. The JSON text of a `FeatureCollection` is made
by encoding/json and by github.com/paulmach/orb/geojson v0.10.0, neither of which belongs to the repository; they are
modelled from RFC 8259, RFC 7946 and the documentation of the packages: the members of structs are written in the order of
their fields, those of maps in the order of their keys, `id` and `bbox` are left out when empty.

Simplifications: text is UTF-8, as in `JsonText`; nesting is not limited (encoding/json stops at 10000); names of members
are matched exactly (encoding/json ignores case for `type`, `geometry`, `properties`, `coordinates`, `geometries`); `id`,
`bbox` and unknown members are not looked at; a collection inside a collection is not looked into and read as `Geom.other`,
a null in a collection is refused.
-/

namespace GpsGen

variable {F : Type}

/-! ## Writing JSON -/

/-- A value for `json.Marshal`. Objects are lists of members in the order in which they are written. -/
inductive WVal (F : Type) where
  | null
  | str (s : String)
  | bool (b : Bool)
  | int (i : Int)
  | num (f : F)
  | arr (l : List (WVal F))
  | obj (l : List (String × WVal F))

section
variable [GoFloat F] [JsonFloat F]

mutual
/-- The text of a value; none if `json.Marshal` fails. -/
def WVal.text : WVal F → Option (List Char)
  | .null => some ['n', 'u', 'l', 'l']
  | .str s => some (jsonString s)
  | .bool b => some (if b then ['t', 'r', 'u', 'e'] else ['f', 'a', 'l', 's', 'e'])
  | .int i => some (NumLit.ofInt i).text
  | .num f => (JsonFloat.write f).map NumLit.text
  | .arr [] => some ['[', ']']
  | .arr (v :: l) => match v.text, WVal.restText l with
    | some a, some b => some ('[' :: (a ++ b))
    | _, _ => none
  | .obj [] => some ['{', '}']
  | .obj ((k, v) :: m) => match v.text, WVal.membersText m with
    | some a, some b => some ('{' :: (jsonString k ++ ':' :: (a ++ b)))
    | _, _ => none
/-- The rest of an array after an element. -/
def WVal.restText : List (WVal F) → Option (List Char)
  | [] => some [']']
  | v :: l => match v.text, WVal.restText l with
    | some a, some b => some (',' :: (a ++ b))
    | _, _ => none
/-- The rest of an object after a member. -/
def WVal.membersText : List (String × WVal F) → Option (List Char)
  | [] => some ['}']
  | (k, v) :: m => match v.text, WVal.membersText m with
    | some a, some b => some (',' :: (jsonString k ++ ':' :: (a ++ b)))
    | _, _ => none
end
end

/-- Puts an entry in its place. -/
def insertEntry {α : Type} (e : String × α) : List (String × α) → List (String × α)
  | [] => [e]
  | x :: m => if e.1 < x.1 then e :: x :: m else x :: insertEntry e m

/-- The entries of a map in the order of their keys. -/
def sortEntries {α : Type} (m : List (String × α)) : List (String × α) := m.foldr insertEntry []

/-- `m[k] = v`. -/
def setEntry {α : Type} (m : List (String × α)) (k : String) (v : α) : List (String × α) :=
  if m.any (fun e => e.1 == k) then m.map (fun e => if e.1 == k then (k, v) else e) else m ++ [(k, v)]

/-- A property value; none if `json.Marshal` refuses its type. -/
def PVal.toW : PVal F → Option (WVal F)
  | .null => some .null
  | .str s => some (.str s)
  | .bool b => some (.bool b)
  | .int i => some (.int i)
  | .int32 i => some (.int i)
  | .int64 i => some (.int i)
  | .float f => some (.num f)
  | .other _ => none

/-- A property map. -/
def PMap.toW (m : PMap F) : Option (List (String × WVal F)) := m.mapM fun e => e.2.toW.map fun v => (e.1, v)

/-! ## Writing a collection -/

/-- orb.Point: two floats. geojson/feature_collection.go:83,85: the longitude comes first. -/
def orbPoint (p : LatLon F) : F × F := (p.lon, p.lat)

/-- geojson/encoding.go:223-232 `toPoints`: `Lon` is the first number of an orb.Point, `Lat` the second. -/
def ofOrbPoint (q : F × F) : LatLon F := ⟨q.2, q.1⟩

/-- A position. -/
def posW (q : F × F) : WVal F := .arr [.num q.1, .num q.2]

/-- A line or ring. -/
def lineW (pts : List (LatLon F)) : WVal F := .arr (pts.map fun p => posW (orbPoint p))

/-- orb/geojson `Geometry.MarshalJSON`, the geometry of a track (feature_collection.go:27-32). -/
def Track.geomW (t : Track F) : WVal F :=
  if t.isClosed then .obj [("type", .str "Polygon"), ("coordinates", .arr [lineW (Track.points t.segments)])]
  else .obj [("type", .str "LineString"), ("coordinates", lineW (Track.points t.segments))]

/-- feature_collection.go:48-53. -/
def Route.geometryW (r : Route F) : WVal F :=
  match r.tracks.map Track.geomW with
  | [g] => g
  | gs => .obj [("type", .str "GeometryCollection"), ("geometries", .arr gs)]

/-- feature_collection.go:34-41, 70-77 `trackInfo`. -/
def Track.infoW (t : Track F) : Option (WVal F) := do
  let props ← t.propsOf.2.toW
  return .obj [("trackID", .str t.id), ("name", .str t.name), ("color", .str t.color), ("distance", .num t.dist),
    ("numSegments", .int t.numSegments), ("properties", .obj (sortEntries props))]

/-- feature_collection.go:54-63. -/
def Route.propsW (r : Route F) : Option (List (String × WVal F)) := do
  let infos ← r.tracks.mapM Track.infoW
  let own ← r.propsOf.2.toW
  let base : List (String × WVal F) := [("routeID", .str r.id), ("color", .str r.color), ("name", .str r.name),
    ("numTracks", .int r.numTracks), ("tracksInfo", .arr infos), ("distance", .num r.dist), ("units", .str "meters")]
  return own.foldl (fun m e => setEntry m e.1 e.2) base

/-- orb/geojson `Feature.MarshalJSON`. -/
def Route.featureW (r : Route F) : Option (WVal F) := do
  let props ← r.propsW
  return .obj [("type", .str "Feature"), ("geometry", r.geometryW), ("properties", .obj (sortEntries props))]

/-- feature_collection.go:19-67 `ToFeatureCollection` and orb/geojson `FeatureCollection.MarshalJSON`. -/
def collectionW (rs : List (Route F)) : Option (WVal F) := do
  let fs ← (rs.filter fun r => !r.tracks.isEmpty).mapM Route.featureW
  return .obj [("features", .arr fs), ("type", .str "FeatureCollection")]

/-- geojson/encoding.go:22-27 `Encode`. -/
def geoEncodeText [GoFloat F] [JsonFloat F] (rs : List (Route F)) : Except Err Bytes :=
  if rs.length = 0 then .error .noRoutes else
  match (collectionW rs).bind WVal.text with
  | none => .error .marshalFailed
  | some cs => .ok (utf8 (String.ofList cs))

/-! ## Reading JSON -/

/-- A scalar. -/
def JVal.toGVal : JVal F → GVal F
  | .null => .null
  | .bool b => .bool b
  | .str s => .str s
  | .num f => .num f

/-- Members as a map: the last one with a name counts. -/
def asMap (m : GMap F) : GMap F := m.foldl (fun m e => m.set e.1 e.2) []

section
variable [GoFloat F] [JsonFloat F]

mutual
/-- A value at the beginning, at most `fuel` deep and long. -/
def readTree : Nat → List Char → Option (GVal F × List Char)
  | 0, _ => none
  | fuel + 1, '[' :: cs => match skipWs cs with
    | ']' :: cs => some (.arr [], cs)
    | cs => match readTree fuel cs with
      | none => none
      | some (v, cs) => (readRest fuel cs).map fun r => (.arr (v :: r.1), r.2)
  | fuel + 1, '{' :: cs => match skipWs cs with
    | '}' :: cs => some (.obj [], cs)
    | cs => match readName cs with
      | none => none
      | some (k, cs) => match readTree fuel (skipWs cs) with
        | none => none
        | some (v, cs) => (readMore fuel cs).map fun r => (.obj (asMap ((k, v) :: r.1)), r.2)
  | _ + 1, cs => (readVal (F := F) cs).map fun r => (r.1.toGVal, r.2)
/-- The rest of an array after an element. -/
def readRest : Nat → List Char → Option (List (GVal F) × List Char)
  | 0, _ => none
  | fuel + 1, cs => match skipWs cs with
    | ']' :: cs => some ([], cs)
    | ',' :: cs => match readTree fuel (skipWs cs) with
      | none => none
      | some (v, cs) => (readRest fuel cs).map fun r => (v :: r.1, r.2)
    | _ => none
/-- The rest of an object after a member. -/
def readMore : Nat → List Char → Option (GMap F × List Char)
  | 0, _ => none
  | fuel + 1, cs => match skipWs cs with
    | '}' :: cs => some ([], cs)
    | ',' :: cs => match readName (skipWs cs) with
      | none => none
      | some (k, cs) => match readTree fuel (skipWs cs) with
        | none => none
        | some (v, cs) => (readMore fuel cs).map fun r => ((k, v) :: r.1, r.2)
    | _ => none
end

/-- A whole document. -/
def readJson (cs : List Char) : Option (GVal F) :=
  match readTree (cs.length + 1) (skipWs cs) with
  | some (v, cs) => if skipWs cs = [] then some v else none
  | none => none
end

/-! ## Reading a collection -/

section
variable [GoFloat F]

/-- A coordinate read into a float that is zero before. -/
def readCoord : Option (GVal F) → Option F
  | none => some (lit 0)
  | some .null => some (lit 0)
  | some (.num f) => some f
  | _ => none

/-- A position read into an orb.Point (`[2]float64`): numbers that are missing are zero, further ones are skipped. -/
def readPos : GVal F → Option (F × F)
  | .null => some (lit 0, lit 0)
  | .arr l => do
    let x ← readCoord l[0]?
    let y ← readCoord l[1]?
    return (x, y)
  | _ => none

/-- A slice. -/
def readSlice {α : Type} (f : GVal F → Option α) : GVal F → Option (List α)
  | .null => some []
  | .arr l => l.mapM f
  | _ => none

/-- The points of a line (`toPoints`, encoding.go:223-232). -/
def readLine (v : GVal F) : Option (List (LatLon F)) := (readSlice readPos v).map fun l => l.map ofOrbPoint

/-- A string read into a string that is empty before. -/
def readText : Option (GVal F) → Option String
  | none => some ""
  | some .null => some ""
  | some (.str s) => some s
  | _ => none

/-- orb/geojson `Geometry.UnmarshalJSON`, without collections. -/
def readGeom : GVal F → Option (Geom F)
  | .obj m => do
    let type ← readText (GMap.get? m "type")
    if type = "GeometryCollection" then some .other else
    let coords ← GMap.get? m "coordinates"
    if type = "Point" then (readPos coords).map fun _ => .other
    else if type = "MultiPoint" then (readLine coords).map .multiPoint
    else if type = "LineString" then (readLine coords).map .lineString
    else if type = "MultiLineString" then (readSlice readLine coords).map .multiLineString
    else if type = "Polygon" then (readSlice readLine coords).map .polygon
    else if type = "MultiPolygon" then (readSlice (readSlice readLine) coords).map .multiPolygon
    else none
  | _ => none

/-- The geometry of a feature; the inner none is a missing one. -/
def readGeometry : Option (GVal F) → Option (Option (Geometry F))
  | none => some none
  | some .null => some none
  | some v => do
    match v with
    | .obj m =>
      if GMap.getString m "type" = "GeometryCollection" then
        match GMap.get? m "geometries" with
        | none => some (some (.collection []))
        | some gs => (readSlice readGeom gs).map fun l => some (.collection l)
      else (readGeom v).map fun g => some (.single g)
    | _ => none

/-- The properties of a feature; the inner none is a nil map. -/
def readFeatureProps : Option (GVal F) → Option (Option (GMap F))
  | none => some none
  | some .null => some none
  | some (.obj p) => some (some p)
  | _ => none

/-- orb/geojson `Feature.UnmarshalJSON`; null gives a nil pointer. -/
def readFeature : GVal F → Option (Option (Feature F))
  | .null => some none
  | .obj m => do
    let type ← readText (GMap.get? m "type")
    let geometry ← readGeometry (GMap.get? m "geometry")
    let props ← readFeatureProps (GMap.get? m "properties")
    if type = "Feature" then some (some ⟨type, props, geometry⟩) else none
  | _ => none

/-- orb/geojson `FeatureCollection.UnmarshalJSON`; null gives a nil pointer in `Decode`. -/
def readCollection : GVal F → Option (Option (List (Option (Feature F))))
  | .null => some none
  | .obj m => do
    let type ← readText (GMap.get? m "type")
    let fs ← match GMap.get? m "features" with
      | none => some []
      | some v => readSlice readFeature v
    if type = "FeatureCollection" then some (some fs) else none
  | _ => none

variable [JsonFloat F]

/-- `json.Unmarshal` of a document. -/
def readGeo (bs : Bytes) : Option (Option (List (Option (Feature F)))) := do
  let s ← String.fromUTF8? ⟨bs.toArray⟩
  let v ← readJson s.toList
  readCollection v

/-- geojson/feature_collection.go:10-16 `ParseFeatureCollection`; none is an error, also for the document `null`. -/
def parseFeatureCollection (bs : Bytes) : Option (List (Option (Feature F))) := (readGeo bs).bind id

end

/-- geojson/encoding.go:30-66 `Decode`; `none` is an error. -/
def geoDecodeText [GoMath F] [JsonFloat F] (gen : Nat → Nat → String × String) (bs : Bytes) :
    Go (Option (List (Route F))) :=
  match readGeo bs with
  | none => .ok none
  | some doc => (geoDecode gen doc).map Except.toOption

end GpsGen
