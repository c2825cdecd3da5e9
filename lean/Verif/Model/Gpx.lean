import Verif.Model.GeoJson
/-!
# Package gpx

gpx/encoding.go on the level of the parsed `gpx.GPX` document.

Simplifications: XML text and the gpxgo library are not modelled here, see `Model/XmlText`; attribute names are assumed
to be valid XML names and track ids to carry no surrounding white space. The text forms of floats are the argument `GpxText`; for the
coordinates of doubles see `Model/GpxCoord`. That
encoding creates missing property maps is not modelled. Generated ids and colours are arguments: `gen i 0` for route
number `i`, `gen i (k + 1)` for its track number `k`.
-/

namespace GpsGen

variable {F : Type}

/-! ## Text -/

/-- The decimal digit of a number below ten. -/
def decDigit (n : Nat) : Char := Char.ofNat (48 + n)

/-- The decimal digits of `n`; `fuel` bounds their number. -/
def decDigits : Nat → Nat → List Char
  | 0, _ => []
  | fuel + 1, n => if n < 10 then [decDigit n] else decDigits fuel (n / 10) ++ [decDigit (n % 10)]

/-- `fmt.Sprintf("%v", i)` of an integer. -/
def showInt (i : Int) : String :=
  if i < 0 then String.ofList ('-' :: decDigits (i.natAbs + 1) i.natAbs)
  else String.ofList (decDigits (i.natAbs + 1) i.natAbs)

/-- The number written by digits, the most significant first; `none` if some character is not a digit. -/
def readDigits : Nat → List Char → Option Nat
  | n, [] => some n
  | n, c :: cs => if c.isDigit then readDigits (10 * n + (c.toNat - 48)) cs else none

/-- Digits after a sign; at least one is needed. -/
def readNat (cs : List Char) : Option Nat := if cs = [] then none else readDigits 0 cs

/-- `strconv.ParseInt(s, 10, 64)`. -/
def parseInt64 (s : String) : Option Int :=
  let n : Option Int := match s.toList with
    | '-' :: cs => (readNat cs).map fun n : Nat => -(Int.ofNat n)
    | '+' :: cs => (readNat cs).map Int.ofNat
    | cs => (readNat cs).map Int.ofNat
  n.bind fun i => if -9223372036854775808 ≤ i ∧ i ≤ 9223372036854775807 then some i else none

/-- `strconv.ParseBool`. -/
def parseBool (s : String) : Option Bool :=
  if s = "1" ∨ s = "t" ∨ s = "T" ∨ s = "TRUE" ∨ s = "true" ∨ s = "True" then some true
  else if s = "0" ∨ s = "f" ∨ s = "F" ∨ s = "FALSE" ∨ s = "false" ∨ s = "False" then some false
  else none

/-- Text forms that are not modelled: `strconv.ParseFloat(s, 64)`, `%v` and `strconv.FormatFloat` of a float, `%v`
of other values, and a coordinate after gpxgo wrote and read it. -/
structure GpxText (F : Type) where
  parseFloat : String → Option F
  showFloat : F → String
  f2s : F → String
  showOther : Nat → String
  coord : F → F

/-- gpx/encoding.go:244-261 `value`. -/
def GpxText.value (T : GpxText F) (s : String) : PVal F :=
  match parseInt64 s with
  | some i => .int64 i
  | none => match parseBool s with
    | some b => .bool b
    | none => match T.parseFloat s with
      | some f => .float f
      | none => .str s

/-- gpx/encoding.go:218 `fmt.Sprintf("%v", v)`. -/
def GpxText.print (T : GpxText F) : PVal F → String
  | .null => "<nil>"
  | .str s => s
  | .bool b => if b then "true" else "false"
  | .int i => showInt i
  | .int32 i => showInt i
  | .int64 i => showInt i
  | .float f => T.showFloat f
  | .other n => T.showOther n

/-! ## Documents -/

/-- XML attributes. -/
abbrev Attrs := List (String × String)

/-- A `track` extension node; `data` is its text. -/
structure GpxTrackNode where
  attrs : Attrs
  data : String
  deriving DecidableEq

/-- A `route` extension node. -/
structure GpxRouteNode where
  attrs : Attrs
  nodes : List GpxTrackNode
  deriving DecidableEq

/-- `gpx.GPX`, the parts that are used: the points of `rte` elements, of the segments of `trk` elements and of `wpt`
elements, and the extension nodes with their local names. -/
structure GpxDoc (F : Type) where
  routes : List (List (LatLon F))
  tracks : List (List (List (LatLon F)))
  waypoints : List (LatLon F)
  ext : List (String × List GpxRouteNode)
  deriving DecidableEq

/-! ## Encoding -/

/-- gpx/encoding.go:210-222 `makeAttrs`. -/
def makeAttrs (T : GpxText F) (m : PMap F) : Attrs := m.map fun e => (e.1, T.print e.2)

/-- gpx/encoding.go:59-66. The properties of the track are appended to `trackNode` only after it was copied into the
route node (67-69), so they are not written. -/
def gpxTrackNode (T : GpxText F) (t : Track F) : GpxTrackNode :=
  ⟨[("name", t.name), ("color", t.color), ("distance", T.f2s t.dist)], t.id⟩

/-- gpx/encoding.go:41-72. -/
def gpxRouteNode (T : GpxText F) (r : Route F) : GpxRouteNode :=
  ⟨[("id", r.id), ("name", r.name), ("color", r.color), ("distance", T.f2s r.dist), ("units", "meters")] ++
    makeAttrs T r.propsOf.2, r.tracks.map (gpxTrackNode T)⟩

/-- gpx/encoding.go:281-301 `copyPoints`, and what is left of the coordinates after writing and reading. -/
def gpxPoints (T : GpxText F) (t : Track F) : List (LatLon F) :=
  (Track.points t.segments).map fun p => ⟨T.coord p.lat, T.coord p.lon⟩

/-- gpx/encoding.go:21-81 `Encode`. -/
def gpxEncode (T : GpxText F) (rs : List (Route F)) : Except Err (GpxDoc F) :=
  if rs.length = 0 then .error .noRoutes else
  .ok ⟨[], rs.map fun r => r.tracks.map (gpxPoints T), [], [("gpsgen", rs.map (gpxRouteNode T))]⟩

/-! ## Decoding -/

/-- gpx/encoding.go:224-232 `makeProps`. -/
def makeProps (T : GpxText F) (attrs : Attrs) : PMap F :=
  attrs.foldl (fun m e => m.set e.1 (T.value e.2)) PMap.make

/-- gpx/encoding.go:234-242 `resetProps`. -/
def gpxResetProps (m : PMap F) : PMap F :=
  ((((((m.remove "id").remove "color").remove "distance").remove "tracksInfo").remove "numTracks").remove
    "name").remove "units"

/-- gpx/encoding.go:199-204 `routesExists`. -/
def gpxRoutesExist (d : GpxDoc F) : Bool :=
  match d.ext with
  | [] => false
  | (name, _) :: _ => name == "gpsgen"

/-- gpx/encoding.go:271-277: every GPX track from number `i` on has as many segments as its node has tracks. -/
def gpxValidateTracks (root : List GpxRouteNode) : Nat → List (List (List (LatLon F))) → Go (Except Err Unit)
  | _, [] => .ok (.ok ())
  | i, segs :: rest => do
    let node ← goIndex root i
    if segs.length ≠ node.nodes.length then .ok (.error .invalidRoute) else gpxValidateTracks root (i + 1) rest

/-- gpx/encoding.go:263-279 `validateRoutes`. -/
def gpxValidate (d : GpxDoc F) : Go (Except Err Unit) :=
  if d.tracks.length = 0 ∨ d.ext.length = 0 then .ok (.error .invalidRoute) else do
  let root ← goIndex d.ext 0
  if root.2.length ≠ d.tracks.length then .ok (.error .invalidRoute) else gpxValidateTracks root.2 0 d.tracks

/-- gpx/encoding.go:123-140: one track. -/
def gpxRestoreTrack [GoMath F] (T : GpxText F) (info : GpxTrackNode) (pts : List (LatLon F)) : Except Err (Track F) := do
  let props := makeProps T info.attrs
  let color := (props.getString "color").1
  let name := (props.getString "name").1
  let t ← Track.restore info.data color pts
  let t := { t with props := some (t.propsOf.2.merge (gpxResetProps props)) }
  return if goLen name > 0 then (t.changeName name).1 else t

/-- gpx/encoding.go:119-142: the loop over the segments of GPX track number `i`. -/
def gpxRestoreTracks [GoMath F] (T : GpxText F) (root : List GpxRouteNode) (i : Nat) :
    Nat → List (List (LatLon F)) → Route F → Go (Except Err (Route F))
  | _, [], r => .ok (.ok r)
  | j, pts :: rest, r => do
    let node ← goIndex root i
    let info ← goIndex node.nodes j
    match gpxRestoreTrack T info pts with
    | .error e => return .error e
    | .ok t => gpxRestoreTracks T root i (j + 1) rest (r.addTrack (some t))

/-- gpx/encoding.go:106-117: the route without its tracks. -/
def gpxRestoreRoute [GoFloat F] (T : GpxText F) (attrs : Attrs) : Except Err (Route F) :=
  let props := makeProps T attrs
  match props.getString "id" with
  | (_, false) => .error .invalidRoute
  | (id, true) =>
    let color := (props.getString "color").1
    let name := (props.getString "name").1
    let route := Route.restore id color (some (gpxResetProps props))
    .ok (if goLen name > 0 then (route.changeName name).1 else route)

/-- gpx/encoding.go:100-147: the loop over the GPX tracks. -/
def gpxRestoreRoutes [GoMath F] (T : GpxText F) (root : List GpxRouteNode) :
    Nat → List (List (List (LatLon F))) → Go (Except Err (List (Route F)))
  | _, [] => .ok (.ok [])
  | i, segs :: rest =>
    if segs.length = 0 then gpxRestoreRoutes T root (i + 1) rest else do
    let info ← goIndex root i
    match gpxRestoreRoute T info.attrs with
    | .error e => return .error e
    | .ok route =>
      match ← gpxRestoreTracks T root i 0 segs route with
      | .error e => return .error e
      | .ok route =>
        match ← gpxRestoreRoutes T root (i + 1) rest with
        | .error e => return .error e
        | .ok routes => return .ok (route :: routes)

/-- One new route for each list of point lists (gpx/encoding.go:152-161, 165-182). -/
def gpxNewRoutes [GoMath F] (gen : Nat → Nat → String × String) :
    Nat → List (List (List (LatLon F))) → Except Err (List (Route F))
  | _, [] => .ok []
  | i, segs :: rest => do
    let r ← addNewTracks (gen i) (Route.new (gen i 0).1 (gen i 0).2) segs
    let rs ← gpxNewRoutes gen (i + 1) rest
    return r :: rs

/-- gpx/encoding.go:150-193: documents of other programs. Tracks replace routes, way points replace both; all are
built, so that an error in any of them is an error of the whole. -/
def gpxForeign [GoMath F] (gen : Nat → Nat → String × String) (d : GpxDoc F) : Except Err (List (Route F)) := do
  let rs ← gpxNewRoutes gen 0 (d.routes.map fun pts => [pts])
  let rs ← (if d.tracks.length > 0 then gpxNewRoutes gen 0 d.tracks else .ok rs)
  if d.waypoints.length > 0 then gpxNewRoutes gen 0 [[d.waypoints]] else .ok rs

/-- gpx/encoding.go:84-197 `Decode` of a parsed document. -/
def gpxDecode [GoMath F] (T : GpxText F) (gen : Nat → Nat → String × String) (d : GpxDoc F) :
    Go (Except Err (List (Route F))) :=
  if gpxRoutesExist d then do
    match ← gpxValidate d with
    | .error e => return .error e
    | .ok () =>
      let root ← goIndex d.ext 0
      gpxRestoreRoutes T root.2 0 d.tracks
  else .ok (gpxForeign gen d)

end GpsGen
