import Verif.Conformance.GpxDocuments
import Verif.Model.GpxCoord
/-!
# The tests that write GeoJSON and GPX documents, replayed

geojson/encoding_test.go and gpx/encoding_test.go `TestEncode`, io_test.go `TestGeoJSON` and `TestGPX`. The documents are written by the
model of the writers, in doubles, and read again as text. A fixed route stands for the random route of io_test.go. Numbers are written
with all their digits; Go writes the shortest number that is read as the same double.
-/

namespace GpsGen
namespace Conformance
namespace EncodingTest
open F64 DocumentTest GpxDocumentTest

/-- `NewTrack`. -/
def track (id : String) (pts : List (LatLon F64)) : Track F64 :=
  match Track.new id "#5935dd" pts with
  | .ok t => t
  | .error _ => ⟨"", [], "", "", none, lit 0, false, 0⟩

/-- `track1Poly` of the tests. -/
def track1Poly : Track F64 := track "00000000-0000-0000-0000-00000001Poly" [
  at' (10645792276464522, -14) (29533628561797286, -15),
  at' (10645792276464522, -14) (29529399791830542, -15),
  at' (10646334808393323, -14) (29529399791830542, -15),
  at' (10646334808393323, -14) (29533628561797286, -15),
  at' (10645792276464522, -14) (29533628561797286, -15)]

/-- `track2Poly` of the tests. -/
def track2Poly : Track F64 := track "00000000-0000-0000-0000-00000002Poly" [
  at' (10646572166112287, -14) (29533628561797286, -15),
  at' (10646572166112287, -14) (2952910475476996, -14),
  at' (10647148606286629, -14) (2952910475476996, -14),
  at' (10647148606286629, -14) (29533628561797286, -15),
  at' (10646572166112287, -14) (29533628561797286, -15)]

/-- `track3Line` of the tests. -/
def track3Line : Track F64 := track "00000000-0000-0000-0000-00000003Line" [
  at' (10645688223543743, -14) (2952481100757835, -14),
  at' (10646224152558176, -14) (29528509455345258, -15)]

/-- `track4Line` of the tests. -/
def track4Line : Track F64 := track "00000000-0000-0000-0000-00000004Line" [
  at' (10646609599041324, -14) (29528233799305895, -15),
  at' (10647185128721964, -14) (29526671734226028, -15),
  at' (10646691440417999, -14) (29523317807121842, -15)]

/-- `RouteFromTracks`. -/
def route (id : String) (ts : List (Track F64)) : Route F64 := Route.fromTracks id "#2dd049" (ts.map some)

/-! ## geojson/encoding_test.go `TestEncode` -/

/-- The characters that `Encode` writes. -/
def written (rs : List (Route F64)) : List Char := ((collectionW rs).bind WVal.text).getD []

theorem geoEncode_written (rs : List (Route F64)) (h : rs.length ≠ 0) (hw : written rs ≠ []) :
    geoEncodeText rs = .ok (utf8 (String.ofList (written rs))) := by
  unfold geoEncodeText
  rw [if_neg h]
  unfold written at hw ⊢
  cases e : (collectionW rs).bind WVal.text with
  | none => rw [e] at hw; exact absurd rfl hw
  | some cs => rfl

/-- `ParseFeatureCollection` of the text. -/
def features (rs : List (Route F64)) : List (Option (Feature F64)) :=
  (((readJson (F := F64) (written rs)).bind readCollection).bind id).getD []

example : geoEncodeText (F := F64) [] = .error .noRoutes := rfl

/-- The route with properties. -/
def routeProps : Route F64 :=
  { route "r1" [track4Line] with props := some [("foo", .str "bar"), ("speed", .float (dec 12 (-1))), ("isActive", .bool true)] }

/-- A string property. -/
def hasStr (m : GMap F64) (k v : String) : Bool := match m.get? k with | some (.str s) => s == v | _ => false
/-- A number property. -/
def hasNum (m : GMap F64) (k : String) (v : F64) : Bool := match m.get? k with | some (.num x) => decide (x = v) | _ => false

/-- What the test looks at in the properties of the only feature. -/
def propsOk : List (Option (Feature F64)) → Bool
  | [some ⟨_, some m, _⟩] =>
    hasStr m "color" "#2dd049" && hasNum m "distance" routeProps.dist && hasNum m "speed" (dec 12 (-1)) && hasStr m "foo" "bar" &&
    (match m.get? "isActive" with | some (.bool b) => b | _ => false) && hasNum m "numTracks" (lit 1) && hasStr m "routeID" "r1" &&
    (match m.get? "tracksInfo" with | some (.arr l) => l.length == 1 | _ => false)
  | _ => false

example : propsOk (features [routeProps]) = true := by decide +kernel

/-- Three routes are three features. -/
example : (features [route "r1" [track1Poly, track3Line], route "r2" [track3Line], route "r3" [track2Poly]]).length = 3 := by
  decide +kernel

/-! ## io_test.go `TestGeoJSON` -/

/-- What the test compares: the numbers of segments. -/
def shape (rs : List (Route F64)) : List (List Nat) := rs.map fun r => r.tracks.map fun t => t.segments.length

example : accepted (geo (written [route "r1" [track2Poly]])) (fun rs => shape rs == [[4]]) = true := by decide +kernel

/-! ## gpx/encoding_test.go `TestEncode` -/

/-- Tabs, coordinates with ten decimals. -/
def layout : GpxLayout F64 := ⟨"\t", fun x => String.ofList (coordText x)⟩

/-- The text of numbers: as JSON. -/
def numbers : GpxText F64 :=
  ⟨decimal, fun x => String.ofList (((JsonFloat.write x).map NumLit.text).getD []),
    fun x => String.ofList (((JsonFloat.write x).map NumLit.text).getD []), fun _ => "", gpxCoord⟩

/-- The text that `Encode` writes. -/
def gpxWritten (rs : List (Route F64)) : List Char :=
  match gpxEncodeText layout numbers rs with
  | .ok cs => cs
  | .error _ => []

example : gpxEncodeText layout numbers [] = .error .noRoutes := rfl

/-- The two routes. -/
def gpxRoutes : List (Route F64) :=
  [{ route "r1" [track1Poly, track2Poly, track4Line] with
      props := some [("foo", .int 1), ("baz", .bool true), ("ing", .int 123), ("val", .str "val")] },
   route "r2" [track4Line, track2Poly]]

/-- `gpx.Parse`. -/
def parsed (rs : List (Route F64)) : Option (GpxDoc F64) := gpxParse ⟨fun _ => false, fun _ => false⟩ numbers (gpxWritten rs)

/-- What the test looks at: the names of the extension nodes, the numbers of nodes for routes and tracks, and the numbers of points of
the segments. -/
def docOk (d : Option (GpxDoc F64)) : Bool :=
  match d with
  | some d => d.ext.map (fun e => (e.1, e.2.map fun r => r.nodes.length)) == [("gpsgen", [3, 2])] &&
      d.tracks.map (fun t => t.map List.length) == [[5, 5, 3], [3, 5]]
  | none => false

example : docOk (parsed gpxRoutes) = true := by decide +kernel

/-! ## io_test.go `TestGPX` -/

/-- `DecodeGPXRoutes` of the text. -/
def reread (rs : List (Route F64)) : Go (Option (Except Err (List (Route F64)))) :=
  gpxDecodeText ⟨fun _ => false, fun _ => false⟩ numbers gen (gpxWritten rs)

example : GpxDocumentTest.accepted (reread [route "r1" [track2Poly]]) (fun rs => shape rs == [[4]]) = true := by decide +kernel

end EncodingTest
end Conformance
end GpsGen
