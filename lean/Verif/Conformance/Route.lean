import Verif.Conformance.Navigator
import Verif.Model.GeoJson
/-!
# The tests of routes, tracks, segments and of the GeoJSON collection, replayed

navigator/route_test.go, route_track_test.go, route_track_segment_test.go, geojson/feature_collection_test.go.
-/

namespace GpsGen
namespace Conformance
namespace RouteTest
open F64 NavigatorTest

def empty : Route F64 := Route.new (routeId 0) "#000000"

def uuid : String := "3caaac65-b01a-4865-8d01-6aba1fbeab69"

/-! ## navigator/route_test.go -/

example : (empty.dist, empty.numTracks, empty.propsOf.2) = (lit 0, 0, []) := by decide +kernel
example : ((empty.propsOf.2.set "key" (.str "val")).getString "key") = ("val", true) := by decide +kernel

example : (empty.removeTrack "").2 = false := by decide +kernel
example : ((route 0 [track1km, track300m]).removeTrack "someid").2 = false := by decide +kernel
example : (empty.removeTrack (uuid ++ "a")).2 = false := by decide +kernel
example : (let r := (route 0 [track1km]).removeTrack track1km.id; r.2 && r.1.numTracks == 0 && zero r.1.dist) = true := by decide +kernel

example : (empty.trackByID "").2 = none ∧ (empty.trackByID (track1km.id ++ "a")).2 = none := by decide +kernel
example : ((route 0 [track1km]).trackByID uuid).2 = none := by decide +kernel
example : ((route 0 [track300m]).trackByID track300m.id).2 = some track300m := by decide +kernel

/-- Counts like the loops of navigator/route_test.go:164-187. -/
def trackLoops (r : Route F64) (fn : Nat → Bool × Bool) : Option Nat :=
  (Route.eachTrack (fun s : Nat × Route F64 => s.2)
    (fun i _ s => ((s.1 + (if (fn i).1 then 1 else 0), s.2), (fn i).2)) 100 (0, r)).map (·.1.1)

example : trackLoops (route 0 [track1km, track3km]) (fun _ => (true, true)) = some 2 := by decide +kernel
example : trackLoops (route 0 [track1km, track3km]) (fun i => if i > 0 then (false, false) else (true, true)) = some 1 := by
  decide +kernel

example : (empty.addTrack none).numTracks = 0 := by decide +kernel
example : (let r := empty.addTrack (some track1km); r.numTracks == 1 && !zero r.dist) = true := by decide +kernel

def withProps : Route F64 := { route 0 [track1km, track300m] with props := some [("k", .str "v")] }

example : (let s := withProps.snapshot
    s.id == withProps.id && s.distance == withProps.dist && s.color == withProps.color && s.tracks.length == 2) = true := by decide +kernel
example : (passes do
    let r := (withProps.changeName "some name").1
    let (q, err) ← Route.fromSnapshot r.snapshot
    return err.isNone && q.id == r.id && q.dist == r.dist && q.color == r.color && q.numTracks == 2 && !q.propsOf.2.isEmpty &&
      q.name == "some name") = true := by decide +kernel

/-! ## navigator/route_track_test.go -/

def line : List (LatLon F64) :=
  [at' (10649659165973264, -14) (29532430319999506, -15), at' (10649863645147855, -14) (2953127911431376, -14),
   at' (10649775438445101, -14) (29530488379584682, -15)]

def closed : List (LatLon F64) :=
  [at' (10649803504214191, -14) (29532430319999506, -15), at' (10649803504214191, -14) (29531837276283085, -15),
   at' (10649803504214191, -14) (29531837276283085, -15), at' (10649907748499231, -14) (29531837276283085, -15),
   at' (10649907748499231, -14) (29532430319999506, -15), at' (10649803504214191, -14) (29532430319999506, -15)]

example : failed (Track.new "id" "#000000" ([] : List (LatLon F64))) = true := by decide +kernel
example : (Track.new "id" "#000000" line).map (·.isClosed) = .ok false := by decide +kernel
example : (Track.new "id" "#000000" closed).map (·.isClosed) = .ok true := by decide +kernel

def tagged : Track F64 := { track300m with props := some [("foo", .int 1), ("bar", .str "baz")] }

example : (let s := tagged.snapshot
    s.id == tagged.id && s.distance == tagged.dist && s.color == tagged.color && s.isClosed == tagged.isClosed &&
    s.segments.length == 1) = true := by decide +kernel
example : (passes do
    let t ← Track.fromSnapshot tagged.snapshot
    return t.id == tagged.id && t.dist == tagged.dist && t.color == tagged.color && t.isClosed == tagged.isClosed && t.numSegments == 1 &&
      !t.propsOf.2.isEmpty) = true := by decide +kernel

example : (Track.restore uuid "#ff0000" line).map (fun t => (t.id, t.color)) = .ok (uuid, "#ff0000") := by decide +kernel
example : failed (Track.restore uuid "#ff0000" ([] : List (LatLon F64))) = true := by decide +kernel
example : failed (Track.restore "" "#ff0000" ([] : List (LatLon F64))) = true := by decide +kernel

def grey : Track F64 := { track300m with color := "" }

example : (let r := grey.changeColor (some "#ffffff"); r.2.isNone && r.1.color == "#ffffff") = true := by decide +kernel
example : (grey.changeColor none).2.isSome = true := by decide +kernel
example : (let r := grey.changeName "someName"; r.2.isNone && r.1.name == "someName") = true := by decide +kernel
example : (grey.changeName "").2.isSome = true := by decide +kernel

/-! ## navigator/route_track_segment_test.go -/

example : (let s := (track1km.segmentAt 0).snapshot
    s.distance == (track1km.segmentAt 0).dist && s.bearing == (track1km.segmentAt 0).bearing && s.index == 0 && s.rel == 0) = true := by
  decide +kernel
example : (passes do return (← Segment.fromSnapshot (track1km.segmentAt 0).snapshot) == track1km.segmentAt 0) = true := by decide +kernel

/-- The checks of navigator/route_track_segment_test.go:100-110 on every segment. -/
def sound (r : Except Err (List (Segment F64) × F64)) (n : Nat) : Bool :=
  match r with
  | .error _ => false
  | .ok (ss, _) => ss.length == n && ss.zipIdx.all fun (s, i) =>
      !zero s.pointA.lon && !zero s.pointA.lat && !zero s.pointB.lon && !zero s.pointB.lat && !s.isEmpty && !zero s.dist &&
        s.index == i

example : failed (makeSegments [at' (10649403901121315, -14) (29534639667942272, -15)]) = true := by decide +kernel

/-- The second case exchanges latitude and longitude. -/
example : sound (makeSegments [at' (29530081381358315, -15) (10649738017419708, -14), at' (29531139573340525, -15) (10649854289891545, -14)])
    1 = true := by decide +kernel
example : sound (makeSegments [at' (10649954524781106, -14) (2953053489356381, -14), at' (10649870327473838, -14) (29528546401884455, -15),
    at' (10649664511834084, -14) (2952830219845653, -14)]) 2 = true := by decide +kernel
example : sound (makeSegments [at' (10649403901121315, -14) (29534639667942272, -15), at' (10649403901121315, -14) (2953170936443685, -14),
    at' (1064996254357207, -13) (2953170936443685, -14), at' (1064996254357207, -13) (29534639667942272, -15),
    at' (10649403901121315, -14) (29534639667942272, -15)]) 4 = true := by decide +kernel

/-! ## geojson/feature_collection_test.go -/

def poly : Track F64 :=
  orElse default (Track.new "poly" "#000000" [at' (10645792276464522, -14) (29533628561797286, -15),
    at' (10645792276464522, -14) (29529399791830542, -15), at' (10646334808393323, -14) (29529399791830542, -15),
    at' (10646334808393323, -14) (29533628561797286, -15), at' (10645792276464522, -14) (29533628561797286, -15)])

def features : List (Option (Feature F64)) :=
  (toFeatures [{ route 1 [poly, track300m] with props := some [("foo", .str "foo")] }, route 2 [poly], route 3 []]).getD []

/-- The values of a feature's property. -/
def prop (f : Option (Feature F64)) (k : String) : Option (GVal F64) := f.bind fun f => f.props.bind (·.get? k)

/-- Two features: a collection and a polygon. -/
example : (match features with
    | [some f, some g] =>
      (match f.geometry, g.geometry with
      | some (.collection _), some (.single (.polygon _)) => true
      | _, _ => false) &&
      (match prop (some f) "routeID", prop (some g) "routeID", prop (some f) "foo" with
      | some (.str a), some (.str b), some (.str c) => a == routeId 1 && b == routeId 2 && c == "foo"
      | _, _, _ => false) &&
      (match prop (some f) "tracksInfo", prop (some g) "tracksInfo" with
      | some (.arr a), some (.arr b) => a.length == 2 && b.length == 1
      | _, _ => false)
    | _ => false) = true := by decide +kernel

end RouteTest
end Conformance
end GpsGen
