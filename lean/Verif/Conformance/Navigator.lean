import Verif.Conformance.Fixture
import Verif.Model.Snapshot
import Verif.Model.Iterate
/-!
# The tests of package navigator, replayed

The cases of navigator/navigator_test.go, run on the model in doubles. A test that expects `Zero` or an exact number expects the double.
-/

namespace GpsGen
namespace Conformance
namespace NavigatorTest
open F64

/-- The identifier the generator of a test gives to its `i`-th route. -/
def routeId (i : Nat) : String := "00000000-0000-0000-0000-00000000000" ++ String.ofList [Char.ofNat (48 + i)]

def route (i : Nat) (ts : List (Track F64)) : Route F64 := Route.fromTracks (routeId i) "#000000" (ts.map some)

/-- navigator/navigator_test.go:38-45 `routes`. -/
def routes (n : Nat) : List (Option (Route F64)) := (List.range n).map fun i => some (route i [track300m, track1km, track3km])

/-- Draws of the random numbers: the middle of the interval. -/
def mid : Nat → F64 := fun _ => lit (1 / 2)

/-- `New(opts...)`, where it does not fail. -/
def nav (opts : List (NavOption F64)) : Navigator F64 :=
  match Navigator.new "elevation-id" mid opts with
  | .ok n => n
  | .error _ => default

def added (n : Navigator F64) (rs : List (Option (Route F64))) : Navigator F64 := (n.addRoute rs).1

/-- All four counters. -/
def counters (n : Navigator F64) : List F64 :=
  [n.currentDistance, n.currentRouteDistance, n.currentTrackDistance, n.currentSegmentDistance]

def place (n : Navigator F64) : Int × Int × Int := (n.routeIndex, n.trackIndex, n.segmentIndex)

def zero (x : F64) : Bool := x ==. lit 0

/-! ## TestNew (navigator/navigator_test.go:47-73) -/

example : failed (Navigator.new "e" mid [.elevation (lit 1) (lit 10000) 10000 0]) = true := by decide +kernel

/-! ## TestNavigator_MoveToSegment (navigator/navigator_test.go:75-282) -/

def skipping : Navigator F64 := nav [.skipOffline]

def refuses (n : Navigator F64) (i j k : Int) : Bool := passes do return (← n.moveToSegment i j k).2 == false

example : refuses skipping 0 0 0 = true := by decide +kernel
example : refuses (added skipping [some (route 0 [track300m])]) 0 0 0 = true := by decide +kernel
example : refuses (added skipping [some (route 0 [track300m])]) (-1) 0 0 = true := by decide +kernel
example : refuses (added skipping [some (route 0 [track300m])]) 100 0 0 = true := by decide +kernel
example : refuses (added skipping [some (route 0 [track300m]), some (route 1 [])]) 1 0 0 = true := by decide +kernel
example : refuses (added skipping [some (route 0 [track300m])]) 0 (-1) 0 = true := by decide +kernel
example : refuses (added skipping [some (route 0 [track300m])]) 0 100 0 = true := by decide +kernel
example : refuses (added skipping [some (route 0 [track300m])]) 0 0 (-1) = true := by decide +kernel
example : refuses (added skipping [some (route 0 [track300m])]) 0 0 100 = true := by decide +kernel

/-- should return true when segment is switched -/
example : (passes do
    let n := ((added skipping [some (route 0 [track300m, track1km])]).destinationTo (lit 600)).1
    let (m, ok) ← n.moveToSegment 0 1 1
    return n.currentDistance == lit 600 && n.currentRouteDistance == lit 600 && !zero n.currentTrackDistance &&
      !zero n.currentSegmentDistance && ok && !zero m.currentDistance && !zero m.currentTrackDistance &&
      zero m.currentSegmentDistance) = true := by decide +kernel

/-- should return true when track is switched -/
example : (passes do
    let n := ((added skipping [some (route 0 [track1km, track1km])]).destinationTo (lit 10)).1
    let (m, ok) ← n.moveToSegment 0 1 0
    return ok && counters m == [lit 10, lit 10, lit 0, lit 0]) = true := by decide +kernel

/-- should return true when route is switched -/
example : (passes do
    let n := ((added skipping [some (route 0 [track1km]), some (route 1 [track1km])]).destinationTo (lit 10)).1
    let (m, ok) ← n.moveToSegment 1 0 0
    return ok && counters m == [lit 10, lit 0, lit 0, lit 0]) = true := by decide +kernel

/-! ## TestNavigator_ResetRoutes (navigator/navigator_test.go:284-305) -/

def plain : Navigator F64 := nav []

example : plain.resetRoutes.2 = false := by decide +kernel
example : (added plain (routes 10)).numRoutes = 10 := by decide +kernel
example : (let r := ((added plain (routes 10)).destinationTo (lit 100)).1.resetRoutes
    r.2 && r.1.numRoutes == 0 && counters r.1 == [lit 0, lit 0, lit 0, lit 0] && place r.1 == (0, 0, 0)) = true := by decide +kernel

/-! ## TestNavigator_AddRoute (navigator/navigator_test.go:307-373) -/

example : (plain.addRoute []).2.isSome = true := by decide +kernel
example : (let r := plain.addRoute [none, none, none]; r.2.isNone && r.1.numRoutes == 0) = true := by decide +kernel
example : (let r := plain.addRoute (routes 10); r.2.isNone && r.1.numRoutes == 10) = true := by decide +kernel
example : (let r := plain.addRoute (routes 1 ++ routes 1); r.2.isNone && r.1.numRoutes == 1 && r.1.sum == (1, 3, 0)) = true := by
  decide +kernel

/-! ## TestNavigator_RouteByID, Routes, EachRoute (navigator/navigator_test.go:375-475) -/

example : failed (plain.routeByID "") = true := by decide +kernel
example : failed (plain.routeByID "3caaac65-b01a-4865-8d01-6aba1fbeab69") = true := by decide +kernel
example : (added plain (routes 1)).routeByID (routeId 0) = .ok (route 0 [track300m, track1km, track3km]) := by decide +kernel
example : (added plain [some (route 0 [track1km, track3km])]).routes.length = 1 := by decide +kernel

/-- The loop of a test that counts in its state how often its function counted. -/
def loops (n : Navigator F64) (fn : Nat → Bool × Bool) : Option Nat :=
  (Navigator.eachRoute (fun s : Nat × Navigator F64 => s.2)
    (fun i _ s => ((s.1 + (if (fn i).1 then 1 else 0), s.2), (fn i).2)) 100 (0, n)).map (·.1.1)

example : loops (added plain (routes 10)) (fun _ => (true, false)) = some 1 := by decide +kernel
example : loops (added plain (routes 10)) (fun i => if i > 1 then (false, false) else (true, true)) = some 2 := by
  decide +kernel
example : loops (added plain (routes 10)).resetRoutes.1 (fun _ => (true, true)) = some 0 := by decide +kernel

/-! ## TestNavigator_RemoveRoute, RemoveRoutes, RemoveTrack (navigator/navigator_test.go:477-602) -/

example : ((added plain (routes 10)).removeRoute "").2 = false := by decide +kernel
example : (let r := (added plain (routes 10)).removeRoute (routeId 0); r.2 && r.1.numRoutes == 9) = true := by decide +kernel

/-- Removes the routes one after the other and checks after each. -/
def removeAll (n : Navigator F64) : List Nat → Bool × Navigator F64
  | [] => (true, n)
  | i :: rest =>
    let r := n.removeRoute (routeId i)
    let q := removeAll r.1 rest
    (r.2 && place r.1 == (0, 0, 0) && counters r.1 == [lit 0, lit 0, lit 0, lit 0] && q.1, q.2)

example : (let r := removeAll (added plain (routes 10)) (List.range 10); r.1 && zero r.2.distance) = true := by decide +kernel

example : ((added plain [some (route 0 [track3km])]).removeTrack "" "").2 = false := by decide +kernel
example : ((added plain [some (route 0 [track3km])]).removeTrack "someid" "someid").2 = false := by decide +kernel
example : (let r := (added plain [some (route 0 [track3km])]).removeTrack (routeId 0) track3km.id
    r.2 && r.1.routes.map (·.numTracks) == [0]) = true := by decide +kernel

/-! ## TestNavigator_NextLocation (navigator/navigator_test.go:604-795) -/

def offline3 : Navigator F64 := nav [.offline 3 10]

/-- The raw draw of a random number. -/
def x : UInt32 := 2000000000

example : (passes do return (← offline3.nextLocation (lit 0) (lit 0) x).2 == false) = true := by decide +kernel

/-- should return false when navigator is offline; its duration is drawn from 3 to 10, one tick takes one. -/
example : (passes do
    let n ← (added offline3 [some (route 0 [track300m])]).toOffline x
    let (m, ok) ← n.nextLocation (lit 1) (lit 3) x
    return !ok && m.isOffline && m.offlineIndex != 0) = true := by decide +kernel

/-- should walk successfully 2 meters in one segment -/
example : (passes do
    let (n, ok) ← (added offline3 [some (route 0 [track300m])]).nextLocation (lit 1) (lit 2) x
    return ok && counters n == [lit 2, lit 2, lit 2, lit 2] && place n == (0, 0, 0) && !zero n.distance &&
      !zero (← n.routeDistance) && !zero (← n.trackDistance) && !zero (← n.segmentDistance) && !n.isOffline && !n.isFinish.2 &&
      n.offlineIndex == 0 && (← n.currentBearing) == (track300m.segmentAt 0).bearing && !zero n.point.lat && !zero n.point.lon) =
    true := by decide +kernel

/-- should successfully switch next segment without offline mode -/
example : (passes do
    let n := ((added offline3 [some (route 0 [track300m, track1km])]).destinationTo (lit 600)).1
    let (m, ok) ← n.nextLocation (lit 1) (lit 100) x
    return place n == (0, 1, 0) && ok && m.currentDistance == lit 700 && place m == (0, 1, 1) && !m.isOffline && !m.isFinish.2) =
    true := by decide +kernel

/-- should successfully switch next segment with offline mode -/
example : (passes do
    let n := ((added offline3 [some (route 0 [track300m, track1km])]).destinationTo (lit 300)).1
    let (m, ok) ← n.nextLocation (lit 1) (lit 10) x
    return place n == (0, 0, 0) && !ok && m.currentDistance == lit 300 && place m == (0, 1, 0) && m.isOffline && !m.isFinish.2) =
    true := by decide +kernel

/-- should successfully switch next route with offline mode -/
example : (passes do
    let n := ((added offline3 [some (route 0 [track300m]), some (route 1 [track300m])]).destinationTo (lit 299)).1
    let (m, ok) ← n.nextLocation (lit 1) (lit 10) x
    return place n == (0, 0, 0) && !ok && m.currentDistance == lit 299 && place m == (1, 0, 0) && m.isOffline && !m.isFinish.2) =
    true := by decide +kernel

/-- should successfully switch start route with offline mode -/
example : (passes do
    let n := ((added skipping [some (route 0 [track1km])]).destinationTo (lit 998)).1
    let (m, ok) ← n.nextLocation (lit 1) (lit 10) x
    return place n == (0, 0, 1) && !ok && m.currentDistance == lit (1 / 10) && place m == (0, 0, 0) && !m.isOffline && m.isFinish.2) =
    true := by decide +kernel

/-! ## TestNavigator_CurrentBearing, NextRoute, PrevRoute (navigator/navigator_test.go:848-936) -/

example : (passes do return zero (← plain.currentBearing)) = true := by decide +kernel
example : (passes do
    let (n, _) ← (added plain [some (route 0 [track1km])]).moveToSegment 0 0 1
    return (← n.currentBearing) == (track1km.segmentAt 1).bearing) = true := by decide +kernel

example : (passes do
    let (n, _) ← (added plain (routes 3)).moveToRoute 2
    let (m, ok) ← n.toNextRoute
    return !ok && m.routeIndex == 2) = true := by decide +kernel
example : (passes do
    let n := added plain (routes 3)
    let (m, ok) ← n.toNextRoute
    return n.routeIndex == 0 && ok && place m == (1, 0, 0)) = true := by decide +kernel
example : (passes do
    let (m, ok) ← (added plain (routes 3)).toPrevRoute
    return !ok && m.routeIndex == 0) = true := by decide +kernel
example : (passes do
    let (n, _) ← (added plain (routes 3)).moveToRoute 2
    let (m, ok) ← n.toPrevRoute
    return n.routeIndex == 2 && ok && place m == (1, 0, 0)) = true := by decide +kernel

/-! ## TestNavigator_MoveToRouteByID, MoveToTrackByID (navigator/navigator_test.go:938-1044) -/

example : (passes do return !(← plain.moveToRouteByID "").2) = true := by decide +kernel
example : (passes do return !(← plain.moveToRouteByID "3caaac65-b01a-4865-8d01-6aba1fbeab69").2) = true := by decide +kernel
example : (passes do
    let (m, ok) ← (added plain (routes 10)).moveToRouteByID (routeId 5)
    return ok && (← m.currentRoute).map (·.id) == some (routeId 5)) = true := by decide +kernel

example : (passes do return !(← plain.moveToTrackByID "" "").2) = true := by decide +kernel
example : (passes do return !(← (added plain (routes 10)).moveToTrackByID (routeId 0) "").2) = true := by decide +kernel
example : (passes do
    let (m, ok) ← (added plain (routes 10)).moveToTrackByID (routeId 8) track1km.id
    return ok && (← m.currentRoute).map (·.id) == some (routeId 8) && (← m.currentTrack).map (·.id) == some track1km.id) = true := by
  decide +kernel

/-! ## TestNavigator_SelectAt, WithoutRoutes (navigator/navigator_test.go:1046-1073) -/

def tens : Navigator F64 := added plain (routes 10)

example : tens.routeAt 10 = none ∧ tens.routeAt (-1) = none := by decide +kernel
example : (tens.routeAt 1).bind (·.trackAt 11) = none ∧ (tens.routeAt 1).bind (·.trackAt (-1)) = none := by decide +kernel
example : ((tens.routeAt 1).bind (·.trackAt 1)).map (fun t => ((t.segmentAt (-1)).isEmpty, (t.segmentAt 111).isEmpty)) =
    some (true, true) := by decide +kernel
example : (tens.routeAt 0).isSome = true ∧ (tens.routeAt 9).isSome = true := by decide +kernel
example : ((tens.routeAt 0).bind (·.trackAt 1)).isSome = true ∧ ((tens.routeAt 2).bind (·.trackAt 1)).isSome = true := by
  decide +kernel
example : ((tens.routeAt 1).bind (·.trackAt 1)).map (fun t => ((t.segmentAt 0).isEmpty, (t.segmentAt 1).isEmpty)) =
    some (false, false) := by decide +kernel

example : (passes do
    return (← plain.currentRoute).isNone && (← plain.currentTrack).isNone && (← plain.currentSegment).isEmpty &&
      zero (← plain.routeDistance) && zero (← plain.trackDistance) && zero (← plain.segmentDistance)) = true := by decide +kernel

/-! ## TestNavigator_Snapshot, FromSnapshot, NextElevation (navigator/navigator_test.go:1075-1162) -/

def before : Navigator F64 :=
  ((added (added plain [some (route 0 [track300m])]) [some (route 1 [track300m])]).destinationTo (lit 500)).1

example : (let s := before.snapshot
    s.routes.length == 2 && (s.routeIndex, s.trackIndex, s.segmentIndex) == place before &&
    [s.currentDistance, s.currentRouteDistance, s.currentTrackDistance, s.currentSegmentDistance] == counters before &&
    s.offlineIndex == before.offlineIndex && s.elevation.isSome && s.distance == before.distance &&
    s.skipOffline == before.skipOffline) = true := by decide +kernel
example : (passes do
    let n ← Navigator.fromSnapshot (some before.snapshot)
    return n.routes.length == 2 && place n == place before && counters n == counters before && n.offlineIndex == before.offlineIndex &&
      n.point == before.point && n.offline == before.offline && n.distance == before.distance && n.skipOffline == before.skipOffline) =
    true := by decide +kernel

/-- The elevations of the test, checked to be from 1 to 10. -/
def elevations : Nat → Navigator F64 → Go Bool
  | 0, _ => .ok true
  | k + 1, n => do
    let m ← n.nextElevation (lit ((9 - k : Nat) : ℚ) *. lit (1 / 10))
    return lit 1 <=. m.elevation.valY && m.elevation.valY <=. lit 10 && (← elevations k m)

example : passes (elevations 10 (nav [.elevation (lit 1) (lit 10) 8 0])) = true := by decide +kernel

end NavigatorTest
end Conformance
end GpsGen
