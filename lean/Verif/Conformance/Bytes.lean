import Verif.Conformance.Device
import Verif.Model.JsonText
import Verif.Model.PacketBytes
import Verif.Model.Pointers
import Verif.Model.Random
import Verif.Lemmas.JsonF64
/-!
# The tests of the binary formats and of random routes, replayed

io_test.go without TestGeoJSON and TestGPX, encoding_test.go, rotue_test.go and TestDevice_Serialize (device_test.go:1156-1177). Random
routes take the draws of the other files.
-/

namespace GpsGen
namespace Conformance
namespace BytesTest
open F64 NavigatorTest DeviceTest

/-! ## io_test.go -/

/-- TestEncodeDecodeTracker, the nil device -/
example : (encodeTrackerPtr (F := F64) (fun _ => []) .nil).map (·.2) = .ok [] := by decide +kernel

/-- TestEncodeDecodeTracker -/
example : (passes do
    let d ← ((device DeviceOptions.dog).addRoute testRoutes).1.update
    let (d, data) ← encodeTrackerText d
    return data != [] && (← decodeTrackerText data) == some d) = true := by decide +kernel

/-- TestDevice_Serialize -/
example : (passes do
    let d := ((dev.addSensor [some s1]).addSensor [some s2]).addRoute testRoutes
    let (d, ok) ← d.1.next (lit 3) nextRnd
    let (d, data) ← encodeTrackerText d
    return ok && (← decodeTrackerText data) == some d && (← decodeTrackerText (F := F64) []) == none) = true := by decide +kernel

/-- TestEncodeDecodeRoutes -/
example : failed (encodeRoutesText ([] : List (Route F64))) = true := by decide +kernel
example : (passes do
    match encodeRoutesText [route 0 [track1km]] with
    | .error _ => return false
    | .ok data => return data != [] && (← decodeRoutesText data) == some [route 0 [track1km]]) = true := by decide +kernel

/-! ## encoding_test.go -/

/-- The place of a point in UTM plays no part here. -/
local instance : UtmLib F64 := ⟨fun lat lon => (lat, lon, ⟨37, 'U', true, lit 39, 32637⟩)⟩

/-- TestPacketFromBytes -/
example : (let d := ((device DeviceOptions.dog).addRoute [some (route 0 [track1km])]).1
    let sent := d.state.pb d.navigator.routes
    (packetFromBytes (F := F64) (packetBytes 0 [sent])).map (·.devices.map (·.navigator)) == some [sent.navigator]) = true := by decide +kernel

/-! ## rotue_test.go -/

def trackRnd (_ : Nat) : TrackRnd F64 := ⟨mid, mid, "id", "#000000", fun _ => 0⟩

/-- The numbers of segments of the tracks of a route. -/
def shape (r : Go (Route F64)) : Option (List Int) := match r with
  | .ok r => some (r.tracks.map (·.numSegments))
  | .error _ => none

/-- TestRandomRoute -/
example : shape (randomRoute (dec 10166733912613665 (-14)) (dec 3567896024639478 (-14)) (-1) 0 "id" "#000000" (fun _ => 0) trackRnd) =
    some [16] := by decide +kernel
example : (shape (randomRoute (dec 10166733912613665 (-14)) (dec 3567896024639478 (-14)) 3 601 "id" "#000000" (fun _ => 0)
    trackRnd)).map List.length = some 3 := by decide +kernel

/-- TestRandomRouteForNewYork, TestRandomRouteForMoscow, TestRandomRouteForParis -/
example : (shape (randomRouteForNewYork "id" "#000000" (fun _ => 0) trackRnd)).map List.length = some 3 := by decide +kernel
example : (shape (randomRouteForMoscow "id" "#000000" (fun _ => 0) trackRnd)).map List.length = some 3 := by decide +kernel
example : (shape (randomRouteForParis "id" "#000000" (fun _ => 0) trackRnd)).map List.length = some 3 := by decide +kernel

end BytesTest
end Conformance
end GpsGen
