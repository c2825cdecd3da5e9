import Verif.Conformance.Navigator
import Verif.Model.DevHistory
import Verif.Model.Generator
import Verif.Model.F64Bits
import Verif.Model.Wire
/-!
# The tests of devices, of the generator's registry and of the binary formats, replayed

device_test.go without TestDevice_EachRoute (a test of the navigator's EachRoute is in `Navigator`) and TestDevice_Serialize (in `Bytes`), the tests of generator_test.go that start no goroutine, and the
negative tests of io_test.go and encoding_test.go. The random route `testRoutes` is replaced by a fixed one. The colour library is not
modelled; its answers are given.
-/

namespace GpsGen
namespace Conformance
namespace DeviceTest
open F64 NavigatorTest

def hex (c : String) : Option String := if c == "#ffffff" || c == "#000000" then some c else none

def rnd : DeviceRnd F64 := ⟨"device-id", "SUFFIXAB", "#123456", hex, "sensor-id", mid, mid⟩

def opts : DeviceOptions F64 := DeviceOptions.default

/-- `NewDevice`, where it does not fail. -/
def device (o : DeviceOptions F64) : Device F64 := orElse ⟨0, default, default, default, DevState.init, [], lit 0, 0, (0, 0, 0)⟩ (Device.new rnd o)

def dev : Device F64 := device opts

def nextRnd : Device.NextRnd F64 := ⟨x, x, mid, mid, fun _ => mid⟩

/-- Stands for `testRoutes()`. -/
def testRoutes : List (Option (Route F64)) := [some (route 0 [track1km])]

/-! ## TestDevice_New (device_test.go:46-201) -/

example : failed (Device.new rnd (some { opts with elevationMin := lit (-1) })) = true := by decide +kernel
example : failed (Device.new rnd (some { opts with elevationMax := lit 50001 })) = true := by decide +kernel
example : failed (Device.new rnd (some { opts with speedMin := lit (-1) })) = true := by decide +kernel
example : failed (Device.new rnd (some { opts with speedMin := lit 1001 })) = true := by decide +kernel
example : failed (Device.new rnd (some { opts with batteryMin := lit (-1) })) = true := by decide +kernel
example : failed (Device.new rnd (some { opts with batteryMax := lit 101 })) = true := by decide +kernel
example : failed (Device.new rnd (some { opts with color := "#f" })) = true := by decide +kernel
example : failed (Device.new rnd (some { opts with model := "A" })) = true := by decide +kernel
example : (Device.new rnd (some { opts with model := "" })).map (fun d => goLen d.state.model != 0) = .ok true := by decide +kernel
example : (Device.new rnd (some { opts with model := "ModelNXt87a" })).map (fun d => goLen d.state.model != 0) = .ok true := by
  decide +kernel
example : (Device.new rnd (some { opts with id := "" })).map (fun d => goLen d.state.id != 0) = .ok true := by decide +kernel
example : failed (Device.new rnd none) = false := by decide +kernel
example : (Device.new rnd (some { opts with id := "id", descr := "descr", model := "model", userID := "userID", color := "#ffffff" })).map
    (fun d => (d.state.id, d.state.description, d.state.model, d.state.userId, d.state.color)) =
    .ok ("id", "descr", "model", "userID", "#ffffff") := by decide +kernel

/-! ## TestDevice_Next (device_test.go:203-302) -/

/-- The lock is taken by another: the tick is counted. -/
example : dev.skipTick.tick = 1 := by decide +kernel
example : (passes do return !(← dev.next (lit 1) nextRnd).2) = true := by decide +kernel

/-- should return false when navigator is offline -/
example : (passes do
    let d := (dev.addRoute [some (route 0 [track300m])]).1
    let d ← d.step (.move (.toOffline x))
    let (d, ok) ← d.next (lit 1) nextRnd
    return !ok && d.navigator.isOffline && d.state.isOffline && d.state.offlineDuration != 0) = true := by decide +kernel

/-- should return false when battery is low -/
example : (passes do
    let d := ((device { opts with chargeTime := 0 }).addRoute [some (route 0 [track300m])]).1
    let (d, ok) ← d.next (lit 1) nextRnd
    return !ok && d.navigator.isOffline && d.state.isOffline && d.state.offlineDuration != 0) = true := by decide +kernel

/-- should return false when route is finish -/
example : (passes do
    let d := (dev.addRoute [some (route 0 [track300m])]).1
    let d ← d.step (.move (.destinationTo (lit 300)))
    let d ← d.update
    let (d, ok) ← d.next (lit 1) nextRnd
    return !ok && d.navigator.isOffline && d.state.isOffline && d.state.offlineDuration != 0 && zero d.state.dist.currentDistance) =
    true := by decide +kernel

/-! ## TestDevice_SetModel, SetDescription, SetColor (device_test.go:304-409) -/

example : (dev.setModel "A").2.isSome = true ∧ (dev.setModel "").2.isSome = true := by decide +kernel
example : (let r := dev.setModel "Model"; r.2.isNone && r.1.state.model == "Model") = true := by decide +kernel
example : (dev.setDescription "Desct").state.description = "Desct" := by decide +kernel
example : (dev.setColor none).2.isSome = true := by decide +kernel
example : (let r := dev.setColor (some "#000000"); r.2.isNone && r.1.state.color == "#000000") = true := by decide +kernel

/-! ## TestDevice_AddSensor, ResetSensors, RemoveSensor, GetSensor (device_test.go:411-643) -/

def sensor (id name : String) : Sensor F64 := orElse default (Sensor.new id mid name (lit 1) (lit 2) 4 0)

def s1 : Sensor F64 := sensor "id-1" "s1"
def s2 : Sensor F64 := sensor "id-2" "s2"

/-- The number of sensors held and published. -/
def sensors (d : Device F64) : Int × Nat := (d.numSensors, d.state.sensors.length)

example : sensors (dev.addSensor []) = (0, 0) := by decide +kernel
example : sensors (dev.addSensor [some s1, some s1]) = (1, 1) := by decide +kernel
example : sensors (dev.addSensor [none, none, none]) = (0, 0) := by decide +kernel
example : sensors (dev.addSensor [some s1, some s2]) = (2, 2) := by decide +kernel

example : sensors ((dev.addSensor [some s1]).addSensor [some s2]) = (2, 2) := by decide +kernel
example : sensors ((dev.addSensor [some s1]).addSensor [some s2]).resetSensors = (0, 0) := by decide +kernel

example : (dev.removeSensor "").2 = false := by decide +kernel
example : (let r := dev.removeSensor "someid"; !r.2 && sensors r.1 == (0, 0)) = true := by decide +kernel
example : (let d := dev.addSensor [some s1]
    let r := d.removeSensor s1.id
    sensors d == (1, 1) && r.2 && sensors r.1 == (0, 0)) = true := by decide +kernel

example : ((dev.addSensor [some s1]).sensorAt 0).map (·.id) = some s1.id := by decide +kernel
example : dev.sensorAt 0 = none ∧ dev.sensorByID "" = none := by decide +kernel
example : ((dev.addSensor [some s1]).sensorByID s1.id).map (·.id) = some s1.id := by decide +kernel

/-! ## TestDevice_AddRoute, RemoveRoute, RemoveTrack (device_test.go:645-860) -/

example : (dev.addRoute []).2.isSome = true := by decide +kernel
example : (let r := dev.addRoute testRoutes; r.2.isNone && r.1.navigator.numRoutes != 0 && r.1.state.routes.length != 0) = true := by
  decide +kernel

/-- should not return error when track is added to route: the published tracks follow, the version changes with the tracks only. -/
example : (passes do
    let d := (dev.addRoute testRoutes).1
    let d ← d.step (.onRoute 0 (.addTrack (some track3km)))
    let (d, ok1) ← d.next (lit 1) nextRnd
    let v := d.navigator.sum
    let (e, ok2) ← d.next (lit 1) nextRnd
    let f ← e.step (.onRoute 0 (.removeTrack track1km.id))
    let (f, ok3) ← f.next (lit 1) nextRnd
    return ok1 && d.navigator.routes.map (·.numTracks) == [2] && d.state.routes.map (·.tracks.length) == [2] &&
      ok2 && e.navigator.sum == v && ok3 && f.navigator.sum != v && f.navigator.routes.map (·.numTracks) == [1] &&
      f.state.routes.map (·.tracks.length) == [1]) = true := by decide +kernel

def restored : Route F64 := ((Route.restore "3caaac65-b01a-4865-8d01-6aba1fbeab69" "#ffffff" none).addTrack (some track1km)).addTrack
  (some track300m)

example : ((dev.addRoute [some restored]).1.removeRoute "someid").2 = false := by decide +kernel
example : (let r := (dev.addRoute [some restored]).1.removeRoute "3caaac65-b01a-4865-8d01-6aba1fbeab69"
    r.2 && r.1.navigator.numRoutes == 0 && r.1.state.routes.length == 0) = true := by decide +kernel

def trackId : String := "8d102c1d-f6de-4afc-9585-33083486ef12"
def held : Device F64 :=
  (dev.addRoute [some ((Route.restore "20994de4-8c4b-4bdf-b39e-b2affd42b0dd" "#ff0000" none).addTrack (some { track300m with id := trackId }))]).1

example : (let r := held.removeTrack "" ""; !r.2 && r.1.navigator.routes.map (·.numTracks) == [1]) = true := by decide +kernel
example : (let r := held.removeTrack "20994de4-8c4b-4bdf-b39e-b2affd42b0dd" "someid"
    !r.2 && r.1.navigator.routes.map (·.numTracks) == [1]) = true := by decide +kernel
example : (let r := held.removeTrack "20994de4-8c4b-4bdf-b39e-b2affd42b0dd" trackId
    r.2 && r.1.navigator.routes.map (·.numTracks) == [0] && r.1.state.routes.map (·.tracks.length) == [0]) = true := by decide +kernel

/-! ## TestDevice_Update (device_test.go:862-937) -/

example : (passes do
    let d := device { opts with userID := "userID", descr := "descr", color := "#ffffff" }
    let d := ((d.addSensor [some s1]).addSensor [some s2]).addRoute testRoutes
    let (d, _) ← d.1.next (lit 3) nextRnd
    let d ← d.update
    let n := d.navigator
    let s := d.state
    return !zero (← n.currentBearing) && !zero n.distance && !(counters n).any zero && !zero (← n.routeDistance) &&
      !zero (← n.trackDistance) && !zero (← n.segmentDistance) && !n.isFinish.2 && !n.isOffline && (← n.currentRoute).isSome &&
      (← n.currentTrack).isSome && !(← n.currentSegment).isEmpty && place n == (0, 0, 0) && goLen s.id != 0 && goLen s.userId != 0 &&
      goLen s.model != 0 && goLen s.description != 0 && !zero s.duration && !zero s.speed && !s.isOffline && s.offlineDuration == 0 &&
      goLen s.color != 0 && !zero s.timeEstimate && !zero s.tick && !zero s.charge && s.chargeTime != 0 && s.sensors.length == 2 &&
      s.sensors.all fun p => goLen p.id != 0 && !zero p.valX && !zero p.valY && goLen p.name != 0) = true := by decide +kernel

/-! ## Moves (device_test.go:954-1081) -/

example : (let r := (dev.addRoute testRoutes).1.resetRoutes.1; r.navigator.numRoutes == 0 && r.state.routes.length == 0) = true := by
  decide +kernel

/-- TestDevice_DestinationTo -/
example : (passes do
    let d := (dev.addRoute testRoutes).1
    let (n, ok) := d.navigator.destinationTo (lit 100)
    let (e, _) ← ({ d with navigator := n } : Device F64).next (lit 1) nextRnd
    return ok && n.currentDistance == lit 100 && lit 100 <=. e.navigator.currentDistance) = true := by decide +kernel

def two : Device F64 := ((dev.addRoute [some (route 0 [track1km, track300m])]).1.addRoute [some (route 1 [track1km, track300m])]).1

def lands (r : Go (Navigator F64 × Bool)) (p : Int × Int × Int) : Bool := passes do let (n, ok) ← r; return ok && place n == p

example : lands (two.navigator.moveToSegment 0 0 1) (0, 0, 1) = true := by decide +kernel
example : lands (two.navigator.moveToTrack 0 1) (0, 1, 0) = true := by decide +kernel
example : lands (two.navigator.moveToRoute 1) (1, 0, 0) = true := by decide +kernel
example : lands (two.navigator.moveToRouteByID (routeId 1)) (1, 0, 0) = true := by decide +kernel
example : lands (two.navigator.moveToTrackByID (routeId 1) track300m.id) (1, 1, 0) = true := by decide +kernel
example : lands (do (← two.navigator.moveToRoute 1).1.toPrevRoute) (0, 0, 0) = true := by decide +kernel
example : lands two.navigator.toNextRoute (1, 0, 0) = true := by decide +kernel
example : (passes do
    let d ← two.run [.move (.moveToRoute 1), .move .resetNavigator]
    return place d.navigator == (0, 0, 0) && d.navigator.numRoutes == 2 && zero d.navigator.currentDistance) = true := by decide +kernel

/-! ## TestDevice_Snapshot, FromSnapshot, Serialize, Duration (device_test.go:1083-1194) -/

/-- Three of the ten steps of the test. -/
def walked : Go (Device F64) :=
  let d := device { opts with batteryMin := lit 1, model := "model", userID := "userId", color := "#ffffff", descr := "some descr" }
  (((d.addSensor [some s1]).addSensor [some s2]).addRoute testRoutes).1.run
    [.next (lit 1) nextRnd, .next (lit 1) nextRnd, .next (lit 1) nextRnd]

example : (passes do
    let s := (← walked).snapshot
    return goLen s.id != 0 && goLen s.userId != 0 && !zero s.tick && goLen s.descr != 0 && s.status != 0 && !zero s.duration &&
      s.sensors.length == 2 && s.sensors.all (fun p => goLen p.id != 0 && goLen p.name != 0 && !zero p.min && !zero p.max && p.gen.isSome) &&
      (s.battery.map fun b => !zero b.val && !zero b.min && !zero b.max && b.chargeTime != 0) == some true &&
      (s.speed.map fun v => v.gen.isSome && !zero v.val && !zero v.min && !zero v.max) == some true &&
      (s.navigator.map (·.routes.length)) == some 1 && s.status == Status.stopped) = true := by decide +kernel

/-- `require.Equal(t, d, d2)` -/
example : (passes do
    let d ← walked
    return (← Device.fromSnapshotOnto [] 0 d.snapshot) == d) = true := by decide +kernel

/-- TestDevice_Duration -/
example : (passes do
    let (d, _) ← ((device DeviceOptions.tracker).addRoute testRoutes).1.next (lit 3) nextRnd
    return d.state.duration == lit 3) = true := by decide +kernel

/-! ## TestNewSensor, TestTrackerNew, TestDevice_SetUserID, TestDevice_Routes (device_test.go:1196-1255) -/

example : failed (Sensor.new "id" mid "" (lit 0) (lit 0) 0 0) = true := by decide +kernel
example : failed (Sensor.new "id" mid "s1" (lit 1) (lit 2) (-1) 0) = true := by decide +kernel
example : [DeviceOptions.tracker, DeviceOptions.kids, DeviceOptions.dog, DeviceOptions.bicycle, DeviceOptions.drone].all
    (fun o => (Device.preset rnd o).isSome) = true := by decide +kernel
example : (let d := device DeviceOptions.dog; d.state.userId == "" && (d.setUserID "user").state.userId == "user") = true := by
  decide +kernel
example : ((device DeviceOptions.bicycle).addRoute testRoutes).1.navigator.routes.map Device.touchRoute =
    testRoutes.filterMap (·.map Device.touchRoute) := by decide +kernel

/-! ## generator_test.go:13-144 -/

def world : World F64 := ⟨fun _ => dev, fun _ => []⟩
def attached : World F64 := (world.attach 0 (some 7)).1

example : (world.attach 0 none).2 = none := by decide +kernel
example : (attached.attach 0 (some 7)).2.isSome = true := by decide +kernel
example : (world.attach 0 (some 7)).2 = none ∧ attached.numDevices 0 = 1 ∧ (attached.devs 7).status = Status.running := by decide +kernel
example : attached.hasTracker 0 "device-id" = true := by decide +kernel
example : (attached.detach 0 "").2 = none ∧ (attached.detach 0 "someid").2 = none := by decide +kernel
example : (let r := attached.detach 0 "device-id"
    r.2.isNone && (r.1.devs 7).status == Status.stopped && r.1.numDevices 0 == 0) = true := by decide +kernel
example : attached.lookup 0 "" = none ∧ attached.lookup 0 "someid" = none ∧ attached.lookup 0 "device-id" = some 7 := by decide +kernel

/-! ## io_test.go: data that is no message -/

/-- The bytes of `somedata`. -/
def somedata : Bytes := [115, 111, 109, 101, 100, 97, 116, 97]

example : (snapFromBytes (F := F64) []).isNone = true ∧ (snapFromBytes (F := F64) somedata).isNone = true := by decide +kernel
example : (sensorsFromBytes (F := F64) []).isNone = true ∧ (sensorsFromBytes (F := F64) somedata).isNone = true := by decide +kernel
example : (routesFromBytes (F := F64) []).isNone = true ∧ (routesFromBytes (F := F64) somedata).isNone = true := by decide +kernel
example : (packetFromBytes (F := F64) []).isNone = true ∧ (packetFromBytes (F := F64) somedata).isNone = true := by decide +kernel

/-- TestEncodeDecodeSensors -/
example : failed (encodeSensorsBytes ([] : List (Sensor F64))) = true := by decide +kernel
example : (passes do
    match encodeSensorsBytes [s1, s2] with
    | .error _ => return false
    | .ok data => return (← decodeSensorsBytes data) == some [s1, s2]) = true := by decide +kernel

end DeviceTest
end Conformance
end GpsGen
