import Verif.Model.Snapshot
import Verif.Model.NavHistory
/-!
# Devices

device.go, device_options.go, navigator/location.go and the tracker part of io.go.

Simplifications: the `Units` message (constant strings) and the UTM coordinates (external library)
of the published state are left out. Mutual exclusion is not modelled here: each method is one step;
a `Next` that fails to take the lock is the separate operation `Device.skipTick`.
-/

namespace GpsGen

variable {F : Type}

/-! ## Published state (proto/gpsgen.proto) -/

/-- `Device.Location.DMS`, proto/gpsgen.proto:71-76. -/
structure DMS (F : Type) where
  degrees : Int
  minutes : Int
  seconds : F
  direction : String
  deriving DecidableEq, Repr, Inhabited

/-- One half of navigator/location.go:10-44 `setDMS`; `pos` and `neg` are the direction letters. -/
def toDMS [GoMath F] (pos neg : String) (v : F) : DMS F :=
  let dir := if lit 0 <. v then pos else neg
  let v := GoFloat.abs v
  let d := GoMath.toInt v
  let m := GoMath.toInt ((v -. lit d) *. lit 60)
  let s := (v -. lit d -. lit m /. lit 60) *. lit 3600
  ⟨d, m, s, dir⟩

/-- `Device.Routes.Route.Track`, proto/gpsgen.proto:20-27; `props = none` is an empty field. -/
structure TrackPub (F : Type) where
  trackId : String
  distance : F
  numSegments : Int
  color : String
  props : Option (JObj F)
  propsCount : Int
  deriving DecidableEq, Repr

/-- `Device.Routes.Route`, proto/gpsgen.proto:18-35. -/
structure RoutePub (F : Type) where
  routeId : String
  tracks : List (TrackPub F)
  distance : F
  color : String
  props : Option (JObj F)
  propsCount : Int
  deriving DecidableEq, Repr

/-- `Device.Sensor`, proto/gpsgen.proto:40-45. -/
structure SensorPub (F : Type) where
  id : String
  name : String
  valX : F
  valY : F
  deriving DecidableEq, Repr

/-- `Device.Distance`, proto/gpsgen.proto:57-66. -/
structure DistPub (F : Type) where
  distance : F
  currentDistance : F
  routeDistance : F
  currentRouteDistance : F
  trackDistance : F
  currentTrackDistance : F
  segmentDistance : F
  currentSegmentDistance : F
  deriving DecidableEq, Repr

/-- `Device.Navigator`, proto/gpsgen.proto:48-54. -/
structure NavPub where
  currentRouteIndex : Int
  currentTrackIndex : Int
  currentSegmentIndex : Int
  currentRouteId : String
  currentTrackId : String
  deriving DecidableEq, Repr

/-- `Device.Location`, proto/gpsgen.proto:69-96, without UTM. -/
structure LocPub (F : Type) where
  lat : F
  lon : F
  elevation : F
  bearing : F
  latDms : DMS F
  lonDms : DMS F
  deriving DecidableEq, Repr

/-- `Device`, proto/gpsgen.proto:8-124, without units. -/
structure DevState (F : Type) where
  id : String
  userId : String
  tick : F
  duration : F
  model : String
  speed : F
  dist : DistPub F
  charge : F
  chargeTime : Int
  routes : List (RoutePub F)
  loc : LocPub F
  nav : NavPub
  sensors : List (SensorPub F)
  description : String
  isOffline : Bool
  offlineDuration : Int
  color : String
  timeEstimate : F
  deriving DecidableEq, Repr

/-- device.go:919-937 `initDeviceState`. -/
def DevState.init [GoFloat F] : DevState F where
  id := ""
  userId := ""
  tick := lit 0
  duration := lit 0
  model := ""
  speed := lit 0
  dist := ⟨lit 0, lit 0, lit 0, lit 0, lit 0, lit 0, lit 0, lit 0⟩
  charge := lit 0
  chargeTime := 0
  routes := []
  loc := ⟨lit 0, lit 0, lit 0, lit 0, ⟨0, 0, lit 0, ""⟩, ⟨0, 0, lit 0, ""⟩⟩
  nav := ⟨0, 0, 0, "", ""⟩
  sensors := []
  description := ""
  isOffline := false
  offlineDuration := 0
  color := ""
  timeEstimate := lit 0

/-- navigator/navigator.go:335-367 `Update`; the ids keep their old value when there is no current
route or track. -/
def Navigator.update [GoMath F] (n : Navigator F) (s : DevState F) : Go (DevState F) := do
  let routeDistance ← n.routeDistance
  let trackDistance ← n.trackDistance
  let segmentDistance ← n.segmentDistance
  let route ← n.currentRoute
  let track ← n.currentTrack
  let bearing ← n.currentBearing
  return { s with
    dist := {
      distance := n.distance
      currentDistance := n.currentDistance
      routeDistance := routeDistance
      currentRouteDistance := n.currentRouteDistance
      trackDistance := trackDistance
      currentTrackDistance := n.currentTrackDistance
      segmentDistance := segmentDistance
      currentSegmentDistance := n.currentSegmentDistance }
    nav := {
      currentRouteIndex := n.routeIndex
      currentTrackIndex := n.trackIndex
      currentSegmentIndex := n.segmentIndex
      currentRouteId := match route with | some r => r.id | none => s.nav.currentRouteId
      currentTrackId := match track with | some t => t.id | none => s.nav.currentTrackId }
    loc := {
      lat := n.point.lat
      lon := n.point.lon
      elevation := n.elevation.valY
      bearing := bearing
      latDms := toDMS "N" "S" n.point.lat
      lonDms := toDMS "E" "W" n.point.lon }
    isOffline := decide (n.offlineIndex > 0)
    offlineDuration := n.offlineIndex }

/-! ## Device -/

/-- device.go:22-25 `Status`. -/
def Status.running : Int := 1
@[inherit_doc Status.running] def Status.stopped : Int := 2

/-- device.go:31-42 `Device`. `tick` is a `uint32`. -/
structure Device (F : Type) where
  status : Int
  navigator : Navigator F
  speed : Speed F
  battery : Battery F
  state : DevState F
  sensors : List (Sensor F)
  avgT : F
  tick : UInt32
  ns : Int × Int × Int
  deriving DecidableEq, Repr

/-- device_options.go:15-47 `DeviceOptions`. -/
structure DeviceOptions (F : Type) where
  id : String
  model : String
  color : String
  userID : String
  descr : String
  skipOffline : Bool
  offlineMin : Int
  offlineMax : Int
  elevationMin : F
  elevationMax : F
  elevationAmplitude : Int
  elevationMode : UInt16
  batteryMin : F
  batteryMax : F
  chargeTime : Int
  speedMin : F
  speedMax : F
  speedAmplitude : Int

/-- Random choices and library results used while a device is created: the generated device id, the
random suffix of the default model, the generated colour, the result of `colorful.Hex` followed by
`Hex()` on the given colour, and the choices of the elevation sensor and the speed curve. -/
structure DeviceRnd (F : Type) where
  uid : String
  suffix : String
  color : String
  hex : String → Option String
  sensorUid : String
  elevationDraws : Nat → F
  speedDraws : Nat → F

/-- device_options.go:49-75 `applyFor`. -/
def DeviceOptions.applyFor (o : DeviceOptions F) (rnd : DeviceRnd F) (s : DevState F) :
    Except Err (DevState F) := do
  let s := { s with id := if goLen o.id = 0 then rnd.uid else o.id, description := o.descr }
  let model ← (if goLen o.model > 0 then newModel o.model else .ok ("Device-" ++ rnd.suffix))
  let s := { s with model := model, userId := o.userID }
  if goLen o.color > 0 then
    match rnd.hex o.color with
    | none => .error .invalidColor
    | some c => return { s with color := c }
  else return { s with color := rnd.color }

/-- device_options.go:77-95 `navOpts`. -/
def DeviceOptions.navOpts (o : DeviceOptions F) : List (NavOption F) :=
  [.elevation o.elevationMin o.elevationMax o.elevationAmplitude o.elevationMode,
   .offline o.offlineMin o.offlineMax] ++ if o.skipOffline then [.skipOffline] else []

/-- Nanoseconds per hour. -/
def hourNs : Int := 3600 * 1000000000

/-- device_options.go:98-117 `NewDeviceOptions`. -/
def DeviceOptions.default [GoFloat F] : DeviceOptions F where
  id := ""
  model := ""
  color := ""
  userID := ""
  descr := ""
  skipOffline := false
  offlineMin := 2
  offlineMax := 60
  elevationMin := lit 10
  elevationMax := lit 300
  elevationAmplitude := 8
  elevationMode := 0
  batteryMin := lit 0
  batteryMax := lit 100
  chargeTime := 7 * hourNs
  speedMin := lit 1
  speedMax := lit 2
  speedAmplitude := 16

/-- device_options.go:120-130 `DefaultTrackerOptions`. -/
def DeviceOptions.tracker [GoFloat F] : DeviceOptions F :=
  { DeviceOptions.default with
    descr := "Tracker", elevationMin := lit 0, elevationMax := lit 350, chargeTime := 8 * hourNs
    speedMin := lit 1, speedMax := lit 5, speedAmplitude := 16 }

/-- device_options.go:133-143 `KidsTrackerOptions`. -/
def DeviceOptions.kids [GoFloat F] : DeviceOptions F :=
  { DeviceOptions.default with
    descr := "Kids tracker", elevationMin := lit 0, elevationMax := lit 50, chargeTime := 6 * hourNs
    speedMin := lit 1, speedMax := lit 2, speedAmplitude := 48 }

/-- device_options.go:146-156 `DogTrackerOptions`. -/
def DeviceOptions.dog [GoFloat F] : DeviceOptions F :=
  { DeviceOptions.default with
    descr := "Dog tracker", elevationMin := lit 1, elevationMax := lit 10, chargeTime := 2 * hourNs
    speedMin := lit 1, speedMax := lit 3, speedAmplitude := 64 }

/-- device_options.go:159-169 `BicycleTrackerOptions`. -/
def DeviceOptions.bicycle [GoFloat F] : DeviceOptions F :=
  { DeviceOptions.default with
    descr := "Bicycle tracker", elevationMin := lit 1, elevationMax := lit 125
    chargeTime := 12 * hourNs, speedMin := lit 2, speedMax := lit 8, speedAmplitude := 8 }

/-- device_options.go:172-183 `DroneTrackerOptions`. -/
def DeviceOptions.drone [GoFloat F] : DeviceOptions F :=
  { DeviceOptions.default with
    descr := "Drone tracker", elevationMin := lit 1, elevationMax := lit 2500, skipOffline := true
    chargeTime := 3 * hourNs, speedMin := lit 5, speedMax := lit 150, speedAmplitude := 4 }

/-- device.go:45-79 `NewDevice`; `none` is a nil pointer. -/
def Device.new [GoFloat F] (rnd : DeviceRnd F) (opts : Option (DeviceOptions F)) :
    Except Err (Device F) := do
  let o := opts.getD DeviceOptions.default
  let navigator ← Navigator.new rnd.sensorUid rnd.elevationDraws o.navOpts
  let speed ← Speed.new rnd.speedDraws o.speedMin o.speedMax o.speedAmplitude
  let battery ← Battery.new o.batteryMin o.batteryMax o.chargeTime
  let state ← o.applyFor rnd DevState.init
  return {
    status := Status.stopped, navigator := navigator, speed := speed, battery := battery
    state := state, sensors := [], avgT := lit 0, tick := 0, ns := (0, 0, 0) }

/-- device.go:81-108 `NewTracker` and the other presets: `dev, _ := NewDevice(opts)`, so an error
gives a nil device. -/
def Device.preset [GoFloat F] (rnd : DeviceRnd F) (o : DeviceOptions F) : Option (Device F) :=
  (Device.new rnd (some o)).toOption

namespace Device

/-! ### Published state -/

/-- device.go:844-855 `updateSensors`. -/
def updateSensors (d : Device F) : Device F :=
  { d with state := { d.state with
      sensors := d.sensors.map (fun s => ⟨s.id, s.name, s.valX, s.valY⟩) } }

/-- device.go:823-837 `updateState`. The element-wise branch updates the values of existing entries. -/
def updateState [GoMath F] (d : Device F) : Go (Device F) := do
  let st ← d.navigator.update d.state
  let st := { st with
    charge := d.battery.value
    chargeTime := GoMath.toInt (durSeconds d.battery.chargeTime : F)
    timeEstimate := st.dist.distance /. st.speed }
  let d := { d with state := st }
  return if d.sensors.length ≠ d.state.sensors.length then d.updateSensors
    else { d with state := { st with
      sensors := List.zipWith (fun (p : SensorPub F) (s : Sensor F) =>
        { p with valX := s.valX, valY := s.valY }) st.sensors d.sensors } }

/-- device.go:839-842 `updateOfflineState`. -/
def updateOfflineState (d : Device F) : Device F :=
  { d with state := { d.state with
      offlineDuration := d.navigator.offlineIndex, isOffline := d.navigator.isOffline } }

/-- `if len(x.Props()) > 0 { props, _ = json.Marshal(x.Props()) }` (device.go:861-864, 868-871). -/
def pubProps [GoFloat F] (m : PMap F) : Option (JObj F) := if m.length > 0 then m.marshal else none

/-- device.go:866-880: one published track. -/
def pubTrack [GoFloat F] (t : Track F) : TrackPub F :=
  let p := t.propsOf.2
  ⟨t.id, t.dist, t.numSegments, t.color, pubProps p, p.length⟩

/-- device.go:859-891: one published route. -/
def pubRoute [GoFloat F] (r : Route F) : RoutePub F :=
  let p := r.propsOf.2
  ⟨r.id, r.tracks.map pubTrack, r.dist, r.color, pubProps p, p.length⟩

/-- `Props()` is called on every route and track and creates missing property maps. -/
def touchRoute (r : Route F) : Route F :=
  let r := r.propsOf.1
  { r with tracks := r.tracks.map (fun t => t.propsOf.1) }

/-- device.go:895-898 `calcAvgT`. -/
def calcAvgT [GoFloat F] (d : Device F) : Device F :=
  { d with avgT := d.navigator.distance /. ((d.speed.min +. d.speed.max) /. lit 2) }

/-- device.go:857-893 `updateRoutes`. -/
def updateRoutes [GoFloat F] (d : Device F) : Device F :=
  let d := { d with
    state := { d.state with routes := d.navigator.routes.map pubRoute }
    navigator := { d.navigator with routes := d.navigator.routes.map touchRoute } }
  let d := d.calcAvgT
  { d with ns := d.navigator.sum }

/-- device.go:376-383 `Update`. -/
def update [GoMath F] (d : Device F) : Go (Device F) := do
  let d ← d.updateState
  return d.updateRoutes.updateSensors

/-! ### Sensors -/

/-- device.go:910-917 `hasSensor`. -/
def hasSensor (ss : List (Sensor F)) (id : String) : Bool := ss.any (fun s => s.id == id)

/-- The loop of `AddSensor` (device.go:192-199). -/
def addSensors : List (Sensor F) → Nat → List (Option (Sensor F)) → List (Sensor F) × Nat
  | held, ok, [] => (held, ok)
  | held, ok, none :: rest => addSensors held ok rest
  | held, ok, some s :: rest =>
    if hasSensor held s.id then addSensors held ok rest else addSensors (held ++ [s]) (ok + 1) rest

/-- device.go:184-205 `AddSensor`. -/
def addSensor (d : Device F) (ss : List (Option (Sensor F))) : Device F :=
  if ss.length = 0 then d else
  let (held, ok) := addSensors d.sensors 0 ss
  let d := { d with sensors := held }
  if ok > 0 then d.updateSensors else d

/-- device.go:208-213 `ResetSensors`. -/
def resetSensors (d : Device F) : Device F := ({ d with sensors := [] } : Device F).updateSensors

/-- device.go:226-235 `SensorByID`. -/
def sensorByID (d : Device F) (id : String) : Option (Sensor F) := d.sensors.find? (fun s => s.id == id)

/-- device.go:240-269 `RemoveSensor`. -/
def removeSensor (d : Device F) (id : String) : Device F × Bool :=
  if goLen id = 0 then (d, false) else
  let (ss, ok) := removeFirst (fun s : Sensor F => s.id == id) d.sensors
  let d := { d with sensors := ss }
  if ok then (d.updateSensors, true) else (d, false)

/-- device.go:279-283 `NumSensors`. -/
def numSensors (d : Device F) : Int := d.sensors.length

/-- device.go:286-295 `SensorAt`. -/
def sensorAt (d : Device F) (i : Int) : Option (Sensor F) := goAt? d.sensors i

/-! ### Routes -/

/-- device.go:318-328 `AddRoute`. -/
def addRoute [GoFloat F] (d : Device F) (rs : List (Option (Route F))) : Device F × Option Err :=
  let (n, err) := d.navigator.addRoute rs
  let d := { d with navigator := n }
  match err with
  | none => (d.updateRoutes, none)
  | some e => (d, some e)

/-- device.go:338-347 `RemoveRoute`. -/
def removeRoute [GoFloat F] (d : Device F) (id : String) : Device F × Bool :=
  let (n, ok) := d.navigator.removeRoute id
  let d := { d with navigator := n }
  if ok then (d.updateRoutes, true) else (d, false)

/-- device.go:350-359 `RemoveTrack`. -/
def removeTrack [GoFloat F] (d : Device F) (rid tid : String) : Device F × Bool :=
  let (n, ok) := d.navigator.removeTrack rid tid
  let d := { d with navigator := n }
  if ok then (d.updateRoutes, true) else (d, false)

/-- device.go:506-514 `ResetRoutes`. -/
def resetRoutes [GoFloat F] (d : Device F) : Device F × Bool :=
  let (n, ok) := d.navigator.resetRoutes
  let d := { d with navigator := n }
  if ok then (d.updateRoutes, true) else (d, false)

/-! ### Next -/

/-- device.go:818-821 `nextT`. -/
def nextT [GoMath F] (d : Device F) (tick : F) : F :=
  GoMath.fmin ((d.state.duration +. tick) /. d.avgT) (lit 1)

/-- Random choices of one `Next`: the draw of `ToOffline` after a low battery, the draw of
`NextLocation`, and the curves drawn when a lap ends. -/
structure NextRnd (F : Type) where
  low : UInt32
  loc : UInt32
  speed : Nat → F
  elevation : Nat → F
  sensor : Nat → Nat → F

/-- device.go:669-671: the sensors' `Shuffle` calls; `draws i` are the draws of sensor `i`. -/
def shuffleSensors [GoFloat F] (ss : List (Sensor F)) (draws : Nat → Nat → F) : List (Sensor F) :=
  ss.mapIdx (fun i s => s.shuffle (draws i))

/-- The battery part of `Next` (device.go:651-655). -/
def drain [GoMath F] (d : Device F) (seconds : F) (x : UInt32) : Go (Device F) :=
  let battery := d.battery.next seconds
  if battery.isLow then do
    let n ← d.navigator.toOffline x
    return { d with battery := battery.reset, navigator := n }
  else .ok { d with battery := battery }

/-- The part of `Next` after a failed `NextLocation` (device.go:663-674). -/
def halt [GoMath F] (d : Device F) (rnd : NextRnd F) : Go (Device F) :=
  let d := d.updateOfflineState
  let (n, fin) := d.navigator.isFinish
  let d := { d with navigator := n }
  if fin then
    updateState { d with
      state := { d.state with duration := lit 0 }
      speed := d.speed.shuffle rnd.speed
      navigator := d.navigator.shuffleElevation rnd.elevation
      sensors := shuffleSensors d.sensors rnd.sensor }
  else .ok d

/-- The part of `Next` after a successful `NextLocation` (device.go:677-691). -/
def proceed [GoMath F] (d : Device F) (t : F) : Go (Device F) := do
  let n ← d.navigator.nextElevation t
  let sensors ← d.sensors.mapM (fun s => s.next t)
  let d := { d with navigator := n, sensors := sensors }
  (if d.navigator.sum ≠ d.ns then d.updateRoutes else d).updateState

/-- device.go:633-692 `Next` when the lock is taken. -/
def next [GoMath F] (d : Device F) (tick : F) (rnd : NextRnd F) : Go (Device F × Bool) :=
  if d.navigator.routes.length = 0 then .ok (d, false) else do
  let seconds := lit d.tick.toNat +. tick
  let d := { d with tick := 0, state := { d.state with
    duration := d.state.duration +. seconds, tick := seconds } }
  let d ← d.drain seconds rnd.low
  let t := d.nextT seconds
  let speed ← d.speed.next t
  let d := { d with speed := speed, state := { d.state with speed := speed.value } }
  let (n, ok) ← d.navigator.nextLocation seconds speed.value rnd.loc
  let d := { d with navigator := n }
  let d ← (if ok then d.proceed t else d.halt rnd)
  return (d, ok)

/-- device.go:634-638: `Next` when the lock is not available (`incTick`, device.go:810-812). The counter is a
`uint32` and wraps. -/
def skipTick (d : Device F) : Device F := { d with tick := d.tick + 1 }

/-! ### Attach and detach -/

/-- device.go:790-798 `mount`. -/
def mount (d : Device F) : Except Err (Device F) :=
  if d.status = Status.running then .error .alreadyRunning else .ok { d with status := Status.running }

/-- device.go:800-808 `unmount`. -/
def unmount (d : Device F) : Except Err (Device F) :=
  if d.status = Status.stopped then .error .alreadyStopped else .ok { d with status := Status.stopped }

/-! ### Attributes -/

/-- device.go:112-121 `SetModel`. -/
def setModel (d : Device F) (model : String) : Device F × Option Err :=
  match newModel model with
  | .error e => (d, some e)
  | .ok m => ({ d with state := { d.state with model := m } }, none)

/-- device.go:124-129 `SetUserID`. -/
def setUserID (d : Device F) (id : String) : Device F :=
  { d with state := { d.state with userId := id } }

/-- device.go:132-136 `SetDescription`. -/
def setDescription (d : Device F) (s : String) : Device F :=
  { d with state := { d.state with description := s } }

/-- device.go:160-168 `SetColor`; `parsed` is `color.Hex()` of a valid colour. -/
def setColor (d : Device F) (parsed : Option String) : Device F × Option Err :=
  match parsed with
  | none => (d, some .invalidColor)
  | some c => ({ d with state := { d.state with color := c } }, none)

/-! ### Snapshots -/

/-- device.go:719-743 `Snapshot`. -/
def snapshot [GoFloat F] (d : Device F) : SnapMsg F where
  id := d.state.id
  userId := d.state.userId
  tick := d.state.tick
  duration := d.state.duration
  model := d.state.model
  descr := d.state.description
  status := Status.stopped
  color := d.state.color
  navigator := some d.navigator.snapshot
  speed := some d.speed.snapshot
  battery := some d.battery.snapshot
  sensors := d.sensors.map Sensor.snapshot

/-- device.go:748-779 `FromSnapshot` on a device whose previous sensors are `oldSensors` and whose
pending tick counter is `oldTick`; nothing else of the device is read. `Status(snap.Status)` keeps
the low byte. -/
def fromSnapshotOnto [GoMath F] (oldSensors : List (Sensor F)) (oldTick : UInt32) (m : SnapMsg F) :
    Go (Device F) := do
  let n ← Navigator.fromSnapshot m.navigator
  let speed ← Speed.fromSnapshot m.speed
  let battery ← Battery.fromSnapshot m.battery
  let sensors ← (if m.sensors.length > 0 then m.sensors.mapM (fun s => Sensor.fromSnapshot (some s))
    else .ok oldSensors)
  let state : DevState F := { DevState.init with
    id := m.id, userId := m.userId, tick := m.tick, model := m.model, color := m.color
    description := m.descr, duration := m.duration, speed := speed.value }
  let d : Device F := {
    status := m.status % 256, navigator := n, speed := speed, battery := battery, state := state
    sensors := sensors, avgT := lit 0, tick := oldTick, ns := (0, 0, 0) }
  let d ← d.updateSensors.updateState
  return d.updateRoutes

/-- `FromSnapshot` as a method of an existing device. -/
def fromSnapshot [GoMath F] (d : Device F) (m : SnapMsg F) : Go (Device F) :=
  fromSnapshotOnto d.sensors d.tick m

end Device

/-- io.go:15-21 `EncodeTracker`, up to the wire format. It also updates the device. -/
def encodeTracker [GoMath F] (d : Device F) : Go (Device F × SnapMsg F) := do
  let d ← d.update
  return (d, d.snapshot)

/-- io.go:24-34 `DecodeTracker`, from the parsed message: `new(Device)`, `FromSnapshot`, `Update`. -/
def decodeTracker [GoMath F] (m : SnapMsg F) : Go (Device F) := do
  let d ← Device.fromSnapshotOnto [] 0 m
  d.update

end GpsGen
