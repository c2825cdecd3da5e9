import Verif.Model.DevHistory
/-!
# Reading a device

The methods of device.go that hold the read lock only, and `Snapshot`, which reads most fields without any
lock. Calls to the device go on meanwhile, so that a reader may see different devices at different moments.

Simplifications: iteration (`EachSensor`, `EachRoute`) stands for the list it visits; pointers stand for the values
behind them at the moment of the call; a nested `Snapshot` (navigator, speed, battery) is one reading.
-/

namespace GpsGen

variable {F : Type}

/-- Methods that take the read lock. -/
inductive Getter where
  | id | model | userID | color | descr
  | sensors | sensorByID (id : String) | numSensors | sensorAt (i : Int)
  | numRoutes | routes | routeAt (i : Int)
  | status | state
  | currentBearing
  | distance | currentDistance | routeDistance | currentRouteDistance
  | trackDistance | currentTrackDistance | segmentDistance | currentSegmentDistance
  | isFinish
  | currentRoute | currentTrack | currentSegment
  | routeIndex | trackIndex | segmentIndex
  | isOffline | location | duration | version
  deriving DecidableEq

/-- What they return. -/
inductive Reading (F : Type) where
  | str (s : String)
  | int (i : Int)
  | num (x : F)
  | bool (b : Bool)
  | point (p : LatLon F)
  | sensor (s : Option (Sensor F))
  | sensors (l : List (Sensor F))
  | route (r : Option (Route F))
  | routes (l : List (Route F))
  | track (t : Option (Track F))
  | segment (s : Segment F)
  | version (v : Int × Int × Int)
  | state (s : DevState F)
  deriving DecidableEq

/-- device.go:139-180 (`ID`, `Model`, `UserID`, `Color`, `Descr`), 216-235 (`Sensors`, `SensorByID`), 272-315
(`NumRoutes`, `NumSensors`, `SensorAt`, `EachSensor`, `EachRoute`), 331-335 (`Routes`), 362-373 (`Status`, `State`),
386-502 (`CurrentBearing` to `IsOffline`), 517-521 (`Location`), 607-627 (`RouteAt`, `Duration`, `Version`); the
navigator's part is in navigator/navigator.go:184-248 and 251-317. `IsFinish` clears the mark of a completed lap. -/
def Device.read [GoFloat F] (d : Device F) : Getter → Go (Device F × Reading F)
  | .id => .ok (d, .str d.state.id)
  | .model => .ok (d, .str d.state.model)
  | .userID => .ok (d, .str d.state.userId)
  | .color => .ok (d, .str d.state.color)
  | .descr => .ok (d, .str d.state.description)
  | .sensors => .ok (d, .sensors d.sensors)
  | .sensorByID id => .ok (d, .sensor (d.sensorByID id))
  | .numSensors => .ok (d, .int d.numSensors)
  | .sensorAt i => .ok (d, .sensor (d.sensorAt i))
  | .numRoutes => .ok (d, .int d.navigator.numRoutes)
  | .routes => .ok (d, .routes d.navigator.routes)
  | .routeAt i => .ok (d, .route (d.navigator.routeAt i))
  | .status => .ok (d, .int d.status)
  | .state => .ok (d, .state d.state)
  | .currentBearing => do return (d, .num (← d.navigator.currentBearing))
  | .distance => .ok (d, .num d.navigator.distance)
  | .currentDistance => .ok (d, .num d.navigator.currentDistance)
  | .routeDistance => do return (d, .num (← d.navigator.routeDistance))
  | .currentRouteDistance => .ok (d, .num d.navigator.currentRouteDistance)
  | .trackDistance => do return (d, .num (← d.navigator.trackDistance))
  | .currentTrackDistance => .ok (d, .num d.navigator.currentTrackDistance)
  | .segmentDistance => do return (d, .num (← d.navigator.segmentDistance))
  | .currentSegmentDistance => .ok (d, .num d.navigator.currentSegmentDistance)
  | .isFinish => .ok ({ d with navigator := d.navigator.isFinish.1 }, .bool d.navigator.isFinish.2)
  | .currentRoute => do return (d, .route (← d.navigator.currentRoute))
  | .currentTrack => do return (d, .track (← d.navigator.currentTrack))
  | .currentSegment => do return (d, .segment (← d.navigator.currentSegment))
  | .routeIndex => .ok (d, .int d.navigator.routeIndex)
  | .trackIndex => .ok (d, .int d.navigator.trackIndex)
  | .segmentIndex => .ok (d, .int d.navigator.segmentIndex)
  | .isOffline => .ok (d, .bool d.navigator.isOffline)
  | .location => .ok (d, .point d.navigator.point)
  | .duration => .ok (d, .num d.state.duration)
  | .version => .ok (d, .version d.navigator.sum)

/-- A sequence of reads by one or several readers, with the values they get. -/
def Device.reads [GoFloat F] (d : Device F) : List Getter → Go (Device F × List (Reading F))
  | [] => .ok (d, [])
  | g :: gs => do
    let (d, v) ← d.read g
    let (d, vs) ← d.reads gs
    return (d, v :: vs)

/-! ## `IsFinish` by several readers at once -/

/-- Where a reader is in `IsFinish` (device.go:449-453, navigator/navigator.go:239-248): before the comparison, between
the comparison and the assignment, or returned. The read lock admits several readers at once. -/
inductive FinishPc where
  | start | checked | done (b : Bool)
  deriving DecidableEq

/-- The navigator and the readers. -/
structure FinishState (F : Type) where
  nav : Navigator F
  pcs : List FinishPc

/-- One step of reader `i`. -/
def FinishState.step [GoFloat F] (s : FinishState F) (i : Nat) : FinishState F :=
  match s.pcs[i]? with
  | some .start => { s with pcs := s.pcs.set i (if s.nav.isFinish.2 then .checked else .done false) }
  | some .checked => ⟨{ s.nav with currentDistance := lit 0 }, s.pcs.set i (.done true)⟩
  | _ => s

/-- Steps of the given readers, in this order. -/
def FinishState.run [GoFloat F] (s : FinishState F) (sched : List Nat) : FinishState F := sched.foldl FinishState.step s

/-! ## `Snapshot` while the device is in use -/

/-- The devices seen by the readings of one `Snapshot` (device.go:719-743), in order: the fields of the state, the
navigator, the speed, the battery, the number of sensors, and, under the read lock, the sensors. -/
structure SnapMoments (F : Type) where
  fields : Device F
  navigator : Device F
  speed : Device F
  battery : Device F
  count : Device F
  sensors : Device F

/-- A nil element of a repeated field, as it comes out of the wire format. -/
def SensorMsg.empty [GoFloat F] : SensorMsg F := ⟨"", lit 0, lit 0, lit 0, lit 0, "", none⟩

/-- device.go:734-741: the array is allocated before the lock is taken. Sensors added meanwhile are assigned beyond its
end; for sensors removed meanwhile nil elements remain. -/
def snapSensors [GoFloat F] (count : Nat) (ss : List (Sensor F)) : Go (List (SensorMsg F)) :=
  if count = 0 then .ok []
  else if ss.length ≤ count then .ok (ss.map Sensor.snapshot ++ List.replicate (count - ss.length) SensorMsg.empty)
  else .error .indexOutOfRange

/-- device.go:719-743 `Snapshot`, without assuming that nobody uses the device meanwhile. -/
def SnapMoments.snapshot [GoFloat F] (m : SnapMoments F) : Go (SnapMsg F) := do
  let sensors ← snapSensors m.count.sensors.length m.sensors.sensors
  return {
    id := m.fields.state.id, userId := m.fields.state.userId, tick := m.fields.state.tick
    duration := m.fields.state.duration, model := m.fields.state.model, descr := m.fields.state.description
    status := Status.stopped, color := m.fields.state.color
    navigator := some m.navigator.navigator.snapshot, speed := some m.speed.speed.snapshot
    battery := some m.battery.battery.snapshot, sensors := sensors }

/-- Nobody uses the device meanwhile. -/
def SnapMoments.still (d : Device F) : SnapMoments F := ⟨d, d, d, d, d, d⟩

/-! ## `SensorAt` while the device is in use -/

/-- device.go:286-295 `SensorAt`, without assuming that nobody uses the device meanwhile: the devices seen by the two
readings of the number of sensors, which are not under the lock, and by the access, which is. -/
def Device.sensorAtMoments (empty last locked : Device F) (i : Int) : Go (Option (Sensor F)) :=
  if empty.sensors.length = 0 ∨ i > (last.sensors.length : Int) - 1 ∨ i < 0 then .ok none
  else (goIndex locked.sensors i).map some

end GpsGen
