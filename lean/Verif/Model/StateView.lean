import Verif.Model.DevHistory
/-!
# What `State` hands out

`State` returns the pointer to the published state of the device, not a copy. The generator puts it into the packet
(generator.go:238) and the workers read it without the lock of the device (generator.go:291-294); other callers may keep it.

Simplifications: calls are the operations of `DevOp`, each at one moment (they hold the write lock); a sub-message
other than the location is read at one moment.
-/

namespace GpsGen

variable {F : Type}

/-- What a pointer returned by `State` (device.go:369-373) shows at first and after each of the calls. Calls write into
the published state in place (device.go:823-837 and navigator/navigator.go:335-366), only `FromSnapshot` makes a new
one (device.go:752); the pointer then goes on showing the old one. -/
def Device.views [GoMath F] (d : Device F) : List (DevOp F) → Go (List (DevState F))
  | [] => .ok [d.state]
  | .fromSnapshot m :: ops => do
    let e ← d.step (.fromSnapshot m)
    let _ ← e.run ops
    return List.replicate (ops.length + 2) d.state
  | op :: ops => do
    let e ← d.step op
    let vs ← e.views ops
    return d.state :: vs

/-- The views that the readings of one encoding see: one for each field of the state, and one for each coordinate. -/
structure StateMoments (F : Type) where
  id : DevState F
  userId : DevState F
  tick : DevState F
  duration : DevState F
  model : DevState F
  speed : DevState F
  dist : DevState F
  charge : DevState F
  chargeTime : DevState F
  routes : DevState F
  lat : DevState F
  lon : DevState F
  elevation : DevState F
  bearing : DevState F
  latDms : DevState F
  lonDms : DevState F
  nav : DevState F
  sensors : DevState F
  description : DevState F
  isOffline : DevState F
  offlineDuration : DevState F
  color : DevState F
  timeEstimate : DevState F

/-- generator.go:291-294: the message that is encoded. The lock taken there protects the packet, not the devices. -/
def StateMoments.read (m : StateMoments F) : DevState F where
  id := m.id.id
  userId := m.userId.userId
  tick := m.tick.tick
  duration := m.duration.duration
  model := m.model.model
  speed := m.speed.speed
  dist := m.dist.dist
  charge := m.charge.charge
  chargeTime := m.chargeTime.chargeTime
  routes := m.routes.routes
  loc := ⟨m.lat.loc.lat, m.lon.loc.lon, m.elevation.loc.elevation, m.bearing.loc.bearing, m.latDms.loc.latDms,
    m.lonDms.loc.lonDms⟩
  nav := m.nav.nav
  sensors := m.sensors.sensors
  description := m.description.description
  isOffline := m.isOffline.isOffline
  offlineDuration := m.offlineDuration.offlineDuration
  color := m.color.color
  timeEstimate := m.timeEstimate.timeEstimate

/-- The readings, as a list. -/
def StateMoments.all (m : StateMoments F) : List (DevState F) :=
  [m.id, m.userId, m.tick, m.duration, m.model, m.speed, m.dist, m.charge, m.chargeTime, m.routes, m.lat, m.lon,
    m.elevation, m.bearing, m.latDms, m.lonDms, m.nav, m.sensors, m.description, m.isOffline, m.offlineDuration,
    m.color, m.timeEstimate]

/-- All readings at one moment. -/
def StateMoments.still (v : DevState F) : StateMoments F :=
  ⟨v, v, v, v, v, v, v, v, v, v, v, v, v, v, v, v, v, v, v, v, v, v, v⟩

end GpsGen
