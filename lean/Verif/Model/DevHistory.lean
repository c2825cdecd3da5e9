import Verif.Model.Device
/-!
# Client histories of a device

Public operations on a device, including mutation of routes and sensors through retained pointers
and restoring a snapshot in place.
-/

namespace GpsGen

variable {F : Type}

/-- Navigator operations that device.go forwards without touching the published state
(device.go:517-612). -/
inductive DevMove (F : Type) where
  | destinationTo (meters : F)
  | moveToSegment (r t s : Int)
  | moveToTrack (r t : Int)
  | moveToRoute (r : Int)
  | moveToTrackByID (rid tid : String)
  | moveToRouteByID (rid : String)
  | toPrevRoute
  | toNextRoute
  | toOffline (x : UInt32)
  | resetNavigator
  | isFinish

/-- The navigator operation a forwarded call performs. -/
def DevMove.navOp : DevMove F → NavOp F
  | .destinationTo m => .destinationTo m
  | .moveToSegment r t s => .moveToSegment r t s
  | .moveToTrack r t => .moveToTrack r t
  | .moveToRoute r => .moveToRoute r
  | .moveToTrackByID rid tid => .moveToTrackByID rid tid
  | .moveToRouteByID rid => .moveToRouteByID rid
  | .toPrevRoute => .toPrevRoute
  | .toNextRoute => .toNextRoute
  | .toOffline x => .toOffline x
  | .resetNavigator => .reset
  | .isFinish => .isFinish

/-- Operations on a device. -/
inductive DevOp (F : Type) where
  | addRoute (rs : List (Option (Route F)))
  | removeRoute (id : String)
  | removeTrack (rid tid : String)
  | resetRoutes
  | move (m : DevMove F)
  | onRoute (i : Nat) (op : RouteOp F)
  | addSensor (ss : List (Option (Sensor F)))
  | removeSensor (id : String)
  | resetSensors
  | sensorNext (i : Nat) (t : F)
  | sensorShuffle (i : Nat) (draws : Nat → F)
  | next (tick : F) (rnd : Device.NextRnd F)
  | skipTick
  | update
  | setModel (s : String)
  | setUserID (s : String)
  | setDescription (s : String)
  | setColor (parsed : Option String)
  | fromSnapshot (m : SnapMsg F)

/-- `sensor.Next(t)` on the `i`-th held sensor. -/
def Device.onSensorNext [GoFloat F] (d : Device F) (i : Nat) (t : F) : Go (Device F) :=
  match d.sensors[i]? with
  | none => .ok d
  | some s => do
    let s ← s.next t
    return { d with sensors := d.sensors.set i s }

/-- Execute one operation, forgetting its result. -/
def Device.step [GoMath F] (d : Device F) : DevOp F → Go (Device F)
  | .addRoute rs => .ok (d.addRoute rs).1
  | .removeRoute id => .ok (d.removeRoute id).1
  | .removeTrack rid tid => .ok (d.removeTrack rid tid).1
  | .resetRoutes => .ok d.resetRoutes.1
  | .move m => (d.navigator.step m.navOp).map (fun n => { d with navigator := n })
  | .onRoute i op => (d.navigator.step (.onRoute i op)).map (fun n => { d with navigator := n })
  | .addSensor ss => .ok (d.addSensor ss)
  | .removeSensor id => .ok (d.removeSensor id).1
  | .resetSensors => .ok d.resetSensors
  | .sensorNext i t => d.onSensorNext i t
  | .sensorShuffle i draws => .ok { d with sensors := d.sensors.modify i (fun s => s.shuffle draws) }
  | .next tick rnd => (d.next tick rnd).map (·.1)
  | .skipTick => .ok d.skipTick
  | .update => d.update
  | .setModel s => .ok (d.setModel s).1
  | .setUserID s => .ok (d.setUserID s)
  | .setDescription s => .ok (d.setDescription s)
  | .setColor c => .ok (d.setColor c).1
  | .fromSnapshot m => d.fromSnapshot m

/-- Execute a history. -/
def Device.run [GoMath F] (d : Device F) : List (DevOp F) → Go (Device F)
  | [] => .ok d
  | op :: ops => d.step op >>= fun d' => d'.run ops

end GpsGen
