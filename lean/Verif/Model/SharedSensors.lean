import Verif.Model.DevHistory
import Verif.Model.Shared
/-!
# Sensors held by pointer

`AddSensor` stores the pointers it is given, so one sensor may be held by several devices. Here sensors and devices live in
a memory and devices hold addresses. The other model files store values; `Theorems/C92.lean` relates the two.

Simplifications: calls come one after the other, although devices that share a sensor lock only themselves; every device has
routes of its own (for shared routes see `Model/Shared.lean`); `Sensor.FromSnapshot`, which overwrites an object including
its id, is applied only to objects that nobody holds yet, as in the code itself.
-/

namespace GpsGen

variable {F : Type}

/-- device.go:32-46 `Device`: the fields, and the addresses of the sensors. The field `sensors` of `body` is not used. -/
structure DevObj (F : Type) where
  body : Device F
  refs : List Nat

/-- Sensors and devices by address. -/
structure SensorMem (F : Type) where
  sensors : Nat → Sensor F
  devs : Nat → DevObj F

/-- The operations that change the list of sensors, and calls of a sensor. -/
def DevOp.onSensors : DevOp F → Bool
  | .addSensor .. | .removeSensor .. | .resetSensors | .sensorNext .. | .sensorShuffle .. | .fromSnapshot .. => true
  | _ => false

/-- A step of a program: a call of a device or a sensor. -/
inductive SensorOp (F : Type) where
  /-- `AddSensor` of the device `a`; `none` is nil. -/
  | addSensor (a : Nat) (ps : List (Option Nat))
  | removeSensor (a : Nat) (id : String)
  | resetSensors (a : Nat)
  /-- `FromSnapshot` of the device `a`; the sensors it makes are put at the addresses `ps`. -/
  | restore (a : Nat) (msg : SnapMsg F) (ps : List Nat)
  /-- Any other method of the device `a`. -/
  | drive (a : Nat) (op : DevOp F)
  /-- `Next` of the sensor `p`. -/
  | sensorNext (p : Nat) (t : F)
  /-- `Shuffle` of the sensor `p`. -/
  | sensorShuffle (p : Nat) (draws : Nat → F)

namespace SensorMem

/-- The device at an address with the sensors at `refs`. -/
def holding (m : SensorMem F) (a : Nat) (refs : List Nat) : Device F :=
  { (m.devs a).body with sensors := refs.map m.sensors }

/-- The device at an address, with its sensors. -/
def view (m : SensorMem F) (a : Nat) : Device F := m.holding a (m.devs a).refs

/-- The loop of `AddSensor` (device.go:192-200) on addresses. -/
def addLoop (m : SensorMem F) : List Nat → Nat → List (Option Nat) → List Nat × Nat
  | held, k, [] => (held, k)
  | held, k, none :: ps => m.addLoop held k ps
  | held, k, some p :: ps =>
    if held.any (fun q => (m.sensors q).id == (m.sensors p).id) then m.addLoop held k ps
    else m.addLoop (held ++ [p]) (k + 1) ps

/-- The device `a` becomes `d` and holds `refs`. -/
def put (m : SensorMem F) (a : Nat) (d : Device F) (refs : List Nat) : SensorMem F :=
  { m with devs := cellSet m.devs a ⟨d, refs⟩ }

/-- The sensors at `refs` become those of the list. -/
def store (f : Nat → Sensor F) : List Nat → List (Sensor F) → Nat → Sensor F
  | p :: ps, s :: ss => store (cellSet f p s) ps ss
  | _, _ => f

/-- One step of a program; the result is forgotten. -/
def step [GoMath F] (m : SensorMem F) : SensorOp F → Go (SensorMem F)
  -- device.go:184-205
  | .addSensor a ps =>
    if ps.length = 0 then .ok m else
    let (held, k) := m.addLoop (m.devs a).refs 0 ps
    .ok (m.put a (if k > 0 then (m.holding a held).updateSensors else m.holding a held) held)
  -- device.go:240-269
  | .removeSensor a id =>
    if goLen id = 0 then .ok m else
    let (refs, ok) := removeFirst (fun p => (m.sensors p).id == id) (m.devs a).refs
    .ok (m.put a (if ok then (m.holding a refs).updateSensors else m.holding a refs) refs)
  -- device.go:208-213
  | .resetSensors a => .ok (m.put a (m.holding a []).updateSensors [])
  -- device.go:748-779; without sensors in the snapshot the device keeps the ones it has
  | .restore a msg ps => do
    let d ← (m.view a).fromSnapshot msg
    return if msg.sensors.length > 0 then { m.put a d ps with sensors := store m.sensors ps d.sensors }
      else m.put a d (m.devs a).refs
  -- the methods that call the sensors but leave the list as it is
  | .drive a op =>
    if op.onSensors then .ok m else do
    let d ← (m.view a).step op
    return { m.put a d (m.devs a).refs with sensors := store m.sensors (m.devs a).refs d.sensors }
  -- types/sensor.go:150-154
  | .sensorNext p t => do
    let s ← (m.sensors p).next t
    return { m with sensors := cellSet m.sensors p s }
  -- types/sensor.go:142-144
  | .sensorShuffle p draws => .ok { m with sensors := cellSet m.sensors p ((m.sensors p).shuffle draws) }

/-- A program. -/
def run [GoMath F] (m : SensorMem F) : List (SensorOp F) → Go (SensorMem F)
  | [] => .ok m
  | op :: ops => m.step op >>= fun m' => m'.run ops

end SensorMem
end GpsGen
