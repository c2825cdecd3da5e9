import Verif.Model.Curve
/-!
# Package types
-/

namespace GpsGen

variable {F : Type} [GoFloat F]

/-- Error values returned by constructors. -/
inductive Err where
  | minAmplitude | maxAmplitude
  | emptySensorName | invalidUUID
  | minSpeed | maxSpeed | speedMinGreaterMax
  | minBattery | maxBattery
  | modelTooShort | modelTooLong
  | nameTooShort | nameTooLong
  | minOffline | maxOffline | minElevation | maxElevation
  | noRoutes | routeNotFound | trackNotFound | invalidRoutePath | emptyTrackID
  | invalidColor | alreadyRunning | alreadyStopped
  | invalidSnapshot | invalidProps | invalidRoute
  | marshalFailed | invalidTracksInfo | invalidGeometryType
  deriving DecidableEq, Repr

/-- types/validator.go:17-25 `validateAmplitude`. -/
def validateAmplitude (val : Int) : Except Err Unit :=
  if val < 4 then .error .minAmplitude
  else if val > 512 then .error .maxAmplitude
  else .ok ()

/-! ## Random -/

/-- types/random.go:8-11 `Random` (the generator state is replaced by explicit draws). The getters `Min` and `Max`
(types/random.go:14-21) are the fields. -/
structure Random where
  min : Int
  max : Int
  deriving DecidableEq, Repr, Inhabited

/-- types/random.go:29-48 `NewRandom`. -/
def Random.new (min max : Int) : Random :=
  let min := if min < 0 then 0 else min
  let (min, max) := if max < 0 then (0, 1) else (min, max)
  let max := if min = 0 ∧ max = 0 then 1 else max
  ⟨min, max⟩

/-- `fastrand.RNG.Uint32n(maxN)` = `uint32((uint64(x) * uint64(maxN)) >> 32)` for the raw 32-bit
draw `x`. -/
def uint32n (x : UInt32) (maxN : Nat) : Nat := x.toNat * maxN / 2 ^ 32

/-- types/random.go:24-26 `Value`; `uint32(r.max-r.min)` wraps modulo 2^32. -/
def Random.value (r : Random) (x : UInt32) : Int :=
  (uint32n x ((r.max - r.min) % 2 ^ 32).toNat : Int) + r.min

/-! ## Sensor -/

/-- types/sensor.go:18-26 `Sensor`. The getters `ID`, `Name`, `Min`, `Max`, `ValueX` and `ValueY` (types/sensor.go:107-134) are the
fields. -/
structure Sensor (F : Type) where
  id : String
  name : String
  min : F
  max : F
  valX : F
  valY : F
  gen : Curve F
  deriving DecidableEq, Repr, Inhabited

/-- types/validator.go:27-29 `validateSensorMode` with the fallback of types/sensor.go:51-53. The
mode is a `uint16`. -/
def normSensorMode (mode : UInt16) : Int := if mode > 0 then (mode.toNat : Int) else modeDefault

/-- types/sensor.go:44-67 `NewSensor`, which `gpsgen.NewSensor` (device.go:786-788) only calls; `uid` is the generated UUID, `draws` the random numbers of
`curve.New`. -/
def Sensor.new (uid : String) (draws : Nat → F) (name : String) (min max : F) (amplitude : Int)
    (mode : UInt16) : Except Err (Sensor F) := do
  validateAmplitude amplitude
  if goLen name = 0 then .error .emptySensorName else
  .ok ⟨uid, name, min, max, lit 0, lit 0, Curve.new min max amplitude (normSensorMode mode) draws⟩

/-- types/sensor.go:71-104 `RestoreSensor`; `parsed` is the result of `uuid.Parse(id)`
(not modelled) in canonical form. -/
def Sensor.restore (parsed : Option String) (draws : Nat → F) (name : String) (min max : F)
    (amplitude : Int) (mode : UInt16) : Except Err (Sensor F) :=
  match parsed with
  | none => .error .invalidUUID
  | some sid =>
    if goLen name = 0 then .error .emptySensorName else do
    validateAmplitude amplitude
    .ok ⟨sid, name, min, max, lit 0, lit 0, Curve.new min max amplitude (normSensorMode mode) draws⟩

/-- types/sensor.go:142-144 `Shuffle`. -/
def Sensor.shuffle (s : Sensor F) (draws : Nat → F) : Sensor F :=
  { s with gen := s.gen.shuffle draws }

/-- types/sensor.go:150-154 `Next`. -/
def Sensor.next (s : Sensor F) (tick : F) : Go (Sensor F) := do
  let (g, p) ← s.gen.point tick
  return { s with gen := g, valX := p.x, valY := p.y }

/-! ## Speed -/

/-- types/speed.go:26-31 `Speed`. The getters `Min` and `Max` (types/speed.go:70-77) are the fields. -/
structure Speed (F : Type) where
  min : F
  max : F
  val : F
  gen : Curve F
  deriving DecidableEq, Repr, Inhabited

/-- types/speed.go:36-67 `NewSpeed`. -/
def Speed.new (draws : Nat → F) (min max : F) (amplitude : Int) : Except Err (Speed F) :=
  if min <. lit 0 then .error .minSpeed else
  if lit 1000 <. max then .error .maxSpeed else
  let max := if max <=. lit 0 then min else max
  if max <. min then .error .speedMinGreaterMax else
  let (min, max) := if (min ==. lit 0) && (max ==. lit 0) then (lit 1, lit 1) else (min, max)
  do
  validateAmplitude amplitude
  .ok ⟨min, max, lit 0, Curve.new min max amplitude modeDefault draws⟩

/-- types/speed.go:128-130 `isStatic`. -/
def Speed.isStatic (s : Speed F) : Bool := s.min ==. s.max

/-- types/speed.go:80-85 `Value`. -/
def Speed.value (s : Speed F) : F := if s.isStatic then s.min else s.val

/-- types/speed.go:93-95 `Shuffle`. -/
def Speed.shuffle (s : Speed F) (draws : Nat → F) : Speed F :=
  { s with gen := s.gen.shuffle draws }

/-- types/speed.go:101-107 `Next`. -/
def Speed.next (s : Speed F) (tick : F) : Go (Speed F) :=
  if s.isStatic then .ok s else do
  let (g, p) ← s.gen.point tick
  return { s with gen := g, val := p.y }

/-! ## Battery -/

/-- types/battery.go:25-30 `Battery`; `chargeTime` is a `time.Duration` in nanoseconds. The getters `Min`, `Max` and `ChargeTime`
(types/battery.go:60-72) are the fields. -/
structure Battery (F : Type) where
  min : F
  max : F
  val : F
  chargeTime : Int
  deriving DecidableEq, Repr, Inhabited

/-- `time.Duration.Seconds()` of the standard library: whole seconds and nanoseconds are converted on their own. -/
def durSeconds (ns : Int) : F := lit (ns.tdiv 1000000000) +. lit (ns.tmod 1000000000) /. lit 1000000000

/-- types/battery.go:39-57 `NewBattery`. The default charge time is 9 hours. -/
def Battery.new (min max : F) (chargeTime : Int) : Except Err (Battery F) :=
  if min <. lit 0 then .error .minBattery else
  if lit 100 <. max then .error .maxBattery else
  let min := if max <. min then max else min
  let chargeTime := if chargeTime < 0 then 9 * 3600 * 1000000000 else chargeTime
  .ok ⟨min, max, lit 0, chargeTime⟩

/-- types/battery.go:81-87 `Value`. -/
def Battery.value (b : Battery F) : F :=
  let val := lit 100 -. (b.val /. durSeconds b.chargeTime *. lit 100)
  if val <. b.min then b.min else val

/-- types/battery.go:75-78 `IsLow`. -/
def Battery.isLow (b : Battery F) : Bool := b.value ==. b.min

/-- types/battery.go:90-92 `Reset`. -/
def Battery.reset (b : Battery F) : Battery F := { b with val := lit 0 }

/-- types/battery.go:101-103 `Next`. -/
def Battery.next (b : Battery F) (seconds : F) : Battery F := { b with val := b.val +. seconds }

/-! ## Model -/

/-- types/model.go:34-42 `NewModel`. -/
def newModel (value : String) : Except Err String :=
  if goLen value < 3 then .error .modelTooShort
  else if goLen value > 64 then .error .modelTooLong
  else .ok value

end GpsGen
