import Verif.Model.Device
/-!
# Device options held by pointer

`NewDevice` takes a pointer to the options, and `applyFor` writes the generated id into them (device_options.go:50-52),
which `Device.new` does not show. Here the options live in a store and a pointer is an address.
-/

namespace GpsGen

variable {F : Type}

/-- device_options.go:50-52: the options after `applyFor` has begun. -/
def DeviceOptions.named (o : DeviceOptions F) (uid : String) : DeviceOptions F :=
  { o with id := if goLen o.id = 0 then uid else o.id }

/-- device.go:45-79 `NewDevice` with device_options.go:49-75 `applyFor`: the result and the options left behind. A nil
pointer stands for options made for this call only (46-48). An error of the model or the colour comes after the id was
written. -/
def newDeviceAt [GoFloat F] (st : Nat → DeviceOptions F) (rnd : DeviceRnd F) :
    Option Nat → Except Err (Device F) × (Nat → DeviceOptions F)
  | none => (Device.new rnd none, st)
  | some p =>
    match Navigator.new rnd.sensorUid rnd.elevationDraws (st p).navOpts with
    | .error e => (.error e, st)
    | .ok n =>
      match Speed.new rnd.speedDraws (st p).speedMin (st p).speedMax (st p).speedAmplitude with
      | .error e => (.error e, st)
      | .ok speed =>
        match Battery.new (st p).batteryMin (st p).batteryMax (st p).chargeTime with
        | .error e => (.error e, st)
        | .ok battery =>
          let o := (st p).named rnd.uid
          let st := fun q => if q = p then o else st q
          match o.applyFor rnd DevState.init with
          | .error e => (.error e, st)
          | .ok state => (.ok {
              status := Status.stopped, navigator := n, speed := speed, battery := battery
              state := state, sensors := [], avgT := lit 0, tick := 0, ns := (0, 0, 0) }, st)

/-- What a client does with options: it makes devices from them and changes their fields. -/
inductive OptOp (F : Type) where
  | create (p : Option Nat) (rnd : DeviceRnd F)
  | edit (p : Nat) (f : DeviceOptions F → DeviceOptions F)

/-- A call of `NewDevice`: the pointer passed, the id drawn, and the id of the device if one was made. -/
structure Made where
  ptr : Option Nat
  uid : String
  id : Option String
  deriving DecidableEq

/-- The calls of `NewDevice` in a history, in order. -/
def makeAll [GoFloat F] : (Nat → DeviceOptions F) → List (OptOp F) → List Made
  | _, [] => []
  | st, .create p rnd :: ops =>
    ⟨p, rnd.uid, (newDeviceAt st rnd p).1.toOption.map (·.state.id)⟩ :: makeAll (newDeviceAt st rnd p).2 ops
  | st, .edit p f :: ops => makeAll (fun q => if q = p then f (st p) else st q) ops

end GpsGen
