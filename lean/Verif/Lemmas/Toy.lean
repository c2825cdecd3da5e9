import Verif.Model.DevHistory
/-!
# A computable number type for examples

Rational numbers with made-up "trigonometry" (`sin x = x`, `cos x = 1`, ...). The theorems that hold
for every number type hold for this one too, so that concrete cases can be evaluated by the kernel.
No theorem about distances uses it.
-/

namespace GpsGen

deriving instance DecidableEq for Except

/-- Rational numbers. -/
def Toy := Rat
  deriving DecidableEq, Repr

namespace Toy
/-- The rational number behind a toy number. -/
def val (a : Toy) : Rat := a
/-- A toy number. -/
def of (q : Rat) : Toy := q
end Toy

instance : GoMath Toy where
  add a b := Toy.of (a.val + b.val)
  sub a b := Toy.of (a.val - b.val)
  mul a b := Toy.of (a.val * b.val)
  div a b := Toy.of (a.val / b.val)
  lit q := Toy.of q
  lt a b := decide (a.val < b.val)
  le a b := decide (a.val ≤ b.val)
  eq a b := decide (a.val = b.val)
  abs a := Toy.of (if a.val < 0 then -a.val else a.val)
  zero_eq_zero := by decide
  sin a := a
  cos _ := Toy.of 1
  asin a := a
  sqrt a := a
  atan2 y _ := y
  fmod a _ := a
  fmin a b := if a.val < b.val then a else b
  pi := Toy.of 180
  toInt a := a.val.floor

namespace Toy

/-- A point. -/
def pt (lat lon : Rat) : LatLon Toy := ⟨of lat, of lon⟩

/-- A two-segment track restored with a fixed id. -/
def track : Track Toy :=
  match Track.restore "t" "#000000" [pt 0 0, pt 0 1, pt 0 2] with
  | .ok t => t
  | .error _ => ⟨"", [], "", "", none, of 0, false, 0⟩

theorem track_ok : Track.restore "t" "#000000" [pt 0 0, pt 0 1, pt 0 2] = .ok track := by
  decide +kernel

/-- A route holding the track. -/
def route : Route Toy := Route.addTrack (Route.restore "r" "#000000" none) (some track)

/-- Random choices for the creation of a device. -/
def rnd : DeviceRnd Toy where
  uid := "device"
  suffix := "abc"
  color := "#ffffff"
  hex := some
  sensorUid := "elev"
  elevationDraws := fun _ => of 0
  speedDraws := fun _ => of 0

/-- Options of a device with constant speed 2 that never goes offline. -/
def opts : DeviceOptions Toy :=
  { DeviceOptions.default with skipOffline := true, speedMin := of 2, speedMax := of 2 }

/-- Random choices of a tick. -/
def nextRnd : Device.NextRnd Toy := ⟨0, 0, fun _ => of 0, fun _ => of 0, fun _ _ => of 0⟩

/-- The device that results from a history on a new device. -/
def dev (ops : List (DevOp Toy)) : Option (Device Toy) :=
  match Device.new rnd (some opts) with
  | .error _ => none
  | .ok d => match d.run ops with
    | .ok d => some d
    | .error _ => none

end Toy
end GpsGen
