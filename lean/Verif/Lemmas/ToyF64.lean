import Verif.Lemmas.Toy
import Verif.Model.F64
/-!
# A device in doubles for examples

A crude mathematical library, good enough to give distances that are not zero, and a device on a short route. Used in
`example`s and as witnesses only.
-/

namespace GpsGen
namespace ToyF64
open F64

/-- `sin x = asin x = sqrt x = x`, `cos x = 1`. -/
instance crude : MathLib where
  sin x := x
  cos _ := lit 1
  asin x := x
  sqrt x := x
  atan2 x _ := x
  toInt _ := 0

def pt (lat lon : Rat) : LatLon F64 := ⟨lit lat, lit lon⟩

/-- A two-segment track. -/
def track : Track F64 :=
  match Track.restore "t" "#000000" [pt 0 0, pt 0 1, pt 0 2] with
  | .ok t => t
  | .error _ => ⟨"", [], "", "", none, lit 0, false, 0⟩

/-- A route holding the track. -/
def route : Route F64 := Route.addTrack (Route.restore "r" "#000000" none) (some track)

/-- Random choices for the creation of a device. -/
def rnd (speed : F64) : DeviceRnd F64 where
  uid := "device"
  suffix := "abc"
  color := "#ffffff"
  hex := some
  sensorUid := "elev"
  elevationDraws := fun _ => lit 0
  speedDraws := fun _ => speed

/-- Options of a device without offline periods. -/
def opts (mn mx : F64) : DeviceOptions F64 :=
  { DeviceOptions.default with skipOffline := true, speedMin := mn, speedMax := mx, speedAmplitude := 4 }

/-- Random choices of a tick. -/
def nextRnd : Device.NextRnd F64 := ⟨0, 0, fun _ => lit 0, fun _ => lit 0, fun _ _ => lit 0⟩

/-- The device that results from a history on a new device. -/
def dev (mn mx speed : F64) (ops : List (DevOp F64)) : Option (Device F64) :=
  match Device.new (rnd speed) (some (opts mn mx)) with
  | .error _ => none
  | .ok d => match d.run ops with
    | .ok d => some d
    | .error _ => none

end ToyF64
end GpsGen
