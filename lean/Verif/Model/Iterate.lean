import Verif.Model.DevHistory
/-!
# Iteration with callbacks

`EachTrack`, `EachRoute`, `EachSensor` and the device's `EachRoute`. The callback may do anything, in particular to
the collection it is called for: it works on a state of which the collection is a part. The loops read the length and
the element again in every round. `EachRoute` and `EachSensor` of a device hold its read lock; C65 says what happens if
the callback calls the device.

Simplification: a loop that goes on for more rounds than a given number has no result.
-/

namespace GpsGen

variable {F : Type}

/-- A call of the callback: index, element and answer. -/
structure EachCall (α : Type) where
  index : Nat
  item : α
  more : Bool
  deriving DecidableEq

/-- `for i := …; i < len(items); i++ { if ok := fn(i, items[i]); !ok { break } }`, at most `fuel` rounds: the final
state and the calls (navigator/route.go:158-162, navigator/navigator.go:141-145, device.go:302-306). -/
def eachFrom {S α : Type} (items : S → List α) (fn : Nat → α → S → S × Bool) :
    Nat → Nat → S → Option (S × List (EachCall α))
  | 0, _, _ => none
  | fuel + 1, i, s =>
    match (items s)[i]? with
    | none => some (s, [])
    | some x =>
      let r := fn i x s
      if r.2 then (eachFrom items fn fuel (i + 1) r.1).map (fun q => (q.1, ⟨i, x, true⟩ :: q.2))
      else some (r.1, [⟨i, x, false⟩])

/-- navigator/route.go:157-163 `EachTrack`; `S` holds whatever the callback uses, `route` finds the route in it. -/
def Route.eachTrack {S : Type} (route : S → Route F) (fn : Nat → Track F → S → S × Bool) (fuel : Nat) (s : S) :
    Option (S × List (EachCall (Track F))) := eachFrom (fun s => (route s).tracks) fn fuel 0 s

/-- navigator/navigator.go:137-146 `EachRoute`. -/
def Navigator.eachRoute {S : Type} (nav : S → Navigator F) (fn : Nat → Route F → S → S × Bool) (fuel : Nat) (s : S) :
    Option (S × List (EachCall (Route F))) :=
  if (nav s).routes.length = 0 then some (s, []) else eachFrom (fun s => (nav s).routes) fn fuel 0 s

/-- device.go:298-307 `EachSensor`. -/
def Device.eachSensor {S : Type} (dev : S → Device F) (fn : Nat → Sensor F → S → S × Bool) (fuel : Nat) (s : S) :
    Option (S × List (EachCall (Sensor F))) := eachFrom (fun s => (dev s).sensors) fn fuel 0 s

/-- device.go:310-315 `EachRoute`. -/
def Device.eachRoute {S : Type} (dev : S → Device F) (fn : Nat → Route F → S → S × Bool) (fuel : Nat) (s : S) :
    Option (S × List (EachCall (Route F))) := Navigator.eachRoute (fun s => (dev s).navigator) fn fuel s

end GpsGen
