import Verif.Model.DevHistory
/-!
# The generator's clock

How the run loop turns the times it gets from its ticker into ticks (generator.go:212-257). Times are in nanoseconds
on the monotonic clock. `lastTime` is the time at which `Run` starts; the ticker was started by `New` (generator.go:89),
so the first time received may lie before it.
-/

namespace GpsGen

variable {F : Type}

/-- generator.go:225-228: the tick for the time `t` when the last one was `last`. -/
def tickOf [GoFloat F] (last t : Int) : F :=
  let tick : F := GoFloat.abs (durSeconds (last - t))
  if tick <. lit 1 then lit 1 else tick

/-- The ticks of a run that starts at `last` and receives the times `ts`; 256 keeps the time for the next round. -/
def tickList [GoFloat F] : Int → List Int → List F
  | _, [] => []
  | last, t :: ts => tickOf last t :: tickList t ts

/-- generator.go:231-233 for one device that is attached all the time and used by nobody else: `Next` in every round. -/
def driveDevice [GoMath F] : Device F → Int → List (Int × Device.NextRnd F) → Go (Device F)
  | d, _, [] => .ok d
  | d, last, (t, rnd) :: rest => do
    let r ← d.next (tickOf last t) rnd
    driveDevice r.1 t rest

end GpsGen
