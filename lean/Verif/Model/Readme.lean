import Verif.Model.Live
import Verif.Model.Random
/-!
# The program of the README

`README.md:39-108` as a function of what is drawn at random. The three callbacks are left out: packets are observed in
`Live.out`, and the others have no effect on the generator.
-/

namespace GpsGen
namespace Readme
open Run

variable {F : Type}

/-- What is drawn for one tracker (README.md:81-87): by `NewTracker`, by `uuid.NewString` and by `RandomRoute`. -/
structure Draw (F : Type) where
  device : DeviceRnd F
  user : String
  routeID : String
  color : String
  name : Nat → Nat
  tracks : Nat → TrackRnd F

/-- README.md:60. -/
def lon [GoFloat F] : F := lit (37625616307117696 / 10 ^ 15)

/-- README.md:61. -/
def lat [GoFloat F] : F := lit (5575350460378772 / 10 ^ 14)

/-- README.md:82-85; `none` if `NewTracker` gives nil or `RandomRoute` panics. Level M is 60 (route.go:13). -/
def tracker [GoMath F] (x : Draw F) : Option (Device F) := do
  let d ← Device.preset x.device DeviceOptions.tracker
  let r ← (randomRoute lon lat 3 60 x.routeID x.color x.name x.tracks).toOption
  return ((d.setUserID x.user).addRoute [some r]).1

/-- README.md:81-87: the loop; `p` is the address of the next tracker and 0 the generator. -/
def populate [GoMath F] : List (Draw F) → Nat → World F → Option (World F)
  | [], _, w => some w
  | x :: xs, p, w => do
    let d ← tracker x
    populate xs (p + 1) (({ w with devs := setAt w.devs p d } : World F).attach 0 (some p)).1

/-- README.md:63-65: the generator. -/
def config (cpus : Int) : Cfg := Cfg.new (some { Options.default with interval := 3000000000 }) cpus

/-- The world before the program starts: no generator has devices. -/
def blank (d : Device F) : World F := ⟨fun _ => d, fun _ => []⟩

end Readme
end GpsGen
