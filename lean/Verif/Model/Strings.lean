import Verif.Model.GpxCoord
import Verif.Model.Random
import Verif.Model.Route
/-!
# Text forms

The `String` methods of packages types, geo and navigator, with `fmt.Sprintf` for the verbs they use, and
`types.RandomModel`. `fmt` and `strconv` are not part of the repository; `%.kf` is modelled from their documentation: the exact
value of the double is rounded to the nearest number of `k` decimals, ties to even, a set sign bit is written as a minus
sign (also for zero), infinities are written as `+Inf` and `-Inf`. Doubles only, as text needs values.
-/

namespace GpsGen
open Round64

/-- The number of units of `10⁻ᵏ` that `%.kf` writes. -/
def fixedUnits (k : ℕ) (q : ℚ) : ℤ := rne (q * 10 ^ k)

/-- The decimal number that `%.kf` writes for a finite double. -/
def fixedLit (k : ℕ) (s : Bool) (q : ℚ) : NumLit :=
  ⟨s, (fixedUnits k q).natAbs / 10 ^ k, lastDigits k ((fixedUnits k q).natAbs % 10 ^ k), none⟩

/-- `fmt.Sprintf("%.kf", x)`. -/
def fmtFixed (k : ℕ) : F64 → List Char
  | .fin s q _ => (fixedLit k s q).text
  | .inf false => "+Inf".toList
  | .inf true => "-Inf".toList
  | .nan => "NaN".toList

/-- types/speed.go:88-90 `String`. -/
def Speed.string (s : Speed F64) : List Char := "speed: ".toList ++ fmtFixed 2 s.val ++ " m/s".toList

/-- types/battery.go:96-98 `String`. -/
def Battery.string (b : Battery F64) : List Char := "batteryCharge: ".toList ++ fmtFixed 2 b.value ++ "%".toList

/-- types/sensor.go:137-139 `String`. -/
def Sensor.string (s : Sensor F64) : List Char :=
  "Sensor{".toList ++ s.name.toList ++ ": valX=".toList ++ fmtFixed 8 s.valX ++ ", valY=".toList ++ fmtFixed 8 s.valY ++ "}".toList

/-- geo/geo.go:21-24 `String`; `%f` writes six decimals. -/
def LatLon.string (p : LatLon F64) : List Char :=
  "Point{Lon: ".toList ++ fmtFixed 6 p.lon ++ ", Lat: ".toList ++ fmtFixed 6 p.lat ++ "}".toList

/-- types/model.go:27-29 and navigator/types.go:31-33 `String`: models and names are their texts. -/
def textString (m : String) : String := m

/-- types/model.go:53-55 and navigator/types.go:26-28 `IsEmpty`. -/
def textIsEmpty (m : String) : Bool := goLen m = 0

/-- types/model.go:47-49 `RandomModel`; `draws` are the results of `Intn(len(charset))`. -/
def randomModel (draws : Nat → Nat) : Go String := do
  let s ← randomString 6 draws
  return "RT-" ++ s

end GpsGen
