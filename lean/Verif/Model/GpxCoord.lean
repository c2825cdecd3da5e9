import Verif.Model.F64
import Verif.Model.JsonText
/-!
# Coordinates in GPX files

gpxgo, which gpx/encoding.go:80 calls to write a document, writes latitudes and longitudes with ten decimals; the sources of
gpxgo are not part of the repository, but gpx/testdata/restore.gpx was written by it (29.533628561797286 of
gpx/encoding_test.go:16 is `29.5336285618` there). Writing rounds the exact value of the double to the nearest multiple of
10⁻¹⁰, ties to even (`strconv.FormatFloat(x, 'f', 10, 64)`); reading gives the nearest double.
-/

namespace GpsGen
open Round64

/-- The number of units of 10⁻¹⁰ that are written. -/
def units (q : ℚ) : ℤ := rne (q * 10 ^ 10)

/-- The last `k` decimal digits of `n`. -/
def lastDigits : ℕ → ℕ → List (Fin 10)
  | 0, _ => []
  | k + 1, n => lastDigits k (n / 10) ++ [Fin.ofNat 10 n]

/-- The decimal number that is written for a finite double. -/
def coordLit (s : Bool) (q : ℚ) : NumLit :=
  ⟨s, (units q).natAbs / 10 ^ 10, lastDigits 10 ((units q).natAbs % 10 ^ 10), none⟩

/-- The text of a coordinate. -/
def coordText : F64 → List Char
  | .fin s q _ => (coordLit s q).text
  | .inf false => "+Inf".toList
  | .inf true => "-Inf".toList
  | .nan => "NaN".toList

/-- A coordinate after it was written and read. -/
def gpxCoord : F64 → F64
  | .fin s q _ => .round s ((units q : ℚ) / 10 ^ 10)
  | x => x

end GpsGen
