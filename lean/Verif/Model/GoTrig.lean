import Verif.Model.F64
/-!
# Sine and cosine of Go's package `math`

Used by geo/distance.go:12-22. The sources of package `math` are not part of /repo; this is its portable implementation
(`sin.go`, after the Cephes library), which amd64 uses, for arguments below `2 ^ 29`. From there on Go reduces the argument
in another way, which is left to the library.
-/

namespace GpsGen
namespace GoTrig
open F64

/-- `math._sin`: coefficients of the sine. -/
def sinC : List ℚ := [158962301576546568060 / 10 ^ 30, -250507477628578072866 / 10 ^ 28, 275573136213857245213 / 10 ^ 26,
  -198412698295895385996 / 10 ^ 24, 833333333332211858878 / 10 ^ 23, -166666666666666307295 / 10 ^ 21]

/-- `math._cos`: coefficients of the cosine. -/
def cosC : List ℚ := [-113585365213876817300 / 10 ^ 31, 208757008419747316778 / 10 ^ 29, -275573141792967388112 / 10 ^ 27,
  248015872888517045348 / 10 ^ 25, -138888888888730564116 / 10 ^ 23, 416666666666665929218 / 10 ^ 22]

/-- `((c0*zz)+c1)*zz+…`. -/
def poly (cs : List ℚ) (zz : F64) : F64 :=
  match cs with
  | [] => lit 0
  | c :: cs => cs.foldl (fun y c => y *. zz +. lit c) (lit c)

/-- Near zero: the sine. -/
def sinPoly (z zz : F64) : F64 := z +. z *. zz *. poly sinC zz

/-- Near zero: the cosine. -/
def cosPoly (zz : F64) : F64 := lit 1 -. lit (1 / 2) *. zz +. zz *. zz *. poly cosC zz

/-- The octant of a number from zero on, rounded up to an even one, and what is left of the number. -/
def reduce (x : F64) : ℕ × F64 :=
  match x *. lit (127323954473516268615107010698 / 10 ^ 29) with
  | .fin _ q _ =>
    let j := ⌊q⌋.toNat
    let j := if j % 2 = 1 then j + 1 else j
    let y : F64 := lit j
    (j % 8, ((x -. y *. lit (785398125648498535156 / 10 ^ 21)) -. y *. lit (377489470793079817668 / 10 ^ 28)) -.
      y *. lit (269515142907905952645 / 10 ^ 35))
  | _ => (0, .nan)

/-- `math.Sin` below `2 ^ 29`. -/
def sin : F64 → F64
  | .fin s q h =>
    if q = 0 then .fin s q h else
    let x := F64.abs (.fin s q h)
    let (j, z) := reduce x
    let s := decide (q < 0) != decide (3 < j)
    let j := if 3 < j then j - 4 else j
    let zz := z *. z
    let y := if j = 1 ∨ j = 2 then cosPoly zz else sinPoly z zz
    if s then neg y else y
  | _ => .nan

/-- `math.Cos` below `2 ^ 29`. -/
def cos : F64 → F64
  | .fin s q h =>
    let x := F64.abs (.fin s q h)
    let (j, z) := reduce x
    let s := decide (3 < j)
    let j := if 3 < j then j - 4 else j
    let s := s != decide (1 < j)
    let zz := z *. z
    let y := if j = 1 ∨ j = 2 then sinPoly z zz else cosPoly zz
    if s then neg y else y
  | _ => .nan

end GoTrig
end GpsGen
