import Verif.Model.GoTrig
/-!
# A computable mathematical library

The rest of Go's package `math` that the repository uses, in its portable implementation (`asin.go`, `atan.go`, `atan2.go`, after the
Cephes library), so that model functions can be run on doubles. Used to replay the tests of the repository (`Conformance/*`), in no
proof.
-/

namespace GpsGen
namespace Conformance
open F64 Round64

/-- A decimal constant. -/
def dec (n : Int) (k : Int) : F64 := lit ((n : ℚ) * (10 : ℚ) ^ k)

/-- `math.xatan`, for arguments from 0 to 0.66. -/
def xatan (x : F64) : F64 :=
  let z := x *. x
  let p := (((dec (-8750608600031904122785) (-22) *. z +. dec (-1615753718733365076637) (-20)) *. z +.
    dec (-7500855792314704667340) (-20)) *. z +. dec (-1228866684490136173410) (-19)) *. z +. dec (-6485021904942025371773) (-20)
  let q := ((((z +. dec 2485846490142306297962 (-20)) *. z +. dec 1650270098316988542046 (-19)) *. z +.
    dec 4328810604912902668951 (-19)) *. z +. dec 4853903996359136964868 (-19)) *. z +. dec 1945506571482613964425 (-19)
  let z := z *. p /. q
  x *. z +. x

/-- `math.Pi / 2` and `math.Pi / 4`. -/
def halfPi : F64 := lit (884279719003555 / 562949953421312)
def quarterPi : F64 := lit (884279719003555 / 1125899906842624)

/-- `math.satan`, for positive arguments. -/
def satan (x : F64) : F64 :=
  if x <=. dec 66 (-2) then xatan x
  else if dec 241421356237309504880 (-20) <. x then halfPi -. xatan (lit 1 /. x) +. dec 6123233995736765886130 (-38)
  else quarterPi +. xatan ((x -. lit 1) /. (x +. lit 1)) +. lit (1 / 2) *. dec 6123233995736765886130 (-38)

/-- `math.Atan`. -/
def atan (x : F64) : F64 :=
  if x ==. lit 0 then x else if lit 0 <. x then satan x else neg (satan (neg x))

/-- `math.Sqrt`: the exact root, rounded. The root is taken to 120 binary digits more than the number has, with the last one odd if it
is not exact, so that rounding it again gives the nearest double. -/
def sqrt : F64 → F64
  | .fin s q h =>
    if q = 0 then .fin s q h else if q < 0 then .nan else
    let d := q.den
    let n := q.num.toNat * d * 4 ^ 120
    let r := Nat.sqrt n
    let r := if r * r = n then 2 * r else 2 * r + 1
    round false ((r : ℚ) / (2 * d * 2 ^ 120 : ℕ))
  | .inf false => .inf false
  | _ => .nan

/-- `math.Asin`. -/
def asin (x : F64) : F64 :=
  if x ==. lit 0 then x else
  let sign := x <. lit 0
  let x := if sign then neg x else x
  if lit 1 <. x then .nan else
  let t := sqrt (lit 1 -. x *. x)
  let t := if dec 7 (-1) <. x then halfPi -. satan (t /. x) else satan (x /. t)
  if sign then neg t else t

/-- `math.Atan2` of finite numbers that are not both zero. -/
def atan2 (y x : F64) : F64 :=
  if y ==. lit 0 then (if x <. lit 0 then lit (884279719003555 / 281474976710656) else y)
  else if x ==. lit 0 then (if y <. lit 0 then neg halfPi else halfPi)
  else
  let q := atan (y /. x)
  if x <. lit 0 then
    (if q <=. lit 0 then q +. lit (884279719003555 / 281474976710656) else q -. lit (884279719003555 / 281474976710656))
  else q

/-- Go's library; conversions that do not fit give the least `int`, as on amd64. -/
instance goLib : MathLib where
  sin := GoTrig.sin
  cos := GoTrig.cos
  asin := asin
  sqrt := sqrt
  atan2 := atan2
  toInt _ := -9223372036854775808

end Conformance
end GpsGen
