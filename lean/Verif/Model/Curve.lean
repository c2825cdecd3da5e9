import Verif.Model.Num
/-!
# Package curve
-/

namespace GpsGen

/-- curve/curve.go:20-22 `Point`. -/
structure Pt (F : Type) where
  x : F
  y : F
  deriving DecidableEq, Repr, Inhabited

/-- curve/curve.go:24-27 `point`: `cp` is the weighted control point, `vp` scratch storage. -/
structure CP (F : Type) where
  vp : Pt F
  cp : Pt F
  deriving DecidableEq, Repr, Inhabited

/-- curve/curve.go:30-34 `Curve`. The getters `Min`, `Max` and `NumControlPoints` (curve/curve.go:37-49) are the fields and the
length of `points`. -/
structure Curve (F : Type) where
  points : List (CP F)
  mode : Int
  min : F
  max : F
  deriving DecidableEq, Repr, Inhabited

/-- `m & (1 << k) != 0` on a Go `int`. -/
def hasBit (m : Int) (k : Nat) : Bool := (m / 2 ^ k) % 2 == 1

/-- curve/curve.go:12-14: `ModeDefault`, `ModeMinStart`, `ModeMinEnd` are the bits 15, 14, 13. -/
def modeDefault : Int := 32768
@[inherit_doc modeDefault] def modeMinStart : Int := 16384
@[inherit_doc modeDefault] def modeMinEnd : Int := 8192

variable {F : Type} [GoFloat F]

/-- curve/curve.go:189-191 `randomFloat`; `r` is the value of `rnd.Float64()`. -/
def randomFloat (min max r : F) : F := min +. r *. (max -. min)

/-- The first loop of `New` (curve/curve.go:157-167) and `Shuffle` (53-63): control point `i` of
`n`. `draws i` is the random number drawn for point `i`. -/
def initPoint (min max : F) (mode : Int) (n : Nat) (draws : Nat → F) (i : Nat) : CP F :=
  let y := if hasBit mode 14 && i == 0 then min
    else if hasBit mode 13 && i == n - 1 then min
    else randomFloat min max (draws i)
  ⟨⟨lit i, y⟩, ⟨lit 0, lit 0⟩⟩

/-- The second loop of `New` (curve/curve.go:169-181) and `Shuffle` (65-77): binomial weights. -/
def assignWeights (n : Nat) : Nat → F → List (CP F) → List (CP F)
  | _, _, [] => []
  | i, w, p :: ps =>
    let w' := match i with
      | 0 => lit 1
      | 1 => lit n -. lit 1
      | i => w *. (lit ((n : Int) - (i : Int)) /. lit i)
    { p with cp := ⟨p.vp.x *. w', p.vp.y *. w'⟩ } :: assignWeights n (i + 1) w' ps

/-- Control points built by both loops. -/
def makePoints (min max : F) (mode : Int) (n : Nat) (draws : Nat → F) : List (CP F) :=
  assignWeights n 0 (lit 0) ((List.range n).map (initPoint min max mode n draws))

/-- curve/curve.go:147-187 `New`. -/
def Curve.new (min max : F) (controlPoints : Int) (m : Int) (draws : Nat → F) : Curve F :=
  let n := if controlPoints ≤ 0 then 4 else controlPoints.toNat
  ⟨makePoints min max m n draws, m, min, max⟩

/-- curve/curve.go:52-78 `Shuffle`. -/
def Curve.shuffle (c : Curve F) (draws : Nat → F) : Curve F :=
  { c with points := makePoints c.min c.max c.mode c.points.length draws }

/-- curve/curve.go:83-90: `vp := cp * u` with `u` running through the powers of `t`. -/
def scaleFrom (t : F) : F → List (CP F) → List (CP F)
  | _, [] => []
  | u, p :: ps => { p with vp := ⟨p.cp.x *. u, p.cp.y *. u⟩ } :: scaleFrom t (u *. t) ps

/-- curve/curve.go:92-104: `p += points[i].vp * tt` for `i` running downwards. -/
def sumDown (t1 : F) : F → Pt F → List (CP F) → Pt F
  | _, p, [] => p
  | tt, p, q :: qs => sumDown t1 (tt *. t1) ⟨p.x +. q.vp.x *. tt, p.y +. q.vp.y *. tt⟩ qs

/-- curve/curve.go:81-104 `Point`. It overwrites the `vp` fields, hence also returns the curve.
`c.points[0]` panics on a curve without points. -/
def Curve.point (c : Curve F) (t : F) : Go (Curve F × Pt F) :=
  match c.points with
  | [] => .error .indexOutOfRange
  | p0 :: ps =>
    let pts := { p0 with vp := p0.cp } :: scaleFrom t t ps
    let t1 := lit 1 -. t
    match pts.reverse with
    | [] => .error .indexOutOfRange
    | last :: rest => .ok ({ c with points := pts }, sumDown t1 t1 last.vp rest)

end GpsGen
