/-!
# Numbers and panics

The Go code computes with `float64`. The model is written over an arbitrary type `F` with
uninterpreted operations (`GoFloat`, `GoMath`). A theorem for every such `F` holds for IEEE
doubles. `Verif.Model.NumReal` instantiates `F` with the real numbers and
`Verif.Model.NumX` with "numbers plus infinities and NaN".
-/

namespace GpsGen

/-- Operations on `float64` used by the code. Comparisons are Boolean because `NaN` makes them
non-total. `lit q` is the floating-point literal (or converted integer) with value `q`.
The only law is `0 == 0`. -/
class GoFloat (F : Type) where
  add : F → F → F
  sub : F → F → F
  mul : F → F → F
  div : F → F → F
  lit : Rat → F
  lt : F → F → Bool
  le : F → F → Bool
  eq : F → F → Bool
  abs : F → F
  zero_eq_zero : eq (lit 0) (lit 0) = true

/-- `float64` together with the functions of Go's `math` package used by the code.
`toInt` is the conversion `int(x)` (truncation towards zero). -/
class GoMath (F : Type) extends GoFloat F where
  sin : F → F
  cos : F → F
  asin : F → F
  sqrt : F → F
  atan2 : F → F → F
  fmod : F → F → F
  fmin : F → F → F
  pi : F
  toInt : F → Int

export GoFloat (lit)

scoped infixl:65 " +. " => GoFloat.add
scoped infixl:65 " -. " => GoFloat.sub
scoped infixl:70 " *. " => GoFloat.mul
scoped infixl:70 " /. " => GoFloat.div
scoped infix:50 " <. " => GoFloat.lt
scoped infix:50 " <=. " => GoFloat.le
scoped infix:50 " ==. " => GoFloat.eq

/-- Run-time panics of Go code, plus `diverge` for a loop that does not stop within the iteration
budget given to its model. -/
inductive Panic where
  | indexOutOfRange
  | nilDeref
  | diverge
  deriving DecidableEq, Repr

/-- A Go computation: it returns a value or panics. -/
abbrev Go (α : Type) := Except Panic α

/-- `l[i]` on a Go slice: panics unless `0 ≤ i < len(l)`. -/
def goIndex {α : Type} (l : List α) (i : Int) : Go α :=
  if 0 ≤ i then
    match l[i.toNat]? with
    | some a => .ok a
    | none => .error .indexOutOfRange
  else .error .indexOutOfRange

/-- Slice access that the Go code guards by an explicit range test and that yields `nil` (or a zero
value) outside. -/
def goAt? {α : Type} (l : List α) (i : Int) : Option α :=
  if 0 ≤ i then l[i.toNat]? else none

/-- `len(s)` of a Go string: the number of bytes. -/
def goLen (s : String) : Nat := s.utf8ByteSize

end GpsGen
