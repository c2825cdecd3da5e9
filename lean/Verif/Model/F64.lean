import Verif.Model.Num
import Verif.Model.Round64

/-!
# IEEE 754 binary64: `F = F64`

Go's `float64` with its rounding, overflow, gradual underflow, infinities, NaN and signed zeros. Every operation is
rounded on its own: Go may fuse a product and a sum on some machines (not on amd64 without `GOAMD64=v3`), which is not
represented. The functions of package `math` that are not exact by definition are left open (`MathLib`).
-/

namespace GpsGen
open Round64

/-- `q` is a finite double, and `s` its sign bit. -/
def Rep (s : Bool) (q : ℚ) : Prop := rndQ q = q ∧ |q| < pow2 1024 ∧ (q ≠ 0 → s = decide (q < 0))

/-- A `float64`: a finite number with its sign bit, an infinity (`inf true` is `-Inf`) or NaN. -/
inductive F64 where
  | fin (s : Bool) (q : ℚ) (h : Rep s q)
  | inf (s : Bool)
  | nan
  deriving DecidableEq

namespace F64

/-- The sign of the result `q`; `z` is the sign of a zero that is exact. -/
def sgn (z : Bool) (q : ℚ) : Bool := if q = 0 then z else decide (q < 0)

theorem rep_round {z : Bool} {q : ℚ} (h : |rndQ q| < pow2 1024) : Rep (sgn z q) (rndQ q) := by
  refine ⟨rndQ_idem q, h, fun h0 => ?_⟩
  unfold sgn
  split_ifs with hq
  · exact absurd (by rw [hq, rndQ_zero]) h0
  · rw [decide_eq_decide]
    rcases lt_or_gt_of_ne hq with hl | hl
    · exact ⟨fun _ => lt_of_le_of_ne (rndQ_nonpos hl.le) h0, fun _ => hl⟩
    · exact ⟨fun h => absurd h (not_lt.mpr hl.le), fun h => absurd h (not_lt.mpr (rndQ_nonneg hl.le))⟩

/-- The double nearest to `q`. -/
def round (z : Bool) (q : ℚ) : F64 :=
  if h : |rndQ q| < pow2 1024 then .fin (sgn z q) (rndQ q) (rep_round h) else .inf (sgn z q)

/-- A zero. -/
def zero (s : Bool) : F64 := round s 0

/-- Negation: the sign bit is flipped. -/
def neg : F64 → F64
  | .fin s q h => .fin (!s) (-q) ⟨by rw [rndQ_neg, h.1], by rw [abs_neg]; exact h.2.1, by
      intro hq
      have h0 : q ≠ 0 := by simpa using hq
      rw [h.2.2 h0]
      rcases lt_or_gt_of_ne h0 with hl | hl
      · simp [hl, hl.le]
      · simp [hl, hl.le]⟩
  | .inf s => .inf (!s)
  | .nan => .nan

/-- Sum. -/
def add : F64 → F64 → F64
  | .nan, _ | _, .nan => .nan
  | .fin s a _, .fin t b _ => round (decide (a = 0) && decide (b = 0) && s && t) (a + b)
  | .inf s, .fin _ _ _ | .fin _ _ _, .inf s => .inf s
  | .inf s, .inf t => if s = t then .inf s else .nan

/-- Product. -/
def mul : F64 → F64 → F64
  | .nan, _ | _, .nan => .nan
  | .fin s a _, .fin t b _ => round (s != t) (a * b)
  | .inf s, .fin t b _ | .fin t b _, .inf s => if b = 0 then .nan else .inf (s != t)
  | .inf s, .inf t => .inf (s != t)

/-- Quotient. -/
def div : F64 → F64 → F64
  | .nan, _ | _, .nan => .nan
  | .fin s a _, .fin t b _ =>
    if b = 0 then (if a = 0 then .nan else .inf (s != t)) else round (s != t) (a / b)
  | .inf s, .fin t _ _ => .inf (s != t)
  | .fin s _ _, .inf t => zero (s != t)
  | .inf _, .inf _ => .nan

/-- `<`; false if an operand is NaN. -/
def lt : F64 → F64 → Bool
  | .nan, _ | _, .nan => false
  | .fin _ a _, .fin _ b _ => decide (a < b)
  | .inf s, .fin _ _ _ => s
  | .fin _ _ _, .inf s => !s
  | .inf s, .inf t => s && !t

/-- `==`; false if an operand is NaN; the zeros are equal. -/
def eq : F64 → F64 → Bool
  | .fin _ a _, .fin _ b _ => decide (a = b)
  | .inf s, .inf t => s == t
  | _, _ => false

/-- `math.Abs`. -/
def abs : F64 → F64
  | .fin true q h => neg (.fin true q h)
  | .inf _ => .inf false
  | x => x

instance : GoFloat F64 where
  add := add
  sub a b := add a (neg b)
  mul := mul
  div := div
  lit q := round false q
  lt := lt
  le a b := lt a b || eq a b
  eq := eq
  abs := abs
  zero_eq_zero := by decide +kernel

/-- `math.Min`: `-Inf` beats NaN, `-0` is below `+0`. -/
def fmin (a b : F64) : F64 :=
  match a, b with
  | .inf true, _ | _, .inf true => .inf true
  | .nan, _ | _, .nan => .nan
  | .fin s p hp, .fin t q hq => if p = 0 ∧ q = 0 then (if s then .fin s p hp else .fin t q hq)
      else if p < q then .fin s p hp else .fin t q hq
  | .inf false, b => b
  | a, .inf false => a

/-- Rounding towards zero. -/
def trunc (q : ℚ) : ℤ := if 0 ≤ q then ⌊q⌋ else ⌈q⌉

/-- `math.Mod`: the remainder with the sign of the first operand; it is exact. -/
def fmod : F64 → F64 → F64
  | .fin s a h, .fin _ b _ => if b = 0 then .nan else
      (if a = 0 then .fin s a h else round s (a - b * (trunc (a / b) : ℤ)))
  | .fin s a h, .inf _ => .fin s a h
  | _, _ => .nan

/-- Functions of package `math` whose results IEEE 754 does not fix, and the conversion to `int` of numbers that do
not fit, which Go leaves to the implementation. -/
class MathLib where
  sin : F64 → F64
  cos : F64 → F64
  asin : F64 → F64
  sqrt : F64 → F64
  atan2 : F64 → F64 → F64
  toInt : F64 → Int

/-- `float64` with any such library. `math.Pi` is rounded to 884279719003555 / 2 ^ 48. -/
instance [MathLib] : GoMath F64 where
  sin := MathLib.sin
  cos := MathLib.cos
  asin := MathLib.asin
  sqrt := MathLib.sqrt
  atan2 := MathLib.atan2
  fmod := fmod
  fmin := fmin
  pi := round false (884279719003555 / 281474976710656)
  toInt
    | .fin s q h => if |q| < pow2 63 then trunc q else MathLib.toInt (.fin s q h)
    | x => MathLib.toInt x

end F64
end GpsGen
