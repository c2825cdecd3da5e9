import Verif.Model.NumReal
/-!
# Exact arithmetic with infinities and NaN

`XNum K` extends an ordered field by `+Inf`, `-Inf` and `NaN`, with IEEE 754 rules for the special
values. Rounding, overflow and the sign of zero are not represented (a quotient by zero has the sign
of the numerator).
-/

namespace GpsGen

/-- Finite numbers, infinities (`inf true` is `-Inf`) and NaN. -/
inductive XNum (K : Type) where
  | fin (k : K)
  | inf (neg : Bool)
  | nan
  deriving DecidableEq, Repr, Inhabited

namespace XNum
variable {K : Type} [Field K] [LinearOrder K]

/-- Sum. -/
def add : XNum K → XNum K → XNum K
  | .nan, _ | _, .nan => .nan
  | .fin a, .fin b => .fin (a + b)
  | .inf s, .fin _ | .fin _, .inf s => .inf s
  | .inf s, .inf t => if s = t then .inf s else .nan

/-- Negation. -/
def neg : XNum K → XNum K
  | .nan => .nan
  | .fin a => .fin (-a)
  | .inf s => .inf (!s)

/-- Product. -/
def mul : XNum K → XNum K → XNum K
  | .nan, _ | _, .nan => .nan
  | .fin a, .fin b => .fin (a * b)
  | .inf s, .fin b | .fin b, .inf s => if b = 0 then .nan else .inf (s != decide (b < 0))
  | .inf s, .inf t => .inf (s != t)

/-- Quotient. -/
def div : XNum K → XNum K → XNum K
  | .nan, _ | _, .nan => .nan
  | .fin a, .fin b =>
    if b = 0 then (if a = 0 then .nan else .inf (decide (a < 0))) else .fin (a / b)
  | .inf s, .fin b => .inf (s != decide (b < 0))
  | .fin _, .inf _ => .fin 0
  | .inf _, .inf _ => .nan

/-- `<`; false if an operand is NaN. -/
def lt : XNum K → XNum K → Bool
  | .nan, _ | _, .nan => false
  | .fin a, .fin b => decide (a < b)
  | .inf s, .fin _ => s
  | .fin _, .inf s => !s
  | .inf s, .inf t => s && !t

/-- `==`; false if an operand is NaN. -/
def eq : XNum K → XNum K → Bool
  | .fin a, .fin b => decide (a = b)
  | .inf s, .inf t => s == t
  | _, _ => false

/-- Absolute value. -/
def abs : XNum K → XNum K
  | .nan => .nan
  | .fin a => .fin (if a < 0 then -a else a)
  | .inf _ => .inf false

/-- `math.Min`: `-Inf` beats NaN. -/
def fmin (a b : XNum K) : XNum K :=
  if eq a (.inf true) || eq b (.inf true) then .inf true else
  match a, b with
  | .nan, _ | _, .nan => .nan
  | a, b => if lt a b then a else b

instance : GoFloat (XNum K) where
  add := add
  sub a b := add a (neg b)
  mul := mul
  div := div
  lit q := .fin (q : K)
  lt := lt
  le a b := lt a b || eq a b
  eq := eq
  abs := abs
  zero_eq_zero := by simp [eq]

/-- The functions of package `math` on `XNum ℝ`. Values that the code never uses on these arguments
(`int` of a special value, `atan2` of infinities) are arbitrary. -/
noncomputable instance : GoMath (XNum ℝ) where
  sin | .fin a => .fin (Real.sin a) | _ => .nan
  cos | .fin a => .fin (Real.cos a) | _ => .nan
  asin | .fin a => if |a| ≤ 1 then .fin (Real.arcsin a) else .nan | _ => .nan
  sqrt
    | .fin a => if 0 ≤ a then .fin (Real.sqrt a) else .nan
    | .inf false => .inf false
    | _ => .nan
  atan2 | .fin y, .fin x => .fin (Complex.arg ⟨x, y⟩) | _, _ => .nan
  fmod
    | .fin a, .fin b => if b = 0 then .nan else .fin (realMod a b)
    | .fin a, .inf _ => .fin a
    | _, _ => .nan
  fmin := fmin
  pi := .fin Real.pi
  toInt | .fin a => (if 0 ≤ a then ⌊a⌋ else ⌈a⌉) | _ => 0

section
variable (a b : K) (x : XNum K) (s t : Bool)
@[simp] theorem lit_eq (q : ℚ) : (lit q : XNum K) = .fin (q : K) := rfl
@[simp] theorem fin_add : (.fin a : XNum K) +. .fin b = .fin (a + b) := rfl
@[simp] theorem fin_sub : (.fin a : XNum K) -. .fin b = .fin (a + -b) := rfl
@[simp] theorem fin_mul : (.fin a : XNum K) *. .fin b = .fin (a * b) := rfl
theorem fin_div : (.fin a : XNum K) /. .fin b =
    if b = 0 then (if a = 0 then .nan else .inf (decide (a < 0))) else .fin (a / b) := rfl
@[simp] theorem fin_lt : ((.fin a : XNum K) <. .fin b) = decide (a < b) := rfl
@[simp] theorem fin_eq : ((.fin a : XNum K) ==. .fin b) = decide (a = b) := rfl
@[simp] theorem fin_le : ((.fin a : XNum K) <=. .fin b) = decide (a ≤ b) := by
  show (decide (a < b) || decide (a = b)) = decide (a ≤ b)
  rw [← Bool.decide_or]
  exact decide_eq_decide.mpr le_iff_lt_or_eq.symm
@[simp] theorem nan_lt : ((.nan : XNum K) <. x) = false := by cases x <;> rfl
@[simp] theorem lt_nan : (x <. (.nan : XNum K)) = false := by cases x <;> rfl
@[simp] theorem nan_eq : ((.nan : XNum K) ==. x) = false := by cases x <;> rfl
@[simp] theorem eq_nan : (x ==. (.nan : XNum K)) = false := by cases x <;> rfl
@[simp] theorem nan_le : ((.nan : XNum K) <=. x) = false := by cases x <;> rfl
@[simp] theorem le_nan : (x <=. (.nan : XNum K)) = false := by cases x <;> rfl
@[simp] theorem inf_lt_fin : ((.inf s : XNum K) <. .fin b) = s := rfl
@[simp] theorem fin_lt_inf : ((.fin a : XNum K) <. .inf s) = !s := rfl
@[simp] theorem inf_lt_inf : ((.inf s : XNum K) <. .inf t) = (s && !t) := rfl
@[simp] theorem inf_eq_fin : ((.inf s : XNum K) ==. .fin b) = false := rfl
@[simp] theorem fin_eq_inf : ((.fin a : XNum K) ==. .inf s) = false := rfl
@[simp] theorem inf_eq_inf : ((.inf s : XNum K) ==. .inf t) = (s == t) := rfl
@[simp] theorem inf_le_fin : ((.inf s : XNum K) <=. .fin b) = s := by
  show (s || false) = s; simp
@[simp] theorem fin_le_inf : ((.fin a : XNum K) <=. .inf s) = !s := by
  show (!s || false) = !s; simp
end

end XNum
end GpsGen
