import Verif.Model.Strings
import Verif.Lemmas.JsonF64
import Verif.Lemmas.JsonText
import Verif.Theorems.C50
import Verif.Theorems.C88Double
/-!
# C98: The text of an object shows its value

What the `String` methods write, in IEEE doubles. A number is written as the nearest one with the given number of decimals, so that
equal texts mean nearly equal values, greater values never look smaller, and texts of sensors and points can be taken apart
again. The text of a speed shows `Value()` unless the speed is constant: then it shows 0.00 m/s for ever.
-/

namespace GpsGen
namespace C98
open Round64 F64

/-! ## Specification -/

/-- The text `cs` shows the number `x` with `k` decimals: it is a decimal number of the sign of `x` with `k` decimals, and no number
of `k` decimals is closer to `x`. -/
def Shows (k : ℕ) (cs : List Char) : F64 → Prop
  | .fin s q _ => ∃ l : NumLit, cs = l.text ∧ l.neg = s ∧ l.frac.length = k ∧ l.exp = none ∧ ∀ n : ℤ, |l.value - q| ≤ |n / 10 ^ k - q|
  | .inf s => cs = (if s then "-Inf" else "+Inf").toList
  | .nan => cs = "NaN".toList

/-- A speed that a client can hold: a new one, and after calls of its methods. -/
inductive Held : Speed F64 → Prop
  | new {draws min max amplitude s} : Speed.new draws min max amplitude = .ok s → Held s
  | next {s t s'} : Held s → s.next t = .ok s' → Held s'
  | shuffle {s} (draws) : Held s → Held (s.shuffle draws)

/-- The text of the speed shows its value. -/
def SpeedShown (s : Speed F64) : Prop :=
  ∃ cs, s.string = "speed: ".toList ++ cs ++ " m/s".toList ∧ Shows 2 cs s.value

/-! ## Numbers -/

theorem fixed_near (k : ℕ) (q : ℚ) (n : ℤ) : |(fixedUnits k q : ℚ) / 10 ^ k - q| ≤ |(n : ℚ) / 10 ^ k - q| := by
  have hp : (0 : ℚ) < 10 ^ k := by positivity
  have e (m : ℚ) : m / 10 ^ k - q = (m - q * 10 ^ k) / 10 ^ k := by
    rw [sub_div, mul_div_cancel_right₀ _ hp.ne']
  rw [e, e, abs_div, abs_div, abs_of_pos hp]
  refine div_le_div_of_nonneg_right ?_ hp.le
  unfold fixedUnits
  generalize q * 10 ^ k = x
  have hx := rne_error x
  by_cases h : n = rne x
  · rw [h]
  · have h1 : (1 : ℚ) ≤ |(n : ℚ) - rne x| := by
      have : (1 : ℤ) ≤ |n - rne x| := Int.one_le_abs (sub_ne_zero.mpr h)
      exact_mod_cast this
    have h2 : |(n : ℚ) - rne x| ≤ |(n : ℚ) - x| + |(rne x : ℚ) - x| := by
      have := abs_sub_le (n : ℚ) x (rne x)
      rwa [abs_sub_comm x] at this
    linarith

theorem fixedLit_value {k : ℕ} {s : Bool} {q : ℚ} (h : Rep s q) : (fixedLit k s q).value = (fixedUnits k q : ℚ) / 10 ^ k := by
  have hp : (0 : ℚ) < 10 ^ k := by positivity
  obtain ⟨h1, h2⟩ := C88.lastDigits_spec k ((fixedUnits k q).natAbs % 10 ^ k) (Nat.mod_lt _ (by positivity))
  unfold NumLit.value fixedLit
  simp only [h1, h2, Option.getD_none, zpow_zero, mul_one]
  have e : (((fixedUnits k q).natAbs / 10 ^ k : ℕ) : ℚ) + (((fixedUnits k q).natAbs % 10 ^ k : ℕ) : ℚ) / 10 ^ k =
      ((fixedUnits k q).natAbs : ℚ) / 10 ^ k := by
    have := Nat.div_add_mod (fixedUnits k q).natAbs (10 ^ k)
    have h3 : ((fixedUnits k q).natAbs : ℚ) =
        10 ^ k * (((fixedUnits k q).natAbs / 10 ^ k : ℕ) : ℚ) + (((fixedUnits k q).natAbs % 10 ^ k : ℕ) : ℚ) := by
      exact_mod_cast this.symm
    rw [h3, add_div, mul_div_cancel_left₀ _ hp.ne']
  rw [e, ← mul_div_assoc]
  congr 1
  have sgn : (0 ≤ q → 0 ≤ fixedUnits k q) ∧ (q ≤ 0 → fixedUnits k q ≤ 0) := by
    constructor
    · intro h0
      have := rne_mono (x := ((0 : ℤ) : ℚ)) (y := q * 10 ^ k) (by push_cast; positivity)
      rwa [rne_int] at this
    · intro h0
      have := rne_mono (x := q * 10 ^ k) (y := ((0 : ℤ) : ℚ)) (by push_cast; exact mul_nonpos_of_nonpos_of_nonneg h0 hp.le)
      rwa [rne_int] at this
  by_cases h0 : q = 0
  · have : fixedUnits k q = 0 := le_antisymm (sgn.2 h0.le) (sgn.1 h0.ge)
    rw [this]; simp
  · rw [h.2.2 h0]
    by_cases hn : q < 0
    · rw [decide_eq_true hn, if_pos rfl, Nat.cast_natAbs, abs_of_nonpos (sgn.2 hn.le)]
      push_cast; ring
    · rw [decide_eq_false hn, if_neg (by simp), Nat.cast_natAbs, abs_of_nonneg (sgn.1 (not_lt.mp hn))]
      simp

/-- **C98, numbers.** A number is written as the nearest one with the given number of decimals. -/
theorem fixed_shows (k : ℕ) (x : F64) : Shows k (fmtFixed k x) x := by
  match x with
  | .fin s q h =>
    refine ⟨fixedLit k s q, rfl, rfl, ?_, rfl, fun n => ?_⟩
    · exact (C88.lastDigits_spec k _ (Nat.mod_lt _ (by positivity))).2
    · rw [fixedLit_value h]; exact fixed_near k q n
  | .inf true => rfl
  | .inf false => rfl
  | .nan => rfl

theorem text_inj {l m : NumLit} (h : l.text = m.text) : l = m := by
  have e : Json.Ends ([] : List Char) := by intro c cs hc; cases hc
  have h1 := Json.readNum_text l e
  rw [h, Json.readNum_text m e] at h1
  injection h1 with h1
  exact (Prod.mk.inj h1).1.symm

/-- The number shown is at most half a unit of the last decimal away. -/
theorem shows_half {k : ℕ} {q v : ℚ} (h : ∀ n : ℤ, |v - q| ≤ |n / 10 ^ k - q|) : |v - q| ≤ 1 / 2 / 10 ^ k := by
  have hp : (0 : ℚ) < 10 ^ k := by positivity
  refine (h (rne (q * 10 ^ k))).trans ?_
  have e : (rne (q * 10 ^ k) : ℚ) / 10 ^ k - q = ((rne (q * 10 ^ k) : ℚ) - q * 10 ^ k) / 10 ^ k := by
    rw [sub_div, mul_div_cancel_right₀ _ hp.ne']
  rw [e, abs_div, abs_of_pos hp]
  exact div_le_div_of_nonneg_right (rne_error _) hp.le

/-- **C98, equal texts.** Numbers with the same text differ by at most one unit of the last decimal; infinities and NaN look like
nothing else. -/
theorem same_text {k : ℕ} {x y : F64} (h : fmtFixed k x = fmtFixed k y) :
    match x, y with
    | .fin s q _, .fin t r _ => s = t ∧ |q - r| ≤ 1 / 10 ^ k
    | x, y => x = y := by
  have num (l : NumLit) : l.text ≠ "+Inf".toList ∧ l.text ≠ "-Inf".toList ∧ l.text ≠ "NaN".toList := by
    have e : Json.Ends ([] : List Char) := by intro c cs hc; cases hc
    have h1 := Json.readNum_text l e
    rw [List.append_nil] at h1
    refine ⟨fun c => ?_, fun c => ?_, fun c => ?_⟩ <;> rw [c] at h1 <;> cases h1
  match x, y, h with
  | .fin s q hq, .fin t r hr, h =>
    obtain ⟨l, e1, e2, -, -, e3⟩ := fixed_shows k (.fin s q hq)
    obtain ⟨m, f1, f2, -, -, f3⟩ := fixed_shows k (.fin t r hr)
    have : l = m := text_inj (e1 ▸ f1 ▸ h)
    subst this
    refine ⟨e2.symm.trans f2, ?_⟩
    have a := shows_half e3
    have b := shows_half f3
    have c := abs_sub_le q l.value r
    rw [abs_sub_comm q l.value] at c
    have : (1 : ℚ) / 10 ^ k = 1 / 2 / 10 ^ k + 1 / 2 / 10 ^ k := by ring
    linarith
  | .fin s q hq, .inf true, h => exact absurd h (num _).2.1
  | .fin s q hq, .inf false, h => exact absurd h (num _).1
  | .fin s q hq, .nan, h => exact absurd h (num _).2.2
  | .inf true, .fin s q hq, h => exact absurd h.symm (num _).2.1
  | .inf false, .fin s q hq, h => exact absurd h.symm (num _).1
  | .nan, .fin s q hq, h => exact absurd h.symm (num _).2.2
  | .inf true, .inf true, h => rfl
  | .inf false, .inf false, h => rfl
  | .nan, .nan, h => rfl
  | .inf true, .inf false, h => exact absurd h (show "-Inf".toList ≠ "+Inf".toList by decide)
  | .inf false, .inf true, h => exact absurd h (show "+Inf".toList ≠ "-Inf".toList by decide)
  | .inf true, .nan, h => exact absurd h (show "-Inf".toList ≠ "NaN".toList by decide)
  | .inf false, .nan, h => exact absurd h (show "+Inf".toList ≠ "NaN".toList by decide)
  | .nan, .inf true, h => exact absurd h (show "NaN".toList ≠ "-Inf".toList by decide)
  | .nan, .inf false, h => exact absurd h (show "NaN".toList ≠ "+Inf".toList by decide)

/-- **C98, order.** A greater number never looks smaller. -/
theorem shown_mono {k : ℕ} {s t : Bool} {q r : ℚ} (hq : Rep s q) (hr : Rep t r) (h : q ≤ r) :
    ∃ l m : NumLit, fmtFixed k (.fin s q hq) = l.text ∧ fmtFixed k (.fin t r hr) = m.text ∧ l.value ≤ m.value := by
  refine ⟨_, _, rfl, rfl, ?_⟩
  rw [fixedLit_value hq, fixedLit_value hr]
  refine div_le_div_of_nonneg_right ?_ (by positivity)
  have : fixedUnits k q ≤ fixedUnits k r := rne_mono (mul_le_mul_of_nonneg_right h (by positivity : (0 : ℚ) ≤ 10 ^ k))
  exact_mod_cast this

/-! ## Speeds -/

/-- **C98, speed (partial).** The text of a speed that varies shows its value. Missing: constant speeds, see `static_wrong`. -/
theorem speed_partial (s : Speed F64) (h : s.isStatic = false) : SpeedShown s := by
  refine ⟨fmtFixed 2 s.val, rfl, ?_⟩
  rw [Speed.value, h, if_neg (by simp)]
  exact fixed_shows 2 s.val

theorem held_static {s : Speed F64} (h : Held s) : s.isStatic = true → s.val = lit 0 := by
  induction h with
  | new e =>
    intro _
    unfold Speed.new at e
    simp only [bind, Except.bind] at e
    split_ifs at e <;> (split at e <;> (cases e <;> rfl))
  | @next s t s' _ e ih =>
    intro hs
    unfold Speed.next at e
    split at e
    next c =>
      injection e with e
      rw [← e]; exact ih c
    next c =>
      obtain ⟨p, -, e⟩ := bind_eq_ok e
      injection e with e
      rw [← e] at hs
      exact absurd hs c
  | shuffle _ _ ih => exact ih

/-- **C98, constant speeds.** The text of a constant speed is the same for ever. -/
theorem static_zero {s : Speed F64} (h : Held s) (hs : s.isStatic = true) : s.string = "speed: 0.00 m/s".toList := by
  unfold Speed.string
  rw [held_static h hs]
  decide +kernel

/-- **C98, constant speeds.** It never shows the value, unless that is less than half a hundredth. -/
theorem static_wrong {s : Speed F64} (h : Held s) (hs : s.isStatic = true) {b : Bool} {q : ℚ} {hq : Rep b q}
    (hv : s.value = .fin b q hq) (h0 : 1 / 200 < q) : ¬ SpeedShown s := by
  rintro ⟨cs, e, hc⟩
  rw [static_zero h hs] at e
  have e1 : cs = "0.00".toList := by
    have : "speed: 0.00 m/s".toList = "speed: ".toList ++ "0.00".toList ++ " m/s".toList := by decide
    rw [this, List.append_left_inj, List.append_right_inj] at e
    exact e.symm
  rw [hv] at hc
  obtain ⟨l, e2, -, -, -, e3⟩ := hc
  have : l = ⟨false, 0, [0, 0], none⟩ := text_inj (by rw [← e2, e1]; decide +kernel)
  subst this
  have e4 := e3 1
  have v0 : NumLit.value ⟨false, 0, [0, 0], none⟩ = 0 := by simp [NumLit.value, digitsNat]
  rw [v0, zero_sub, abs_neg, abs_of_pos (by linarith)] at e4
  push_cast at e4
  rcases abs_cases ((1 : ℚ) / 10 ^ 2 - q) with ⟨a, _⟩ | ⟨a, _⟩ <;> (rw [a] at e4; norm_num at e4 <;> linarith)

/-- The claim for all speeds. -/
def Claim : Prop := ∀ s, Held s → SpeedShown s

def steady : Except Err (Speed F64) := Speed.new (fun _ => lit 0) (lit 5) (lit 5) 8

/-- **C98, negation.** A constant speed of 5 m/s is shown as 0.00 m/s. -/
theorem claim_fails : ¬ Claim := by
  intro h
  match e : steady with
  | .error _ =>
    have : steady.toBool = true := by decide +kernel
    rw [e] at this; cases this
  | .ok s =>
    have hs : s.isStatic = true := by
      have : (steady.toOption.map Speed.isStatic) = some true := by decide +kernel
      rw [e] at this; exact Option.some.inj this
    have hv : s.value = lit 5 := by
      have : (steady.toOption.map Speed.value) = some (lit 5) := by decide +kernel
      rw [e] at this; exact Option.some.inj this
    obtain ⟨b, h5⟩ := lit_nat (q := 5) 5 (by norm_num) (by norm_num) (by norm_num)
    exact static_wrong (.new e) hs (hv.trans h5) (by norm_num) (h s (.new e))

/-! ## Batteries, sensors and points -/

/-- **C98, battery.** The text of a battery shows its charge. -/
theorem battery (b : Battery F64) :
    ∃ cs, b.string = "batteryCharge: ".toList ++ cs ++ "%".toList ∧ Shows 2 cs b.value :=
  ⟨_, rfl, fixed_shows 2 _⟩

/-- **C98, sensor.** The text of a sensor shows its name and its values. -/
theorem sensor (s : Sensor F64) :
    ∃ x y, s.string = "Sensor{".toList ++ s.name.toList ++ ": valX=".toList ++ x ++ ", valY=".toList ++ y ++ "}".toList ∧
      Shows 8 x s.valX ∧ Shows 8 y s.valY :=
  ⟨_, _, rfl, fixed_shows 8 _, fixed_shows 8 _⟩

/-- **C98, point.** The text of a point shows its coordinates. -/
theorem point (p : LatLon F64) :
    ∃ x y, p.string = "Point{Lon: ".toList ++ x ++ ", Lat: ".toList ++ y ++ "}".toList ∧ Shows 6 x p.lon ∧ Shows 6 y p.lat :=
  ⟨_, _, rfl, fixed_shows 6 _, fixed_shows 6 _⟩

theorem digitChar_neq (d : Fin 10) : digitChar d ≠ '=' ∧ digitChar d ≠ ':' := by
  revert d; decide

theorem fmt_chars (k : ℕ) (x : F64) : '=' ∉ fmtFixed k x ∧ ':' ∉ fmtFixed k x := by
  have nat (n : ℕ) : '=' ∉ natText n ∧ ':' ∉ natText n := by
    unfold natText
    simp only [List.mem_map, not_exists, not_and]
    exact ⟨fun d _ => (digitChar_neq d).1, fun d _ => (digitChar_neq d).2⟩
  have frac (ds : List (Fin 10)) : '=' ∉ fracText ds ∧ ':' ∉ fracText ds := by
    unfold fracText
    split
    · simp
    · simp only [List.mem_cons, List.mem_map, not_or, not_exists, not_and]
      exact ⟨⟨by decide, fun d _ => (digitChar_neq d).1⟩, ⟨by decide, fun d _ => (digitChar_neq d).2⟩⟩
  match x with
  | .fin s q h =>
    unfold fmtFixed NumLit.text fixedLit
    simp only [List.mem_append, expText, List.not_mem_nil, or_false, not_or]
    refine ⟨⟨?_, (nat _).1, (frac _).1⟩, ⟨?_, (nat _).2, (frac _).2⟩⟩ <;> cases s <;> simp
  | .inf true => exact show '=' ∉ "-Inf".toList ∧ ':' ∉ "-Inf".toList by decide
  | .inf false => exact show '=' ∉ "+Inf".toList ∧ ':' ∉ "+Inf".toList by decide
  | .nan => exact show '=' ∉ "NaN".toList ∧ ':' ∉ "NaN".toList by decide

/-- The last occurrence of a character determines what is before and behind it. -/
theorem split_last {α : Type} {c : α} {a b a' b' : List α} (h : a ++ c :: b = a' ++ c :: b') (hb : c ∉ b) (hb' : c ∉ b') :
    a = a' ∧ b = b' := by
  rcases List.append_eq_append_iff.mp h with ⟨as, e1, e2⟩ | ⟨as, e1, e2⟩
  · cases as with
    | nil => simp at e1 e2; exact ⟨e1.symm, e2⟩
    | cons d ds =>
      simp only [List.cons_append, List.cons.injEq] at e2
      exact absurd (e2.2 ▸ by simp) hb
  · cases as with
    | nil => simp at e1 e2; exact ⟨e1, e2.symm⟩
    | cons d ds =>
      simp only [List.cons_append, List.cons.injEq] at e2
      exact absurd (e2.2 ▸ by simp) hb'

theorem regroup {α : Type} {b' b c' c : List α} {q : α} (hb : b' = b ++ [q]) (hc : c' = c ++ [q]) (a n x y d : List α) :
    a ++ n ++ b' ++ x ++ c' ++ y ++ d = ((a ++ n ++ b) ++ q :: (x ++ c)) ++ q :: (y ++ d) := by simp [hb, hc]

theorem regroup' {α : Type} {c' c : List α} {q r : α} (hc : c' = c ++ [q, r]) (a x y d : List α) :
    a ++ x ++ c' ++ y ++ d = (a ++ (x ++ c)) ++ q :: (r :: (y ++ d)) := by simp [hc]

/-- **C98, sensors with the same text.** They have the same name, whatever it contains, and show the same values. -/
theorem sensor_same {s t : Sensor F64} (h : s.string = t.string) :
    s.name = t.name ∧ fmtFixed 8 s.valX = fmtFixed 8 t.valX ∧ fmtFixed 8 s.valY = fmtFixed 8 t.valY := by
  have form (u : Sensor F64) : u.string =
      ((("Sensor{".toList ++ u.name.toList ++ ": valX".toList) ++ '=' :: (fmtFixed 8 u.valX ++ ", valY".toList)) ++
        '=' :: (fmtFixed 8 u.valY ++ "}".toList)) := by
    have e1 : ": valX=".toList = ": valX".toList ++ ['='] := by decide
    have e2 : ", valY=".toList = ", valY".toList ++ ['='] := by decide
    exact regroup e1 e2 _ _ _ _ _
  have hy (u : Sensor F64) : '=' ∉ fmtFixed 8 u.valY ++ "}".toList := by
    simp [(fmt_chars 8 u.valY).1]
  have hx (u : Sensor F64) : '=' ∉ fmtFixed 8 u.valX ++ ", valY".toList := by
    simp [(fmt_chars 8 u.valX).1]
  rw [form, form] at h
  obtain ⟨h1, h2⟩ := split_last h (hy s) (hy t)
  obtain ⟨h3, h4⟩ := split_last h1 (hx s) (hx t)
  rw [List.append_left_inj] at h2 h4 h3
  rw [List.append_right_inj] at h3
  exact ⟨String.toList_inj.mp h3, h4, h2⟩

/-- **C98, points with the same text.** They show the same coordinates. -/
theorem point_same {p q : LatLon F64} (h : p.string = q.string) :
    fmtFixed 6 p.lon = fmtFixed 6 q.lon ∧ fmtFixed 6 p.lat = fmtFixed 6 q.lat := by
  have form (u : LatLon F64) : u.string =
      (("Point{Lon: ".toList ++ (fmtFixed 6 u.lon ++ ", Lat".toList)) ++ ':' :: (' ' :: (fmtFixed 6 u.lat ++ "}".toList))) := by
    have e1 : ", Lat: ".toList = ", Lat".toList ++ [':', ' '] := by decide
    exact regroup' e1 _ _ _ _
  have hl (u : LatLon F64) : ':' ∉ ' ' :: (fmtFixed 6 u.lat ++ "}".toList) := by
    simp [(fmt_chars 6 u.lat).2]
  rw [form, form] at h
  obtain ⟨h1, h2⟩ := split_last h (hl p) (hl q)
  rw [List.append_right_inj, List.append_left_inj] at h1
  rw [List.cons.injEq, List.append_left_inj] at h2
  exact ⟨h1, h2.2⟩

/-! ## Models and names -/

/-- **C98, models and names.** What the constructors accept is shown as it was given and is not empty. -/
theorem texts (s m : String) (h : newModel s = .ok m ∨ parseName s = .ok m) : textString m = s ∧ textIsEmpty m = false := by
  unfold newModel parseName at h
  unfold textString textIsEmpty
  have : m = s ∧ 3 ≤ goLen s := by
    rcases h with h | h <;> split at h <;> first | contradiction | (split at h <;> first | contradiction | (cases h; exact ⟨rfl, by omega⟩))
  obtain ⟨rfl, h⟩ := this
  exact ⟨rfl, by simp; omega⟩

/-- **C98, models and names.** `IsEmpty` tells exactly the empty text. -/
theorem empty_iff (m : String) : textIsEmpty m = true ↔ m = "" := by
  simp [textIsEmpty, goLen]

/-- The characters of random texts take one byte each. -/
theorem alnum_size {c : Char} (h : c.isAlphanum) : c.utf8Size = 1 := by
  have : c.val.toNat ≤ 127 := by
    simp only [Char.isAlphanum, Char.isAlpha, Char.isUpper, Char.isLower, Char.isDigit, Bool.or_eq_true, Bool.and_eq_true,
      decide_eq_true_eq, UInt32.le_iff_toNat_le] at h
    have e1 : (90 : UInt32).toNat = 90 := rfl
    have e2 : (122 : UInt32).toNat = 122 := rfl
    have e3 : (57 : UInt32).toNat = 57 := rfl
    have e4 : c.val.toNat = c.toNat := rfl
    simp at h
    omega
  rw [Char.utf8Size_eq_one_iff, UInt32.le_iff_toNat_le]
  exact this

theorem alnum_len (l : List Char) (h : ∀ c ∈ l, c.isAlphanum) : goLen (String.ofList l) = l.length := by
  induction l with
  | nil => rfl
  | cons c l ih =>
    have e : String.ofList (c :: l) = String.singleton c ++ String.ofList l := by
      apply String.toList_inj.mp; simp
    have := ih fun d hd => h d (by simp [hd])
    unfold goLen at this ⊢
    rw [e, String.utf8ByteSize_append, String.utf8ByteSize_singleton, alnum_size (h c (by simp)), this, List.length_cons]
    omega

/-- **C98, random models.** A random model is `RT-` and six letters or digits, and a valid model. -/
theorem random_model (draws : ℕ → ℕ) (h : ∀ i, draws i < 62) :
    ∃ s : String, randomModel draws = .ok ("RT-" ++ s) ∧ s.toList.length = 6 ∧ (∀ c ∈ s.toList, c.isAlphanum) ∧
      newModel ("RT-" ++ s) = .ok ("RT-" ++ s) := by
  obtain ⟨s, h1, h2, h3⟩ := C50.string_valid 6 draws h
  refine ⟨s, by unfold randomModel; rw [h1]; rfl, h2, h3, ?_⟩
  have hl : goLen ("RT-" ++ s) = 9 := by
    have h9 := alnum_len s.toList h3
    rw [String.ofList_toList, h2] at h9
    unfold goLen at h9 ⊢
    rw [String.utf8ByteSize_append, h9]
    rfl
  unfold newModel
  rw [hl]
  rfl

/-! ## Concrete cases -/

example : fmtFixed 2 (lit (1234567 / 1000)) = "1234.57".toList := by decide +kernel
example : fmtFixed 2 (lit (1 / 8)) = "0.12".toList ∧ fmtFixed 2 (lit (3 / 8)) = "0.38".toList := by decide +kernel
example : fmtFixed 2 (lit (-1 / 1000)) = "-0.00".toList := by decide +kernel
example : (⟨lit (-7123457 / 100000), lit 37⟩ : LatLon F64).string = "Point{Lon: 37.000000, Lat: -71.234570}".toList := by decide +kernel
example : ((Battery.new (lit 0) (lit 100) 3600000000000).toOption.map fun b => ((b : Battery F64).next (lit 1200)).string) =
    some "batteryCharge: 66.67%".toList := by decide +kernel
example : ((Speed.new (fun _ => lit (1 / 2)) (lit 1) (lit 7) 8).toOption.bind fun s =>
    ((s.next (lit (1 / 2))).toOption.map fun s : Speed F64 => (s.string, s.isStatic))) =
    some ("speed: 4.00 m/s".toList, false) := by decide +kernel
example : (steady.toOption.map fun s => s.string) = some "speed: 0.00 m/s".toList := by decide +kernel
example : (randomModel (fun i => 61 - i)).toOption = some "RT-987654" := by decide +kernel

end C98
end GpsGen
