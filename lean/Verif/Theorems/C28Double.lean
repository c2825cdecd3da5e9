import Verif.Lemmas.CurveDouble
import Verif.Lemmas.RoundTrip
import Verif.Lemmas.Toy
import Verif.Theorems.C28
/-!
# C28 in IEEE doubles

With the rounding of `float64` the claim fails by about one unit in the last place: a sensor with minimum and maximum 1
reaches 1.0000000000000002, and a sensor in end mode does not end exactly at its minimum. Bounds that are so large that
their difference overflows give NaN.

What holds for all sensors, histories and parameters: if the bounds are at most `2 ^ 399` in magnitude, the value is a
finite number that leaves the interval between the bounds by at most `2 ^ -40` times the larger magnitude (plus
`2 ^ -500`), the X value is `(amplitude - 1) * t` up to `2 ^ -31`, and in start mode the value at 0 is exactly the minimum.
-/

namespace GpsGen
namespace C28
namespace Double
open F64 CurveFold CurveDouble Finset

/-! ## Specification -/

/-- What a client does with a sensor; `reload` is a snapshot followed by a restore. -/
inductive Op where
  | next (t : F64)
  | shuffle (draws : ℕ → F64)
  | reload

def step (s : Sensor F64) : Op → Go (Sensor F64)
  | .next t => s.next t
  | .shuffle draws => .ok (s.shuffle draws)
  | .reload => Sensor.fromSnapshot (some s.snapshot)

def run (s : Sensor F64) : List Op → Go (Sensor F64)
  | [] => .ok s
  | op :: ops => step s op >>= fun s' => run s' ops

/-- The double `f` is finite with value `q`. -/
def Is (f : F64) (q : ℚ) : Prop := ∃ s r, f = .fin s q r

/-- A double in the unit interval. -/
def Unit (f : F64) : Prop := ∃ q, Is f q ∧ 0 ≤ q ∧ q ≤ 1

/-- Random numbers lie in the unit interval. Parameters of earlier steps are arbitrary. -/
def Legal : Op → Prop
  | .shuffle draws => ∀ i, Unit (draws i)
  | _ => True

/-- `s` was created with these parameters and driven by a legal history. -/
def From (mn mx : F64) (amp : Int) (mode : UInt16) (s : Sensor F64) : Prop :=
  ∃ s0 draws ops, (∀ i, Unit (draws i)) ∧ (∀ op ∈ ops, Legal op) ∧
    ((∃ uid name, Sensor.new uid draws name mn mx amp mode = .ok s0) ∨
      (∃ uid name, Sensor.restore uid draws name mn mx amp mode = .ok s0)) ∧
    run s0 ops = .ok s

/-- The full claim for bounds, in doubles. -/
def Claim : Prop := ∀ (mn mx : F64) (amp : Int) (mode : UInt16) (s s' : Sensor F64) (t : F64),
  mn ≠ .nan → mx ≠ .nan → (mn <=. mx) = true → From mn mx amp mode s → Unit t → s.next t = .ok s' →
    (mn <=. s'.valY) = true ∧ (s'.valY <=. mx) = true

/-- The tolerance for bounds of magnitude `m`. -/
def tol (m : ℚ) : ℚ := m * 2 ^ (-40 : ℤ) + 2 ^ (-500 : ℤ)

/-! ## The claim fails -/

/-- A new sensor with constant draws. -/
def make (mn mx r : F64) (amp : Int) (mode : UInt16) : Sensor F64 :=
  ⟨"u", "fuel", mn, mx, lit 0, lit 0, Curve.new mn mx amp (normSensorMode mode) fun _ => r⟩

theorem unit_lit {q : ℚ} (h0 : 0 ≤ q) (h1 : q ≤ 1) : Unit (lit q) := by
  have hq : |q| ≤ (1 : ℤ) := by rw [abs_of_nonneg h0]; simpa using h1
  obtain ⟨r, e⟩ := round_small false (by norm_num) hq
  refine ⟨Round64.rndQ q, ⟨_, r, e⟩, Round64.rndQ_nonneg h0, ?_⟩
  have := rndQ_abs_le (by norm_num) hq
  rw [abs_of_nonneg (Round64.rndQ_nonneg h0)] at this
  simpa using this

theorem make_from (mn mx : F64) {q : ℚ} (h0 : 0 ≤ q) (h1 : q ≤ 1) (amp : Int) (ha : 4 ≤ amp) (hb : amp ≤ 512)
    (mode : UInt16) : From mn mx amp mode (make mn mx (lit q) amp mode) := by
  refine ⟨_, fun _ => lit q, [], fun _ => unit_lit h0 h1, fun _ h => (List.not_mem_nil h).elim,
    Or.inl ⟨"u", "fuel", ?_⟩, rfl⟩
  have hv : validateAmplitude amp = .ok () := by
    unfold validateAmplitude
    rw [if_neg (by omega), if_neg (by omega)]
  unfold Sensor.new
  rw [hv]
  rfl

/-- The value after a step, if it succeeds. -/
def valueAt (s : Sensor F64) (t : F64) : Option F64 := (s.next t).toOption.map (·.valY)

/-- Minimum and maximum 1, amplitude 4, parameter 0.1: the value is 1.0000000000000002. -/
theorem above_maximum : valueAt (make (lit 1) (lit 1) (lit 0) 4 0) (lit (1 / 10)) =
    some (lit (1 + 1 / 2 ^ 52)) := by decide +kernel

/-- Parameter 0.05: the value is 0.9999999999999999. -/
theorem below_minimum : valueAt (make (lit 1) (lit 1) (lit 0) 4 0) (lit (1 / 20)) =
    some (lit (1 - 1 / 2 ^ 53)) := by decide +kernel

/-- End mode, minimum 1, maximum 2, amplitude 12: at the end the value is 0.9999999999999999. -/
theorem end_inexact : valueAt (make (lit 1) (lit 2) (lit (1 / 2)) 12 8192) (lit 1) =
    some (lit (1 - 1 / 2 ^ 53)) := by decide +kernel

/-- Bounds whose difference overflows give NaN. -/
theorem overflow_nan : valueAt (make (lit (-10 ^ 308)) (lit (10 ^ 308)) (lit 0) 4 0) (lit (1 / 2)) = some .nan := by
  decide +kernel

theorem claim_fails : ¬ Claim := by
  intro h
  have hv := above_maximum
  unfold valueAt at hv
  cases hs : (make (lit 1) (lit 1) (lit 0) 4 0).next (lit (1 / 10)) with
  | error e => rw [hs] at hv; cases hv
  | ok s' =>
    rw [hs] at hv
    have hv' : s'.valY = lit (1 + 1 / 2 ^ 52) := by injection hv
    have := (h _ _ _ _ _ _ _ (round_ne_nan _ _) (round_ne_nan _ _) (by decide +kernel)
      (make_from (lit 1) (lit 1) (q := 0) (by norm_num) (by norm_num) 4 (by norm_num) (by norm_num) 0)
      (unit_lit (q := 1 / 10) (by norm_num) (by norm_num)) hs).2
    rw [hv'] at this
    exact absurd this (by decide +kernel)

/-! ## Proof -/

attribute [local irreducible] Round64.rndQ Round64.pow2

/-- The tolerance of a control height. -/
def del (m : ℚ) : ℚ := m * 2 ^ (-48 : ℤ) + 8 * e0

/-- Magnitude of the bounds. -/
def mag (a b : ℚ) : ℚ := max |a| |b|

theorem mag_nonneg (a b : ℚ) : 0 ≤ mag a b := (abs_nonneg a).trans (le_max_left _ _)

/-- A height within the tolerance. -/
def Height (a b : ℚ) (f : F64) : Prop :=
  ∃ y, Is f y ∧ min a b - del (mag a b) ≤ y ∧ y ≤ max a b + del (mag a b)

theorem del_nonneg {m : ℚ} (h : 0 ≤ m) : 0 ≤ del m := by
  unfold del
  have := e0_pos
  positivity

theorem between {a b ρ : ℚ} (h0 : 0 ≤ ρ) (h1 : ρ ≤ 1) : min a b ≤ a + ρ * (b - a) ∧ a + ρ * (b - a) ≤ max a b := by
  rcases le_total a b with h | h
  · rw [min_eq_left h, max_eq_right h]
    constructor <;> nlinarith
  · rw [min_eq_right h, max_eq_left h]
    constructor <;> nlinarith

/-- Everything of magnitude up to `2 ^ 402` is far from overflow. -/
theorem far {x : ℚ} (h : x ≤ 2 ^ (402 : ℤ)) : x * 2 ≤ 2 ^ (1000 : ℤ) := by
  have h1 : (2 : ℚ) ^ (402 : ℤ) * 2 = 2 ^ (403 : ℤ) := by
    rw [← zpow_add_one₀ (by norm_num)]; norm_num
  exact ((mul_le_mul_of_nonneg_right h (by norm_num)).trans h1.le).trans (zpow_le_1000 (by norm_num))

theorem e0_le_one : e0 ≤ 1 / 4096 := by
  have := e0_small
  linarith

theorem randomFloat_height {mn mx r : F64} {a b : ℚ} (ha : Is mn a) (hb : Is mx b) (hr : Unit r)
    (hm : mag a b ≤ 2 ^ (399 : ℤ)) : Height a b (randomFloat mn mx r) := by
  obtain ⟨s1, r1, rfl⟩ := ha
  obtain ⟨s2, r2, rfl⟩ := hb
  obtain ⟨ρ, ⟨s3, r3, rfl⟩, h0, h1⟩ := hr
  set m := mag a b with hmdef
  have hm0 : 0 ≤ m := mag_nonneg a b
  have A1 : Ap m 0 0 a (.fin s1 a r1) := Ap.exact (le_max_left _ _)
  have A2 : Ap m 0 0 b (.fin s2 b r2) := Ap.exact (le_max_right _ _)
  have A3 : Ap 1 0 0 ρ (.fin s3 ρ r3) := Ap.exact (by rw [abs_of_nonneg h0]; exact h1)
  have he := e0_pos
  have he1 := e0_le_one
  have g1 : gr ≤ 2 := by simpa using gr_pow_le_two (k := 1) (by norm_num)
  have big : 4 * m * 2 ≤ 2 ^ (1000 : ℤ) ∧ (1 : ℚ) * 2 ≤ 2 ^ (1000 : ℤ) := by
    refine ⟨far ?_, far (one_le_zpow₀ (by norm_num) (by norm_num))⟩
    have : (2 : ℚ) ^ (402 : ℤ) = 8 * 2 ^ (399 : ℤ) := by
      rw [show (402 : ℤ) = 3 + 399 by norm_num, zpow_add₀ (by norm_num)]; norm_num
    rw [this]
    have := mul_le_mul_of_nonneg_left hm (by norm_num : (0 : ℚ) ≤ 4)
    refine this.trans ?_
    exact mul_le_mul_of_nonneg_right (by norm_num) (by positivity)
  have big2 : 6 * m + 1 ≤ 2 ^ (1000 : ℤ) := by
    rcases le_total m 1 with h | h
    · have : 6 * m + 1 ≤ 2 ^ (3 : ℤ) := by norm_num; linarith
      exact this.trans (zpow_le_1000 (by norm_num))
    · exact _root_.le_trans (by linarith) big.1
  have B1 := Ap.sub A2 A1 (c := e0) (by simp) (by
    have := gr_pow_le_two (k := 0 + 1) (by norm_num)
    have := mul_le_mul_of_nonneg_left this (by linarith : 0 ≤ m + m)
    refine _root_.le_trans ?_ big2
    linarith)
  have B2 := mul_simple A3 B1 le_rfl he.le (by norm_num) (c := 5 * e0) (by simp; linarith) (by
    refine _root_.le_trans ?_ big2
    linarith)
  have B3 := Ap.add (A1.mono (by norm_num : 0 ≤ 0 + (0 + 1) + 1) le_rfl) B2 (c := 8 * e0) (by
    have : gr ≤ 1 + 1 / 4096 := by unfold gr; norm_num
    have := mul_le_mul_of_nonneg_right this (by linarith : 0 ≤ 0 + 5 * e0)
    linarith) (by
    have := gr_pow_le_two (k := 0 + (0 + 1) + 1 + 1) (by norm_num)
    have := mul_le_mul_of_nonneg_left this (by linarith : 0 ≤ m + 1 * (m + m))
    refine _root_.le_trans ?_ big2
    linarith)
  obtain ⟨-, s4, y, r4, e4, h4⟩ := B3
  have e : randomFloat (F64.fin s1 a r1) (F64.fin s2 b r2) (F64.fin s3 ρ r3) = F64.fin s4 y r4 := e4
  have h5 : |y - (a + ρ * (b - a))| ≤ del m := by
    refine h4.trans ?_
    unfold del
    have hg := gr_pow_le (k := 3) (by norm_num)
    clear big big2 hm
    have h6 : gr ^ (0 + (0 + 1) + 1 + 1) - 1 ≤ 3 * 2 ^ (-52 : ℤ) := by
      show gr ^ 3 - 1 ≤ _
      push_cast at hg
      generalize (2 : ℚ) ^ (-52 : ℤ) = d at *
      linarith
    have h7 := mul_le_mul_of_nonneg_left h6 (by linarith : 0 ≤ m + 1 * (m + m))
    have h8 : (2 : ℚ) ^ (-48 : ℤ) = 16 * 2 ^ (-52 : ℤ) := by norm_num
    rw [h8]
    have h9 : (0 : ℚ) < 2 ^ (-52 : ℤ) := by positivity
    generalize (2 : ℚ) ^ (-52 : ℤ) = d at *
    have := mul_nonneg hm0 h9.le
    linarith
  obtain ⟨b1, b2⟩ := between (a := a) (b := b) h0 h1
  have h6 := abs_le.mp h5
  exact ⟨y, ⟨s4, r4, e⟩, by linarith, by linarith⟩

theorem min_height {mn : F64} {a b : ℚ} (ha : Is mn a) : Height a b mn := by
  have := del_nonneg (mag_nonneg a b)
  exact ⟨a, ha, by linarith [min_le_left a b], by linarith [le_max_left a b]⟩

theorem height_ok {mn mx : F64} {a b : ℚ} (ha : Is mn a) (hb : Is mx b) (hm : mag a b ≤ 2 ^ (399 : ℤ))
    {draws : ℕ → F64} (hd : ∀ i, Unit (draws i)) (mode : Int) (n i : ℕ) :
    Height a b (height mn mx mode n draws i) := by
  unfold height
  split
  · exact min_height ha
  split
  · exact min_height ha
  · exact randomFloat_height ha hb (hd i) hm

/-- A curve as the constructors and `Shuffle` leave it. -/
structure Good (a b : ℚ) (k : ℕ) (c : Curve F64) : Prop where
  lo : Is c.min a
  hi : Is c.max b
  len : c.points.length = k + 1
  pts : ∃ h : ℕ → F64, (∀ i, i ≤ k → cpOf c.points i = ⟨lit i *. weight (k + 1) i, h i *. weight (k + 1) i⟩) ∧
    (∀ i, Height a b (h i)) ∧ (hasBit c.mode 14 = true → h 0 = c.min) ∧ (hasBit c.mode 13 = true → h k = c.min)

theorem good_make {mn mx : F64} {a b : ℚ} (ha : Is mn a) (hb : Is mx b) (hm : mag a b ≤ 2 ^ (399 : ℤ))
    {draws : ℕ → F64} (hd : ∀ i, Unit (draws i)) (mode : Int) (k : ℕ) :
    Good a b k ⟨makePoints mn mx mode (k + 1) draws, mode, mn, mx⟩ := by
  refine ⟨ha, hb, CurveFold.makePoints_length _ _ _ _ _, height mn mx mode (k + 1) draws, fun i hi => ?_,
    fun i => height_ok ha hb hm hd mode (k + 1) i, fun hb => ?_, fun hb => ?_⟩
  · exact CurveFold.makePoints_get _ _ _ _ _ i (by omega)
  · unfold height
    rw [show hasBit mode 14 = true from hb]
    rfl
  · unfold height
    rw [show hasBit mode 13 = true from hb]
    split
    · rfl
    · rw [if_pos (by simp)]

theorem cpOf_congr {l l' : List (CP F64)} (h : l.map (·.cp) = l'.map (·.cp)) (i : ℕ) : cpOf l i = cpOf l' i := by
  have := congrArg (fun m => m[i]?) h
  simp only [List.getElem?_map] at this
  unfold cpOf
  cases h1 : l[i]? <;> cases h2 : l'[i]? <;> simp_all

theorem good_point {a b : ℚ} {k : ℕ} {c c' : Curve F64} {t : F64} {p : Pt F64} (h : Good a b k c)
    (hp : c.point t = .ok (c', p)) : Good a b k c' ∧ c'.mode = c.mode := by
  obtain ⟨hc, h1, h2, h3, -⟩ := C29.point_preserves c c' t p hp
  obtain ⟨y, y1, y2, y3, y4⟩ := h.pts
  refine ⟨⟨h1 ▸ h.lo, h2 ▸ h.hi, ?_, y, fun i hi => ?_, y2, fun hb => ?_, fun hb => ?_⟩, h3⟩
  · have := congrArg List.length hc
    simp only [C29.control, List.length_map] at this
    rw [this, h.len]
  · rw [cpOf_congr hc, y1 i hi]
  · rw [h1]
    exact y3 (h3 ▸ hb)
  · rw [h1]
    exact y4 (h3 ▸ hb)

theorem good_shuffle {a b : ℚ} {k : ℕ} {c : Curve F64} (h : Good a b k c) (hm : mag a b ≤ 2 ^ (399 : ℤ))
    {draws : ℕ → F64} (hd : ∀ i, Unit (draws i)) : Good a b k (c.shuffle draws) := by
  have := good_make h.lo h.hi hm hd c.mode k
  unfold Curve.shuffle
  rw [h.len]
  exact this

theorem pow_consts {m : ℚ} (hm0 : 0 ≤ m) (hm : m ≤ 2 ^ (399 : ℤ)) :
    m + del m ≤ 2 ^ (400 : ℤ) ∧ del m + ((m + del m) * 2 ^ (-41 : ℤ) + 2 ^ (14 : ℤ) * S (m + del m)) ≤ tol m := by
  have he := e0_pos
  have hle : e0 ≤ 2 ^ (-600 : ℤ) := by
    unfold e0
    exact zpow_le_zpow_right₀ (by norm_num) (by norm_num)
  have h48 : (2 : ℚ) ^ (-48 : ℤ) ≤ 1 / 16 := by norm_num
  have h600 : (2 : ℚ) ^ (-600 : ℤ) ≤ 1 / 32 := by
    have : (1 / 32 : ℚ) = 2 ^ (-5 : ℤ) := by norm_num
    rw [this]
    exact zpow_le_zpow_right₀ (by norm_num) (by norm_num)
  have hd1 : del m ≤ m / 16 + 1 / 4 := by
    unfold del
    have := mul_le_mul_of_nonneg_left h48 hm0
    generalize (2 : ℚ) ^ (-48 : ℤ) = d at *
    generalize (2 : ℚ) ^ (-600 : ℤ) = d' at *
    linarith
  have h399 : (1 : ℚ) ≤ 2 ^ (399 : ℤ) := one_le_zpow₀ (by norm_num) (by norm_num)
  have h400 : (2 : ℚ) ^ (400 : ℤ) = 2 * 2 ^ (399 : ℤ) := by
    rw [show (400 : ℤ) = 1 + 399 by norm_num, zpow_add₀ (by norm_num)]; norm_num
  refine ⟨?_, ?_⟩
  · rw [h400]
    clear h400 hle h600 h48
    generalize (2 : ℚ) ^ (399 : ℤ) = d at *
    linarith
  · have hS : 2 ^ (14 : ℤ) * S (m + del m) ≤ (m + del m + 1) * 2 ^ (-537 : ℤ) := by
      unfold S W e0
      have h : (8192 : ℚ) = 2 ^ (13 : ℤ) := by norm_num
      rw [h]
      have e : (2 : ℚ) ^ (14 : ℤ) * (2 ^ (-1075 : ℤ) * 2 ^ (13 : ℤ) * 2 ^ (511 : ℤ) * (m + del m + 1)) =
          (m + del m + 1) * (2 ^ (14 : ℤ) * 2 ^ (-1075 : ℤ) * 2 ^ (13 : ℤ) * 2 ^ (511 : ℤ)) := by ring
      rw [e]
      simp only [← zpow_add₀ (by norm_num : (2 : ℚ) ≠ 0)]
      norm_num
    have h537 : (2 : ℚ) ^ (-537 : ℤ) ≤ 2 ^ (-503 : ℤ) := zpow_le_zpow_right₀ (by norm_num) (by norm_num)
    have h503 : (2 : ℚ) ^ (-500 : ℤ) = 8 * 2 ^ (-503 : ℤ) := by
      rw [show (-500 : ℤ) = 3 + -503 by norm_num, zpow_add₀ (by norm_num)]; norm_num
    have h503' : (2 : ℚ) ^ (-503 : ℤ) ≤ 2 ^ (-48 : ℤ) := zpow_le_zpow_right₀ (by norm_num) (by norm_num)
    have h600' : (2 : ℚ) ^ (-600 : ℤ) ≤ 2 ^ (-503 : ℤ) * (1 / 128) := by
      have : (2 : ℚ) ^ (-503 : ℤ) * (1 / 128) = 2 ^ (-510 : ℤ) := by
        rw [show (-510 : ℤ) = -503 + -7 by norm_num, zpow_add₀ (by norm_num)]; norm_num
      rw [this]
      exact zpow_le_zpow_right₀ (by norm_num) (by norm_num)
    have h41 : (2 : ℚ) ^ (-41 : ℤ) = 128 * 2 ^ (-48 : ℤ) := by norm_num
    have h40 : (2 : ℚ) ^ (-40 : ℤ) = 256 * 2 ^ (-48 : ℤ) := by norm_num
    have hdd : del m = m * 2 ^ (-48 : ℤ) + 8 * e0 := rfl
    have hd0 := del_nonneg hm0
    have p503 : (0 : ℚ) < 2 ^ (-503 : ℤ) := by positivity
    have p48 : (0 : ℚ) < 2 ^ (-48 : ℤ) := by positivity
    have hS2 : 2 ^ (14 : ℤ) * S (m + del m) ≤ (m + del m + 1) * 2 ^ (-503 : ℤ) :=
      hS.trans (mul_le_mul_of_nonneg_left h537 (by linarith))
    unfold tol
    rw [h41, h40, h503]
    clear h41 h40 h503 h537 hS h400 h399 hm h600
    generalize 2 ^ (14 : ℤ) * S (m + del m) = X at *
    generalize (2 : ℚ) ^ (-503 : ℤ) = u at *
    generalize (2 : ℚ) ^ (-600 : ℤ) = w at *
    generalize (2 : ℚ) ^ (-48 : ℤ) = v at *
    have k1 : m * u ≤ m * v := mul_le_mul_of_nonneg_left h503' hm0
    have k2 : del m * u ≤ (m / 16 + 1 / 4) * u := mul_le_mul_of_nonneg_right hd1 p503.le
    have k3 : del m * v ≤ (m * v + 8 * e0) * (1 / 16) := by
      rw [hdd]
      exact mul_le_mul_of_nonneg_left h48 (by positivity)
    have k4 := mul_nonneg hm0 p48.le
    have k5 := mul_nonneg hm0 p503.le
    linarith

/-- A convex combination lies in the interval. -/
theorem bernQ_bounds (k : ℕ) (t a b : ℚ) (h0 : 0 ≤ t) (h1 : t ≤ 1) (y : ℕ → ℚ) (hy : ∀ i, a ≤ y i ∧ y i ≤ b) :
    a ≤ ∑ i ∈ range (k + 1), y i * bernQ k i t ∧ ∑ i ∈ range (k + 1), y i * bernQ k i t ≤ b := by
  have hs := bernQ_sum k t
  constructor
  · calc a = ∑ i ∈ range (k + 1), a * bernQ k i t := by rw [← mul_sum, hs, mul_one]
      _ ≤ _ := sum_le_sum fun i _ => mul_le_mul_of_nonneg_right (hy i).1 (bernQ_nonneg k i h0 h1)
  · calc _ ≤ ∑ i ∈ range (k + 1), b * bernQ k i t :=
          sum_le_sum fun i _ => mul_le_mul_of_nonneg_right (hy i).2 (bernQ_nonneg k i h0 h1)
      _ = b := by rw [← mul_sum, hs, mul_one]

/-- A weighted control coordinate. -/
theorem weighted_ap {k i : ℕ} (hk : k ≤ 511) (hi : i ≤ k) {h : F64} {y M : ℚ} (hy : Is h y) (hM : |y| ≤ M)
    (hM2 : M ≤ 2 ^ (400 : ℤ)) :
    Ap (M * (k.choose i : ℚ)) (2 * i + 1) e0 (y * (k.choose i : ℚ)) (h *. weight (k + 1) i) := by
  obtain ⟨s, r, rfl⟩ := hy
  have h1 : Ap M 0 0 y (.fin s y r) := Ap.exact hM
  have h2 := weight_ap hk i hi
  have hM0 : 0 ≤ M := (abs_nonneg _).trans hM
  refine (mul_simple h1 h2 le_rfl le_rfl (by omega) (c := e0) (by simp) ?_).mono (by omega) le_rfl
  have hmw := MW_small hM2
  have h3 := mul_le_mul_of_nonneg_left (choose_le_W k i hk) hM0
  have h4 := e0_le_one
  have h5 : 0 ≤ M * W := mul_nonneg hM0 W_pos.le
  refine _root_.le_trans ?_ hmw
  linarith

theorem bernQ_one (k i : ℕ) (hi : i ≤ k) : bernQ k i 1 = if i = k then 1 else 0 := by
  unfold bernQ
  split
  · subst i; simp
  · have : k - i ≠ 0 := by omega
    simp [this]

theorem is_unique {f : F64} {p q : ℚ} (h : Is f p) (h' : Is f q) : p = q := by
  obtain ⟨s, r, rfl⟩ := h
  obtain ⟨s', r', e⟩ := h'
  injection e

/-- The height of a good curve in the unit interval. -/
theorem good_value {a b t : ℚ} {k : ℕ} {c : Curve F64} (h : Good a b k c) (hk : k ≤ 511)
    (hm : mag a b ≤ 2 ^ (399 : ℤ)) {f : F64} (ht : Is f t) (h0 : 0 ≤ t) (h1 : t ≤ 1) :
    ∃ q, Is (evalAt (fun i => (cpOf c.points i).y) k f) q ∧
      min a b - tol (mag a b) ≤ q ∧ q ≤ max a b + tol (mag a b) ∧
      (hasBit c.mode 13 = true → t = 1 → |q - a| ≤ tol (mag a b)) := by
  obtain ⟨hh, p1, p2, -, p4⟩ := h.pts
  choose y y1 y2 y3 using p2
  obtain ⟨s, r, rfl⟩ := ht
  have hm0 := mag_nonneg a b
  obtain ⟨c1, c2⟩ := pow_consts hm0 hm
  have hd := del_nonneg hm0
  set M := mag a b + del (mag a b) with hM
  have hy : ∀ i, |y i| ≤ M := by
    intro i
    have l1 : -mag a b ≤ min a b :=
      le_min (_root_.le_trans (neg_le_neg (le_max_left _ _)) (neg_abs_le a))
        (_root_.le_trans (neg_le_neg (le_max_right _ _)) (neg_abs_le b))
    have l2 : max a b ≤ mag a b :=
      max_le (_root_.le_trans (le_abs_self a) (le_max_left _ _)) (_root_.le_trans (le_abs_self b) (le_max_right _ _))
    rw [abs_le]
    exact ⟨by linarith [y2 i], by linarith [y3 i]⟩
  obtain ⟨z, q, r', e, hq⟩ := eval_ap (y := y) (cp := fun i => (cpOf c.points i).y) hk (by linarith) c1
    (fun i hi => by
      show Ap _ _ _ _ (cpOf c.points i).y
      rw [p1 i hi]
      exact weighted_ap hk hi (y1 i) (hy i) c1) (r := r) h0 h1
  obtain ⟨b1, b2⟩ := bernQ_bounds k t _ _ h0 h1 y fun i => ⟨y2 i, y3 i⟩
  have h6 := abs_le.mp hq
  refine ⟨q, ⟨z, r', e⟩, ?_, ?_, fun hb h1t => ?_⟩
  · generalize ∑ i ∈ range (k + 1), y i * bernQ k i t = B at *
    generalize M * 2 ^ (-41 : ℤ) + 2 ^ (14 : ℤ) * S M = E at *
    linarith
  · generalize ∑ i ∈ range (k + 1), y i * bernQ k i t = B at *
    generalize M * 2 ^ (-41 : ℤ) + 2 ^ (14 : ℤ) * S M = E at *
    linarith
  · have hs : ∑ i ∈ range (k + 1), y i * bernQ k i t = a := by
      rw [sum_range_succ, sum_eq_zero, zero_add, h1t, bernQ_one k k le_rfl, if_pos rfl, mul_one]
      · have := y1 k
        rw [p4 hb] at this
        exact is_unique this h.lo
      · intro i hi
        have : i < k := by simpa using hi
        rw [h1t, bernQ_one k i this.le, if_neg this.ne, mul_zero]
    rw [hs] at hq
    refine hq.trans ?_
    generalize M * 2 ^ (-41 : ℤ) + 2 ^ (14 : ℤ) * S M = E at *
    linarith

theorem bernQ_sum_id (k : ℕ) (t : ℚ) : ∑ i ∈ range (k + 1), (i : ℚ) * bernQ k i t = k * t := by
  cases k with
  | zero => simp [bernQ]
  | succ k =>
    rw [sum_range_succ']
    simp only [Nat.cast_zero, zero_mul, add_zero]
    have h := bernQ_sum k t
    calc ∑ i ∈ range (k + 1), ((i + 1 : ℕ) : ℚ) * bernQ (k + 1) (i + 1) t
        = ∑ i ∈ range (k + 1), ((k : ℚ) + 1) * t * bernQ k i t := by
          apply sum_congr rfl
          intro i _
          unfold bernQ
          have hc : ((i : ℚ) + 1) * ((k + 1).choose (i + 1) : ℚ) = (k + 1) * (k.choose i : ℚ) := by
            have := Nat.add_one_mul_choose_eq k i
            have h2 : ((k + 1 : ℕ) : ℚ) * (k.choose i : ℚ) = ((k + 1).choose (i + 1) : ℚ) * ((i + 1 : ℕ) : ℚ) := by
              exact_mod_cast this
            push_cast at h2
            linarith
          rw [show k + 1 - (i + 1) = k - i by omega]
          push_cast
          rw [pow_succ]
          linear_combination (t ^ i * t * (1 - t) ^ (k - i)) * hc
      _ = (k + 1) * t := by rw [← mul_sum, h, mul_one]
      _ = ((k + 1 : ℕ) : ℚ) * t := by push_cast; ring

theorem lit_is (i : ℕ) (h : i ≤ 511) : Is (lit (i : ℚ)) (i : ℚ) := by
  obtain ⟨r, e⟩ := lit_nat (q := (i : ℚ)) (i : ℤ) (by simp) (by rw [abs_of_nonneg (by positivity)]; omega) (by positivity)
  exact ⟨_, r, e⟩

/-- The X value. -/
theorem good_x {a b t : ℚ} {k : ℕ} {c : Curve F64} (h : Good a b k c) (hk : k ≤ 511) {f : F64} (ht : Is f t)
    (h0 : 0 ≤ t) (h1 : t ≤ 1) :
    ∃ q, Is (evalAt (fun i => (cpOf c.points i).x) k f) q ∧ |q - k * t| ≤ 2 ^ (-31 : ℤ) := by
  obtain ⟨hh, p1, -, -⟩ := h.pts
  obtain ⟨s, r, rfl⟩ := ht
  have c1 : (511 : ℚ) ≤ 2 ^ (400 : ℤ) := by
    have : (511 : ℚ) ≤ 2 ^ (9 : ℤ) := by norm_num
    exact this.trans (zpow_le_zpow_right₀ (by norm_num) (by norm_num))
  obtain ⟨z, q, r', e, hq⟩ := eval_ap (y := fun i => (i : ℚ)) (cp := fun i => (cpOf c.points i).x) hk
    (by norm_num : (0 : ℚ) ≤ 511) c1 (fun i hi => by
      show Ap _ _ _ _ (cpOf c.points i).x
      rw [p1 i hi]
      refine weighted_ap hk hi (lit_is i (by omega)) ?_ c1
      rw [abs_of_nonneg (Nat.cast_nonneg i)]
      exact_mod_cast (by omega : i ≤ 511)) (r := r) h0 h1
  rw [bernQ_sum_id] at hq
  refine ⟨q, ⟨z, r', e⟩, hq.trans ?_⟩
  have hS : 2 ^ (14 : ℤ) * S 511 ≤ 2 ^ (-500 : ℤ) := by
    unfold S W e0
    have h : (8192 : ℚ) = 2 ^ (13 : ℤ) := by norm_num
    have h' : (511 + 1 : ℚ) = 2 ^ (9 : ℤ) := by norm_num
    rw [h, h']
    simp only [← zpow_add₀ (by norm_num : (2 : ℚ) ≠ 0)]
    exact zpow_le_zpow_right₀ (by norm_num) (by norm_num)
  have h500 : (2 : ℚ) ^ (-500 : ℤ) ≤ 2 ^ (-41 : ℤ) := zpow_le_zpow_right₀ (by norm_num) (by norm_num)
  have h31 : (2 : ℚ) ^ (-31 : ℤ) = 1024 * 2 ^ (-41 : ℤ) := by norm_num
  have p41 : (0 : ℚ) < 2 ^ (-41 : ℤ) := by positivity
  rw [h31]
  have hS' := hS.trans h500
  clear h31 h500 hS hq c1
  generalize 2 ^ (14 : ℤ) * S 511 = X at *
  generalize (2 : ℚ) ^ (-41 : ℤ) = d at *
  linarith

/-! ### The start -/

theorem is_round {s : Bool} {q : ℚ} (r : Rep s q) (z : Bool) : Is (round z q) q := by
  by_cases h : q = 0
  · subst h
    exact ⟨z, ⟨Round64.rndQ_zero, by rw [abs_zero]; exact Round64.pow2_pos _, fun h => absurd rfl h⟩, round_fin _⟩
  · rw [round_ne z s h]
    exact ⟨s, r, round_fin r⟩

theorem zero_is (z : Bool) : Is (round z 0) 0 :=
  ⟨z, ⟨Round64.rndQ_zero, by rw [abs_zero]; exact Round64.pow2_pos _, fun h => absurd rfl h⟩, round_fin _⟩

theorem mul_zero_is {f g : F64} {p : ℚ} (hf : Is f p) (hg : Is g 0) : Is (f *. g) 0 := by
  obtain ⟨s, r, rfl⟩ := hf
  obtain ⟨s', r', rfl⟩ := hg
  rw [fin_mul, mul_zero]
  exact zero_is _

theorem mul_one_is {f g : F64} {p : ℚ} (hf : Is f p) (hg : Is g 1) : Is (f *. g) p := by
  obtain ⟨s, r, rfl⟩ := hf
  obtain ⟨s', r', rfl⟩ := hg
  rw [fin_mul, mul_one]
  exact is_round r _

theorem zero_add_is {f g : F64} {p : ℚ} (hf : Is f 0) (hg : Is g p) : Is (f +. g) p := by
  obtain ⟨s, r, rfl⟩ := hf
  obtain ⟨s', r', rfl⟩ := hg
  rw [fin_add, zero_add]
  exact is_round r' _

theorem pow_zero_is {t : F64} (ht : Is t 0) (i : ℕ) : Is (powFrom t t i) 0 := by
  induction i with
  | zero => exact ht
  | succ i ih => exact mul_zero_is ih ht

theorem pow_one_is {t : F64} (ht : Is t 1) (i : ℕ) : Is (powFrom t t i) 1 := by
  induction i with
  | zero => exact ht
  | succ i ih => exact mul_one_is ih ht

theorem one_sub_zero {t : F64} (ht : Is t 0) : Is ((lit 1 : F64) -. t) 1 := by
  obtain ⟨s, r, rfl⟩ := ht
  obtain ⟨r1, e1⟩ := lit_nat (q := 1) (1 : ℤ) (by norm_num) (by norm_num) (by norm_num)
  rw [e1, fin_sub, neg_zero, add_zero]
  exact is_round r1 _

/-- At parameter zero a curve has exactly the value of its first control point. -/
theorem eval_zero {cp : ℕ → F64} {k : ℕ} {t : F64} (ht : Is t 0) (hcp : ∀ i, i ≤ k → ∃ q, Is (cp i) q) {q : ℚ}
    (h0 : Is (cp 0) q) : Is (evalAt cp k t) q := by
  have hs : ∀ i, i + 1 ≤ k → Is (scaled cp t (i + 1)) 0 := fun i hi =>
    mul_zero_is (hcp (i + 1) hi).choose_spec (pow_zero_is ht i)
  have h1 := one_sub_zero ht
  cases k with
  | zero => exact h0
  | succ k =>
    have hacc : ∀ m, m ≤ k → Is (acc (fun j => scaled cp t (k + 1 - 1 - j)) ((lit 1 : F64) -. t) ((lit 1 : F64) -. t)
        (scaled cp t (k + 1)) m) 0 := by
      intro m hm
      induction m with
      | zero => exact hs k le_rfl
      | succ m ih =>
        refine zero_add_is (ih (by omega)) (mul_one_is ?_ (pow_one_is h1 m))
        show Is (scaled cp t (k - m)) 0
        obtain ⟨i, hi⟩ : ∃ i, k - m = i + 1 := ⟨k - m - 1, by omega⟩
        rw [hi]
        exact hs i (by omega)
    refine zero_add_is (hacc k le_rfl) (mul_one_is ?_ (pow_one_is h1 k))
    show Is (scaled cp t (k - k)) q
    rw [Nat.sub_self]
    exact h0

theorem good_start {a b : ℚ} {k : ℕ} {c : Curve F64} (h : Good a b k c) (hk : k ≤ 511)
    (hm : mag a b ≤ 2 ^ (399 : ℤ)) {f : F64} (ht : Is f 0) (hb : hasBit c.mode 14 = true) :
    Is (evalAt (fun i => (cpOf c.points i).y) k f) a := by
  obtain ⟨hh, p1, p2, p3, -⟩ := h.pts
  have hm0 := mag_nonneg a b
  obtain ⟨c1, -⟩ := pow_consts hm0 hm
  have hd := del_nonneg hm0
  refine eval_zero ht (fun i hi => ?_) ?_
  · obtain ⟨y, y1, y2, y3⟩ := p2 i
    have l1 : -mag a b ≤ min a b :=
      le_min (_root_.le_trans (neg_le_neg (le_max_left _ _)) (neg_abs_le a))
        (_root_.le_trans (neg_le_neg (le_max_right _ _)) (neg_abs_le b))
    have l2 : max a b ≤ mag a b :=
      max_le (_root_.le_trans (le_abs_self a) (le_max_left _ _)) (_root_.le_trans (le_abs_self b) (le_max_right _ _))
    obtain ⟨-, s, q, r, e, -⟩ := weighted_ap hk hi y1 (abs_le.mpr ⟨by linarith, by linarith⟩) c1
    refine ⟨q, s, r, ?_⟩
    show (cpOf c.points i).y = _
    rw [p1 i hi, e]
  · show Is (cpOf c.points 0).y a
    rw [p1 0 (by omega), p3 hb]
    obtain ⟨r1, e1⟩ := lit_nat (q := 1) (1 : ℤ) (by norm_num) (by norm_num) (by norm_num)
    exact mul_one_is h.lo ⟨_, r1, e1⟩

/-! ### Histories -/

/-- The invariant. -/
def Inv (a b : ℚ) (amp : Int) (mode : UInt16) (s : Sensor F64) : Prop :=
  Good a b (amp.toNat - 1) s.gen ∧ s.gen.mode = normSensorMode mode

theorem step_inv {a b : ℚ} {amp : Int} {mode : UInt16} {s s' : Sensor F64} {op : Op} (hl : Legal op)
    (hm : mag a b ≤ 2 ^ (399 : ℤ)) (h : Inv a b amp mode s) (hs : step s op = .ok s') : Inv a b amp mode s' := by
  obtain ⟨hg, h5⟩ := h
  cases op with
  | next t =>
    obtain ⟨g, p, hp, rfl⟩ := sensor_next_eq hs
    obtain ⟨a, b⟩ := good_point hg hp
    exact ⟨a, b.trans h5⟩
  | shuffle draws =>
    cases hs
    exact ⟨good_shuffle hg hm hl, h5⟩
  | reload =>
    simp only [step, sensor_round_trip] at hs
    cases hs
    exact ⟨hg, h5⟩

theorem from_inv {mn mx : F64} {a b : ℚ} {amp : Int} {mode : UInt16} {s : Sensor F64} (ha : Is mn a) (hb : Is mx b)
    (hm : mag a b ≤ 2 ^ (399 : ℤ)) (h : From mn mx amp mode s) : 4 ≤ amp ∧ amp ≤ 512 ∧ Inv a b amp mode s := by
  obtain ⟨s0, draws, ops, hd, hl, h0, hr⟩ := h
  have hi : 4 ≤ amp ∧ amp ≤ 512 ∧ Inv a b amp mode s0 := by
    have mk : ∀ uid name, 4 ≤ amp → Inv a b amp mode
        ⟨uid, name, mn, mx, lit 0, lit 0, Curve.new mn mx amp (normSensorMode mode) draws⟩ := by
      intro uid name h4
      refine ⟨?_, rfl⟩
      have := good_make ha hb hm hd (normSensorMode mode) (amp.toNat - 1)
      rw [show amp.toNat - 1 + 1 = amp.toNat by omega] at this
      show Good a b _ (Curve.new mn mx amp (normSensorMode mode) draws)
      unfold Curve.new
      rw [if_neg (by omega)]
      exact this
    rcases h0 with ⟨uid, name, h0⟩ | ⟨uid, name, h0⟩
    · obtain ⟨ha, hb, rfl⟩ := sensor_new_eq h0
      exact ⟨ha, hb, mk _ _ ha⟩
    · obtain ⟨uid, -, ha, hb, rfl⟩ := sensor_restore_eq h0
      exact ⟨ha, hb, mk _ _ ha⟩
  refine ⟨hi.1, hi.2.1, ?_⟩
  replace hi := hi.2.2
  clear h0
  induction ops generalizing s0 with
  | nil => cases hr; exact hi
  | cons op ops ih =>
    obtain ⟨s1, h1, h2⟩ := bind_eq_ok hr
    exact ih s1 (fun o ho => hl o (List.mem_cons_of_mem _ ho)) h2
      (step_inv (hl op List.mem_cons_self) hm hi h1)

/-! ## The claim up to rounding -/

/-- A step with a parameter in the unit interval succeeds; the value and the X value are finite; the value lies between
the bounds and the X value is `(amplitude - 1) * t`, both up to rounding; the mode fixes the value at the start exactly
and at the end up to rounding. -/
theorem sensor_value_partial (mn mx : F64) (a b : ℚ) (ha : Is mn a) (hb : Is mx b) (hm : max |a| |b| ≤ 2 ^ (399 : ℤ))
    (amp : Int) (mode : UInt16) (s : Sensor F64) (h : From mn mx amp mode s) (t : F64) (τ : ℚ) (ht : Is t τ)
    (h0 : 0 ≤ τ) (h1 : τ ≤ 1) :
    ∃ s' x v, s.next t = .ok s' ∧ Is s'.valX x ∧ Is s'.valY v ∧ |x - (amp - 1) * τ| ≤ 2 ^ (-31 : ℤ) ∧
      min a b - tol (max |a| |b|) ≤ v ∧ v ≤ max a b + tol (max |a| |b|) ∧
      (startAtMin mode → τ = 0 → v = a) ∧ (endAtMin mode → τ = 1 → |v - a| ≤ tol (max |a| |b|)) := by
  obtain ⟨ha4, hb5, hg, hmode⟩ := from_inv ha hb hm h
  obtain ⟨c', hp⟩ := CurveFold.point_eq s.gen (amp.toNat - 1) hg.len t
  have hk : amp.toNat - 1 ≤ 511 := by omega
  obtain ⟨v, hv, v1, v2, v3⟩ := good_value hg hk hm ht h0 h1
  obtain ⟨x, hx, x1⟩ := good_x hg hk ht h0 h1
  refine ⟨{ s with gen := c', valX := _, valY := _ }, x, v, ?_, hx, hv, ?_, v1, v2, fun hs h0' => ?_, fun he => v3 ?_⟩
  · unfold Sensor.next
    rw [hp]
    rfl
  · have : ((amp.toNat - 1 : ℕ) : ℤ) = amp - 1 := by omega
    have e : ((amp.toNat - 1 : ℕ) : ℚ) = amp - 1 := by exact_mod_cast congrArg (Int.cast (R := ℚ)) this
    rw [← e]
    exact x1
  · subst h0'
    exact is_unique hv (good_start hg hk hm ht (by rw [hmode]; exact norm_bit hs))
  · rw [hmode]
    exact norm_bit he

/-! The theorem covers the sensor above: at 0.1 it has the value 1.0000000000000002, within the tolerance. -/

example : From (lit 1) (lit 1) 4 0 (make (lit 1) (lit 1) (lit 0) 4 0) :=
  make_from _ _ (q := 0) (by norm_num) (by norm_num) 4 (by norm_num) (by norm_num) 0

example : (1 / 2 ^ 52 : ℚ) ≤ tol 1 ∧ tol 1 < 1 / 10 ^ 12 := by
  unfold tol
  have h1 : (0 : ℚ) < 2 ^ (-500 : ℤ) := by positivity
  have h2 : (2 : ℚ) ^ (-500 : ℤ) ≤ 2 ^ (-60 : ℤ) := zpow_le_zpow_right₀ (by norm_num) (by norm_num)
  generalize (2 : ℚ) ^ (-500 : ℤ) = d at *
  norm_num at h2 ⊢
  constructor <;> linarith

end Double
end C28
end GpsGen
