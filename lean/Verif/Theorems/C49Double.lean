import Verif.Theorems.C49
import Verif.Theorems.C28Double
import Verif.Lemmas.ToyF64
/-!
# C49 in IEEE doubles

With the rounding of `float64` the claim fails: the seconds of some coordinates are negative (23 minutes and
-1.9984014443252818e-13 seconds). What holds for all finite coordinates up to `2 ^ 53` in magnitude, whatever the mathematical
library computes: degrees and minutes are in range exactly, the seconds are finite and leave the range from 0 to 60 by at
most `2 ^ -39`, and the sum is the coordinate up to `3 * 2 ^ -53` degrees, which is less than a nanometre.
-/

namespace GpsGen
namespace C49
namespace Double
open F64 C28.Double

attribute [local irreducible] Round64.rndQ Round64.pow2 F64.round

/-- The degrees, minutes and seconds of the coordinate `v`, up to rounding; `s` is the number of seconds. -/
structure Spec (pos neg : String) (v : ℚ) (x : DMS F64) (s : ℚ) : Prop where
  degrees : x.degrees = ⌊|v|⌋
  minutes : 0 ≤ x.minutes ∧ x.minutes ≤ 59
  finite : Is x.seconds s
  seconds : -2 ^ (-39 : ℤ) ≤ s ∧ s ≤ 60 + 2 ^ (-39 : ℤ)
  sum : |(x.degrees : ℚ) + x.minutes / 60 + s / 3600 - abs v| ≤ 3 * 2 ^ (-53 : ℤ)
  positive : 0 < v → x.direction = pos
  negative : v < 0 → x.direction = neg

/-- The claim for the seconds. -/
def Claim [MathLib] : Prop := ∀ (pos neg : String) (v : F64) (q : ℚ), Is v q → |q| ≤ 180 →
  ((lit 0 : F64) <=. (toDMS pos neg v).seconds) = true

/-! ## Proof -/

/-- The fractional part of a double is a double, and it is at most `1 - 2 ^ -53`. -/
theorem fract_exact {q : ℚ} (h : Round64.rndQ q = q) (h0 : 0 ≤ q) :
    Round64.rndQ (q - ⌊q⌋) = q - ⌊q⌋ ∧ q - ⌊q⌋ ≤ 1 - 1 / 2 ^ 53 := by
  obtain ⟨m, u, hm, hu, e⟩ := Round64.rndQ_form q
  rw [h] at e
  by_cases hu0 : 0 ≤ u
  · obtain ⟨n, rfl⟩ := Int.eq_ofNat_of_zero_le hu0
    have hq : q = ((m * 2 ^ n : ℤ) : ℚ) := by rw [e]; push_cast; simp
    rw [hq, Int.floor_intCast, sub_self]
    exact ⟨Round64.rndQ_zero, by norm_num⟩
  · obtain ⟨n, hn⟩ := Int.eq_ofNat_of_zero_le (show 0 ≤ -u by omega)
    have hu' : u = -(n : ℤ) := by omega
    have hp : (0 : ℚ) < 2 ^ n := by positivity
    have hq : q * 2 ^ n = m := by
      rw [e, hu', zpow_neg, zpow_natCast]
      field_simp
    have hf0 : 0 ≤ q - ⌊q⌋ := by linarith [Int.floor_le q]
    have hf1 : q - ⌊q⌋ < 1 := by linarith [Int.lt_floor_add_one q]
    have hfl : (0 : ℚ) ≤ ⌊q⌋ := by exact_mod_cast Int.floor_nonneg.mpr h0
    have hm' : (q - ⌊q⌋) * 2 ^ n = ((m - ⌊q⌋ * 2 ^ n : ℤ) : ℚ) := by
      push_cast
      rw [sub_mul, hq]
    have b0 : 0 ≤ m - ⌊q⌋ * 2 ^ n := by
      have : (0 : ℚ) ≤ ((m - ⌊q⌋ * 2 ^ n : ℤ) : ℚ) := by rw [← hm']; positivity
      exact_mod_cast this
    have b1 : m - ⌊q⌋ * 2 ^ n < 2 ^ n := by
      have : ((m - ⌊q⌋ * 2 ^ n : ℤ) : ℚ) < 2 ^ n := by rw [← hm']; exact mul_lt_of_lt_one_left hp hf1
      exact_mod_cast this
    have b2 : m - ⌊q⌋ * 2 ^ n ≤ m := by
      have : (0 : ℤ) ≤ ⌊q⌋ * 2 ^ n := mul_nonneg (Int.floor_nonneg.mpr h0) (by positivity)
      omega
    have hm0 : m ≤ 2 ^ 53 := (le_abs_self m).trans hm
    refine ⟨Round64.rndQ_rep (m - ⌊q⌋ * 2 ^ n) u (by rw [abs_of_nonneg b0]; omega) hu ?_, ?_⟩
    · rw [← hm', hu', zpow_neg, zpow_natCast]
      field_simp
    · by_cases hn53 : n ≤ 53
      · have b3 : (q - ⌊q⌋) * 2 ^ n ≤ 2 ^ n - 1 := by
          rw [hm']
          have : m - ⌊q⌋ * 2 ^ n ≤ 2 ^ n - 1 := by omega
          exact_mod_cast this
        have b4 : (1 : ℚ) / 2 ^ 53 ≤ 1 / 2 ^ n :=
          one_div_le_one_div_of_le hp (pow_le_pow_right₀ (by norm_num) hn53)
        have b5 : q - ⌊q⌋ ≤ 1 - 1 / 2 ^ n := by
          have : (1 - 1 / 2 ^ n : ℚ) * 2 ^ n = 2 ^ n - 1 := by field_simp
          rw [← this] at b3
          exact le_of_mul_le_mul_right b3 hp
        linarith
      · have b3 : (q - ⌊q⌋) * 2 ^ n ≤ 2 ^ 53 := by
          rw [hm']
          exact_mod_cast b2.trans hm0
        have b4 : (2 : ℚ) ^ 54 ≤ 2 ^ n := pow_le_pow_right₀ (by norm_num) (by omega)
        have b5 : (q - ⌊q⌋) * 2 ^ 54 ≤ 2 ^ 53 := (mul_le_mul_of_nonneg_left b4 hf0).trans b3
        norm_num at b5 ⊢
        linarith

/-- Rounding below a power-free bound. -/
theorem rnd_err {q b : ℚ} (h : |q| ≤ b) (hb : 1 ≤ b) : |Round64.rndQ q - q| ≤ b * 2 ^ (-53 : ℤ) := by
  refine (Round64.rndQ_error q).trans (max_le ?_ ?_)
  · exact mul_le_mul_of_nonneg_right h (by positivity)
  · have : (2 : ℚ) ^ (-1075 : ℤ) ≤ 2 ^ (-53 : ℤ) := zpow_le_zpow_right₀ (by norm_num) (by norm_num)
    refine this.trans ?_
    exact le_mul_of_one_le_left (by positivity) hb

/-- The double that results from rounding a moderate number. -/
theorem round_is (z : Bool) {q : ℚ} {n : ℤ} (hn : n ≤ 2 ^ 53) (h : |q| ≤ n) : Is (round z q) (Round64.rndQ q) := by
  obtain ⟨r, e⟩ := round_small z hn h
  exact ⟨_, r, e⟩

theorem sixty : Round64.rndQ (60 * (1 - 1 / 2 ^ 53)) < 60 := by decide +kernel

theorem trunc_nonneg {q : ℚ} (h : 0 ≤ q) : trunc q = ⌊q⌋ := if_pos h

/-- `int(x)` of a moderate number from zero on. -/
theorem toInt_is [MathLib] {x : F64} {q : ℚ} (hx : Is x q) (h0 : 0 ≤ q) (h : q ≤ 2 ^ 53) : GoMath.toInt x = ⌊q⌋ := by
  obtain ⟨s, r, rfl⟩ := hx
  have hp : |q| < Round64.pow2 63 := by
    rw [abs_of_nonneg h0, Round64.pow2_eq]
    refine lt_of_le_of_lt h ?_
    norm_num
  show (if |q| < Round64.pow2 63 then trunc q else _) = _
  rw [if_pos hp, trunc_nonneg h0]

theorem abs_is {v : F64} {q : ℚ} (h : Is v q) : Is (GoFloat.abs v : F64) |q| := by
  obtain ⟨s, r, rfl⟩ := h
  cases s with
  | true =>
    have h0 : q ≤ 0 := by
      by_contra hc
      have := r.2.2 (by linarith)
      simp at this
      exact absurd (not_le.mp hc) (not_lt.mpr this.le)
    rw [abs_of_nonpos h0]
    exact ⟨_, _, rfl⟩
  | false =>
    have h0 : 0 ≤ q := by
      by_contra hc
      have := r.2.2 (by linarith)
      simp only [not_le.mp hc, decide_true] at this
      cases this
    rw [abs_of_nonneg h0]
    exact ⟨_, _, rfl⟩

/-- The degrees and minutes of a finite number. -/
theorem parts [MathLib] (pos neg : String) (v : F64) (q : ℚ) (hv : Is v q) (hq : |q| ≤ 2 ^ 53) :
    (toDMS pos neg v).degrees = ⌊|q|⌋ ∧
    (toDMS pos neg v).minutes = ⌊Round64.rndQ ((|q| - ⌊|q|⌋) * 60)⌋ ∧
    Is ((GoFloat.abs v : F64) -. lit (⌊|q|⌋ : ℚ)) (|q| - ⌊|q|⌋) ∧
    0 ≤ |q| - ⌊|q|⌋ ∧ |q| - ⌊|q|⌋ < 1 ∧ 0 ≤ Round64.rndQ ((|q| - ⌊|q|⌋) * 60) ∧
    Round64.rndQ ((|q| - ⌊|q|⌋) * 60) < 60 := by
  set a := |q| with ha
  have ha0 : 0 ≤ a := abs_nonneg q
  have hda : Is (GoFloat.abs v : F64) a := abs_is hv
  have habs := hda
  obtain ⟨sa, ra, ea⟩ := hda
  obtain ⟨f1, f2⟩ := fract_exact ra.1 ha0
  set d := ⌊a⌋ with hd
  set f := a - d with hf
  have hf0 : 0 ≤ f := by rw [hf]; linarith [Int.floor_le a]
  have hf1 : f < 1 := by rw [hf]; linarith [Int.lt_floor_add_one a]
  have hd0 : 0 ≤ d := Int.floor_nonneg.mpr ha0
  have hd1 : d ≤ 2 ^ 53 := by
    have : (d : ℚ) ≤ 2 ^ 53 := (Int.floor_le a).trans hq
    exact_mod_cast this
  -- the degrees
  have e1 : (toDMS pos neg v).degrees = d := by
    show GoMath.toInt (GoFloat.abs v : F64) = d
    exact toInt_is habs ha0 hq
  -- the fraction
  obtain ⟨rd, ed⟩ := lit_nat (q := (d : ℚ)) d rfl (by rw [abs_of_nonneg hd0]; exact hd1) hd0
  have x1 : Is ((GoFloat.abs v : F64) -. lit (d : ℚ)) f := by
    rw [ea, ed, fin_sub, ← sub_eq_add_neg, ← hf]
    have := fun z => round_is (n := 1) z (q := f) (by norm_num) (by rw [abs_of_nonneg hf0]; exact_mod_cast hf1.le)
    rw [f1] at this
    exact this _
  -- the minutes
  obtain ⟨r60, e60⟩ := lit_nat (q := 60) (60 : ℤ) (by norm_num) (by norm_num) (by norm_num)
  set g := Round64.rndQ (f * 60) with hg
  have x2 : Is (((GoFloat.abs v : F64) -. lit (d : ℚ)) *. lit 60) g := by
    obtain ⟨s, r, e⟩ := x1
    rw [e, e60, fin_mul]
    exact round_is (n := 60) _ (by norm_num) (by rw [abs_of_nonneg (by positivity)]; push_cast; linarith)
  have hg0 : 0 ≤ g := Round64.rndQ_nonneg (by positivity)
  have hg1 : g < 60 := lt_of_le_of_lt (Round64.rndQ_mono (by linarith)) sixty
  set m := ⌊g⌋ with hm
  have e2 : (toDMS pos neg v).minutes = m := by
    have : (toDMS pos neg v).minutes =
        GoMath.toInt (((GoFloat.abs v : F64) -. lit ((toDMS pos neg v).degrees : ℚ)) *. lit 60) := rfl
    rw [this, e1]
    refine toInt_is x2 hg0 ?_
    norm_num
    linarith
  exact ⟨e1, e2, x1, hf0, hf1, hg0, hg1⟩

/-- **C49 in doubles, up to rounding.** -/
theorem dms_partial [MathLib] (pos neg : String) (v : F64) (q : ℚ) (hv : Is v q) (hq : |q| ≤ 2 ^ 53) :
    ∃ s, Spec pos neg q (toDMS pos neg v) s := by
  obtain ⟨e1, e2, x1, hf0, hf1, hg0, hg1⟩ := parts pos neg v q hv hq
  obtain ⟨r60, e60⟩ := lit_nat (q := 60) (60 : ℤ) (by norm_num) (by norm_num) (by norm_num)
  obtain ⟨r36, e36⟩ := lit_nat (q := 3600) (3600 : ℤ) (by norm_num) (by norm_num) (by norm_num)
  obtain ⟨c, hc⟩ : ∃ c : ℚ, c = 2 ^ (-53 : ℤ) := ⟨_, rfl⟩
  have p53 : 0 < c := by rw [hc]; positivity
  have p53' : c ≤ 1 / 10 ^ 12 := by rw [hc]; norm_num
  have p39 : (2 : ℚ) ^ (-39 : ℤ) = 16384 * c := by rw [hc]; norm_num
  have err : ∀ {x b : ℚ}, |x| ≤ b → 1 ≤ b → |Round64.rndQ x - x| ≤ b * c := fun h hb => hc ▸ rnd_err h hb
  have ha : |q| = ⌊|q|⌋ + (|q| - ⌊|q|⌋) := by ring
  generalize hd : ⌊|q|⌋ = d at *
  generalize hf : |q| - d = f at *
  have hge : |Round64.rndQ (f * 60) - f * 60| ≤ 60 * c :=
    err (by rw [abs_of_nonneg (by positivity)]; linarith) (by norm_num)
  generalize hg : Round64.rndQ (f * 60) = g at *
  have gl := Int.floor_le g
  have gu := Int.lt_floor_add_one g
  have hm0 : 0 ≤ ⌊g⌋ := Int.floor_nonneg.mpr hg0
  have hm1 : ⌊g⌋ ≤ 59 := by
    have : ⌊g⌋ < 60 := Int.floor_lt.mpr (by exact_mod_cast hg1)
    omega
  generalize hm : ⌊g⌋ = m at *
  have hmq0 : (0 : ℚ) ≤ m := by exact_mod_cast hm0
  have hmq1 : (m : ℚ) ≤ 59 := by exact_mod_cast hm1
  obtain ⟨rm, em⟩ := lit_nat (q := (m : ℚ)) m rfl (by rw [abs_of_nonneg hm0]; omega) hm0
  set h := Round64.rndQ ((m : ℚ) / 60) with hh
  have hm60 : |(m : ℚ) / 60| ≤ 1 := by
    rw [abs_of_nonneg (by positivity)]
    linarith
  have x3 : Is ((lit (m : ℚ) : F64) /. lit 60) h := by
    rw [em, e60, fin_div, if_neg (by norm_num)]
    exact round_is (n := 1) _ (by norm_num) (by exact_mod_cast hm60)
  have hhe : |h - m / 60| ≤ 1 * c := err hm60 le_rfl
  have hk : |f - h| ≤ 1 / 60 + 1 / 10 ^ 11 := by
    rw [abs_le] at hge hhe ⊢
    constructor <;> linarith
  set k := Round64.rndQ (f - h) with hkd
  have x4 : Is ((GoFloat.abs v : F64) -. lit (d : ℚ) -. (lit (m : ℚ) /. lit 60)) k := by
    obtain ⟨s1, r1, i1⟩ := x1
    obtain ⟨s3, r3, i3⟩ := x3
    rw [i1, i3, fin_sub, ← sub_eq_add_neg]
    exact round_is (n := 1) _ (by norm_num) (hk.trans (by norm_num))
  have hke : |k - (f - h)| ≤ 1 * c := err (hk.trans (by norm_num)) le_rfl
  set t := Round64.rndQ (k * 3600) with ht
  have hk3 : |k * 3600| ≤ 61 := by
    rw [abs_le] at hke hk ⊢
    constructor <;> linarith
  have x5 : Is (((GoFloat.abs v : F64) -. lit (d : ℚ) -. (lit (m : ℚ) /. lit 60)) *. lit 3600) t := by
    obtain ⟨s, r, e⟩ := x4
    rw [e, e36, fin_mul]
    exact round_is (n := 61) _ (by norm_num) (by exact_mod_cast hk3)
  have hte : |t - k * 3600| ≤ 61 * c := err hk3 (by norm_num)
  have e3 : (toDMS pos neg v).seconds =
      (((GoFloat.abs v : F64) -. lit ((toDMS pos neg v).degrees : ℚ)) -.
        (lit ((toDMS pos neg v).minutes : ℚ) /. lit 60)) *. lit 3600 := rfl
  obtain ⟨z0, w0⟩ := lit_nat (q := 0) (0 : ℤ) (by norm_num) (by norm_num) (by norm_num)
  rw [abs_le] at hge hhe hke hte
  refine ⟨t, hd.symm ▸ e1, ?_, ?_, ?_, ?_, ?_, ?_⟩
  · rw [e2]
    exact ⟨hm0, hm1⟩
  · rw [e3, e1, e2]
    exact x5
  · rw [p39]
    constructor <;> linarith
  · rw [e1, e2, abs_le]
    rw [ha, ← hc]
    constructor <;> linarith
  · intro h0
    obtain ⟨s, r, rfl⟩ := hv
    show (if (lit 0 <. F64.fin s q r) = true then pos else neg) = pos
    rw [w0, fin_lt, if_pos (by simpa using h0)]
  · intro h0
    obtain ⟨s, r, rfl⟩ := hv
    show (if (lit 0 <. F64.fin s q r) = true then pos else neg) = neg
    rw [w0, fin_lt, if_neg (by simpa using h0.le)]

/-- The mathematical library does not matter for finite numbers up to `2 ^ 53`. -/
theorem library_irrelevant (L L' : MathLib) (pos neg : String) (v : F64) (q : ℚ) (hv : Is v q) (hq : |q| ≤ 2 ^ 53) :
    @toDMS F64 (@instGoMathOfMathLib L) pos neg v = @toDMS F64 (@instGoMathOfMathLib L') pos neg v := by
  obtain ⟨a1, a2, -⟩ := @parts L pos neg v q hv hq
  obtain ⟨b1, b2, -⟩ := @parts L' pos neg v q hv hq
  rw [← b1] at a1
  rw [← b2] at a2
  have e1 : (@toDMS F64 (@instGoMathOfMathLib L) pos neg v).seconds =
      (((GoFloat.abs v : F64) -. lit ((@toDMS F64 (@instGoMathOfMathLib L) pos neg v).degrees : ℚ)) -.
        (lit ((@toDMS F64 (@instGoMathOfMathLib L) pos neg v).minutes : ℚ) /. lit 60)) *. lit 3600 := rfl
  have e2 : (@toDMS F64 (@instGoMathOfMathLib L') pos neg v).seconds =
      (((GoFloat.abs v : F64) -. lit ((@toDMS F64 (@instGoMathOfMathLib L') pos neg v).degrees : ℚ)) -.
        (lit ((@toDMS F64 (@instGoMathOfMathLib L') pos neg v).minutes : ℚ) /. lit 60)) *. lit 3600 := rfl
  rw [a1, a2, ← e2] at e1
  have e3 : (@toDMS F64 (@instGoMathOfMathLib L) pos neg v).direction =
      (@toDMS F64 (@instGoMathOfMathLib L') pos neg v).direction := rfl
  generalize @toDMS F64 (@instGoMathOfMathLib L) pos neg v = x at *
  generalize @toDMS F64 (@instGoMathOfMathLib L') pos neg v = y at *
  cases x
  cases y
  simp_all

/-- **Negation.** 0.38333333333333325 degrees: 23 minutes and a negative number of seconds. -/
theorem seconds_negative [MathLib] : (toDMS "N" "S" (lit (0x18888888888888 / 2 ^ 54) : F64)).minutes = 23 ∧
    ((toDMS "N" "S" (lit (0x18888888888888 / 2 ^ 54) : F64)).seconds <. lit 0) = true := by
  obtain ⟨q, h1, h2, h3⟩ := unit_lit (q := 0x18888888888888 / 2 ^ 54) (by norm_num) (by norm_num)
  rw [library_irrelevant _ ToyF64.crude "N" "S" _ q h1 (by rw [abs_of_nonneg h2]; norm_num; linarith)]
  constructor <;> decide +kernel

theorem claim_fails [MathLib] : ¬ Claim := by
  intro h
  obtain ⟨q, h1, h2, h3⟩ := unit_lit (q := 0x18888888888888 / 2 ^ 54) (by norm_num) (by norm_num)
  have := h "N" "S" _ q h1 (by rw [abs_of_nonneg h2]; linarith)
  have hn := seconds_negative.2
  rw [lt_false_of_le this] at hn
  cases hn

/-- Both halves of every published location. -/
theorem location_partial [MathLib] (n : Navigator F64) (s s' : DevState F64) (lat lon : ℚ) (h : n.update s = .ok s')
    (h1 : Is n.point.lat lat) (h2 : Is n.point.lon lon) (h3 : |lat| ≤ 2 ^ 53) (h4 : |lon| ≤ 2 ^ 53) :
    (∃ t, Spec "N" "S" lat s'.loc.latDms t) ∧ ∃ t, Spec "E" "W" lon s'.loc.lonDms t := by
  obtain ⟨a, b⟩ := location_dms h
  rw [a, b]
  exact ⟨dms_partial _ _ _ _ h1 h3, dms_partial _ _ _ _ h2 h4⟩

/-! Non-vacuity: 55.75 degrees west. -/
example : toDMS "E" "W" (lit (-223 / 4) : F64) = ⟨55, 45, lit 0, "W"⟩ := by decide +kernel

end Double
end C49
end GpsGen
