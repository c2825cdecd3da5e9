import Mathlib.Data.Rat.Floor
import Mathlib.Algebra.Order.Field.Power
import Mathlib.Tactic.Linarith
import Mathlib.Tactic.Ring
import Mathlib.Tactic.FieldSimp
import Mathlib.Tactic.Positivity

/-!
# Rounding of IEEE 754 binary64

`rndQ q` is the value that a `float64` operation with the exact result `q` returns: the nearest number with 53
significant bits and an exponent of at least -1074, ties to even (IEEE 754, round to nearest). Overflow is treated in
`Verif.Model.F64`. The lemmas are those needed to define the number type; more are in `Verif.Lemmas.Round64`.
-/

namespace GpsGen
namespace Round64

/-- `2 ^ e`. -/
def pow2 : ℤ → ℚ
  | .ofNat n => ((2 ^ n : ℕ) : ℚ)
  | .negSucc n => 1 / ((2 ^ (n + 1) : ℕ) : ℚ)

/-- Nearest integer, ties to even. -/
def rne (q : ℚ) : ℤ :=
  let f := ⌊q⌋
  let d := q - f
  if d < 1 / 2 then f else if 1 / 2 < d then f + 1 else if f % 2 = 0 then f else f + 1

/-- The exponent of the leading binary digit of `q ≠ 0`. -/
def ilog (q : ℚ) : ℤ :=
  let e : ℤ := (q.num.natAbs.log2 : ℤ) - (q.den.log2 : ℤ)
  if pow2 e ≤ |q| then e else e - 1

/-- The exponent of the last place: 53 digits, not below `2 ^ -1074`. -/
def uexp (q : ℚ) : ℤ := max (ilog q - 52) (-1074)

/-- Round to nearest. -/
def rndQ (q : ℚ) : ℚ := if q = 0 then 0 else (rne (q / pow2 (uexp q)) : ℚ) * pow2 (uexp q)

theorem pow2_eq (e : ℤ) : pow2 e = (2 : ℚ) ^ e := by
  cases e with
  | ofNat n => simp [pow2]
  | negSucc n => simp [pow2, zpow_negSucc]

theorem pow2_pos (e : ℤ) : 0 < pow2 e := by
  rw [pow2_eq]
  positivity

/-! ## Integers -/

theorem rne_cases (q : ℚ) : rne q = ⌊q⌋ ∨ rne q = ⌊q⌋ + 1 := by
  unfold rne
  dsimp only
  split_ifs <;> simp

theorem rne_int (n : ℤ) : rne (n : ℚ) = n := by simp [rne]

theorem rne_mono {x y : ℚ} (h : x ≤ y) : rne x ≤ rne y := by
  have hf : ⌊x⌋ ≤ ⌊y⌋ := Int.floor_mono h
  rcases lt_or_eq_of_le hf with hlt | heq
  · have h1 : rne x ≤ ⌊x⌋ + 1 := by rcases rne_cases x with e | e <;> omega
    have h2 : ⌊y⌋ ≤ rne y := by rcases rne_cases y with e | e <;> omega
    omega
  · have hd : x - ⌊x⌋ ≤ y - ⌊y⌋ := by rw [heq]; linarith
    unfold rne
    dsimp only
    rw [← heq] at hd ⊢
    split_ifs <;> first | omega | (exfalso; linarith)

theorem rne_neg (q : ℚ) : rne (-q) = -rne q := by
  by_cases hi : (⌊q⌋ : ℚ) = q
  · rw [← hi]
    have : (-(⌊q⌋ : ℚ)) = ((-⌊q⌋ : ℤ) : ℚ) := by push_cast; rfl
    rw [this, rne_int, rne_int]
  · have hlt : (⌊q⌋ : ℚ) < q := lt_of_le_of_ne (Int.floor_le q) hi
    have hub := Int.lt_floor_add_one q
    have hfl : ⌊-q⌋ = -⌊q⌋ - 1 := by
      rw [Int.floor_eq_iff]
      push_cast
      constructor <;> linarith
    unfold rne
    dsimp only
    rw [hfl]
    push_cast
    split_ifs <;> first | omega | (exfalso; linarith)

theorem rne_error (q : ℚ) : |(rne q : ℚ) - q| ≤ 1 / 2 := by
  have h1 := Int.floor_le q
  have h2 := Int.lt_floor_add_one q
  unfold rne
  dsimp only
  split_ifs <;> (push_cast; rw [abs_le]; constructor <;> linarith)

/-! ## The exponent -/

theorem log2_bounds {n : ℕ} (h : n ≠ 0) : 2 ^ n.log2 ≤ n ∧ n < 2 ^ (n.log2 + 1) :=
  ⟨Nat.log2_self_le h, Nat.lt_log2_self⟩

theorem ilog_spec {q : ℚ} (h : q ≠ 0) : (2 : ℚ) ^ ilog q ≤ |q| ∧ |q| < (2 : ℚ) ^ (ilog q + 1) := by
  have hn : q.num.natAbs ≠ 0 := by simpa using h
  have hd : q.den ≠ 0 := q.den_nz
  obtain ⟨a1, a2⟩ := log2_bounds hn
  obtain ⟨b1, b2⟩ := log2_bounds hd
  set a := q.num.natAbs.log2
  set b := q.den.log2
  have hq : |q| = (q.num.natAbs : ℚ) / (q.den : ℚ) := by
    conv_lhs => rw [← Rat.num_div_den q]
    rw [abs_div, Nat.abs_cast, Nat.cast_natAbs, Int.cast_abs]
  have A1 : (2 : ℚ) ^ a ≤ q.num.natAbs := by exact_mod_cast a1
  have A2 : (q.num.natAbs : ℚ) < 2 ^ (a + 1) := by exact_mod_cast a2
  have B1 : (2 : ℚ) ^ b ≤ q.den := by exact_mod_cast b1
  have B2 : (q.den : ℚ) < 2 ^ (b + 1) := by exact_mod_cast b2
  have D : (0 : ℚ) < q.den := by exact_mod_cast Nat.pos_of_ne_zero hd
  have z : ∀ m k : ℕ, (2 : ℚ) ^ ((m : ℤ) - (k : ℤ)) = 2 ^ m / 2 ^ k := by
    intro m k
    rw [zpow_sub₀ (by norm_num), zpow_natCast, zpow_natCast]
  have up : |q| < (2 : ℚ) ^ ((a : ℤ) - b + 1) := by
    have : (a : ℤ) - b + 1 = ((a + 1 : ℕ) : ℤ) - (b : ℤ) := by push_cast; ring
    rw [this, z, hq, div_lt_div_iff₀ D (by positivity)]
    have : (0 : ℚ) < 2 ^ b := by positivity
    nlinarith [mul_pos this D]
  have lo : (2 : ℚ) ^ ((a : ℤ) - b - 1) ≤ |q| := by
    have : (a : ℤ) - b - 1 = (a : ℤ) - ((b + 1 : ℕ) : ℤ) := by push_cast; ring
    rw [this, z, hq, div_le_div_iff₀ (by positivity) D]
    have : (0 : ℚ) < 2 ^ a := by positivity
    nlinarith
  unfold ilog
  dsimp only
  rw [pow2_eq]
  split_ifs with hc
  · exact ⟨hc, up⟩
  · exact ⟨lo, by simpa using hc⟩

theorem ilog_le_of_lt {q : ℚ} (h : q ≠ 0) {e : ℤ} (hq : |q| < (2 : ℚ) ^ (e + 1)) : ilog q ≤ e := by
  by_contra hc
  have : (2 : ℚ) ^ (e + 1) ≤ 2 ^ ilog q := zpow_le_zpow_right₀ (by norm_num) (by omega)
  linarith [(ilog_spec h).1]

theorem le_ilog_of_le {q : ℚ} (h : q ≠ 0) {e : ℤ} (hq : (2 : ℚ) ^ e ≤ |q|) : e ≤ ilog q := by
  by_contra hc
  have : (2 : ℚ) ^ (ilog q + 1) ≤ 2 ^ e := zpow_le_zpow_right₀ (by norm_num) (by omega)
  linarith [(ilog_spec h).2]

theorem ilog_neg (q : ℚ) : ilog (-q) = ilog q := by simp [ilog]

theorem uexp_neg (q : ℚ) : uexp (-q) = uexp q := by simp [uexp, ilog_neg]

/-! ## Rounding -/

theorem rndQ_zero : rndQ 0 = 0 := by simp [rndQ]

theorem rndQ_neg (q : ℚ) : rndQ (-q) = -rndQ q := by
  unfold rndQ
  by_cases h : q = 0
  · simp [h]
  · rw [if_neg h, if_neg (by simpa using h), uexp_neg, neg_div, rne_neg]
    push_cast
    ring

/-- Numbers with 53 digits and an exponent of at least -1074 stay as they are. -/
theorem rndQ_rep {q : ℚ} (m : ℤ) (u : ℤ) (hm : |m| ≤ 2 ^ 53) (hu : -1074 ≤ u) (hq : q = m * (2 : ℚ) ^ u) :
    rndQ q = q := by
  have key : ∀ (m u : ℤ), |m| < 2 ^ 53 → -1074 ≤ u → q = m * (2 : ℚ) ^ u → rndQ q = q := by
    intro m u hm hu hq
    unfold rndQ
    split_ifs with h0
    · exact h0.symm
    · have hb : |q| < (2 : ℚ) ^ (u + 52 + 1) := by
        rw [hq, abs_mul, abs_of_pos (by positivity : (0 : ℚ) < 2 ^ u),
          show u + 52 + 1 = 53 + u by ring, zpow_add₀ (by norm_num)]
        have : (|(m : ℚ)|) < 2 ^ (53 : ℤ) := by
          have : ((|m| : ℤ) : ℚ) < ((2 ^ 53 : ℤ) : ℚ) := by exact_mod_cast hm
          rw [Int.cast_abs] at this
          rw [show (2 : ℚ) ^ (53 : ℤ) = ((2 ^ 53 : ℤ) : ℚ) by norm_num]
          exact this
        exact mul_lt_mul_of_pos_right this (by positivity)
      have hl := ilog_le_of_lt h0 hb
      have hx : uexp q ≤ u := by unfold uexp; omega
      have hi : q / pow2 (uexp q) = ((m * 2 ^ (u - uexp q).toNat : ℤ) : ℚ) := by
        rw [pow2_eq]
        rw [div_eq_iff (by positivity)]
        push_cast
        rw [mul_assoc, ← zpow_natCast, ← zpow_add₀ (by norm_num : (2 : ℚ) ≠ 0), Int.toNat_of_nonneg (by omega),
          show u - uexp q + uexp q = u by ring]
        exact hq
      rw [hi, rne_int, ← hi, div_mul_cancel₀ _ (pow2_pos _).ne']
  rcases lt_or_eq_of_le hm with h | h
  · exact key m u h hu hq
  · have hs : m = 2 ^ 53 ∨ m = -2 ^ 53 := by
      rcases abs_choice m with e | e <;> rw [e] at h <;> omega
    rcases hs with rfl | rfl
    · refine key (2 ^ 52) (u + 1) (by norm_num) (by omega) ?_
      rw [hq, zpow_add₀ (by norm_num)]
      push_cast
      ring
    · refine key (-2 ^ 52) (u + 1) (by norm_num) (by omega) ?_
      rw [hq, zpow_add₀ (by norm_num)]
      push_cast
      ring

theorem scaled_lt {q : ℚ} (h : q ≠ 0) : |q / pow2 (uexp q)| ≤ 2 ^ 53 := by
  rw [pow2_eq, abs_div, abs_of_pos (by positivity : (0 : ℚ) < 2 ^ uexp q), div_le_iff₀ (by positivity)]
  have h2 := (ilog_spec h).2
  have : (2 : ℚ) ^ (ilog q + 1) ≤ 2 ^ (53 : ℤ) * 2 ^ uexp q := by
    rw [← zpow_add₀ (by norm_num)]
    apply zpow_le_zpow_right₀ (by norm_num)
    unfold uexp
    omega
  rw [show (2 : ℚ) ^ (53 : ℤ) = 2 ^ 53 by norm_cast] at this
  linarith

theorem rne_abs_le {q : ℚ} {n : ℤ} (h : |q| ≤ n) : |rne q| ≤ n := by
  rw [abs_le] at h ⊢
  have h1 := rne_mono h.1
  have h2 := rne_mono h.2
  rw [rne_int] at h2
  rw [show (-(n : ℚ)) = ((-n : ℤ) : ℚ) by push_cast; rfl, rne_int] at h1
  exact ⟨h1, h2⟩

theorem rndQ_form (q : ℚ) : ∃ m u : ℤ, |m| ≤ 2 ^ 53 ∧ -1074 ≤ u ∧ rndQ q = m * (2 : ℚ) ^ u := by
  by_cases h : q = 0
  · exact ⟨0, 0, by norm_num, by norm_num, by simp [h, rndQ]⟩
  · refine ⟨rne (q / pow2 (uexp q)), uexp q, ?_, by unfold uexp; omega, ?_⟩
    · exact rne_abs_le (by exact_mod_cast scaled_lt h)
    · rw [← pow2_eq]
      simp [rndQ, h]

theorem rndQ_idem (q : ℚ) : rndQ (rndQ q) = rndQ q := by
  obtain ⟨m, u, hm, hu, e⟩ := rndQ_form q
  exact rndQ_rep m u hm hu e

theorem rndQ_nonneg {q : ℚ} (h : 0 ≤ q) : 0 ≤ rndQ q := by
  unfold rndQ
  split_ifs
  · exact le_refl _
  · have h1 : (0 : ℚ) ≤ q / pow2 (uexp q) := div_nonneg h (pow2_pos _).le
    have h2 := rne_mono h1
    rw [show (0 : ℚ) = ((0 : ℤ) : ℚ) by norm_num, rne_int] at h2
    have h3 : (0 : ℚ) ≤ (rne (q / pow2 (uexp q)) : ℚ) := by exact_mod_cast h2
    exact mul_nonneg h3 (pow2_pos _).le

theorem rndQ_nonpos {q : ℚ} (h : q ≤ 0) : rndQ q ≤ 0 := by
  have := rndQ_nonneg (neg_nonneg.mpr h)
  rw [rndQ_neg] at this
  linarith

end Round64
end GpsGen
