import Verif.Model.Wire
import Verif.Lemmas.F64Order
/-!
# The bits of IEEE doubles

`math.Float64bits` and `math.Float64frombits`: sign, eleven bits of exponent, 52 bits of fraction. The model has one NaN;
its bits are those of `math.NaN()`.
-/

namespace GpsGen
namespace F64
open Round64

/-- Exponent and fraction of a number that is not negative. The leading digit of the mantissa, if there is one, adds one
to the exponent. -/
def magnitude (q : ℚ) : ℕ :=
  if q = 0 then 0 else (uexp q + 1074).toNat * 2 ^ 52 + (q / pow2 (uexp q)).num.natAbs

/-- The bits as a number. -/
def bitsNat : F64 → ℕ
  | .fin s q _ => (if s then 2 ^ 63 else 0) + magnitude q
  | .inf s => (if s then 2 ^ 63 else 0) + 2047 * 2 ^ 52
  | .nan => 0x7FF8000000000001

/-- The double with this sign, exponent and fraction. -/
def ofParts (s : Bool) (e f : ℕ) : F64 :=
  if e = 2047 then (if f = 0 then .inf s else .nan)
  else
    let m : ℚ := if e = 0 then f * pow2 (-1074) else (2 ^ 52 + f : ℕ) * pow2 ((e : ℤ) - 1075)
    F64.round s (if s then -m else m)

/-- The double with these bits. -/
def ofBitsNat (n : ℕ) : F64 := ofParts (decide (2 ^ 63 ≤ n)) (n % 2 ^ 63 / 2 ^ 52) (n % 2 ^ 52)

theorem mantissa {q : ℚ} (h : rndQ q = q) (h0 : q ≠ 0) :
    ∃ m : ℕ, (q / pow2 (uexp q)).num.natAbs = m ∧ |q| = m * pow2 (uexp q) ∧ m < 2 ^ 53 ∧
      (uexp q ≠ -1074 → 2 ^ 52 ≤ m) := by
  have hp := pow2_pos (uexp q)
  have hr : q / pow2 (uexp q) = (rne (q / pow2 (uexp q)) : ℚ) := by
    have := rndQ_of_ne h0
    rw [h] at this
    rw [div_eq_iff hp.ne']
    exact this
  obtain ⟨n, hn⟩ : ∃ n : ℤ, q / pow2 (uexp q) = n := ⟨_, hr⟩
  have hnum : (q / pow2 (uexp q)).num = n := by rw [hn]; exact Rat.num_intCast n
  have habs : |q| = (n.natAbs : ℚ) * pow2 (uexp q) := by
    have : q = n * pow2 (uexp q) := by rw [← hn]; field_simp
    conv_lhs => rw [this]
    rw [abs_mul, abs_of_pos hp, Nat.cast_natAbs]
    push_cast; rfl
  obtain ⟨l1, l2⟩ := ilog_spec h0
  have hu : ilog q - 52 ≤ uexp q := le_max_left _ _
  refine ⟨n.natAbs, by rw [hnum], habs, ?_, fun hne => ?_⟩
  · have hle : (2 : ℚ) ^ (ilog q + 1) ≤ 2 ^ 53 * pow2 (uexp q) := by
      rw [pow2_eq, show ((2 : ℚ) ^ 53) = 2 ^ (53 : ℤ) by norm_num, ← zpow_add₀ (by norm_num)]
      exact zpow_le_zpow_right₀ (by norm_num) (by omega)
    have : (n.natAbs : ℚ) * pow2 (uexp q) < 2 ^ 53 * pow2 (uexp q) := by
      rw [← habs]; exact lt_of_lt_of_le l2 hle
    have := lt_of_mul_lt_mul_right this hp.le
    exact_mod_cast this
  · have he : uexp q = ilog q - 52 := by
      unfold uexp at hne ⊢
      omega
    have hge : (2 : ℚ) ^ 52 * pow2 (uexp q) ≤ (n.natAbs : ℚ) * pow2 (uexp q) := by
      rw [← habs]
      refine _root_.le_trans (le_of_eq ?_) l1
      rw [pow2_eq, show ((2 : ℚ) ^ 52) = 2 ^ (52 : ℤ) by norm_num, ← zpow_add₀ (by norm_num), he]
      congr 1; omega
    have := le_of_mul_le_mul_right hge hp
    exact_mod_cast this

theorem uexp_range {q : ℚ} (h0 : q ≠ 0) (hb : |q| < pow2 1024) : -1074 ≤ uexp q ∧ uexp q ≤ 971 := by
  refine ⟨le_max_right _ _, ?_⟩
  have : ilog q ≤ 1023 := ilog_le_of_lt h0 (by rw [pow2_eq] at hb; exact hb)
  unfold uexp
  omega

theorem magnitude_lt {s : Bool} {q : ℚ} (h : Rep s q) : magnitude q < 2047 * 2 ^ 52 := by
  unfold magnitude
  split_ifs with h0
  · norm_num
  · obtain ⟨m, hm, -, hlt, -⟩ := mantissa h.1 h0
    obtain ⟨u1, u2⟩ := uexp_range h0 h.2.1
    rw [hm]
    have : (uexp q + 1074).toNat ≤ 2045 := by omega
    have : (uexp q + 1074).toNat * 2 ^ 52 ≤ 2045 * 2 ^ 52 := Nat.mul_le_mul_right _ this
    omega

theorem ofParts_magnitude {s : Bool} {q : ℚ} (h : Rep s q) :
    ofParts s (magnitude q / 2 ^ 52) (magnitude q % 2 ^ 52) = .fin s q h := by
  have hlt := magnitude_lt h
  have hne : ¬ magnitude q / 2 ^ 52 = 2047 := by omega
  unfold ofParts
  rw [if_neg hne]
  have key : (if magnitude q / 2 ^ 52 = 0 then ((magnitude q % 2 ^ 52 : ℕ) : ℚ) * pow2 (-1074)
      else ((2 ^ 52 + magnitude q % 2 ^ 52 : ℕ) : ℚ) * pow2 (((magnitude q / 2 ^ 52 : ℕ) : ℤ) - 1075)) = |q| := by
    by_cases h0 : q = 0
    · simp [magnitude, h0]
    · obtain ⟨m, hm, habs, hlt, hge⟩ := mantissa h.1 h0
      obtain ⟨u1, u2⟩ := uexp_range h0 h.2.1
      have hmag : magnitude q = (uexp q + 1074).toNat * 2 ^ 52 + m := by
        unfold magnitude
        rw [if_neg h0, hm]
      rw [habs, hmag]
      by_cases hm52 : m < 2 ^ 52
      · have hu : uexp q = -1074 := by
          by_contra hc
          exact absurd (hge hc) (by omega)
        rw [hu, show ((-1074 : ℤ) + 1074).toNat * 2 ^ 52 + m = m by simp, Nat.div_eq_of_lt hm52, if_pos rfl,
          Nat.mod_eq_of_lt hm52]
      · obtain ⟨k, hk⟩ : ∃ k : ℕ, uexp q = (k : ℤ) - 1074 := ⟨(uexp q + 1074).toNat, by omega⟩
        obtain ⟨f, hf⟩ : ∃ f : ℕ, m = 2 ^ 52 + f := ⟨m - 2 ^ 52, by omega⟩
        have hk' : (uexp q + 1074).toNat = k := by omega
        rw [hk']
        have hd : (k * 2 ^ 52 + m) / 2 ^ 52 = k + 1 := by omega
        have hmod : (k * 2 ^ 52 + m) % 2 ^ 52 = f := by omega
        rw [hd, hmod, if_neg (by omega), ← hf, hk]
        congr 2
        push_cast
        ring
  simp only [key]
  have hq : (if s = true then -|q| else |q|) = q := by
    by_cases h0 : q = 0
    · simp [h0]
    · rw [h.2.2 h0]
      by_cases hn : q < 0
      · simp [hn, abs_of_neg hn]
      · simp [hn, abs_of_nonneg (not_lt.mp hn)]
  rw [hq]
  exact round_fin h

theorem bits_lt (x : F64) : bitsNat x < 2 ^ 64 := by
  cases x with
  | fin s q h =>
    have := magnitude_lt h
    cases s <;> simp [bitsNat] <;> omega
  | inf s => cases s <;> decide
  | nan => decide

theorem ofBits_bits (x : F64) : ofBitsNat (bitsNat x) = x := by
  cases x with
  | fin s q h =>
    have hlt := magnitude_lt h
    unfold ofBitsNat bitsNat
    have h1 : decide (2 ^ 63 ≤ (if s = true then 2 ^ 63 else 0) + magnitude q) = s := by
      cases s
      · simp; omega
      · simp
    have h2 : ((if s = true then 2 ^ 63 else 0) + magnitude q) % 2 ^ 63 = magnitude q := by
      cases s
      · simp only [Bool.false_eq_true, if_false]; omega
      · simp only [if_true]; omega
    have h3 : ((if s = true then 2 ^ 63 else 0) + magnitude q) % 2 ^ 52 = magnitude q % 2 ^ 52 := by
      cases s
      · simp only [Bool.false_eq_true, if_false]; omega
      · simp only [if_true]; omega
    simp only [h1, h2, h3]
    exact ofParts_magnitude h
  | inf s => cases s <;> rfl
  | nan => rfl

instance : WireFloat F64 where
  bits x := UInt64.ofNat (bitsNat x)
  ofBits b := ofBitsNat b.toNat
  ofBits_bits x := by
    rw [UInt64.toNat_ofNat_of_lt' (bits_lt x)]
    exact ofBits_bits x

example : bitsNat (F64.round false 1) = 0x3FF0000000000000 ∧ bitsNat (F64.round false (3 / 2)) = 0x3FF8000000000000 ∧
    bitsNat (F64.round false (-2)) = 0xC000000000000000 ∧ bitsNat (F64.zero true) = 0x8000000000000000 := by
  decide +kernel

/-- The smallest and the largest number, and 0.1. -/
example : bitsNat (F64.round false (pow2 (-1074))) = 1 ∧
    bitsNat (F64.round false ((2 ^ 53 - 1) * pow2 971)) = 0x7FEFFFFFFFFFFFFF ∧
    bitsNat (F64.round false (1 / 10)) = 0x3FB999999999999A := by
  decide +kernel

end F64
end GpsGen
