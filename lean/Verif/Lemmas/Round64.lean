import Verif.Model.F64

/-!
# Rounding: order and error

Rounding keeps order, so every operation of `float64` is monotone where the exact one is.
-/

namespace GpsGen
namespace Round64

theorem uexp_le_of_ilog_le {x y : ℚ} (h : ilog x ≤ ilog y) : uexp x ≤ uexp y := by
  unfold uexp
  omega

theorem ilog_mono {x y : ℚ} (hx : x ≠ 0) (hy : y ≠ 0) (h : |x| ≤ |y|) : ilog x ≤ ilog y :=
  ilog_le_of_lt hx (lt_of_le_of_lt h (ilog_spec hy).2)

theorem rndQ_of_ne {q : ℚ} (h : q ≠ 0) : rndQ q = (rne (q / pow2 (uexp q)) : ℚ) * pow2 (uexp q) := by
  simp [rndQ, h]

theorem rndQ_mono_pos {x y : ℚ} (hx : 0 < x) (h : x ≤ y) : rndQ x ≤ rndQ y := by
  have hy : 0 < y := lt_of_lt_of_le hx h
  have hl : ilog x ≤ ilog y := ilog_mono hx.ne' hy.ne' (by rw [abs_of_pos hx, abs_of_pos hy]; exact h)
  rw [rndQ_of_ne hx.ne', rndQ_of_ne hy.ne']
  rcases lt_or_eq_of_le (uexp_le_of_ilog_le hl) with hlt | heq
  · have hyl : uexp y = ilog y - 52 := by unfold uexp at *; omega
    have hxl : ilog x < ilog y := by unfold uexp at *; omega
    have hux : uexp x ≤ ilog y := by omega
    -- both sides are separated by `2 ^ ilog y`
    have h1 : (rne (x / pow2 (uexp x)) : ℚ) * pow2 (uexp x) ≤ 2 ^ ilog y := by
      have hx2 : x ≤ 2 ^ ilog y := by
        have := (ilog_spec hx.ne').2
        rw [abs_of_pos hx] at this
        have h3 : (2 : ℚ) ^ (ilog x + 1) ≤ 2 ^ ilog y := zpow_le_zpow_right₀ (by norm_num) (by omega)
        linarith
      have hi : x / pow2 (uexp x) ≤ ((2 ^ (ilog y - uexp x).toNat : ℤ) : ℚ) := by
        rw [div_le_iff₀ (pow2_pos _), pow2_eq]
        push_cast
        rw [← zpow_natCast, ← zpow_add₀ (by norm_num : (2 : ℚ) ≠ 0), Int.toNat_of_nonneg (by omega)]
        simpa using hx2
      have h4 := rne_mono hi
      rw [rne_int] at h4
      have h5 : (rne (x / pow2 (uexp x)) : ℚ) ≤ ((2 ^ (ilog y - uexp x).toNat : ℤ) : ℚ) := by exact_mod_cast h4
      calc _ ≤ ((2 ^ (ilog y - uexp x).toNat : ℤ) : ℚ) * pow2 (uexp x) :=
            mul_le_mul_of_nonneg_right h5 (pow2_pos _).le
        _ = 2 ^ ilog y := by
            rw [pow2_eq]
            push_cast
            rw [← zpow_natCast, ← zpow_add₀ (by norm_num : (2 : ℚ) ≠ 0), Int.toNat_of_nonneg (by omega)]
            simp
    have h2 : (2 : ℚ) ^ ilog y ≤ (rne (y / pow2 (uexp y)) : ℚ) * pow2 (uexp y) := by
      have hi : ((2 ^ 52 : ℤ) : ℚ) ≤ y / pow2 (uexp y) := by
        rw [le_div_iff₀ (pow2_pos _), pow2_eq, hyl]
        have := (ilog_spec hy.ne').1
        rw [abs_of_pos hy] at this
        rw [show ((2 ^ 52 : ℤ) : ℚ) = 2 ^ (52 : ℤ) by norm_num, ← zpow_add₀ (by norm_num : (2 : ℚ) ≠ 0)]
        simpa using this
      have h4 := rne_mono hi
      rw [rne_int] at h4
      have h5 : ((2 ^ 52 : ℤ) : ℚ) ≤ (rne (y / pow2 (uexp y)) : ℚ) := by exact_mod_cast h4
      calc (2 : ℚ) ^ ilog y = ((2 ^ 52 : ℤ) : ℚ) * pow2 (uexp y) := by
            rw [pow2_eq, hyl, show ((2 ^ 52 : ℤ) : ℚ) = 2 ^ (52 : ℤ) by norm_num,
              ← zpow_add₀ (by norm_num : (2 : ℚ) ≠ 0)]
            simp
        _ ≤ _ := mul_le_mul_of_nonneg_right h5 (pow2_pos _).le
    linarith
  · rw [heq]
    apply mul_le_mul_of_nonneg_right _ (pow2_pos _).le
    have : x / pow2 (uexp y) ≤ y / pow2 (uexp y) := div_le_div_of_nonneg_right h (pow2_pos _).le
    exact_mod_cast rne_mono this

/-- Rounding keeps order. -/
theorem rndQ_mono {x y : ℚ} (h : x ≤ y) : rndQ x ≤ rndQ y := by
  rcases lt_trichotomy x 0 with hx | hx | hx
  · rcases lt_or_ge y 0 with hy | hy
    · have := rndQ_mono_pos (neg_pos.mpr hy) (neg_le_neg h)
      rw [rndQ_neg, rndQ_neg] at this
      linarith
    · exact (rndQ_nonpos hx.le).trans (rndQ_nonneg hy)
  · subst hx
    rw [rndQ_zero]
    exact rndQ_nonneg h
  · exact rndQ_mono_pos hx h

/-- The relative error is at most `2 ^ -53`, the absolute one for tiny numbers at most `2 ^ -1075`. -/
theorem rndQ_error (q : ℚ) : |rndQ q - q| ≤ max (|q| * 2 ^ (-53 : ℤ)) (2 ^ (-1075 : ℤ)) := by
  by_cases h : q = 0
  · subst h
    rw [rndQ_zero]
    simp
  · have he := rne_error (q / pow2 (uexp q))
    have e : rndQ q - q = ((rne (q / pow2 (uexp q)) : ℚ) - q / pow2 (uexp q)) * pow2 (uexp q) := by
      rw [rndQ_of_ne h, sub_mul, div_mul_cancel₀ _ (pow2_pos _).ne']
    rw [e, abs_mul, abs_of_pos (pow2_pos _)]
    have h1 : |(rne (q / pow2 (uexp q)) : ℚ) - q / pow2 (uexp q)| * pow2 (uexp q) ≤ 1 / 2 * pow2 (uexp q) :=
      mul_le_mul_of_nonneg_right he (pow2_pos _).le
    refine h1.trans ?_
    rw [pow2_eq]
    rcases le_total (ilog q - 52) (-1074) with hc | hc
    · have : uexp q = -1074 := by unfold uexp; omega
      rw [this]
      apply le_max_of_le_right
      rw [show (-1075 : ℤ) = -1 + -1074 by norm_num, zpow_add₀ (by norm_num : (2 : ℚ) ≠ 0)]
      norm_num
    · have : uexp q = ilog q - 52 := by unfold uexp; omega
      rw [this]
      apply le_max_of_le_left
      have h2 := (ilog_spec h).1
      rw [show ilog q - 52 = ilog q + (-53 + 1) by ring, zpow_add₀ (by norm_num : (2 : ℚ) ≠ 0),
        zpow_add₀ (by norm_num : (2 : ℚ) ≠ 0)]
      have h3 : (0 : ℚ) < 2 ^ (-53 : ℤ) := by positivity
      nlinarith

/-- Integers up to `2 ^ 53` are exact. -/
theorem rndQ_int (n : ℤ) (h : |n| ≤ 2 ^ 53) : rndQ n = n := rndQ_rep n 0 h (by norm_num) (by simp)

end Round64
end GpsGen
