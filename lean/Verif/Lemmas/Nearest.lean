import Verif.Lemmas.Round64
/-!
# Rounding goes to a nearest double
-/

namespace GpsGen
namespace Round64

/-- No integer is closer. -/
theorem rne_nearest (q : ℚ) (k : ℤ) : |(rne q : ℚ) - q| ≤ |(k : ℚ) - q| := by
  have h1 := Int.floor_le q
  have h2 := Int.lt_floor_add_one q
  have hk : ((k : ℚ) ≤ ⌊q⌋) ∨ ((⌊q⌋ : ℚ) + 1 ≤ k) := by
    rcases le_or_gt k ⌊q⌋ with h | h
    · exact Or.inl (by exact_mod_cast h)
    · exact Or.inr (by exact_mod_cast h)
  have hr : |(rne q : ℚ) - q| ≤ q - ⌊q⌋ ∧ |(rne q : ℚ) - q| ≤ ⌊q⌋ + 1 - q := by
    unfold rne
    dsimp only
    split_ifs <;> (push_cast; constructor <;> rw [abs_le] <;> constructor <;> linarith)
  rcases hk with h | h
  · have : q - k ≤ |(k : ℚ) - q| := by rw [abs_sub_comm]; exact le_abs_self _
    linarith [hr.1]
  · have : k - q ≤ |(k : ℚ) - q| := le_abs_self _
    linarith [hr.2]

/-- No double is closer. -/
theorem rndQ_nearest (y : ℚ) {x : ℚ} (hx : rndQ x = x) : |rndQ y - y| ≤ |x - y| := by
  by_cases hy : y = 0
  · subst hy; rw [rndQ_zero]; simp
  have hu := pow2_pos (uexp y)
  -- multiples of the unit of `y`
  have grid : ∀ k : ℤ, |rndQ y - y| ≤ |(k : ℚ) * pow2 (uexp y) - y| := by
    intro k
    have e : ∀ z : ℚ, z * pow2 (uexp y) - y = (z - y / pow2 (uexp y)) * pow2 (uexp y) := by
      intro z; rw [sub_mul, div_mul_cancel₀ _ hu.ne']
    rw [rndQ_of_ne hy, e, e, abs_mul, abs_mul]
    exact mul_le_mul_of_nonneg_right (rne_nearest _ k) (abs_nonneg _)
  have mult : ∀ e : ℤ, uexp y ≤ e → ∀ m : ℤ, ∃ k : ℤ, (m : ℚ) * (2 : ℚ) ^ e = (k : ℚ) * pow2 (uexp y) := by
    intro e he m
    refine ⟨m * 2 ^ (e - uexp y).toNat, ?_⟩
    rw [pow2_eq]
    push_cast
    rw [mul_assoc, ← zpow_natCast, ← zpow_add₀ (by norm_num : (2 : ℚ) ≠ 0), Int.toNat_of_nonneg (by omega)]
    congr 2
    omega
  by_cases h0 : x = 0
  · subst h0
    simpa using grid 0
  by_cases hc : uexp y ≤ uexp x
  · rw [rndQ_of_ne h0, pow2_eq] at hx
    obtain ⟨k, hk⟩ := mult _ hc (rne (x / pow2 (uexp x)))
    rw [pow2_eq] at hk
    rw [hk] at hx
    rw [← hx]
    exact grid k
  · have hyl : uexp y = ilog y - 52 := by unfold uexp at *; omega
    have hxl : ilog x < ilog y := by unfold uexp at *; omega
    have hx2 : |x| ≤ 2 ^ ilog y :=
      (ilog_spec h0).2.le.trans (zpow_le_zpow_right₀ (by norm_num) (by omega))
    have hy2 := (ilog_spec hy).1
    have hx3 := abs_le.mp hx2
    rcases lt_or_gt_of_ne hy with hn | hp
    · obtain ⟨k, hk⟩ := mult (ilog y) (by omega) (-1)
      refine (grid k).trans ?_
      rw [← hk]
      rw [abs_of_neg hn] at hy2
      push_cast
      rw [abs_of_nonneg (by linarith), abs_of_nonneg (by linarith)]
      linarith
    · obtain ⟨k, hk⟩ := mult (ilog y) (by omega) 1
      refine (grid k).trans ?_
      rw [← hk]
      rw [abs_of_pos hp] at hy2
      push_cast
      rw [abs_of_nonpos (by linarith), abs_of_nonpos (by linarith)]
      linarith

end Round64
end GpsGen
