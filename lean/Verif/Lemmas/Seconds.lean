import Verif.Model.NumX
import Verif.Model.Types

/-!
`time.Duration.Seconds()` in exact arithmetic.
-/

namespace GpsGen

theorem split_seconds (ns : Int) : ((ns.tdiv 1000000000 : ℤ) : ℝ) + ((ns.tmod 1000000000 : ℤ) : ℝ) / 1000000000
    = (ns : ℝ) / 1000000000 := by
  have h : (1000000000 : ℤ) * ns.tdiv 1000000000 + ns.tmod 1000000000 = ns := Int.mul_tdiv_add_tmod ns 1000000000
  have h' : (1000000000 : ℝ) * ((ns.tdiv 1000000000 : ℤ) : ℝ) + ((ns.tmod 1000000000 : ℤ) : ℝ) = (ns : ℝ) := by
    exact_mod_cast congrArg (Int.cast : ℤ → ℝ) h
  rw [← h']
  ring

theorem durSeconds_real (ns : Int) : (durSeconds ns : ℝ) = (ns : ℝ) / 1000000000 := by
  unfold durSeconds
  simp only [real_add, real_div, real_lit]
  push_cast
  exact split_seconds ns

/-- The conversion to whole seconds. -/
theorem wholeSeconds_real (ns : Int) : GoMath.toInt (durSeconds ns : ℝ) = ns.tdiv 1000000000 := by
  have key : ∀ k : ℤ, 0 ≤ k → ⌊(k : ℝ) / 1000000000⌋ = k.tdiv 1000000000 := by
    intro k hk
    have := Int.floor_div_natCast (k : ℝ) 1000000000
    rw [Int.floor_intCast] at this
    rw [Int.tdiv_eq_ediv_of_nonneg hk]
    exact_mod_cast this
  rw [durSeconds_real, real_toInt]
  split_ifs with h
  · refine key ns ?_
    rw [le_div_iff₀ (by norm_num), zero_mul] at h
    exact_mod_cast h
  · have h0 : 0 ≤ -ns := by
      by_contra hn
      have : (0 : ℝ) ≤ ns := by exact_mod_cast (by omega : 0 ≤ ns)
      exact h (by positivity)
    have := key (-ns) h0
    rw [Int.neg_tdiv, Int.cast_neg, neg_div, Int.floor_neg] at this
    linarith

theorem durSeconds_x (ns : Int) : (durSeconds ns : XNum ℝ) = .fin ((ns : ℝ) / 1000000000) := by
  unfold durSeconds
  have h : ((1000000000 : ℚ) : ℝ) ≠ 0 := by norm_num
  simp only [XNum.lit_eq, XNum.fin_div, if_neg h, XNum.fin_add]
  congr 1
  push_cast
  exact split_seconds ns

end GpsGen
