import Verif.Theorems.C76
import Verif.Theorems.C34Double
/-!
# C76 in IEEE doubles

With the rounding of `float64` a tick for a whole number of seconds is exactly that number, so that the duration of a
device follows the clock exactly while its rounds are whole seconds apart and the sum is at most `2 ^ 53` seconds.
-/

namespace GpsGen
namespace C76
namespace Double
open F64 Device C28.Double C34 C34.Double

attribute [local irreducible] Round64.rndQ Round64.pow2

/-- Seconds of a whole number of seconds. -/
theorem seconds_whole (j : ℤ) (h : |j| ≤ 2 ^ 53) : Is (durSeconds (j * 1000000000) : F64) j := by
  obtain ⟨r1, e1⟩ := lit_int (q := (j : ℚ)) j rfl h
  obtain ⟨r2, e2⟩ := lit_int (q := ((0 : ℤ) : ℚ)) 0 rfl (by norm_num)
  obtain ⟨r3, e3⟩ := lit_int (q := 1000000000) 1000000000 (by norm_num) (by norm_num)
  obtain ⟨r4, e4⟩ := round_small (decide (((0 : ℤ) : ℚ) < 0) != decide ((1000000000 : ℚ) < 0)) (n := 1)
    (q := ((0 : ℤ) : ℚ) / 1000000000) (by norm_num) (by norm_num)
  unfold durSeconds
  rw [Int.mul_tdiv_cancel _ (by norm_num), Int.mul_tmod_left, e1, e2, e3, fin_div, if_neg (by norm_num), e4, fin_add]
  have : (j : ℚ) + Round64.rndQ (((0 : ℤ) : ℚ) / 1000000000) = j := by simp [Round64.rndQ_zero]
  rw [this]
  exact is_round r1 _

/-- A round `k` seconds after the last one, or before it, is a tick of exactly `k` seconds. -/
theorem tick_whole (last t : Int) (k : ℕ) (h1 : 1 ≤ k) (h2 : k ≤ 2 ^ 53)
    (h : t - last = k * 1000000000 ∨ last - t = k * 1000000000) : (tickOf last t : F64) = lit (k : ℚ) := by
  obtain ⟨j, hj, hjk⟩ : ∃ j : ℤ, last - t = j * 1000000000 ∧ |j| = k := by
    rcases h with h | h
    · exact ⟨-k, by omega, by simp⟩
    · exact ⟨k, h, by simp⟩
  obtain ⟨s, r, e⟩ := seconds_whole j (by rw [hjk]; exact_mod_cast h2)
  obtain ⟨r1, e1⟩ := lit_nat (q := (1 : ℚ)) 1 (by norm_num) (by norm_num) (by norm_num)
  obtain ⟨rk, ek⟩ := lit_nat (q := (k : ℚ)) (k : ℤ) (by push_cast; rfl)
    (by rw [abs_of_nonneg (by positivity)]; exact_mod_cast h2) (by positivity)
  have hq : |(j : ℚ)| = k := by rw [← Int.cast_abs, hjk]; simp
  have ha : GoFloat.abs (durSeconds (last - t) : F64) = lit (k : ℚ) := by
    have hne : (j : ℚ) ≠ 0 := by
      intro h0
      rw [h0, _root_.abs_zero] at hq
      have : (k : ℚ) ≠ 0 := by positivity
      exact this hq.symm
    have hs := r.2.2 hne
    rw [hj, e, ek]
    rcases lt_or_gt_of_ne hne with hl | hl
    · rw [decide_eq_true hl] at hs
      subst hs
      rw [_root_.abs_of_neg hl] at hq
      show F64.fin false (-(j : ℚ)) _ = _
      simp only [hq]
    · rw [decide_eq_false (not_lt.mpr hl.le)] at hs
      subst hs
      rw [_root_.abs_of_pos hl] at hq
      show F64.fin false (j : ℚ) _ = _
      simp only [hq]
  unfold tickOf
  rw [ha]
  dsimp only
  have : ((lit (k : ℚ) : F64) <. lit 1) = false := by
    rw [e1, ek, fin_lt, decide_eq_false_iff_not, not_lt]
    exact_mod_cast h1
  rw [this]
  rfl

/-- The rounds are whole seconds apart; the seconds between them. -/
inductive Rounds {α : Type} : Int → List (Int × α) → List ℕ → Prop
  | nil {last} : Rounds last [] []
  | cons {last t : Int} {x : α} {rest : List (Int × α)} {k : ℕ} {ks : List ℕ} (h1 : 1 ≤ k)
      (h : t - last = k * 1000000000) (hr : Rounds t rest ks) : Rounds last ((t, x) :: rest) (k :: ks)

/-- The device has routes and does not come to the end of its trip in these rounds. -/
def Underway [MathLib] : Device F64 → Int → List (Int × NextRnd F64) → Prop
  | _, _, [] => True
  | d, last, (t, rnd) :: rest => d.navigator.routes ≠ [] ∧ ¬ Finishes d (tickOf last t) rnd ∧
      ∀ r, d.next (tickOf last t) rnd = .ok r → Underway r.1 t rest

/-- **C76 in doubles.** A device that was driven by whole seconds for `n` seconds and is driven by a generator for the
seconds `ks` has, with the pending seconds, the duration `n + ks.sum`: exactly. -/
theorem follows_clock_whole_partial [MathLib] (d d' : Device F64) (n : ℕ) (start : Int)
    (rounds : List (Int × Device.NextRnd F64)) (ks : List ℕ) (hd : Whole d n) (hu : Underway d start rounds)
    (hk : Rounds start rounds ks) (hb : n + ks.sum ≤ 2 ^ 53) (h : driveDevice d start rounds = .ok d') :
    ∃ m : ℕ, Is d'.state.duration m ∧ m + d'.tick.toNat = n + ks.sum := by
  induction hk generalizing d n with
  | nil =>
    cases h
    simpa using time_conserved_whole_partial _ n hd
  | @cons last t x rest k ks h1 ht hr ih =>
    obtain ⟨hne, hf, hu⟩ := hu
    obtain ⟨⟨d1, b⟩, e1, e2⟩ := bind_eq_ok h
    rw [List.sum_cons] at hb
    have hk2 : k ≤ 2 ^ 53 := by omega
    rw [tick_whole last t k h1 hk2 (.inl ht)] at hf e1 hu
    have hw : Whole d1 (n + k) := by
      refine Whole.tick hd hne hf (by omega) ?_ (rnd := x)
      show (Device.next d _ x).map (·.1) = _
      rw [e1]; rfl
    obtain ⟨m, a, c⟩ := ih d1 (n + k) hw (hu _ e1) (by omega) e2
    exact ⟨m, a, by rw [List.sum_cons]; omega⟩

end Double
end C76
end GpsGen
