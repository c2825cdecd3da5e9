import Verif.Model.JsonText
import Verif.Lemmas.F64Order
import Mathlib.Data.Nat.Prime.Basic
/-!
# IEEE doubles as decimal numbers

Reading is rounding to the nearest double; numbers too large are refused. Every finite double has a decimal number that
reads as the double. Go writes the shortest one; here it is the exact one.
-/

namespace GpsGen
open Round64

/-- The number a literal stands for. -/
def NumLit.value (l : NumLit) : ℚ :=
  (if l.neg then -1 else 1) * ((l.int : ℚ) + (digitsNat l.frac : ℚ) / 10 ^ l.frac.length) * 10 ^ (l.exp.getD 0)

namespace F64

/-- Read a decimal number. -/
def ofLit (l : NumLit) : Option F64 :=
  match F64.round l.neg l.value with
  | .fin s q h => some (.fin s q h)
  | _ => none

/-- The exact decimal number of a finite double. -/
def toLit : F64 → Option NumLit
  | .fin s q _ => some ⟨s, q.num.natAbs * 5 ^ q.den.log2, [], some (-(q.den.log2 : ℤ))⟩
  | _ => none

theorem den_pow {q : ℚ} (h : rndQ q = q) : q.den = 2 ^ q.den.log2 := by
  obtain ⟨m, u, -, hu, hq⟩ := rndQ_form q
  rw [h] at hq
  obtain ⟨N, hN⟩ : ∃ N : ℕ, -(N : ℤ) ≤ u := ⟨1074, hu⟩
  clear hu
  obtain ⟨k, hk⟩ : ∃ k : ℕ, u = (k : ℤ) - N := ⟨(u + N).toNat, by omega⟩
  have hd : q = ((m * 2 ^ k : ℤ) : ℚ) / ((2 ^ N : ℤ) : ℚ) := by
    rw [hq, hk, zpow_sub₀ (by norm_num), mul_div_assoc']
    push_cast
    norm_cast
  have hdvd : (q.den : ℤ) ∣ 2 ^ N := by
    rw [hd, ← Rat.divInt_eq_div]; exact Rat.den_dvd _ _
  have hdvd : q.den ∣ 2 ^ N := by exact_mod_cast hdvd
  obtain ⟨j, -, hj⟩ := (Nat.dvd_prime_pow Nat.prime_two).mp hdvd
  rw [hj, Nat.log2_two_pow]

theorem value_toLit {s : Bool} {q : ℚ} (h : Rep s q) :
    NumLit.value ⟨s, q.num.natAbs * 5 ^ q.den.log2, [], some (-(q.den.log2 : ℤ))⟩ = q := by
  unfold NumLit.value
  have hd : ((q.den : ℕ) : ℚ) = 2 ^ q.den.log2 := by exact_mod_cast den_pow h.1
  have hq : q = q.num / q.den := (Rat.num_div_den q).symm
  generalize q.den.log2 = k at hd ⊢
  have h5 : ((10 : ℚ)) ^ k = 2 ^ k * 5 ^ k := by rw [← mul_pow]; norm_num
  have h5' : (5 : ℚ) ^ k ≠ 0 := by positivity
  have h2' : (2 : ℚ) ^ k ≠ 0 := by positivity
  simp only [digitsNat, List.foldl_nil, List.length_nil, pow_zero, Option.getD_some, zpow_neg, zpow_natCast]
  have habs : (if s = true then (-1 : ℚ) else 1) * (q.num.natAbs : ℚ) = q.num := by
    by_cases h0 : q = 0
    · rw [h0]; simp
    · rw [h.2.2 h0]
      by_cases hn : q < 0
      · have : q.num < 0 := Rat.num_neg.mpr hn
        simp only [hn, decide_true, if_true]
        rw [Nat.cast_natAbs, abs_of_neg this]; push_cast; ring
      · have : 0 ≤ q.num := Rat.num_nonneg.mpr (not_lt.mp hn)
        simp only [hn, decide_false]
        rw [Nat.cast_natAbs, abs_of_nonneg this]; simp
  push_cast
  rw [h5]
  calc _ = ((if s = true then (-1 : ℚ) else 1) * (q.num.natAbs : ℚ)) * (5 ^ k * (2 ^ k * 5 ^ k)⁻¹) := by
        ring
    _ = q.num / 2 ^ k := by rw [habs]; field_simp
    _ = q := by rw [← hd]; exact hq.symm

theorem ofLit_toLit (x : F64) (l : NumLit) (h : toLit x = some l) : ofLit l = some x := by
  cases x with
  | fin s q hr =>
    cases h
    unfold ofLit
    rw [value_toLit hr]
    simp only [round_fin hr]
  | inf s => cases h
  | nan => cases h

theorem ofLit_int (i : ℤ) (h1 : -2 ^ 63 ≤ i) (h2 : i < 2 ^ 63) : ofLit (NumLit.ofInt i) = some (lit (i : ℚ)) := by
  have hv : NumLit.value (NumLit.ofInt i) = i := by
    unfold NumLit.value NumLit.ofInt
    simp only [digitsNat, List.foldl_nil, List.length_nil, pow_zero, Option.getD_none, zpow_zero, Nat.cast_zero, div_one,
      add_zero, mul_one, decide_eq_true_eq, Nat.cast_natAbs]
    split_ifs with hi
    · rw [abs_of_neg hi]; push_cast; ring
    · rw [abs_of_nonneg (not_lt.mp hi)]; simp
  have hs : F64.round (NumLit.ofInt i).neg (i : ℚ) = F64.round false (i : ℚ) := by
    by_cases h0 : (i : ℚ) = 0
    · have : i = 0 := by exact_mod_cast h0
      subst this
      rfl
    · exact round_ne _ _ h0
  have hb : |rndQ (i : ℚ)| < pow2 1024 := by
    have e : ∀ n : ℤ, n = -2 ^ 63 ∨ n = 2 ^ 63 → rndQ (n : ℚ) = n := by
      rintro n (rfl | rfl)
      · exact rndQ_rep (-1) 63 (by norm_num) (by norm_num) (by norm_num)
      · exact rndQ_rep 1 63 (by norm_num) (by norm_num) (by norm_num)
    have l1 : rndQ ((-2 ^ 63 : ℤ) : ℚ) ≤ rndQ (i : ℚ) := rndQ_mono (by exact_mod_cast h1)
    have l2 : rndQ (i : ℚ) ≤ rndQ ((2 ^ 63 : ℤ) : ℚ) := rndQ_mono (by exact_mod_cast h2.le)
    rw [e _ (Or.inl rfl)] at l1
    rw [e _ (Or.inr rfl)] at l2
    have hle : |rndQ (i : ℚ)| ≤ 2 ^ 63 := abs_le.mpr ⟨by push_cast at l1; exact l1, by push_cast at l2; exact l2⟩
    refine lt_of_le_of_lt hle ?_
    rw [pow2_eq, show ((2 : ℚ) ^ 63) = 2 ^ (63 : ℤ) by norm_num]
    exact zpow_lt_zpow_right₀ (by norm_num) (by norm_num)
  unfold ofLit
  rw [hv, hs]
  show _ = some (F64.round false (i : ℚ))
  unfold F64.round
  rw [dif_pos hb]

instance : JsonFloat F64 where
  write := toLit
  read := ofLit
  read_write := ofLit_toLit
  read_int := ofLit_int

/-- NaN and infinities, and only they, have no decimal number. -/
theorem toLit_none (x : F64) : toLit x = none ↔ x = .nan ∨ ∃ s, x = .inf s := by
  cases x with
  | fin s q h => exact ⟨nofun, by rintro (h | ⟨s, h⟩) <;> cases h⟩
  | inf s => exact ⟨fun _ => Or.inr ⟨s, rfl⟩, fun _ => rfl⟩
  | nan => exact ⟨fun _ => Or.inl rfl, fun _ => rfl⟩

end F64
end GpsGen
