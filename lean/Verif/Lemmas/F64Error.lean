import Verif.Lemmas.F64Order
import Mathlib.Tactic.Positivity
import Mathlib.Tactic.Linarith
import Mathlib.Tactic.Ring
/-!
# Error analysis of `float64` expressions

`Ap A k a x f`: the double `f` approximates the rational `x` after about `k` roundings of a quantity of magnitude `A`;
`a` bounds what underflow may have added.
-/

namespace GpsGen
namespace F64
open Round64

attribute [local irreducible] Round64.rndQ Round64.pow2

/-- The largest relative effect of one rounding. -/
def gr : ℚ := 1 + 2 ^ (-53 : ℤ)
/-- The largest effect of one underflow. -/
def e0 : ℚ := 2 ^ (-1075 : ℤ)

theorem gr_ge : 1 ≤ gr := by
  unfold gr
  have : (0 : ℚ) < 2 ^ (-53 : ℤ) := by positivity
  linarith

theorem e0_pos : 0 < e0 := by unfold e0; positivity

theorem gr_pow_ge (k : ℕ) : 1 ≤ gr ^ k := one_le_pow₀ gr_ge

theorem gr_pow_mono {j k : ℕ} (h : j ≤ k) : gr ^ j ≤ gr ^ k := pow_le_pow_right₀ gr_ge h

/-- The effect of `k` roundings. -/
theorem gr_pow_le {k : ℕ} (h : k ≤ 2 ^ 52) : gr ^ k ≤ 1 + k * 2 ^ (-52 : ℤ) := by
  induction k with
  | zero => simp
  | succ k ih =>
    have h1 := ih (by omega)
    have hk : (k : ℚ) ≤ 2 ^ 52 := by exact_mod_cast (by omega : k ≤ 2 ^ 52)
    have hk0 : (0 : ℚ) ≤ k := Nat.cast_nonneg k
    have e : (2 : ℚ) ^ (-53 : ℤ) = 2 ^ (-52 : ℤ) / 2 := by norm_num
    rw [pow_succ]
    unfold gr at h1 ⊢
    rw [e] at h1 ⊢
    have h52 : (2 : ℚ) ^ (-52 : ℤ) = 1 / 2 ^ 52 := by norm_num
    rw [h52] at h1 ⊢
    set d : ℚ := 1 / 2 ^ 52 with hd
    have hd0 : 0 < d := by rw [hd]; norm_num
    have hkd : k * d ≤ 1 := by
      rw [hd]
      calc (k : ℚ) * (1 / 2 ^ 52) ≤ 2 ^ 52 * (1 / 2 ^ 52) := mul_le_mul_of_nonneg_right hk (by norm_num)
        _ = 1 := by norm_num
    calc (1 + d / 2) ^ k * (1 + d / 2) ≤ (1 + k * d) * (1 + d / 2) :=
          mul_le_mul_of_nonneg_right h1 (by linarith)
      _ = 1 + k * d + d / 2 + (k * d) * (d / 2) := by ring
      _ ≤ 1 + k * d + d / 2 + 1 * (d / 2) := by
          have := mul_le_mul_of_nonneg_right hkd (by linarith : 0 ≤ d / 2)
          linarith
      _ = 1 + ((k + 1 : ℕ) : ℚ) * d := by push_cast; ring

theorem gr_pow_le_two {k : ℕ} (h : k ≤ 4096) : gr ^ k ≤ 2 := by
  refine (gr_pow_le (by omega)).trans ?_
  have hk : (k : ℚ) ≤ 4096 := by exact_mod_cast h
  have := mul_le_mul_of_nonneg_right hk (by positivity : (0 : ℚ) ≤ 2 ^ (-52 : ℤ))
  refine (add_le_add_right this 1).trans ?_
  norm_num

/-- An approximation. -/
def Ap (A : ℚ) (k : ℕ) (a x : ℚ) (f : F64) : Prop :=
  |x| ≤ A ∧ ∃ s q r, f = .fin s q r ∧ |q - x| ≤ A * (gr ^ k - 1) + a

theorem Ap.exact {s : Bool} {q A : ℚ} {r : Rep s q} (h : |q| ≤ A) : Ap A 0 0 q (.fin s q r) :=
  ⟨h, s, q, r, rfl, by simp⟩

theorem Ap.mono {A a a' x : ℚ} {k k' : ℕ} {f : F64} (h : Ap A k a x f) (hk : k ≤ k') (ha : a ≤ a') :
    Ap A k' a' x f := by
  obtain ⟨h1, s, q, r, e, h2⟩ := h
  have hA : 0 ≤ A := (abs_nonneg x).trans h1
  refine ⟨h1, s, q, r, e, h2.trans (add_le_add (mul_le_mul_of_nonneg_left ?_ hA) ha)⟩
  linarith [gr_pow_mono hk]

theorem big : (2 : ℚ) ^ (1000 : ℤ) < pow2 1024 := by
  rw [pow2_eq]
  exact zpow_lt_zpow_right₀ (by norm_num) (by norm_num)

theorem rnd_core {x q A a : ℚ} {k : ℕ} (hx : |x| ≤ A) (hq : |q - x| ≤ A * (gr ^ k - 1) + a) {c : ℚ}
    (hr : |rndQ q - q| ≤ |q| * (gr - 1) + c) (hb : A * gr ^ (k + 1) + (gr * a + c) ≤ 2 ^ (1000 : ℤ)) (z : Bool) :
    Ap A (k + 1) (gr * a + c) x (round z q) := by
  have hqa : |q| ≤ A * gr ^ k + a := by
    have := abs_add_le (q - x) x
    rw [sub_add_cancel] at this
    linarith
  have hg : 0 ≤ gr - 1 := by linarith [gr_ge]
  have h1 : |rndQ q - x| ≤ A * (gr ^ (k + 1) - 1) + (gr * a + c) := by
    have := abs_add_le (rndQ q - q) (q - x)
    rw [sub_add_sub_cancel] at this
    have h2 := mul_le_mul_of_nonneg_right hqa hg
    have e : A * (gr ^ (k + 1) - 1) + (gr * a + c) =
        ((A * gr ^ k + a) * (gr - 1) + c) + (A * (gr ^ k - 1) + a) := by rw [pow_succ]; ring
    rw [e]
    linarith
  have h2 : |rndQ q| < pow2 1024 := by
    have := abs_add_le (rndQ q - x) x
    rw [sub_add_cancel] at this
    have h3 : |rndQ q| ≤ A * gr ^ (k + 1) + (gr * a + c) := by linarith
    exact lt_of_le_of_lt (h3.trans hb) big
  refine ⟨hx, sgn z q, rndQ q, rep_round h2, ?_, h1⟩
  unfold round
  rw [dif_pos h2]

/-- Rounding an approximation. -/
theorem rnd_ap {x q A a : ℚ} {k : ℕ} (hx : |x| ≤ A) (hq : |q - x| ≤ A * (gr ^ k - 1) + a)
    (hb : A * gr ^ (k + 1) + (gr * a + e0) ≤ 2 ^ (1000 : ℤ)) (z : Bool) :
    Ap A (k + 1) (gr * a + e0) x (round z q) := by
  refine rnd_core hx hq ?_ hb z
  refine (rndQ_error q).trans (max_le ?_ ?_)
  · unfold gr
    have := e0_pos
    rw [add_sub_cancel_left]
    linarith
  · have : 0 ≤ |q| * (gr - 1) := mul_nonneg (abs_nonneg _) (by linarith [gr_ge])
    show e0 ≤ _
    linarith

/-- Rounding an approximation that cannot underflow. -/
theorem rnd_ap_normal {x q A : ℚ} {k : ℕ} (hx : |x| ≤ A) (hq : |q - x| ≤ A * (gr ^ k - 1))
    (hn : q = 0 ∨ (2 : ℚ) ^ (-1022 : ℤ) ≤ |q|) (hb : A * gr ^ (k + 1) ≤ 2 ^ (1000 : ℤ)) (z : Bool) :
    Ap A (k + 1) 0 x (round z q) := by
  have h := rnd_core (k := k) (a := 0) (c := 0) hx (by simpa using hq) ?_ (by simpa using hb) z
  · simpa using h
  · rcases hn with rfl | hn
    · rw [rndQ_zero]; simp
    · rw [add_zero]
      refine (rndQ_error q).trans (max_le ?_ ?_)
      · unfold gr; rw [add_sub_cancel_left]
      · unfold gr; rw [add_sub_cancel_left]
        calc (2 : ℚ) ^ (-1075 : ℤ) = 2 ^ (-1022 : ℤ) * 2 ^ (-53 : ℤ) := by
              rw [← zpow_add₀ (by norm_num : (2 : ℚ) ≠ 0)]; norm_num
          _ ≤ |q| * 2 ^ (-53 : ℤ) := mul_le_mul_of_nonneg_right hn (by positivity)

theorem mul_err {x y p q A B a b : ℚ} {j k : ℕ} (hx : |x| ≤ A) (hy : |y| ≤ B)
    (hp : |p - x| ≤ A * (gr ^ j - 1) + a) (hq : |q - y| ≤ B * (gr ^ k - 1) + b) :
    |p * q - x * y| ≤ A * B * (gr ^ (j + k) - 1) + (a * B * gr ^ k + b * A * gr ^ j + a * b) := by
  have hA : 0 ≤ A := (abs_nonneg x).trans hx
  have hB : 0 ≤ B := (abs_nonneg y).trans hy
  have e : p * q - x * y = (p - x) * (q - y) + (x * (q - y) + y * (p - x)) := by ring
  rw [e]
  have t1 := abs_add_le ((p - x) * (q - y)) (x * (q - y) + y * (p - x))
  have t2 := abs_add_le (x * (q - y)) (y * (p - x))
  rw [abs_mul] at t1 t2
  rw [abs_mul] at t2
  have m1 := mul_le_mul hp hq (abs_nonneg _) ((abs_nonneg _).trans hp)
  have m2 := mul_le_mul hx hq (abs_nonneg _) hA
  have m3 := mul_le_mul hy hp (abs_nonneg _) hB
  have e2 : A * B * (gr ^ (j + k) - 1) + (a * B * gr ^ k + b * A * gr ^ j + a * b) =
      (A * (gr ^ j - 1) + a) * (B * (gr ^ k - 1) + b) + (A * (B * (gr ^ k - 1) + b) + B * (A * (gr ^ j - 1) + a)) := by
    rw [pow_add]; ring
  rw [e2]
  linarith

/-- Products. -/
theorem Ap.mul {A B a b x y c : ℚ} {j k : ℕ} {f h : F64} (hf : Ap A j a x f) (hh : Ap B k b y h)
    (hc : gr * (a * B * gr ^ k + b * A * gr ^ j + a * b) + e0 ≤ c)
    (hb : A * B * gr ^ (j + k + 1) + c ≤ 2 ^ (1000 : ℤ)) : Ap (A * B) (j + k + 1) c (x * y) (f *. h) := by
  obtain ⟨hx, s, p, r, rfl, hp⟩ := hf
  obtain ⟨hy, t, q, r', rfl, hq⟩ := hh
  rw [fin_mul]
  have hxy : |x * y| ≤ A * B := by
    rw [abs_mul]
    exact mul_le_mul hx hy (abs_nonneg _) ((abs_nonneg _).trans hx)
  exact (rnd_ap hxy (mul_err hx hy hp hq) (by linarith) _).mono le_rfl hc

/-- Products that cannot underflow. -/
theorem Ap.mul_normal {A B x y : ℚ} {j k : ℕ} {f h : F64} (hf : Ap A j 0 x f) (hh : Ap B k 0 y h)
    (hx : x = A) (hy : y = B) (hj : A * (gr ^ j - 1) ≤ A / 2) (hk : B * (gr ^ k - 1) ≤ B / 2)
    (hn : (2 : ℚ) ^ (-1020 : ℤ) ≤ A * B)
    (hb : A * B * gr ^ (j + k + 1) ≤ 2 ^ (1000 : ℤ)) : Ap (A * B) (j + k + 1) 0 (x * y) (f *. h) := by
  obtain ⟨hxa, s, p, r, rfl, hp⟩ := hf
  obtain ⟨hya, t, q, r', rfl, hq⟩ := hh
  rw [fin_mul]
  have hA : 0 ≤ A := (abs_nonneg x).trans hxa
  have hB : 0 ≤ B := (abs_nonneg y).trans hya
  have hxy : |x * y| ≤ A * B := by
    rw [abs_mul]
    exact mul_le_mul hxa hya (abs_nonneg _) hA
  have hm := mul_err hxa hya hp hq
  simp only [zero_mul, add_zero] at hm
  have p2 : A / 2 ≤ p := by
    have := neg_le_of_abs_le hp
    rw [hx] at this
    linarith
  have q2 : B / 2 ≤ q := by
    have := neg_le_of_abs_le hq
    rw [hy] at this
    linarith
  refine rnd_ap_normal hxy hm (Or.inr ?_) hb _
  have h1 : A / 2 * (B / 2) ≤ p * q := mul_le_mul p2 q2 (by linarith) (by linarith)
  have h2 : (2 : ℚ) ^ (-1022 : ℤ) = 2 ^ (-1020 : ℤ) / 4 := by
    rw [show (-1022 : ℤ) = -1020 - 2 by norm_num, zpow_sub₀ (by norm_num)]; norm_num
  rw [h2]
  refine _root_.le_trans ?_ (le_abs_self _)
  linarith

/-- Sums. -/
theorem Ap.add {A B a b x y c : ℚ} {k : ℕ} {f h : F64} (hf : Ap A k a x f) (hh : Ap B k b y h)
    (hc : gr * (a + b) + e0 ≤ c)
    (hb : (A + B) * gr ^ (k + 1) + c ≤ 2 ^ (1000 : ℤ)) : Ap (A + B) (k + 1) c (x + y) (f +. h) := by
  obtain ⟨hx, s, p, r, rfl, hp⟩ := hf
  obtain ⟨hy, t, q, r', rfl, hq⟩ := hh
  rw [fin_add]
  have hxy : |x + y| ≤ A + B := (abs_add_le x y).trans (add_le_add hx hy)
  have h1 : |p + q - (x + y)| ≤ (A + B) * (gr ^ k - 1) + (a + b) := by
    have := abs_add_le (p - x) (q - y)
    rw [show p - x + (q - y) = p + q - (x + y) by ring] at this
    have e : (A + B) * (gr ^ k - 1) + (a + b) = (A * (gr ^ k - 1) + a) + (B * (gr ^ k - 1) + b) := by ring
    rw [e]
    linarith
  exact (rnd_ap hxy h1 (by linarith) _).mono le_rfl hc

/-- Differences. -/
theorem Ap.sub {A B a b x y c : ℚ} {k : ℕ} {f h : F64} (hf : Ap A k a x f) (hh : Ap B k b y h)
    (hc : gr * (a + b) + e0 ≤ c)
    (hb : (A + B) * gr ^ (k + 1) + c ≤ 2 ^ (1000 : ℤ)) : Ap (A + B) (k + 1) c (x - y) (f -. h) := by
  obtain ⟨hx, s, p, r, rfl, hp⟩ := hf
  obtain ⟨hy, t, q, r', rfl, hq⟩ := hh
  rw [fin_sub]
  have hxy : |x - y| ≤ A + B := (abs_sub x y).trans (add_le_add hx hy)
  have h1 : |p + -q - (x - y)| ≤ (A + B) * (gr ^ k - 1) + (a + b) := by
    have := abs_sub (p - x) (q - y)
    rw [show p - x - (q - y) = p + -q - (x - y) by ring] at this
    have e : (A + B) * (gr ^ k - 1) + (a + b) = (A * (gr ^ k - 1) + a) + (B * (gr ^ k - 1) + b) := by ring
    rw [e]
    linarith
  exact (rnd_ap hxy h1 (by linarith) _).mono le_rfl hc

end F64
end GpsGen
