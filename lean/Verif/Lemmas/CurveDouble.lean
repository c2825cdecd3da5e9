import Verif.Lemmas.F64Error
import Verif.Lemmas.CurveFold
import Mathlib.Data.Nat.Choose.Sum
import Mathlib.Data.Nat.Choose.Bounds
import Mathlib.Tactic.FieldSimp
/-!
# Curves in doubles: the error of the loops of package curve
-/

namespace GpsGen
namespace CurveDouble
open F64 CurveFold Finset

attribute [local irreducible] Round64.rndQ Round64.pow2

theorem choose_le (k i : ℕ) (hk : k ≤ 511) : ((k.choose i : ℕ) : ℚ) ≤ 2 ^ (511 : ℤ) := by
  have h1 : k.choose i ≤ 2 ^ k := Nat.choose_le_two_pow k i
  have h2 := Nat.pow_le_pow_right (show 2 > 0 by norm_num) hk
  refine (Nat.cast_le.mpr (h1.trans h2)).trans (le_of_eq ?_)
  rw [Nat.cast_pow, ← zpow_natCast]
  rfl

theorem zpow_le_1000 {i : ℤ} (h : i ≤ 1000) : (2 : ℚ) ^ i ≤ 2 ^ (1000 : ℤ) := zpow_le_zpow_right₀ (by norm_num) h

/-- Small integers. -/
theorem lit_ap (q : ℚ) (n : ℕ) (hq : q = n) (h : n ≤ 2 ^ 53) : Ap (n : ℚ) 0 0 (n : ℚ) (lit q : F64) := by
  obtain ⟨r, e⟩ := lit_nat (q := q) (n : ℤ) (by rw [hq]; simp) (by rw [abs_of_nonneg (by positivity)]; exact_mod_cast h)
    (by positivity)
  rw [e]
  subst hq
  exact Ap.exact (by rw [abs_of_nonneg (Nat.cast_nonneg n)])

/-- The ratio of two weights. -/
theorem ratio_ap (m d : ℕ) (p q : ℚ) (hp : p = m) (hq : q = d) (hm : 1 ≤ m) (hm' : m ≤ 512) (hd : 1 ≤ d) (hd' : d ≤ 512) :
    Ap ((m : ℚ) / d) 1 0 ((m : ℚ) / d) ((lit p : F64) /. lit q) := by
  obtain ⟨r1, e1⟩ := lit_nat (q := p) (m : ℤ) (by rw [hp]; simp)
    (by rw [abs_of_nonneg (by positivity)]; omega) (by positivity)
  obtain ⟨r2, e2⟩ := lit_nat (q := q) (d : ℤ) (by rw [hq]; simp)
    (by rw [abs_of_nonneg (by positivity)]; omega) (by positivity)
  have hm1 : (1 : ℚ) ≤ m := by exact_mod_cast hm
  have hm2 : (m : ℚ) ≤ 512 := by exact_mod_cast hm'
  have hd1 : (1 : ℚ) ≤ d := by exact_mod_cast hd
  have hd2 : (d : ℚ) ≤ 512 := by exact_mod_cast hd'
  rw [e1, e2]
  subst hp hq
  rw [fin_div, if_neg (by linarith)]
  have h0 : (0 : ℚ) ≤ (m : ℚ) / d := by positivity
  have hlo : (1 / 512 : ℚ) ≤ (m : ℚ) / d := by
    rw [div_le_div_iff₀ (by norm_num) (by linarith)]
    linarith
  have hhi : (m : ℚ) / d ≤ 512 := by
    rw [div_le_iff₀ (by linarith)]
    nlinarith
  refine rnd_ap_normal (k := 0) (by rw [abs_of_nonneg h0]) (by simp) (Or.inr ?_) ?_ _
  · rw [abs_of_nonneg h0]
    refine _root_.le_trans ?_ hlo
    have : (1 / 512 : ℚ) = 2 ^ (-9 : ℤ) := by norm_num
    rw [this]
    exact zpow_le_zpow_right₀ (by norm_num) (by norm_num)
  · have g := gr_pow_le_two (k := 0 + 1) (by norm_num)
    have g1 := gr_pow_ge (0 + 1)
    have := mul_le_mul hhi g (by linarith) (by norm_num)
    refine this.trans ?_
    have : (512 * 2 : ℚ) = 2 ^ (10 : ℤ) := by norm_num
    rw [this]
    exact zpow_le_1000 (by norm_num)

theorem half_of_small {A : ℚ} (hA : 0 ≤ A) {k : ℕ} (hk : k ≤ 4096) : A * (gr ^ k - 1) ≤ A / 2 := by
  have h1 := gr_pow_le (k := k) (by omega)
  have hk' : (k : ℚ) ≤ 4096 := by exact_mod_cast hk
  have h2 := mul_le_mul_of_nonneg_right hk' (by positivity : (0 : ℚ) ≤ 2 ^ (-52 : ℤ))
  have h3 : (4096 : ℚ) * 2 ^ (-52 : ℤ) ≤ 1 / 2 := by norm_num
  have h4 : gr ^ k - 1 ≤ 1 / 2 := by
    generalize (2 : ℚ) ^ (-52 : ℤ) = d at h1 h2 h3
    linarith
  have := mul_le_mul_of_nonneg_left h4 hA
  linarith

/-- The weights are binomial coefficients up to rounding. -/
theorem weight_ap {k : ℕ} (hk : k ≤ 511) (i : ℕ) (hi : i ≤ k) :
    Ap (k.choose i : ℚ) (2 * i) 0 (k.choose i : ℚ) (weight (k + 1) i : F64) := by
  induction i using Nat.strongRecOn with
  | ind i ih =>
    match i, ih, hi with
    | 0, _, _ =>
      have := lit_ap 1 1 (by norm_num) (by norm_num)
      simpa [weight] using this
    | 1, _, hi =>
      obtain ⟨r1, e1⟩ := lit_nat (q := ((k + 1 : ℕ) : ℚ)) ((k + 1 : ℕ) : ℤ) (by simp)
        (by rw [abs_of_nonneg (by positivity)]; omega) (by positivity)
      obtain ⟨r2, e2⟩ := lit_nat (q := 1) (1 : ℤ) (by norm_num) (by norm_num) (by norm_num)
      have e : (weight (k + 1) 1 : F64) = lit (k : ℚ) := by
        show (lit ((k + 1 : ℕ) : ℚ) : F64) -. lit 1 = _
        rw [e1, e2, fin_sub]
        have : ((k + 1 : ℕ) : ℚ) + -1 = k := by push_cast; ring
        rw [this]
        have hk0 : (k : ℚ) ≠ 0 := by exact_mod_cast (by omega : k ≠ 0)
        exact round_ne _ _ hk0
      rw [e, Nat.choose_one_right]
      exact (lit_ap (k : ℚ) k rfl (by omega)).mono (by omega) le_rfl
    | i + 2, ih, hi =>
      have h1 := ih (i + 1) (by omega) (by omega)
      have h2 := ratio_ap (k - (i + 1)) (i + 2) (((k + 1 : ℕ) : Int) - ((i + 2 : ℕ) : Int) : ℚ) ((i + 2 : ℕ) : ℚ)
        (by rw [Nat.cast_sub (by omega)]; push_cast; ring) rfl (by omega) (by omega) (by omega) (by omega)
      have ec : ((k.choose (i + 1) : ℕ) : ℚ) * (((k - (i + 1) : ℕ) : ℚ) / ((i + 2 : ℕ) : ℚ)) = (k.choose (i + 2) : ℚ) := by
        have h3 : (k.choose (i + 2) : ℚ) * ((i + 2 : ℕ) : ℚ) = (k.choose (i + 1) : ℚ) * ((k - (i + 1) : ℕ) : ℚ) := by
          have := Nat.choose_succ_right_eq k (i + 1)
          exact_mod_cast this
        have h4 : ((i + 2 : ℕ) : ℚ) ≠ 0 := by positivity
        rw [← mul_div_assoc, div_eq_iff h4, h3]
      have hc1 : (1 : ℚ) ≤ (k.choose (i + 2) : ℚ) := by
        exact_mod_cast Nat.choose_pos hi
      have h5 := Ap.mul_normal h1 h2 rfl rfl (half_of_small (Nat.cast_nonneg _) (by omega))
        (half_of_small (by positivity) (by omega)) (by
          rw [ec]
          refine _root_.le_trans ?_ hc1
          have : (1 : ℚ) = 2 ^ (0 : ℤ) := by norm_num
          rw [this]
          exact zpow_le_zpow_right₀ (by norm_num) (by norm_num)) (by
          rw [ec]
          refine _root_.le_trans (mul_le_mul (choose_le k (i + 2) hk) (gr_pow_le_two (by omega))
            (by linarith [gr_pow_ge (2 * (i + 1) + 1 + 1)]) (by positivity)) ?_
          have : (2 : ℚ) ^ (511 : ℤ) * 2 = 2 ^ (512 : ℤ) := by
            rw [← zpow_add_one₀ (by norm_num)]; norm_num
          rw [this]
          exact zpow_le_1000 (by norm_num))
      rw [ec] at h5
      exact h5.mono (by omega) le_rfl

/-! ## Powers -/

variable {M t : ℚ} {k : ℕ}

/-- Powers of a double in the unit interval. -/
theorem pow_ap {f : F64} (hf : Ap t 0 0 t f) (h0 : 0 ≤ t) (h1 : t ≤ 1) (i : ℕ) (hi : i ≤ 511) :
    Ap (t ^ (i + 1)) i (i * 2 * e0) (t ^ (i + 1)) (powFrom f f i) := by
  induction i with
  | zero => simpa [powFrom] using hf
  | succ i ih =>
    have h := ih (by omega)
    have hi' : (i : ℚ) ≤ 511 := by exact_mod_cast (by omega : i ≤ 511)
    have hi0 : (0 : ℚ) ≤ i := Nat.cast_nonneg i
    have he := e0_pos
    have hg : gr * (i * 2) + 1 ≤ (i + 1) * 2 := by
      unfold gr
      have h53 : (2 : ℚ) ^ (-53 : ℤ) ≤ 1 / 1024 := by norm_num
      generalize (2 : ℚ) ^ (-53 : ℤ) = d at h53
      nlinarith
    have hp1 : t ^ (i + 1) * t ≤ 1 := by
      rw [← pow_succ]
      exact pow_le_one₀ h0 h1
    have hc : gr * (i * 2 * e0 * t * gr ^ 0 + 0 * t ^ (i + 1) * gr ^ i + i * 2 * e0 * 0) + e0 ≤ ((i + 1 : ℕ) : ℚ) * 2 * e0 := by
      simp only [pow_zero, mul_one, zero_mul, mul_zero, add_zero]
      have h2 : i * 2 * e0 * t ≤ i * 2 * e0 := mul_le_of_le_one_right (by positivity) h1
      have h3 := mul_le_mul_of_nonneg_left h2 (by linarith [gr_ge] : 0 ≤ gr)
      have h4 := mul_le_mul_of_nonneg_right hg he.le
      push_cast
      calc gr * (i * 2 * e0 * t) + e0 ≤ gr * (i * 2 * e0) + e0 := by linarith
        _ = (gr * (i * 2) + 1) * e0 := by ring
        _ ≤ _ := h4
    have := Ap.mul h hf hc ?_
    · rw [← pow_succ] at this
      exact this
    · have g := gr_pow_le_two (k := i + 0 + 1) (by omega)
      have m := mul_le_mul hp1 g (by linarith [gr_pow_ge (i + 0 + 1)]) (by norm_num)
      have ee : e0 ≤ 1 / 1024 := by
        unfold e0
        have : (1 / 1024 : ℚ) = 2 ^ (-10 : ℤ) := by norm_num
        rw [this]
        exact zpow_le_zpow_right₀ (by norm_num) (by norm_num)
      have h4 : ((i + 1 : ℕ) : ℚ) * 2 * e0 ≤ 2 := by
        push_cast
        nlinarith
      have : (1 * 2 + 2 : ℚ) = 2 ^ (2 : ℤ) := by norm_num
      refine (add_le_add m h4).trans ?_
      rw [this]
      exact zpow_le_1000 (by norm_num)

/-- Powers of a rounded difference in the unit interval. -/
theorem pow_ap' {f : F64} (hf : Ap t 1 0 t f) (h0 : 0 ≤ t) (h1 : t ≤ 1) (i : ℕ) (hi : i ≤ 511) :
    Ap (t ^ (i + 1)) (2 * i + 1) (i * 2 * e0) (t ^ (i + 1)) (powFrom f f i) := by
  induction i with
  | zero => simpa [powFrom] using hf
  | succ i ih =>
    have h := ih (by omega)
    have hi' : (i : ℚ) ≤ 511 := by exact_mod_cast (by omega : i ≤ 511)
    have hi0 : (0 : ℚ) ≤ i := Nat.cast_nonneg i
    have he := e0_pos
    have hg : gr * (i * 2 * gr) + 1 ≤ (i + 1) * 2 := by
      have h2 : gr * gr ≤ 1 + 1 / 1024 := by unfold gr; norm_num
      nlinarith
    have hp1 : t ^ (i + 1) * t ≤ 1 := by
      rw [← pow_succ]
      exact pow_le_one₀ h0 h1
    have hc : gr * (i * 2 * e0 * t * gr ^ 1 + 0 * t ^ (i + 1) * gr ^ (2 * i + 1) + i * 2 * e0 * 0) + e0 ≤
        ((i + 1 : ℕ) : ℚ) * 2 * e0 := by
      simp only [pow_one, zero_mul, mul_zero, add_zero]
      have h2 : i * 2 * e0 * t ≤ i * 2 * e0 := mul_le_of_le_one_right (by positivity) h1
      have hgr : 0 ≤ gr := by linarith [gr_ge]
      have h3 := mul_le_mul_of_nonneg_left (mul_le_mul_of_nonneg_right h2 hgr) hgr
      have h4 := mul_le_mul_of_nonneg_right hg he.le
      push_cast
      calc gr * (i * 2 * e0 * t * gr) + e0 ≤ gr * (i * 2 * e0 * gr) + e0 := by linarith
        _ = (gr * (i * 2 * gr) + 1) * e0 := by ring
        _ ≤ _ := h4
    have := Ap.mul h hf hc ?_
    · rw [← pow_succ] at this
      exact this
    · have g := gr_pow_le_two (k := 2 * i + 1 + 1 + 1) (by omega)
      have m := mul_le_mul hp1 g (by linarith [gr_pow_ge (2 * i + 1 + 1 + 1)]) (by norm_num)
      have ee : e0 ≤ 1 / 1024 := by
        unfold e0
        have : (1 / 1024 : ℚ) = 2 ^ (-10 : ℤ) := by norm_num
        rw [this]
        exact zpow_le_zpow_right₀ (by norm_num) (by norm_num)
      have h4 : ((i + 1 : ℕ) : ℚ) * 2 * e0 ≤ 2 := by
        push_cast
        nlinarith
      have : (1 * 2 + 2 : ℚ) = 2 ^ (2 : ℤ) := by norm_num
      refine (add_le_add m h4).trans ?_
      rw [this]
      exact zpow_le_1000 (by norm_num)

/-- `1 - t` does not underflow. -/
theorem one_sub_ap {s : Bool} {r : Rep s t} (h0 : 0 ≤ t) (h1 : t ≤ 1) :
    Ap (1 - t) 1 0 (1 - t) ((lit 1 : F64) -. .fin s t r) := by
  obtain ⟨r1, e1⟩ := lit_nat (q := 1) (1 : ℤ) (by norm_num) (by norm_num) (by norm_num)
  rw [e1, fin_sub, ← sub_eq_add_neg]
  have hn : 0 ≤ 1 - t := by linarith
  refine rnd_ap_normal (k := 0) (by rw [abs_of_nonneg hn]) (by simp) ?_ ?_ _
  · rcases eq_or_lt_of_le h1 with h | h
    · left; linarith
    · right
      rw [abs_of_nonneg hn]
      by_contra hc
      have hlt : (2 : ℚ) ^ (-1022 : ℤ) ≤ 2 ^ (-54 : ℤ) := zpow_le_zpow_right₀ (by norm_num) (by norm_num)
      have h2 : 1 - 2 ^ (-54 : ℤ) ≤ t := by linarith
      have h3 := Round64.rndQ_mono h2
      have h4 : Round64.rndQ (1 - 2 ^ (-54 : ℤ)) = 1 := by decide +kernel
      rw [h4, r.1] at h3
      linarith
  · have g := gr_pow_le_two (k := 0 + 1) (by norm_num)
    have m := mul_le_mul (by linarith : 1 - t ≤ 1) g (by linarith [gr_pow_ge (0 + 1)]) (by norm_num)
    refine m.trans ?_
    have : (1 * 2 : ℚ) = 2 ^ (1 : ℤ) := by norm_num
    rw [this]
    exact zpow_le_1000 (by norm_num)

/-! ## The sum -/

/-- Bound of the weights. -/
def W : ℚ := 2 ^ (511 : ℤ)
/-- Bound of the effect of underflow on a term. -/
def S (M : ℚ) : ℚ := e0 * 8192 * W * (M + 1)

theorem W_ge : 1 ≤ W := by
  unfold W
  exact one_le_zpow₀ (by norm_num) (by norm_num)

theorem e0_small : e0 * 4096 ≤ 1 := by
  unfold e0
  have h : (4096 : ℚ) = 2 ^ (12 : ℤ) := by norm_num
  rw [h, ← zpow_add₀ (by norm_num)]
  exact zpow_le_one_of_nonpos₀ (by norm_num) (by norm_num)

theorem S_pos (hM : 0 ≤ M) : e0 ≤ S M := by
  unfold S
  have h1 : (1 : ℚ) ≤ 8192 * W * (M + 1) := by
    have := W_ge
    nlinarith
  have := e0_pos
  calc e0 = e0 * 1 := (mul_one _).symm
    _ ≤ e0 * (8192 * W * (M + 1)) := mul_le_mul_of_nonneg_left h1 this.le
    _ = _ := by ring

theorem S_small (hM : M ≤ 2 ^ (400 : ℤ)) : S M * 2 ^ (20 : ℤ) ≤ 1 := by
  unfold S W e0
  have h1 : M + 1 ≤ 2 ^ (401 : ℤ) := by
    have h2 : (1 : ℚ) ≤ 2 ^ (400 : ℤ) := one_le_zpow₀ (by norm_num) (by norm_num)
    have h3 : (2 : ℚ) ^ (401 : ℤ) = 2 ^ (400 : ℤ) + 2 ^ (400 : ℤ) := by
      rw [show (401 : ℤ) = 400 + 1 by norm_num, zpow_add_one₀ (by norm_num)]
      ring
    rw [h3]
    exact add_le_add hM h2
  have h : (8192 : ℚ) = 2 ^ (13 : ℤ) := by norm_num
  rw [h]
  calc (2 : ℚ) ^ (-1075 : ℤ) * 2 ^ (13 : ℤ) * 2 ^ (511 : ℤ) * (M + 1) * 2 ^ (20 : ℤ)
      ≤ 2 ^ (-1075 : ℤ) * 2 ^ (13 : ℤ) * 2 ^ (511 : ℤ) * 2 ^ (401 : ℤ) * 2 ^ (20 : ℤ) := by
        apply mul_le_mul_of_nonneg_right _ (by positivity)
        exact mul_le_mul_of_nonneg_left h1 (by positivity)
    _ ≤ 1 := by
        simp only [← zpow_add₀ (by norm_num : (2 : ℚ) ≠ 0)]
        exact zpow_le_one_of_nonpos₀ (by norm_num) (by norm_num)

theorem MW_small (hM : M ≤ 2 ^ (400 : ℤ)) : M * W * 4 + 4 ≤ 2 ^ (1000 : ℤ) := by
  unfold W
  have h1 : M * 2 ^ (511 : ℤ) ≤ 2 ^ (911 : ℤ) := by
    have := mul_le_mul_of_nonneg_right hM (by positivity : (0 : ℚ) ≤ 2 ^ (511 : ℤ))
    rw [← zpow_add₀ (by norm_num)] at this
    exact this
  have h2 : (2 : ℚ) ^ (911 : ℤ) * 4 = 2 ^ (913 : ℤ) := by
    have : (4 : ℚ) = 2 ^ (2 : ℤ) := by norm_num
    rw [this, ← zpow_add₀ (by norm_num)]
    norm_num
  have h3 : (4 : ℚ) ≤ 2 ^ (913 : ℤ) := by
    have : (4 : ℚ) = 2 ^ (2 : ℤ) := by norm_num
    rw [this]
    exact zpow_le_zpow_right₀ (by norm_num) (by norm_num)
  have h4 : (2 : ℚ) ^ (914 : ℤ) = 2 ^ (913 : ℤ) + 2 ^ (913 : ℤ) := by
    rw [show (914 : ℤ) = 913 + 1 by norm_num, zpow_add_one₀ (by norm_num)]
    ring
  have h5 : M * 2 ^ (511 : ℤ) * 4 ≤ 2 ^ (913 : ℤ) := by
    rw [← h2]
    exact mul_le_mul_of_nonneg_right h1 (by norm_num)
  have h6 := add_le_add h5 h3
  rw [← h4] at h6
  exact h6.trans (zpow_le_1000 (by norm_num))

theorem choose_le_W (k i : ℕ) (hk : k ≤ 511) : ((k.choose i : ℕ) : ℚ) ≤ W := by
  unfold W
  exact choose_le k i hk

theorem W_pos : 0 < W := lt_of_lt_of_le one_pos W_ge

attribute [local irreducible] W e0

/-- Products with simpler side conditions. -/
theorem mul_simple {A B a b x y c : ℚ} {j k : ℕ} {f h : F64} (hf : Ap A j a x f) (hh : Ap B k b y h)
    (ha : 0 ≤ a) (hb : 0 ≤ b) (hjk : j + k + 1 ≤ 4096) (hc : 4 * (a * B) + 4 * (b * A) + 2 * (a * b) + e0 ≤ c)
    (hB : A * B * 2 + c ≤ 2 ^ (1000 : ℤ)) : Ap (A * B) (j + k + 1) c (x * y) (f *. h) := by
  have hA0 : 0 ≤ A := (abs_nonneg _).trans hf.1
  have hB0 : 0 ≤ B := (abs_nonneg _).trans hh.1
  have g1 : gr ≤ 2 := by simpa using gr_pow_le_two (k := 1) (by norm_num)
  have gj := gr_pow_le_two (k := j) (by omega)
  have gk := gr_pow_le_two (k := k) (by omega)
  have gjk := gr_pow_le_two hjk
  have n1 := mul_nonneg ha hB0
  have n2 := mul_nonneg hb hA0
  have n3 := mul_nonneg ha hb
  refine Ap.mul hf hh ?_ ?_
  · have m1 := mul_le_mul_of_nonneg_left gk n1
    have m2 := mul_le_mul_of_nonneg_left gj n2
    have m0 : 0 ≤ a * B * gr ^ k + b * A * gr ^ j + a * b := by
      have := gr_pow_ge k
      have := gr_pow_ge j
      positivity
    have m3 := mul_le_mul_of_nonneg_right g1 m0
    linarith
  · have := mul_le_mul_of_nonneg_left gjk (mul_nonneg hA0 hB0)
    exact (add_le_add_left this c).trans hB

variable {y : ℕ → ℚ} {cp : ℕ → F64}

/-- The scaled control points. -/
theorem scaled_ap (hk : k ≤ 511) (hM0 : 0 ≤ M) (hM : M ≤ 2 ^ (400 : ℤ))
    (hcp : ∀ i, i ≤ k → Ap (M * (k.choose i : ℚ)) (2 * i + 1) e0 (y i * (k.choose i : ℚ)) (cp i))
    {f : F64} (hf : Ap t 0 0 t f) (h0 : 0 ≤ t) (h1 : t ≤ 1) (i : ℕ) (hi : i ≤ k) :
    Ap (M * (k.choose i : ℚ) * t ^ i) (3 * i + 2) (S M) (y i * (k.choose i : ℚ) * t ^ i) (scaled cp f i) := by
  have he := e0_pos
  cases i with
  | zero =>
    rw [pow_zero, mul_one, mul_one]
    exact (hcp 0 (by omega)).mono (by omega) (S_pos hM0)
  | succ i =>
    have h2 := hcp (i + 1) hi
    have h3 := pow_ap hf h0 h1 i (by omega)
    have hC : ((k.choose (i + 1) : ℕ) : ℚ) ≤ W := choose_le_W k (i + 1) hk
    have hC0 : (0 : ℚ) ≤ (k.choose (i + 1) : ℕ) := Nat.cast_nonneg _
    have hMC : M * (k.choose (i + 1) : ℚ) ≤ M * W := mul_le_mul_of_nonneg_left hC hM0
    have hMC0 : 0 ≤ M * (k.choose (i + 1) : ℚ) := mul_nonneg hM0 hC0
    have hi' : (i : ℚ) ≤ 511 := by exact_mod_cast (by omega : i ≤ 511)
    have hi0 : (0 : ℚ) ≤ i := Nat.cast_nonneg i
    have hp : t ^ (i + 1) ≤ 1 := pow_le_one₀ h0 h1
    have hp0 : 0 ≤ t ^ (i + 1) := pow_nonneg h0 _
    have hW := W_ge
    have hW0 := W_pos
    have hs := e0_small
    have hie : i * 2 * e0 ≤ 1022 * e0 := mul_le_mul_of_nonneg_right (by linarith) he.le
    refine (mul_simple h2 h3 he.le (by positivity) (by omega) (c := S M) ?_ ?_).mono (by omega) le_rfl
    · have b1 : e0 * t ^ (i + 1) ≤ e0 := mul_le_of_le_one_right he.le hp
      have b2 : (i * 2 * e0) * (M * (k.choose (i + 1) : ℚ)) ≤ 1022 * e0 * (M * W) :=
        mul_le_mul hie hMC hMC0 (by positivity)
      have b3 : e0 * (i * 2 * e0) ≤ e0 * 1 := by
        apply mul_le_mul_of_nonneg_left _ he.le
        linarith
      have b4 : e0 ≤ e0 * W := le_mul_of_one_le_right he.le hW
      have e : S M = 8192 * (e0 * (M * W)) + 8192 * (e0 * W) := by unfold S; ring
      have b5 : 0 ≤ e0 * (M * W) := by positivity
      rw [e]
      linarith
    · have hsm := S_small hM
      have hmw := MW_small hM
      have h4 : M * (k.choose (i + 1) : ℚ) * t ^ (i + 1) ≤ M * W :=
        (mul_le_of_le_one_right hMC0 hp).trans hMC
      have h5 : S M ≤ 1 := by
        have h6 : (1 : ℚ) ≤ 2 ^ (20 : ℤ) := by norm_num
        have h7 : 0 ≤ S M := he.le.trans (S_pos hM0)
        exact (le_mul_of_one_le_right h7 h6).trans hsm
      have h8 : 0 ≤ M * W := by positivity
      refine _root_.le_trans ?_ hmw
      linarith

/-- The terms of the sum. -/
theorem term_ap (hk : k ≤ 511) (hM0 : 0 ≤ M) (hM : M ≤ 2 ^ (400 : ℤ))
    (hcp : ∀ i, i ≤ k → Ap (M * (k.choose i : ℚ)) (2 * i + 1) e0 (y i * (k.choose i : ℚ)) (cp i))
    {s : Bool} {r : Rep s t} (h0 : 0 ≤ t) (h1 : t ≤ 1) (j : ℕ) (hj : j < k) :
    Ap (M * (k.choose (k - 1 - j) : ℚ) * t ^ (k - 1 - j) * (1 - t) ^ (j + 1)) (3 * k + 2) (16 * S M)
      (y (k - 1 - j) * (k.choose (k - 1 - j) : ℚ) * t ^ (k - 1 - j) * (1 - t) ^ (j + 1))
      (scaled cp (.fin s t r) (k - 1 - j) *. powFrom ((lit 1 : F64) -. .fin s t r) ((lit 1 : F64) -. .fin s t r) j) := by
  have he := e0_pos
  have hS := S_pos hM0
  have hf : Ap t 0 0 t (.fin s t r) := Ap.exact (by rw [abs_of_nonneg h0])
  have h2 := scaled_ap hk hM0 hM hcp hf h0 h1 (k - 1 - j) (by omega)
  have h3 := pow_ap' (one_sub_ap (r := r) h0 h1) (by linarith) (by linarith) j (by omega)
  set C : ℚ := (k.choose (k - 1 - j) : ℚ)
  have hC : C ≤ W := choose_le_W k _ hk
  have hC0 : 0 ≤ C := Nat.cast_nonneg _
  have hMC : M * C ≤ M * W := mul_le_mul_of_nonneg_left hC hM0
  have hMC0 : 0 ≤ M * C := mul_nonneg hM0 hC0
  have hp : t ^ (k - 1 - j) ≤ 1 := pow_le_one₀ h0 h1
  have hp0 : 0 ≤ t ^ (k - 1 - j) := pow_nonneg h0 _
  have hq : (1 - t) ^ (j + 1) ≤ 1 := pow_le_one₀ (by linarith) (by linarith)
  have hq0 : 0 ≤ (1 - t) ^ (j + 1) := pow_nonneg (by linarith) _
  have hA : M * C * t ^ (k - 1 - j) ≤ M * W := (mul_le_of_le_one_right hMC0 hp).trans hMC
  have hA0 : 0 ≤ M * C * t ^ (k - 1 - j) := mul_nonneg hMC0 hp0
  have hj' : (j : ℚ) ≤ 511 := by exact_mod_cast (by omega : j ≤ 511)
  have hj0 : (0 : ℚ) ≤ j := Nat.cast_nonneg j
  have hje : j * 2 * e0 ≤ 1022 * e0 := mul_le_mul_of_nonneg_right (by linarith) he.le
  have hW := W_ge
  have hW0 := W_pos
  have hs := e0_small
  have hS0 : 0 ≤ S M := he.le.trans hS
  refine (mul_simple h2 h3 hS0 (by positivity) (by omega) (c := 16 * S M) ?_ ?_).mono (by omega) le_rfl
  · have b1 : S M * (1 - t) ^ (j + 1) ≤ S M := mul_le_of_le_one_right hS0 hq
    have b2 : (j * 2 * e0) * (M * C * t ^ (k - 1 - j)) ≤ 1022 * e0 * (M * W) :=
      mul_le_mul hje hA hA0 (by positivity)
    have b3 : S M * (j * 2 * e0) ≤ S M * 1 := by
      apply mul_le_mul_of_nonneg_left _ hS0
      linarith
    have e : S M = 8192 * (e0 * (M * W)) + 8192 * (e0 * W) := by unfold S; ring
    have b5 : 0 ≤ e0 * (M * W) := by positivity
    have b6 : 0 ≤ e0 * W := by positivity
    linarith
  · have hsm := S_small hM
    have hmw := MW_small hM
    have h4 : M * C * t ^ (k - 1 - j) * (1 - t) ^ (j + 1) ≤ M * W :=
      (mul_le_of_le_one_right hA0 hq).trans hA
    have h5 : S M * 16 ≤ 1 := by
      have h6 : (16 : ℚ) ≤ 2 ^ (20 : ℤ) := by norm_num
      exact (mul_le_mul_of_nonneg_left h6 hS0).trans hsm
    have h8 : 0 ≤ M * W := by positivity
    refine _root_.le_trans ?_ hmw
    linarith

/-- The Bernstein weight. -/
def bernQ (k i : ℕ) (t : ℚ) : ℚ := (k.choose i : ℚ) * t ^ i * (1 - t) ^ (k - i)

theorem bernQ_nonneg (k i : ℕ) (h0 : 0 ≤ t) (h1 : t ≤ 1) : 0 ≤ bernQ k i t := by
  unfold bernQ
  have : 0 ≤ 1 - t := by linarith
  positivity

theorem bernQ_sum (k : ℕ) (t : ℚ) : ∑ i ∈ range (k + 1), bernQ k i t = 1 := by
  have h := add_pow t (1 - t) k
  rw [show t + (1 - t) = 1 by ring, one_pow] at h
  rw [h]
  apply sum_congr rfl
  intro i _
  unfold bernQ; ring

/-- The sum of the last terms `k`, `k - 1`, ..., `k - m`. -/
def tail (c : ℕ → ℚ) (k m : ℕ) (t : ℚ) : ℚ := ∑ j ∈ range (m + 1), c (k - j) * bernQ k (k - j) t

theorem tail_all (c : ℕ → ℚ) (k : ℕ) (t : ℚ) : tail c k k t = ∑ i ∈ range (k + 1), c i * bernQ k i t := by
  unfold tail
  rw [← sum_range_reflect]
  apply sum_congr rfl
  intro j hj
  have : j ≤ k := by simpa [Nat.lt_succ_iff] using hj
  rw [show k + 1 - 1 - j = k - j by omega, show k - (k - j) = j by omega]

theorem tail_const (hM0 : 0 ≤ M) (h0 : 0 ≤ t) (h1 : t ≤ 1) (m : ℕ) (hm : m ≤ k) :
    tail (fun _ => M) k m t ≤ M := by
  have h : tail (fun _ => M) k m t ≤ tail (fun _ => M) k k t :=
    sum_le_sum_of_subset_of_nonneg (range_mono (by omega))
      fun j _ _ => mul_nonneg hM0 (bernQ_nonneg _ _ h0 h1)
  rw [tail_all, ← mul_sum, bernQ_sum, mul_one] at h
  exact h

/-- The accumulated sum. -/
theorem acc_ap (hk : k ≤ 511) (hM0 : 0 ≤ M) (hM : M ≤ 2 ^ (400 : ℤ))
    (hcp : ∀ i, i ≤ k → Ap (M * (k.choose i : ℚ)) (2 * i + 1) e0 (y i * (k.choose i : ℚ)) (cp i))
    {s : Bool} {r : Rep s t} (h0 : 0 ≤ t) (h1 : t ≤ 1) (m : ℕ) (hm : m ≤ k) :
    Ap (tail (fun _ => M) k m t) (3 * k + 2 + m) (32 * S M * (m + 1)) (tail y k m t)
      (acc (fun j => scaled cp (.fin s t r) (k - 1 - j)) ((lit 1 : F64) -. .fin s t r) ((lit 1 : F64) -. .fin s t r)
        (scaled cp (.fin s t r) k) m) := by
  have he := e0_pos
  have hS := S_pos hM0
  have hS0 : 0 ≤ S M := he.le.trans hS
  induction m with
  | zero =>
    have hf : Ap t 0 0 t (.fin s t r) := Ap.exact (by rw [abs_of_nonneg h0])
    have h2 := scaled_ap hk hM0 hM hcp hf h0 h1 k le_rfl
    have e : ∀ c : ℕ → ℚ, tail c k 0 t = c k * (k.choose k : ℚ) * t ^ k := by
      intro c
      unfold tail bernQ
      simp
    rw [e, e]
    refine h2.mono (by omega) ?_
    simp only [Nat.cast_zero, zero_add, mul_one]
    linarith
  | succ m ih =>
    have h2 := ih (by omega)
    have h3 := (term_ap hk hM0 hM hcp (r := r) h0 h1 m (by omega)).mono (by omega : 3 * k + 2 ≤ 3 * k + 2 + m) le_rfl
    have e : ∀ c : ℕ → ℚ, tail c k (m + 1) t = tail c k m t +
        c (k - 1 - m) * (k.choose (k - 1 - m) : ℚ) * t ^ (k - 1 - m) * (1 - t) ^ (m + 1) := by
      intro c
      unfold tail
      rw [sum_range_succ]
      congr 1
      unfold bernQ
      rw [show k - (m + 1) = k - 1 - m by omega, show k - (k - 1 - m) = m + 1 by omega]
      ring
    have hm' : (m : ℚ) ≤ 511 := by exact_mod_cast (by omega : m ≤ 511)
    have hm0 : (0 : ℚ) ≤ m := Nat.cast_nonneg m
    have ht := tail_const hM0 h0 h1 (m + 1) hm
    rw [e] at ht
    rw [e, e]
    refine Ap.add h2 h3 ?_ ?_
    · have hg : gr ≤ 1 + 1 / 32768 := by unfold gr; norm_num
      have n : 0 ≤ 32 * S M * (m + 1) + 16 * S M := by positivity
      have h4 := mul_le_mul_of_nonneg_right hg n
      have h5 : S M * m ≤ S M * 511 := mul_le_mul_of_nonneg_left hm' hS0
      push_cast
      linarith
    · have g := gr_pow_le_two (k := 3 * k + 2 + m + 1) (by omega)
      have m1 := mul_le_mul ht g (by linarith [gr_pow_ge (3 * k + 2 + m + 1)]) hM0
      have hsm := S_small hM
      have hmw := MW_small hM
      have h5 : 32 * S M * (((m + 1 : ℕ) : ℚ) + 1) ≤ 1 := by
        have h6 : 32 * (((m + 1 : ℕ) : ℚ) + 1) ≤ 2 ^ (20 : ℤ) := by
          push_cast
          linarith
        have := mul_le_mul_of_nonneg_left h6 hS0
        linarith
      have h8 : M ≤ M * W := le_mul_of_one_le_right hM0 W_ge
      refine _root_.le_trans (add_le_add m1 h5) (_root_.le_trans ?_ hmw)
      linarith

/-- One coordinate of a curve in doubles. -/
theorem eval_ap (hk : k ≤ 511) (hM0 : 0 ≤ M) (hM : M ≤ 2 ^ (400 : ℤ))
    (hcp : ∀ i, i ≤ k → Ap (M * (k.choose i : ℚ)) (2 * i + 1) e0 (y i * (k.choose i : ℚ)) (cp i))
    {s : Bool} {r : Rep s t} (h0 : 0 ≤ t) (h1 : t ≤ 1) :
    ∃ z q r', evalAt cp k (.fin s t r) = .fin z q r' ∧
      |q - ∑ i ∈ range (k + 1), y i * bernQ k i t| ≤ M * 2 ^ (-41 : ℤ) + 2 ^ (14 : ℤ) * S M := by
  obtain ⟨-, z, q, r', e, h⟩ := acc_ap hk hM0 hM hcp (r := r) h0 h1 k le_rfl
  refine ⟨z, q, r', e, ?_⟩
  rw [tail_all] at h
  refine h.trans (add_le_add ?_ ?_)
  · have h2 := tail_const (k := k) hM0 h0 h1 k le_rfl
    have h3 := gr_pow_le (k := 3 * k + 2 + k) (by omega)
    have h4 : gr ^ (3 * k + 2 + k) - 1 ≤ 2 ^ (-41 : ℤ) := by
      have h5 : ((3 * k + 2 + k : ℕ) : ℚ) ≤ 2048 := by exact_mod_cast (by omega : 3 * k + 2 + k ≤ 2048)
      have h6 := mul_le_mul_of_nonneg_right h5 (by positivity : (0 : ℚ) ≤ 2 ^ (-52 : ℤ))
      have h7 : (2048 : ℚ) * 2 ^ (-52 : ℤ) = 2 ^ (-41 : ℤ) := by norm_num
      rw [h7] at h6
      generalize (2 : ℚ) ^ (-41 : ℤ) = d at *
      linarith
    exact mul_le_mul h2 h4 (by linarith [gr_pow_ge (3 * k + 2 + k)]) hM0
  · have hS0 : 0 ≤ S M := e0_pos.le.trans (S_pos hM0)
    have h5 : ((k : ℕ) : ℚ) + 1 ≤ 512 := by exact_mod_cast (by omega : k + 1 ≤ 512)
    have h6 := mul_le_mul_of_nonneg_left h5 (by positivity : 0 ≤ 32 * S M)
    have h7 : (2 : ℚ) ^ (14 : ℤ) = 16384 := by norm_num
    rw [h7]
    linarith

end CurveDouble
end GpsGen
