import Mathlib.Analysis.SpecialFunctions.Trigonometric.Bounds
import Mathlib.Analysis.SpecialFunctions.Trigonometric.InverseDeriv
import Mathlib.Analysis.Calculus.Deriv.MeanValue
import Mathlib.Tactic.Linarith
import Mathlib.Tactic.Ring
/-!
# Errors of the haversine formula, in real arithmetic

How errors of the sines and cosines and of the operations spread to the haversine, its square root and the angle.
-/

namespace GpsGen
namespace HavErr
open Real

/-- The largest relative error of an operation, `2 ^ -53`. -/
noncomputable def uu : ℝ := 1 / 9007199254740992
/-- More than the largest error by underflow. -/
noncomputable def et : ℝ := 1 / 10 ^ 40
/-- The largest error of a sine or cosine. -/
noncomputable def dl : ℝ := 15 / 10 ^ 16
/-- Half the coefficient of the error of the haversine. -/
noncomputable def kk : ℝ := 7 / 10 ^ 15

/-- `y` is a rounded value of `x`. -/
def Rnd (x y : ℝ) : Prop := |y - x| ≤ |x| * uu + et

theorem sq_error {x y d r : ℝ} (h : |y - x| ≤ d) (hx : |x| ≤ r) : |y * y - x * x| ≤ 2 * d * r + d * d := by
  have hd : 0 ≤ d := (abs_nonneg _).trans h
  have hr : 0 ≤ r := (abs_nonneg _).trans hx
  have e : y * y - x * x = (y - x) * (y - x) + 2 * (x * (y - x)) := by ring
  rw [e]
  refine (abs_add_le _ _).trans ?_
  rw [abs_mul, abs_mul 2, abs_mul, abs_of_pos (by norm_num : (0 : ℝ) < 2)]
  have h1 := mul_le_mul h h (abs_nonneg _) hd
  have h2 := mul_le_mul hx h (abs_nonneg _) hr
  linarith

/-- The product of the cosines and the square of a sine. -/
theorem prod_error {s t c1 c2 t' c1' c2' d r : ℝ} (hd : 0 ≤ d) (ht : |t' - t| ≤ d) (h1 : |c1' - c1| ≤ d)
    (h2 : |c2' - c2| ≤ d) (t1 : |t'| ≤ 1) (n1 : 0 ≤ c1) (n2 : 0 ≤ c2) (m1 : c1 ≤ 1) (m2 : c2 ≤ 1)
    (hc : |c1 - c2| ≤ 2 * |s|) (hr : 0 ≤ r) (hr2 : r * r = s * s + c1 * c2 * (t * t)) :
    |c1' * c2' * (t' * t') - c1 * c2 * (t * t)| ≤ 6 * d * r + 4 * (d * d) := by
  have hP : 0 ≤ c1 * c2 * (t * t) := mul_nonneg (mul_nonneg n1 n2) (mul_self_nonneg t)
  have hs : |s| ≤ r := abs_le_of_sq_le_sq (by nlinarith) hr
  -- the smaller cosine times `|t|` is at most `r`
  have key : ∀ a b : ℝ, 0 ≤ a → a ≤ b → a * b = c1 * c2 → a * |t| ≤ r := by
    intro a b ha hab e
    have h3 : (a * |t|) ^ 2 ≤ r ^ 2 := by
      have h4 : a * a ≤ a * b := mul_le_mul_of_nonneg_left hab ha
      have h5 := mul_le_mul_of_nonneg_right h4 (mul_self_nonneg t)
      rw [mul_pow, sq_abs]
      nlinarith [mul_self_nonneg s]
    exact (le_abs_self _).trans (abs_le_of_sq_le_sq h3 hr)
  have hct : c1 * c2 * |t| ≤ r := by
    rcases le_total c1 c2 with h | h
    · have := key c1 c2 n1 h rfl
      have h6 := mul_le_mul_of_nonneg_right (mul_le_of_le_one_right n1 m2) (abs_nonneg t)
      linarith
    · have := key c2 c1 n2 h (mul_comm _ _)
      have h6 := mul_le_mul_of_nonneg_right (mul_le_of_le_one_left n2 m1) (abs_nonneg t)
      linarith
  have ht' : |t'| ≤ |t| + d := by
    have := abs_add_le (t' - t) t
    rw [sub_add_cancel] at this
    linarith
  have hsum : (c1 + c2) * |t'| ≤ 4 * r + 2 * d := by
    have hc' := abs_le.mp hc
    have aux : ∀ a b : ℝ, 0 ≤ a → a ≤ b → b ≤ 1 → b - a ≤ 2 * |s| → a * b = c1 * c2 → (a + b) * |t'| ≤ 4 * r + 2 * d := by
      intro a b ha hab hb1 hb e
      have k := key a b ha hab e
      have k1 : a * |t'| ≤ a * (|t| + d) := mul_le_mul_of_nonneg_left ht' ha
      have k2 : a * d ≤ d := mul_le_of_le_one_left hd (hab.trans hb1)
      have k3 : (b - a) * |t'| ≤ b - a := mul_le_of_le_one_right (by linarith) t1
      linarith
    rcases le_total c1 c2 with h | h
    · exact aux c1 c2 n1 h m2 (by linarith [hc'.1]) rfl
    · have := aux c2 c1 n2 h m1 (by linarith [hc'.2]) (mul_comm _ _)
      rw [add_comm c1 c2]; exact this
  have e : c1' * c2' * (t' * t') - c1 * c2 * (t * t) =
      ((c1' - c1) * (c2' - c2) + (c1 * (c2' - c2) + c2 * (c1' - c1))) * (t' * t') +
        c1 * c2 * (t' * t' - t * t) := by ring
  have a1 : |(c1' - c1) * (c2' - c2)| ≤ d * d := by
    rw [abs_mul]; exact mul_le_mul h1 h2 (abs_nonneg _) hd
  have a2 : |c1 * (c2' - c2) + c2 * (c1' - c1)| ≤ (c1 + c2) * d := by
    refine (abs_add_le _ _).trans ?_
    rw [abs_mul, abs_mul, abs_of_nonneg n1, abs_of_nonneg n2]
    have := mul_le_mul_of_nonneg_left h2 n1
    have := mul_le_mul_of_nonneg_left h1 n2
    linarith
  have a3 : |t' * t'| ≤ 1 := by rw [abs_mul]; exact mul_le_one₀ t1 (abs_nonneg _) t1
  have a3' : |t' * t'| ≤ |t'| := by rw [abs_mul]; exact mul_le_of_le_one_right (abs_nonneg _) t1
  have a4 : |c1 * c2 * (t' * t' - t * t)| ≤ 2 * d * r + d * d := by
    have hcc : c1 * c2 ≤ 1 := mul_le_one₀ m1 n2 m2
    rw [abs_mul, abs_of_nonneg (mul_nonneg n1 n2)]
    have h7 := sq_error ht (le_refl |t|)
    have h8 := mul_le_mul_of_nonneg_left h7 (mul_nonneg n1 n2)
    have h9 : c1 * c2 * (d * d) ≤ d * d := mul_le_of_le_one_left (mul_nonneg hd hd) hcc
    have h10 := mul_le_mul_of_nonneg_left hct (by linarith : 0 ≤ 2 * d)
    calc _ ≤ _ := h8
      _ = 2 * d * (c1 * c2 * |t|) + c1 * c2 * (d * d) := by ring
      _ ≤ _ := by linarith
  rw [e]
  refine (abs_add_le _ _).trans ?_
  rw [abs_mul]
  have a5 := abs_add_le ((c1' - c1) * (c2' - c2)) (c1 * (c2' - c2) + c2 * (c1' - c1))
  have a6 : |(c1' - c1) * (c2' - c2) + (c1 * (c2' - c2) + c2 * (c1' - c1))| * |t' * t'| ≤ d * d + d * (4 * r + 2 * d) := by
    have b1 := mul_le_mul_of_nonneg_right (a5.trans (add_le_add a1 a2)) (abs_nonneg (t' * t'))
    have b2 : d * d * |t' * t'| ≤ d * d := mul_le_of_le_one_right (mul_nonneg hd hd) a3
    have b3 : (c1 + c2) * d * |t' * t'| ≤ (c1 + c2) * d * |t'| :=
      mul_le_mul_of_nonneg_left a3' (mul_nonneg (by linarith) hd)
    have b4 := mul_le_mul_of_nonneg_left hsum hd
    calc _ ≤ _ := b1
      _ = d * d * |t' * t'| + (c1 + c2) * d * |t' * t'| := by ring
      _ ≤ d * d + (c1 + c2) * d * |t'| := by linarith
      _ = d * d + d * ((c1 + c2) * |t'|) := by ring
      _ ≤ _ := by linarith
  linarith

theorem rnd_le {x y X : ℝ} (h : Rnd x y) (hx : |x| ≤ X) : |y - x| ≤ X * uu + et :=
  h.trans (by
    have := mul_le_mul_of_nonneg_right hx (by unfold uu; norm_num : 0 ≤ uu)
    linarith)

/-- What the roundings of the operations add. -/
theorem ops_error {A Q t' p m w1 w h : ℝ} (hA : 0 ≤ A) (hQ : 0 ≤ Q) (t1 : |t'| ≤ 1) (rp : Rnd A p) (rm : Rnd Q m)
    (r1 : Rnd (m * t') w1) (r2 : Rnd (w1 * t') w) (rh : Rnd (p + w) h) :
    |h - (A + Q * (t' * t'))| ≤ 5 * uu * (A + Q * (t' * t')) + 10 * et := by
  have u0 : 0 ≤ uu := by unfold uu; norm_num
  have tt0 : 0 ≤ t' * t' := mul_self_nonneg _
  have tt1 : t' * t' ≤ 1 := by
    have := mul_le_one₀ t1 (abs_nonneg _) t1
    rwa [← abs_mul, abs_of_nonneg tt0] at this
  have e0 : 0 ≤ et := by unfold et; norm_num
  set B := Q * (t' * t') with hB
  have hB0 : 0 ≤ B := mul_nonneg hQ tt0
  have x1 : |p - A| ≤ A * uu + et := rnd_le rp (by rw [abs_of_nonneg hA])
  have x2 : |m * (t' * t') - B| ≤ B * uu + et := by
    have y := rnd_le rm (X := Q) (by rw [abs_of_nonneg hQ])
    have y2 := mul_le_mul_of_nonneg_right y tt0
    rw [hB, ← sub_mul, abs_mul, abs_of_nonneg tt0]
    have : et * (t' * t') ≤ et := mul_le_of_le_one_right e0 tt1
    calc _ ≤ _ := y2
      _ = Q * (t' * t') * uu + et * (t' * t') := by ring
      _ ≤ _ := by linarith
  have x3 : |w1 * t' - m * (t' * t')| ≤ |m * (t' * t')| * uu + et := by
    have e : w1 * t' - m * (t' * t') = (w1 - m * t') * t' := by ring
    rw [e, abs_mul]
    have y2 := mul_le_mul_of_nonneg_right r1 (abs_nonneg t')
    have : et * |t'| ≤ et := mul_le_of_le_one_right e0 t1
    have e2 : |m * (t' * t')| = |m * t'| * |t'| := by rw [← abs_mul]; ring_nf
    rw [e2]
    calc _ ≤ _ := y2
      _ = |m * t'| * |t'| * uu + et * |t'| := by ring
      _ ≤ _ := by linarith
  have z2 : |m * (t' * t')| ≤ B + (B * uu + et) := by
    have := abs_add_le (m * (t' * t') - B) B
    rw [sub_add_cancel, abs_of_nonneg hB0] at this
    linarith
  have z2u := mul_le_mul_of_nonneg_right z2 u0
  have z3 : |w1 * t' - m * (t' * t')| ≤ (B + (B * uu + et)) * uu + et := by linarith
  have z4 : |w1 * t'| ≤ B + (B * uu + et) + ((B + (B * uu + et)) * uu + et) := by
    have := abs_add_le (w1 * t' - m * (t' * t')) (m * (t' * t'))
    rw [sub_add_cancel] at this
    linarith
  have z5 := rnd_le r2 z4
  have z6 : |w - B| ≤ 31 / 10 * uu * B + 4 * et := by
    have q1 := abs_add_le (w - w1 * t') (w1 * t' - m * (t' * t'))
    have q2 := abs_add_le (w - m * (t' * t')) (m * (t' * t') - B)
    rw [sub_add_sub_cancel] at q1 q2
    have : |w - B| ≤ (B + (B * uu + et) + ((B + (B * uu + et)) * uu + et)) * uu + et + ((B + (B * uu + et)) * uu + et)
        + (B * uu + et) := by linarith
    refine this.trans ?_
    unfold uu at *
    nlinarith
  have z7 : |p + w| ≤ (A + B) + ((A * uu + et) + (31 / 10 * uu * B + 4 * et)) := by
    have q1 := abs_add_le ((p - A) + (w - B)) (A + B)
    have q2 := abs_add_le (p - A) (w - B)
    rw [abs_of_nonneg (by linarith : 0 ≤ A + B)] at q1
    have e : (p - A) + (w - B) + (A + B) = p + w := by ring
    rw [e] at q1
    linarith
  have z8 := rnd_le rh z7
  have q1 := abs_add_le (h - (p + w)) ((p - A) + (w - B))
  have q2 := abs_add_le (p - A) (w - B)
  have e : h - (p + w) + ((p - A) + (w - B)) = h - (A + B) := by ring
  rw [e] at q1
  have : |h - (A + B)| ≤ ((A + B) + ((A * uu + et) + (31 / 10 * uu * B + 4 * et))) * uu + et +
      ((A * uu + et) + (31 / 10 * uu * B + 4 * et)) := by linarith
  refine this.trans ?_
  unfold uu et at *
  nlinarith

/-- The error of the haversine. -/
theorem hav_error {s t c1 c2 s' t' c1' c2' p m w1 w h r : ℝ} (hs : |s' - s| ≤ dl) (ht : |t' - t| ≤ dl) (h1 : |c1' - c1| ≤ dl)
    (h2 : |c2' - c2| ≤ dl) (t1 : |t'| ≤ 1) (k1 : 0 ≤ c1') (k2 : 0 ≤ c2')
    (n1 : 0 ≤ c1) (n2 : 0 ≤ c2) (m1 : c1 ≤ 1) (m2 : c2 ≤ 1) (hc : |c1 - c2| ≤ 2 * |s|) (hr : 0 ≤ r) (hr1 : r ≤ 1)
    (hr2 : r * r = s * s + c1 * c2 * (t * t)) (rp : Rnd (s' * s') p) (rm : Rnd (c1' * c2') m)
    (r1 : Rnd (m * t') w1) (r2 : Rnd (w1 * t') w) (rh : Rnd (p + w) h) :
    |h - r * r| ≤ 2 * kk * r + kk * kk := by
  have hP : 0 ≤ c1 * c2 * (t * t) := mul_nonneg (mul_nonneg n1 n2) (mul_self_nonneg t)
  have hsr : |s| ≤ r := abs_le_of_sq_le_sq (by nlinarith) hr
  have a1 := sq_error hs hsr
  have a2 := prod_error (by unfold dl; norm_num) ht h1 h2 t1 n1 n2 m1 m2 hc hr hr2
  have a3 := ops_error (mul_self_nonneg s') (mul_nonneg k1 k2) t1 rp rm r1 r2 rh
  set A := s' * s'
  set B := c1' * c2' * (t' * t')
  have b1 : |A + B - r * r| ≤ 8 * dl * r + 5 * (dl * dl) := by
    have e : A + B - r * r = (A - s * s) + (B - c1 * c2 * (t * t)) := by rw [hr2]; ring
    rw [e]
    refine (abs_add_le _ _).trans ?_
    linarith
  have b2 := abs_add_le (h - (A + B)) (A + B - r * r)
  rw [sub_add_sub_cancel] at b2
  have b3 := (abs_le.mp b1).2
  have b4 : r * r ≤ r := mul_le_of_le_one_right hr hr1
  have b5 : |h - r * r| ≤ 5 * uu * (r + (8 * dl * r + 5 * (dl * dl))) + 10 * et + (8 * dl * r + 5 * (dl * dl)) := by
    have : 5 * uu * (A + B) ≤ 5 * uu * (r + (8 * dl * r + 5 * (dl * dl))) :=
      mul_le_mul_of_nonneg_left (by linarith) (by unfold uu; norm_num)
    linarith
  refine b5.trans ?_
  unfold uu dl kk et
  nlinarith

/-- The error of the square root. -/
theorem root_error {h r k : ℝ} (hr : 0 ≤ r) (hk : 0 ≤ k) (e : |h - r * r| ≤ 2 * k * r + k * k) :
    |√h - r| ≤ 5 / 2 * k := by
  have e' := abs_le.mp e
  rw [abs_le]
  constructor
  · by_cases hc : r ≤ 5 / 2 * k
    · linarith [Real.sqrt_nonneg h]
    · push Not at hc
      have : r - 5 / 2 * k ≤ √h := by
        apply Real.le_sqrt_of_sq_le
        nlinarith
      linarith
  · have : √h ≤ r + k := by
      rw [Real.sqrt_le_left (by linarith)]
      nlinarith
    linarith

/-- Two angles whose sines have close squares are close. -/
theorem angle_gap {a b : ℝ} (hb : 0 ≤ b) (hab : b ≤ a) (ha : a ≤ π / 2) :
    sin (a - b) * sin (a - b) ≤ sin a * sin a - sin b * sin b := by
  have e : sin a * sin a - sin b * sin b = sin (a + b) * sin (a - b) := by
    rw [sin_add, sin_sub]
    nlinarith [sin_sq_add_cos_sq a, sin_sq_add_cos_sq b]
  have h1 : 0 ≤ sin (a - b) := sin_nonneg_of_nonneg_of_le_pi (by linarith) (by linarith [pi_pos])
  have h2 : sin (a - b) ≤ sin (a + b) := by
    have e2 : sin (a + b) - sin (a - b) = 2 * cos a * sin b := by rw [sin_add, sin_sub]; ring
    have h3 : 0 ≤ cos a := cos_nonneg_of_mem_Icc ⟨by linarith [pi_pos], ha⟩
    have h4 : 0 ≤ sin b := sin_nonneg_of_nonneg_of_le_pi hb (by linarith [pi_pos])
    have := mul_nonneg (mul_nonneg (by norm_num : (0 : ℝ) ≤ 2) h3) h4
    linarith
  rw [e]
  exact mul_le_mul_of_nonneg_right h2 h1

theorem small_angle {z : ℝ} (h0 : 0 ≤ z) (h1 : z ≤ π / 2) (h : sin z * sin z ≤ 146 / 10 ^ 16) : z ≤ 121 / 10 ^ 9 := by
  have hz0 : 0 ≤ sin z := sin_nonneg_of_nonneg_of_le_pi h0 (by linarith [pi_pos])
  have hs : sin z ≤ 1209 / 10 ^ 10 := by
    by_contra hc
    push Not at hc
    nlinarith
  have hz : z ≤ 1 / 10 ^ 6 := by
    have h2 := mul_le_sin h0 h1
    have h3 : 1 / 2 ≤ 2 / π := by
      rw [div_le_div_iff₀ (by norm_num) pi_pos]
      linarith [pi_le_four]
    have := mul_le_mul_of_nonneg_right h3 h0
    norm_num at hs ⊢
    linarith
  rcases h0.eq_or_lt with rfl | hp
  · norm_num
  · have h4 := sin_gt_sub_cube hp
    have h5 : z ^ 3 ≤ z * (1 / 10 ^ 6 * (1 / 10 ^ 6)) := by
      have e : z ^ 3 = z * (z * z) := by ring
      rw [e]
      exact mul_le_mul_of_nonneg_left (mul_le_mul hz hz h0 (by norm_num)) h0
    norm_num at h5 hs ⊢
    linarith

theorem arcsin_gap {x y : ℝ} (hx : 0 ≤ x) (hx1 : x ≤ 1) (hy : 0 ≤ y) (hy1 : y ≤ 1) (h : |x * x - y * y| ≤ 146 / 10 ^ 16) :
    |arcsin x - arcsin y| ≤ 121 / 10 ^ 9 := by
  have aux : ∀ x y : ℝ, 0 ≤ y → y ≤ x → x ≤ 1 → x * x - y * y ≤ 146 / 10 ^ 16 → arcsin x - arcsin y ≤ 121 / 10 ^ 9 := by
    intro x y hy hyx hx1 h
    have g := angle_gap (arcsin_nonneg.mpr hy) (arcsin_le_arcsin hyx) (arcsin_le_pi_div_two x)
    rw [sin_arcsin (by linarith) hx1, sin_arcsin (by linarith) (by linarith)] at g
    refine small_angle (by linarith [arcsin_le_arcsin hyx]) ?_ (g.trans h)
    linarith [arcsin_le_pi_div_two x, arcsin_nonneg.mpr hy]
  have h' := abs_le.mp h
  rcases le_total y x with hyx | hxy
  · have := aux x y hy hyx hx1 h'.2
    rwa [abs_of_nonneg (by linarith [arcsin_le_arcsin hyx])]
  · have := aux y x hx hxy hy1 (by linarith [h'.1])
    rw [abs_sub_comm]
    rwa [abs_of_nonneg (by linarith [arcsin_le_arcsin hxy])]

/-- Inverse sines up to 3/4. -/
theorem arcsin_lip {x y : ℝ} (hx : 0 ≤ x) (hx1 : x ≤ 3 / 4) (hy : 0 ≤ y) (hy1 : y ≤ 3 / 4) :
    |arcsin x - arcsin y| ≤ 8 / 5 * |x - y| := by
  have aux : ∀ x y : ℝ, 0 ≤ y → y ≤ x → x ≤ 3 / 4 → arcsin x - arcsin y ≤ 8 / 5 * (x - y) := by
    intro x y hy hyx hx1
    rcases hyx.eq_or_lt with rfl | hlt
    · simp
    have hd : ∀ z ∈ interior (Set.Icc y x), deriv arcsin z ≤ 8 / 5 := by
      intro z hz
      rw [interior_Icc] at hz
      rw [deriv_arcsin]
      have : 5 / 8 ≤ √(1 - z ^ 2) := by
        apply Real.le_sqrt_of_sq_le
        nlinarith [hz.1, hz.2]
      rw [div_le_div_iff₀ (by linarith) (by norm_num)]
      linarith
    have hdiff : DifferentiableOn ℝ arcsin (interior (Set.Icc y x)) := by
      intro z hz
      rw [interior_Icc] at hz
      exact (differentiableAt_arcsin.mpr ⟨by linarith [hz.1, hz.2], by linarith [hz.1, hz.2]⟩).differentiableWithinAt
    exact (convex_Icc y x).image_sub_le_mul_sub_of_deriv_le continuous_arcsin.continuousOn hdiff hd y
      ⟨le_refl _, hyx⟩ x ⟨hyx, le_refl _⟩ hyx
  rcases le_total y x with hyx | hxy
  · rw [abs_of_nonneg (by linarith [arcsin_le_arcsin hyx]), abs_of_nonneg (by linarith)]
    exact aux x y hy hyx hx1
  · rw [abs_sub_comm, abs_sub_comm x y, abs_of_nonneg (by linarith [arcsin_le_arcsin hxy]), abs_of_nonneg (by linarith)]
    exact aux y x hx hxy hy1

end HavErr
end GpsGen
