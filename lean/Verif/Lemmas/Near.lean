import Verif.Theorems.C83
/-!
# Doubles near real numbers

`Near f x e`: the double `f` is a number that differs from `x` by at most `e`. Operations, the functions of an accurate
library, and the polar angle of a point that is known approximately.
-/

namespace GpsGen
open F64 C28.Double C46.Double HavErr C83

attribute [local irreducible] Round64.rndQ Round64.pow2

/-- `f` is a number that differs from `x` by at most `e`. -/
def Near (f : F64) (x e : ℝ) : Prop := ∃ q : ℚ, Is f q ∧ |(q : ℝ) - x| ≤ e

namespace Near

theorem mono {f : F64} {x e e' : ℝ} (h : Near f x e) (he : e ≤ e') : Near f x e' := by
  obtain ⟨q, hq, h1⟩ := h
  exact ⟨q, hq, h1.trans he⟩

theorem abs_le' {q x e A : ℝ} (h : |q - x| ≤ e) (hx : |x| ≤ A) : |q| ≤ A + e := by
  have := abs_add_le (q - x) x
  rw [sub_add_cancel] at this
  linarith

theorem of_is {f : F64} {q : ℚ} (h : Is f q) : Near f q 0 := ⟨q, h, by simp⟩

theorem cast_bound {q : ℚ} (h : |(q : ℝ)| ≤ 2 ^ 30) : |q| ≤ 2 ^ 30 := by exact_mod_cast h

theorem mul {f g : F64} {x y e d : ℝ} (hf : Near f x e) (hg : Near g y d) (A B E : ℝ) (hx : |x| ≤ A) (hy : |y| ≤ B)
    (hb : (A + e) * (B + d) ≤ 2 ^ 30) (hE : e * B + d * A + e * d + (A + e) * (B + d) * uu + et ≤ E) :
    Near (f *. g) (x * y) E := by
  obtain ⟨p, hp, p1⟩ := hf
  obtain ⟨q, hq, q1⟩ := hg
  have e0 : 0 ≤ e := (abs_nonneg _).trans p1
  have d0 : 0 ≤ d := (abs_nonneg _).trans q1
  have A0 : 0 ≤ A := (abs_nonneg _).trans hx
  have B0 : 0 ≤ B := (abs_nonneg _).trans hy
  have hpq : |(p : ℝ) * q| ≤ (A + e) * (B + d) := by
    rw [abs_mul]
    exact mul_le_mul (abs_le' p1 hx) (abs_le' q1 hy) (abs_nonneg _) (by linarith)
  obtain ⟨v, hv, rv⟩ := mul_rnd hp hq (cast_bound (by push_cast; exact hpq.trans hb))
  refine ⟨v, hv, ?_⟩
  have k1 := rnd_le rv hpq
  have e1 : (p : ℝ) * q - x * y = (p - x) * y + ((q - y) * x + (p - x) * (q - y)) := by ring
  have k2 : |(p : ℝ) * q - x * y| ≤ e * B + d * A + e * d := by
    rw [e1]
    refine (abs_add_le _ _).trans ?_
    have t := abs_add_le (((q : ℝ) - y) * x) ((p - x) * (q - y))
    rw [abs_mul, abs_mul (p - x : ℝ)] at t
    rw [abs_mul]
    have m1 := mul_le_mul p1 hy (abs_nonneg _) e0
    have m2 := mul_le_mul q1 hx (abs_nonneg _) d0
    have m3 := mul_le_mul p1 q1 (abs_nonneg _) e0
    linarith
  have k3 := abs_add_le ((v : ℝ) - p * q) (p * q - x * y)
  rw [sub_add_sub_cancel] at k3
  linarith

theorem add {f g : F64} {x y e d : ℝ} (hf : Near f x e) (hg : Near g y d) (C E : ℝ) (hx : |x + y| ≤ C)
    (hb : C + e + d ≤ 2 ^ 30) (hE : e + d + (C + e + d) * uu + et ≤ E) : Near (f +. g) (x + y) E := by
  obtain ⟨p, hp, p1⟩ := hf
  obtain ⟨q, hq, q1⟩ := hg
  have e1 : (p : ℝ) + q - (x + y) = (p - x) + (q - y) := by ring
  have k2 : |(p : ℝ) + q - (x + y)| ≤ e + d := by
    rw [e1]
    exact (abs_add_le _ _).trans (add_le_add p1 q1)
  have hpq : |(p : ℝ) + q| ≤ C + e + d := by linarith [abs_le' k2 hx]
  obtain ⟨v, hv, rv⟩ := add_rnd hp hq (cast_bound (by push_cast; exact hpq.trans hb))
  refine ⟨v, hv, ?_⟩
  have k1 := rnd_le rv hpq
  have k3 := abs_add_le ((v : ℝ) - (p + q)) (p + q - (x + y))
  rw [sub_add_sub_cancel] at k3
  linarith

theorem sub {f g : F64} {x y e d : ℝ} (hf : Near f x e) (hg : Near g y d) (C E : ℝ) (hx : |x - y| ≤ C)
    (hb : C + e + d ≤ 2 ^ 30) (hE : e + d + (C + e + d) * uu + et ≤ E) : Near (f -. g) (x - y) E := by
  obtain ⟨p, hp, p1⟩ := hf
  obtain ⟨q, hq, q1⟩ := hg
  have e1 : (p : ℝ) - q - (x - y) = (p - x) - (q - y) := by ring
  have k2 : |(p : ℝ) - q - (x - y)| ≤ e + d := by
    rw [e1]
    exact (abs_sub _ _).trans (add_le_add p1 q1)
  have hpq : |(p : ℝ) - q| ≤ C + e + d := by linarith [abs_le' k2 hx]
  obtain ⟨v, hv, rv⟩ := sub_rnd hp hq (cast_bound (by push_cast; exact hpq.trans hb))
  refine ⟨v, hv, ?_⟩
  have k1 := rnd_le rv hpq
  have k3 := abs_add_le ((v : ℝ) - (p - q)) (p - q - (x - y))
  rw [sub_add_sub_cancel] at k3
  linarith

variable [MathLib]

theorem sin (L : Accurate) {f : F64} {x e : ℝ} (hf : Near f x e) (E : ℝ) (hx : |x| + e ≤ 7) (hE : e + 2 ^ (-52 : ℤ) ≤ E) :
    Near (MathLib.sin f) (Real.sin x) E := by
  obtain ⟨p, hp, p1⟩ := hf
  have hq : |p| ≤ 7 := by
    have := (abs_le' p1 le_rfl).trans hx
    exact_mod_cast this
  obtain ⟨v, hv, ev⟩ := L.sin_near _ _ hp hq
  refine ⟨v, hv, ?_⟩
  have k := abs_add_le ((v : ℝ) - Real.sin p) (Real.sin p - Real.sin x)
  rw [sub_add_sub_cancel] at k
  have := (Real.abs_sin_sub_sin_le p x).trans p1
  linarith

theorem cos (L : Accurate) {f : F64} {x e : ℝ} (hf : Near f x e) (E : ℝ) (hx : |x| + e ≤ 7) (hE : e + 2 ^ (-52 : ℤ) ≤ E) :
    Near (MathLib.cos f) (Real.cos x) E := by
  obtain ⟨p, hp, p1⟩ := hf
  have hq : |p| ≤ 7 := by
    have := (abs_le' p1 le_rfl).trans hx
    exact_mod_cast this
  obtain ⟨v, hv, ev⟩ := L.cos_near _ _ hp hq
  refine ⟨v, hv, ?_⟩
  have k := abs_add_le ((v : ℝ) - Real.cos p) (Real.cos p - Real.cos x)
  rw [sub_add_sub_cancel] at k
  have := (Real.abs_cos_sub_cos_le p x).trans p1
  linarith

end Near

/-! ## Angles up to full turns -/

/-- The angles differ by at most `e`, up to full turns. -/
def Turn (x y e : ℝ) : Prop := ∃ k : ℤ, |x - y - k * (2 * Real.pi)| ≤ e

namespace Turn

theorem mono {x y e e' : ℝ} (h : Turn x y e) (he : e ≤ e') : Turn x y e' := by
  obtain ⟨k, h⟩ := h
  exact ⟨k, h.trans he⟩

theorem of_abs {x y e : ℝ} (h : |x - y| ≤ e) : Turn x y e := ⟨0, by simpa using h⟩

theorem trans {x y z e d : ℝ} (h : Turn x y e) (h' : Turn y z d) : Turn x z (e + d) := by
  obtain ⟨k, h⟩ := h
  obtain ⟨l, h'⟩ := h'
  refine ⟨k + l, ?_⟩
  have e1 : x - z - ((k + l : ℤ) : ℝ) * (2 * Real.pi) = (x - y - k * (2 * Real.pi)) + (y - z - l * (2 * Real.pi)) := by
    push_cast; ring
  rw [e1]
  exact (abs_add_le _ _).trans (add_le_add h h')

theorem symm {x y e : ℝ} (h : Turn x y e) : Turn y x e := by
  obtain ⟨k, h⟩ := h
  refine ⟨-k, ?_⟩
  rw [← abs_neg]
  have e1 : -(y - x - ((-k : ℤ) : ℝ) * (2 * Real.pi)) = x - y - k * (2 * Real.pi) := by push_cast; ring
  rw [e1]
  exact h

theorem add {x y z w e d : ℝ} (h : Turn x y e) (h' : Turn z w d) : Turn (x + z) (y + w) (e + d) := by
  obtain ⟨k, h⟩ := h
  obtain ⟨l, h'⟩ := h'
  refine ⟨k + l, ?_⟩
  have e1 : x + z - (y + w) - ((k + l : ℤ) : ℝ) * (2 * Real.pi) = (x - y - k * (2 * Real.pi)) + (z - w - l * (2 * Real.pi)) := by
    push_cast; ring
  rw [e1]
  exact (abs_add_le _ _).trans (add_le_add h h')

/-- Every angle is, up to full turns, at most a half turn. -/
theorem exists_small (t : ℝ) : ∃ k : ℤ, |t - k * (2 * Real.pi)| ≤ Real.pi := by
  have hp := Real.two_pi_pos
  refine ⟨_root_.round (t / (2 * Real.pi)), ?_⟩
  have h := abs_sub_round (t / (2 * Real.pi))
  have e : t - ((_root_.round (t / (2 * Real.pi)) : ℤ) : ℝ) * (2 * Real.pi) = (t / (2 * Real.pi) - ((_root_.round (t / (2 * Real.pi)) : ℤ) : ℝ)) * (2 * Real.pi) := by
    rw [sub_mul, div_mul_cancel₀ _ hp.ne']
  rw [e, abs_mul, abs_of_pos hp]
  nlinarith

theorem sin_half {x y e : ℝ} (h : Turn x y e) : Real.sin ((x - y) / 2) * Real.sin ((x - y) / 2) ≤ (e / 2) * (e / 2) := by
  obtain ⟨k, h⟩ := h
  have e1 : (x - y) / 2 = (x - y - k * (2 * Real.pi)) / 2 + k * Real.pi := by ring
  have e2 : Real.sin ((x - y) / 2) * Real.sin ((x - y) / 2) =
      Real.sin ((x - y - k * (2 * Real.pi)) / 2) * Real.sin ((x - y - k * (2 * Real.pi)) / 2) := by
    rw [e1, Real.sin_add_int_mul_pi]
    have : ((-1 : ℝ) ^ k) * ((-1 : ℝ) ^ k) = 1 := by
      rw [← mul_zpow]; norm_num
    linear_combination (Real.sin ((x - y - k * (2 * Real.pi)) / 2) * Real.sin ((x - y - k * (2 * Real.pi)) / 2)) * this
  rw [e2, ← abs_mul_abs_self (Real.sin ((x - y - k * (2 * Real.pi)) / 2))]
  have h1 : |Real.sin ((x - y - k * (2 * Real.pi)) / 2)| ≤ e / 2 := by
    refine Real.abs_sin_le_abs.trans ?_
    rw [abs_div, abs_of_pos (by norm_num : (0 : ℝ) < 2)]
    linarith
  exact mul_le_mul h1 h1 (abs_nonneg _) ((abs_nonneg _).trans h1)

/-- The polar angle of a point that is close to the point with distance `r` and angle `a`. -/
theorem polar {x y r a e d : ℝ} (hr : 0 < r) (hx : |x - r * Real.cos a| ≤ e) (hy : |y - r * Real.sin a| ≤ d)
    (hs : e + d ≤ r / 100) : (x ≠ 0 ∨ y ≠ 0) ∧ Turn (Complex.arg ⟨x, y⟩) a (8 / 5 * (e + d) / r) := by
  have e0 : 0 ≤ e := (abs_nonneg _).trans hx
  have d0 : 0 ≤ d := (abs_nonneg _).trans hy
  have h1 := Complex.norm_mul_cos_arg ⟨x, y⟩
  have h2 := Complex.norm_mul_sin_arg ⟨x, y⟩
  set R := ‖(⟨x, y⟩ : ℂ)‖
  set b := Complex.arg ⟨x, y⟩
  have hR : 0 ≤ R := norm_nonneg _
  simp only at h1 h2
  obtain ⟨k, hk⟩ := exists_small (b - a)
  set t := b - a - k * (2 * Real.pi) with ht
  have ca : |Real.cos a| ≤ 1 := Real.abs_cos_le_one a
  have sa : |Real.sin a| ≤ 1 := Real.abs_sin_le_one a
  have ct : Real.cos t = Real.cos (b - a) := by rw [ht]; exact Real.cos_sub_int_mul_two_pi _ _
  have st : Real.sin t = Real.sin (b - a) := by rw [ht]; exact Real.sin_sub_int_mul_two_pi _ _
  have id := Real.sin_sq_add_cos_sq a
  have c1 : R * Real.cos t = r + ((x - r * Real.cos a) * Real.cos a + (y - r * Real.sin a) * Real.sin a) := by
    rw [ct, Real.cos_sub]
    linear_combination Real.cos a * h1 + Real.sin a * h2 + r * id
  have s1 : R * Real.sin t = (y - r * Real.sin a) * Real.cos a - (x - r * Real.cos a) * Real.sin a := by
    rw [st, Real.sin_sub]
    linear_combination Real.cos a * h2 - Real.sin a * h1
  have m1 : |(x - r * Real.cos a) * Real.cos a| ≤ e := by
    rw [abs_mul]; exact (mul_le_of_le_one_right (abs_nonneg _) ca).trans hx
  have m2 : |(y - r * Real.sin a) * Real.sin a| ≤ d := by
    rw [abs_mul]; exact (mul_le_of_le_one_right (abs_nonneg _) sa).trans hy
  have m3 : |(y - r * Real.sin a) * Real.cos a| ≤ d := by
    rw [abs_mul]; exact (mul_le_of_le_one_right (abs_nonneg _) ca).trans hy
  have m4 : |(x - r * Real.cos a) * Real.sin a| ≤ e := by
    rw [abs_mul]; exact (mul_le_of_le_one_right (abs_nonneg _) sa).trans hx
  have c2 : 99 / 100 * r ≤ R * Real.cos t := by
    rw [c1]
    have := (abs_le.mp m1).1
    have := (abs_le.mp m2).1
    linarith
  have s2 : R * |Real.sin t| ≤ e + d := by
    have : |R * Real.sin t| ≤ e + d := by
      rw [s1]
      exact (abs_sub _ _).trans (by linarith)
    rwa [abs_mul, abs_of_nonneg hR] at this
  have ctp : 0 < Real.cos t := by
    by_contra hc
    push Not at hc
    have := mul_nonpos_of_nonneg_of_nonpos hR hc
    linarith
  have hRr : 99 / 100 * r ≤ R := c2.trans (mul_le_of_le_one_right hR (Real.cos_le_one t))
  have tl : |t| ≤ Real.pi / 2 := by
    by_contra hc
    push Not at hc
    have : Real.cos |t| ≤ 0 := Real.cos_nonpos_of_pi_div_two_le_of_le hc.le (by linarith [Real.pi_pos])
    rw [Real.cos_abs] at this
    linarith
  have sl : 2 / Real.pi * |t| ≤ |Real.sin t| := by
    have h3 := Real.mul_le_sin (abs_nonneg t) tl
    have h4 : Real.sin |t| ≤ |Real.sin t| := by
      rcases abs_cases t with ⟨h, -⟩ | ⟨h, -⟩
      · rw [h]; exact le_abs_self _
      · rw [h, Real.sin_neg]; exact neg_le_abs _
    exact h3.trans h4
  refine ⟨?_, k, ?_⟩
  · by_contra hc
    push Not at hc
    have : R = 0 := by
      show ‖(⟨x, y⟩ : ℂ)‖ = 0
      rw [norm_eq_zero]
      exact Complex.ext hc.1 hc.2
    rw [this] at hRr
    linarith
  · show |t| ≤ _
    rw [le_div_iff₀ hr]
    have hpi := Real.pi_lt_d2
    have hpp := Real.pi_pos
    have t1 : |t| ≤ Real.pi / 2 * |Real.sin t| := by
      have := mul_le_mul_of_nonneg_left sl (by positivity : 0 ≤ Real.pi / 2)
      have e2 : Real.pi / 2 * (2 / Real.pi * |t|) = |t| := by field_simp
      linarith
    have a0 := abs_nonneg (Real.sin t)
    have t2 : |Real.sin t| * r ≤ 100 / 99 * (e + d) := by
      have := mul_le_mul_of_nonneg_right hRr a0
      linarith
    have t3 : |t| * r ≤ Real.pi / 2 * (|Real.sin t| * r) := by
      have := mul_le_mul_of_nonneg_right t1 hr.le
      linarith
    have t4 : Real.pi / 2 * (|Real.sin t| * r) ≤ Real.pi / 2 * (100 / 99 * (e + d)) :=
      mul_le_mul_of_nonneg_left t2 (by positivity)
    have t5 : Real.pi / 2 * (100 / 99 * (e + d)) ≤ 158 / 100 * (100 / 99 * (e + d)) :=
      mul_le_mul_of_nonneg_right (by norm_num at *; linarith) (by positivity)
    linarith

end Turn

/-! ## Distances of close points -/

theorem arcsin_le_mul {x : ℝ} (h0 : 0 ≤ x) (h1 : x ≤ 1) : Real.arcsin x ≤ Real.pi / 2 * x := by
  have h := Real.mul_le_sin (Real.arcsin_nonneg.mpr h0) (Real.arcsin_le_pi_div_two x)
  rw [Real.sin_arcsin (by linarith) h1] at h
  have hp := Real.pi_pos
  have := mul_le_mul_of_nonneg_left h (by positivity : 0 ≤ Real.pi / 2)
  have e2 : Real.pi / 2 * (2 / Real.pi * Real.arcsin x) = Real.arcsin x := by field_simp
  linarith

/-- Points whose latitudes and longitudes are close. -/
theorem exact_close {a b c d e1 e2 : ℝ} (h1 : |rad c - rad a| ≤ e1) (h2 : Turn (rad d) (rad b) e2) :
    exact a b c d ≤ 10100000 * (e1 + e2) := by
  have e10 : 0 ≤ e1 := (abs_nonneg _).trans h1
  have e20 : 0 ≤ e2 := by obtain ⟨k, h⟩ := h2; exact (abs_nonneg _).trans h
  have s1 : Real.sin ((rad c - rad a) / 2) * Real.sin ((rad c - rad a) / 2) ≤ (e1 / 2) * (e1 / 2) :=
    Turn.sin_half (Turn.of_abs h1)
  have s2 := h2.sin_half
  have hh : haversine a b c d ≤ ((e1 + e2) / 2) ^ 2 := by
    have e : haversine a b c d = Real.sin ((rad c - rad a) / 2) * Real.sin ((rad c - rad a) / 2) +
        Real.cos (rad a) * Real.cos (rad c) * (Real.sin ((rad d - rad b) / 2) * Real.sin ((rad d - rad b) / 2)) := by
      simp [haversine, radians_eq, rad]
      ring
    rw [e]
    have cc : Real.cos (rad a) * Real.cos (rad c) ≤ 1 := by
      refine (le_abs_self _).trans ?_
      rw [abs_mul]
      exact mul_le_one₀ (Real.abs_cos_le_one _) (abs_nonneg _) (Real.abs_cos_le_one _)
    have := mul_le_of_le_one_left (mul_self_nonneg (Real.sin ((rad d - rad b) / 2))) cc
    nlinarith
  have hr : root a b c d ≤ (e1 + e2) / 2 := by
    unfold root
    rw [Real.sqrt_le_left (by linarith)]
    exact hh
  rw [exact_root]
  have := arcsin_le_mul (root_nonneg a b c d) (root_le a b c d)
  have hp := Real.pi_lt_d2
  have hp0 := Real.pi_pos
  have h3 : Real.pi / 2 * root a b c d ≤ 1575 / 1000 * ((e1 + e2) / 2) :=
    mul_le_mul (by norm_num at *; linarith) hr (root_nonneg _ _ _ _) (by norm_num)
  linarith

/-- Latitudes differ by at most the distance. -/
theorem lat_le_exact (a b c d : ℝ) (ha : |a| ≤ 90) (hc : |c| ≤ 90) : 6371000 * |rad c - rad a| ≤ exact a b c d := by
  have hp := Real.pi_pos
  have h1 : |Real.sin ((rad c - rad a) / 2)| ≤ root a b c d := by
    unfold root
    apply Real.le_sqrt_of_sq_le
    rw [sq_abs]
    have e : haversine a b c d = Real.sin ((rad c - rad a) / 2) ^ 2 +
        Real.cos (rad a) * Real.cos (rad c) * Real.sin ((rad d - rad b) / 2) ^ 2 := by
      simp [haversine, radians_eq, rad]
      ring
    rw [e]
    have := mul_nonneg (mul_nonneg (cos_rad_nonneg (abs_le.mp ha)) (cos_rad_nonneg (abs_le.mp hc)))
      (sq_nonneg (Real.sin ((rad d - rad b) / 2)))
    linarith
  have h2 : |(rad c - rad a) / 2| ≤ Real.pi / 2 := by
    have := abs_le.mp ha
    have := abs_le.mp hc
    unfold rad
    rw [abs_le]
    constructor <;> nlinarith
  have h3 := arcsin_abs_sin h2
  have h4 := Real.arcsin_le_arcsin h1
  rw [h3, abs_div, abs_of_pos (by norm_num : (0 : ℝ) < 2)] at h4
  rw [exact_root]
  linarith

end GpsGen
