import Verif.Lemmas.Near
import Verif.Theorems.C48
/-!
# The destination in doubles
-/

namespace GpsGen
open F64 C28.Double C46.Double HavErr C83

attribute [local irreducible] Round64.rndQ Round64.pow2

/-- What is used of `math.Atan2`: it returns numbers of at most 4; unless both coordinates are zero the number is the polar
angle with an error of at most `2 ^ -49`, up to a full turn. -/
structure Arctan [MathLib] : Prop where
  atan2_near : ∀ y x (p q : ℚ), Is y p → Is x q → ∃ v : ℚ, Is (MathLib.atan2 y x) v ∧ |v| ≤ 4 ∧
    ((q : ℝ) ≠ 0 ∨ (p : ℝ) ≠ 0 → Turn v (Complex.arg ⟨q, p⟩) (2 ^ (-49 : ℤ)))

namespace Near

theorem angle [MathLib] {x : F64} {a : ℚ} (B : ℚ) (hx : Is x a) (ha : |a| ≤ B) (h1 : 1 ≤ B) (hB : B ≤ 1000) :
    Near (x *. radians) (rad a) (B * (24 / 10 ^ 19)) := angle_near B hx ha h1 hB

theorem div_radius {x : F64} {a : ℚ} (hx : Is x a) (ha : |a| ≤ 10000000) :
    Near (x /. lit 6371000) ((a : ℝ) / 6371000) (18 / 10 ^ 17) := by
  obtain ⟨s, r, rfl⟩ := hx
  obtain ⟨r2, e⟩ := lit_nat (q := 6371000) 6371000 (by norm_num) (by norm_num) (by norm_num)
  rw [e, fin_div, if_neg (by norm_num)]
  have ha' : |(a : ℝ)| ≤ 10000000 := by exact_mod_cast ha
  have h0 : |a / 6371000| ≤ 157 / 100 := by
    rw [abs_div, abs_of_pos (by norm_num : (0 : ℚ) < 6371000), div_le_iff₀ (by norm_num)]
    norm_num
    linarith
  have := rnd_fin (s != false) (q := a / 6371000) (h0.trans (by norm_num))
  refine ⟨_, this.1, ?_⟩
  have h2 := rnd_le this.2 (abs_real h0)
  push_cast at h2
  refine h2.trans ?_
  unfold uu et
  norm_num

/-- `math.Pi`. -/
def pid : ℚ := 884279719003555 / 281474976710656

theorem pid_near : |(pid : ℝ) - Real.pi| ≤ 13 / 10 ^ 17 := by
  have h1 := Real.pi_gt_d20
  have h2 := Real.pi_lt_d20
  unfold pid
  rw [abs_le]
  push_cast
  constructor <;> norm_num at * <;> linarith

/-- A literal that is a double. -/
theorem lit_exact {n : ℤ} {k : ℤ} (hn : |n| < 2 ^ 53) (hk : -1000 ≤ k) (q : ℚ) (hq : q = n * 2 ^ k) (hs : |q| ≤ 2 ^ 30) :
    Is (lit q : F64) q := by
  have h := (rnd_fin false hs).1
  have e : Round64.rndQ q = q := by
    rw [hq]
    exact Round64.rndQ_rep n k (by exact_mod_cast hn.le) (by linarith) (by linarith)
  rw [e] at h
  exact h

theorem pi_is [MathLib] : Is (GoMath.pi : F64) pid :=
  lit_exact (n := 884279719003555) (k := -48) (by norm_num) (by norm_num) pid (by unfold pid; norm_num)
    (by unfold pid; norm_num)

/-- `180 / math.Pi`. -/
def deg180 : ℚ := 1007958012753983 / 17592186044416

theorem degrees_is [MathLib] : Is (degrees : F64) deg180 := by
  have h : (degrees : F64) = lit deg180 := by
    have : F64.div (lit 180) (F64.round false (884279719003555 / 281474976710656)) = lit deg180 := by decide +kernel
    exact this
  rw [h]
  exact lit_exact (n := 1007958012753983) (k := -44) (by norm_num) (by norm_num) deg180 (by unfold deg180; norm_num)
    (by unfold deg180; norm_num)

theorem two_pi_is [MathLib] : Is ((lit 2 : F64) *. GoMath.pi) (2 * pid) := by
  have h : ((lit 2 : F64) *. GoMath.pi) = lit (2 * pid) := by
    have : F64.mul (lit 2) (F64.round false (884279719003555 / 281474976710656)) = lit (2 * pid) := by decide +kernel
    exact this
  rw [h]
  exact lit_exact (n := 884279719003555) (k := -47) (by norm_num) (by norm_num) _ (by unfold pid; norm_num)
    (by unfold pid; norm_num)

theorem three_pi_is [MathLib] : Is ((lit 3 : F64) *. GoMath.pi) (2652839157010665 / 281474976710656) := by
  have h : ((lit 3 : F64) *. GoMath.pi) = lit (2652839157010665 / 281474976710656) := by
    have : F64.mul (lit 3) (F64.round false (884279719003555 / 281474976710656)) = lit (2652839157010665 / 281474976710656) := by
      decide +kernel
    exact this
  rw [h]
  refine lit_exact (n := 2652839157010665) (k := -48) (by norm_num) (by norm_num) _ (by norm_num) (by norm_num)

/-- Radians to degrees. -/
theorem degrees [MathLib] {f : F64} {x e : ℝ} (hf : Near f x e) (hx : |x| ≤ 4) (he : e ≤ 1) :
    ∃ q : ℚ, Is (f *. degrees) q ∧ |rad q - x| ≤ e + 2 / 10 ^ 15 := by
  obtain ⟨p, hp, p1⟩ := hf
  have hp5 : |(p : ℝ)| ≤ 5 := (abs_le' p1 hx).trans (by linarith)
  have dd : |(deg180 : ℝ)| ≤ 58 := by unfold deg180; norm_num
  have hpd : |(p : ℝ) * deg180| ≤ 5 * 58 := by
    rw [abs_mul]
    exact mul_le_mul hp5 dd (abs_nonneg _) (by norm_num)
  obtain ⟨v, hv, rv⟩ := mul_rnd hp degrees_is (cast_bound (by push_cast; exact hpd.trans (by norm_num)))
  refine ⟨v, hv, ?_⟩
  have k1 := rnd_le rv hpd
  have pi1 := Real.pi_gt_d20
  have pi2 := Real.pi_lt_d20
  have k2 : |(deg180 : ℝ) * (Real.pi / 180) - 1| ≤ 1 / 10 ^ 16 := by
    unfold deg180
    rw [abs_le]
    push_cast
    constructor <;> norm_num at * <;> linarith
  have e1 : rad (v : ℝ) - x = (v - p * deg180) * (Real.pi / 180) + (p * (deg180 * (Real.pi / 180) - 1) + (p - x)) := by
    unfold rad; ring
  rw [e1]
  have m1 : |((v : ℝ) - p * deg180) * (Real.pi / 180)| ≤ (5 * 58 * uu + et) * (2 / 100) := by
    rw [abs_mul]
    refine mul_le_mul k1 ?_ (abs_nonneg _) ((abs_nonneg _).trans k1)
    rw [abs_of_pos (by positivity)]
    norm_num at *; linarith
  have m2 : |(p : ℝ) * (deg180 * (Real.pi / 180) - 1)| ≤ 5 * (1 / 10 ^ 16) := by
    rw [abs_mul]
    exact mul_le_mul hp5 k2 (abs_nonneg _) (by norm_num)
  have t1 := abs_add_le (((v : ℝ) - p * deg180) * (Real.pi / 180)) (p * (deg180 * (Real.pi / 180) - 1) + (p - x))
  have t2 := abs_add_le ((p : ℝ) * (deg180 * (Real.pi / 180) - 1)) (p - x)
  have : (5 * 58 * uu + et) * (2 / 100) + 5 * (1 / 10 ^ 16) ≤ 2 / 10 ^ 15 := by unfold uu et; norm_num
  linarith

/-- `math.Mod` for positive numbers. -/
theorem fmod_is {f g : F64} {a b : ℚ} (hf : Is f a) (hg : Is g b) (ha : 0 ≤ a) (hb : 0 < b) (hb' : b ≤ 2 ^ 30) :
    ∃ (k : ℤ) (v : ℚ), Is (fmod f g) v ∧ 0 ≤ v ∧ v ≤ b ∧ |(v : ℝ) - (a - b * k)| ≤ b * uu + et ∧ 0 ≤ k ∧ k ≤ a / b := by
  obtain ⟨s, r, rfl⟩ := hf
  obtain ⟨t, r', rfl⟩ := hg
  have hbR : (0 : ℝ) < b := by exact_mod_cast hb
  have unf : F64.fmod (.fin s a r) (.fin t b r') = if b = 0 then .nan else
      (if a = 0 then .fin s a r else F64.round s (a - b * (trunc (a / b) : ℤ))) := rfl
  rw [unf, if_neg hb.ne']
  have huu : 0 ≤ (b : ℝ) * uu + et := by unfold uu et; positivity
  split_ifs with h0
  · subst h0
    exact ⟨0, 0, ⟨s, r, rfl⟩, le_rfl, hb.le, by simpa using huu, le_rfl, by simp⟩
  have htr : trunc (a / b) = ⌊a / b⌋ := by unfold trunc; rw [if_pos (by positivity)]
  rw [htr]
  have f1 := Int.floor_le (a / b)
  have f2 := Int.lt_floor_add_one (a / b)
  have eb : b * (a / b) = a := by field_simp
  have r0 : 0 ≤ a - b * (⌊a / b⌋ : ℤ) := by nlinarith
  have r1 : a - b * (⌊a / b⌋ : ℤ) ≤ b := by nlinarith
  obtain ⟨v, h1, h2, h3, -⟩ := round_within r' s (q := a - b * (⌊a / b⌋ : ℤ))
    (by rw [abs_of_nonneg r0, abs_of_pos hb]; exact r1)
  have h4 := rnd_fin s (q := a - b * (⌊a / b⌋ : ℤ)) (by rw [abs_of_nonneg r0]; linarith)
  have h5 := is_unique h1 h4.1
  refine ⟨⌊a / b⌋, v, h1, h3 r0, ?_, ?_, Int.floor_nonneg.mpr (by positivity), f1⟩
  · rw [abs_of_pos hb] at h2
    exact (le_abs_self v).trans h2
  · have h6 := rnd_le h4.2 (X := b) (by rw [abs_of_nonneg (by exact_mod_cast r0)]; exact_mod_cast r1)
    rw [← h5] at h6
    push_cast at h6
    exact h6

end Near

/-- The inverse sine away from the poles. -/
theorem arcsin_lip12 {x y : ℝ} (hx : |x| ≤ 9963 / 10000) (hy : |y| ≤ 9963 / 10000) :
    |Real.arcsin y - Real.arcsin x| ≤ 12 * |y - x| := by
  have key : ∀ z ∈ Set.Icc (-(9963 / 10000 : ℝ)) (9963 / 10000), z ≠ -1 ∧ z ≠ 1 ∧ |deriv Real.arcsin z| ≤ 12 := by
    intro z hz
    refine ⟨by linarith [hz.1] |> fun (h : (-1 : ℝ) < z) => h.ne', by linarith [hz.2] |> fun (h : z < 1) => h.ne, ?_⟩
    rw [Real.deriv_arcsin]
    have hs : 1 / 12 ≤ √(1 - z ^ 2) := by
      apply Real.le_sqrt_of_sq_le
      nlinarith [hz.1, hz.2]
    rw [abs_of_pos (by positivity), div_le_iff₀ (by linarith)]
    linarith
  have := Convex.norm_image_sub_le_of_norm_deriv_le (𝕜 := ℝ) (f := Real.arcsin) (C := 12)
    (s := Set.Icc (-(9963 / 10000 : ℝ)) (9963 / 10000)) (x := x) (y := y)
    (fun z hz => (Real.differentiableAt_arcsin).mpr ⟨(key z hz).1, (key z hz).2.1⟩) (fun z hz => (key z hz).2.2)
    (convex_Icc _ _) (abs_le.mp hx) (abs_le.mp hy)
  simpa using this

theorem cos_85 {x : ℝ} (h : |x| ≤ 85) : 87 / 1000 ≤ Real.cos (rad x) := by
  have p1 := Real.pi_gt_d2
  have p2 := Real.pi_lt_d2
  have hs := Real.sin_gt_sub_cube (x := Real.pi / 36) (by linarith)
  have e : Real.sin (Real.pi / 36) = Real.cos (85 * (Real.pi / 180)) := by
    rw [← Real.cos_pi_div_two_sub]; congr 1; ring
  have h2 : Real.cos (85 * (Real.pi / 180)) ≤ Real.cos |rad x| := by
    apply Real.cos_le_cos_of_nonneg_of_le_pi (abs_nonneg _) (by linarith)
    unfold rad
    rw [abs_mul, abs_of_pos (by positivity : 0 < Real.pi / 180)]
    exact mul_le_mul_of_nonneg_right h (by positivity)
  rw [Real.cos_abs] at h2
  rw [e] at hs
  have h3 : 87 / 1000 ≤ Real.pi / 36 - (Real.pi / 36) ^ 3 / 6 := by
    have a1 : 872 / 10000 ≤ Real.pi / 36 := by norm_num at *; linarith
    have a2 : Real.pi / 36 ≤ 875 / 10000 := by norm_num at *; linarith
    have a3 : (Real.pi / 36) ^ 3 ≤ (875 / 10000) ^ 3 := pow_le_pow_left₀ (by positivity) a2 3
    norm_num at *
    linarith
  linarith

/-- The normalisation of the longitude. -/
theorem lon_near [MathLib] {f : F64} {x e : ℝ} (hf : ∃ w : ℚ, Is f w ∧ |w| ≤ 8 ∧ Turn w x e) :
    ∃ q : ℚ, Is ((GoMath.fmod (f +. lit 3 *. GoMath.pi) (lit 2 *. GoMath.pi) -. GoMath.pi) *. degrees) q ∧
      |q| ≤ 181 ∧ Turn (rad q) x (e + 1 / 10 ^ 14) := by
  obtain ⟨w, hw, w1, k, hk⟩ := hf
  obtain ⟨w1a, w1b⟩ := abs_le.mp w1
  have pl : (314 / 100 : ℚ) < Near.pid := by unfold Near.pid; norm_num
  have pu : Near.pid < 315 / 100 := by unfold Near.pid; norm_num
  have plr : (314 / 100 : ℝ) < Near.pid := by unfold Near.pid; norm_num
  have pur : (Near.pid : ℝ) < 315 / 100 := by unfold Near.pid; norm_num
  obtain ⟨pin1, pin2⟩ := abs_le.mp Near.pid_near
  obtain ⟨a, ha, ra⟩ := add_rnd hw Near.three_pi_is (by rw [abs_le]; constructor <;> norm_num <;> linarith)
  have w2 : |(w : ℝ)| ≤ 8 := by exact_mod_cast w1
  obtain ⟨w2a, w2b⟩ := abs_le.mp w2
  have s1 : |(w : ℝ) + ((2652839157010665 / 281474976710656 : ℚ) : ℝ)| ≤ 18 := by
    rw [abs_le]; push_cast; constructor <;> linarith
  obtain ⟨ra1, ra2⟩ := abs_le.mp (rnd_le ra s1)
  push_cast at ra1 ra2
  have hu1 : 18 * uu + et ≤ 2 / 10 ^ 15 := by unfold uu et; norm_num
  have a0 : 0 ≤ a := by
    have : (0 : ℝ) ≤ a := by linarith
    exact_mod_cast this
  have a18 : (a : ℝ) ≤ 18 := by linarith
  obtain ⟨j, v, hv, v0, v1, ev, j0, j1⟩ := Near.fmod_is ha Near.two_pi_is a0 (by linarith) (by linarith)
  have j2 : (j : ℝ) ≤ 3 := by
    have h3 : (j : ℚ) ≤ 3 := by
      refine j1.trans ?_
      rw [div_le_iff₀ (by linarith)]
      have : a ≤ 18 := by exact_mod_cast a18
      linarith
    exact_mod_cast h3
  have j0' : (0 : ℝ) ≤ j := by exact_mod_cast j0
  have v0' : (0 : ℝ) ≤ v := by exact_mod_cast v0
  have v1' : (v : ℝ) ≤ 2 * Near.pid := by exact_mod_cast v1
  obtain ⟨ev1, ev2⟩ := abs_le.mp ev
  push_cast at ev1 ev2
  have hu2 : 2 * (Near.pid : ℝ) * uu + et ≤ 1 / 10 ^ 15 := by
    have : 2 * (Near.pid : ℝ) * uu ≤ 7 * uu := mul_le_mul_of_nonneg_right (by linarith) (by unfold uu; norm_num)
    refine (add_le_add_left this _).trans ?_
    unfold uu et; norm_num
  have vp : |(v : ℝ) - Near.pid| ≤ 315 / 100 := by rw [abs_le]; constructor <;> linarith
  obtain ⟨z, hz, rz⟩ := sub_rnd hv Near.pi_is (by
    have : |v - Near.pid| ≤ 315 / 100 := by rw [abs_le]; constructor <;> linarith
    exact this.trans (by norm_num))
  have rz' := rnd_le rz vp
  obtain ⟨rz1, rz2⟩ := abs_le.mp rz'
  have hu3 : 315 / 100 * uu + et ≤ 1 / 10 ^ 15 := by unfold uu et; norm_num
  obtain ⟨q, hq, eq1⟩ := Near.degrees (Near.of_is hz) (x := z) (by
    rw [abs_le]
    constructor <;> linarith) (by norm_num)
  obtain ⟨eq2, eq3⟩ := abs_le.mp eq1
  refine ⟨q, hq, ?_, ?_⟩
  · have : |(q : ℝ)| ≤ 181 := by
      have hz4 : |rad q| ≤ 3151 / 1000 := by
        rw [abs_le]
        constructor <;> linarith
      unfold rad at hz4
      rw [abs_mul, abs_of_pos (by positivity : 0 < Real.pi / 180)] at hz4
      by_contra hc
      push Not at hc
      have : 31415 / 10000 < Real.pi := by have := Real.pi_gt_d4; norm_num at *; linarith
      have := mul_lt_mul_of_pos_right hc (by positivity : 0 < Real.pi / 180)
      linarith
    exact_mod_cast this
  · refine ⟨k + 1 - j, ?_⟩
    have jm : |(j : ℝ) * (Near.pid - Real.pi)| ≤ 3 * (13 / 10 ^ 17) := by
      rw [abs_mul, abs_of_nonneg j0']
      exact mul_le_mul j2 Near.pid_near (abs_nonneg _) (by norm_num)
    obtain ⟨jm1, jm2⟩ := abs_le.mp jm
    obtain ⟨hk1, hk2⟩ := abs_le.mp hk
    have l3 : (2652839157010665 / 281474976710656 : ℝ) = 3 * Near.pid := by unfold Near.pid; norm_num
    clear w1a w1b pl pu a0 v0 v1 vp s1 v0' v1' j1 j2 plr pur w2a w2b a18 rz rz' ra ev jm hk eq1
    rw [abs_le]
    push_cast
    constructor <;> linarith

end GpsGen
