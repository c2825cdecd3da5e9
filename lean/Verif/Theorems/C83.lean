import Mathlib.Analysis.Real.Pi.Bounds
import Verif.Lemmas.HaversineError
import Verif.Model.GoTrig
import Verif.Theorems.C46
import Verif.Theorems.C46Double
/-!
# C83: distances are accurate

`Distance` in IEEE doubles against the great-circle distance. For any mathematical library whose sine and cosine are
accurate to `2 ^ -52`, and all coordinates with latitudes in [-90, 90] and longitudes in [-180, 180]: up to 10 000 km the
result differs from the great-circle distance by less than a micrometre; up to two metres from the antipode by less than
two metres. Around the antipode nothing can be said: with the sine and cosine of Go's package `math` the haversine of two
antipodal points exceeds 1, and the distance is NaN.
-/

namespace GpsGen
namespace C83
open F64 C28.Double C46.Double HavErr

attribute [local irreducible] Round64.rndQ Round64.pow2

/-! ## Specification -/

/-- The great-circle distance in metres, by the angle of the two points of the sphere. -/
noncomputable def exact (latA lonA latB lonB : ℝ) : ℝ :=
  6371000 * InnerProductGeometry.angle (C46.position latA lonA) (C46.position latB lonB)

/-- What is used of the accuracy of package `math`: sine, cosine and square root have errors of at most `2 ^ -52`, the
inverse sine of at most `2 ^ -50`. -/
structure Accurate [MathLib] : Prop where
  sin_near : ∀ x (q : ℚ), Is x q → |q| ≤ 7 → ∃ v : ℚ, Is (MathLib.sin x) v ∧ |(v : ℝ) - Real.sin q| ≤ 2 ^ (-52 : ℤ)
  cos_near : ∀ x (q : ℚ), Is x q → |q| ≤ 7 → ∃ v : ℚ, Is (MathLib.cos x) v ∧ |(v : ℝ) - Real.cos q| ≤ 2 ^ (-52 : ℤ)
  sqrt_near : ∀ x (q : ℚ), Is x q → 0 ≤ q → q ≤ 1 →
    ∃ v : ℚ, Is (MathLib.sqrt x) v ∧ |(v : ℝ) - Real.sqrt q| ≤ 2 ^ (-52 : ℤ)
  asin_near : ∀ x (q : ℚ), Is x q → |q| ≤ 1 →
    ∃ v : ℚ, Is (MathLib.asin x) v ∧ |(v : ℝ) - Real.arcsin q| ≤ 2 ^ (-50 : ℤ)

/-- The coordinates are numbers, in the usual ranges. -/
structure Coords (latA lonA latB lonB : F64) (a b c d : ℚ) : Prop where
  latA : Is latA a
  lonA : Is lonA b
  latB : Is latB c
  lonB : Is lonB d
  rangeA : |a| ≤ 90 ∧ |b| ≤ 180
  rangeB : |c| ≤ 90 ∧ |d| ≤ 180

/-- The full claim: the distance of any two points is a number that is right up to two metres. -/
def Claim [MathLib] : Prop := ∀ (latA lonA latB lonB : F64) (a b c d : ℚ), Coords latA lonA latB lonB a b c d →
  ∃ v : ℚ, Is (distance latA lonA latB lonB) v ∧ |(v : ℝ) - exact a b c d| ≤ 2

/-- What is used of Go's package `math` on amd64: sine and cosine are computed as in `Model/GoTrig`, the square root is
correctly rounded (a relative error of at most `2 ^ -53`; slightly more is allowed here), the inverse sine of a number above
1 is NaN. -/
structure GoLibrary [MathLib] : Prop where
  sin_go : ∀ x (q : ℚ), Is x q → |q| ≤ 4 → MathLib.sin x = GoTrig.sin x
  cos_go : ∀ x (q : ℚ), Is x q → |q| ≤ 4 → MathLib.cos x = GoTrig.cos x
  sqrt_round : ∀ x (q : ℚ), Is x q → 1 ≤ q → q ≤ 2 →
    ∃ v : ℚ, Is (MathLib.sqrt x) v ∧ |(v : ℝ) - Real.sqrt q| ≤ Real.sqrt q * (5 / 4 * 2 ^ (-53 : ℤ))
  asin_nan : ∀ x (q : ℚ), Is x q → 1 < q → MathLib.asin x = .nan

/-! ## Operations -/

theorem rnd_fin (z : Bool) {q : ℚ} (h : |q| ≤ 2 ^ 30) : Is (round z q) (Round64.rndQ q) ∧ Rnd q (Round64.rndQ q) := by
  obtain ⟨r, e⟩ := round_small z (n := 2 ^ 30) (by norm_num) (by exact_mod_cast h)
  refine ⟨⟨_, r, e⟩, ?_⟩
  have h1 := Round64.rndQ_error q
  have h2 : max (|q| * 2 ^ (-53 : ℤ)) (2 ^ (-1075 : ℤ)) ≤ |q| * (1 / 9007199254740992) + 1 / 10 ^ 40 := by
    refine max_le ?_ ?_
    · rw [show (2 : ℚ) ^ (-53 : ℤ) = 1 / 9007199254740992 by norm_num]
      norm_num
    · have h3 : (2 : ℚ) ^ (-1075 : ℤ) ≤ 2 ^ (-200 : ℤ) := zpow_le_zpow_right₀ (by norm_num) (by norm_num)
      have h4 : (2 : ℚ) ^ (-200 : ℤ) ≤ 1 / 10 ^ 40 := by norm_num
      have h5 : 0 ≤ |q| * (1 / 9007199254740992) := by positivity
      refine h3.trans (h4.trans ?_)
      clear h3 h4 h1
      linarith
  have h6 : |Round64.rndQ q - q| ≤ |q| * (1 / 9007199254740992) + 1 / 10 ^ 40 := h1.trans h2
  have h7 : ((|Round64.rndQ q - q| : ℚ) : ℝ) ≤ ((|q| * (1 / 9007199254740992) + 1 / 10 ^ 40 : ℚ) : ℝ) := Rat.cast_le.mpr h6
  push_cast at h7
  exact h7

theorem mul_rnd {x y : F64} {a b : ℚ} (hx : Is x a) (hy : Is y b) (h : |a * b| ≤ 2 ^ 30) :
    ∃ v : ℚ, Is (x *. y) v ∧ Rnd ((a : ℝ) * b) v := by
  obtain ⟨s, r, rfl⟩ := hx
  obtain ⟨t, r', rfl⟩ := hy
  have := rnd_fin (s != t) h
  exact ⟨_, this.1, by have h2 := this.2; push_cast at h2; exact h2⟩

theorem add_rnd {x y : F64} {a b : ℚ} (hx : Is x a) (hy : Is y b) (h : |a + b| ≤ 2 ^ 30) :
    ∃ v : ℚ, Is (x +. y) v ∧ Rnd ((a : ℝ) + b) v := by
  obtain ⟨s, r, rfl⟩ := hx
  obtain ⟨t, r', rfl⟩ := hy
  have := rnd_fin (decide (a = 0) && decide (b = 0) && s && t) h
  exact ⟨_, this.1, by have h2 := this.2; push_cast at h2; exact h2⟩

theorem sub_rnd {x y : F64} {a b : ℚ} (hx : Is x a) (hy : Is y b) (h : |a - b| ≤ 2 ^ 30) :
    ∃ v : ℚ, Is (x -. y) v ∧ Rnd ((a : ℝ) - b) v := by
  obtain ⟨s, r, rfl⟩ := hx
  obtain ⟨t, r', rfl⟩ := hy
  rw [fin_sub]
  have := rnd_fin (decide (a = 0) && decide (-b = 0) && s && !t) (q := a + -b) (by rw [← sub_eq_add_neg]; exact h)
  exact ⟨_, this.1, by have h2 := this.2; push_cast at h2; rw [sub_eq_add_neg]; exact h2⟩

theorem half_rnd {x : F64} {a : ℚ} (hx : Is x a) (h : |a| ≤ 2 ^ 30) : ∃ v : ℚ, Is (x /. lit 2) v ∧ Rnd ((a : ℝ) / 2) v := by
  obtain ⟨s, r, rfl⟩ := hx
  obtain ⟨r2, e⟩ := lit_nat (q := 2) 2 (by norm_num) (by norm_num) (by norm_num)
  rw [e, fin_div, if_neg (by norm_num)]
  have := rnd_fin (s != false) (q := a / 2) (by
    rw [abs_div, abs_of_pos (by norm_num : (0 : ℚ) < 2)]
    linarith [abs_nonneg a])
  exact ⟨_, this.1, by have h2 := this.2; push_cast at h2; exact h2⟩

/-! ## Angles -/

theorem rad180_near : |(rad180 : ℝ) - Real.pi / 180| ≤ 4 / 10 ^ 19 := by
  have h1 := Real.pi_gt_d20
  have h2 := Real.pi_lt_d20
  unfold rad180
  rw [abs_le]
  push_cast
  constructor <;> norm_num at * <;> linarith

theorem abs_real {q : ℚ} {B : ℚ} (h : |q| ≤ B) : |(q : ℝ)| ≤ B := by exact_mod_cast h

/-- Degrees to radians. -/
theorem angle_near [MathLib] {x : F64} {a : ℚ} (B : ℚ) (hx : Is x a) (ha : |a| ≤ B) (h1 : 1 ≤ B) (hB : B ≤ 1000) :
    ∃ v : ℚ, Is (x *. radians) v ∧ |(v : ℝ) - rad a| ≤ B * (24 / 10 ^ 19) := by
  have hm : |a * rad180| ≤ 2 ^ 30 := by
    rw [abs_mul]
    exact (mul_le_of_le_one_right (abs_nonneg a) rad180_le).trans (by linarith)
  obtain ⟨v, hv, rv⟩ := mul_rnd hx radians_is hm
  refine ⟨v, hv, ?_⟩
  have ha' := abs_real ha
  have hB0 : (1 : ℝ) ≤ B := by exact_mod_cast h1
  have k1 : |(rad180 : ℝ)| ≤ 174533 / 10 ^ 7 := by
    have : |rad180| ≤ 174533 / 10 ^ 7 := by unfold rad180; norm_num
    have := abs_real this
    push_cast at this
    exact this
  have k2 : |(a : ℝ) * rad180| ≤ B * (174533 / 10 ^ 7) := by
    rw [abs_mul]
    exact mul_le_mul ha' k1 (abs_nonneg _) (by linarith)
  have k3 := rnd_le rv k2
  have k4 : |(a : ℝ) * rad180 - rad a| ≤ B * (4 / 10 ^ 19) := by
    unfold rad
    rw [← mul_sub, abs_mul]
    exact mul_le_mul ha' rad180_near (abs_nonneg _) (by linarith)
  have k5 := abs_add_le ((v : ℝ) - a * rad180) (a * rad180 - rad a)
  rw [sub_add_sub_cancel] at k5
  have k6 : (B : ℝ) * (174533 / 10 ^ 7) * uu + et ≤ B * (2 / 10 ^ 18) := by
    unfold uu et
    norm_num
    linarith
  norm_num at *
  linarith

/-- Half the difference of two angles. -/
theorem diff_near {x y : F64} {p q : ℚ} {X Y e M : ℝ} (hx : Is x p) (hy : Is y q) (h1 : |(p : ℝ) - X| ≤ e)
    (h2 : |(q : ℝ) - Y| ≤ e) (hX : |X| ≤ M) (hY : |Y| ≤ M) (hM : M ≤ 315 / 100) (he : e ≤ 44 / 10 ^ 17) :
    ∃ v : ℚ, Is ((x -. y) /. lit 2) v ∧ |(v : ℝ) - (X - Y) / 2| ≤ 115 / 10 ^ 17 ∧ |v| ≤ 4 := by
  have hp : |(p : ℝ)| ≤ M + e := by
    have := abs_add_le ((p : ℝ) - X) X
    rw [sub_add_cancel] at this
    linarith
  have hq : |(q : ℝ)| ≤ M + e := by
    have := abs_add_le ((q : ℝ) - Y) Y
    rw [sub_add_cancel] at this
    linarith
  have hd : |(p : ℝ) - q| ≤ 2 * (M + e) := by
    have := abs_sub (p : ℝ) q
    linarith
  have hd2 : |p - q| ≤ 2 ^ 30 := by
    have : |(p : ℝ) - q| ≤ 2 ^ 30 := by norm_num at *; linarith
    exact_mod_cast this
  obtain ⟨d, hd3, rd⟩ := sub_rnd hx hy hd2
  have k1 := rnd_le rd hd
  have hdd : |(d : ℝ)| ≤ 2 * (M + e) + (2 * (M + e) * uu + et) := by
    have := abs_add_le ((d : ℝ) - (p - q)) (p - q)
    rw [sub_add_cancel] at this
    linarith
  have hd7 : |(d : ℝ)| ≤ 7 := by unfold uu et at hdd; norm_num at *; linarith
  have hd4 : |d| ≤ 2 ^ 30 := by
    have : |(d : ℝ)| ≤ 2 ^ 30 := by norm_num at *; linarith
    exact_mod_cast this
  obtain ⟨v, hv, rv⟩ := half_rnd hd3 hd4
  have hd5 : |(d : ℝ) / 2| ≤ (M + e) + ((M + e) * uu + et) := by
    rw [abs_div, abs_of_pos (by norm_num : (0 : ℝ) < 2)]
    unfold et at *
    linarith
  have k2 := rnd_le rv hd5
  have hdl : |(v : ℝ) - (X - Y) / 2| ≤ 115 / 10 ^ 17 := by
    have e1 : (v : ℝ) - (X - Y) / 2 = (v - d / 2) + ((d - (p - q)) / 2 + ((p - X) / 2 - (q - Y) / 2)) := by ring
    rw [e1]
    have t1 := abs_add_le ((v : ℝ) - d / 2) ((d - (p - q)) / 2 + ((p - X) / 2 - (q - Y) / 2))
    have t2 := abs_add_le (((d : ℝ) - (p - q)) / 2) ((p - X) / 2 - (q - Y) / 2)
    have t3 := abs_sub (((p : ℝ) - X) / 2) ((q - Y) / 2)
    rw [abs_div, abs_of_pos (by norm_num : (0 : ℝ) < 2)] at t2
    rw [abs_div, abs_div, abs_of_pos (by norm_num : (0 : ℝ) < 2)] at t3
    unfold uu et at *
    norm_num at *
    linarith
  refine ⟨v, hv, hdl, ?_⟩
  have : |(v : ℝ)| ≤ 4 := by
    have := abs_add_le ((v : ℝ) - d / 2) (d / 2)
    rw [sub_add_cancel, abs_div, abs_of_pos (by norm_num : (0 : ℝ) < 2)] at this
    unfold uu et at *
    norm_num at *
    linarith
  exact_mod_cast this

/-! ## The haversine -/

theorem rad_abs {a B : ℝ} (h : |a| ≤ B) (hB : B ≤ 180) : |rad a| ≤ 315 / 100 := by
  unfold rad
  have hp := Real.pi_pos
  have h3 := Real.pi_lt_d2
  rw [abs_mul, abs_of_pos (by positivity : 0 < Real.pi / 180)]
  have : |a| * (Real.pi / 180) ≤ 180 * (Real.pi / 180) := mul_le_mul_of_nonneg_right (by linarith) (by positivity)
  norm_num at *
  linarith

theorem cos_diff (x y : ℝ) : |Real.cos x - Real.cos y| ≤ 2 * |Real.sin ((y - x) / 2)| := by
  rw [Real.cos_sub_cos, abs_mul, abs_mul]
  have h1 := Real.abs_sin_le_one ((x + y) / 2)
  have e : |Real.sin ((x - y) / 2)| = |Real.sin ((y - x) / 2)| := by
    rw [← abs_neg, ← Real.sin_neg]
    congr 2
    ring
  rw [e]
  have := mul_le_of_le_one_left (abs_nonneg (Real.sin ((y - x) / 2))) h1
  norm_num
  nlinarith

/-- The square root of the exact haversine. -/
noncomputable def root (a b c d : ℝ) : ℝ := √(haversine a b c d)

theorem root_sq (a b c d : ℝ) : root a b c d * root a b c d = haversine a b c d :=
  Real.mul_self_sqrt (C46.haversine_range a b c d).1

theorem root_nonneg (a b c d : ℝ) : 0 ≤ root a b c d := Real.sqrt_nonneg _

theorem root_le (a b c d : ℝ) : root a b c d ≤ 1 := by
  have := (C46.haversine_range a b c d).2
  exact Real.sqrt_le_one.mpr this

theorem exact_root (a b c d : ℝ) : exact a b c d = 12742000 * Real.arcsin (root a b c d) := by
  unfold exact root
  rw [← C46.distance_angle]
  simp [distance, distanceFromHaversine, earthRadius]
  norm_num

/-- The computed haversine. -/
theorem haversine_near [MathLib] (L : Library) (A : Accurate) {latA lonA latB lonB : F64} {a b c d : ℚ}
    (h : Coords latA lonA latB lonB a b c d) : ∃ v : ℚ, Is (haversine latA lonA latB lonB) v ∧ 0 ≤ v ∧
      |(v : ℝ) - root a b c d * root a b c d| ≤ 2 * kk * root a b c d + kk * kk := by
  obtain ⟨v0, hv0, n0, -⟩ := haversine_range_partial L latA lonA latB lonB a b c d h.latA h.lonA h.latB h.lonB
    h.rangeA.1 h.rangeB.1 (h.rangeA.2.trans (by norm_num)) (h.rangeB.2.trans (by norm_num))
  refine ⟨v0, hv0, n0, ?_⟩
  obtain ⟨φ1, f1, e1⟩ := angle_near 90 h.latA h.rangeA.1 (by norm_num) (by norm_num)
  obtain ⟨φ2, f2, e2⟩ := angle_near 90 h.latB h.rangeB.1 (by norm_num) (by norm_num)
  obtain ⟨l1, g1, i1⟩ := angle_near 180 h.lonA h.rangeA.2 (by norm_num) (by norm_num)
  obtain ⟨l2, g2, i2⟩ := angle_near 180 h.lonB h.rangeB.2 (by norm_num) (by norm_num)
  have ra := rad_abs (a := a) (abs_real h.rangeA.1) (by norm_num)
  have rb := rad_abs (a := b) (abs_real h.rangeA.2) (by norm_num)
  have rc := rad_abs (a := c) (abs_real h.rangeB.1) (by norm_num)
  have rd := rad_abs (a := d) (abs_real h.rangeB.2) (by norm_num)
  obtain ⟨x, hx, ex, x4⟩ := diff_near f2 f1 (e := 44 / 10 ^ 17) (e2.trans (by norm_num)) (e1.trans (by norm_num)) rc ra
    le_rfl le_rfl
  obtain ⟨y, hy, ey, y4⟩ := diff_near g2 g1 (e := 44 / 10 ^ 17) (i2.trans (by norm_num)) (i1.trans (by norm_num)) rd rb
    le_rfl le_rfl
  obtain ⟨φ1', f1', b1⟩ := latitude_range h.latA h.rangeA.1
  obtain ⟨φ2', f2', b2⟩ := latitude_range h.latB h.rangeB.1
  obtain rfl := is_unique f1 f1'
  obtain rfl := is_unique f2 f2'
  obtain ⟨s, hs, es⟩ := A.sin_near _ _ hx (x4.trans (by norm_num))
  obtain ⟨t, ht, et'⟩ := A.sin_near _ _ hy (y4.trans (by norm_num))
  obtain ⟨c1, hc1, ec1⟩ := A.cos_near _ _ f1 (b1.trans (by norm_num))
  obtain ⟨c2, hc2, ec2⟩ := A.cos_near _ _ f2 (b2.trans (by norm_num))
  obtain ⟨s', hs', s1⟩ := L.sin_range _ _ hx
  obtain ⟨t', ht', t1⟩ := L.sin_range _ _ hy
  obtain ⟨c1', hc1', k1⟩ := L.cos_range _ _ f1
  obtain ⟨c2', hc2', k2⟩ := L.cos_range _ _ f2
  obtain rfl := is_unique hs hs'
  obtain rfl := is_unique ht ht'
  obtain rfl := is_unique hc1 hc1'
  obtain rfl := is_unique hc2 hc2'
  have n1 := L.cos_nonneg _ _ _ f1 b1 hc1
  have n2 := L.cos_nonneg _ _ _ f2 b2 hc2
  have big : ∀ {p : ℚ}, |p| ≤ 2 → |p| ≤ 2 ^ 30 := fun h => h.trans (by norm_num)
  have one : ∀ {p q : ℚ}, |p| ≤ 1 → |q| ≤ 1 → |p * q| ≤ 1 := fun hp hq => by
    rw [abs_mul]; exact mul_le_one₀ hp (abs_nonneg _) hq
  obtain ⟨p, hp, p1, -, -⟩ := mul_within hs hs s1
  obtain ⟨p', hp', rp⟩ := mul_rnd hs hs (big ((one s1 s1).trans (by norm_num)))
  obtain rfl := is_unique hp hp'
  obtain ⟨m, hm, m1, -, -⟩ := mul_within hc1 hc2 k2
  obtain ⟨m', hm', rm⟩ := mul_rnd hc1 hc2 (big ((one k1 k2).trans (by norm_num)))
  obtain rfl := is_unique hm hm'
  have m1' := m1.trans k1
  obtain ⟨w1, hw1, w11, -, -⟩ := mul_within hm ht t1
  obtain ⟨w1', hw1', rw1⟩ := mul_rnd hm ht (big ((one m1' t1).trans (by norm_num)))
  obtain rfl := is_unique hw1 hw1'
  have w11' := w11.trans m1'
  obtain ⟨w, hw, w2, -, -⟩ := mul_within hw1 ht t1
  obtain ⟨w', hw', rw2⟩ := mul_rnd hw1 ht (big ((one w11' t1).trans (by norm_num)))
  obtain rfl := is_unique hw hw'
  obtain ⟨z, hz, rz⟩ := add_rnd hp hw (big ((abs_add_le _ _).trans (by linarith [p1.trans s1, w2.trans w11'])))
  have hz' : Is (haversine latA lonA latB lonB) z := hz
  obtain rfl := is_unique hv0 hz'
  have trig : ∀ {X Y D : ℝ}, |X - Y| ≤ D → |Real.sin X - Real.sin Y| ≤ D := fun h => (Real.abs_sin_sub_sin_le _ _).trans h
  have trig' : ∀ {X Y D : ℝ}, |X - Y| ≤ D → |Real.cos X - Real.cos Y| ≤ D := fun h => (Real.abs_cos_sub_cos_le _ _).trans h
  have comb : ∀ {X Y Z D : ℝ}, |X - Y| ≤ 2 ^ (-52 : ℤ) → |Y - Z| ≤ D → D ≤ 12 / 10 ^ 16 → |X - Z| ≤ dl := by
    intro X Y Z D h1 h2 h3
    have := abs_add_le (X - Y) (Y - Z)
    rw [sub_add_sub_cancel] at this
    unfold dl
    norm_num at *
    linarith
  have ca := cos_rad_nonneg (x := a) (abs_le.mp (by have := abs_real h.rangeA.1; push_cast at this; exact this))
  have cc := cos_rad_nonneg (x := c) (abs_le.mp (by have := abs_real h.rangeB.1; push_cast at this; exact this))
  refine hav_error (s := Real.sin ((rad c - rad a) / 2)) (t := Real.sin ((rad d - rad b) / 2)) (c1 := Real.cos (rad a))
    (c2 := Real.cos (rad c)) (s' := s) (t' := t) (c1' := c1) (c2' := c2)
    (comb es (trig ex) (by norm_num)) (comb et' (trig ey) (by norm_num)) (comb ec1 (trig' e1) (by norm_num))
    (comb ec2 (trig' e2) (by norm_num)) (by exact_mod_cast t1) (by exact_mod_cast n1) (by exact_mod_cast n2) ca cc
    (Real.cos_le_one _) (Real.cos_le_one _) (cos_diff _ _) (root_nonneg _ _ _ _) (root_le _ _ _ _) ?_ rp rm rw1 rw2 rz
  rw [root_sq]
  simp [haversine, radians_eq, rad]
  ring

/-! ## Theorems -/

/-- From a haversine that is at most 1 to the distance. -/
theorem finish [MathLib] (L : Library) (A : Accurate) {latA lonA latB lonB : F64} {h : ℚ}
    (hh : Is (haversine latA lonA latB lonB) h) (h0 : 0 ≤ h) (h1 : h ≤ 1) :
    ∃ x v : ℚ, 0 ≤ x ∧ x ≤ 1 ∧ |(x : ℝ) - √h| ≤ 2 ^ (-52 : ℤ) ∧ Is (distance latA lonA latB lonB) v ∧ 0 ≤ v ∧
      |(v : ℝ) - 12742000 * Real.arcsin x| ≤ 2 / 10 ^ 8 := by
  obtain ⟨x, hx, ex⟩ := A.sqrt_near _ _ hh h0 h1
  obtain ⟨x', hx', x0, x1⟩ := L.sqrt_range _ _ hh h0 h1
  obtain rfl := is_unique hx hx'
  obtain ⟨t, ht, et'⟩ := A.asin_near _ _ hx (by rw [abs_of_nonneg x0]; exact x1)
  obtain ⟨t', ht', t0, t2⟩ := L.asin_range _ _ hx x0 x1
  obtain rfl := is_unique ht ht'
  obtain ⟨r, e⟩ := two_radii
  have hR : Is ((lit 6371000 : F64) *. lit 2) 12742000 := ⟨_, r, e⟩
  have hb : |12742000 * t| ≤ 2 ^ 30 := by
    rw [abs_of_nonneg (by linarith)]
    norm_num
    linarith
  obtain ⟨v, hv, rv⟩ := mul_rnd hR ht hb
  obtain ⟨v', hv', n0, -⟩ := bounds_partial L latA lonA latB lonB h hh h0 h1
  have hv2 : Is (distance latA lonA latB lonB) v := hv
  obtain rfl := is_unique hv2 hv'
  refine ⟨x, v, x0, x1, ex, hv, n0, ?_⟩
  have t0' : (0 : ℝ) ≤ t := by exact_mod_cast t0
  have t2' : (t : ℝ) ≤ 2 := by exact_mod_cast t2
  have k1 := rnd_le rv (X := 25484000) (by
    push_cast
    rw [abs_of_nonneg (by linarith)]
    linarith)
  push_cast at k1
  have k2 := abs_add_le ((v : ℝ) - 12742000 * t) (12742000 * t - 12742000 * Real.arcsin x)
  rw [sub_add_sub_cancel, ← mul_sub, abs_mul, abs_of_pos (by norm_num : (0 : ℝ) < 12742000)] at k2
  unfold uu et at k1
  norm_num at *
  linarith

theorem root_small {a b c d : ℝ} (h : exact a b c d ≤ 10000000) : root a b c d ≤ 71 / 100 := by
  rw [exact_root] at h
  by_contra hc
  push Not at hc
  have h1 : Real.arcsin (71 / 100) ≤ Real.arcsin (root a b c d) := Real.arcsin_le_arcsin hc.le
  have h2 : Real.pi / 4 ≤ Real.arcsin (71 / 100) := by
    rw [Real.le_arcsin_iff_sin_le ⟨by linarith [Real.pi_pos], by linarith [Real.pi_pos]⟩ ⟨by norm_num, by norm_num⟩,
      Real.sin_pi_div_four]
    have : √2 ≤ 142 / 100 := by
      rw [Real.sqrt_le_left (by norm_num)]
      norm_num
    linarith
  have := Real.pi_gt_d4
  norm_num at this
  linarith

/-- **C83, up to 10 000 km.** The computed distance is a number that differs from the great-circle distance by less than a
micrometre. -/
theorem micrometre [MathLib] (L : Library) (A : Accurate) (latA lonA latB lonB : F64) (a b c d : ℚ)
    (h : Coords latA lonA latB lonB a b c d) (hd : exact a b c d ≤ 10000000) :
    ∃ v : ℚ, Is (distance latA lonA latB lonB) v ∧ 0 ≤ v ∧ |(v : ℝ) - exact a b c d| < 1 / 10 ^ 6 := by
  obtain ⟨q, hq, q0, eq'⟩ := haversine_near L A h
  have r0 := root_nonneg (a : ℝ) b c d
  have r1 := root_small hd
  set r := root (a : ℝ) b c d with hr
  have eq2 := root_error r0 (by unfold kk; norm_num) eq'
  have q1 : q ≤ 1 := by
    have : (q : ℝ) ≤ 1 := by
      have := (abs_le.mp eq').2
      unfold kk at this
      nlinarith
    exact_mod_cast this
  obtain ⟨x, v, x0, -, ex, hv, v0, ev⟩ := finish L A hq q0 q1
  refine ⟨v, hv, v0, ?_⟩
  rw [exact_root, ← hr]
  have x0' : (0 : ℝ) ≤ x := by exact_mod_cast x0
  have k1 : |(x : ℝ) - r| ≤ 18 / 10 ^ 15 := by
    have := abs_add_le ((x : ℝ) - √q) (√q - r)
    rw [sub_add_sub_cancel] at this
    unfold kk at eq2
    norm_num at *
    linarith
  have k2 : (x : ℝ) ≤ 3 / 4 := by
    have := (abs_le.mp k1).2
    norm_num at *
    linarith
  have k3 := arcsin_lip x0' k2 r0 (by linarith)
  have k4 := abs_add_le ((v : ℝ) - 12742000 * Real.arcsin x) (12742000 * Real.arcsin x - 12742000 * Real.arcsin r)
  rw [sub_add_sub_cancel, ← mul_sub, abs_mul, abs_of_pos (by norm_num : (0 : ℝ) < 12742000)] at k4
  norm_num at *
  linarith

theorem root_far {a b c d : ℝ} (h : exact a b c d ≤ Real.pi * 6371000 - 2) :
    root a b c d * root a b c d ≤ 1 - 24 / 10 ^ 15 := by
  rw [exact_root] at h
  have r0 := root_nonneg a b c d
  have r1 := root_le a b c d
  have hr := Real.sin_arcsin (x := root a b c d) (by linarith) r1
  set α := Real.arcsin (root a b c d)
  have h1 : α ≤ Real.pi / 2 - 1 / 6371000 := by norm_num at *; linarith
  have h0 : 0 ≤ α := Real.arcsin_nonneg.mpr r0
  have h2 : Real.sin α ≤ Real.cos (1 / 6371000) := by
    rw [← Real.sin_pi_div_two_sub]
    exact Real.sin_le_sin_of_le_of_le_pi_div_two (by linarith [Real.pi_pos]) (by norm_num) h1
  have h3 := Real.sin_gt_sub_cube (x := 1 / 6371000) (by norm_num)
  have h5 : (155 : ℝ) / 10 ^ 9 ≤ Real.sin (1 / 6371000) := by norm_num at *; linarith
  have h6 : (155 / 10 ^ 9 : ℝ) * (155 / 10 ^ 9) ≤ Real.sin (1 / 6371000) * Real.sin (1 / 6371000) :=
    mul_le_mul h5 h5 (by norm_num) (by norm_num at *; linarith)
  have h7 : root a b c d * root a b c d ≤ Real.cos (1 / 6371000) * Real.cos (1 / 6371000) := by
    rw [← hr]
    exact mul_le_mul h2 h2 (by rw [hr]; exact r0) (le_trans (by rw [hr]; exact r0) h2)
  have h8 : (24 / 10 ^ 15 : ℝ) ≤ 155 / 10 ^ 9 * (155 / 10 ^ 9) := by norm_num
  have h4 := Real.sin_sq_add_cos_sq (1 / 6371000)
  rw [pow_two, pow_two] at h4
  linarith

/-- **C83, elsewhere.** The computed distance of points that are at least two metres from being antipodal is a number that
differs from the great-circle distance by less than two metres. -/
theorem two_metres_partial [MathLib] (L : Library) (A : Accurate) (latA lonA latB lonB : F64) (a b c d : ℚ)
    (h : Coords latA lonA latB lonB a b c d) (hd : exact a b c d ≤ Real.pi * 6371000 - 2) :
    ∃ v : ℚ, Is (distance latA lonA latB lonB) v ∧ 0 ≤ v ∧ |(v : ℝ) - exact a b c d| < 2 := by
  obtain ⟨q, hq, q0, eq'⟩ := haversine_near L A h
  have r0 := root_nonneg (a : ℝ) b c d
  have r1 := root_le (a : ℝ) b c d
  have rf := root_far hd
  set r := root (a : ℝ) b c d with hr
  have eq2 : |(q : ℝ) - r * r| ≤ 1401 / 10 ^ 17 := by
    refine eq'.trans ?_
    unfold kk
    norm_num
    linarith
  have q1 : q ≤ 1 := by
    have : (q : ℝ) ≤ 1 := by
      have := (abs_le.mp eq2).2
      norm_num at *
      linarith
    exact_mod_cast this
  obtain ⟨x, v, x0, x1, ex, hv, v0, ev⟩ := finish L A hq q0 q1
  refine ⟨v, hv, v0, ?_⟩
  rw [exact_root, ← hr]
  have x0' : (0 : ℝ) ≤ x := by exact_mod_cast x0
  have x1' : (x : ℝ) ≤ 1 := by exact_mod_cast x1
  have q0' : (0 : ℝ) ≤ q := by exact_mod_cast q0
  have q1' : (q : ℝ) ≤ 1 := by exact_mod_cast q1
  have k1 : |(x : ℝ) * x - r * r| ≤ 146 / 10 ^ 16 := by
    have sq : √(q : ℝ) ≤ 1 := Real.sqrt_le_one.mpr q1'
    have k := sq_error ex (r := 1) (by rw [abs_of_nonneg (Real.sqrt_nonneg _)]; exact sq)
    rw [Real.mul_self_sqrt q0'] at k
    have := abs_add_le ((x : ℝ) * x - q) (q - r * r)
    rw [sub_add_sub_cancel] at this
    norm_num at *
    linarith
  have k3 := arcsin_gap x0' x1' r0 r1 k1
  have k4 := abs_add_le ((v : ℝ) - 12742000 * Real.arcsin x) (12742000 * Real.arcsin x - 12742000 * Real.arcsin r)
  rw [sub_add_sub_cancel, ← mul_sub, abs_mul, abs_of_pos (by norm_num : (0 : ℝ) < 12742000)] at k4
  norm_num at *
  linarith

/-- Points that are more than a micrometre and at most 10 000 km apart have a positive distance. -/
theorem positive [MathLib] (L : Library) (A : Accurate) (latA lonA latB lonB : F64) (a b c d : ℚ)
    (h : Coords latA lonA latB lonB a b c d) (hd : exact a b c d ≤ 10000000) (h1 : 1 / 10 ^ 6 ≤ exact a b c d) :
    (lit 0 <. distance latA lonA latB lonB) = true := by
  obtain ⟨v, ⟨s, r, e⟩, -, hv⟩ := micrometre L A latA lonA latB lonB a b c d h hd
  obtain ⟨r0, e0⟩ := lit_nat (q := 0) 0 (by norm_num) (by norm_num) (by norm_num)
  have : (0 : ℝ) < v := by linarith [(abs_lt.mp hv).1]
  rw [e, e0, fin_lt]
  exact decide_eq_true (by exact_mod_cast this)

/-- The triangle inequality holds up to three micrometres. -/
theorem triangle [MathLib] (L : Library) (A : Accurate) (latA lonA latB lonB latC lonC : F64) (a b c d e f : ℚ)
    (h : Coords latA lonA latB lonB a b c d) (h' : Coords latB lonB latC lonC c d e f) (hd : exact a b c d ≤ 10000000)
    (hd' : exact c d e f ≤ 10000000) (hd'' : exact a b e f ≤ 10000000) :
    ∃ x y z : ℚ, Is (distance latA lonA latB lonB) x ∧ Is (distance latB lonB latC lonC) y ∧
      Is (distance latA lonA latC lonC) z ∧ (z : ℝ) ≤ x + y + 3 / 10 ^ 6 := by
  obtain ⟨x, hx, -, ex⟩ := micrometre L A latA lonA latB lonB a b c d h hd
  obtain ⟨y, hy, -, ey⟩ := micrometre L A latB lonB latC lonC c d e f h' hd'
  obtain ⟨z, hz, -, ez⟩ := micrometre L A latA lonA latC lonC a b e f
    ⟨h.latA, h.lonA, h'.latB, h'.lonB, h.rangeA, h'.rangeB⟩ hd''
  refine ⟨x, y, z, hx, hy, hz, ?_⟩
  have t := C46.triangle a b c d e f
  rw [C46.distance_angle, C46.distance_angle, C46.distance_angle] at t
  have t' : exact a b e f ≤ exact a b c d + exact c d e f := t
  have := (abs_lt.mp ex).1
  have := (abs_lt.mp ey).1
  have := (abs_lt.mp ez).2
  norm_num at *
  linarith

/-! ## Antipodal points

44.008 N 66.125 W and 44.008 S 113.875 E. -/

/-- `radians`. -/
def rr : F64 := F64.div (F64.round false (884279719003555 / 281474976710656)) (lit 180)
def half1 : F64 := (lit (-44008 / 1000) *. rr -. lit (44008 / 1000) *. rr) /. lit 2
def half2 : F64 := (lit (113875 / 1000) *. rr -. lit (-66125 / 1000) *. rr) /. lit 2

/-- A double that is decided to be a number in [-4, 4]. -/
def small : F64 → Bool
  | .fin _ q _ => decide (|q| ≤ 4)
  | _ => false

theorem small_is {x : F64} (h : small x = true) : ∃ q, Is x q ∧ |q| ≤ 4 := by
  cases x with
  | fin s q r => exact ⟨q, ⟨s, r, rfl⟩, by simpa [small] using h⟩
  | inf s => exact absurd h (by simp [small])
  | nan => exact absurd h (by simp [small])

theorem go_haversine : ((GoTrig.sin half1 *. GoTrig.sin half1 +.
    GoTrig.cos (lit (44008 / 1000) *. rr) *. GoTrig.cos (lit (-44008 / 1000) *. rr) *. GoTrig.sin half2 *. GoTrig.sin half2 : F64)) =
    lit (2251799813685249 / 2251799813685248) := by decide +kernel

/-- The distance of these points is not a number. -/
theorem antipode_nan [MathLib] (G : GoLibrary) :
    distance (lit (44008 / 1000) : F64) (lit (-66125 / 1000)) (lit (-44008 / 1000)) (lit (113875 / 1000)) = .nan := by
  obtain ⟨q1, i1, j1⟩ := small_is (x := half1) (by decide +kernel)
  obtain ⟨q2, i2, j2⟩ := small_is (x := half2) (by decide +kernel)
  obtain ⟨q3, i3, j3⟩ := small_is (x := lit (44008 / 1000) *. rr) (by decide +kernel)
  obtain ⟨q4, i4, j4⟩ := small_is (x := lit (-44008 / 1000) *. rr) (by decide +kernel)
  have e : haversine (lit (44008 / 1000) : F64) (lit (-66125 / 1000)) (lit (-44008 / 1000)) (lit (113875 / 1000)) =
      lit (2251799813685249 / 2251799813685248) := by
    rw [← go_haversine, ← G.sin_go _ _ i1 j1, ← G.sin_go _ _ i2 j2, ← G.cos_go _ _ i3 j3, ← G.cos_go _ _ i4 j4]
    rfl
  have hr : Round64.rndQ (2251799813685249 / 2251799813685248) = 2251799813685249 / 2251799813685248 := by decide +kernel
  have hq : Is (lit (2251799813685249 / 2251799813685248) : F64) (2251799813685249 / 2251799813685248) := by
    have := (rnd_fin false (q := 2251799813685249 / 2251799813685248) (by norm_num)).1
    rw [hr] at this
    exact this
  obtain ⟨v, hv, ev⟩ := G.sqrt_round _ _ hq (by norm_num) (by norm_num)
  have v1 : 1 < v := by
    have h1 : (4503599627370497 / 4503599627370496 - 1 / 10 ^ 30 : ℝ) ≤ √(2251799813685249 / 2251799813685248 : ℝ) := by
      apply Real.le_sqrt_of_sq_le
      norm_num
    push_cast at ev
    have h2 := (abs_le.mp ev).1
    have : (1 : ℝ) < v := by
      norm_num at *
      linarith
    exact_mod_cast this
  show (lit 6371000 *. lit 2) *. MathLib.asin (MathLib.sqrt (haversine _ _ _ _)) = (.nan : F64)
  rw [e, G.asin_nan _ _ hv v1]
  obtain ⟨r, e2⟩ := two_radii
  rw [e2]
  rfl

theorem lit_is {n d : ℚ} (h : |n / d| ≤ 2 ^ 30) : Is (lit (n / d) : F64) (Round64.rndQ (n / d)) := (rnd_fin false h).1

/-- The full claim fails with Go's library. -/
theorem claim_fails [MathLib] (G : GoLibrary) : ¬ Claim := by
  intro h
  obtain ⟨v, ⟨s, r, e⟩, -⟩ := h _ _ _ _ _ _ _ _ ⟨lit_is (n := 44008) (d := 1000) (by norm_num), lit_is (n := -66125) (d := 1000) (by norm_num),
    lit_is (n := -44008) (d := 1000) (by norm_num), lit_is (n := 113875) (d := 1000) (by norm_num),
    ⟨rndQ_abs_le (n := 90) (by norm_num) (by norm_num), rndQ_abs_le (n := 180) (by norm_num) (by norm_num)⟩,
    ⟨rndQ_abs_le (n := 90) (by norm_num) (by norm_num), rndQ_abs_le (n := 180) (by norm_num) (by norm_num)⟩⟩
  rw [antipode_nan G] at e
  cases e

/-! ## Libraries

Both conditions can be met: by rounding the exact values, and by Go's sine and cosine. -/

/-- A rational number close to `y`, towards zero. -/
noncomputable def app (y : ℝ) : ℚ := if 0 ≤ y then ⌊y * 2 ^ 60⌋ / 2 ^ 60 else -(⌊-y * 2 ^ 60⌋ / 2 ^ 60)

theorem app_neg (y : ℝ) : app (-y) = -app y := by
  unfold app
  rcases lt_trichotomy y 0 with h | rfl | h
  · rw [if_pos (by linarith), if_neg (by linarith), neg_neg]
  · simp
  · rw [if_neg (by linarith), if_pos h.le, neg_neg]

theorem app_pos {y : ℝ} (h : 0 ≤ y) : 0 ≤ app y ∧ (app y : ℝ) ≤ y ∧ y - 1 / 2 ^ 60 ≤ app y := by
  have hf0 : (0 : ℤ) ≤ ⌊y * 2 ^ 60⌋ := Int.floor_nonneg.mpr (by positivity)
  have h1 := Int.floor_le (y * 2 ^ 60)
  have h2 := Int.lt_floor_add_one (y * 2 ^ 60)
  unfold app
  rw [if_pos h]
  refine ⟨div_nonneg (by exact_mod_cast hf0) (by norm_num), ?_, ?_⟩
  · push_cast
    rw [div_le_iff₀ (by norm_num)]
    exact h1
  · push_cast
    rw [le_div_iff₀ (by norm_num), sub_mul, one_div, inv_mul_cancel₀ (by norm_num)]
    linarith

theorem app_near (y : ℝ) : |(app y : ℝ) - y| ≤ 1 / 2 ^ 60 ∧ |(app y : ℝ)| ≤ |y| := by
  rcases le_total 0 y with h | h
  · obtain ⟨a, b, c⟩ := app_pos h
    have a' : (0 : ℝ) ≤ app y := by exact_mod_cast a
    rw [abs_of_nonneg a', abs_of_nonneg h, abs_le]
    exact ⟨⟨by linarith, by norm_num at *; linarith⟩, b⟩
  · obtain ⟨a, b, c⟩ := app_pos (y := -y) (by linarith)
    rw [app_neg] at a b c
    have a' : (app y : ℝ) ≤ 0 := by exact_mod_cast (by linarith : app y ≤ 0)
    push_cast at b c
    rw [abs_of_nonpos a', abs_of_nonpos h, abs_le]
    exact ⟨⟨by norm_num at *; linarith, by linarith⟩, b⟩

/-- Rounding: correctly up to `2 ^ -60`. -/
theorem round_app (z : Bool) {y : ℝ} {n : ℤ} (hy : |y| ≤ n) (hn : n ≤ 4) : ∃ v : ℚ, Is (round z (app y)) v ∧ |v| ≤ n ∧
    (0 ≤ y → 0 ≤ v) ∧ |(v : ℝ) - y| ≤ |y| * (1 / 2 ^ 53) + 2 / 2 ^ 60 := by
  have h1 := app_near y
  have h2 : |app y| ≤ n := by
    have := h1.2.trans hy
    exact_mod_cast this
  have hn2 : (n : ℚ) ≤ 4 := by exact_mod_cast hn
  have h3 := rnd_fin z (q := app y) (h2.trans (hn2.trans (by norm_num)))
  refine ⟨_, h3.1, rndQ_abs_le (hn.trans (by norm_num)) h2, fun h => Round64.rndQ_nonneg (app_pos h).1, ?_⟩
  have h4 := rnd_le h3.2 h1.2
  have := abs_add_le (((Round64.rndQ (app y) : ℚ) : ℝ) - app y) (app y - y)
  rw [sub_add_sub_cancel] at this
  have h5 := h1.1
  unfold uu et at h4
  norm_num at *
  linarith

/-- The library that rounds the exact values. -/
@[instance_reducible] noncomputable def ideal : MathLib where
  sin
    | .fin s q _ => round s (app (Real.sin q))
    | _ => .nan
  cos
    | .fin _ q _ => round false (app (Real.cos q))
    | _ => .nan
  asin
    | .fin s q _ => round s (app (Real.arcsin q))
    | _ => .nan
  sqrt
    | .fin s q _ => round s (app (√q))
    | _ => .nan
  atan2
    | .fin s p _, .fin _ q _ => round s (app (Complex.arg ⟨q, p⟩))
    | _, _ => .nan
  toInt _ := 0

theorem half_pi_lt : (884279719003555 / 562949953421312 : ℝ) < Real.pi / 2 := by
  have := Real.pi_gt_d20
  norm_num at *
  linarith

theorem app_zero : app 0 = 0 := by simp [app]

theorem ideal_library : @Library ideal := by
  refine @Library.mk ideal ?_ ?_ ?_ ?_ ?_ ?_ ?_ ?_ ?_
  · intro x
    cases x with
    | nan => rfl
    | inf s => rfl
    | fin s q h =>
      show round (!s) (app (Real.sin ((-q : ℚ) : ℝ))) = neg (round s (app (Real.sin q)))
      rw [← round_flip, ← app_neg, ← Real.sin_neg]
      push_cast
      rfl
  · rintro x ⟨s, r, rfl⟩
    show Is (round s (app (Real.sin ((0 : ℚ) : ℝ)))) 0
    rw [Rat.cast_zero, Real.sin_zero, app_zero]
    exact zero_is _
  · rintro x q ⟨s, r, rfl⟩
    obtain ⟨v, h1, h2, -⟩ := round_app s (n := 1) (by exact_mod_cast Real.abs_sin_le_one q) (by norm_num)
    exact ⟨v, h1, by exact_mod_cast h2⟩
  · rintro x q ⟨s, r, rfl⟩
    obtain ⟨v, h1, h2, -⟩ := round_app false (n := 1) (by exact_mod_cast Real.abs_cos_le_one q) (by norm_num)
    exact ⟨v, h1, by exact_mod_cast h2⟩
  · rintro x q v ⟨s, r, rfl⟩ hq hv
    obtain ⟨w, h1, -, h2, -⟩ := round_app false (n := 1) (by exact_mod_cast Real.abs_cos_le_one q) (by norm_num)
    rw [is_unique hv h1]
    have hq' := abs_le.mp (abs_real hq)
    push_cast at hq'
    have := half_pi_lt
    exact h2 (Real.cos_nonneg_of_mem_Icc ⟨by linarith [hq'.1], by linarith [hq'.2]⟩)
  · rintro x ⟨s, r, rfl⟩
    show Is (round s (app (√((0 : ℚ) : ℝ)))) 0
    rw [Rat.cast_zero, Real.sqrt_zero, app_zero]
    exact zero_is _
  · rintro x q ⟨s, r, rfl⟩ h0 h1
    have h1' : (q : ℝ) ≤ 1 := by exact_mod_cast h1
    obtain ⟨v, a, b, c, -⟩ := round_app s (y := √q) (n := 1)
      (by rw [abs_of_nonneg (Real.sqrt_nonneg _)]; exact_mod_cast Real.sqrt_le_one.mpr h1') (by norm_num)
    exact ⟨v, a, c (Real.sqrt_nonneg _), by exact_mod_cast (le_abs_self v).trans b⟩
  · rintro x ⟨s, r, rfl⟩
    show Is (round s (app (Real.arcsin ((0 : ℚ) : ℝ)))) 0
    rw [Rat.cast_zero, Real.arcsin_zero, app_zero]
    exact zero_is _
  · rintro x q ⟨s, r, rfl⟩ h0 h1
    have h0' : (0 : ℝ) ≤ q := by exact_mod_cast h0
    obtain ⟨v, a, b, c, -⟩ := round_app s (y := Real.arcsin q) (n := 2)
      (by
        rw [abs_of_nonneg (Real.arcsin_nonneg.mpr h0')]
        have := Real.arcsin_le_pi_div_two q
        have := Real.pi_le_four
        push_cast
        linarith) (by norm_num)
    exact ⟨v, a, c (Real.arcsin_nonneg.mpr h0'), by exact_mod_cast (le_abs_self v).trans b⟩

theorem ideal_accurate : @Accurate ideal := by
  refine @Accurate.mk ideal ?_ ?_ ?_ ?_
  · rintro x q ⟨s, r, rfl⟩ -
    have hs := Real.abs_sin_le_one q
    obtain ⟨v, h1, -, -, h2⟩ := round_app s (n := 1) (by exact_mod_cast hs) (by norm_num)
    exact ⟨v, h1, h2.trans (by norm_num; linarith)⟩
  · rintro x q ⟨s, r, rfl⟩ -
    have hs := Real.abs_cos_le_one q
    obtain ⟨v, h1, -, -, h2⟩ := round_app false (n := 1) (by exact_mod_cast hs) (by norm_num)
    exact ⟨v, h1, h2.trans (by norm_num; linarith)⟩
  · rintro x q ⟨s, r, rfl⟩ h0 h1
    have h1' : (q : ℝ) ≤ 1 := by exact_mod_cast h1
    have hs : |√(q : ℝ)| ≤ 1 := by rw [abs_of_nonneg (Real.sqrt_nonneg _)]; exact Real.sqrt_le_one.mpr h1'
    obtain ⟨v, a, -, -, b⟩ := round_app s (y := √q) (n := 1) (by exact_mod_cast hs) (by norm_num)
    exact ⟨v, a, b.trans (by norm_num at *; linarith)⟩
  · rintro x q ⟨s, r, rfl⟩ h1
    have hs : |Real.arcsin q| ≤ 2 := by
      have := Real.arcsin_le_pi_div_two q
      have := Real.neg_pi_div_two_le_arcsin q
      have := Real.pi_le_four
      rw [abs_le]
      constructor <;> linarith
    obtain ⟨v, a, -, -, b⟩ := round_app s (y := Real.arcsin q) (n := 2) (by exact_mod_cast hs) (by norm_num)
    exact ⟨v, a, b.trans (by norm_num at *; linarith)⟩

/-- Go's sine and cosine, with exact square roots that are rounded. -/
@[instance_reducible] noncomputable def golib : MathLib where
  sin := GoTrig.sin
  cos := GoTrig.cos
  asin
    | .fin s q _ => if 1 < |q| then .nan else round s (app (Real.arcsin q))
    | _ => .nan
  sqrt
    | .fin s q _ => round s (app (√q))
    | _ => .nan
  atan2 x _ := x
  toInt _ := 0

theorem golib_go : @GoLibrary golib := by
  refine @GoLibrary.mk golib (fun _ _ _ _ => rfl) (fun _ _ _ _ => rfl) ?_ ?_
  · rintro x q ⟨s, r, rfl⟩ h1 h2
    have h1' : (1 : ℝ) ≤ q := by exact_mod_cast h1
    have h2' : (q : ℝ) ≤ 2 := by exact_mod_cast h2
    have hs0 := Real.sqrt_nonneg (q : ℝ)
    have hs1 : 1 ≤ √(q : ℝ) := Real.one_le_sqrt.mpr h1'
    have hs : |√(q : ℝ)| ≤ 2 := by
      rw [abs_of_nonneg hs0, Real.sqrt_le_left (by norm_num)]
      norm_num
      linarith
    obtain ⟨v, a, -, -, b⟩ := round_app s (y := √q) (n := 2) (by exact_mod_cast hs) (by norm_num)
    refine ⟨v, a, b.trans ?_⟩
    rw [abs_of_nonneg hs0]
    norm_num at hs1 ⊢
    clear b
    have : 1 ≤ √(q : ℝ) := Real.one_le_sqrt.mpr hs1
    linarith
  · rintro x q ⟨s, r, rfl⟩ h1
    show (if 1 < |q| then _ else _) = _
    rw [if_pos (h1.trans_le (le_abs_self q))]

section
attribute [local instance] ideal

/-- One degree of longitude at the equator, with rounded exact values: about 111 195 m. -/
example : ∃ v : ℚ, Is (distance (lit 0) (lit 0) (lit 0) (lit 1)) v ∧
    |(v : ℝ) - 6371000 * (Real.pi / 180)| < 1 / 10 ^ 6 := by
  have e : exact ((0 : ℚ) : ℝ) (0 : ℚ) (0 : ℚ) (1 : ℚ) = 6371000 * (Real.pi / 180) := by
    unfold exact
    rw [← C46.distance_angle]
    push_cast
    rw [distance_equator _ _ (by norm_num)]
    simp [degLen]
  have h0 : Is (lit 0 : F64) 0 := by
    obtain ⟨r, e⟩ := lit_nat (q := 0) 0 (by norm_num) (by norm_num) (by norm_num)
    exact ⟨_, r, e⟩
  obtain ⟨v, hv, -, hv2⟩ := micrometre ideal_library ideal_accurate (lit 0) (lit 0) (lit 0) (lit 1) 0 0 0 1
    ⟨h0, h0, h0, one_is, by norm_num, by norm_num⟩ (by rw [e]; have := Real.pi_le_four; linarith)
  rw [e] at hv2
  exact ⟨v, hv, hv2⟩

end

end C83
end GpsGen
