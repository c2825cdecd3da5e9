import Verif.Lemmas.NearGeo
/-!
# The bearing in doubles
-/

namespace GpsGen
open F64 C28.Double C46.Double HavErr C83

attribute [local irreducible] Round64.rndQ Round64.pow2

/-- The great-circle distance by the cosine of the angle. -/
theorem exact_arccos (a b c d : ℝ) : exact a b c d = 6371000 * Real.arccos (dot (rad a) (rad c) (rad (d - b))) := by
  unfold exact
  rw [← C46.distance_angle, distance_arccos]

/-- `Bearing` in doubles: a number in [0, 360], and the direction is right up to an angle that is inverse to the sine of the
distance. -/
theorem bearing_near [MathLib] (L : Accurate) (T : Arctan) {latA lonA latB lonB : F64} {a o c d : ℚ} (h1 : Is latA a)
    (h2 : Is lonA o) (h3 : Is latB c) (h4 : Is lonB d) (ha : |a| ≤ 85) (ho : |o| ≤ 180) (hc : |c| ≤ 85) (hd : |d| ≤ 180) :
    ∃ β : ℚ, Is (bearing latA lonA latB lonB) β ∧ 0 ≤ β ∧ β ≤ 360 ∧
      (66 / 10 ^ 14 ≤ Real.sin (exact a o c d / 6371000) → Turn (rad β) (rad (bearing (a : ℝ) o c d))
        (106 / 10 ^ 16 / Real.sin (exact a o c d / 6371000) + 6 / 10 ^ 15)) := by
  have two52 : (2 : ℝ) ^ (-52 : ℤ) ≤ 223 / 10 ^ 18 := by norm_num
  have pi1 : 314 / 100 < Real.pi := by have := Real.pi_gt_d2; norm_num at *; linarith
  have pi2 : Real.pi < 315 / 100 := by have := Real.pi_lt_d2; norm_num at *; linarith
  have huu : uu ≤ 112 / 10 ^ 18 := by unfold uu; norm_num
  have hu0 : 0 ≤ uu := by unfold uu; norm_num
  have het : et ≤ 1 / 10 ^ 30 := by unfold et; norm_num
  set φ := rad a with hφ
  set ψ := rad c with hψ
  set Δ := rad ((d : ℝ) - o) with hΔ
  have sφ := Real.abs_sin_le_one φ
  have cφ := Real.abs_cos_le_one φ
  have sψ := Real.abs_sin_le_one ψ
  have cψ := Real.abs_cos_le_one ψ
  have sΔ := Real.abs_sin_le_one Δ
  have cΔ := Real.abs_cos_le_one Δ
  have m1 : ∀ {x y : ℝ}, |x| ≤ 1 → |y| ≤ 1 → |x * y| ≤ 1 := fun hx hy => by
    rw [abs_mul]; exact mul_le_one₀ hx (abs_nonneg _) hy
  have nφ : Near (latA *. radians) φ (21 / 10 ^ 17) := (Near.angle 85 h1 ha (by norm_num) (by norm_num)).mono (by norm_num)
  have nψ : Near (latB *. radians) ψ (21 / 10 ^ 17) := (Near.angle 85 h3 hc (by norm_num) (by norm_num)).mono (by norm_num)
  have brad : ∀ {x : ℝ} {B : ℝ}, |x| ≤ B → |rad x| ≤ B * (175 / 10000) := by
    intro x B h
    unfold rad
    rw [abs_mul, abs_of_pos (by positivity : 0 < Real.pi / 180)]
    exact mul_le_mul h (by linarith) (by positivity) ((abs_nonneg _).trans h)
  have bφ : |φ| + 21 / 10 ^ 17 ≤ 7 := by
    have := brad (x := a) (B := 85) (by exact_mod_cast ha)
    linarith
  have bψ : |ψ| + 21 / 10 ^ 17 ≤ 7 := by
    have := brad (x := c) (B := 85) (by exact_mod_cast hc)
    linarith
  have bdo : |(d : ℝ) - o| ≤ 360 := by
    have h5 : |(d : ℝ)| ≤ 180 := by exact_mod_cast hd
    have h6 : |(o : ℝ)| ≤ 180 := by exact_mod_cast ho
    exact (abs_sub _ _).trans (by linarith)
  have bΔ : |Δ| + 16 / 10 ^ 16 ≤ 7 := by
    have := brad bdo
    linarith
  -- the difference of the longitudes
  have nΔ : Near ((lonB -. lonA) *. radians) Δ (16 / 10 ^ 16) := by
    obtain ⟨w, hw, rw1⟩ := sub_rnd h4 h2 (Near.cast_bound (by push_cast; exact bdo.trans (by norm_num)))
    have k1 := rnd_le rw1 bdo
    have w361 : |w| ≤ 361 := by
      have : |(w : ℝ)| ≤ 361 := (Near.abs_le' k1 bdo).trans (by linarith)
      exact_mod_cast this
    obtain ⟨v, hv, ev⟩ := Near.angle 361 hw w361 (by norm_num) (by norm_num)
    refine ⟨v, hv, ?_⟩
    have k2 : |rad w - Δ| ≤ (360 * uu + et) * (175 / 10000) := by
      have e : rad w - Δ = rad ((w : ℝ) - (d - o)) := by rw [hΔ]; unfold rad; ring
      rw [e]
      exact brad k1
    have t := abs_add_le ((v : ℝ) - rad w) (rad w - Δ)
    rw [sub_add_sub_cancel] at t
    refine t.trans ((add_le_add ev k2).trans ?_)
    push_cast
    linarith
  have n1 := nφ.sin L (44 / 10 ^ 17) bφ (by linarith)
  have n2 := nφ.cos L (44 / 10 ^ 17) bφ (by linarith)
  have n3 := nψ.sin L (44 / 10 ^ 17) bψ (by linarith)
  have n4 := nψ.cos L (44 / 10 ^ 17) bψ (by linarith)
  have n5 := nΔ.sin L (183 / 10 ^ 17) bΔ (by linarith)
  have n6 := nΔ.cos L (183 / 10 ^ 17) bΔ (by linarith)
  have y1 := n5.mul n4 1 1 (239 / 10 ^ 17) sΔ cψ (by norm_num) (by norm_num; linarith)
  have x1 := n2.mul n3 1 1 (100 / 10 ^ 17) cφ sψ (by norm_num) (by norm_num; linarith)
  have x2 := n1.mul n4 1 1 (100 / 10 ^ 17) sφ cψ (by norm_num) (by norm_num; linarith)
  have x3 := x2.mul n6 1 1 (295 / 10 ^ 17) (m1 sφ cψ) cΔ (by norm_num) (by norm_num; linarith)
  have x4 := x1.sub x3 2 (418 / 10 ^ 17) (by
    have := abs_sub (Real.cos φ * Real.sin ψ) (Real.sin φ * Real.cos ψ * Real.cos Δ)
    have := m1 cφ sψ
    have := m1 (m1 sφ cψ) cΔ
    linarith) (by norm_num) (by norm_num; linarith)
  obtain ⟨Y, hY, eY⟩ := y1
  obtain ⟨X, hX, eX⟩ := x4
  obtain ⟨t, hat, t4, tt⟩ := T.atan2_near _ _ Y X hY hX
  have t4' : |(t : ℝ)| ≤ 4 := by exact_mod_cast t4
  -- to degrees, and the remainder
  obtain ⟨q, hq, eq1⟩ := (Near.of_is hat).degrees t4' (by norm_num)
  have q1 : |(q : ℝ)| ≤ 232 := by
    have h5 : |rad q| ≤ 4 + (0 + 2 / 10 ^ 15) := Near.abs_le' eq1 t4'
    unfold rad at h5
    rw [abs_mul, abs_of_pos (by positivity : 0 < Real.pi / 180)] at h5
    by_contra hcon
    push Not at hcon
    have := mul_lt_mul_of_pos_right hcon (by positivity : 0 < Real.pi / 180)
    linarith
  obtain ⟨q1a, q1b⟩ := abs_le.mp q1
  have l360 : Is (lit 360 : F64) 360 := by
    obtain ⟨r, e⟩ := lit_nat (q := 360) 360 (by norm_num) (by norm_num) (by norm_num)
    exact ⟨_, r, e⟩
  have b592 : |(q : ℝ) + ((360 : ℚ) : ℝ)| ≤ 592 := by
    rw [abs_le]; push_cast; constructor <;> linarith
  obtain ⟨w, hw, rw1⟩ := add_rnd hq l360 (Near.cast_bound (by push_cast; push_cast at b592; exact b592.trans (by norm_num)))
  have k1 := rnd_le rw1 b592
  obtain ⟨k1a, k1b⟩ := abs_le.mp k1
  push_cast at k1a k1b
  have w0 : 0 ≤ w := by
    have : (0 : ℝ) ≤ w := by linarith
    exact_mod_cast this
  obtain ⟨j, v, hv, v0, v1, ev, j0, j1⟩ := Near.fmod_is hw l360 w0 (by norm_num) (by norm_num)
  refine ⟨v, hv, v0, v1, fun hD => ?_⟩
  -- the exact direction
  obtain ⟨k, hk⟩ := C48.bearing_rad (a : ℝ) o c d
  rw [← hφ, ← hψ, ← hΔ] at hk
  have hsin : Real.sin (exact a o c d / 6371000) = √(1 - dot φ ψ Δ ^ 2) := by
    rw [exact_arccos, mul_div_cancel_left₀ _ (by norm_num), Real.sin_arccos]
  have hcs := cross_sq φ ψ Δ
  have hdot := dot_sq_le φ ψ Δ
  obtain ⟨p1, p2⟩ := polar (x := Real.cos φ * Real.sin ψ - Real.sin φ * Real.cos ψ * Real.cos Δ) (y := Real.sin Δ * Real.cos ψ)
    (r := √(1 - dot φ ψ Δ ^ 2)) (Real.sqrt_nonneg _) (by rw [hcs, Real.sq_sqrt (by linarith)])
  rw [hsin] at hD ⊢
  set r := √(1 - dot φ ψ Δ ^ 2) with hr
  set α := Complex.arg ⟨Real.cos φ * Real.sin ψ - Real.sin φ * Real.cos ψ * Real.cos Δ, Real.sin Δ * Real.cos ψ⟩ with hα
  have r0 : 0 < r := lt_of_lt_of_le (by norm_num) hD
  obtain ⟨nz, ht⟩ := Turn.polar (x := X) (y := Y) (r := r) (a := α) (e := 418 / 10 ^ 17) (d := 239 / 10 ^ 17)
    r0 (by rw [p1]; exact eX) (by rw [p2]; exact eY) (by
      refine le_trans ?_ (div_le_div_of_nonneg_right hD (by norm_num))
      norm_num)
  have two49 : (2 : ℝ) ^ (-49 : ℤ) ≤ 178 / 10 ^ 17 := by norm_num
  have tα : Turn t α (178 / 10 ^ 17 + 8 / 5 * (418 / 10 ^ 17 + 239 / 10 ^ 17) / r) :=
    ((tt nz).mono two49).trans ht
  -- together
  have T1 : Turn (rad v) t (4 / 10 ^ 15) := by
    refine ⟨1 - j, ?_⟩
    have e : rad v - t - ((1 - j : ℤ) : ℝ) * (2 * Real.pi) =
        rad ((v : ℝ) - (w - ((360 : ℚ) : ℝ) * j)) + (rad ((w : ℝ) - (q + ((360 : ℚ) : ℝ))) + (rad q - t)) := by
      unfold rad
      push_cast
      ring
    rw [e]
    refine (abs_add_le _ _).trans ((add_le_add (brad ev) ((abs_add_le _ _).trans (add_le_add (brad k1) eq1))).trans ?_)
    push_cast
    linarith
  have T2 : Turn α (rad (bearing (a : ℝ) o c d)) 0 := by
    refine ⟨-k, ?_⟩
    rw [hk]
    push_cast
    rw [show α - (α + ↑k * (2 * Real.pi)) - -↑k * (2 * Real.pi) = 0 by ring, abs_zero]
  refine ((T1.trans tα).trans T2).mono ?_
  have e : 8 / 5 * (418 / 10 ^ 17 + 239 / 10 ^ 17) / r ≤ 106 / 10 ^ 16 / r := by
    apply div_le_div_of_nonneg_right _ r0.le
    norm_num
  linarith

end GpsGen
