import Verif.Lemmas.NearGeo
/-!
# The destination in doubles
-/

namespace GpsGen
open F64 C28.Double C46.Double HavErr C83

attribute [local irreducible] Round64.rndQ Round64.pow2

/-- `Destination` in doubles is within 20 micrometres of the exact destination, between the latitudes -85 and 85. -/
theorem destination_near [MathLib] (L : Accurate) (T : Arctan) {lat lon meters b : F64} {a o m β : ℚ} (h1 : Is lat a)
    (h2 : Is lon o) (h3 : Is meters m) (h4 : Is b β) (ha : |a| ≤ 85) (ho : |o| ≤ 181) (hm : |m| ≤ 10000000)
    (hβ : |β| ≤ 361) (hd : |(destination (a : ℝ) o m β).lat| ≤ 85) :
    ∃ p q : ℚ, Is (destination lat lon meters b).lat p ∧ Is (destination lat lon meters b).lon q ∧ |p| ≤ 86 ∧ |q| ≤ 181 ∧
      exact (destination (a : ℝ) o m β).lat (destination (a : ℝ) o m β).lon p q ≤ 1 / 50000 := by
  have two52 : (2 : ℝ) ^ (-52 : ℤ) ≤ 223 / 10 ^ 18 := by norm_num
  have pi1 : 314 / 100 < Real.pi := by have := Real.pi_gt_d2; norm_num at *; linarith
  have pi2 : Real.pi < 315 / 100 := by have := Real.pi_lt_d2; norm_num at *; linarith
  have huu : uu ≤ 112 / 10 ^ 18 := by unfold uu; norm_num
  have hu0 : 0 ≤ uu := by unfold uu; norm_num
  have het : et ≤ 1 / 10 ^ 30 := by unfold et; norm_num
  set δ := (m : ℝ) / 6371000 with hδ
  set θ := rad β with hθ
  set φ := rad a with hφ
  have sφ := Real.abs_sin_le_one φ
  have cφ := Real.abs_cos_le_one φ
  have sδ := Real.abs_sin_le_one δ
  have cδ := Real.abs_cos_le_one δ
  have sθ := Real.abs_sin_le_one θ
  have cθ := Real.abs_cos_le_one θ
  have m1 : ∀ {x y : ℝ}, |x| ≤ 1 → |y| ≤ 1 → |x * y| ≤ 1 := fun hx hy => by
    rw [abs_mul]; exact mul_le_one₀ hx (abs_nonneg _) hy
  -- the angles
  have nδ : Near (meters /. earthRadius) δ (18 / 10 ^ 17) := Near.div_radius h3 hm
  have nθ : Near (b *. radians) θ (9 / 10 ^ 16) := (Near.angle 361 h4 hβ (by norm_num) (by norm_num)).mono (by norm_num)
  have nφ : Near (lat *. radians) φ (21 / 10 ^ 17) := (Near.angle 85 h1 ha (by norm_num) (by norm_num)).mono (by norm_num)
  have nl : Near (lon *. radians) (rad o) (5 / 10 ^ 16) := (Near.angle 181 h2 ho (by norm_num) (by norm_num)).mono (by norm_num)
  have bδ : |δ| + 18 / 10 ^ 17 ≤ 7 := by
    have : |δ| ≤ 2 := by
      rw [hδ, abs_div, abs_of_pos (by norm_num : (0 : ℝ) < 6371000), div_le_iff₀ (by norm_num)]
      have : |(m : ℝ)| ≤ 10000000 := by exact_mod_cast hm
      linarith
    linarith
  have brad : ∀ {x : ℚ} {B : ℝ}, |(x : ℝ)| ≤ B → |rad x| ≤ B * (175 / 10000) := by
    intro x B h
    unfold rad
    rw [abs_mul, abs_of_pos (by positivity : 0 < Real.pi / 180)]
    exact mul_le_mul h (by linarith) (by positivity) ((abs_nonneg _).trans h)
  have bθ : |θ| + 9 / 10 ^ 16 ≤ 7 := by
    have := brad (x := β) (B := 361) (by exact_mod_cast hβ)
    linarith
  have bφ : |φ| + 21 / 10 ^ 17 ≤ 7 := by
    have := brad (x := a) (B := 85) (by exact_mod_cast ha)
    linarith
  have bl : |rad o| ≤ 32 / 10 := by
    have := brad (x := o) (B := 181) (by exact_mod_cast ho)
    linarith
  -- sines and cosines
  have n1 := nφ.sin L (44 / 10 ^ 17) bφ (by linarith)
  have n2 := nφ.cos L (44 / 10 ^ 17) bφ (by linarith)
  have n3 := nδ.sin L (41 / 10 ^ 17) bδ (by linarith)
  have n4 := nδ.cos L (41 / 10 ^ 17) bδ (by linarith)
  have n5 := nθ.sin L (113 / 10 ^ 17) bθ (by linarith)
  have n6 := nθ.cos L (113 / 10 ^ 17) bθ (by linarith)
  -- the sine of the latitude
  have n7 := n1.mul n4 1 1 (97 / 10 ^ 17) sφ cδ (by norm_num) (by norm_num; linarith)
  have n8 := n2.mul n3 1 1 (97 / 10 ^ 17) cφ sδ (by norm_num) (by norm_num; linarith)
  have n9 := n8.mul n6 1 1 (222 / 10 ^ 17) (m1 cφ sδ) cθ (by norm_num) (by norm_num; linarith)
  set s := Real.sin φ * Real.cos δ + Real.cos φ * Real.sin δ * Real.cos θ with hs
  have s1 : |s| ≤ 1 := abs_le.mpr (dest_sin_abs φ δ θ)
  have n10 := n7.add n9 1 (331 / 10 ^ 17) s1 (by norm_num) (by norm_num; linarith)
  -- the exact destination
  have hdest := destination_rad (a : ℝ) o m β
  simp only at hdest
  rw [← hφ, ← hδ, ← hθ, ← hs] at hdest
  set ψ := Real.arcsin s with hψ
  have hsin : Real.sin ψ = s := Real.sin_arcsin (abs_le.mp s1).1 (abs_le.mp s1).2
  set α := Complex.arg ⟨Real.cos δ - Real.sin φ * Real.sin ψ, Real.sin θ * Real.sin δ * Real.cos φ⟩ with hα
  have e1 : (destination (a : ℝ) o m β).lat = ψ * (180 / Real.pi) := by rw [hdest]
  have e2 : (destination (a : ℝ) o m β).lon = normLon (rad o + α) * (180 / Real.pi) := by rw [hdest]
  have cψ : 87 / 1000 ≤ Real.cos ψ := by
    have := cos_85 hd
    rwa [e1, rad_deg] at this
  have cφ1 : 87 / 1000 ≤ Real.cos φ := by
    refine cos_85 ?_
    exact_mod_cast ha
  have s2 : |s| ≤ 9962 / 10000 + 5 / 100000 := by
    have := Real.sin_sq_add_cos_sq ψ
    rw [hsin] at this
    apply abs_le_of_sq_le_sq _ (by norm_num)
    nlinarith
  -- the latitude
  obtain ⟨S, hS, eS⟩ := n10
  rw [← hs] at eS
  have S1 : |(S : ℝ)| ≤ 9963 / 10000 := (Near.abs_le' eS s2).trans (by norm_num)
  obtain ⟨v, hv, ev⟩ := L.asin_near _ S hS (by
    have : |(S : ℝ)| ≤ 1 := S1.trans (by norm_num)
    exact_mod_cast this)
  have two50 : (2 : ℝ) ^ (-50 : ℤ) ≤ 89 / 10 ^ 17 := by norm_num
  have lip := arcsin_lip12 (x := s) (y := S) (s2.trans (by norm_num)) S1
  rw [← hψ] at lip
  have nψ : Near (MathLib.asin (MathLib.sin (lat *. radians) *. MathLib.cos (meters /. earthRadius) +.
      MathLib.cos (lat *. radians) *. MathLib.sin (meters /. earthRadius) *. MathLib.cos (b *. radians))) ψ (41 / 10 ^ 15) := by
    refine ⟨v, hv, ?_⟩
    have t := abs_add_le ((v : ℝ) - Real.arcsin S) (Real.arcsin S - ψ)
    rw [sub_add_sub_cancel] at t
    refine t.trans ((add_le_add (ev.trans two50) (lip.trans (mul_le_mul_of_nonneg_left eS (by norm_num)))).trans ?_)
    norm_num
  have bψ : |ψ| ≤ 158 / 100 := by
    rw [abs_le]
    have := Real.arcsin_le_pi_div_two s
    have := Real.neg_pi_div_two_le_arcsin s
    constructor <;> linarith
  -- its sine
  have nsψ : Near (MathLib.sin (MathLib.asin (MathLib.sin (lat *. radians) *. MathLib.cos (meters /. earthRadius) +.
      MathLib.cos (lat *. radians) *. MathLib.sin (meters /. earthRadius) *. MathLib.cos (b *. radians)))) s (443 / 10 ^ 17) := by
    have : Near (MathLib.asin (MathLib.sin (lat *. radians) *. MathLib.cos (meters /. earthRadius) +.
        MathLib.cos (lat *. radians) *. MathLib.sin (meters /. earthRadius) *. MathLib.cos (b *. radians))) (Real.arcsin S) (89 / 10 ^ 17) :=
      ⟨v, hv, ev.trans two50⟩
    have bS : |Real.arcsin S| ≤ 158 / 100 := by
      rw [abs_le]
      have := Real.arcsin_le_pi_div_two (S : ℝ)
      have := Real.neg_pi_div_two_le_arcsin (S : ℝ)
      constructor <;> linarith
    obtain ⟨w, hw, ew⟩ := this.sin L (112 / 10 ^ 17) (by linarith) (by linarith)
    refine ⟨w, hw, ?_⟩
    have S1' := abs_le.mp S1
    rw [Real.sin_arcsin (by linarith) (by linarith)] at ew
    have := abs_add_le ((w : ℝ) - S) (S - s)
    rw [sub_add_sub_cancel] at this
    linarith
  -- the arguments of the arc tangent
  have y1 := n5.mul n3 1 1 (166 / 10 ^ 17) sθ sδ (by norm_num) (by norm_num; linarith)
  have y2 := y1.mul n2 1 1 (222 / 10 ^ 17) (m1 sθ sδ) cφ (by norm_num) (by norm_num; linarith)
  have x1 := n1.mul nsψ 1 1 (499 / 10 ^ 17) sφ s1 (by norm_num) (by norm_num; linarith)
  have x2 := n4.sub x1 2 (563 / 10 ^ 17) (by
    have := abs_sub (Real.cos δ) (Real.sin φ * s)
    have := m1 sφ s1
    linarith) (by norm_num) (by norm_num; linarith)
  obtain ⟨Y, hY, eY⟩ := y2
  obtain ⟨X, hX, eX⟩ := x2
  -- the exact polar angle
  have hpol := dest_polar φ δ θ
  simp only at hpol
  rw [← hs] at hpol
  obtain ⟨p1, p2⟩ := polar (x := Real.cos δ - Real.sin φ * s) (y := Real.sin θ * Real.sin δ * Real.cos φ)
    (r := Real.cos φ * Real.cos ψ) (mul_nonneg (by linarith) (by linarith)) (by
      have := Real.sin_sq_add_cos_sq ψ
      rw [hsin] at this
      rw [hpol, mul_pow]
      linear_combination (-Real.cos φ ^ 2) * this)
  have hα' : Complex.arg ⟨Real.cos δ - Real.sin φ * s, Real.sin θ * Real.sin δ * Real.cos φ⟩ = α := by rw [hα, hsin]
  rw [hα'] at p1 p2
  have hρ : 87 / 1000 * (87 / 1000) ≤ Real.cos φ * Real.cos ψ := mul_le_mul cφ1 cψ (by norm_num) (by linarith)
  obtain ⟨nz, ht⟩ := Turn.polar (x := X) (y := Y) (r := Real.cos φ * Real.cos ψ) (a := α) (e := 563 / 10 ^ 17) (d := 222 / 10 ^ 17)
    (by linarith) (by rw [p1]; exact eX) (by rw [p2]; exact eY) (by linarith)
  obtain ⟨t, hat, t4, tt⟩ := T.atan2_near _ _ Y X hY hX
  have two49 : (2 : ℝ) ^ (-49 : ℤ) ≤ 178 / 10 ^ 17 := by norm_num
  have tα : Turn t α (1664 / 10 ^ 15) := by
    refine ((tt nz).trans ht).mono ?_
    have : 8 / 5 * (563 / 10 ^ 17 + 222 / 10 ^ 17) / (Real.cos φ * Real.cos ψ) ≤
        8 / 5 * (563 / 10 ^ 17 + 222 / 10 ^ 17) / (87 / 1000 * (87 / 1000)) :=
      div_le_div_of_nonneg_left (by norm_num) (by norm_num) hρ
    refine (add_le_add two49 this).trans ?_
    norm_num
  -- the longitude
  have t4' : |(t : ℝ)| ≤ 4 := by exact_mod_cast t4
  have nl2 := nl.add (Near.of_is hat) (72 / 10) (2 / 10 ^ 15) ((abs_add_le _ _).trans (by linarith)) (by norm_num) (by norm_num; linarith)
  obtain ⟨w, hw, ew⟩ := nl2
  have w8 : |w| ≤ 8 := by
    have : |(w : ℝ)| ≤ 8 := (Near.abs_le' ew ((abs_add_le (rad o) t).trans (by linarith : _ ≤ (72 / 10 : ℝ)))).trans (by norm_num)
    exact_mod_cast this
  obtain ⟨q, hq, q1, tq⟩ := lon_near (x := rad o + α) (e := 2 / 10 ^ 15 + (0 + 1664 / 10 ^ 15)) ⟨w, hw, w8,
    (Turn.of_abs ew).trans ((Turn.of_abs (by simp)).add tα)⟩
  obtain ⟨p, hp, ep⟩ := nψ.degrees (bψ.trans (by norm_num)) (by norm_num)
  refine ⟨p, q, hp, hq, ?_, q1, ?_⟩
  · have hψ85 : |ψ| ≤ 85 * (Real.pi / 180) := by
      have : ψ = rad (destination (a : ℝ) o m β).lat := by rw [e1, rad_deg]
      rw [this]
      unfold rad
      rw [abs_mul, abs_of_pos (by positivity : 0 < Real.pi / 180)]
      exact mul_le_mul_of_nonneg_right hd (by positivity)
    have h5 : |rad p| ≤ 85 * (Real.pi / 180) + (41 / 10 ^ 15 + 2 / 10 ^ 15) := by
      have := abs_add_le (rad p - ψ) ψ
      rw [sub_add_cancel] at this
      linarith
    have : |(p : ℝ)| ≤ 86 := by
      unfold rad at h5
      rw [abs_mul, abs_of_pos (by positivity : 0 < Real.pi / 180)] at h5
      by_contra hc
      push Not at hc
      have := mul_lt_mul_of_pos_right hc (by positivity : 0 < Real.pi / 180)
      linarith
    exact_mod_cast this
  · obtain ⟨k, hk⟩ := normLon_shift (rad o + α)
    have tl : Turn (rad q) (rad (destination (a : ℝ) o m β).lon) (2 / 10 ^ 15 + (0 + 1664 / 10 ^ 15) + 1 / 10 ^ 14 + 0) := by
      refine tq.trans ⟨-k, ?_⟩
      rw [e2, rad_deg, hk]
      push_cast
      rw [show rad ↑o + α - (rad ↑o + α + ↑k * (2 * Real.pi)) - -↑k * (2 * Real.pi) = 0 by ring]
      simp
    have := exact_close (a := (destination (a : ℝ) o m β).lat) (c := p) (e1 := 41 / 10 ^ 15 + 2 / 10 ^ 15) (by
      rw [e1, rad_deg]
      exact ep) tl
    refine this.trans ?_
    norm_num

end GpsGen
