import Verif.Lemmas.F64Order
import Verif.Model.Geo
import Verif.Theorems.C28Double
/-!
# C46 in IEEE doubles

What holds of the distance with the rounding of `float64`, for any mathematical library that satisfies what the
documentation and the sources of package `math` say about signs, zeros and ranges (`Library`): the distance is exactly
symmetric for all doubles, including infinite ones and NaN; it is zero for coinciding finite points; for latitudes in
[-90, 90] the haversine is a number from zero on, and if it is at most 1 the distance is a finite number between zero
and `4R`. The accuracy of the library is not assumed, so that the claims of `C46` about the size of the distance are not
stated here. The claim that the distance is zero only for equal points fails: the squares of very small angles are
rounded to zero.
-/

namespace GpsGen
namespace C46
namespace Double
open F64 C28.Double

attribute [local irreducible] Round64.rndQ Round64.pow2

/-! ## Specification -/

/-- What is used of package `math`: the sine is odd, sine, square root and inverse sine of zero are zero, sine and cosine of
finite numbers lie in [-1, 1], the cosine is not negative between the doubles nearest to `-π/2` and `π/2`, the square
root and the inverse sine keep numbers in [0, 1] from zero on, up to 1 and 2. -/
structure Library [MathLib] : Prop where
  sin_neg : ∀ x, MathLib.sin (neg x) = neg (MathLib.sin x)
  sin_zero : ∀ x, Is x 0 → Is (MathLib.sin x) 0
  sin_range : ∀ x q, Is x q → ∃ v, Is (MathLib.sin x) v ∧ |v| ≤ 1
  cos_range : ∀ x q, Is x q → ∃ v, Is (MathLib.cos x) v ∧ |v| ≤ 1
  cos_nonneg : ∀ x q v, Is x q → |q| ≤ 884279719003555 / 562949953421312 → Is (MathLib.cos x) v → 0 ≤ v
  sqrt_zero : ∀ x, Is x 0 → Is (MathLib.sqrt x) 0
  sqrt_range : ∀ x q, Is x q → 0 ≤ q → q ≤ 1 → ∃ v, Is (MathLib.sqrt x) v ∧ 0 ≤ v ∧ v ≤ 1
  asin_zero : ∀ x, Is x 0 → Is (MathLib.asin x) 0
  asin_range : ∀ x q, Is x q → 0 ≤ q → q ≤ 1 → ∃ v, Is (MathLib.asin x) v ∧ 0 ≤ v ∧ v ≤ 2

/-- The claim that points of distance zero are equal, away from the poles. -/
def ZeroClaim [MathLib] : Prop := ∀ (latA lonA latB lonB : F64) (a b c d : ℚ), Is latA a → Is lonA b → Is latB c →
  Is lonB d → (-90 < a ∧ a < 90) → (-180 ≤ b ∧ b < 180) → (-90 < c ∧ c < 90) → (-180 ≤ d ∧ d < 180) →
  (distance latA lonA latB lonB ==. lit 0) = true → a = c ∧ b = d

/-! ## Signs -/

theorem round_flip (z : Bool) (q : ℚ) : round (!z) (-q) = neg (round z q) := by
  have hs : sgn (!z) (-q) = !(sgn z q) := by
    unfold sgn
    by_cases h : q = 0
    · simp [h]
    · rw [if_neg (by simpa using h), if_neg h]
      rcases lt_or_gt_of_ne h with hl | hl
      · simp [hl, hl.le]
      · simp [hl, hl.le]
  unfold F64.round
  by_cases h : |Round64.rndQ q| < Round64.pow2 1024
  · have h' : |Round64.rndQ (-q)| < Round64.pow2 1024 := by rw [Round64.rndQ_neg, abs_neg]; exact h
    rw [dif_pos h, dif_pos h']
    unfold neg
    congr 1
    exact Round64.rndQ_neg q
  · have h' : ¬ |Round64.rndQ (-q)| < Round64.pow2 1024 := by rw [Round64.rndQ_neg, abs_neg]; exact h
    rw [dif_neg h, dif_neg h', hs]
    rfl

theorem neg_neg' (x : F64) : neg (neg x) = x := by
  cases x with
  | fin s q h =>
    unfold neg
    simp
  | inf s => simp [neg]
  | nan => rfl

/-- The two differences of two numbers are opposite, or equal because they are zero, infinite or NaN. -/
theorem sub_swap (x y : F64) : (y -. x) = neg (x -. y) ∨ (y -. x) = (x -. y) := by
  cases x with
  | nan => cases y <;> exact Or.inr rfl
  | inf s =>
    cases y with
    | nan => exact Or.inr rfl
    | inf t => cases s <;> cases t <;> exact Or.inl rfl
    | fin t b hb => cases s <;> exact Or.inl rfl
  | fin s a ha =>
    cases y with
    | nan => exact Or.inr rfl
    | inf t => cases t <;> exact Or.inl rfl
    | fin t b hb =>
      have e1 : ((F64.fin t b hb) -. .fin s a ha) = round (decide (b = 0) && decide (-a = 0) && t && !s) (b + -a) := rfl
      have e2 : ((F64.fin s a ha) -. .fin t b hb) = round (decide (a = 0) && decide (-b = 0) && s && !t) (a + -b) := rfl
      rw [e1, e2]
      by_cases hab : a = b
      · subst hab
        by_cases h0 : a = 0
        · subst h0
          cases s <;> cases t
          · right; simp
          · left
            rw [← round_flip]
            simp
          · left
            rw [← round_flip]
            simp
          · right; simp
        · right
          simp [h0]
      · left
        have hq : b + -a ≠ 0 := fun h => hab (by linarith)
        rw [← round_flip, show -(a + -b) = b + -a by ring]
        exact round_ne _ _ hq

theorem neg_mul_neg' (x y : F64) : (neg x *. neg y) = (x *. y) := by
  cases x with
  | nan => cases y <;> rfl
  | inf s => cases y with
    | nan => rfl
    | inf t => cases s <;> cases t <;> rfl
    | fin t b hb =>
      show (if -b = 0 then _ else _) = (if b = 0 then _ else _)
      by_cases h : b = 0
      · rw [if_pos h, if_pos (by simp [h])]
      · rw [if_neg h, if_neg (by simpa using h)]
        cases s <;> cases t <;> rfl
  | fin s a ha => cases y with
    | nan => rfl
    | inf t =>
      show (if -a = 0 then _ else _) = (if a = 0 then _ else _)
      by_cases h : a = 0
      · rw [if_pos h, if_pos (by simp [h])]
      · rw [if_neg h, if_neg (by simpa using h)]
        cases s <;> cases t <;> rfl
    | fin t b hb =>
      show round ((!s) != !t) (-a * -b) = round (s != t) (a * b)
      rw [neg_mul_neg]
      cases s <;> cases t <;> rfl

theorem mul_comm' (x y : F64) : (x *. y) = (y *. x) := by
  cases x with
  | nan => cases y <;> rfl
  | inf s => cases y with
    | nan => rfl
    | inf t => cases s <;> cases t <;> rfl
    | fin t b hb => rfl
  | fin s a ha => cases y with
    | nan => rfl
    | inf t => rfl
    | fin t b hb =>
      show round (s != t) (a * b) = round (t != s) (b * a)
      rw [mul_comm]
      cases s <;> cases t <;> rfl

theorem mul_neg' (x y : F64) : (x *. neg y) = neg (x *. y) := by
  cases x with
  | nan => cases y <;> rfl
  | inf s => cases y with
    | nan => rfl
    | inf t => cases s <;> cases t <;> rfl
    | fin t b hb =>
      show (if -b = 0 then _ else _) = neg (if b = 0 then _ else _)
      by_cases h : b = 0
      · rw [if_pos h, if_pos (by simp [h])]; rfl
      · rw [if_neg h, if_neg (by simpa using h)]
        cases s <;> cases t <;> rfl
  | fin s a ha => cases y with
    | nan => rfl
    | inf t =>
      show (if a = 0 then _ else _) = neg (if a = 0 then _ else _)
      by_cases h : a = 0
      · rw [if_pos h, if_pos h]; rfl
      · rw [if_neg h, if_neg h]
        cases s <;> cases t <;> rfl
    | fin t b hb =>
      show round (s != !t) (a * -b) = neg (round (s != t) (a * b))
      rw [← round_flip, mul_neg]
      cases s <;> cases t <;> rfl

theorem half_neg (x : F64) : (neg x /. lit 2) = neg (x /. lit 2) := by
  obtain ⟨r, e⟩ := lit_nat (q := 2) 2 (by norm_num) (by norm_num) (by norm_num)
  rw [e]
  cases x with
  | nan => rfl
  | inf s => cases s <;> rfl
  | fin s a ha =>
    have h1 : (neg (.fin s a ha) /. .fin false 2 r) = round ((!s) != false) (-a / 2) := by
      obtain ⟨h', e'⟩ : ∃ h', neg (.fin s a ha) = .fin (!s) (-a) h' := ⟨_, rfl⟩
      rw [e', fin_div, if_neg (by norm_num)]
    rw [h1, fin_div, if_neg (by norm_num), ← round_flip, neg_div]
    cases s <;> rfl

/-! ## Symmetry -/

theorem sin_half [MathLib] (L : Library) (x y : F64) :
    GoMath.sin ((y -. x) /. lit 2) = neg (GoMath.sin ((x -. y) /. lit 2)) ∨
    GoMath.sin ((y -. x) /. lit 2) = GoMath.sin ((x -. y) /. lit 2) := by
  rcases sub_swap x y with h | h
  · left
    rw [h, half_neg]
    exact L.sin_neg _
  · right
    rw [h]

theorem haversine_symmetric [MathLib] (L : Library) (latA lonA latB lonB : F64) :
    haversine latB lonB latA lonA = haversine latA lonA latB lonB := by
  unfold haversine
  dsimp only
  congr 1
  · rcases sin_half L (latA *. radians) (latB *. radians) with h | h
    · rw [h, neg_mul_neg']
    · rw [h]
  · rw [mul_comm' (GoMath.cos (latB *. radians))]
    rcases sin_half L (lonA *. radians) (lonB *. radians) with h | h
    · rw [h, mul_neg' (GoMath.cos _ *. GoMath.cos _), neg_mul_neg']
    · rw [h]

/-- **C46 in doubles, symmetry.** For all doubles. -/
theorem symmetric [MathLib] (L : Library) (latA lonA latB lonB : F64) :
    distance latB lonB latA lonA = distance latA lonA latB lonB := by
  unfold distance
  rw [haversine_symmetric L]

/-! ## Zero -/

theorem fin_is {s : Bool} {q : ℚ} (r : Rep s q) : Is (.fin s q r) q := ⟨s, r, rfl⟩

/-- `math.Pi / 180`. -/
def rad180 : ℚ := 5030569068109113 / 288230376151711744

theorem radians_is [MathLib] : Is (radians : F64) rad180 := by
  have h : (radians : F64) = lit rad180 := by
    have : F64.div (F64.round false (884279719003555 / 281474976710656)) (lit 180) = lit rad180 := by decide +kernel
    exact this
  have hr : Round64.rndQ rad180 = rad180 := by
    have e : rad180 = 5030569068109113 * 2 ^ (-58 : ℤ) := by unfold rad180; norm_num
    rw [e]
    exact Round64.rndQ_rep 5030569068109113 (-58) (by norm_num) (by norm_num) (by norm_num)
  have hq : |rad180| ≤ (1 : ℤ) := by unfold rad180; norm_num
  obtain ⟨r, e⟩ := round_small false (by norm_num) hq
  rw [h]
  exact ⟨_, hr ▸ r, by rw [show (lit rad180 : F64) = _ from e]; congr⟩


/-- A number that is at most as large as a double rounds to a double that is at most as large. -/
theorem round_within {s : Bool} {p q : ℚ} (r : Rep s p) (z : Bool) (h : |q| ≤ |p|) :
    ∃ v, Is (round z q) v ∧ |v| ≤ |p| ∧ (0 ≤ q → 0 ≤ v) ∧ (q ≤ 0 → v ≤ 0) := by
  have hp : Round64.rndQ |p| = |p| := by
    rcases abs_cases p with ⟨e, -⟩ | ⟨e, -⟩
    · rw [e]; exact r.1
    · rw [e, Round64.rndQ_neg, r.1]
  have h1 : |Round64.rndQ q| ≤ |p| := by
    rw [abs_le] at h ⊢
    have a1 := Round64.rndQ_mono h.1
    have a2 := Round64.rndQ_mono h.2
    rw [Round64.rndQ_neg, hp] at a1
    rw [hp] at a2
    exact ⟨a1, a2⟩
  have h2 : |Round64.rndQ q| < Round64.pow2 1024 := lt_of_le_of_lt h1 r.2.1
  refine ⟨Round64.rndQ q, ⟨sgn z q, rep_round h2, ?_⟩, h1, Round64.rndQ_nonneg, Round64.rndQ_nonpos⟩
  unfold F64.round
  rw [dif_pos h2]

/-- A product with a number in [-1, 1]. -/
theorem mul_within {x y : F64} {a b : ℚ} (hx : Is x a) (hy : Is y b) (hb : |b| ≤ 1) :
    ∃ v, Is (x *. y) v ∧ |v| ≤ |a| ∧ (0 ≤ a * b → 0 ≤ v) ∧ (a * b ≤ 0 → v ≤ 0) := by
  obtain ⟨s, r, rfl⟩ := hx
  obtain ⟨t, r', rfl⟩ := hy
  refine round_within r _ ?_
  rw [abs_mul]
  exact mul_le_of_le_one_right (abs_nonneg a) hb

theorem rad180_le : |rad180| ≤ 1 := by unfold rad180; norm_num

theorem sub_self_is {x : F64} {a : ℚ} (hx : Is x a) : Is (x -. x) 0 := by
  obtain ⟨s, r, rfl⟩ := hx
  rw [fin_sub, add_neg_cancel]
  exact zero_is _

theorem half_zero {x : F64} (hx : Is x 0) : Is (x /. lit 2) 0 := by
  obtain ⟨s, r, rfl⟩ := hx
  obtain ⟨r2, e⟩ := lit_nat (q := 2) 2 (by norm_num) (by norm_num) (by norm_num)
  rw [e, fin_div, if_neg (by norm_num), zero_div]
  exact zero_is _

theorem two_radii : ∃ r, ((lit 6371000 : F64) *. lit 2) = .fin false 12742000 r := by
  obtain ⟨r, e⟩ := lit_nat (q := 12742000) 12742000 (by norm_num) (by norm_num) (by norm_num)
  exact ⟨r, by rw [← e]; decide +kernel⟩

/-- **C46 in doubles, zero.** The distance of a finite point from itself is zero. -/
theorem zero_same [MathLib] (L : Library) (lat lon : F64) (a b : ℚ) (ha : Is lat a) (hb : Is lon b) :
    (distance lat lon lat lon ==. lit 0) = true := by
  obtain ⟨φ, hφ, -⟩ := mul_within ha radians_is rad180_le
  obtain ⟨l, hl, -⟩ := mul_within hb radians_is rad180_le
  obtain ⟨c, hc, hc1⟩ := L.cos_range _ _ hφ
  obtain ⟨c2, hc2, -⟩ := mul_within hc hc hc1
  have h1 := L.sin_zero _ (half_zero (sub_self_is hφ))
  have h2 := L.sin_zero _ (half_zero (sub_self_is hl))
  have h3 : Is (haversine lat lon lat lon) 0 := zero_add_is (mul_zero_is h1 h1) (mul_zero_is (mul_zero_is hc2 h2) h2)
  have h4 := L.asin_zero _ (L.sqrt_zero _ h3)
  obtain ⟨r, e⟩ := two_radii
  have h5 : Is (distance lat lon lat lon) 0 := by
    show Is ((lit 6371000 *. lit 2) *. _) 0
    exact mul_zero_is ⟨_, r, e⟩ h4
  obtain ⟨s, r, e⟩ := h5
  obtain ⟨r0, e0⟩ := lit_nat (q := 0) 0 (by norm_num) (by norm_num) (by norm_num)
  rw [e, e0, fin_eq]
  rfl

theorem tiny_round {q : ℚ} (h : |q| ≤ 2 ^ (-1080 : ℤ)) : Round64.rndQ q = 0 := by
  have ht : Round64.rndQ (2 ^ (-1080 : ℤ)) = 0 := by
    rw [← Round64.pow2_eq]
    decide +kernel
  rw [abs_le] at h
  have a1 := Round64.rndQ_mono h.1
  have a2 := Round64.rndQ_mono h.2
  rw [Round64.rndQ_neg, ht] at a1
  rw [ht] at a2
  linarith

theorem tiny_mul {x y : F64} {a b : ℚ} (hx : Is x a) (hy : Is y b) (h : |a * b| ≤ 2 ^ (-1080 : ℤ)) : Is (x *. y) 0 := by
  obtain ⟨s, r, rfl⟩ := hx
  obtain ⟨t, r', rfl⟩ := hy
  have h1 : |a * b| ≤ (1 : ℤ) := h.trans (by
    rw [show (1 : ℤ) = ((1 : ℤ) : ℤ) from rfl]
    push_cast
    exact zpow_le_one_of_nonpos₀ (by norm_num) (by norm_num))
  obtain ⟨r2, e2⟩ := round_small (s != t) (by norm_num) h1
  rw [fin_mul, e2]
  exact ⟨_, tiny_round h ▸ r2, by congr 1; exact tiny_round h⟩

/-- Points at the same latitude whose longitudes are zero and at most `2 ^ -600` have distance zero, if the sine of an
angle is not more than twice the angle. -/
theorem tiny_zero [MathLib] (L : Library) (hs : ∀ x q v, Is x q → Is (MathLib.sin x) v → |v| ≤ 2 * |q|) (lat lonA lonB : F64)
    (a d : ℚ) (ha : Is lat a) (hb : Is lonA 0) (hd : Is lonB d) (hd1 : |d| ≤ 2 ^ (-600 : ℤ)) :
    (distance lat lonA lat lonB ==. lit 0) = true := by
  obtain ⟨φ, hφ, -⟩ := mul_within ha radians_is rad180_le
  obtain ⟨p, hp, hp1, -⟩ := mul_within hd radians_is rad180_le
  have hz : Is (lonA *. radians) 0 := by
    rw [mul_comm']
    exact mul_zero_is radians_is hb
  obtain ⟨c, hc, hc1⟩ := L.cos_range _ _ hφ
  obtain ⟨c2, hc2, c21, -⟩ := mul_within hc hc hc1
  have h1 := L.sin_zero _ (half_zero (sub_self_is hφ))
  have hsub : Is (lonB *. radians -. lonA *. radians) p := by
    obtain ⟨s, r, e⟩ := hp
    obtain ⟨t, r', e'⟩ := hz
    rw [e, e', fin_sub, neg_zero, add_zero]
    exact is_round r _
  obtain ⟨x, hx, hx1⟩ : ∃ x, Is ((lonB *. radians -. lonA *. radians) /. lit 2) x ∧ |x| ≤ |p| := by
    obtain ⟨s, r, e⟩ := hsub
    obtain ⟨r2, e2⟩ := lit_nat (q := 2) 2 (by norm_num) (by norm_num) (by norm_num)
    rw [e, e2, fin_div, if_neg (by norm_num)]
    obtain ⟨v, h1, h2, -⟩ := round_within (q := p / 2) r (s != false) (by
      rw [abs_div, abs_of_pos (by norm_num : (0 : ℚ) < 2)]
      linarith [abs_nonneg p])
    exact ⟨v, h1, h2⟩
  obtain ⟨t, ht, ht1⟩ := L.sin_range _ _ hx
  have ht2 : |t| ≤ 2 ^ (-599 : ℤ) := by
    have := hs _ _ _ hx ht
    have e : (2 : ℚ) ^ (-599 : ℤ) = 2 * 2 ^ (-600 : ℤ) := by
      rw [show (-599 : ℤ) = 1 + -600 by norm_num, zpow_add₀ (by norm_num)]; norm_num
    rw [e]
    exact this.trans (mul_le_mul_of_nonneg_left (hx1.trans (hp1.trans hd1)) (by norm_num))
  obtain ⟨u, hu, u1, -⟩ := mul_within ht hc2 (c21.trans hc1)
  rw [mul_comm'] at hu
  have hw := tiny_mul hu ht (by
    rw [abs_mul]
    have e : (2 : ℚ) ^ (-599 : ℤ) * 2 ^ (-599 : ℤ) ≤ 2 ^ (-1080 : ℤ) := by
      rw [← zpow_add₀ (by norm_num)]
      exact zpow_le_zpow_right₀ (by norm_num) (by norm_num)
    exact (mul_le_mul (u1.trans ht2) ht2 (abs_nonneg _) (zpow_nonneg (by norm_num) _)).trans e)
  have h3 : Is (haversine lat lonA lat lonB) 0 := zero_add_is (mul_zero_is h1 h1) hw
  have h4 := L.asin_zero _ (L.sqrt_zero _ h3)
  obtain ⟨r, e⟩ := two_radii
  have h5 : Is (distance lat lonA lat lonB) 0 := by
    show Is ((lit 6371000 *. lit 2) *. _) 0
    exact mul_zero_is ⟨_, r, e⟩ h4
  obtain ⟨s, r, e⟩ := h5
  obtain ⟨r0, e0⟩ := lit_nat (q := 0) 0 (by norm_num) (by norm_num) (by norm_num)
  rw [e, e0, fin_eq]
  rfl

/-- For every such library the claim about distance zero fails. -/
theorem zero_claim_fails [MathLib] (L : Library) (hs : ∀ x q v, Is x q → Is (MathLib.sin x) v → |v| ≤ 2 * |q|) :
    ¬ ZeroClaim := by
  intro h
  have h0 : Is (lit 0 : F64) 0 := by
    obtain ⟨r, e⟩ := lit_nat (q := 0) 0 (by norm_num) (by norm_num) (by norm_num)
    exact ⟨_, r, e⟩
  have hp : (0 : ℚ) < 2 ^ (-600 : ℤ) := zpow_pos (by norm_num) _
  have hle : (2 : ℚ) ^ (-600 : ℤ) ≤ 1 := zpow_le_one_of_nonpos₀ (by norm_num) (by norm_num)
  have ht : Is (lit (2 ^ (-600 : ℤ)) : F64) (2 ^ (-600 : ℤ)) := by
    have hr : Round64.rndQ (2 ^ (-600 : ℤ)) = 2 ^ (-600 : ℤ) :=
      Round64.rndQ_rep 1 (-600) (by norm_num) (by norm_num) (by rw [Int.cast_one, one_mul])
    have hq : |(2 : ℚ) ^ (-600 : ℤ)| ≤ (1 : ℤ) := by rw [abs_of_pos hp, Int.cast_one]; exact hle
    obtain ⟨r, e⟩ := round_small false (by norm_num) hq
    refine ⟨_, hr ▸ r, ?_⟩
    rw [show (lit (2 ^ (-600 : ℤ)) : F64) = _ from e]
    congr
  have := (h (lit 0) (lit 0) (lit 0) (lit (2 ^ (-600 : ℤ))) 0 0 0 (2 ^ (-600 : ℤ)) h0 h0 h0 ht (by norm_num) (by norm_num)
    (by norm_num) ⟨by linarith, by linarith⟩
    (tiny_zero L hs _ _ _ _ _ h0 h0 ht (by rw [abs_of_pos hp]))).2
  exact hp.ne this

/-! ## Ranges -/

theorem ninety : Round64.rndQ (90 * rad180) = 884279719003555 / 562949953421312 := by decide +kernel

/-- A latitude in degrees becomes a number between the doubles nearest to `-π/2` and `π/2`. -/
theorem latitude_range [MathLib] {lat : F64} {a : ℚ} (ha : Is lat a) (h : |a| ≤ 90) :
    ∃ v, Is (lat *. radians) v ∧ |v| ≤ 884279719003555 / 562949953421312 := by
  obtain ⟨s, r, rfl⟩ := ha
  obtain ⟨t, r', e⟩ := radians_is
  have h1 : |a * rad180| ≤ 90 * rad180 := by
    rw [abs_mul, abs_of_nonneg (by unfold rad180; norm_num : 0 ≤ rad180)]
    exact mul_le_mul_of_nonneg_right h (by unfold rad180; norm_num)
  have h2 : |a * rad180| ≤ (2 : ℤ) := h1.trans (by unfold rad180; norm_num)
  obtain ⟨r2, e2⟩ := round_small (s != t) (by norm_num) h2
  refine ⟨Round64.rndQ (a * rad180), ⟨_, r2, by rw [e, fin_mul]; exact e2⟩, ?_⟩
  rw [abs_le] at h1 ⊢
  have a1 := Round64.rndQ_mono h1.1
  have a2 := Round64.rndQ_mono h1.2
  rw [Round64.rndQ_neg, ninety] at a1
  rw [ninety] at a2
  exact ⟨a1, a2⟩

/-- The difference of two longitudes in radians is finite. -/
theorem longitude_range [MathLib] {x y : F64} {a b : ℚ} (hx : Is x a) (hy : Is y b) (ha : |a| ≤ 2 ^ 50)
    (hb : |b| ≤ 2 ^ 50) : ∃ v, Is ((x *. radians -. y *. radians) /. lit 2) v := by
  obtain ⟨p, ⟨s, r, e⟩, hp, -⟩ := mul_within hx radians_is rad180_le
  obtain ⟨q, ⟨t, r', e'⟩, hq, -⟩ := mul_within hy radians_is rad180_le
  rw [e, e', fin_sub]
  have h1 : |p + -q| ≤ (2 ^ 51 : ℤ) := by
    refine (abs_add_le _ _).trans ?_
    rw [abs_neg]
    push_cast
    linarith
  obtain ⟨r2, e2⟩ := round_small (decide (p = 0) && decide (-q = 0) && s && !t) (by norm_num) h1
  have h2 := rndQ_abs_le (by norm_num) h1
  obtain ⟨r3, e3⟩ := lit_nat (q := 2) 2 (by norm_num) (by norm_num) (by norm_num)
  rw [e2, e3, fin_div, if_neg (by norm_num)]
  obtain ⟨r4, e4⟩ := round_small (sgn (decide (p = 0) && decide (-q = 0) && s && !t) (p + -q) != false)
    (n := 2 ^ 51) (q := Round64.rndQ (p + -q) / 2) (by norm_num) (by
      rw [abs_div]
      have : |Round64.rndQ (p + -q)| / |2| ≤ |Round64.rndQ (p + -q)| := by
        rw [abs_of_pos (by norm_num : (0 : ℚ) < 2)]
        linarith [abs_nonneg (Round64.rndQ (p + -q))]
      exact this.trans h2)
  exact ⟨_, _, r4, e4⟩

/-- **C46 in doubles, the haversine.** For latitudes in [-90, 90] (and longitudes that are not absurd) it is a number
between zero and 2. -/
theorem haversine_range_partial [MathLib] (L : Library) (latA lonA latB lonB : F64) (a b c d : ℚ) (ha : Is latA a)
    (hb : Is lonA b) (hc : Is latB c) (hd : Is lonB d) (a90 : |a| ≤ 90) (c90 : |c| ≤ 90) (hb1 : |b| ≤ 2 ^ 50)
    (hd1 : |d| ≤ 2 ^ 50) :
    ∃ v, Is (haversine latA lonA latB lonB) v ∧ 0 ≤ v ∧ v ≤ 2 := by
  obtain ⟨φ1, f1, b1⟩ := latitude_range ha a90
  obtain ⟨φ2, f2, b2⟩ := latitude_range hc c90
  obtain ⟨c1, g1, k1⟩ := L.cos_range _ _ f1
  obtain ⟨c2, g2, k2⟩ := L.cos_range _ _ f2
  have n1 := L.cos_nonneg _ _ _ f1 b1 g1
  have n2 := L.cos_nonneg _ _ _ f2 b2 g2
  obtain ⟨x, hx⟩ := longitude_range hc ha (c90.trans (by norm_num)) (a90.trans (by norm_num))
  obtain ⟨y, hy⟩ := longitude_range hd hb hd1 hb1
  obtain ⟨s, hs, s1⟩ := L.sin_range _ _ hx
  obtain ⟨t, ht, t1⟩ := L.sin_range _ _ hy
  obtain ⟨p, hp, p1, p2, -⟩ := mul_within hs hs s1
  have hp0 : 0 ≤ p := p2 (mul_self_nonneg s)
  have hp1 : p ≤ 1 := (le_abs_self p).trans (p1.trans s1)
  obtain ⟨q, hq, q1, q2, -⟩ := mul_within g1 g2 k2
  have hq0 : 0 ≤ q := q2 (mul_nonneg n1 n2)
  obtain ⟨u, hu, u1, u2, u3⟩ := mul_within hq ht t1
  obtain ⟨w, hw, w1, w2, -⟩ := mul_within hu ht t1
  have hw0 : 0 ≤ w := by
    refine w2 ?_
    rcases le_total 0 t with h | h
    · exact mul_nonneg (u2 (mul_nonneg hq0 h)) h
    · exact mul_nonneg_of_nonpos_of_nonpos (u3 (mul_nonpos_of_nonneg_of_nonpos hq0 h)) h
  have hw1 : w ≤ 1 := (le_abs_self w).trans (w1.trans (u1.trans (q1.trans k1)))
  have hsum : |p + w| ≤ (2 : ℤ) := by
    rw [abs_of_nonneg (by linarith)]
    push_cast
    linarith
  obtain ⟨z1, r1, e1⟩ := hp
  obtain ⟨z2, r2, e2⟩ := hw
  obtain ⟨r3, e3⟩ := round_small (decide (p = 0) && decide (w = 0) && z1 && z2) (by norm_num) hsum
  have h2 := rndQ_abs_le (by norm_num) hsum
  have h0 : 0 ≤ Round64.rndQ (p + w) := Round64.rndQ_nonneg (by linarith)
  refine ⟨Round64.rndQ (p + w), ⟨_, r3, ?_⟩, h0, by rw [abs_of_nonneg h0] at h2; exact_mod_cast h2⟩
  show (GoMath.sin _ *. GoMath.sin _ +. GoMath.cos _ *. GoMath.cos _ *. GoMath.sin _ *. GoMath.sin _ : F64) = _
  rw [show (GoMath.sin _ *. GoMath.sin _ : F64) = _ from e1,
    show (GoMath.cos _ *. GoMath.cos _ *. GoMath.sin _ *. GoMath.sin _ : F64) = _ from e2, fin_add]
  exact e3

/-- **C46 in doubles, bounds.** If moreover the haversine is not above 1, the distance is a finite number between zero
and four radii. -/
theorem bounds_partial [MathLib] (L : Library) (latA lonA latB lonB : F64) (h : ℚ)
    (hh : Is (haversine latA lonA latB lonB) h) (h0 : 0 ≤ h) (h1 : h ≤ 1) :
    ∃ v, Is (distance latA lonA latB lonB) v ∧ 0 ≤ v ∧ v ≤ 4 * 6371000 := by
  obtain ⟨s, hs, s0, s1⟩ := L.sqrt_range _ _ hh h0 h1
  obtain ⟨t, ⟨z, w, ht⟩, t0, t1⟩ := L.asin_range _ _ hs s0 s1
  obtain ⟨r, e⟩ := two_radii
  have hb : |12742000 * t| ≤ (25484000 : ℤ) := by
    rw [abs_of_nonneg (by linarith)]
    push_cast
    linarith
  obtain ⟨r3, e3⟩ := round_small (false != z) (by norm_num) hb
  have h2 := rndQ_abs_le (by norm_num) hb
  have hn : 0 ≤ Round64.rndQ (12742000 * t) := Round64.rndQ_nonneg (by linarith)
  refine ⟨Round64.rndQ (12742000 * t), ⟨_, r3, ?_⟩, hn, ?_⟩
  · show ((lit 6371000 *. lit 2) *. GoMath.asin (GoMath.sqrt _) : F64) = _
    rw [e, show (GoMath.asin (GoMath.sqrt _) : F64) = _ from ht, fin_mul]
    exact e3
  · rw [abs_of_nonneg hn] at h2
    push_cast at h2
    linarith

/-! ## A library

The conditions can be met: a crude library. The distance between two points of the equator and the way back. -/

/-- The sine is the angle up to 1, the cosine is 1, square root and inverse sine are the identity. -/
@[instance_reducible] def plain : MathLib where
  sin
    | .fin s q h => if |q| ≤ 1 then .fin s q h else if s then neg (lit 1) else lit 1
    | _ => .nan
  cos _ := lit 1
  asin x := x
  sqrt x := x
  atan2 x _ := x
  toInt _ := 0

theorem one_is : Is (lit 1 : F64) 1 := by
  obtain ⟨r, e⟩ := lit_nat (q := 1) 1 (by norm_num) (by norm_num) (by norm_num)
  exact ⟨_, r, e⟩

theorem plain_library : @Library plain := by
  refine @Library.mk plain ?_ ?_ ?_ ?_ ?_ ?_ ?_ ?_ ?_
  · intro x
    cases x with
    | nan => rfl
    | inf s => rfl
    | fin s q h =>
      show (if |(-q)| ≤ 1 then neg (.fin s q h) else if (!s) = true then neg (lit 1) else lit 1) =
        neg (if |q| ≤ 1 then .fin s q h else if s = true then neg (lit 1) else lit 1)
      rw [abs_neg]
      split
      · rfl
      · cases s
        · rfl
        · exact (neg_neg' _).symm
  · rintro x ⟨s, r, rfl⟩
    show Is (if |(0 : ℚ)| ≤ 1 then _ else _) 0
    rw [if_pos (by norm_num)]
    exact ⟨s, r, rfl⟩
  · rintro x q ⟨s, r, rfl⟩
    show ∃ v, Is (if |q| ≤ 1 then _ else if s = true then neg (lit 1) else lit 1) v ∧ _
    split
    · rename_i h
      exact ⟨q, ⟨s, r, rfl⟩, h⟩
    · obtain ⟨t, w, e⟩ := one_is
      split
      · exact ⟨-1, by rw [e]; exact ⟨_, _, rfl⟩, by norm_num⟩
      · exact ⟨1, ⟨t, w, e⟩, by norm_num⟩
  · intro x q _
    exact ⟨1, one_is, by norm_num⟩
  · intro x q v _ _ h
    rw [is_unique h one_is]
    norm_num
  · exact fun x h => h
  · exact fun x q h h0 h1 => ⟨q, h, h0, h1⟩
  · exact fun x h => h
  · exact fun x q h h0 h1 => ⟨q, h, h0, h1.trans (by norm_num)⟩

attribute [local instance] plain

example : ((distance (lit 0) (lit 0) (lit 0) (lit 1) : F64) ==. distance (lit 0) (lit 1) (lit 0) (lit 0)) = true ∧
    (lit 900 <. (distance (lit 0) (lit 0) (lit 0) (lit 1) : F64)) = true := by decide +kernel

end Double
end C46
end GpsGen
