import Mathlib.Algebra.BigOperators.Intervals
import Mathlib.Data.Nat.Choose.Sum
import Mathlib.Algebra.BigOperators.Field
import Mathlib.Algebra.Order.BigOperators.Ring.Finset
import Mathlib.Tactic.LinearCombination
import Verif.Model.NumReal
import Verif.Model.Types
import Verif.Lemmas.Basic
/-!
# Helper lemmas: curves over the real numbers are Bernstein polynomials
-/

namespace GpsGen
open Finset

/-- The Bernstein weight. -/
noncomputable def bern (k i : ℕ) (t : ℝ) : ℝ := (k.choose i : ℝ) * t ^ i * (1 - t) ^ (k - i)

theorem bern_nonneg (k i : ℕ) {t : ℝ} (h0 : 0 ≤ t) (h1 : t ≤ 1) : 0 ≤ bern k i t := by
  unfold bern
  have : 0 ≤ 1 - t := by linarith
  positivity

theorem bern_sum (k : ℕ) (t : ℝ) : ∑ i ∈ range (k + 1), bern k i t = 1 := by
  have h := add_pow t (1 - t) k
  rw [show t + (1 - t) = 1 by ring, one_pow] at h
  rw [h]
  apply sum_congr rfl
  intro i _
  unfold bern; ring

theorem bern_sum_id (k : ℕ) (t : ℝ) : ∑ i ∈ range (k + 1), (i : ℝ) * bern k i t = k * t := by
  cases k with
  | zero => simp [bern]
  | succ k =>
    rw [sum_range_succ']
    simp only [Nat.cast_zero, zero_mul, add_zero]
    have h := bern_sum k t
    calc ∑ i ∈ range (k + 1), ((i + 1 : ℕ) : ℝ) * bern (k + 1) (i + 1) t
        = ∑ i ∈ range (k + 1), ((k : ℝ) + 1) * t * bern k i t := by
          apply sum_congr rfl
          intro i _
          unfold bern
          have hc : ((i : ℝ) + 1) * ((k + 1).choose (i + 1) : ℝ) = (k + 1) * (k.choose i : ℝ) := by
            have := Nat.add_one_mul_choose_eq k i
            have h2 : ((k + 1 : ℕ) : ℝ) * (k.choose i : ℝ) = ((k + 1).choose (i + 1) : ℝ) * ((i + 1 : ℕ) : ℝ) := by
              exact_mod_cast this
            push_cast at h2
            linarith
          rw [show k + 1 - (i + 1) = k - i by omega]
          push_cast
          rw [pow_succ]
          linear_combination (t ^ i * t * (1 - t) ^ (k - i)) * hc
      _ = (k + 1) * t := by rw [← mul_sum, h, mul_one]
      _ = ((k + 1 : ℕ) : ℝ) * t := by push_cast; ring

/-- A convex combination lies in the interval. -/
theorem bern_bounds (k : ℕ) (t a b : ℝ) (h0 : 0 ≤ t) (h1 : t ≤ 1) (y : ℕ → ℝ)
    (hy : ∀ i, i ≤ k → a ≤ y i ∧ y i ≤ b) :
    a ≤ ∑ i ∈ range (k + 1), y i * bern k i t ∧ ∑ i ∈ range (k + 1), y i * bern k i t ≤ b := by
  have hs := bern_sum k t
  constructor
  · calc a = ∑ i ∈ range (k + 1), a * bern k i t := by rw [← mul_sum, hs, mul_one]
      _ ≤ _ := sum_le_sum fun i hi =>
          mul_le_mul_of_nonneg_right (hy i (by simp at hi; omega)).1 (bern_nonneg k i h0 h1)
  · calc _ ≤ ∑ i ∈ range (k + 1), b * bern k i t := sum_le_sum fun i hi =>
          mul_le_mul_of_nonneg_right (hy i (by simp at hi; omega)).2 (bern_nonneg k i h0 h1)
      _ = b := by rw [← mul_sum, hs, mul_one]

theorem bern_zero (k i : ℕ) : bern k i 0 = if i = 0 then 1 else 0 := by
  unfold bern
  split
  · subst i; simp
  · rename_i h; simp [h]

theorem bern_one (k i : ℕ) (hi : i ≤ k) : bern k i 1 = if i = k then 1 else 0 := by
  unfold bern
  split
  · subst i; simp
  · have : k - i ≠ 0 := by omega
    simp [this]

/-! ## The code computes Bernstein sums -/

/-- The control point at an index (zero outside). -/
def cpAt (l : List (CP ℝ)) (i : ℕ) : Pt ℝ := match l[i]? with | some p => p.cp | none => ⟨0, 0⟩
/-- The scratch point at an index (zero outside). -/
def vpAt (l : List (CP ℝ)) (i : ℕ) : Pt ℝ := match l[i]? with | some p => p.vp | none => ⟨0, 0⟩

theorem scaleFrom_get (t u : ℝ) (l : List (CP ℝ)) (i : ℕ) :
    (scaleFrom t u l).length = l.length ∧
    vpAt (scaleFrom t u l) i = ⟨(cpAt l i).x * (u * t ^ i), (cpAt l i).y * (u * t ^ i)⟩ := by
  induction l generalizing u i with
  | nil => simp [scaleFrom, vpAt, cpAt]
  | cons p l ih =>
    refine ⟨by simp [scaleFrom, (ih (u * t) 0).1], ?_⟩
    cases i with
    | zero => simp [scaleFrom, vpAt, cpAt]
    | succ i =>
      have := (ih (u * t) i).2
      simp only [vpAt, cpAt] at this
      simp only [scaleFrom, vpAt, cpAt, List.getElem?_cons_succ, real_mul]
      rw [this]
      congr 1 <;> ring

theorem sumDown_eq (t1 tt : ℝ) (p : Pt ℝ) (l : List (CP ℝ)) :
    sumDown t1 tt p l =
      ⟨p.x + ∑ j ∈ range l.length, (vpAt l j).x * (tt * t1 ^ j),
       p.y + ∑ j ∈ range l.length, (vpAt l j).y * (tt * t1 ^ j)⟩ := by
  induction l generalizing tt p with
  | nil => simp [sumDown]
  | cons q l ih =>
    rw [sumDown, ih]
    simp only [real_mul, real_add, List.length_cons]
    rw [sum_range_succ', sum_range_succ']
    have e0 : vpAt (q :: l) 0 = q.vp := rfl
    have es : ∀ j, vpAt (q :: l) (j + 1) = vpAt l j := fun j => rfl
    simp only [e0, es, pow_zero, mul_one]
    congr 1
    · have : ∑ j ∈ range l.length, (vpAt l j).x * (tt * t1 * t1 ^ j) =
          ∑ j ∈ range l.length, (vpAt l j).x * (tt * t1 ^ (j + 1)) := by
        apply sum_congr rfl; intro j _; ring
      rw [this]; ring
    · have : ∑ j ∈ range l.length, (vpAt l j).y * (tt * t1 * t1 ^ j) =
          ∑ j ∈ range l.length, (vpAt l j).y * (tt * t1 ^ (j + 1)) := by
        apply sum_congr rfl; intro j _; ring
      rw [this]; ring

theorem vpAt_reverse (l : List (CP ℝ)) (j : ℕ) (h : j < l.length) :
    vpAt l.reverse j = vpAt l (l.length - 1 - j) := by
  unfold vpAt
  rw [List.getElem?_reverse h]

/-- `Point` over the reals, for a curve with `k + 1` control points. -/
theorem point_eq (c : Curve ℝ) (k : ℕ) (hk : c.points.length = k + 1) (t : ℝ) :
    ∃ c', c.point t = .ok (c',
      ⟨∑ i ∈ range (k + 1), (cpAt c.points i).x * (t ^ i * (1 - t) ^ (k - i)),
       ∑ i ∈ range (k + 1), (cpAt c.points i).y * (t ^ i * (1 - t) ^ (k - i))⟩) := by
  obtain ⟨pts, m, mn, mx⟩ := c
  simp only at hk ⊢
  cases pts with
  | nil => simp at hk
  | cons p0 ps =>
    have hlen : ps.length = k := by simpa using hk
    unfold Curve.point
    simp only
    set L : List (CP ℝ) := { p0 with vp := p0.cp } :: scaleFrom t t ps with hL
    have hLl : L.length = k + 1 := by rw [hL]; simp [(scaleFrom_get t t ps 0).1, hlen]
    have hv : ∀ i, vpAt L i = ⟨(cpAt (p0 :: ps) i).x * t ^ i, (cpAt (p0 :: ps) i).y * t ^ i⟩ := by
      intro i
      cases i with
      | zero => simp [hL, vpAt, cpAt]
      | succ i =>
        have := (scaleFrom_get t t ps i).2
        simp only [vpAt, cpAt] at this
        simp only [hL, vpAt, cpAt, List.getElem?_cons_succ]
        rw [this]
        congr 1 <;> ring
    cases hr : L.reverse with
    | nil =>
      have := congrArg List.length hr
      simp [hLl] at this
    | cons last rest =>
      have hrl : rest.length = k := by
        have := congrArg List.length hr
        simp [hLl] at this; omega
      simp only
      refine ⟨_, congrArg Except.ok (Prod.ext rfl ?_)⟩
      simp only [real_sub, real_lit, Rat.cast_one]
      rw [sumDown_eq, hrl]
      have hlast : last.vp = vpAt L k := by
        have h1 : vpAt L.reverse 0 = vpAt L k := by
          rw [vpAt_reverse L 0 (by omega), hLl]; rfl
        rw [hr] at h1
        exact h1
      have hrest : ∀ j, j < k → vpAt rest j = vpAt L (k - 1 - j) := by
        intro j hj
        have h1 := vpAt_reverse L (j + 1) (by omega)
        rw [hr, hLl] at h1
        have h2 : vpAt (last :: rest) (j + 1) = vpAt rest j := rfl
        rw [← h2, h1]
        congr 1; omega
      have gen : ∀ f : Pt ℝ → ℝ, (∀ i, f (vpAt L i) = f (cpAt (p0 :: ps) i) * t ^ i) →
          f last.vp + ∑ j ∈ range k, f (vpAt rest j) * ((1 - t) * (1 - t) ^ j) =
          ∑ i ∈ range (k + 1), f (cpAt (p0 :: ps) i) * (t ^ i * (1 - t) ^ (k - i)) := by
        intro f hf
        rw [sum_range_succ, hlast, hf, Nat.sub_self, pow_zero, add_comm]
        congr 1
        · rw [← sum_range_reflect]
          apply sum_congr rfl
          intro j hj
          have hj' : j < k := by simpa using hj
          rw [hrest _ (by omega), hf, show k - 1 - (k - 1 - j) = j by omega, ← pow_succ',
            show k - 1 - j + 1 = k - j by omega]
          ring
        · ring
      congr 1
      · exact gen (fun p => p.x) (fun i => by rw [hv])
      · exact gen (fun p => p.y) (fun i => by rw [hv])

/-! ## Weights -/

theorem assignWeights_length (n i : ℕ) (w : ℝ) (l : List (CP ℝ)) :
    (assignWeights n i w l).length = l.length := by
  induction l generalizing i w with
  | nil => rfl
  | cons p l ih => simp only [assignWeights, List.length_cons, ih]

/-- The weight assigned to point `i` after a point of weight `w`. -/
noncomputable def wStep (n i : ℕ) (w : ℝ) : ℝ := match i with
  | 0 => lit 1
  | 1 => lit n -. lit 1
  | i => w *. (lit ((n : Int) - (i : Int)) /. lit i)

theorem weight_step (n i : ℕ) (w : ℝ) (hn : i + 1 ≤ n)
    (hw : i ≠ 0 → w = ((n - 1).choose (i - 1) : ℝ)) :
    wStep n i w = ((n - 1).choose i : ℝ) := by
  unfold wStep
  match i, hw, hn with
  | 0, _, _ => simp
  | 1, _, hn =>
    simp
    rw [Nat.cast_sub (by omega)]
    simp
  | i + 2, hw, hn =>
    have := hw (by omega)
    simp only [real_mul, real_div, real_lit, this]
    have h1 : ((n - 1).choose (i + 1) : ℝ) * ((n - 1 - (i + 1) : ℕ) : ℝ) =
        ((n - 1).choose (i + 2) : ℝ) * ((i + 2 : ℕ) : ℝ) := by
      have := Nat.choose_succ_right_eq (n - 1) (i + 1)
      exact_mod_cast this.symm
    have h2 : ((n - 1 - (i + 1) : ℕ) : ℝ) = (n : ℝ) - (i + 2) := by
      rw [show n - 1 - (i + 1) = n - (i + 2) by omega, Nat.cast_sub (by omega)]
      push_cast; ring
    rw [h2] at h1
    have h3 : ((i + 2 : ℕ) : ℝ) ≠ 0 := by positivity
    push_cast at h1 h3 ⊢
    rw [← mul_div_assoc, div_eq_iff h3]
    linarith

/-- The weights are binomial coefficients. -/
theorem assignWeights_get (n i : ℕ) (w : ℝ) (l : List (CP ℝ)) (hn : i + l.length ≤ n)
    (hw : i ≠ 0 → w = ((n - 1).choose (i - 1) : ℝ)) (j : ℕ) (hj : j < l.length) :
    cpAt (assignWeights n i w l) j =
      ⟨(vpAt l j).x * ((n - 1).choose (i + j) : ℝ), (vpAt l j).y * ((n - 1).choose (i + j) : ℝ)⟩ := by
  induction l generalizing i w j with
  | nil => simp at hj
  | cons p l ih =>
    simp only [List.length_cons] at hn hj
    obtain ⟨w', hwi, hstep⟩ : ∃ w' : ℝ, w' = ((n - 1).choose i : ℝ) ∧ assignWeights n i w (p :: l) =
        { p with cp := ⟨p.vp.x *. w', p.vp.y *. w'⟩ } :: assignWeights n (i + 1) w' l :=
      ⟨_, weight_step n i w (by omega) hw, rfl⟩
    rw [hstep]
    cases j with
    | zero => simp [cpAt, vpAt, hwi]
    | succ j =>
      have := ih (i + 1) w' (by omega) (fun _ => by simpa using hwi) j (by omega)
      have e1 : ∀ a (b : List (CP ℝ)), cpAt (a :: b) (j + 1) = cpAt b j := fun _ _ => rfl
      have e2 : vpAt (p :: l) (j + 1) = vpAt l j := rfl
      rw [e1, e2, this, show i + 1 + j = i + (j + 1) by omega]

theorem makePoints_length (mn mx : ℝ) (mode : Int) (n : ℕ) (draws : ℕ → ℝ) :
    (makePoints mn mx mode n draws).length = n := by
  simp [makePoints, assignWeights_length]

/-- The height of control point `i` before weighting. -/
noncomputable def heightAt (mn mx : ℝ) (mode : Int) (n : ℕ) (draws : ℕ → ℝ) (i : ℕ) : ℝ :=
  if hasBit mode 14 = true ∧ i = 0 then mn
  else if hasBit mode 13 = true ∧ i = n - 1 then mn
  else mn + draws i * (mx - mn)

theorem makePoints_get (mn mx : ℝ) (mode : Int) (n : ℕ) (draws : ℕ → ℝ) (i : ℕ) (hi : i < n) :
    cpAt (makePoints mn mx mode n draws) i =
      ⟨i * ((n - 1).choose i : ℝ), heightAt mn mx mode n draws i * ((n - 1).choose i : ℝ)⟩ := by
  unfold makePoints
  rw [assignWeights_get n 0 _ _ (by simp) (fun h => absurd rfl h) i (by simpa using hi)]
  have : vpAt ((List.range n).map (initPoint mn mx mode n draws)) i =
      ⟨(i : ℝ), heightAt mn mx mode n draws i⟩ := by
    simp only [vpAt, List.getElem?_map, List.getElem?_range hi, Option.map_some, initPoint, heightAt,
      Bool.and_eq_true, beq_iff_eq, randomFloat, real_add, real_mul, real_sub, real_lit]
    congr 1
  rw [this, Nat.zero_add]

/-- A curve whose control points are the points `(i, y i)` with binomial weights. -/
structure Shaped (c : Curve ℝ) (k : ℕ) (y : ℕ → ℝ) : Prop where
  len : c.points.length = k + 1
  get : ∀ i, i ≤ k → cpAt c.points i = ⟨i * (k.choose i : ℝ), y i * (k.choose i : ℝ)⟩

/-- The value of such a curve. -/
theorem shaped_point {c : Curve ℝ} {k : ℕ} {y : ℕ → ℝ} (h : Shaped c k y) (t : ℝ) :
    ∃ c', c.point t = .ok (c', ⟨k * t, ∑ i ∈ range (k + 1), y i * bern k i t⟩) := by
  obtain ⟨c', hc⟩ := point_eq c k h.len t
  refine ⟨c', hc.trans ?_⟩
  congr 3
  · rw [← bern_sum_id]
    apply sum_congr rfl
    intro i hi
    rw [h.get i (by simp at hi; omega)]
    unfold bern; ring
  · apply sum_congr rfl
    intro i hi
    rw [h.get i (by simp at hi; omega)]
    unfold bern; ring

theorem shaped_makePoints (mn mx : ℝ) (mode : Int) (n : ℕ) (hn : 0 < n) (draws : ℕ → ℝ)
    (c : Curve ℝ) (hc : c.points = makePoints mn mx mode n draws) :
    Shaped c (n - 1) (heightAt mn mx mode n draws) := by
  refine ⟨by rw [hc, makePoints_length]; omega, fun i hi => ?_⟩
  rw [hc, makePoints_get _ _ _ _ _ _ (by omega)]

theorem shaped_new (mn mx : ℝ) (cps : Int) (mode : Int) (draws : ℕ → ℝ) (h : 0 < cps) :
    Shaped (Curve.new mn mx cps mode draws) (cps.toNat - 1) (heightAt mn mx mode cps.toNat draws) := by
  apply shaped_makePoints _ _ _ _ (by omega)
  simp only [Curve.new, if_neg (show ¬ cps ≤ 0 by omega)]

theorem shaped_shuffle {c : Curve ℝ} {k : ℕ} {y : ℕ → ℝ} (h : Shaped c k y) (draws : ℕ → ℝ) :
    Shaped (c.shuffle draws) k (heightAt c.min c.max c.mode (k + 1) draws) := by
  have := shaped_makePoints c.min c.max c.mode (k + 1) (by omega) draws (c.shuffle draws)
    (by simp only [Curve.shuffle, h.len])
  simpa using this

theorem cpAt_congr {l l' : List (CP ℝ)} (h : l.map (·.cp) = l'.map (·.cp)) (i : ℕ) :
    cpAt l i = cpAt l' i := by
  have := congrArg (fun m => m[i]?) h
  simp only [List.getElem?_map] at this
  unfold cpAt
  cases h1 : l[i]? <;> cases h2 : l'[i]? <;> simp_all

theorem shaped_congr {c c' : Curve ℝ} {k : ℕ} {y : ℕ → ℝ} (h : Shaped c k y)
    (hc : c'.points.map (·.cp) = c.points.map (·.cp)) : Shaped c' k y := by
  refine ⟨?_, fun i hi => ?_⟩
  · have := congrArg List.length hc
    simp only [List.length_map] at this
    rw [this, h.len]
  · rw [cpAt_congr hc, h.get i hi]

theorem heightAt_bounds (mn mx : ℝ) (mode : Int) (n : ℕ) (draws : ℕ → ℝ)
    (hd : ∀ i, 0 ≤ draws i ∧ draws i ≤ 1) (i : ℕ) :
    min mn mx ≤ heightAt mn mx mode n draws i ∧ heightAt mn mx mode n draws i ≤ max mn mx := by
  have hself : min mn mx ≤ mn ∧ mn ≤ max mn mx := ⟨min_le_left _ _, le_max_left _ _⟩
  unfold heightAt
  split
  · exact hself
  split
  · exact hself
  obtain ⟨h0, h1⟩ := hd i
  rcases le_total mn mx with h | h
  · rw [min_eq_left h, max_eq_right h]
    constructor <;> nlinarith
  · rw [min_eq_right h, max_eq_left h]
    constructor <;> nlinarith

end GpsGen
