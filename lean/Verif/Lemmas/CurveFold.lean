import Verif.Model.Curve
import Mathlib.Data.List.Induction
import Mathlib.Tactic.Common
/-!
# Helper lemmas: what the loops of package curve compute, for any number type

The loops over lists of points are rewritten as recursions over indices, in the order of the roundings.
-/

namespace GpsGen
namespace CurveFold
variable {F : Type} [GoFloat F]

/-- The control point at an index (zero outside). -/
def cpOf (l : List (CP F)) (i : ℕ) : Pt F := match l[i]? with | some p => p.cp | none => ⟨lit 0, lit 0⟩
/-- The scratch point at an index (zero outside). -/
def vpOf (l : List (CP F)) (i : ℕ) : Pt F := match l[i]? with | some p => p.vp | none => ⟨lit 0, lit 0⟩

/-- `u`, `u * t`, `u * t * t`, ... -/
def powFrom (t u : F) : ℕ → F
  | 0 => u
  | i + 1 => powFrom t u i *. t

theorem powFrom_shift (t u : F) (i : ℕ) : powFrom t (u *. t) i = powFrom t u (i + 1) := by
  induction i with
  | zero => rfl
  | succ i ih => rw [powFrom, ih]; rfl

theorem scaleFrom_length (t u : F) (l : List (CP F)) : (scaleFrom t u l).length = l.length := by
  induction l generalizing u with
  | nil => rfl
  | cons p l ih => simp [scaleFrom, ih]

theorem scaleFrom_get (t u : F) (l : List (CP F)) (i : ℕ) (hi : i < l.length) :
    vpOf (scaleFrom t u l) i = ⟨(cpOf l i).x *. powFrom t u i, (cpOf l i).y *. powFrom t u i⟩ := by
  induction l generalizing u i with
  | nil => exact absurd hi (by simp)
  | cons p l ih =>
    cases i with
    | zero => rfl
    | succ i =>
      have := ih (u *. t) i (by simpa using hi)
      rw [powFrom_shift] at this
      exact this

theorem sumDown_snoc (t1 tt : F) (p : Pt F) (l : List (CP F)) (q : CP F) :
    sumDown t1 tt p (l ++ [q]) =
      ⟨(sumDown t1 tt p l).x +. q.vp.x *. powFrom t1 tt l.length,
       (sumDown t1 tt p l).y +. q.vp.y *. powFrom t1 tt l.length⟩ := by
  induction l generalizing tt p with
  | nil => rfl
  | cons a l ih =>
    rw [List.cons_append, sumDown, ih, List.length_cons, powFrom_shift]
    rfl

/-- `p + v 0 * tt + v 1 * (tt * t1) + ...`, `m` terms, from the left. -/
def acc (v : ℕ → F) (t1 tt p : F) : ℕ → F
  | 0 => p
  | m + 1 => acc v t1 tt p m +. v m *. powFrom t1 tt m

theorem acc_congr {v w : ℕ → F} (t1 tt p : F) (m : ℕ) (h : ∀ j, j < m → v j = w j) :
    acc v t1 tt p m = acc w t1 tt p m := by
  induction m with
  | zero => rfl
  | succ m ih => rw [acc, acc, ih fun j hj => h j (by omega), h m (by omega)]

theorem sumDown_eq (t1 tt : F) (p : Pt F) (l : List (CP F)) :
    sumDown t1 tt p l =
      ⟨acc (fun j => (vpOf l j).x) t1 tt p.x l.length, acc (fun j => (vpOf l j).y) t1 tt p.y l.length⟩ := by
  induction l using List.reverseRecOn with
  | nil => rfl
  | append_singleton l q ih =>
    rw [sumDown_snoc, ih, List.length_append, List.length_singleton, acc, acc]
    have e : vpOf (l ++ [q]) l.length = q.vp := by simp [vpOf]
    have e' : ∀ j, j < l.length → vpOf (l ++ [q]) j = vpOf l j := by
      intro j hj
      simp [vpOf, List.getElem?_append_left hj]
    rw [e]
    congr 2
    · exact acc_congr _ _ _ _ fun j hj => by rw [e' j hj]
    · exact acc_congr _ _ _ _ fun j hj => by rw [e' j hj]

theorem vpOf_reverse (l : List (CP F)) (j : ℕ) (h : j < l.length) :
    vpOf l.reverse j = vpOf l (l.length - 1 - j) := by
  unfold vpOf
  rw [List.getElem?_reverse h]

/-- The scaled control coordinate `i`. -/
def scaled (cp : ℕ → F) (t : F) : ℕ → F
  | 0 => cp 0
  | i + 1 => cp (i + 1) *. powFrom t t i

/-- One coordinate of the curve with the weighted control coordinates `cp 0`, ..., `cp k` at `t`. -/
def evalAt (cp : ℕ → F) (k : ℕ) (t : F) : F :=
  acc (fun j => scaled cp t (k - 1 - j)) (lit 1 -. t) (lit 1 -. t) (scaled cp t k) k

/-- `Point` for a curve with `k + 1` control points. -/
theorem point_eq (c : Curve F) (k : ℕ) (hk : c.points.length = k + 1) (t : F) :
    ∃ c', c.point t = .ok (c', ⟨evalAt (fun i => (cpOf c.points i).x) k t,
      evalAt (fun i => (cpOf c.points i).y) k t⟩) := by
  obtain ⟨pts, m, mn, mx⟩ := c
  simp only at hk ⊢
  cases pts with
  | nil => simp at hk
  | cons p0 ps =>
    have hlen : ps.length = k := by simpa using hk
    unfold Curve.point
    simp only
    set L : List (CP F) := { p0 with vp := p0.cp } :: scaleFrom t t ps with hL
    have hLl : L.length = k + 1 := by rw [hL]; simp [scaleFrom_length, hlen]
    have hv : ∀ i, i ≤ k → vpOf L i = ⟨scaled (fun i => (cpOf (p0 :: ps) i).x) t i,
        scaled (fun i => (cpOf (p0 :: ps) i).y) t i⟩ := by
      intro i hi
      cases i with
      | zero => rfl
      | succ i => exact scaleFrom_get t t ps i (by omega)
    cases hr : L.reverse with
    | nil =>
      have := congrArg List.length hr
      simp [hLl] at this
    | cons last rest =>
      have hrl : rest.length = k := by
        have := congrArg List.length hr
        simp [hLl] at this; omega
      simp only
      refine ⟨_, congrArg Except.ok (Prod.ext rfl ?_)⟩
      have hlast : last.vp = vpOf L k := by
        have h1 : vpOf L.reverse 0 = vpOf L k := by
          rw [vpOf_reverse L 0 (by omega), hLl]; rfl
        rw [hr] at h1
        exact h1
      have hrest : ∀ j, j < k → vpOf rest j = vpOf L (k - 1 - j) := by
        intro j hj
        have h1 := vpOf_reverse L (j + 1) (by omega)
        rw [hr, hLl] at h1
        have h2 : vpOf (last :: rest) (j + 1) = vpOf rest j := rfl
        rw [← h2, h1]
        congr 1; omega
      show sumDown (lit 1 -. t) (lit 1 -. t) last.vp rest = _
      rw [sumDown_eq, hrl, hlast, hv k (Nat.le_refl k)]
      unfold evalAt
      congr 1
      · exact acc_congr _ _ _ _ fun j hj => by rw [hrest j hj, hv _ (by omega)]
      · exact acc_congr _ _ _ _ fun j hj => by rw [hrest j hj, hv _ (by omega)]

/-! ## Weights -/

/-- The weight of control point `i` of `n`. -/
def weight (n : ℕ) : ℕ → F
  | 0 => lit 1
  | 1 => lit n -. lit 1
  | i + 2 => weight n (i + 1) *. (lit ((n : Int) - ((i + 2 : ℕ) : Int)) /. lit ((i + 2 : ℕ) : Rat))

theorem assignWeights_length (n i : ℕ) (w : F) (l : List (CP F)) :
    (assignWeights n i w l).length = l.length := by
  induction l generalizing i w with
  | nil => rfl
  | cons p l ih => simp only [assignWeights, List.length_cons, ih]

theorem assignWeights_get (n i : ℕ) (w : F) (l : List (CP F)) (hw : i ≠ 0 → w = weight n (i - 1))
    (j : ℕ) (hj : j < l.length) :
    cpOf (assignWeights n i w l) j = ⟨(vpOf l j).x *. weight n (i + j), (vpOf l j).y *. weight n (i + j)⟩ := by
  induction l generalizing i w j with
  | nil => simp at hj
  | cons p l ih =>
    obtain ⟨w', hwi, hstep⟩ : ∃ w' : F, w' = weight n i ∧ assignWeights n i w (p :: l) =
        { p with cp := ⟨p.vp.x *. w', p.vp.y *. w'⟩ } :: assignWeights n (i + 1) w' l := by
      refine ⟨_, ?_, rfl⟩
      match i, hw with
      | 0, _ => rfl
      | 1, _ => rfl
      | i + 2, hw =>
        rw [hw (by omega), weight]
        rfl
    rw [hstep]
    cases j with
    | zero => subst hwi; rfl
    | succ j =>
      have := ih (i + 1) w' (fun _ => by simpa using hwi) j (by simpa using hj)
      have e1 : ∀ a (b : List (CP F)), cpOf (a :: b) (j + 1) = cpOf b j := fun _ _ => rfl
      have e2 : vpOf (p :: l) (j + 1) = vpOf l j := rfl
      rw [e1, e2, this, show i + 1 + j = i + (j + 1) by omega]

/-- The control height `i` before weighting. -/
def height (mn mx : F) (mode : Int) (n : ℕ) (draws : ℕ → F) (i : ℕ) : F :=
  if hasBit mode 14 && i == 0 then mn
    else if hasBit mode 13 && i == n - 1 then mn
    else randomFloat mn mx (draws i)

theorem makePoints_length (mn mx : F) (mode : Int) (n : ℕ) (draws : ℕ → F) :
    (makePoints mn mx mode n draws).length = n := by
  unfold makePoints
  rw [assignWeights_length]
  simp

theorem makePoints_get (mn mx : F) (mode : Int) (n : ℕ) (draws : ℕ → F) (j : ℕ) (hj : j < n) :
    cpOf (makePoints mn mx mode n draws) j =
      ⟨lit j *. weight n j, height mn mx mode n draws j *. weight n j⟩ := by
  unfold makePoints
  rw [assignWeights_get n 0 _ _ (fun h => absurd rfl h) j (by simpa using hj), Nat.zero_add]
  have : vpOf ((List.range n).map (initPoint mn mx mode n draws)) j = ⟨lit j, height mn mx mode n draws j⟩ := by
    unfold vpOf
    rw [List.getElem?_map, List.getElem?_range hj]
    rfl
  rw [this]

end CurveFold
end GpsGen
