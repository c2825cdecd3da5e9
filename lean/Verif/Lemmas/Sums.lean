import Mathlib.Algebra.BigOperators.Group.List.Basic
import Mathlib.Data.Real.Basic
import Mathlib.Tactic.Linarith
/-!
# Helper lemmas: partial sums of non-negative lists
-/

namespace GpsGen

/-- The sum of `f` over the first `k` elements. -/
noncomputable def psum {α : Type} (f : α → ℝ) (l : List α) (k : Nat) : ℝ := ((l.take k).map f).sum

@[simp] theorem psum_zero {α : Type} (f : α → ℝ) (l : List α) : psum f l 0 = 0 := by simp [psum]

theorem psum_succ {α : Type} (f : α → ℝ) (l : List α) (k : Nat) (a : α) (h : l[k]? = some a) :
    psum f l (k + 1) = psum f l k + f a := by
  unfold psum
  rw [List.take_add_one, h]
  simp

theorem psum_nonneg {α : Type} (f : α → ℝ) (l : List α) (h : ∀ a ∈ l, 0 ≤ f a) (k : Nat) :
    0 ≤ psum f l k := by
  unfold psum
  have : ∀ a ∈ l.take k, 0 ≤ f a := fun a ha => h a (List.mem_of_mem_take ha)
  generalize l.take k = m at this
  induction m with
  | nil => simp
  | cons a m ih =>
    simp only [List.map_cons, List.sum_cons]
    have h1 := this a (by simp)
    have h2 := ih (fun b hb => this b (by simp [hb]))
    linarith

theorem psum_mono {α : Type} (f : α → ℝ) (l : List α) (h : ∀ a ∈ l, 0 ≤ f a) {j k : Nat}
    (hjk : j ≤ k) : psum f l j ≤ psum f l k := by
  induction k with
  | zero => have : j = 0 := by omega
            subst this; exact le_refl _
  | succ k ih =>
    by_cases hj : j = k + 1
    · subst hj; exact le_refl _
    · have h1 := ih (by omega)
      cases hk : l[k]? with
      | some a =>
        rw [psum_succ f l k a hk]
        have := h a (List.mem_of_getElem? hk)
        linarith
      | none =>
        have : psum f l (k + 1) = psum f l k := by
          unfold psum; rw [List.take_add_one, hk]; simp
        rw [this]; exact h1

theorem psum_all {α : Type} (f : α → ℝ) (l : List α) {k : Nat} (h : l.length ≤ k) :
    psum f l k = (l.map f).sum := by
  unfold psum; rw [List.take_of_length_le h]

theorem psum_le_sum {α : Type} (f : α → ℝ) (l : List α) (h : ∀ a ∈ l, 0 ≤ f a) (k : Nat) :
    psum f l k ≤ (l.map f).sum := by
  rw [← psum_all f l (k := max k l.length) (by omega)]
  exact psum_mono f l h (by omega)

theorem psum_cons {α : Type} (f : α → ℝ) (a : α) (l : List α) (k : Nat) :
    psum f (a :: l) (k + 1) = f a + psum f l k := by simp [psum]

end GpsGen
