import Verif.Model.NavHistory
/-!
# Helper lemmas about lists
-/

namespace GpsGen

theorem map_modify_of_eq {α β : Type} (g : α → β) (f : α → α) (h : ∀ a, g (f a) = g a)
    (l : List α) (i : Nat) : (l.modify i f).map g = l.map g := by
  induction l generalizing i with
  | nil => cases i <;> rfl
  | cons a l ih => cases i <;> simp [h, ih]

theorem removeFirst_eq {α : Type} (p : α → Bool) (l : List α) :
    removeFirst p l = (l.eraseP p, l.any p) := by
  induction l with
  | nil => rfl
  | cons a l ih =>
    unfold removeFirst
    by_cases h : p a
    · simp [h]
    · simp [h, ih]

theorem mem_modify {α : Type} {f : α → α} {l : List α} {i : Nat} {b : α}
    (h : b ∈ l.modify i f) : b ∈ l ∨ ∃ a ∈ l, b = f a := by
  induction l generalizing i with
  | nil => cases i <;> simp at h
  | cons a l ih =>
    cases i with
    | zero =>
      simp at h
      rcases h with rfl | h
      · right; exact ⟨a, by simp, rfl⟩
      · left; simp [h]
    | succ i =>
      simp at h
      rcases h with rfl | h
      · left; simp
      · rcases ih h with h | ⟨c, hc, rfl⟩
        · left; simp [h]
        · right; exact ⟨c, by simp [hc], rfl⟩

end GpsGen
