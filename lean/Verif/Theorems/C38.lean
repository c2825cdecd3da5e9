import Mathlib.Tactic.Ring
import Mathlib.Algebra.Order.Ring.Nat
import Verif.Model.GenRun
/-!
# C38: work slices partition the packet

For every number of workers (at least one), every packet size and every fill level.
-/

namespace GpsGen
namespace C38
open Run

/-! ## Specification -/

/-- The slices are adjacent: the first starts at `a`, each starts where the previous one ended, the last
ends at `b`. -/
def Tiles : Nat → List Slice → Nat → Prop
  | a, [], b => a = b
  | a, x :: l, b => x.lo = a ∧ x.lo ≤ x.hi ∧ Tiles x.hi l b

/-- The elements of a slice. -/
def cut {α : Type} (xs : List α) (x : Slice) : List α := (xs.drop x.lo).take (x.hi - x.lo)

/-! ## Proof -/

theorem tiles_append {a b d : Nat} {l m : List Slice} (h1 : Tiles a l b) (h2 : Tiles b m d) :
    Tiles a (l ++ m) d := by
  induction l generalizing a with
  | nil => cases h1; exact h2
  | cons x l ih => exact ⟨h1.1, h1.2.1, ih h1.2.2⟩

theorem tiles_le {a b : Nat} {l : List Slice} (h : Tiles a l b) : a ≤ b := by
  induction l generalizing a with
  | nil => cases h; exact Nat.le_refl _
  | cons x l ih =>
    have := ih h.2.2
    have := h.1
    have := h.2.1
    omega

theorem parts_tile (c : Cfg) (index n : Nat) (hn : n < c.numWorkers) :
    Tiles 0 ((List.range n).map (c.part index)) (n * (index / c.numWorkers)) := by
  induction n with
  | zero => simp [Tiles]
  | succ n ih =>
    rw [List.range_succ, List.map_append]
    refine tiles_append (ih (by omega)) ?_
    have : ¬ n = c.numWorkers - 1 := by omega
    simp only [List.map_cons, List.map_nil, Tiles, Cfg.part, if_neg this, true_and]
    generalize index / c.numWorkers = q
    constructor
    · omega
    · rw [Nat.succ_mul]; omega

/-- The slices of one flush are in order, disjoint and adjacent, start at 0 and end at the fill level. -/
theorem slices_tile (c : Cfg) (index : Nat) (h : 1 ≤ c.numWorkers) : Tiles 0 (c.slices index) index := by
  unfold Cfg.slices
  split
  · simp [Tiles]
  · obtain ⟨n, hn⟩ : ∃ n, c.numWorkers = n + 1 := ⟨c.numWorkers - 1, by omega⟩
    rw [show List.range c.numWorkers = List.range n ++ [n] by rw [hn, List.range_succ], List.map_append]
    refine tiles_append (parts_tile c index n (by omega)) ?_
    have e : n = c.numWorkers - 1 := by omega
    simp only [List.map_cons, List.map_nil, Tiles, Cfg.part, if_pos e, true_and]
    have := Nat.div_add_mod index c.numWorkers
    generalize index / c.numWorkers = q at *
    generalize index % c.numWorkers = r at *
    constructor
    · omega
    · rw [hn, Nat.succ_mul] at this
      omega

/-- All slices are within bounds. -/
theorem slices_bounds (c : Cfg) (index : Nat) (h : 1 ≤ c.numWorkers) :
    ∀ x ∈ c.slices index, x.lo ≤ x.hi ∧ x.hi ≤ index := by
  have key : ∀ (l : List Slice) (a b : Nat), Tiles a l b → ∀ x ∈ l, x.lo ≤ x.hi ∧ x.hi ≤ b := by
    intro l
    induction l with
    | nil => intro a b _ x hx; cases hx
    | cons y l ih =>
      intro a b ht x hx
      rcases List.mem_cons.mp hx with rfl | hx
      · exact ⟨ht.2.1, tiles_le ht.2.2⟩
      · exact ih y.hi b ht.2.2 x hx
  exact key _ _ _ (slices_tile c index h)

/-- Distinct slices are disjoint: every position below the fill level lies in exactly one of them. -/
theorem slices_disjoint (c : Cfg) (index : Nat) (h : 1 ≤ c.numWorkers) (j : Nat) (hj : j < index) :
    (c.slices index).countP (fun x => x.lo ≤ j ∧ j < x.hi) = 1 := by
  have key : ∀ (l : List Slice) (a b : Nat), Tiles a l b →
      l.countP (fun x => x.lo ≤ j ∧ j < x.hi) = if a ≤ j ∧ j < b then 1 else 0 := by
    intro l
    induction l with
    | nil => intro a b ht; cases ht; rw [if_neg (by omega)]; rfl
    | cons y l ih =>
      intro a b ht
      rw [List.countP_cons, ih y.hi b ht.2.2]
      have h1 := ht.1
      have h2 := ht.2.1
      have h3 := tiles_le ht.2.2
      simp only [decide_eq_true_eq]
      split <;> split <;> split <;> omega
  rw [key _ _ _ (slices_tile c index h), if_pos ⟨Nat.zero_le _, hj⟩]

/-- **C38.** Handing out the slices hands out exactly the filled part of the packet, in order. -/
theorem slices_partition (c : Cfg) (index : Nat) (h : 1 ≤ c.numWorkers) {α : Type} (xs : List α)
    (hi : index ≤ xs.length) : (c.slices index).flatMap (cut xs) = xs.take index := by
  have key : ∀ (l : List Slice) (a b : Nat), Tiles a l b → b ≤ xs.length →
      l.flatMap (cut xs) = (xs.drop a).take (b - a) := by
    intro l
    induction l with
    | nil => intro a b ht _; cases ht; simp
    | cons y l ih =>
      intro a b ht hb
      have h1 := ht.1
      have h2 := ht.2.1
      have h3 := tiles_le ht.2.2
      rw [List.flatMap_cons, ih y.hi b ht.2.2 hb]
      unfold cut
      rw [h1]
      rw [show b - a = (y.hi - a) + (b - y.hi) by omega, List.take_add, List.drop_drop]
      rw [show a + (y.hi - a) = y.hi by omega]
  rw [key _ _ _ (slices_tile c index h) hi]
  simp

/-- The number of slices: one, or one per worker, so they fit into the channel. -/
theorem slices_length (c : Cfg) (index : Nat) (h : 1 ≤ c.numWorkers) :
    1 ≤ (c.slices index).length ∧ (c.slices index).length ≤ c.numWorkers := by
  unfold Cfg.slices
  split
  · exact ⟨by simp, by simpa using h⟩
  · simp; omega

/-- A divided packet has no empty slice, so none is mistaken for the empty-packet signal. -/
theorem divided_nonempty (c : Cfg) (index : Nat) (h : 1 ≤ c.numWorkers) (hs : c.single index = false) :
    ∀ x ∈ c.slices index, x.lo < x.hi := by
  intro x hx
  unfold Cfg.slices at hx
  rw [hs, if_neg (by simp)] at hx
  obtain ⟨i, hi, rfl⟩ := List.mem_map.mp hx
  have h1 : c.numWorkers < index := by
    unfold Cfg.single at hs
    have := of_decide_eq_false hs
    omega
  have : 1 ≤ index / c.numWorkers := (Nat.one_le_div_iff (by omega)).mpr (by omega)
  unfold Cfg.part
  simp only
  omega

/-- The sizes made by `New` are positive: at least 1024 slots, and a worker if there is a CPU. -/
theorem new_sizes (o : Option Options) (cpus : Int) (h : 1 ≤ cpus) :
    1 ≤ (Cfg.new o cpus).numWorkers ∧ 1024 ≤ (Cfg.new o cpus).packetSize := by
  unfold Cfg.new Options.prepare
  simp only
  constructor
  · split <;> omega
  · split <;> omega

/-! Non-vacuity: 4 workers, 8192 slots, 3001 devices. -/

example : (⟨4, 8192⟩ : Cfg).slices 3001 = [⟨0, 750⟩, ⟨750, 1500⟩, ⟨1500, 2250⟩, ⟨2250, 3001⟩] ∧
    (⟨4, 8192⟩ : Cfg).slices 2052 = [⟨0, 2052⟩] ∧ (⟨4, 8192⟩ : Cfg).slices 2053 ≠ [⟨0, 2053⟩] := by
  decide +kernel

end C38
end GpsGen
