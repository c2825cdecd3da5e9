import Verif.Theorems.C34
import Verif.Theorems.C28Double
import Verif.Lemmas.ToyF64
/-!
# C34 in IEEE doubles

With the rounding of `float64` the published duration is not the sum of the ticks: ten ticks of 0.1 seconds give
0.9999999999999999, and from `2 ^ 53` seconds on ticks of one second leave no trace. For ticks of whole seconds the
duration plus the pending seconds is exactly the sum of the ticks as long as that sum is at most `2 ^ 53`; this holds for
all devices and histories (with the exclusions of `C34.time_conserved_partial`), whatever the mathematical library
computes.
-/

namespace GpsGen
namespace C34
namespace Double
open F64 Device C28.Double

attribute [local irreducible] Round64.rndQ Round64.pow2

/-- A device with a history of calls, with the client's account of the time. Ticks are whole seconds. -/
inductive Whole [MathLib] : Device F64 → ℕ → Prop
  | new {rnd opts d} (h : Device.new rnd opts = .ok d) : Whole d 0
  | locked {d n d'} (hd : Whole d n) (h : d.step .skipTick = .ok d') (hw : d.tick.toNat + 1 < 2 ^ 32) : Whole d' (n + 1)
  | finish {d n d'} {k : ℕ} {rnd} (hd : Whole d n) (hr : d.navigator.routes ≠ []) (hf : Finishes d (lit (k : ℚ)) rnd)
      (h : d.step (.next (lit (k : ℚ)) rnd) = .ok d') : Whole d' 0
  | tick {d n d'} {k : ℕ} {rnd} (hd : Whole d n) (hr : d.navigator.routes ≠ []) (hf : ¬ Finishes d (lit (k : ℚ)) rnd)
      (hb : n + k ≤ 2 ^ 53) (h : d.step (.next (lit (k : ℚ)) rnd) = .ok d') : Whole d' (n + k)
  | other {d n op d'} (hd : Whole d n) (hp : Plain op) (h : d.step op = .ok d') : Whole d' n

/-- The sum of two whole numbers is exact up to `2 ^ 53`. -/
theorem whole_add {x y : F64} {m k : ℕ} (hx : Is x m) (hy : Is y k) (h : m + k ≤ 2 ^ 53) : Is (x +. y) (m + k : ℕ) := by
  obtain ⟨s, r, rfl⟩ := hx
  obtain ⟨s', r', rfl⟩ := hy
  rw [fin_add]
  obtain ⟨r2, e⟩ := lit_nat (q := ((m + k : ℕ) : ℚ)) (m + k : ℕ) (by push_cast; rfl)
    (by rw [abs_of_nonneg (by positivity)]; exact_mod_cast h) (by positivity)
  have := fun z => is_round r2 z
  push_cast at this ⊢
  exact this _

theorem lit_whole {k : ℕ} (h : k ≤ 2 ^ 53) : Is (lit (k : ℚ)) (k : ℚ) := by
  obtain ⟨r2, e⟩ := lit_nat (q := (k : ℚ)) (k : ℤ) (by push_cast; rfl)
    (by rw [abs_of_nonneg (by positivity)]; exact_mod_cast h) (by positivity)
  exact ⟨_, r2, e⟩

/-- The duration is a whole number and, with the pending seconds, the client's account of the time: exactly. -/
theorem time_conserved_whole_partial [MathLib] (d : Device F64) (n : ℕ) (h : Whole d n) :
    ∃ m : ℕ, Is d.state.duration m ∧ m + d.tick.toNat = n := by
  induction h with
  | new h =>
    obtain ⟨_, _, _, st, -, -, -, h2, rfl⟩ := Device.new_eq h
    obtain ⟨_, _, rfl, -⟩ := applyFor_eq h2
    exact ⟨0, lit_whole (k := 0) (by norm_num), rfl⟩
  | @locked d n d' _ h hw ih =>
    cases h
    obtain ⟨m, h1, h2⟩ := ih
    refine ⟨m, h1, ?_⟩
    show m + (d.tick + 1).toNat = n + 1
    have : (d.tick + 1).toNat = d.tick.toNat + 1 := by
      rw [UInt32.toNat_add]
      exact Nat.mod_eq_of_lt hw
    omega
  | finish _ hr hf h =>
    obtain ⟨⟨x, b⟩, hn, hx⟩ := map_eq_ok h
    cases hx
    obtain ⟨a1, a2, -⟩ := next_time_any hn hr
    refine ⟨0, ?_, ?_⟩
    · show Is x.state.duration _
      rw [a2 hf]
      exact lit_whole (k := 0) (by norm_num)
    · show 0 + x.tick.toNat = 0
      rw [a1]
      rfl
  | @tick d n d' k rnd _ hr hf hb h ih =>
    obtain ⟨⟨x, b⟩, hn, hx⟩ := map_eq_ok h
    cases hx
    obtain ⟨a1, -, a3⟩ := next_time_any hn hr
    obtain ⟨m, h1, h2⟩ := ih
    refine ⟨m + (d.tick.toNat + k), ?_, ?_⟩
    · show Is x.state.duration _
      rw [a3 hf]
      refine whole_add h1 ?_ (by omega)
      exact whole_add (lit_whole (by omega)) (lit_whole (by omega)) (by omega)
    · show m + (d.tick.toNat + k) + x.tick.toNat = n + k
      rw [a1]
      have : (0 : UInt32).toNat = 0 := rfl
      omega
  | other _ hp h ih =>
    obtain ⟨a1, a2⟩ := plain_frame hp h
    rw [a1, a2]
    exact ih

/-- A device on a route after `n` ticks of length `t`. -/
def ticked (t : F64) (n : ℕ) : Option (Device F64) :=
  ToyF64.dev (lit 1) (lit 1) (lit 0) (.addRoute [some ToyF64.route] :: List.replicate n (.next t ToyF64.nextRnd))

/-- **Negation.** Ten ticks of 0.1 seconds: the published duration is 0.9999999999999999. -/
theorem tenths_inexact : (ticked (lit (1 / 10)) 10).map (·.state.duration) = some (lit (1 - 1 / 2 ^ 53)) ∧
    (lit (1 - 1 / 2 ^ 53) : F64) ≠ lit 1 := by decide +kernel

/-- **Negation.** From `2 ^ 53` seconds on, one more second is lost. -/
theorem second_lost : ((lit (2 ^ 53) : F64) +. lit 1) = lit (2 ^ 53) := by decide +kernel

/-! Non-vacuity: three ticks of seven seconds. -/
example : (ticked (lit 7) 3).map (·.state.duration) = some (lit 21) := by decide +kernel

end Double
end C34
end GpsGen
