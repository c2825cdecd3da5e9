import Mathlib.Algebra.Order.Floor.Ring
import Verif.Lemmas.Trip
import Verif.Theorems.C07
import Verif.Lemmas.Demo
/-!
# C12: every trip finishes

Exact arithmetic; doubles in `C12Double`. The vocabulary (`calls`, `InLastTrack`, `AtStart`) is in `Lemmas/Trip`.
-/

namespace GpsGen

namespace C12
open Navigator Trip

/-- The number of steps of length `ε` left in a segment. -/
theorem real_counts (ε : ℝ) (hε : 0 < ε) :
    Counts (fun d : ℝ => ε ≤ d) (fun _ => True) (fun _ => True) (fun D c => ⌊(D - c) / ε⌋.toNat) where
  zero := trivial
  add _ _ _ _ := trivial
  less D c d _ _ hd hf := by
    have hf : c + d ≤ D := by simpa using hf
    rw [real_add]
    have h1 : (D - (c + d)) / ε ≤ (D - c) / ε - 1 := by
      rw [div_sub_one (ne_of_gt hε)]
      exact div_le_div_of_nonneg_right (by linarith) (le_of_lt hε)
    have h2 : 1 ≤ (D - c) / ε := by rw [le_div_iff₀ hε]; linarith
    have h3 := Int.floor_le_floor h1
    have h4 : (1 : ℤ) ≤ ⌊(D - c) / ε⌋ := Int.le_floor.mpr (by simpa using h2)
    rw [Int.floor_sub_one] at h3
    omega

theorem finishes (ε : ℝ) (hε : 0 < ε) (n : Navigator ℝ) (hr : n.routes ≠ []) (hi : n.IndexOk)
    (ho : n.skipOffline = true ∨ n.offline.isSome)
    (tick speed : ℕ → ℝ) (x : ℕ → UInt32) (hstep : ∀ i, ε ≤ tick i * speed i) :
    ∃ k m n', n.run (calls tick speed x k) = .ok m ∧ n.run (calls tick speed x (k + 1)) = .ok n' ∧
      InLastTrack m ∧ AtStart n' ∧ n'.isFinish.2 = true :=
  Trip.finishes (real_counts ε hε) (by simp) n ⟨hr, hi, ho, trivial, fun _ _ _ _ _ _ => trivial⟩ tick speed x hstep

/-- **C12.** From every navigator state with at least one route and a valid route index, for every
sequence of ticks and speeds whose products are bounded below by a positive number, and for every
sequence of offline draws: after finitely many `NextLocation` calls the cursor is in the last track
of the last route, the next call brings it back to the first segment of the first track of the first
route, and `IsFinish()` then reports true. No call panics. (The offline generator must exist unless
offline mode is disabled, as in every navigator made by `New`.) -/
theorem trip_finishes (n : Navigator ℝ) (hr : n.routes ≠ [])
    (hi : 0 ≤ n.routeIndex ∧ n.routeIndex < n.routes.length)
    (ho : n.skipOffline = true ∨ n.offline.isSome)
    (tick speed : ℕ → ℝ) (x : ℕ → UInt32) (ε : ℝ) (hε : 0 < ε)
    (hstep : ∀ i, ε ≤ tick i * speed i) :
    ∃ k m n', n.run (calls tick speed x k) = .ok m ∧ n.run (calls tick speed x (k + 1)) = .ok n' ∧
      InLastTrack m ∧ AtStart n' ∧ n'.isFinish.2 = true :=
  finishes ε hε n hr (Or.inr hi) ho tick speed x hstep

/-- **C12 for reachable states.** The same after any client history in which `DestinationTo` is
called only while at most two routes are held (see C07), provided a route is held at the end. -/
theorem trip_finishes_reachable (uid : String) (draws : Nat → ℝ) (opts : List (NavOption ℝ))
    (n : Navigator ℝ) (hn : Navigator.new uid draws opts = .ok n) (ops : List (NavOp ℝ))
    (hd : C07.Disciplined n ops) :
    ∃ n1, n.run ops = .ok n1 ∧ (n1.routes ≠ [] →
      ∀ (tick speed : ℕ → ℝ) (x : ℕ → UInt32) (ε : ℝ), 0 < ε → (∀ i, ε ≤ tick i * speed i) →
      ∃ k m n', n1.run (calls tick speed x k) = .ok m ∧ n1.run (calls tick speed x (k + 1)) = .ok n' ∧
        InLastTrack m ∧ AtStart n' ∧ n'.isFinish.2 = true) := by
  obtain ⟨n1, h1, h2⟩ := C07.run_safe ops n (C07.safe_new uid draws opts n hn) hd
  refine ⟨n1, h1, fun hr tick speed x ε hε hstep => ?_⟩
  refine finishes ε hε n1 hr h2.index ?_ tick speed x hstep
  cases hs : n1.skipOffline with
  | true => exact Or.inl rfl
  | false => exact Or.inr (h2.offline hs)

/-- Non-vacuity: on the one-degree route with offline periods, walking 10 km per call finishes. -/
example : ∃ k m n', (oneNav false).run (calls (fun _ => 10000) (fun _ => 1) (fun i => i.toUInt32) k) =
      .ok m ∧
    (oneNav false).run (calls (fun _ => 10000) (fun _ => 1) (fun i => i.toUInt32) (k + 1)) = .ok n' ∧
    InLastTrack m ∧ AtStart n' ∧ n'.isFinish.2 = true :=
  trip_finishes (oneNav false) (by simp [oneNav]) (by simp [oneNav, freshNav])
    (Or.inr (by simp [oneNav, freshNav])) _ _ _ 1 (by norm_num) (fun _ => by norm_num)

end C12
end GpsGen
