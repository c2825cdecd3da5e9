import Verif.Theorems.C12
import Verif.Lemmas.F64Order
import Verif.Lemmas.ToyF64
/-!
# C12 in IEEE doubles

The claim holds with the rounding of `float64` and whatever the mathematical library computes, if "advances" means what it
says: the distance counter grows by a fixed positive amount with every call that moves the device in its segment
(`trip_finishes`). It is not enough that tick × speed is at least a fixed positive number: a step that is less than half a
unit in the last place of the counter does not change it, and the device drives for ever without moving (`claim_fails`).
The steps are large enough if they are at least `2 ^ -51` times the longest segment (`trip_finishes_large`). That is
15 nanometres for segments of up to 2 ^ 25 m, more than half the circumference of the earth.
-/

namespace GpsGen
namespace C12
namespace Double
open F64 Navigator Trip

attribute [local irreducible] Round64.rndQ Round64.pow2

/-! ## Specification -/

/-- The number is at least `ε`; NaN is not. -/
def AtLeast (ε : ℚ) : F64 → Prop
  | .fin _ q _ => ε ≤ q
  | .inf s => s = false
  | .nan => False

/-- The number is not greater than `M`; NaN is not greater than any number. -/
def AtMost (M : ℚ) : F64 → Prop
  | .fin _ q _ => q ≤ M
  | .inf s => s = true
  | .nan => True

/-- The counter grows from `a` to `b` by at least `ε`, without overflow. -/
def Advances (ε : ℚ) : F64 → F64 → Prop
  | .fin _ a _, .fin _ b _ => a + ε ≤ b
  | _, _ => False

/-- The claim with a fixed positive tick × speed instead of an advance, for one mathematical library. -/
def Claim [MathLib] : Prop := ∀ (n : Navigator F64), n.routes ≠ [] →
  0 ≤ n.routeIndex ∧ n.routeIndex < n.routes.length → n.skipOffline = true ∨ n.offline.isSome →
  ∀ (tick speed : ℕ → F64) (x : ℕ → UInt32) (ε : ℚ), 0 < ε → (∀ i, AtLeast ε (tick i *. speed i)) →
  ∃ k n', n.run (calls tick speed x k) = .ok n' ∧ n'.isFinish.2 = true

/-! ## Steps that are large enough -/

/-- The number of half steps left in a segment. -/
def left (ε : ℚ) : F64 → F64 → ℕ
  | .fin _ D _, .fin _ c _ => ⌊(D - c) / (ε / 2)⌋.toNat
  | _, _ => 0

/-- A sum of non-negative finite numbers loses at most half a step, if the step is not too small. -/
theorem add_progress {c d M ε : ℚ} (hc : 0 ≤ c) (hd : ε ≤ d) (hM : M * 2 ^ (-51 : ℤ) ≤ ε) (he : 2 ^ (-1074 : ℤ) ≤ ε)
    (hr : Round64.rndQ (c + d) ≤ M) : c + ε / 2 ≤ Round64.rndQ (c + d) := by
  have h0 : (0 : ℚ) < 2 ^ (-1074 : ℤ) := by positivity
  have hq : 0 ≤ c + d := by linarith
  have err := Round64.rndQ_error (c + d)
  rw [abs_of_nonneg hq] at err
  have e1 : (2 : ℚ) ^ (-1075 : ℤ) = 2 ^ (-1074 : ℤ) / 2 := by
    rw [show (-1075 : ℤ) = -1074 - 1 by norm_num, zpow_sub_one₀ (by norm_num : (2 : ℚ) ≠ 0)]; ring
  rw [e1] at err
  generalize (2 : ℚ) ^ (-1074 : ℤ) = u at *
  generalize Round64.rndQ (c + d) = r at *
  have e2 : (2 : ℚ) ^ (-53 : ℤ) = 2 ^ (-51 : ℤ) / 4 := by norm_num
  have h51 : (2 : ℚ) ^ (-51 : ℤ) ≤ 1 := by norm_num
  have h51' : (0 : ℚ) < 2 ^ (-51 : ℤ) := by positivity
  rw [e2] at err
  generalize (2 : ℚ) ^ (-51 : ℤ) = w at *
  have lo := (abs_le.mp err).1
  rcases le_total ((c + d) * (w / 4)) (u / 2) with h | h
  · rw [max_eq_right h] at lo
    linarith
  · rw [max_eq_left h] at lo
    have h1 : (c + d) * (w / 4) ≤ (c + d) * (1 / 4) := mul_le_mul_of_nonneg_left (by linarith) hq
    have h2 : c + d ≤ 2 * M := by linarith
    have h3 := mul_le_mul_of_nonneg_right h2 (by linarith : 0 ≤ w / 4)
    linarith

theorem round_cases (z : Bool) (q : ℚ) :
    (∃ s r, F64.round z q = .fin s (Round64.rndQ q) r) ∨ F64.round z q = .inf (decide (q < 0)) := by
  unfold F64.round
  split
  · rename_i h
    exact Or.inl ⟨_, rep_round h, rfl⟩
  · rename_i h
    right
    unfold sgn
    rw [if_neg]
    intro hq
    rw [hq, Round64.rndQ_zero, abs_zero] at h
    exact h (Round64.pow2_pos _)

theorem atLeast_zero_add {ε : ℚ} (he : 0 ≤ ε) {c d : F64} (hc : AtLeast 0 c) (hd : AtLeast ε d) : AtLeast 0 (c +. d) := by
  cases c with
  | nan => exact hc.elim
  | inf s =>
    cases hc
    cases d with
    | nan => exact hd.elim
    | inf t => cases hd; exact rfl
    | fin t q r => exact rfl
  | fin s p rp =>
    cases d with
    | nan => exact hd.elim
    | inf t => cases hd; exact rfl
    | fin t q rq =>
      rw [fin_add]
      generalize (decide (p = 0) && decide (q = 0) && s && t) = z
      have hp : (0 : ℚ) ≤ p := hc
      have hq : ε ≤ q := hd
      have h0 : 0 ≤ p + q := by linarith
      rcases round_cases z (p + q) with ⟨s', r', e⟩ | e
      · rw [e]; exact Round64.rndQ_nonneg h0
      · rw [e]; exact decide_eq_false (by linarith)

theorem double_counts (M ε : ℚ) (hM : M * 2 ^ (-51 : ℤ) ≤ ε) (he : 2 ^ (-1074 : ℤ) ≤ ε) :
    Counts (AtLeast ε) (AtLeast 0) (AtMost M) (left ε) := by
  have hpos : 0 < ε := lt_of_lt_of_le (by positivity) he
  refine ⟨?_, fun c d hc hd => atLeast_zero_add hpos.le hc hd, ?_⟩
  · obtain ⟨r, e⟩ := lit_nat (q := 0) 0 (by norm_num) (by norm_num) (by norm_num)
    rw [e]; exact _root_.le_refl (0 : ℚ)
  intro D c d hD hc hd hf
  cases c with
  | nan => exact hc.elim
  | inf s =>
    cases hc
    cases d with
    | nan => exact hd.elim
    | inf t =>
      cases hd
      cases top_le (y := D) hf
      cases hD
    | fin t q r =>
      cases top_le (y := D) hf
      cases hD
  | fin s p rp =>
    cases d with
    | nan => exact hd.elim
    | inf t =>
      cases hd
      cases top_le (y := D) hf
      cases hD
    | fin t q rq =>
      rw [fin_add] at hf ⊢
      generalize (decide (p = 0) && decide (q = 0) && s && t) = z at hf ⊢
      have hp : (0 : ℚ) ≤ p := hc
      have hq : ε ≤ q := hd
      rcases round_cases z (p + q) with ⟨s', r', e⟩ | e
      · rw [e] at hf ⊢
        cases D with
        | nan => rw [le_nan] at hf; cases hf
        | inf y => cases hD; cases le_bot hf
        | fin y D rD =>
          rw [fin_le, decide_eq_true_eq] at hf
          have hDM : D ≤ M := hD
          have hpr := add_progress hp hq hM he (hf.trans hDM)
          show ⌊(D - Round64.rndQ (p + q)) / (ε / 2)⌋.toNat < ⌊(D - p) / (ε / 2)⌋.toNat
          have hh : 0 < ε / 2 := by linarith
          have h1 : (D - Round64.rndQ (p + q)) / (ε / 2) ≤ (D - p) / (ε / 2) - 1 := by
            rw [div_sub_one (ne_of_gt hh)]
            exact div_le_div_of_nonneg_right (by linarith) hh.le
          have h2 : 1 ≤ (D - p) / (ε / 2) := by rw [le_div_iff₀ hh]; linarith
          have h3 := Int.floor_le_floor h1
          have h4 : (1 : ℤ) ≤ ⌊(D - p) / (ε / 2)⌋ := Int.le_floor.mpr (by exact_mod_cast h2)
          rw [Int.floor_sub_one] at h3
          omega
      · rw [e, decide_eq_false (by linarith)] at hf
        cases top_le hf
        cases hD

theorem tenth : ((lit (1 / 10) : F64) ==. lit (1 / 10)) = true := by decide +kernel

/-- **C12 in doubles, large steps.** From every navigator state with at least one route and a valid route index, whose segments are not
longer than `M` and whose segment counter is a number from zero on: if every step is at least `M * 2 ^ -51`, finitely many
calls of `NextLocation` complete the trip, for every sequence of offline draws and every mathematical library. -/
theorem trip_finishes_large [MathLib] (n : Navigator F64) (hr : n.routes ≠ [])
    (hi : 0 ≤ n.routeIndex ∧ n.routeIndex < n.routes.length)
    (ho : n.skipOffline = true ∨ n.offline.isSome) (M ε : ℚ) (hM : M * 2 ^ (-51 : ℤ) ≤ ε) (he : 2 ^ (-1074 : ℤ) ≤ ε)
    (hs : ∀ r ∈ n.routes, ∀ t ∈ r.tracks, ∀ s ∈ t.segments, AtMost M s.dist)
    (hc : AtLeast 0 n.currentSegmentDistance)
    (tick speed : ℕ → F64) (x : ℕ → UInt32) (hstep : ∀ i, AtLeast ε (tick i *. speed i)) :
    ∃ k m n', n.run (calls tick speed x k) = .ok m ∧ n.run (calls tick speed x (k + 1)) = .ok n' ∧
      InLastTrack m ∧ AtStart n' ∧ n'.isFinish.2 = true :=
  Trip.finishes (double_counts M ε hM he) tenth n ⟨hr, Or.inr hi, ho, hc, hs⟩ tick speed x hstep

/-- The number of advances until overflow. -/
def advancesLeft (ε : ℚ) : F64 → ℕ
  | .fin _ c _ => ⌊(Round64.pow2 1024 - c) / ε⌋.toNat
  | _ => 0

theorem advance_less {ε : ℚ} (hε : 0 < ε) {a b : F64} (h : Advances ε a b) : advancesLeft ε b < advancesLeft ε a := by
  cases a with
  | nan => exact h.elim
  | inf s => exact h.elim
  | fin s a ra =>
    cases b with
    | nan => exact h.elim
    | inf s => exact h.elim
    | fin t b rb =>
      have h : a + ε ≤ b := h
      have hb := (abs_lt.mp rb.2.1).2
      show ⌊(Round64.pow2 1024 - b) / ε⌋.toNat < ⌊(Round64.pow2 1024 - a) / ε⌋.toNat
      generalize Round64.pow2 1024 = P at *
      have h1 : (P - b) / ε ≤ (P - a) / ε - 1 := by
        rw [div_sub_one (ne_of_gt hε)]
        exact div_le_div_of_nonneg_right (by linarith) hε.le
      have h2 : 1 ≤ (P - a) / ε := by rw [le_div_iff₀ hε]; linarith
      have h3 := Int.floor_le_floor h1
      have h4 : (1 : ℤ) ≤ ⌊(P - a) / ε⌋ := Int.le_floor.mpr (by exact_mod_cast h2)
      rw [Int.floor_sub_one] at h3
      omega

/-- **C12 in doubles.** From every navigator state with at least one route and a valid route index, for every sequence of
ticks, speeds and offline draws and every mathematical library: if every call that moves the device in its current segment
advances the segment counter by at least `ε > 0`, finitely many calls of `NextLocation` complete the trip. Segments may have
any length, also infinity and NaN. -/
theorem trip_finishes [MathLib] (n : Navigator F64) (hr : n.routes ≠ [])
    (hi : 0 ≤ n.routeIndex ∧ n.routeIndex < n.routes.length)
    (ho : n.skipOffline = true ∨ n.offline.isSome) (tick speed : ℕ → F64) (x : ℕ → UInt32) (ε : ℚ) (hε : 0 < ε)
    (hadv : ∀ k m, n.run (calls tick speed x k) = .ok m → m.Fits (tick k *. speed k) →
      Advances ε m.currentSegmentDistance (m.currentSegmentDistance +. tick k *. speed k)) :
    ∃ k m n', n.run (calls tick speed x k) = .ok m ∧ n.run (calls tick speed x (k + 1)) = .ok n' ∧
      InLastTrack m ∧ AtStart n' ∧ n'.isFinish.2 = true :=
  Trip.finishes_run (Cnt := fun _ => True) (Len := fun _ => True) (μ := fun _ c => advancesLeft ε c) trivial tenth n
    ⟨hr, Or.inr hi, ho, trivial, fun _ _ _ _ _ _ => trivial⟩ tick speed x (fun _ _ _ => trivial)
    (fun k m hm _ hf => advance_less hε (hadv k m hm hf))

/-! ## Steps that are too small -/

/-- The same cursor, routes and counters; the point may differ. -/
def Same (n m : Navigator F64) : Prop := ∃ p, m = { n with point := p }

/-- A navigator whose counters do not change stays where it is for ever. -/
theorem stuck [MathLib] (n : Navigator F64) (r : Route F64) (hr : n.route? = some r) (hoff : n.skipOffline = true)
    (tick speed : F64) (hf : n.Fits (tick *. speed))
    (h1 : n.currentDistance +. tick *. speed = n.currentDistance)
    (h2 : n.currentSegmentDistance +. tick *. speed = n.currentSegmentDistance)
    (h3 : n.currentTrackDistance +. tick *. speed = n.currentTrackDistance)
    (h4 : n.currentRouteDistance +. tick *. speed = n.currentRouteDistance) (k : ℕ) :
    ∃ m, n.run (calls (fun _ => tick) (fun _ => speed) (fun _ => 0) k) = .ok m ∧ Same n m := by
  induction k with
  | zero => exact ⟨n, rfl, n.point, rfl⟩
  | succ k ih =>
    obtain ⟨m, hm, p, rfl⟩ := ih
    have hland := nextLocation_land ({ n with point := p } : Navigator F64) tick speed 0 r hr
      (by unfold nextOffline; simp only [hoff, if_true]) hf
    have e : calls (fun _ => tick) (fun _ => speed) (fun _ => 0) (k + 1) =
        calls (fun _ => tick) (fun _ => speed) (fun _ => (0 : UInt32)) k ++ [.nextLocation tick speed 0] := by
      unfold calls
      rw [List.range_succ, List.map_append]; rfl
    rw [e, run_append _ _ _ _ hm]
    simp only [Navigator.run, Navigator.step, hland, map_ok, ok_bind]
    refine ⟨_, rfl, ?_⟩
    unfold land
    simp only [updateDist, h1, h2, h3, h4]
    exact ⟨_, rfl⟩

/-- A navigator without offline periods on the route of `ToyF64`, put 1000 m after the start by `DestinationTo`. -/
def jumped : Option (Navigator F64) :=
  (Navigator.new "elevation" (fun _ => lit 0) [.skipOffline]).toOption.bind fun n =>
    (n.run [.addRoute [some ToyF64.route], .destinationTo (lit 1000)]).toOption

/-- What makes it stop: all counters swallow a step of `2 ^ -50` m. -/
theorem jumped_stuck : ∃ n, jumped = some n ∧ n.routes.length = 1 ∧ n.routeIndex = 0 ∧ n.skipOffline = true ∧
    n.Fits (lit 1 *. lit (1 / 2 ^ 50)) ∧
    n.currentDistance +. lit 1 *. lit (1 / 2 ^ 50) = n.currentDistance ∧
    n.currentSegmentDistance +. lit 1 *. lit (1 / 2 ^ 50) = n.currentSegmentDistance ∧
    n.currentTrackDistance +. lit 1 *. lit (1 / 2 ^ 50) = n.currentTrackDistance ∧
    n.currentRouteDistance +. lit 1 *. lit (1 / 2 ^ 50) = n.currentRouteDistance ∧ n.isFinish.2 = false := by
  have h : jumped.any (fun n => decide (n.routes.length = 1) && decide (n.routeIndex = 0) && n.skipOffline &&
      !n.curSeg.isEmpty && (n.currentSegmentDistance +. lit 1 *. lit (1 / 2 ^ 50) <=. n.curSeg.dist) &&
      decide (n.currentDistance +. lit 1 *. lit (1 / 2 ^ 50) = n.currentDistance) &&
      decide (n.currentSegmentDistance +. lit 1 *. lit (1 / 2 ^ 50) = n.currentSegmentDistance) &&
      decide (n.currentTrackDistance +. lit 1 *. lit (1 / 2 ^ 50) = n.currentTrackDistance) &&
      decide (n.currentRouteDistance +. lit 1 *. lit (1 / 2 ^ 50) = n.currentRouteDistance) && !n.isFinish.2) = true := by
    decide +kernel
  cases hj : jumped with
  | none => rw [hj] at h; cases h
  | some n =>
    rw [hj] at h
    simp only [Option.any_some, Bool.and_eq_true, decide_eq_true_eq, Bool.not_eq_true'] at h
    obtain ⟨⟨⟨⟨⟨⟨⟨⟨⟨a, b⟩, c⟩, d⟩, e⟩, f⟩, g⟩, i⟩, j⟩, k⟩ := h
    exact ⟨n, rfl, a, b, c, ⟨d, e⟩, f, g, i, j, k⟩

/-- **C12 fails in doubles for a fixed tick × speed**: after `DestinationTo(1000)` a device with a speed of `2 ^ -50` m/s, one metre in 36 million
years, drives for ever without completing the lap. -/
theorem claim_fails : ¬ Claim := by
  intro hc
  obtain ⟨n, -, h1, h2, h3, hf, c1, c2, c3, c4, h5⟩ := jumped_stuck
  obtain ⟨k, n', hk, hfin⟩ := hc n (by intro h; rw [h] at h1; cases h1) (by rw [h1, h2]; decide) (Or.inl h3)
    (fun _ => lit 1) (fun _ => lit (1 / 2 ^ 50)) (fun _ => 0) (1 / 2 ^ 51) (by norm_num) (fun _ => by
      show AtLeast (1 / 2 ^ 51) (lit 1 *. lit (1 / 2 ^ 50))
      have e : (lit 1 *. lit (1 / 2 ^ 50) : F64) = lit (1 / 2 ^ 50) := by decide +kernel
      rw [e]
      have hr : Round64.rndQ (1 / 2 ^ 50) = 1 / 2 ^ 50 := Round64.rndQ_rep 1 (-50) (by norm_num) (by norm_num) (by norm_num)
      obtain ⟨r, e⟩ := lit_exact hr (by
        rw [Round64.pow2_eq]
        exact lt_of_lt_of_le (by norm_num) (one_le_zpow₀ (by norm_num : (1 : ℚ) ≤ 2) (by norm_num : (0 : ℤ) ≤ 1024)))
      rw [e]
      show (1 : ℚ) / 2 ^ 51 ≤ 1 / 2 ^ 50
      norm_num)
  have hi : n.IndexOk := Or.inr (by rw [h1, h2]; decide)
  obtain ⟨r, hr, -⟩ := route_of_indexOk hi (by intro h; rw [h] at h1; cases h1)
  obtain ⟨m, hm, p, rfl⟩ := stuck n r hr h3 (lit 1) (lit (1 / 2 ^ 50)) hf c1 c2 c3 c4 k
  rw [hm] at hk
  cases hk
  have : ({ n with point := p } : Navigator F64).isFinish.2 = n.isFinish.2 := by
    unfold isFinish
    split <;> simp only [*]
  rw [this, h5] at hfin
  cases hfin

/-- Non-vacuity of the positive theorem: the same navigator finishes its lap with steps of 1 m. -/
example : ∃ n, jumped = some n ∧ ∃ k n', n.run (calls (fun _ => lit 1) (fun _ => lit 1) (fun _ => 0) k) = .ok n' ∧
    n'.isFinish.2 = true := by
  obtain ⟨n, hn, h1, h2, h3, -⟩ := jumped_stuck
  refine ⟨n, hn, ?_⟩
  have hall : jumped.all (fun n => n.routes.all fun r => r.tracks.all fun t => t.segments.all fun s =>
      s.dist <=. lit 1000000) = true := by decide +kernel
  have hcnt : jumped.all (fun n => lit 0 <=. n.currentSegmentDistance) = true := by decide +kernel
  rw [hn] at hall hcnt
  obtain ⟨rM, eM⟩ := lit_nat (q := 1000000) 1000000 (by norm_num) (by norm_num) (by norm_num)
  obtain ⟨r0, e0⟩ := lit_nat (q := 0) 0 (by norm_num) (by norm_num) (by norm_num)
  obtain ⟨r1, e1⟩ := lit_nat (q := 1) 1 (by norm_num) (by norm_num) (by norm_num)
  obtain ⟨k, m, n', -, hk, -, -, hfin⟩ := trip_finishes_large n (by intro h; rw [h] at h1; cases h1)
    (by rw [h1, h2]; decide) (Or.inl h3) 1000000 1 (by norm_num)
    ((zpow_le_zpow_right₀ (by norm_num : (1 : ℚ) ≤ 2) (by norm_num : (-1074 : ℤ) ≤ 0)).trans (by norm_num))
    (by
      intro r hr t ht s hs
      have := List.all_eq_true.mp (List.all_eq_true.mp (List.all_eq_true.mp hall r hr) t ht) s hs
      rw [eM] at this
      cases hd : s.dist with
      | nan => trivial
      | inf z =>
        rw [hd] at this
        cases z with
        | true => rfl
        | false => cases top_le this
      | fin z q rq =>
        rw [hd, fin_le, decide_eq_true_eq] at this
        exact this)
    (by
      have hcnt : ((lit 0 : F64) <=. n.currentSegmentDistance) = true := hcnt
      rw [e0] at hcnt
      cases hd : n.currentSegmentDistance with
      | nan => rw [hd, le_nan] at hcnt; cases hcnt
      | inf z =>
        rw [hd] at hcnt
        cases z with
        | true => cases le_bot hcnt
        | false => rfl
      | fin z q rq =>
        rw [hd, fin_le, decide_eq_true_eq] at hcnt
        exact hcnt)
    (fun _ => lit 1) (fun _ => lit 1) (fun _ => 0) (fun _ => by
      have e : (lit 1 *. lit 1 : F64) = lit 1 := by decide +kernel
      show AtLeast 1 (lit 1 *. lit 1)
      rw [e, e1]
      exact _root_.le_refl (1 : ℚ))
  exact ⟨k + 1, n', hk, hfin⟩

end Double
end C12
end GpsGen
