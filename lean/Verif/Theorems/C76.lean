import Verif.Model.Clock
import Verif.Model.GenRun
import Verif.Lemmas.Seconds
import Verif.Theorems.C34
/-!
# C76: simulated time follows the clock

Over ℝ, all runs. As stated the property is false: rounds that follow each other in less than a second count as a
second each, and if the generator is run some time after it was made, the time in between is counted twice. The
theorems say exactly when the ticks add up to the elapsed time, and that simulated time is never late.
-/

namespace GpsGen
namespace C76
open Device C34

/-! ## Specification -/

/-- A nanosecond count in seconds. -/
noncomputable def secs (ns : Int) : ℝ := (ns : ℝ) / 1000000000

/-- The time between two rounds, and between the start and the first round. -/
def gaps : Int → List Int → List Int
  | _, [] => []
  | last, t :: ts => (t - last) :: gaps t ts

/-- The time of the last round. -/
def lastTime (start : Int) (ts : List Int) : Int := ts.getLast?.getD start

/-- The full claim: whatever the times of the rounds, the ticks add up to the time since the start. -/
def Claim : Prop := ∀ (start : Int) (ts : List Int), (tickList start ts : List ℝ).sum = secs (lastTime start ts - start)

/-! ## Ticks -/

theorem tickOf_eq (last t : Int) : (tickOf last t : ℝ) = max 1 |secs (t - last)| := by
  unfold tickOf
  rw [durSeconds_real]
  have : GoFloat.abs (((last - t : Int) : ℝ) / 1000000000) = |secs (t - last)| := by
    show |((last - t : Int) : ℝ) / 1000000000| = _
    unfold secs
    rw [← abs_neg]
    congr 1
    push_cast
    ring
  rw [this]
  dsimp only
  by_cases h : |secs (t - last)| < 1
  · rw [if_pos (by simpa using h), max_eq_left h.le]; simp
  · rw [if_neg (by simpa using h), max_eq_right (not_lt.mp h)]

/-- A tick is at least a second. -/
theorem tick_ge_one (last t : Int) : 1 ≤ (tickOf last t : ℝ) := by rw [tickOf_eq]; exact le_max_left _ _

/-- A tick is at least the time that has passed. -/
theorem tick_ge_gap (last t : Int) : secs (t - last) ≤ (tickOf last t : ℝ) := by
  rw [tickOf_eq]; exact le_max_of_le_right (le_abs_self _)

/-- A tick is the time that has passed exactly if that is a second or more. -/
theorem tick_exact (last t : Int) : (tickOf last t : ℝ) = secs (t - last) ↔ 1000000000 ≤ t - last := by
  have h1 : (1 : ℝ) ≤ secs (t - last) ↔ 1000000000 ≤ t - last := by
    unfold secs
    rw [le_div_iff₀ (by norm_num), one_mul]
    exact_mod_cast Iff.rfl
  rw [← h1, tickOf_eq]
  constructor
  · intro h; rw [← h]; exact le_max_left _ _
  · intro h
    rw [abs_of_nonneg (by linarith), max_eq_right h]

/-! ## Runs -/

theorem secs_cons (start t : Int) (ts : List Int) :
    secs (lastTime start (t :: ts) - start) = secs (t - start) + secs (lastTime t ts - t) := by
  have : lastTime start (t :: ts) = lastTime t ts := by
    cases ts with
    | nil => rfl
    | cons a as => simp [lastTime, List.getLast?_cons]
  rw [this]
  unfold secs
  push_cast
  ring

/-- Simulated time is never late. -/
theorem never_late (start : Int) (ts : List Int) :
    secs (lastTime start ts - start) ≤ (tickList start ts : List ℝ).sum := by
  induction ts generalizing start with
  | nil => simp [lastTime, secs, tickList]
  | cons t ts ih =>
    rw [secs_cons, tickList, List.sum_cons]
    exact add_le_add (tick_ge_gap _ _) (ih t)

/-- Simulated time is the elapsed time exactly if every round comes a second or more after the one before, and the
first one a second or more after the start. -/
theorem exact_iff (start : Int) (ts : List Int) :
    (tickList start ts : List ℝ).sum = secs (lastTime start ts - start) ↔ ∀ g ∈ gaps start ts, 1000000000 ≤ g := by
  induction ts generalizing start with
  | nil => simp [lastTime, secs, tickList, gaps]
  | cons t ts ih =>
    rw [secs_cons, tickList, List.sum_cons, gaps, List.forall_mem_cons, ← ih t, ← tick_exact]
    have a := tick_ge_gap start t
    have b := never_late t ts
    constructor
    · intro h; exact ⟨by linarith, by linarith⟩
    · rintro ⟨h1, h2⟩; rw [h1, h2]

/-- **C76.** The part that holds. -/
theorem follows_clock_partial (start : Int) (ts : List Int) (h : ∀ g ∈ gaps start ts, 1000000000 ≤ g) :
    (tickList start ts : List ℝ).sum = secs (lastTime start ts - start) := (exact_iff start ts).mpr h

/-- The excess: what is missing to a second in every round, and twice the time by which a round lies before the last. -/
theorem excess (start : Int) (ts : List Int) :
    (tickList start ts : List ℝ).sum - secs (lastTime start ts - start)
      = ((gaps start ts).map fun g => max 1 |secs g| - secs g).sum := by
  induction ts generalizing start with
  | nil => simp [lastTime, secs, tickList, gaps]
  | cons t ts ih =>
    rw [secs_cons, tickList, List.sum_cons, gaps, List.map_cons, List.sum_cons, ← ih t, tickOf_eq]
    ring

/-- Rounds in less than a second: `n` rounds are `n` seconds of simulated time, however short they are. -/
theorem fast_rounds (start : Int) (ts : List Int) (h : ∀ g ∈ gaps start ts, 0 ≤ g ∧ g ≤ 1000000000) :
    (tickList start ts : List ℝ).sum = ts.length := by
  induction ts generalizing start with
  | nil => simp [tickList]
  | cons t ts ih =>
    rw [gaps, List.forall_mem_cons] at h
    have hs : |secs (t - start)| ≤ 1 := by
      have h0 : (0 : ℝ) ≤ ((t - start : Int) : ℝ) := by exact_mod_cast h.1.1
      have h1 : ((t - start : Int) : ℝ) ≤ 1000000000 := by exact_mod_cast h.1.2
      unfold secs
      rw [abs_of_nonneg (by positivity), div_le_one (by norm_num)]
      exact h1
    rw [tickList, List.sum_cons, ih t h.2, tickOf_eq, max_eq_left hs, List.length_cons]
    push_cast
    ring

/-- The first round of a generator that was made long before it was run is stale: it lies before the start. The time
between it and the start is counted twice. -/
theorem late_start (start t : Int) (ts : List Int) (hs : 1000000000 ≤ start - t)
    (h : ∀ g ∈ gaps t ts, 1000000000 ≤ g) :
    (tickList start (t :: ts) : List ℝ).sum = secs (lastTime start (t :: ts) - start) + 2 * secs (start - t) := by
  have e := excess start (t :: ts)
  have h2 : ((gaps t ts).map fun g => max 1 |secs g| - secs g).sum = 0 := by
    rw [← excess, follows_clock_partial t ts h, sub_self]
  rw [gaps, List.map_cons, List.sum_cons, h2] at e
  have h0 : 1 ≤ secs (start - t) := by
    unfold secs
    rw [le_div_iff₀ (by norm_num), one_mul]
    exact_mod_cast hs
  have hn : secs (t - start) = - secs (start - t) := by unfold secs; push_cast; ring
  rw [hn, abs_neg, abs_of_nonneg (by linarith), max_eq_right h0] at e
  linarith

/-- Neither exception needs unusual settings: `New` keeps intervals below a second. -/
theorem interval_kept (o : Run.Options) (cpus : Int) (h : 0 < o.interval) :
    (o.prepare cpus).interval = o.interval := by
  simp [Run.Options.prepare, Int.not_le.mpr h]

/-- Ten rounds of 100 ms are ten seconds. -/
example : (tickList 0 ((List.range 10).map fun k => ((k : Int) + 1) * 100000000) : List ℝ).sum = 10 :=
  fast_rounds 0 _ (by decide)

/-- Made at 0 s with the default interval, run at 10 s: when the next round comes at 12 s, two seconds after the start,
16 seconds have been simulated. -/
example : (tickList 10000000000 [3000000000, 12000000000] : List ℝ).sum = 16 := by
  rw [late_start 10000000000 3000000000 _ (by norm_num) (by decide)]
  norm_num [secs, lastTime]

theorem claim_fails : ¬ Claim := by
  intro h
  have := (exact_iff 0 [100000000]).mp (h 0 [100000000])
  revert this
  decide

/-! ## Devices -/

/-- The device has routes and does not come to the end of its trip in these rounds. -/
def Underway : Device ℝ → Int → List (Int × NextRnd ℝ) → Prop
  | _, _, [] => True
  | d, last, (t, rnd) :: rest => d.navigator.routes ≠ [] ∧ ¬ Finishes d (tickOf last t) rnd ∧
      ∀ r, d.next (tickOf last t) rnd = .ok r → Underway r.1 t rest

/-- The duration of a device that is underway grows by the sum of the ticks (and the seconds pending at the start). -/
theorem device_duration (d d' : Device ℝ) (start : Int) (rounds : List (Int × NextRnd ℝ)) (h0 : d.tick = 0)
    (hu : Underway d start rounds) (h : driveDevice d start rounds = .ok d') :
    d'.state.duration = d.state.duration + (tickList start (rounds.map (·.1)) : List ℝ).sum := by
  induction rounds generalizing d start with
  | nil => cases h; simp [tickList]
  | cons x rest ih =>
    obtain ⟨t, rnd⟩ := x
    obtain ⟨hr, hf, hu⟩ := hu
    obtain ⟨⟨d1, b⟩, h1, h2⟩ := bind_eq_ok h
    obtain ⟨a1, -, a3⟩ := next_time h1 hr
    have := ih d1 t a1 (hu _ h1) h2
    rw [this, a3 hf, h0, List.map_cons, tickList, List.sum_cons]
    simp [add_assoc]

/-- The duration of a device underway follows the clock. -/
theorem device_follows_clock_partial (d d' : Device ℝ) (start : Int) (rounds : List (Int × NextRnd ℝ)) (h0 : d.tick = 0)
    (hu : Underway d start rounds) (h : driveDevice d start rounds = .ok d')
    (hg : ∀ g ∈ gaps start (rounds.map (·.1)), 1000000000 ≤ g) :
    d'.state.duration = d.state.duration + secs (lastTime start (rounds.map (·.1)) - start) := by
  rw [device_duration d d' start rounds h0 hu h, follows_clock_partial _ _ hg]

end C76
end GpsGen
