import Verif.Lemmas.DeviceReal
import Verif.Lemmas.Toy
/-!
# C30 The curve parameter stays in [0,1]

Exact arithmetic, for devices created by `NewDevice` and driven through any public operations with
non-negative ticks while every held route has positive length (`Device.Reach`). Division by a zero
average time, which happens when the length of the navigator is zero, is outside this claim.
-/

namespace GpsGen
namespace C30
open Device

/-- `Next` evaluates all curves of the device at `t`: the new speed is the speed at `t`, and when the
device moved, so are the new elevation and sensor values. -/
def EvaluatedAt (d d' : Device ℝ) (moved : Bool) (t : ℝ) : Prop :=
  ∃ speed, d.speed.next t = .ok speed ∧ d'.state.speed = speed.value ∧
    (moved = true → d'.speed = speed ∧ d.navigator.elevation.next t = .ok d'.navigator.elevation ∧
      d.sensors.mapM (fun s => s.next t) = .ok d'.sensors)

/-- The parameter of `Next`: the elapsed time, with the current tick counted twice, relative to the
average travel time. -/
theorem parameter_value (d d' : Device ℝ) (tick : ℝ) (rnd : NextRnd ℝ) (b : Bool)
    (hr : d.navigator.routes ≠ []) (hn : d.next tick rnd = .ok (d', b)) :
    EvaluatedAt d d' b (min ((d.state.duration + 2 * (d.tick.toNat + tick)) / d.avgT) 1) := by
  have he : min ((d.state.duration + 2 * (d.tick.toNat + tick)) / d.avgT) 1 =
      d.phase (d.seconds tick) := by
    unfold phase seconds
    simp only [real_add, real_div, real_lit, real_fmin, Rat.cast_one, Rat.cast_natCast]
    congr 2
    ring
  rw [he]
  cases next_outcome hn with
  | idle h => exact absurd h hr
  | halted _ n1 n2 speed h1 h2 h3 h4 => exact ⟨speed, h2, rfl, fun h => by cases h⟩
  | lap _ n1 n2 speed _ h1 h2 h3 h4 h5 =>
    refine ⟨speed, h2, ?_, fun h => by cases h⟩
    obtain ⟨st, hst, rfl⟩ := updateState_eq h5
    exact (nav_update_frame hst).2.2.2.2.2.1
  | moved _ n1 n2 n3 speed ss d2 _ h1 h2 h3 h4 h5 hd2 h6 =>
    obtain ⟨st, hst, rfl⟩ := updateState_eq h6
    have he : n1.elevation = d.navigator.elevation := by
      rcases powered_step h1 with rfl | h1
      · rfl
      · rcases Navigator.toOffline_cases h1 with ⟨-, rfl⟩ | ⟨_, _, _, rfl⟩ <;> rfl
    have he2 := (Navigator.nextLocation_routes h3).2.2.2
    rw [he] at he2
    unfold Navigator.nextElevation at h4
    obtain ⟨e, h4e, h4⟩ := bind_eq_ok h4
    cases h4
    rw [he2] at h4e
    have hst' := (nav_update_frame hst).2.2.2.2.2.1
    refine ⟨speed, h2, ?_, fun _ => ⟨?_, ?_, ?_⟩⟩
    · refine hst'.trans ?_
      split <;> (subst hd2; rfl)
    · show (if _ then _ else _ : Device ℝ).speed = speed
      split <;> (subst hd2; rfl)
    · rw [h4e]
      show _ = Except.ok (if _ then _ else _ : Device ℝ).navigator.elevation
      split <;> (subst hd2; rfl)
    · rw [h5]
      show _ = Except.ok (if _ then _ else _ : Device ℝ).sensors
      split <;> (subst hd2; rfl)

/-- Every `Next` on a device with routes evaluates the curves at one parameter in the unit interval. -/
theorem parameter_unit (d d' : Device ℝ) (tick : ℝ) (rnd : NextRnd ℝ) (b : Bool) (h : Reach d)
    (ht : 0 ≤ tick) (hr : d.navigator.routes ≠ []) (hn : d.next tick rnd = .ok (d', b)) :
    ∃ t, 0 ≤ t ∧ t ≤ 1 ∧ EvaluatedAt d d' b t := by
  have hi := reach_inv h
  refine ⟨_, le_min ?_ zero_le_one, min_le_right _ _, parameter_value d d' tick rnd b hr hn⟩
  have h1 := hi.avg hr
  have h2 := hi.dur
  positivity

/-- The division behind the parameter is by a positive number, so this is not an artefact of total
division. -/
theorem average_time_positive (d : Device ℝ) (h : Reach d) (hr : d.navigator.routes ≠ []) :
    0 < d.avgT ∧ 0 < d.navigator.distance ∧ 0 ≤ d.state.duration :=
  ⟨(reach_inv h).avg hr, (reach_inv h).nav.dist hr, (reach_inv h).dur⟩

/-! Non-vacuity: on rationals, a tick of a device whose average travel time is 1 evaluates the curves
at a parameter strictly inside the interval: the X value of the elevation is 7 times the parameter. -/

def moving : List (DevOp Toy) := [.addRoute [some Toy.route], .next (Toy.of (1/100)) Toy.nextRnd]

example : (Toy.dev moving).map (fun d => (d.state.duration.val, decide (0 < d.avgT.val),
    decide (0 < d.navigator.elevation.valX.val ∧ d.navigator.elevation.valX.val < 7),
    decide (d.navigator.elevation.valX.val = 7 * (2 / 100 / d.avgT.val)))) =
    some (1/100, true, true, true) := by decide +kernel

end C30
end GpsGen
