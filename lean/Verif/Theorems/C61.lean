import Verif.Lemmas.DevicePub
import Verif.Lemmas.DeviceReal
import Verif.Lemmas.Toy
/-!
# C61: the curves of a device follow the elapsed fraction of its trip

Claim: one `Next` drains the battery, moves the device and evaluates the curves of speed, elevation and sensors for
one and the same elapsed time, and the curves are evaluated at the fraction `elapsed / trip time`, at most 1, where
the trip time is the total distance at the mean of the speed bounds.

The first part holds (`one_elapsed_time`, `one_parameter`), and so does the trip time (`trip_time`). The fraction is
wrong: `Next` adds the tick to the duration twice before dividing (`fraction_fails`), so that the curves run ahead
by one tick (`fraction_partial`).
-/

namespace GpsGen
variable {F : Type}

namespace C61
open Device

/-! ## Specification -/

/-- The length of a tick: the tick and one second for each call that found the device locked. -/
def length [GoFloat F] (d : Device F) (tick : F) : F := lit d.tick.toNat +. tick

/-- The trip time: total distance at mean speed. -/
def tripTime [GoFloat F] (d : Device F) : F := d.navigator.distance /. ((d.speed.min +. d.speed.max) /. lit 2)

/-- All curves were evaluated at `t`; elevation and sensors only if the device moved. -/
def EvaluatedAt [GoMath F] (d d' : Device F) (moved : Bool) (t : F) : Prop :=
  ∃ speed, d.speed.next t = .ok speed ∧ d'.state.speed = speed.value ∧
    (moved = true → d'.speed = speed ∧ d.navigator.elevation.next t = .ok d'.navigator.elevation ∧
      d.sensors.mapM (fun s => s.next t) = .ok d'.sensors)

/-- The fraction of the trip time. -/
noncomputable def fraction (elapsed trip : ℝ) : ℝ := min (elapsed / trip) 1

/-! ## Proof -/

/-- **C61, one parameter** (any number type). All curves are evaluated at the same parameter. -/
theorem one_parameter [GoMath F] (d d' : Device F) (tick : F) (rnd : NextRnd F) (b : Bool)
    (hr : d.navigator.routes ≠ []) (hn : d.next tick rnd = .ok (d', b)) :
    EvaluatedAt d d' b
      (GoMath.fmin ((d.state.duration +. length d tick +. length d tick) /. d.avgT) (lit 1)) := by
  show EvaluatedAt d d' b (d.phase (d.seconds tick))
  cases next_outcome hn with
  | idle h => exact absurd h hr
  | halted _ n1 n2 speed h1 h2 h3 h4 => exact ⟨speed, h2, rfl, fun h => by (cases h)⟩
  | lap _ n1 n2 speed _ h1 h2 h3 h4 h5 =>
    refine ⟨speed, h2, ?_, fun h => by (cases h)⟩
    obtain ⟨-, -, -, -, -, e, -⟩ := updateState_fresh h5
    exact e
  | moved _ n1 n2 n3 speed ss d2 _ h1 h2 h3 h4 h5 hd2 h6 =>
    obtain ⟨-, f1, -, f2, f3, f4, -⟩ := updateState_fresh h6
    have he : n1.elevation = d.navigator.elevation := by
      rcases powered_step h1 with rfl | h1
      · rfl
      · rcases Navigator.toOffline_cases h1 with ⟨-, rfl⟩ | ⟨_, _, _, rfl⟩ <;> rfl
    have he2 := (Navigator.nextLocation_routes h3).2.2.2
    rw [he] at he2
    unfold Navigator.nextElevation at h4
    obtain ⟨e, h4e, h4⟩ := bind_eq_ok h4
    cases h4
    rw [he2] at h4e
    refine ⟨speed, h2, ?_, fun _ => ⟨?_, ?_, ?_⟩⟩
    · rw [f4]; split <;> (subst hd2; rfl)
    · rw [f2]; split <;> (subst hd2; rfl)
    · rw [h4e, f1]; split <;> (subst hd2; rfl)
    · rw [h5, f3]; split <;> (subst hd2; rfl)

/-- **C61, one elapsed time** (any number type). Battery, odometers, published tick and published duration advance by
the same time; the pending time is used up. The duration restarts when a lap ends. -/
theorem one_elapsed_time [GoMath F] (d d' : Device F) (tick : F) (rnd : NextRnd F) (b : Bool)
    (hr : d.navigator.routes ≠ []) (hn : d.next tick rnd = .ok (d', b)) :
    d'.state.tick = length d tick ∧
    (d'.state.duration = d.state.duration +. length d tick ∨ b = false ∧ d'.state.duration = lit 0) ∧
    (d'.battery.val = d.battery.val +. length d tick ∨ d'.battery.val = lit 0) ∧
    (∃ n1 n2, (n1 = d.navigator ∨ d.navigator.toOffline rnd.low = .ok n1) ∧
      n1.nextLocation (length d tick) d'.state.speed rnd.loc = .ok (n2, b) ∧
      d'.navigator.point = n2.point ∧ (b = true → d'.navigator.currentDistance = n2.currentDistance)) ∧
    d'.tick = 0 := by
  have hbat : ∀ s, (d.drained s).val = d.battery.val +. s ∨ (d.drained s).val = lit 0 := by
    intro s
    unfold drained
    split
    · exact Or.inr rfl
    · exact Or.inl rfl
  have hfin : ∀ n : Navigator F, n.isFinish.1.point = n.point := by
    intro n; unfold Navigator.isFinish; split <;> rfl
  rw [show length d tick = d.seconds tick from rfl]
  cases next_outcome hn with
  | idle h => exact absurd h hr
  | halted _ n1 n2 speed h1 h2 h3 h4 =>
    exact ⟨rfl, Or.inl rfl, hbat _, ⟨n1, n2, powered_step h1, h3, hfin n2, fun h => by (cases h)⟩, rfl⟩
  | lap _ n1 n2 speed _ h1 h2 h3 h4 h5 =>
    obtain ⟨-, f1, f2, -, -, f5, f6, f7, f8, -⟩ := updateState_fresh h5
    rw [f1, f2, f5, f6, f7, f8]
    exact ⟨rfl, Or.inr ⟨rfl, rfl⟩, hbat _, ⟨n1, n2, powered_step h1, h3, hfin n2, fun h => by (cases h)⟩, rfl⟩
  | moved _ n1 n2 n3 speed ss d2 _ h1 h2 h3 h4 h5 hd2 h6 =>
    obtain ⟨-, f1, f2, -, -, f5, f6, f7, f8, -⟩ := updateState_fresh h6
    have e : (if d2.navigator.sum ≠ d2.ns then d2.updateRoutes else d2).state.tick = d.seconds tick ∧
        (if d2.navigator.sum ≠ d2.ns then d2.updateRoutes else d2).state.duration =
          d.state.duration +. d.seconds tick ∧
        (if d2.navigator.sum ≠ d2.ns then d2.updateRoutes else d2).battery = d.drained (d.seconds tick) ∧
        (if d2.navigator.sum ≠ d2.ns then d2.updateRoutes else d2).state.speed = speed.value ∧
        (if d2.navigator.sum ≠ d2.ns then d2.updateRoutes else d2).navigator.point = n3.point ∧
        (if d2.navigator.sum ≠ d2.ns then d2.updateRoutes else d2).navigator.currentDistance = n3.currentDistance ∧
        (if d2.navigator.sum ≠ d2.ns then d2.updateRoutes else d2).tick = 0 := by
      split <;> (subst hd2; exact ⟨rfl, rfl, rfl, rfl, rfl, rfl, rfl⟩)
    obtain ⟨g1, g2, g3, g4, g5, g6, g7⟩ := e
    rw [f1, f2, f5, f6, f7, f8, g1, g2, g3, g4, g5, g6, g7]
    unfold Navigator.nextElevation at h4
    obtain ⟨e, h4e, h4⟩ := bind_eq_ok h4
    cases h4
    exact ⟨rfl, Or.inl rfl, hbat _, ⟨n1, n2, powered_step h1, h3, rfl, fun _ => rfl⟩, rfl⟩

/-- **C61, trip time** (any number type). Accepted route operations, `Update`, restoring, and every `Next` that moves a
device whose routes changed since, make the trip time current. -/
theorem trip_time [GoMath F] (d : Device F) :
    (∀ rs, (d.addRoute rs).2 = none → (d.addRoute rs).1.avgT = tripTime (d.addRoute rs).1) ∧
    (∀ id, (d.removeRoute id).2 = true → (d.removeRoute id).1.avgT = tripTime (d.removeRoute id).1) ∧
    (∀ r t, (d.removeTrack r t).2 = true → (d.removeTrack r t).1.avgT = tripTime (d.removeTrack r t).1) ∧
    (d.resetRoutes.2 = true → d.resetRoutes.1.avgT = tripTime d.resetRoutes.1) ∧
    (∀ d', d.update = .ok d' → d'.avgT = tripTime d') ∧
    (∀ m d', d.fromSnapshot m = .ok d' → d'.avgT = tripTime d') ∧
    (∀ tick rnd d', d.next tick rnd = .ok (d', true) →
      d'.avgT = tripTime d' ∨ d'.avgT = d.avgT ∧ d.navigator.sum = d.ns) := by
  refine ⟨?_, ?_, ?_, ?_, ?_, ?_, ?_⟩
  · intro rs
    unfold Device.addRoute
    rcases d.navigator.addRoute rs with ⟨n, _ | e⟩
    · exact fun _ => rfl
    · exact fun h => by (cases h)
  · intro id
    unfold Device.removeRoute
    rcases d.navigator.removeRoute id with ⟨n, _ | _⟩
    · exact fun h => by (cases h)
    · exact fun _ => rfl
  · intro r t
    unfold Device.removeTrack
    rcases d.navigator.removeTrack r t with ⟨n, _ | _⟩
    · exact fun h => by (cases h)
    · exact fun _ => rfl
  · unfold Device.resetRoutes
    rcases d.navigator.resetRoutes with ⟨n, _ | _⟩
    · exact fun h => by (cases h)
    · exact fun _ => rfl
  · intro d' h
    obtain ⟨st, -, rfl⟩ := update_eq h
    rfl
  · intro m d' h
    obtain ⟨n, speed, battery, sensors, d1, -, -, -, -, -, rfl⟩ := fromSnapshotOnto_eq h
    rfl
  · intro tick rnd d' h
    cases next_outcome h with
    | moved hr n1 n2 n3 speed ss d2 _ h1 h2 h3 h4 h5 hd2 h6 =>
      obtain ⟨-, f1, -, f2, -, -, -, -, -, f3⟩ := updateState_fresh h6
      unfold tripTime
      rw [f1, f2, f3]
      by_cases hc : d2.navigator.sum ≠ d2.ns
      · rw [if_pos hc]
        exact Or.inl rfl
      · rw [if_neg hc]
        right
        have hc : d2.navigator.sum = d2.ns := Classical.byContradiction hc
        have hp : ∀ {s : F} {x : UInt32} {n : Navigator F}, d.powered s x = .ok n → n.sum = d.navigator.sum := by
          intro s x n hp
          rcases powered_step hp with rfl | hp
          · rfl
          · rcases Navigator.toOffline_cases hp with ⟨-, rfl⟩ | ⟨_, _, _, rfl⟩ <;> rfl
        have e2 : n2.sum = n1.sum := by
          obtain ⟨g1, -, g2, -⟩ := Navigator.nextLocation_routes h3
          unfold Navigator.sum
          rw [g1, g2]
        have e3 : n3.sum = n2.sum := by
          unfold Navigator.nextElevation at h4
          obtain ⟨e, -, h4⟩ := bind_eq_ok h4
          cases h4
          rfl
        subst hd2
        exact ⟨rfl, (e3.trans (e2.trans (hp h1))).symm.trans hc⟩

theorem param_real (d : Device ℝ) (tick : ℝ) :
    GoMath.fmin ((d.state.duration +. length d tick +. length d tick) /. d.avgT) (lit 1) =
      fraction (d.state.duration + length d tick + length d tick) d.avgT := by
  unfold fraction
  simp only [real_add, real_div, real_lit, real_fmin, Rat.cast_one]

/-- **C61 (partial).** The curves are evaluated at the fraction one tick ahead of the elapsed time; it is the
elapsed fraction exactly when the tick is zero or the trip time has passed. Missing for the full claim: the elapsed
fraction itself (`fraction_fails`). -/
theorem fraction_partial (d d' : Device ℝ) (tick : ℝ) (rnd : NextRnd ℝ) (b : Bool) (h : Reach d) (ht : 0 ≤ tick)
    (hr : d.navigator.routes ≠ []) (hn : d.next tick rnd = .ok (d', b)) :
    EvaluatedAt d d' b (fraction (d.state.duration + length d tick + length d tick) d.avgT) ∧
    fraction (d.state.duration + length d tick) d.avgT ≤
      fraction (d.state.duration + length d tick + length d tick) d.avgT ∧
    (fraction (d.state.duration + length d tick) d.avgT =
      fraction (d.state.duration + length d tick + length d tick) d.avgT ↔
      length d tick = 0 ∨ d.avgT ≤ d.state.duration + length d tick) := by
  have h1 := one_parameter d d' tick rnd b hr hn
  rw [param_real] at h1
  have ha := (reach_inv h).avg hr
  have hs : 0 ≤ length d tick := seconds_nonneg d ht
  refine ⟨h1, ?_, ?_⟩
  · unfold fraction
    exact min_le_min_right 1 (div_le_div_of_nonneg_right (by linarith) ha.le)
  · unfold fraction
    constructor
    · intro he
      by_contra hc
      push Not at hc
      obtain ⟨hc1, hc2⟩ := hc
      have hpos : 0 < length d tick := lt_of_le_of_ne hs (Ne.symm hc1)
      have l1 : (d.state.duration + length d tick) / d.avgT < 1 := (div_lt_one ha).mpr hc2
      rw [min_eq_left l1.le] at he
      have l2 : (d.state.duration + length d tick) / d.avgT <
          (d.state.duration + length d tick + length d tick) / d.avgT :=
        div_lt_div_of_pos_right (by linarith) ha
      exact absurd he (ne_of_lt (lt_min l2 l1))
    · rintro (h0 | h0)
      · rw [h0]; ring_nf
      · have l1 : 1 ≤ (d.state.duration + length d tick) / d.avgT := (one_le_div ha).mpr h0
        have l2 : 1 ≤ (d.state.duration + length d tick + length d tick) / d.avgT :=
          (one_le_div ha).mpr (by linarith)
        rw [min_eq_right l1, min_eq_right l2]

/-- The parameter can be read off the horizontal value of the elevation. -/
theorem parameter_unique {d d' : Device ℝ} (h : Reach d) {t u : ℝ} (h1 : EvaluatedAt d d' true t)
    (h2 : EvaluatedAt d d' true u) (hx : d'.navigator.elevation.valX ≠ 0) : t = u := by
  obtain ⟨⟨k, hk⟩, -, -⟩ := (reach_inv h).nav.elev
  have key : ∀ {v : ℝ}, EvaluatedAt d d' true v → d'.navigator.elevation.valX = k * v := by
    rintro v ⟨_, -, -, hv⟩
    obtain ⟨-, he, -⟩ := hv rfl
    obtain ⟨g, p, hp, e⟩ := sensor_next_eq he
    rw [e]
    exact (good_point hk hp).2.2.2.2.1
  have e1 := key h1
  have e2 := key h2
  have hk0 : (k : ℝ) ≠ 0 := by
    rintro hk0
    rw [hk0, zero_mul] at e1
    exact hx e1
  exact mul_left_cancel₀ hk0 (e1.symm.trans e2)

/-- **The claimed fraction is wrong** for every device that moves by a positive tick before the trip time has passed:
its curves are not evaluated at the elapsed fraction. (The horizontal value of the elevation is zero only as long as
it was never evaluated at a positive parameter.) -/
theorem fraction_fails (d d' : Device ℝ) (tick : ℝ) (rnd : NextRnd ℝ) (h : Reach d) (ht : 0 < tick)
    (hr : d.navigator.routes ≠ []) (hn : d.next tick rnd = .ok (d', true))
    (hl : d.state.duration + length d tick < d.avgT) (hx : d'.navigator.elevation.valX ≠ 0) :
    ¬ EvaluatedAt d d' true (fraction (d.state.duration + length d tick) d.avgT) := by
  obtain ⟨h1, h2, h3⟩ := fraction_partial d d' tick rnd true h ht.le hr hn
  intro hc
  rcases h3.mp (parameter_unique h hc h1 hx) with h0 | h0
  · have : (0 : ℝ) < d.tick.toNat + tick := by positivity
    have e : length d tick = d.tick.toNat + tick := by
      unfold length; simp only [real_add, real_lit, Rat.cast_natCast]
    linarith
  · linarith

/-! ## Concrete cases -/

/-- A device that moved once. The horizontal value of the elevation curve is 7 times the parameter: twice the elapsed
fraction. -/
def moving : Option (Device Toy) := Toy.dev [.addRoute [some Toy.route], .skipTick, .next (Toy.of (1/100)) Toy.nextRnd]

example : (Toy.dev [.addRoute [some Toy.route]]).map (fun d => decide (d.avgT.val = d.navigator.distance.val / 2 ∧
    0 < d.avgT.val)) = some true := by decide +kernel

example : moving.map (fun d => (d.state.duration.val, d.state.tick.val, d.battery.val.val,
    d.navigator.currentDistance.val)) = some (101/100, 101/100, 101/100, 202/100) := by decide +kernel

example : moving.map (fun d => decide (d.navigator.elevation.valX.val =
    7 * min (2 * d.state.duration.val / d.avgT.val) 1)) = some true := by decide +kernel

end C61
end GpsGen
