import Verif.Theorems.C30
/-!
# C28, continued: sensors and elevation of a device

Exact arithmetic, for devices of `Device.Reach` (created by `NewDevice`, driven through any public
operations with sensible arguments, routes of positive length).
-/

namespace GpsGen
namespace C28
open Device

/-- Between the two bounds, whichever is smaller. -/
def Between (a b v : ℝ) : Prop := min a b ≤ v ∧ v ≤ max a b

theorem update_elevation {F : Type} [GoMath F] {n : Navigator F} {s s' : DevState F}
    (h : n.update s = .ok s') : s'.loc.elevation = n.elevation.valY := by
  unfold Navigator.update at h
  obtain ⟨_, _, h⟩ := bind_eq_ok h
  obtain ⟨_, _, h⟩ := bind_eq_ok h
  obtain ⟨_, _, h⟩ := bind_eq_ok h
  obtain ⟨_, _, h⟩ := bind_eq_ok h
  obtain ⟨_, _, h⟩ := bind_eq_ok h
  obtain ⟨_, _, h⟩ := bind_eq_ok h
  cases h
  rfl

theorem pubSensors_values {F : Type} (old : List (SensorPub F)) (ss : List (Sensor F)) :
    (pubSensors old ss).map (·.valY) = ss.map (·.valY) := by
  unfold pubSensors
  split
  · simp [Function.comp_def]
  · rename_i h
    replace h : ss.length = old.length := Classical.byContradiction h
    induction ss generalizing old with
    | nil => simp
    | cons a ss ih =>
      cases old with
      | nil => simp at h
      | cons p old =>
        simp only [List.length_cons, Nat.add_right_cancel_iff] at h
        rw [List.zipWith_cons_cons, List.map_cons, List.map_cons, ih old h]

/-- After every `Next` that moves the device its elevation and all its sensor values are within their
bounds, and these are the published values. -/
theorem device_values (d d' : Device ℝ) (tick : ℝ) (rnd : NextRnd ℝ) (h : Reach d) (ht : 0 ≤ tick)
    (hn : d.next tick rnd = .ok (d', true)) :
    Between d'.navigator.elevation.min d'.navigator.elevation.max d'.navigator.elevation.valY ∧
    (∀ s ∈ d'.sensors, Between s.min s.max s.valY) ∧
    d'.state.loc.elevation = d'.navigator.elevation.valY ∧
    d'.state.sensors.map (·.valY) = d'.sensors.map (·.valY) := by
  have hi := reach_inv h
  have hr : d.navigator.routes ≠ [] := by
    cases next_outcome hn with
    | moved hr => exact hr
  obtain ⟨t, t0, t1, speed, -, -, hm⟩ := C30.parameter_unit d d' tick rnd true h ht hr hn
  obtain ⟨-, he, hs⟩ := hm rfl
  refine ⟨?_, fun s hs' => (mapM_next_good hi.sensors hs s hs').2 t0 t1, ?_⟩
  · obtain ⟨-, p2, p3, p4⟩ := sensor_next_good hi.nav.elev he
    unfold Between
    rw [p2, p3]
    exact p4 t0 t1
  · cases next_outcome hn with
    | moved _ _ _ _ _ _ d2 _ _ _ _ _ _ _ h6 =>
      obtain ⟨st, hst, rfl⟩ := updateState_eq h6
      exact ⟨(show st.loc.elevation = _ from update_elevation hst), pubSensors_values _ _⟩

/-- The bounds themselves never change by ticking: they are those before the tick. -/
theorem device_bounds (d d' : Device ℝ) (tick : ℝ) (rnd : NextRnd ℝ) (b : Bool)
    (hn : d.next tick rnd = .ok (d', b)) :
    d'.navigator.elevation.min = d.navigator.elevation.min ∧
    d'.navigator.elevation.max = d.navigator.elevation.max ∧
    d'.sensors.map (fun s => (s.min, s.max)) = d.sensors.map (fun s => (s.min, s.max)) := by
  have hmap : ∀ (t : ℝ) (l l' : List (Sensor ℝ)), l.mapM (fun s => s.next t) = .ok l' →
      l'.map (fun s => (s.min, s.max)) = l.map (fun s => (s.min, s.max)) := by
    intro t l
    induction l with
    | nil => intro l' hl; cases hl; rfl
    | cons a l ih =>
      intro l' hl
      rw [List.mapM_cons] at hl
      obtain ⟨b, hb, hl⟩ := bind_eq_ok hl
      obtain ⟨bs, hbs, hl⟩ := bind_eq_ok hl
      cases hl
      obtain ⟨g, p, -, rfl⟩ := sensor_next_eq hb
      rw [List.map_cons, List.map_cons, ih _ hbs]
  have hpow : ∀ {s : ℝ} {x : UInt32} {n : Navigator ℝ}, d.powered s x = .ok n →
      n.elevation = d.navigator.elevation := by
    intro s x n hp
    rcases powered_step hp with rfl | hp
    · rfl
    · rcases Navigator.toOffline_cases hp with ⟨-, rfl⟩ | ⟨_, _, _, rfl⟩ <;> rfl
  have hfin : ∀ n : Navigator ℝ, n.isFinish.1.elevation = n.elevation := by
    intro n; unfold Navigator.isFinish; split <;> rfl
  cases next_outcome hn with
  | idle => exact ⟨rfl, rfl, rfl⟩
  | halted _ n1 n2 speed h1 h2 h3 h4 =>
    have e : n2.isFinish.1.elevation = d.navigator.elevation :=
      (hfin n2).trans (((Navigator.nextLocation_routes h3).2.2.2).trans (hpow h1))
    exact ⟨congrArg Sensor.min e, congrArg Sensor.max e, rfl⟩
  | lap _ n1 n2 speed _ h1 h2 h3 h4 h5 =>
    have e : n2.isFinish.1.elevation = d.navigator.elevation :=
      (hfin n2).trans (((Navigator.nextLocation_routes h3).2.2.2).trans (hpow h1))
    obtain ⟨st, -, rfl⟩ := updateState_eq h5
    have e1 := congrArg Sensor.min e
    have e2 := congrArg Sensor.max e
    refine ⟨e1, e2, ?_⟩
    show (shuffleSensors d.sensors rnd.sensor).map _ = _
    unfold shuffleSensors
    apply List.ext_getElem
    · simp
    · intro i h1 h2
      simp [Sensor.shuffle]
  | moved _ n1 n2 n3 speed ss d2 _ h1 h2 h3 h4 h5 hd2 h6 =>
    obtain ⟨st, -, rfl⟩ := updateState_eq h6
    have e := (((Navigator.nextLocation_routes h3).2.2.2).trans (hpow h1))
    unfold Navigator.nextElevation at h4
    obtain ⟨el, h4e, h4⟩ := bind_eq_ok h4
    cases h4
    obtain ⟨g, p, -, rfl⟩ := sensor_next_eq h4e
    subst hd2
    have e1 := congrArg Sensor.min e
    have e2 := congrArg Sensor.max e
    refine ⟨?_, ?_, ?_⟩
    · show (if _ then _ else _ : Device ℝ).navigator.elevation.min = _
      split <;> exact e1
    · show (if _ then _ else _ : Device ℝ).navigator.elevation.max = _
      split <;> exact e2
    · show (if _ then _ else _ : Device ℝ).sensors.map _ = _
      split <;> exact hmap _ _ _ h5

/-! Non-vacuity: a moving device on rationals with a sensor; both values are strictly inside. -/

def withSensor : Option (Device Toy) :=
  match Sensor.new "s" (fun _ => Toy.of (1/2)) "temp" (Toy.of 1) (Toy.of 5) 4 0 with
  | .ok s => Toy.dev [.addRoute [some Toy.route], .addSensor [some s], .next (Toy.of (1/100)) Toy.nextRnd]
  | .error _ => none

example : withSensor.map (fun d => d.sensors.map fun s => decide (1 < s.valY.val ∧ s.valY.val < 5)) =
    some [true] := by decide +kernel

end C28
end GpsGen
