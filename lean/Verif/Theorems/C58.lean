import Verif.Model.DeviceRead
import Verif.Lemmas.Toy
import Verif.Theorems.C24
/-!
# C58: a snapshot taken while the device is in use is one of its states

Any number type. `Snapshot` takes the read lock only to copy the sensors, after it has read everything else and
allocated the array for them. The claim is therefore false: with changes in between the parts belong to different
moments (`torn_snapshot`), a sensor added in between makes `Snapshot` panic (`added_sensor_panics`), and one removed in
between leaves a snapshot that cannot be decoded (`removed_sensor_undecodable`). `consistent_partial` covers use of
the device that does not change the snapshot; `parts`, `returns_iff` and `decodes_iff_partial` say exactly what happens
in general.
-/

namespace GpsGen
variable {F : Type}

namespace C58
open C24

/-! ## Specification -/

/-- The states a device goes through while others use it. -/
def History [GoMath F] : List (Device F) → Prop
  | [] => False
  | [_] => True
  | d :: d' :: ds => (∃ op, d.step op = .ok d') ∧ History (d' :: ds)

/-- The moments belong to these states, in order. -/
def During (hist : List (Device F)) (m : SnapMoments F) : Prop :=
  ∃ a b c d e f : Nat, a ≤ b ∧ b ≤ c ∧ c ≤ d ∧ d ≤ e ∧ e ≤ f ∧
    hist[a]? = some m.fields ∧ hist[b]? = some m.navigator ∧ hist[c]? = some m.speed ∧
    hist[d]? = some m.battery ∧ hist[e]? = some m.count ∧ hist[f]? = some m.sensors

/-- The claim: `Snapshot` returns the snapshot of one of the states. -/
def Atomic [GoFloat F] (hist : List (Device F)) (m : SnapMoments F) : Prop :=
  ∃ d ∈ hist, m.snapshot = .ok d.snapshot

/-! ## What is returned -/

/-- **C58, exact panic condition.** `Snapshot` returns unless sensors were added after the array was allocated. -/
theorem returns_iff [GoFloat F] (m : SnapMoments F) :
    Returns m.snapshot ↔ m.count.sensors = [] ∨ m.sensors.sensors.length ≤ m.count.sensors.length := by
  have hs : Returns m.snapshot ↔ Returns (snapSensors m.count.sensors.length m.sensors.sensors) := by
    unfold SnapMoments.snapshot
    rw [returns_bind]
    exact ⟨fun ⟨a, h, _⟩ => ⟨a, h⟩, fun ⟨a, h⟩ => ⟨a, h, _, rfl⟩⟩
  rw [hs]
  unfold snapSensors
  split
  · rename_i h
    exact ⟨fun _ => Or.inl (List.length_eq_zero_iff.mp h), fun _ => ⟨_, rfl⟩⟩
  · rename_i h
    split
    · rename_i h2; exact ⟨fun _ => Or.inr h2, fun _ => ⟨_, rfl⟩⟩
    · rename_i h2
      constructor
      · rintro ⟨a, ha⟩; cases ha
      · rintro (h3 | h3)
        · rw [h3] at h; exact absurd rfl h
        · exact absurd h3 h2

/-- **C58, parts.** Each part of the snapshot is that of the moment it was read at; the status is always 2, "stopped". -/
theorem parts [GoFloat F] (m : SnapMoments F) (s : SnapMsg F) (h : m.snapshot = .ok s) :
    (s.id, s.userId, s.tick, s.duration, s.model, s.descr, s.color) =
      (m.fields.state.id, m.fields.state.userId, m.fields.state.tick, m.fields.state.duration,
        m.fields.state.model, m.fields.state.description, m.fields.state.color) ∧
    s.status = 2 ∧ s.navigator = m.navigator.snapshot.navigator ∧ s.speed = m.speed.snapshot.speed ∧
    s.battery = m.battery.snapshot.battery ∧ s.sensors.length = m.count.sensors.length ∧
    (m.count.sensors.length = m.sensors.sensors.length → s.sensors = m.sensors.snapshot.sensors) := by
  obtain ⟨l, h1, h2⟩ := bind_eq_ok h
  cases h2
  refine ⟨rfl, rfl, rfl, rfl, rfl, ?_⟩
  unfold snapSensors at h1
  split at h1
  · rename_i hz
    cases h1
    refine ⟨hz.symm, fun he => ?_⟩
    rw [hz] at he
    show [] = m.sensors.sensors.map Sensor.snapshot
    rw [List.length_eq_zero_iff.mp he.symm]
    rfl
  · split at h1
    · rename_i hle
      cases h1
      refine ⟨by simp; omega, fun he => ?_⟩
      show _ ++ _ = m.sensors.sensors.map Sensor.snapshot
      rw [he, Nat.sub_self, List.replicate_zero, List.append_nil]
    · cases h1

/-- The snapshot of a device nobody uses meanwhile. -/
theorem still_snapshot [GoFloat F] (d : Device F) : (SnapMoments.still d).snapshot = .ok d.snapshot := by
  unfold SnapMoments.snapshot SnapMoments.still snapSensors
  cases hs : d.sensors with
  | nil => simp only [List.length_nil, if_true, ok_bind]; unfold Device.snapshot; rw [hs]; rfl
  | cons s ss =>
    rw [if_neg (by simp), if_pos (Nat.le_refl _), Nat.sub_self, List.replicate_zero, List.append_nil]
    unfold Device.snapshot
    rw [hs]
    rfl

/-- **C58.** If nothing that happens meanwhile changes the snapshot, in particular if nothing happens, the claim holds.
Missing for the full property: everything else, see the negations below. -/
theorem consistent_partial [GoFloat F] (hist : List (Device F)) (m : SnapMoments F) (hm : During hist m)
    (s : SnapMsg F) (hs : ∀ d ∈ hist, d.snapshot = s) : Atomic hist m := by
  obtain ⟨a, b, c, d, e, f, -, -, -, -, -, h1, h2, h3, h4, h5, h6⟩ := hm
  have g1 := hs _ (List.mem_of_getElem? h1)
  have g2 := hs _ (List.mem_of_getElem? h2)
  have g3 := hs _ (List.mem_of_getElem? h3)
  have g4 := hs _ (List.mem_of_getElem? h4)
  have g5 := hs _ (List.mem_of_getElem? h5)
  have g6 := hs _ (List.mem_of_getElem? h6)
  have hlen : m.sensors.sensors.length = m.count.sensors.length := by
    have := congrArg (fun x : SnapMsg F => x.sensors.length) (g6.trans g5.symm)
    simpa [Device.snapshot] using this
  refine ⟨m.fields, List.mem_of_getElem? h1, ?_⟩
  obtain ⟨r, hr⟩ := (returns_iff m).mpr (Or.inr (by omega))
  rw [hr]
  obtain ⟨p1, p2, p3, p4, p5, -, p6⟩ := parts m r hr
  have p7 := p6 hlen.symm
  clear p6
  rw [g2, ← g1] at p3
  rw [g3, ← g1] at p4
  rw [g4, ← g1] at p5
  rw [g6, ← g1] at p7
  obtain ⟨x1, x2, x3, x4, x5, x6, x7, x8, x9, x10, x11, x12⟩ := r
  simp only [Prod.mk.injEq] at p1 p2 p3 p4 p5 p7
  obtain ⟨q1, q2, q3, q4, q5, q6, q7⟩ := p1
  subst q1 q2 q3 q4 q5 q6 q7 p2 p3 p4 p5 p7
  rfl

/-- Skipped ticks, for instance, do not change the snapshot. -/
theorem skipTick_snapshot [GoFloat F] (d : Device F) : d.skipTick.snapshot = d.snapshot := rfl

/-- **C58, exact decoding condition.** For navigators with a route index in range, the snapshot decodes unless sensors
were removed after the array was allocated. -/
theorem decodes_iff_partial [GoMath F] (m : SnapMoments F) (s : SnapMsg F) (h : m.snapshot = .ok s)
    (hi : m.navigator.navigator.routes = [] ∨ (0 ≤ m.navigator.navigator.routeIndex ∧
      m.navigator.navigator.routeIndex < m.navigator.navigator.routes.length)) :
    Returns (decodeTracker s) ↔ m.count.sensors.length ≤ m.sensors.sensors.length ∨ m.count.sensors = [] := by
  rw [decodeTracker_iff_partial]
  obtain ⟨l, h1, h2⟩ := bind_eq_ok h
  cases h2
  have hnav := (snapshot_complete m.navigator hi).1
  have hcurve : ∀ c : Curve F, CurveComplete (some c.snapshot) := by
    intro c
    refine ⟨_, rfl, ?_⟩
    intro p hp
    obtain ⟨q, _, rfl⟩ := List.mem_map.mp hp
    exact ⟨by simp, by simp⟩
  refine Iff.trans (b := ∀ s ∈ l, CurveComplete s.gen)
    ⟨fun hc => hc.2.2.2, fun hl => ⟨hnav, ⟨_, rfl, hcurve m.speed.speed.gen⟩, by simp, hl⟩⟩ ?_
  unfold snapSensors at h1
  split at h1
  · rename_i hz
    cases h1
    exact ⟨fun _ => Or.inr (List.length_eq_zero_iff.mp hz), fun _ s hs => absurd hs (by simp)⟩
  · rename_i hz
    split at h1
    · rename_i hle
      cases h1
      constructor
      · intro hall
        left
        refine Nat.le_of_not_lt fun hlt => ?_
        obtain ⟨c, hc, -⟩ := hall (SensorMsg.empty) (List.mem_append_right _ (List.mem_replicate.mpr ⟨by omega, rfl⟩))
        cases hc
      · rintro (hge | hnil) s hs
        · rw [show m.count.sensors.length - m.sensors.sensors.length = 0 by omega, List.replicate_zero,
            List.append_nil] at hs
          obtain ⟨x, -, rfl⟩ := List.mem_map.mp hs
          exact hcurve x.gen
        · rw [hnil] at hz
          exact absurd rfl hz
    · cases h1

/-! ## The full claim is false -/

/-- A change of the fields, then one of the navigator, both after the fields were read. -/
theorem torn_general [GoMath F] (d e f : Device F) (op op' : DevOp F) (h : d.step op = .ok e) (h' : e.step op' = .ok f)
    (hd : d.state.description ≠ e.state.description) (hd' : d.state.description ≠ f.state.description)
    (hn : d.navigator.snapshot ≠ f.navigator.snapshot) (hc : e.sensors.length = f.sensors.length) :
    History [d, e, f] ∧ During [d, e, f] ⟨d, f, f, f, f, f⟩ ∧ Returns (⟨d, f, f, f, f, f⟩ : SnapMoments F).snapshot ∧
    ¬ Atomic [d, e, f] ⟨d, f, f, f, f, f⟩ := by
  refine ⟨⟨⟨_, h⟩, ⟨_, h'⟩, trivial⟩,
    ⟨0, 2, 2, 2, 2, 2, by omega, by omega, by omega, by omega, by omega, rfl, rfl, rfl, rfl, rfl, rfl⟩,
    (returns_iff _).mpr (Or.inr (Nat.le_refl _)), ?_⟩
  rintro ⟨x, hx, hs⟩
  obtain ⟨p1, -, p2, -⟩ := parts _ _ hs
  simp only [Prod.mk.injEq] at p1
  have q1 : x.state.description = d.state.description := p1.2.2.2.2.2.1
  have q2 : x.navigator.snapshot = f.navigator.snapshot := Option.some.inj p2
  simp only [List.mem_cons, List.not_mem_nil, or_false] at hx
  rcases hx with rfl | rfl | rfl
  · exact hn q2
  · exact hd q1.symm
  · exact hd' q1.symm

/-- **C58, negation: torn snapshots.** On any device with routes: `SetDescription` and then `ResetRoutes`, both after
the fields were read, give a snapshot with the old description and no routes, which the device never had. -/
theorem torn_snapshot [GoMath F] (d : Device F) (hr : d.navigator.routes ≠ []) :
    ∃ (hist : List (Device F)) (m : SnapMoments F), hist.head? = some d ∧ History hist ∧ During hist m ∧
      Returns m.snapshot ∧ ¬ Atomic hist m := by
  obtain ⟨s, hs⟩ : ∃ s, d.state.description ≠ s :=
    ⟨d.state.description ++ "x", fun h => absurd (congrArg String.length h) (by simp)⟩
  have hlen : ¬ d.navigator.routes.length = 0 := fun h => hr (List.length_eq_zero_iff.mp h)
  refine ⟨[d, d.setDescription s, (d.setDescription s).resetRoutes.1], _, rfl,
    torn_general d (d.setDescription s) (d.setDescription s).resetRoutes.1 (.setDescription s) .resetRoutes
      rfl rfl hs ?_ ?_ ?_⟩
  all_goals
    unfold Device.resetRoutes Navigator.resetRoutes
    rw [if_neg (show ¬ (d.setDescription s).navigator.routes.length = 0 from hlen)]
  · exact hs
  · intro h
    exact hr (List.map_eq_nil_iff.mp (congrArg NavMsg.routes h))
  · rfl

/-- **C58, negation: panic.** On any device with a sensor: if a new sensor is added before the lock is taken,
`Snapshot` panics. -/
theorem added_sensor_panics [GoMath F] (d : Device F) (hd : d.sensors ≠ []) (s : Sensor F)
    (hs : ∀ x ∈ d.sensors, x.id ≠ s.id) :
    ∃ (hist : List (Device F)) (m : SnapMoments F), hist.head? = some d ∧ History hist ∧ During hist m ∧
      ¬ Returns m.snapshot := by
  refine ⟨[d, d.addSensor [some s]], ⟨d, d, d, d, d, d.addSensor [some s]⟩, rfl, ⟨⟨.addSensor [some s], rfl⟩, trivial⟩,
    ⟨0, 0, 0, 0, 0, 1, by omega, by omega, by omega, by omega, by omega, rfl, rfl, rfl, rfl, rfl, rfl⟩, ?_⟩
  have hno : Device.hasSensor d.sensors s.id = false := by
    unfold Device.hasSensor
    rw [List.any_eq_false]
    intro x hx
    simpa using hs x hx
  have hadd : (d.addSensor [some s]).sensors = d.sensors ++ [s] := by
    simp only [Device.addSensor, Device.addSensors, hno]
    rfl
  rw [returns_iff]
  rintro (h | h)
  · exact hd h
  · simp only [hadd, List.length_append, List.length_singleton] at h
    omega

/-- **C58, negation: undecodable snapshot.** On any device with a sensor and a route index in range: if the sensors
are removed before the lock is taken, `Snapshot` returns, but decoding the result panics. -/
theorem removed_sensor_undecodable [GoMath F] (d : Device F) (hd : d.sensors ≠ [])
    (hi : d.navigator.routes = [] ∨ (0 ≤ d.navigator.routeIndex ∧
      d.navigator.routeIndex < d.navigator.routes.length)) :
    ∃ (hist : List (Device F)) (m : SnapMoments F) (s : SnapMsg F), hist.head? = some d ∧ History hist ∧
      During hist m ∧ m.snapshot = .ok s ∧ ¬ Returns (decodeTracker s) := by
  obtain ⟨s, hs⟩ := (returns_iff (⟨d, d, d, d, d, d.resetSensors⟩ : SnapMoments F)).mpr (Or.inr (Nat.zero_le _))
  refine ⟨[d, d.resetSensors], ⟨d, d, d, d, d, d.resetSensors⟩, s, rfl, ⟨⟨.resetSensors, rfl⟩, trivial⟩,
    ⟨0, 0, 0, 0, 0, 1, by omega, by omega, by omega, by omega, by omega, rfl, rfl, rfl, rfl, rfl, rfl⟩, hs, ?_⟩
  rw [decodes_iff_partial _ s hs hi]
  rintro (h | h)
  · exact hd (List.length_eq_zero_iff.mp (Nat.le_zero.mp h))
  · exact hd h

/-! ## Concrete cases -/

/-- A sensor with the given id. -/
def sensor (id : String) : Option (Sensor Toy) :=
  match Sensor.restore (some id) (fun _ => Toy.of 0) "s" (Toy.of 0) (Toy.of 1) 4 0 with
  | .ok s => some s
  | .error _ => none

/-- A device with a route and a sensor. -/
def base : Option (Device Toy) := Toy.dev [.addRoute [some Toy.route], .addSensor [sensor "a"]]

/-- The device after one more operation. -/
def after (d : Device Toy) (op : DevOp Toy) : Option (Device Toy) :=
  match d.step op with
  | .ok d' => some d'
  | .error _ => none

/-- A `Next` between the readings: the snapshot differs from that before and that after. -/
def tornTest : Bool :=
  match base with
  | none => false
  | some d => match after d (.next (Toy.of 1) Toy.nextRnd) with
    | none => false
    | some e => match (⟨d, e, e, e, e, e⟩ : SnapMoments Toy).snapshot with
      | .error _ => false
      | .ok s => decide (s ≠ d.snapshot) && decide (s ≠ e.snapshot)

example : tornTest = true := by decide +kernel

/-- The hypotheses of the negations hold of the device above. -/
def baseTest : Bool :=
  match base with
  | none => false
  | some d => decide (d.navigator.routes ≠ [] ∧ d.sensors ≠ [] ∧ (∀ x ∈ d.sensors, x.id ≠ "b") ∧
      0 ≤ d.navigator.routeIndex ∧ d.navigator.routeIndex < d.navigator.routes.length)

example : baseTest = true := by decide +kernel

/-- Concrete case of `consistent_partial`: a tick skipped meanwhile does no harm. -/
example (d : Device Toy) : Atomic [d, d.skipTick] ⟨d, d, d.skipTick, d.skipTick, d.skipTick, d.skipTick⟩ :=
  consistent_partial _ _ ⟨0, 0, 1, 1, 1, 1, by omega, by omega, by omega, by omega, by omega,
    rfl, rfl, rfl, rfl, rfl, rfl⟩ d.snapshot (by simp [skipTick_snapshot])

end C58
end GpsGen
