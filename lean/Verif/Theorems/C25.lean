import Verif.Theorems.C23
import Verif.Theorems.C24
/-!
# C25: what survives `FromSnapshot`

Any number type, any previous device or navigator, any message. The claim "nothing of the previous
contents survives" is false: a device keeps its pending tick counter always and its sensors when the
snapshot has none; a navigator that skips offline periods keeps its (nil) offline settings, after which
`ToOffline` dereferences nil. The `_partial` theorems say that nothing else survives.
-/

namespace GpsGen
variable {F : Type}

namespace C25
open Device Navigator C24

/-- The published state without the sensors. -/
def forgetSensors (s : DevState F) : DevState F := { s with sensors := [] }

/-- All of a device except the sensors, the published sensors and the pending tick counter. -/
def rest (d : Device F) : Device F := { d with sensors := [], tick := 0, state := forgetSensors d.state }

/-- All of a navigator except the offline settings. -/
def navRest (n : Navigator F) : Navigator F := { n with offline := none }

/-! ## Devices -/

theorem onto_eq [GoMath F] (ss ss' : List (Sensor F)) (tk tk' : UInt32) (m : SnapMsg F) (a b : Device F)
    (ha : Device.fromSnapshotOnto ss tk m = .ok a) (hb : Device.fromSnapshotOnto ss' tk' m = .ok b) :
    rest a = rest b ∧ a.tick = tk ∧
    (if m.sensors = [] then a.sensors = ss else a.sensors = b.sensors) ∧
    a.state.sensors = a.sensors.map (fun s => ⟨s.id, s.name, s.valX, s.valY⟩) := by
  obtain ⟨n, speed, battery, sensors, d1, h1, h2, h3, h4, h5, rfl⟩ := fromSnapshotOnto_eq ha
  obtain ⟨n', speed', battery', sensors', d1', h1', h2', h3', h4', h5', rfl⟩ := fromSnapshotOnto_eq hb
  rw [h1] at h1'; cases h1'
  rw [h2] at h2'; cases h2'
  rw [h3] at h3'; cases h3'
  obtain ⟨st, g1, rfl⟩ := updateState_eq h5
  obtain ⟨st', g1', rfl⟩ := updateState_eq h5'
  have g2 : n.update _ = .ok st := g1
  have g2' : n.update _ = .ok st' := g1'
  have e1 := update_agree g2 _ (fun _ => rfl) (fun _ => rfl)
  rw [g2] at e1
  have e2 := g2'.symm.trans (update_agree g2 _ (fun _ => rfl) (fun _ => rfl))
  have e1 := Except.ok.inj e1
  have e2 := Except.ok.inj e2
  have hst : forgetSensors st' = forgetSensors st := by
    rw [e2]
    conv => rhs; rw [e1]
    rfl
  have hsp := (nav_update_frame g2).2.2.2.2.2.2.2.1
  refine ⟨?_, rfl, ?_, ?_⟩
  · have key : ∀ (x : List (Sensor F)) (k : UInt32) (s : DevState F),
        rest (Device.updateRoutes (refreshed (Device.updateSensors {
          status := m.status % 256, navigator := n, speed := speed, battery := battery
          state := { (DevState.init : DevState F) with
            id := m.id, userId := m.userId, tick := m.tick, model := m.model, color := m.color
            description := m.descr, duration := m.duration, speed := speed.value }
          sensors := x, avgT := lit 0, tick := k, ns := (0, 0, 0) }) s)) =
        rest (Device.updateRoutes (refreshed (Device.updateSensors {
          status := m.status % 256, navigator := n, speed := speed, battery := battery
          state := { (DevState.init : DevState F) with
            id := m.id, userId := m.userId, tick := m.tick, model := m.model, color := m.color
            description := m.descr, duration := m.duration, speed := speed.value }
          sensors := [], avgT := lit 0, tick := 0, ns := (0, 0, 0) }) (forgetSensors s))) :=
      fun _ _ _ => rfl
    refine (key sensors tk st).trans ?_
    rw [← hst]
    exact (key sensors' tk' st').symm
  · by_cases hm : m.sensors = []
    · rw [if_pos hm]
      rw [hm] at h4
      cases h4
      rfl
    · rw [if_neg hm]
      have : m.sensors.length > 0 := List.length_pos_iff.mpr hm
      rw [if_pos this] at h4 h4'
      rw [h4] at h4'
      cases h4'
      rfl
  · show pubSensors st.sensors sensors = _
    rw [hsp]
    exact C23.pub_same sensors

/-- Whether `FromSnapshot` returns does not depend on the previous contents. -/
theorem returns_same [GoMath F] (d d' : Device F) (m : SnapMsg F) :
    Returns (d.fromSnapshot m) ↔ Returns (d'.fromSnapshot m) := by
  unfold Device.fromSnapshot
  rw [fromSnapshot_iff_partial, fromSnapshot_iff_partial]

/-- **C25, devices.** Two devices restored from the same snapshot agree on everything but the sensors
and the pending tick counter, whatever they were before. -/
theorem device_replaced_partial [GoMath F] (d d' a b : Device F) (m : SnapMsg F)
    (ha : d.fromSnapshot m = .ok a) (hb : d'.fromSnapshot m = .ok b) : rest a = rest b :=
  (onto_eq _ _ _ _ m a b ha hb).1

/-- With sensors in the snapshot and no pending ticks the restored devices are identical. -/
theorem device_replaced_with_sensors_partial [GoMath F] (d d' : Device F) (m : SnapMsg F)
    (hs : m.sensors ≠ []) (ht : d.tick = d'.tick) : d.fromSnapshot m = d'.fromSnapshot m := by
  cases ha : d.fromSnapshot m with
  | error e =>
    cases hb : d'.fromSnapshot m with
    | ok b =>
      obtain ⟨a, h⟩ := (returns_same d d' m).mpr ⟨b, hb⟩
      rw [ha] at h; cases h
    | error e' =>
      unfold Device.fromSnapshot Device.fromSnapshotOnto at ha hb
      have hl : m.sensors.length > 0 := List.length_pos_iff.mpr hs
      rw [if_pos hl] at ha hb
      rw [ht] at ha
      exact ha.symm.trans hb
  | ok a =>
    obtain ⟨b, hb⟩ := (returns_same d d' m).mp ⟨a, ha⟩
    rw [hb]
    unfold Device.fromSnapshot Device.fromSnapshotOnto at ha hb
    have hl : m.sensors.length > 0 := List.length_pos_iff.mpr hs
    rw [if_pos hl] at ha hb
    rw [ht] at ha
    exact ha.symm.trans hb

/-- **Negation 1.** Restoring a snapshot without sensors keeps the previous sensors, and publishes
them. -/
theorem old_sensors_survive [GoMath F] (d a : Device F) (m : SnapMsg F) (hs : m.sensors = [])
    (ha : d.fromSnapshot m = .ok a) :
    a.sensors = d.sensors ∧
      a.state.sensors = d.sensors.map (fun s => ⟨s.id, s.name, s.valX, s.valY⟩) := by
  obtain ⟨-, -, h, h'⟩ := onto_eq _ _ _ _ m a a ha ha
  rw [if_pos hs] at h
  exact ⟨h, by rw [h', h]⟩

/-- **Negation 2.** The pending tick counter survives every restore. -/
theorem old_tick_survives [GoMath F] (d a : Device F) (m : SnapMsg F) (ha : d.fromSnapshot m = .ok a) :
    a.tick = d.tick := (onto_eq _ _ _ _ m a a ha ha).2.1

/-- A restored device remains usable: it can go offline. -/
theorem device_usable [GoMath F] (d a : Device F) (m : SnapMsg F) (ha : d.fromSnapshot m = .ok a)
    (x : UInt32) : Returns (a.navigator.toOffline x) ∧ Returns a.update := by
  have hc := (fromSnapshot_iff_partial _ _ m).mp ⟨a, ha⟩
  obtain ⟨b, hb⟩ := (decodeTracker_iff_partial m).mpr hc
  obtain ⟨n, speed, battery, sensors, d1, h1, h2, h3, h4, h5, rfl⟩ := fromSnapshotOnto_eq ha
  have g4 := (updateState_iff _).mp ⟨d1, h5⟩
  obtain ⟨st, -, rfl⟩ := updateState_eq h5
  constructor
  · have : n.offline ≠ none := by
      cases hm : m.navigator with
      | none => rw [hm] at h1; cases h1
      | some nm =>
        rw [hm] at h1
        simp only [Navigator.fromSnapshot, Navigator.fromSnapshotOnto] at h1
        obtain ⟨_, _, h1⟩ := bind_eq_ok h1
        obtain ⟨_, _, h1⟩ := bind_eq_ok h1
        obtain ⟨_, _, h1⟩ := bind_eq_ok h1
        cases h1
        simp
    show Returns (Navigator.toOffline { n with routes := n.routes.map touchRoute } x)
    unfold Navigator.toOffline
    split
    · exact returns_ok _
    · cases ho : n.offline with
      | none => exact absurd ho this
      | some r => exact returns_ok _
  · unfold Device.update
    rw [returns_bind]
    have g5 : n.routes = [] ∨ (0 ≤ n.routeIndex ∧ n.routeIndex < n.routes.length) := g4
    have g6 : n.routes.map touchRoute = [] ∨
        (0 ≤ n.routeIndex ∧ n.routeIndex < (n.routes.map touchRoute).length) := by
      simpa using g5
    have := (updateState_iff (Device.updateRoutes (Device.refreshed (Device.updateSensors {
      status := m.status % 256, navigator := n, speed := speed, battery := battery
      state := { (DevState.init : DevState F) with
        id := m.id, userId := m.userId, tick := m.tick, model := m.model, color := m.color
        description := m.descr, duration := m.duration, speed := speed.value }
      sensors := sensors, avgT := lit 0, tick := d.tick, ns := (0, 0, 0) }) st))).mpr g6
    obtain ⟨d2, h6⟩ := this
    exact ⟨d2, h6, returns_ok _⟩

/-! ## Navigators -/

/-- **C25, navigators.** A navigator that allows offline periods is replaced completely, whatever it
was before. -/
theorem navigator_replaced_partial [GoFloat F] (n n' : Navigator F) (m : NavMsg F)
    (h : n.skipOffline = false) (h' : n'.skipOffline = false) :
    n.restore (some m) = n'.restore (some m) := by
  unfold Navigator.restore Navigator.fromSnapshotOnto
  rw [h, h']
  rfl

/-- Any navigator is replaced except for its offline settings. -/
theorem navigator_rest_replaced_partial [GoFloat F] (n n' : Navigator F) (m : NavMsg F) :
    (n.restore (some m)).map navRest = (n'.restore (some m)).map navRest := by
  simp only [Navigator.restore, Navigator.fromSnapshotOnto]
  cases m.routes.mapM (fun r => (do let (r, _) ← Route.fromSnapshot r; return r : Go (Route F))) with
  | error e => rfl
  | ok rs =>
    cases deref m.point with
    | error e => rfl
    | ok p =>
      cases Sensor.fromSnapshot m.elevation with
      | error e => rfl
      | ok el => rfl

/-- **Negation 3.** A navigator that skips offline periods keeps its nil offline settings, so after
restoring a snapshot of a navigator that does not skip them, going offline is a nil dereference. -/
theorem restored_navigator_unusable [GoFloat F] (n n' : Navigator F) (m : NavMsg F)
    (h : n.skipOffline = true) (ho : n.offline = none) (hm : m.skipOffline = false)
    (hr : n.restore (some m) = .ok n') (x : UInt32) : n'.toOffline x = .error .nilDeref := by
  simp only [Navigator.restore, Navigator.fromSnapshotOnto] at hr
  obtain ⟨_, _, hr⟩ := bind_eq_ok hr
  obtain ⟨_, _, hr⟩ := bind_eq_ok hr
  obtain ⟨_, _, hr⟩ := bind_eq_ok hr
  cases hr
  simp only [Navigator.toOffline, hm, h, ho]
  rfl

/-- A nil snapshot changes nothing. -/
theorem nil_snapshot [GoFloat F] (n : Navigator F) : n.restore none = .ok n := rfl

/-! Non-vacuity: a device with a sensor and a pending tick restored from a device without sensors; and
the unusable navigator. -/

def gauge : Option (Sensor Toy) :=
  (Sensor.new "s" (fun _ => Toy.of 0) "gauge" (Toy.of 1) (Toy.of 2) 8 0).toOption

def mixed : Option (Device Toy) :=
  match Toy.dev [.addSensor [gauge], .skipTick], Toy.dev [.addRoute [some Toy.route]] with
  | some d, some e => (d.fromSnapshot e.snapshot).toOption
  | _, _ => none

example : mixed.map (fun d => (d.sensors.map (·.id), d.tick, d.navigator.routes.map (·.id))) =
    some (["s"], 1, ["r"]) := by decide +kernel

def skipper : Option (Navigator Toy) := (Navigator.new "e" (fun _ => Toy.of 0) [.skipOffline]).toOption
def normal : Option (Navigator Toy) := (Navigator.new "e" (fun _ => Toy.of 0) []).toOption

def broken : Option (Go (Navigator Toy)) :=
  match skipper, normal with
  | some n, some m => some (n.restore (some m.snapshot) >>= fun n => n.toOffline 0)
  | _, _ => none

example : broken = some (.error .nilDeref) := by decide +kernel

end C25
end GpsGen
