import Verif.Lemmas.DeviceRound
import Verif.Lemmas.RoundTrip
import Verif.Lemmas.Toy
/-!
# C24: when decoding panics

Any number type, any parsed protobuf message. The claim "decoding never panics" is false: sub-messages
are dereferenced without a check, and a route index outside the routes panics in `Update`. The theorems
say exactly which messages decode (`_iff_partial`, so every other message panics), that everything the
encoders produce decodes, and give panicking messages. Parsing bytes into messages is C52; GeoJSON is
in `C24GeoJSON`.
-/

namespace GpsGen
variable {F : Type}

namespace C24
open Device Navigator

/-- The decoder returned; otherwise it panicked. -/
def Returns {α : Type} (g : Go α) : Prop := ∃ a, g = .ok a

/-- Both points of every control point are present. -/
def CurveComplete (c : Option (CurveMsg F)) : Prop :=
  ∃ m, c = some m ∧ ∀ p ∈ m.points, p.vp ≠ none ∧ p.cp ≠ none

/-- Both ends of every segment are present. -/
def RouteComplete (r : RouteMsg F) : Prop :=
  ∀ t ∈ r.tracks, ∀ s ∈ t.segments, s.pointA ≠ none ∧ s.pointB ≠ none

/-- The navigator message has all its parts and its route index is in range. -/
def NavComplete (n : NavMsg F) : Prop :=
  (∀ r ∈ n.routes, RouteComplete r) ∧ n.point ≠ none ∧
  (∃ e, n.elevation = some e ∧ CurveComplete e.gen) ∧
  (n.routes = [] ∨ (0 ≤ n.routeIndex ∧ n.routeIndex < n.routes.length))

/-- The snapshot has all its parts. -/
def SnapComplete (m : SnapMsg F) : Prop :=
  (∃ n, m.navigator = some n ∧ NavComplete n) ∧ (∃ s, m.speed = some s ∧ CurveComplete s.gen) ∧
  m.battery ≠ none ∧ ∀ s ∈ m.sensors, CurveComplete s.gen

/-! ## Proof -/

theorem returns_bind {α β : Type} {g : Go α} {f : α → Go β} :
    Returns (g >>= f) ↔ ∃ a, g = .ok a ∧ Returns (f a) := by
  constructor
  · rintro ⟨b, h⟩
    obtain ⟨a, h1, h2⟩ := bind_eq_ok h
    exact ⟨a, h1, b, h2⟩
  · rintro ⟨a, rfl, b, h⟩
    exact ⟨b, h⟩

theorem returns_ok {α : Type} (a : α) : Returns (.ok a : Go α) := ⟨a, rfl⟩

theorem returns_deref {α : Type} (o : Option α) : Returns (deref o) ↔ o ≠ none := by
  cases o with
  | none => exact ⟨fun ⟨_, h⟩ => by (cases h), fun h => absurd rfl h⟩
  | some a => exact ⟨fun _ => by simp, fun _ => ⟨a, rfl⟩⟩

theorem returns_mapM {α β : Type} (f : α → Go β) (l : List α) :
    Returns (l.mapM f) ↔ ∀ a ∈ l, Returns (f a) := by
  induction l with
  | nil => exact ⟨fun _ _ h => by (cases h), fun _ => ⟨[], rfl⟩⟩
  | cons a l ih =>
    rw [List.mapM_cons, returns_bind]
    constructor
    · rintro ⟨b, h1, h2⟩
      obtain ⟨bs, h3, -⟩ := returns_bind.mp h2
      intro x hx
      rcases List.mem_cons.mp hx with rfl | hx
      · exact ⟨b, h1⟩
      · exact ih.mp ⟨bs, h3⟩ x hx
    · intro h
      obtain ⟨b, hb⟩ := h a (by simp)
      obtain ⟨bs, hbs⟩ := ih.mpr (fun x hx => h x (by simp [hx]))
      exact ⟨b, hb, returns_bind.mpr ⟨bs, hbs, returns_ok _⟩⟩

theorem curve_iff (c : Option (CurveMsg F)) : Returns (Curve.fromSnapshot c) ↔ CurveComplete c := by
  cases c with
  | none => exact ⟨fun ⟨_, h⟩ => by (cases h), fun ⟨_, h, _⟩ => by cases h⟩
  | some m =>
    have : Returns (Curve.fromSnapshot (some m)) ↔ Returns (m.points.mapM CP.fromMsg) := by
      unfold Curve.fromSnapshot
      rw [show deref (some m) = .ok m from rfl, ok_bind, returns_bind]
      exact ⟨fun ⟨a, h, _⟩ => ⟨a, h⟩, fun ⟨a, h⟩ => ⟨a, h, returns_ok _⟩⟩
    rw [this, returns_mapM]
    have hp : ∀ p : ControlPointMsg F, Returns (CP.fromMsg p) ↔ p.vp ≠ none ∧ p.cp ≠ none := by
      intro p
      unfold CP.fromMsg
      rw [returns_bind]
      constructor
      · rintro ⟨a, h1, h2⟩
        obtain ⟨b, h3, -⟩ := returns_bind.mp h2
        exact ⟨(returns_deref _).mp ⟨a, h1⟩, (returns_deref _).mp ⟨b, h3⟩⟩
      · rintro ⟨h1, h2⟩
        obtain ⟨a, h3⟩ := (returns_deref _).mpr h1
        obtain ⟨b, h4⟩ := (returns_deref _).mpr h2
        exact ⟨a, h3, returns_bind.mpr ⟨b, h4, returns_ok _⟩⟩
    simp only [hp]
    exact ⟨fun h => ⟨m, rfl, h⟩, fun ⟨m', e, h⟩ => by cases e; exact h⟩

theorem sensor_iff (m : SensorMsg F) : Returns (Sensor.fromSnapshot (some m)) ↔ CurveComplete m.gen := by
  rw [← curve_iff]
  unfold Sensor.fromSnapshot
  rw [show deref (some m) = .ok m from rfl, ok_bind, returns_bind]
  exact ⟨fun ⟨a, h, _⟩ => ⟨a, h⟩, fun ⟨a, h⟩ => ⟨a, h, returns_ok _⟩⟩

theorem speed_iff (c : Option (CommonMsg F)) :
    Returns (Speed.fromSnapshot c) ↔ ∃ s, c = some s ∧ CurveComplete s.gen := by
  cases c with
  | none => exact ⟨fun ⟨_, h⟩ => by (cases h), fun ⟨_, h, _⟩ => by cases h⟩
  | some m =>
    have : Returns (Speed.fromSnapshot (some m)) ↔ CurveComplete m.gen := by
      rw [← curve_iff]
      unfold Speed.fromSnapshot
      rw [show deref (some m) = .ok m from rfl, ok_bind, returns_bind]
      exact ⟨fun ⟨a, h, _⟩ => ⟨a, h⟩, fun ⟨a, h⟩ => ⟨a, h, returns_ok _⟩⟩
    rw [this]
    exact ⟨fun h => ⟨m, rfl, h⟩, fun ⟨m', e, h⟩ => by cases e; exact h⟩

theorem segment_iff (m : SegmentMsg F) :
    Returns (Segment.fromSnapshot m) ↔ m.pointA ≠ none ∧ m.pointB ≠ none := by
  unfold Segment.fromSnapshot
  rw [returns_bind]
  constructor
  · rintro ⟨a, h1, h2⟩
    obtain ⟨b, h3, -⟩ := returns_bind.mp h2
    exact ⟨(returns_deref _).mp ⟨a, h1⟩, (returns_deref _).mp ⟨b, h3⟩⟩
  · rintro ⟨h1, h2⟩
    obtain ⟨a, h3⟩ := (returns_deref _).mpr h1
    obtain ⟨b, h4⟩ := (returns_deref _).mpr h2
    exact ⟨a, h3, returns_bind.mpr ⟨b, h4, returns_ok _⟩⟩

theorem route_iff [GoFloat F] (m : RouteMsg F) :
    Returns (do let (r, _) ← Route.fromSnapshot m; return r : Go (Route F)) ↔ RouteComplete m := by
  have ht : ∀ t : TrackMsg F, Returns (Track.fromSnapshot t) ↔
      ∀ s ∈ t.segments, s.pointA ≠ none ∧ s.pointB ≠ none := by
    intro t
    simp only [← segment_iff]
    rw [← returns_mapM]
    unfold Track.fromSnapshot
    rw [returns_bind]
    exact ⟨fun ⟨a, h, _⟩ => ⟨a, h⟩, fun ⟨a, h⟩ => ⟨a, h, returns_ok _⟩⟩
  have hr : Returns (Route.fromSnapshot m) ↔ RouteComplete m := by
    unfold RouteComplete
    simp only [← ht]
    rw [← returns_mapM]
    unfold Route.fromSnapshot
    rw [returns_bind]
    refine ⟨fun ⟨a, h, _⟩ => ⟨a, h⟩, fun ⟨a, h⟩ => ⟨a, h, ?_⟩⟩
    simp only
    split
    · exact returns_ok _
    · split
      · split <;> exact returns_ok _
      · exact returns_ok _
  rw [← hr, returns_bind]
  exact ⟨fun ⟨a, h, _⟩ => ⟨a, h⟩, fun ⟨a, h⟩ => ⟨a, h, returns_ok _⟩⟩

/-- `Update` needs nothing but a current route. -/
theorem update_iff [GoMath F] (n : Navigator F) (s : DevState F) :
    Returns (n.update s) ↔ n.routes = [] ∨ (0 ≤ n.routeIndex ∧ n.routeIndex < n.routes.length) := by
  have hc : Returns n.currentRoute ↔
      n.routes = [] ∨ (0 ≤ n.routeIndex ∧ n.routeIndex < n.routes.length) := by
    unfold currentRoute goIndex
    by_cases h0 : n.routes = []
    · simp [h0, Returns]
    · rw [if_neg (by simpa using h0)]
      by_cases h1 : 0 ≤ n.routeIndex
      · rw [if_pos h1]
        by_cases h2 : n.routeIndex < n.routes.length
        · have : n.routeIndex.toNat < n.routes.length := by omega
          rw [List.getElem?_eq_getElem this]
          simp [h1, h2, Returns]
        · have : n.routes.length ≤ n.routeIndex.toNat := by omega
          rw [List.getElem?_eq_none this]
          constructor
          · rintro ⟨_, h⟩; cases h
          · rintro (h | h)
            · exact absurd h h0
            · exact absurd h.2 h2
      · rw [if_neg h1]
        constructor
        · rintro ⟨_, h⟩; cases h
        · rintro (h | h)
          · exact absurd h h0
          · exact absurd h.1 h1
  rw [← hc]
  constructor
  · rintro ⟨a, h⟩
    unfold Navigator.update at h
    obtain ⟨_, h1, h⟩ := bind_eq_ok h
    obtain ⟨_, _, h⟩ := bind_eq_ok h
    obtain ⟨_, _, h⟩ := bind_eq_ok h
    obtain ⟨r, h4, h⟩ := bind_eq_ok h
    exact ⟨r, h4⟩
  · rintro ⟨r, hr⟩
    have h1 : Returns n.routeDistance := by
      unfold routeDistance; rw [hr]; cases r <;> exact returns_ok _
    have h2 : Returns n.currentTrack := by
      unfold currentTrack; rw [hr]; cases r <;> exact returns_ok _
    obtain ⟨t, h2⟩ := h2
    have h3 : Returns n.trackDistance := by
      unfold trackDistance; rw [h2]; cases t <;> exact returns_ok _
    have h4 : Returns n.currentSegment := by
      unfold currentSegment
      rw [hr]
      cases r with
      | none => exact returns_ok _
      | some r =>
        simp only [ok_bind]
        split <;> exact returns_ok _
    obtain ⟨sg, h4⟩ := h4
    obtain ⟨a1, h1⟩ := h1
    obtain ⟨a3, h3⟩ := h3
    unfold Navigator.update segmentDistance currentBearing
    rw [h1, h3, h4, hr, h2]
    exact returns_ok _

theorem updateState_iff [GoMath F] (d : Device F) : Returns d.updateState ↔
    d.navigator.routes = [] ∨
      (0 ≤ d.navigator.routeIndex ∧ d.navigator.routeIndex < d.navigator.routes.length) := by
  rw [← update_iff d.navigator d.state]
  unfold updateState
  rw [returns_bind]
  exact ⟨fun ⟨a, h, _⟩ => ⟨a, h⟩, fun ⟨a, h⟩ => ⟨a, h, returns_ok _⟩⟩

theorem mapM_length {α β : Type} {f : α → Go β} {l : List α} {r : List β} (h : l.mapM f = .ok r) :
    r.length = l.length := by
  induction l generalizing r with
  | nil => cases h; rfl
  | cons a l ih =>
    rw [List.mapM_cons] at h
    obtain ⟨b, _, h⟩ := bind_eq_ok h
    obtain ⟨bs, h1, h⟩ := bind_eq_ok h
    cases h
    simp [ih h1]

theorem nav_restore [GoFloat F] (m : Option (NavMsg F)) :
    Returns (Navigator.fromSnapshot m) ↔ ∃ nm, m = some nm ∧ (∀ r ∈ nm.routes, RouteComplete r) ∧
      nm.point ≠ none ∧ ∃ e, nm.elevation = some e ∧ CurveComplete e.gen := by
  cases m with
  | none => exact ⟨fun ⟨_, h⟩ => by (cases h), fun ⟨_, h, _⟩ => by cases h⟩
  | some nm =>
    constructor
    · rintro ⟨n, h⟩
      simp only [Navigator.fromSnapshot, Navigator.fromSnapshotOnto] at h
      obtain ⟨rs, h1, h⟩ := bind_eq_ok h
      obtain ⟨pt, h2, h⟩ := bind_eq_ok h
      obtain ⟨el, h3, h⟩ := bind_eq_ok h
      refine ⟨nm, rfl, ?_, (returns_deref _).mp ⟨pt, h2⟩, ?_⟩
      · intro r hr
        exact (route_iff r).mp ((returns_mapM _ _).mp ⟨rs, h1⟩ r hr)
      · cases he : nm.elevation with
        | none => rw [he] at h3; cases h3
        | some e => rw [he] at h3; exact ⟨e, rfl, (sensor_iff e).mp ⟨el, h3⟩⟩
    · rintro ⟨nm', h0, h1, h2, e, h3, h4⟩
      cases h0
      obtain ⟨rs, h5⟩ := (returns_mapM (fun m : RouteMsg F =>
        (do let (r, _) ← Route.fromSnapshot m; return r : Go (Route F))) nm.routes).mpr
        (fun r hr => (route_iff r).mpr (h1 r hr))
      obtain ⟨pt, h6⟩ := (returns_deref _).mpr h2
      obtain ⟨el, h7⟩ := (sensor_iff e).mpr h4
      simp only [Navigator.fromSnapshot, Navigator.fromSnapshotOnto]
      rw [h5, h6, h3, h7]
      exact returns_ok _

theorem nav_restored [GoFloat F] {nm : NavMsg F} {n : Navigator F}
    (h : Navigator.fromSnapshot (some nm) = .ok n) :
    n.routes.length = nm.routes.length ∧ n.routeIndex = nm.routeIndex := by
  simp only [Navigator.fromSnapshot, Navigator.fromSnapshotOnto] at h
  obtain ⟨rs, h1, h⟩ := bind_eq_ok h
  obtain ⟨pt, h2, h⟩ := bind_eq_ok h
  obtain ⟨el, h3, h⟩ := bind_eq_ok h
  cases h
  exact ⟨mapM_length h1, rfl⟩

/-! ## The claim -/

/-- **C24, sensors.** `DecodeSensors` returns exactly for the messages whose curves are complete. -/
theorem decodeSensors_iff_partial (ms : List (SensorMsg F)) :
    Returns (decodeSensors ms) ↔ ∀ m ∈ ms, CurveComplete m.gen := by
  unfold decodeSensors
  rw [returns_mapM]
  simp only [sensor_iff]

/-- **C24, routes.** `DecodeRoutes` returns exactly for the messages whose segments are complete;
invalid names and properties do no harm. -/
theorem decodeRoutes_iff_partial [GoFloat F] (ms : List (RouteMsg F)) :
    Returns (decodeRoutes ms) ↔ ∀ m ∈ ms, RouteComplete m := by
  unfold decodeRoutes
  rw [returns_mapM]
  simp only [route_iff]

/-- **C24, trackers.** `FromSnapshot`, on any device, returns exactly for the complete snapshots. -/
theorem fromSnapshot_iff_partial [GoMath F] (ss : List (Sensor F)) (tk : UInt32) (m : SnapMsg F) :
    Returns (Device.fromSnapshotOnto ss tk m) ↔ SnapComplete m := by
  constructor
  · rintro ⟨d, h⟩
    obtain ⟨n, speed, battery, sensors, d1, h1, h2, h3, h4, h5, rfl⟩ := fromSnapshotOnto_eq h
    obtain ⟨nm, g0, g1, g2, g3⟩ := (nav_restore _).mp ⟨n, h1⟩
    have g4 := (updateState_iff _).mp ⟨d1, h5⟩
    rw [g0] at h1
    obtain ⟨k1, k2⟩ := nav_restored h1
    refine ⟨⟨nm, g0, g1, g2, g3, ?_⟩, (speed_iff _).mp ⟨speed, h2⟩, ?_, ?_⟩
    · rcases g4 with g4 | g4
      · left
        have : n.routes = [] := g4
        rw [this] at k1
        exact List.length_eq_zero_iff.mp k1.symm
      · right
        have g4 : 0 ≤ n.routeIndex ∧ n.routeIndex < n.routes.length := g4
        rw [k1, k2] at g4
        exact g4
    · intro hb
      rw [hb] at h3
      cases h3
    · intro s hs
      rw [if_pos (List.length_pos_of_mem hs)] at h4
      exact (sensor_iff s).mp ((returns_mapM _ _).mp ⟨sensors, h4⟩ s hs)
  · rintro ⟨⟨nm, g0, g1, g2, g3, g4⟩, hsp, hb, hse⟩
    obtain ⟨n, h1⟩ := (nav_restore (some nm)).mpr ⟨nm, rfl, g1, g2, g3⟩
    obtain ⟨k1, k2⟩ := nav_restored h1
    obtain ⟨speed, h2⟩ := (speed_iff _).mpr hsp
    have h3 : Returns (Battery.fromSnapshot m.battery) := by
      cases hm : m.battery with
      | none => exact absurd hm hb
      | some b => exact returns_ok _
    obtain ⟨battery, h3⟩ := h3
    have h4 : Returns (if m.sensors.length > 0 then
        m.sensors.mapM (fun s => Sensor.fromSnapshot (some s)) else .ok ss) := by
      split
      · exact (returns_mapM _ _).mpr (fun s hs => (sensor_iff s).mpr (hse s hs))
      · exact returns_ok _
    obtain ⟨sensors, h4⟩ := h4
    have g5 : n.routes = [] ∨ (0 ≤ n.routeIndex ∧ n.routeIndex < n.routes.length) := by
      rw [k1, k2]
      rcases g4 with g4 | g4
      · left
        rw [g4] at k1
        exact List.length_eq_zero_iff.mp k1
      · exact Or.inr g4
    unfold Device.fromSnapshotOnto
    rw [g0, h1, h2, h3, h4]
    simp only [ok_bind]
    rw [returns_bind]
    obtain ⟨d1, h5⟩ := (updateState_iff (Device.updateSensors {
      status := m.status % 256, navigator := n, speed := speed, battery := battery
      state := { (DevState.init : DevState F) with
        id := m.id, userId := m.userId, tick := m.tick, model := m.model, color := m.color
        description := m.descr, duration := m.duration, speed := speed.value }
      sensors := sensors, avgT := lit 0, tick := tk, ns := (0, 0, 0) })).mpr g5
    exact ⟨d1, h5, returns_ok _⟩

/-- `DecodeTracker` panics only in `FromSnapshot`; the following `Update` is safe. -/
theorem decodeTracker_iff_partial [GoMath F] (m : SnapMsg F) :
    Returns (decodeTracker m) ↔ SnapComplete m := by
  rw [← fromSnapshot_iff_partial [] 0 m]
  unfold decodeTracker
  rw [returns_bind]
  constructor
  · rintro ⟨d, h, _⟩; exact ⟨d, h⟩
  · rintro ⟨d, h⟩
    refine ⟨d, h, ?_⟩
    obtain ⟨n, speed, battery, sensors, d1, h1, h2, h3, h4, h5, rfl⟩ := fromSnapshotOnto_eq h
    have g4 := (updateState_iff _).mp ⟨d1, h5⟩
    obtain ⟨st, -, rfl⟩ := updateState_eq h5
    unfold Device.update
    rw [returns_bind]
    have g5 : n.routes = [] ∨ (0 ≤ n.routeIndex ∧ n.routeIndex < n.routes.length) := g4
    have g6 : n.routes.map touchRoute = [] ∨
        (0 ≤ n.routeIndex ∧ n.routeIndex < (n.routes.map touchRoute).length) := by
      simpa using g5
    obtain ⟨d2, h6⟩ := (updateState_iff (Device.updateRoutes (Device.refreshed (Device.updateSensors {
      status := m.status % 256, navigator := n, speed := speed, battery := battery
      state := { (DevState.init : DevState F) with
        id := m.id, userId := m.userId, tick := m.tick, model := m.model, color := m.color
        description := m.descr, duration := m.duration, speed := speed.value }
      sensors := sensors, avgT := lit 0, tick := 0, ns := (0, 0, 0) }) st))).mpr g6
    exact ⟨d2, h6, returns_ok _⟩

/-- Everything that `Snapshot` produces for a device whose navigator is in range is complete. -/
theorem snapshot_complete [GoMath F] (d : Device F)
    (h : d.navigator.routes = [] ∨
      (0 ≤ d.navigator.routeIndex ∧ d.navigator.routeIndex < d.navigator.routes.length)) :
    SnapComplete d.snapshot := by
  have hc : ∀ c : Curve F, CurveComplete (some c.snapshot) := by
    intro c
    refine ⟨_, rfl, ?_⟩
    intro p hp
    obtain ⟨q, _, rfl⟩ := List.mem_map.mp hp
    exact ⟨by simp, by simp⟩
  refine ⟨⟨_, rfl, ?_, by simp [Navigator.snapshot], ⟨_, rfl, hc _⟩, ?_⟩, ⟨_, rfl, hc _⟩,
    by simp [Device.snapshot], ?_⟩
  · intro r hr t ht s hs
    obtain ⟨r', _, rfl⟩ := List.mem_map.mp hr
    obtain ⟨t', _, rfl⟩ := List.mem_map.mp ht
    obtain ⟨s', _, rfl⟩ := List.mem_map.mp hs
    exact ⟨by simp [Segment.snapshot], by simp [Segment.snapshot]⟩
  · simpa [Navigator.snapshot] using h
  · intro s hs
    obtain ⟨s', _, rfl⟩ := List.mem_map.mp hs
    exact hc _

/-- So the encoders' output always decodes: whenever `EncodeTracker` returns, so does `DecodeTracker`
on its result. -/
theorem encoded_decodes [GoMath F] (d e : Device F) (m : SnapMsg F) (h : encodeTracker d = .ok (e, m)) :
    Returns (decodeTracker m) := by
  obtain ⟨e', h1, h2⟩ := bind_eq_ok h
  cases h2
  obtain ⟨st, h3, rfl⟩ := update_eq h1
  rw [decodeTracker_iff_partial]
  apply snapshot_complete
  have := (update_iff _ _).mp ⟨st, h3⟩
  simpa [Device.updateSensors, Device.updateRoutes, Device.calcAvgT, refreshed] using this

/-! ## Panicking inputs -/

/-- The empty message, e.g. parsed from bytes that set only the id. -/
def emptySnap [GoFloat F] (id : String) : SnapMsg F :=
  ⟨id, "", lit 0, lit 0, "", "", 0, "", none, none, none, []⟩

/-- **Negation of the claim, trackers**: a snapshot with an id only is a nil dereference. -/
theorem empty_tracker_panics [GoMath F] (id : String) :
    decodeTracker (emptySnap id : SnapMsg F) = .error .nilDeref := rfl

/-- **Negation of the claim, sensors**: a sensor without a curve is a nil dereference. -/
theorem bare_sensor_panics [GoFloat F] (id : String) :
    decodeSensors [(⟨id, lit 0, lit 0, lit 0, lit 0, "", none⟩ : SensorMsg F)] = .error .nilDeref := rfl

/-- **Negation of the claim, routes**: a segment without points is a nil dereference. -/
theorem bare_segment_panics [GoFloat F] (id : String) :
    decodeRoutes [(⟨id, lit 0, "", [⟨id, [⟨none, none, lit 0, lit 0, 0, 0⟩], "", .empty, lit 0, false, "", 0⟩],
      .empty, "", 0⟩ : RouteMsg F)] = .error .nilDeref := rfl

/-- **Negation of the claim, indices**: a valid snapshot with at least one route and a route index past
the end is an index panic. -/
theorem bad_index_panics [GoMath F] (d : Device F) (nm : NavMsg F) (hn : nm = d.navigator.snapshot)
    (hr : d.navigator.routes ≠ []) :
    ¬ Returns (decodeTracker { d.snapshot with
      navigator := some { nm with routeIndex := nm.routes.length } }) := by
  rw [decodeTracker_iff_partial]
  rintro ⟨⟨n, h0, -, -, -, h⟩, -⟩
  cases h0
  subst hn
  rcases h with h | h
  · exact hr (by simpa [Navigator.snapshot] using h)
  · exact absurd h.2 (by simp)

/-! Non-vacuity: a device with a route decodes; the same snapshot with the route index 1 panics. -/

def good : Option (SnapMsg Toy) := (Toy.dev [.addRoute [some Toy.route]]).map Device.snapshot

def shifted (m : SnapMsg Toy) : SnapMsg Toy :=
  { m with navigator := m.navigator.map (fun n => { n with routeIndex := 1 }) }

example : good.map (fun m => (decodeTracker m).toOption.isSome) = some true := by decide +kernel

example : good.map (fun m => decide (decodeTracker (shifted m) = .error .indexOutOfRange)) = some true := by
  decide +kernel

end C24
end GpsGen
