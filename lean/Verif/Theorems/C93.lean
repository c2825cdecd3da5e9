import Verif.Theorems.C54
import Verif.Theorems.C52
import Verif.Model.JsonText
import Verif.Model.F64Bits
/-!
# C93: a decoded device can be used

Any number type, any bytes. The claim "a device that `DecodeTracker` returned without an error can be used like any other"
is false: a curve without points is accepted, and evaluating it panics (`claim_fails`, `next_claim_fails`). The `_partial`
theorems say that this is the only danger: whatever else the bytes contain (indices out of range, segments that do not fit
together, odometers beyond the end, crossed bounds), no later call panics.

Simplification: indices are unbounded integers, so that adding one to the largest `int` does not wrap.
-/

namespace GpsGen
variable {F : Type}

namespace C93
open Device Navigator C24 C07 C54

/-! ## Specification -/

/-- The curve, if there is one, has control points. -/
def Filled (c : Option (CurveMsg F)) : Prop := ∀ m, c = some m → m.points ≠ []

/-- The curves of the message have control points; a constant speed needs none. -/
structure Usable [GoFloat F] (m : SnapMsg F) : Prop where
  speed : ∀ s, m.speed = some s → (s.min ==. s.max) = true ∨ Filled s.gen
  elevation : ∀ n e, m.navigator = some n → n.elevation = some e → Filled e.gen
  sensors : ∀ s ∈ m.sensors, Filled s.gen

/-- Sensors a client can hold: made by a constructor or decoded, and then used. -/
inductive Held [GoFloat F] : Sensor F → Prop
  | api {s : Sensor F} : ApiSensor s → Held s
  | decode {m : SensorMsg F} {s : Sensor F} : Filled m.gen → Sensor.fromSnapshot (some m) = .ok s → Held s
  | shuffle {s : Sensor F} (draws : Nat → F) : Held s → Held (s.shuffle draws)
  | next {s s' : Sensor F} {t : F} : Held s → s.next t = .ok s' → Held s'

/-- The calls covered: as in C54, but for any snapshot that is usable and any sensor that is held. -/
def Fit [GoFloat F] (d : Device F) : DevOp F → Prop
  | .addSensor ss => ∀ s, some s ∈ ss → Held s
  | .move (.destinationTo _) => d.navigator.routes.length ≤ 2
  | .fromSnapshot m => SnapComplete m ∧ Usable m
  | _ => True

/-- Devices a client can hold: created or decoded, and then used. -/
inductive Loaded [GoMath F] : Device F → Prop
  | new {rnd : DeviceRnd F} {o : Option (DeviceOptions F)} {d : Device F} : Device.new rnd o = .ok d → Loaded d
  | decode {m : SnapMsg F} {d : Device F} : Usable m → decodeTracker m = .ok d → Loaded d
  | step {d d' : Device F} {op : DevOp F} : Loaded d → Fit d op → d.step op = .ok d' → Loaded d'

/-- What a byte string decodes to, if the protocol buffers library accepts it. -/
def message [GoFloat F] [WireFloat F] [JsonFloat F] (data : Bytes) : Option (SnapMsg F) :=
  if data = [] then none else (protoUnmarshal decSnap data).map fun m => m.mapProps readProps

/-! ## Proof -/

theorem curve_decoded {m : Option (CurveMsg F)} {c : Curve F} (h : Curve.fromSnapshot m = .ok c) :
    ∃ cm, m = some cm ∧ c.points.length = cm.points.length := by
  cases m with
  | none => cases h
  | some cm =>
    obtain ⟨pts, h1, h2⟩ := bind_eq_ok (show (cm.points.mapM CP.fromMsg >>= fun pts =>
      (pure ⟨pts, cm.mode, cm.min, cm.max⟩ : Go (Curve F))) = .ok c from h)
    cases h2
    exact ⟨cm, rfl, mapM_length h1⟩

theorem curve_points {m : Option (CurveMsg F)} {c : Curve F} (h : Curve.fromSnapshot m = .ok c) :
    Filled m ↔ c.points ≠ [] := by
  obtain ⟨cm, rfl, hl⟩ := curve_decoded h
  constructor
  · intro hf
    exact ne_nil_of_length hl (hf cm rfl)
  · rintro hc _ ⟨⟩
    exact ne_nil_of_length hl.symm hc

theorem sensor_points {m : SensorMsg F} {s : Sensor F} (h : Sensor.fromSnapshot (some m) = .ok s) :
    Filled m.gen ↔ s.gen.points ≠ [] := by
  obtain ⟨c, h1, h2⟩ := bind_eq_ok (show (Curve.fromSnapshot m.gen >>= fun gen =>
    (pure ⟨m.id, m.name, m.min, m.max, m.valX, m.valY, gen⟩ : Go (Sensor F))) = .ok s from h)
  cases h2
  exact curve_points h1

theorem speed_points {m : CommonMsg F} {s : Speed F} (h : Speed.fromSnapshot (some m) = .ok s) :
    (Filled m.gen ↔ s.gen.points ≠ []) ∧ s.min = m.min ∧ s.max = m.max := by
  obtain ⟨c, h1, h2⟩ := bind_eq_ok (show (Curve.fromSnapshot m.gen >>= fun gen =>
    (pure ⟨m.min, m.max, m.val, gen⟩ : Go (Speed F))) = .ok s from h)
  cases h2
  exact ⟨curve_points h1, rfl, rfl⟩

theorem mapM_mem {α β : Type} {f : α → Go β} {l : List α} {r : List β} (h : l.mapM f = .ok r) :
    (∀ b ∈ r, ∃ a ∈ l, f a = .ok b) ∧ ∀ i : Nat, ∀ a, l[i]? = some a → ∃ b, r[i]? = some b ∧ f a = .ok b := by
  induction l generalizing r with
  | nil => cases h; exact ⟨by simp, by simp⟩
  | cons a l ih =>
    rw [List.mapM_cons] at h
    obtain ⟨b, hb, h⟩ := bind_eq_ok h
    obtain ⟨bs, h1, h⟩ := bind_eq_ok h
    cases h
    obtain ⟨k1, k2⟩ := ih h1
    refine ⟨?_, ?_⟩
    · intro x hx
      rcases List.mem_cons.mp hx with rfl | hx
      · exact ⟨a, by simp, hb⟩
      · obtain ⟨y, hy, e⟩ := k1 x hx
        exact ⟨y, by simp [hy], e⟩
    · intro i x hx
      cases i with
      | zero => cases hx; exact ⟨b, rfl, hb⟩
      | succ i => exact k2 i x hx

theorem held_curve [GoFloat F] {s : Sensor F} (h : Held s) : s.gen.points ≠ [] := by
  induction h with
  | api h => exact apiSensor_curve h
  | decode hf h => exact (sensor_points h).mp hf
  | shuffle draws _ ih => exact curve_shuffle _ _ ih
  | next _ h ih =>
    obtain ⟨s', h1, h2⟩ := sensor_next _ _ ih
    rw [h] at h1
    cases h1
    exact h2

/-- The parts of a navigator that was decoded. -/
theorem nav_parts [GoFloat F] {m : Option (NavMsg F)} {n : Navigator F} (h : Navigator.fromSnapshot m = .ok n) :
    ∃ nm e, m = some nm ∧ nm.elevation = some e ∧ Sensor.fromSnapshot (some e) = .ok n.elevation ∧ n.offline.isSome := by
  cases m with
  | none => cases h
  | some nm =>
    simp only [Navigator.fromSnapshot, Navigator.fromSnapshotOnto] at h
    obtain ⟨rs, g1, h⟩ := bind_eq_ok h
    obtain ⟨pt, g2, h⟩ := bind_eq_ok h
    obtain ⟨el, g3, h⟩ := bind_eq_ok h
    cases he : nm.elevation with
    | none => rw [he] at g3; cases g3
    | some e =>
      rw [he] at g3
      cases h
      exact ⟨nm, e, rfl, he, g3, rfl⟩

/-- The parts of a device that was decoded. -/
theorem parts [GoMath F] {ss : List (Sensor F)} {tk : UInt32} {m : SnapMsg F} {d : Device F}
    (h : Device.fromSnapshotOnto ss tk m = .ok d) :
    ∃ nm sm e, m.navigator = some nm ∧ nm.elevation = some e ∧ m.speed = some sm ∧
      Sensor.fromSnapshot (some e) = .ok d.navigator.elevation ∧ d.navigator.offline.isSome ∧
      Speed.fromSnapshot (some sm) = .ok d.speed ∧
      (if m.sensors.length > 0 then m.sensors.mapM (fun s => Sensor.fromSnapshot (some s)) else .ok ss) = .ok d.sensors ∧
      d.navigator.IndexOk := by
  obtain ⟨n, speed, battery, sensors, d1, h1, h2, h3, h4, h5, rfl⟩ := fromSnapshotOnto_eq h
  have hi := (updateState_iff _).mp ⟨d1, h5⟩
  obtain ⟨st, -, rfl⟩ := updateState_eq h5
  obtain ⟨nm, e, g1, g2, g3, g4⟩ := nav_parts h1
  cases hs : m.speed with
  | none => rw [hs] at h2; cases h2
  | some sm =>
    rw [hs] at h2
    refine ⟨nm, sm, e, g1, g2, rfl, g3, g4, h2, h4, ?_⟩
    have hi : n.routes = [] ∨ (0 ≤ n.routeIndex ∧ n.routeIndex < n.routes.length) := hi
    show (n.routes.map touchRoute) = [] ∨ (0 ≤ n.routeIndex ∧ n.routeIndex < (n.routes.map touchRoute).length)
    simpa using hi

theorem restored_safe [GoMath F] {ss : List (Sensor F)} {tk : UInt32} {m : SnapMsg F} {d : Device F}
    (hss : ∀ s ∈ ss, s.gen.points ≠ []) (hu : Usable m) (h : Device.fromSnapshotOnto ss tk m = .ok d) : DSafe d := by
  obtain ⟨nm, sm, e, h1, h2, h3, h4, h5, h6, h7, h8⟩ := parts h
  refine ⟨⟨h8, fun _ => h5, (sensor_points h4).mp (hu.elevation nm e h1 h2)⟩, ?_, ?_⟩
  · obtain ⟨k1, k2, k3⟩ := speed_points h6
    refine (hu.speed sm h3).imp ?_ k1.mp
    intro hs
    unfold Speed.isStatic
    rw [k2, k3]
    exact hs
  · intro s hs
    split at h7
    · obtain ⟨sm, hm, he⟩ := (mapM_mem h7).1 s hs
      exact (sensor_points he).mp (hu.sensors sm hm)
    · cases h7
      exact hss s hs

/-- The parts of the device after `DecodeTracker`, which updates it. -/
theorem decoded_parts [GoMath F] {m : SnapMsg F} {d : Device F} (h : decodeTracker m = .ok d) :
    ∃ d0, Device.fromSnapshotOnto [] 0 m = .ok d0 ∧ d.speed = d0.speed ∧ d.sensors = d0.sensors ∧
      d.navigator.elevation = d0.navigator.elevation ∧ d.navigator.offline = d0.navigator.offline := by
  obtain ⟨d0, h1, h2⟩ := bind_eq_ok h
  obtain ⟨st, -, rfl⟩ := update_eq h2
  exact ⟨d0, h1, rfl, rfl, rfl, rfl⟩

theorem decoded_safe [GoMath F] {m : SnapMsg F} {d : Device F} (hu : Usable m) (h : decodeTracker m = .ok d) : DSafe d := by
  obtain ⟨d0, h1, h2⟩ := bind_eq_ok h
  obtain ⟨d', h3, h4⟩ := update_safe (restored_safe (by simp) hu h1)
  rw [h2] at h3
  cases h3
  exact h4

theorem fit_safe [GoMath F] {d : Device F} (h : DSafe d) (op : DevOp F) (ho : Fit d op) : OkSafe (d.step op) := by
  cases op with
  | addSensor ss =>
    refine ⟨_, rfl, ?_⟩
    unfold addSensor
    split
    · exact h
    · have := addSensors_mem (k := 0) (l := ss) h.sensors (fun s hs => held_curve (ho s hs))
      generalize addSensors d.sensors 0 ss = q at *
      obtain ⟨held, k⟩ := q
      simp only
      split <;> exact ⟨h.nav, h.speed, this⟩
  | fromSnapshot m =>
    obtain ⟨d', hd⟩ := (fromSnapshot_iff_partial d.sensors d.tick m).mpr ho.1
    exact ⟨d', hd, restored_safe h.sensors ho.2 hd⟩
  | move m => cases m <;> exact step_dsafe h _ ho
  | _ => exact step_dsafe h _ trivial

theorem loaded_safe [GoMath F] {d : Device F} (h : Loaded d) : DSafe d := by
  induction h with
  | new h => exact new_safe h
  | decode hu h => exact decoded_safe hu h
  | step _ ho hs ih =>
    obtain ⟨d1, h1, h2⟩ := fit_safe ih _ ho
    rw [hs] at h1
    cases h1
    exact h2

/-! ## The claim -/

/-- **C93 (partial).** A device that was decoded from a message whose curves have points, and then used in any way, never
panics: the getters, every call, `Next`, `EncodeTracker` and decoding the result.

Missing for the full property: the condition on the curves, which is necessary, see below. -/
theorem usable_partial [GoMath F] (d : Device F) (h : Loaded d) :
    GettersOk d.navigator ∧ (∀ op, Fit d op → Returns (d.step op)) ∧ (∀ tick rnd, Returns (d.next tick rnd)) ∧
    Returns (encodeTracker d) ∧ Returns (decodeTracker d.snapshot) := by
  have hs := loaded_safe h
  refine ⟨getters_ok _ hs.nav.index, ?_, ?_, ?_, ?_⟩
  · intro op ho
    obtain ⟨d', h1, -⟩ := fit_safe hs op ho
    exact ⟨d', h1⟩
  · intro tick rnd
    obtain ⟨d', b, h1, -⟩ := next_safe hs tick rnd
    exact ⟨_, h1⟩
  · obtain ⟨d', h1, -⟩ := update_safe hs
    exact ⟨(d', d'.snapshot), by simp only [encodeTracker, h1, ok_bind, pure_eq_ok]⟩
  · obtain ⟨d', h1, -⟩ := decode_safe hs
    exact ⟨d', h1⟩

/-- **C93, bytes.** A byte string the library does not accept is refused with an error. -/
theorem refused [GoMath F] [WireFloat F] [JsonFloat F] (data : Bytes) (h : (message data : Option (SnapMsg F)) = none) :
    decodeTrackerText (F := F) data = .ok none := by
  unfold message at h
  unfold decodeTrackerText decodeTrackerBytes snapFromBytes
  by_cases hd : data = []
  · subst hd; rfl
  · rw [if_neg hd] at h
    rw [if_neg (by simpa using hd), Option.map_eq_none_iff.mp h]

theorem accepted [GoMath F] [WireFloat F] [JsonFloat F] (data : Bytes) (m : SnapMsg F) (h : message data = some m) :
    decodeTrackerText data = (decodeTracker m).map some := by
  unfold message at h
  unfold decodeTrackerText decodeTrackerBytes snapFromBytes
  by_cases hd : data = []
  · rw [if_pos hd] at h; cases h
  · rw [if_neg hd] at h
    obtain ⟨m', h1, rfl⟩ := Option.map_eq_some_iff.mp h
    rw [if_neg (by simpa using hd), h1]

/-- **C93, bytes (partial).** For every byte string the library accepts, `DecodeTracker` returns exactly if no part is missing
and the route index is in range. What it returns is a device, never an error, and if the curves have points it is one of
the devices above. -/
theorem bytes_partial [GoMath F] [WireFloat F] [JsonFloat F] (data : Bytes) (m : SnapMsg F) (h : message data = some m) :
    (SnapComplete m → ∃ d : Device F, decodeTrackerText data = .ok (some d) ∧ (Usable m → Loaded d)) ∧
    (¬ SnapComplete m → ∃ p, decodeTrackerText (F := F) data = .error p) := by
  rw [accepted data m h]
  constructor
  · intro hc
    obtain ⟨d, hd⟩ := (decodeTracker_iff_partial m).mpr hc
    exact ⟨d, by rw [hd]; rfl, fun hu => .decode hu hd⟩
  · intro hc
    cases hd : decodeTracker m with
    | ok d => exact absurd ((decodeTracker_iff_partial m).mp ⟨d, hd⟩) hc
    | error p => exact ⟨p, rfl⟩

theorem point_empty [GoFloat F] (c : Curve F) (h : c.points = []) (t : F) : c.point t = .error .indexOutOfRange := by
  unfold Curve.point
  rw [h]

theorem sensor_empty [GoFloat F] (s : Sensor F) (h : s.gen.points = []) (t : F) : s.next t = .error .indexOutOfRange := by
  unfold Sensor.next
  rw [point_empty _ h]
  rfl

theorem not_ne {α : Type} {l : List α} (h : ¬ l ≠ []) : l = [] := by
  cases l with
  | nil => rfl
  | cons a l => exact absurd (by simp) h

theorem decoded_sensor [GoMath F] {m : SnapMsg F} {d : Device F} (h : decodeTracker m = .ok d) {i : Nat} {s : SensorMsg F}
    (hs : m.sensors[i]? = some s) : ∃ x, d.sensors[i]? = some x ∧ Sensor.fromSnapshot (some s) = .ok x := by
  obtain ⟨d0, h1, -, h2, -⟩ := decoded_parts h
  obtain ⟨_, _, _, -, -, -, -, -, -, h7, -⟩ := parts h1
  rw [if_pos (List.length_pos_of_mem (List.mem_of_getElem? hs))] at h7
  rw [h2]
  exact (mapM_mem h7).2 i s hs

/-- **The condition on sensors is necessary.** On a sensor whose curve was decoded without points `Next` panics. -/
theorem empty_sensor_panics [GoMath F] (m : SnapMsg F) (d : Device F) (h : decodeTracker m = .ok d) (i : Nat) (s : SensorMsg F)
    (hs : m.sensors[i]? = some s) (he : ¬ Filled s.gen) (t : F) : d.step (.sensorNext i t) = .error .indexOutOfRange := by
  obtain ⟨x, h1, h2⟩ := decoded_sensor h hs
  show d.onSensorNext i t = _
  unfold onSensorNext
  rw [h1]
  simp only
  rw [sensor_empty x (not_ne fun hx => he ((sensor_points h2).mpr hx))]
  rfl

theorem added [GoFloat F] (d : Device F) (rs : List (Option (Route F))) :
    (d.addRoute rs).1.speed = d.speed ∧ (d.addRoute rs).1.sensors = d.sensors ∧
      (d.addRoute rs).1.navigator.elevation = d.navigator.elevation ∧
      (d.addRoute rs).1.navigator.offline = d.navigator.offline := by
  have hn : (d.navigator.addRoute rs).1.elevation = d.navigator.elevation ∧
      (d.navigator.addRoute rs).1.offline = d.navigator.offline := by
    unfold Navigator.addRoute
    split
    · exact ⟨rfl, rfl⟩
    · simp only; split <;> exact ⟨rfl, rfl⟩
  unfold Device.addRoute
  generalize d.navigator.addRoute rs = q at *
  obtain ⟨n, err⟩ := q
  cases err <;> exact ⟨rfl, rfl, hn⟩

/-- **The condition on the speed is necessary.** A device with a speed that is not constant and whose curve was decoded
without points panics in `Next` as soon as it has routes. -/
theorem empty_speed_panics [GoMath F] (m : SnapMsg F) (d : Device F) (h : decodeTracker m = .ok d) (s : CommonMsg F)
    (hs : m.speed = some s) (hm : (s.min ==. s.max) = false) (he : ¬ Filled s.gen) (rs : List (Option (Route F)))
    (hr : (d.addRoute rs).1.navigator.routes ≠ []) (tick : F) (rnd : NextRnd F) :
    (d.addRoute rs).1.next tick rnd = .error .indexOutOfRange := by
  obtain ⟨d0, h1, h2, -, -, h3⟩ := decoded_parts h
  obtain ⟨_, sm, _, -, -, h4, -, h5, h6, -, -⟩ := parts h1
  obtain ⟨a1, -, -, a2⟩ := added d rs
  rw [← h3, ← a2] at h5
  rw [hs] at h4
  cases h4
  rw [← h2, ← a1] at h6
  obtain ⟨k1, k2, k3⟩ := speed_points h6
  generalize (d.addRoute rs).1 = e at *
  have hp : e.speed.gen.points = [] := not_ne fun hx => he (k1.mpr hx)
  have hst : e.speed.isStatic = false := by unfold Speed.isStatic; rw [k2, k3]; exact hm
  have hsp : ∀ t, e.speed.next t = .error .indexOutOfRange := by
    intro t
    unfold Speed.next
    rw [hst, point_empty _ hp]
    rfl
  unfold next
  rw [if_neg (fun hl => hr (List.length_eq_zero_iff.mp hl))]
  simp only
  have hdr : ∀ (x : Device F) (sec : F), x.speed = e.speed → x.navigator = e.navigator →
      ∃ y, x.drain sec rnd.low = .ok y ∧ y.speed = e.speed := by
    intro x sec hx1 hx2
    unfold drain
    simp only
    split
    · rw [hx2]
      unfold toOffline
      split
      · exact ⟨_, rfl, hx1⟩
      · obtain ⟨r, hr⟩ := Option.isSome_iff_exists.mp h5
        rw [hr]
        exact ⟨_, rfl, hx1⟩
    · exact ⟨_, rfl, hx1⟩
  obtain ⟨y, hy, hy1⟩ := hdr { e with tick := 0, state := { e.state with
    duration := e.state.duration +. (lit e.tick.toNat +. tick), tick := lit e.tick.toNat +. tick } }
    (lit e.tick.toNat +. tick) rfl rfl
  rw [hy, ok_bind, hy1, hsp]
  rfl

/-- **The condition on the elevation is necessary** for devices that move: with an elevation or a sensor whose curve was
decoded without points `Next` never returns true. -/
theorem empty_never_moves [GoMath F] (m : SnapMsg F) (d : Device F) (h : decodeTracker m = .ok d)
    (he : (∃ s ∈ m.sensors, ¬ Filled s.gen) ∨ ∃ n e, m.navigator = some n ∧ n.elevation = some e ∧ ¬ Filled e.gen)
    (rs : List (Option (Route F))) (tick : F) (rnd : NextRnd F) (d' : Device F) :
    (d.addRoute rs).1.next tick rnd ≠ .ok (d', true) := by
  intro hn
  obtain ⟨-, a1, a2, -⟩ := added d rs
  have ho := next_outcome hn
  generalize (d.addRoute rs).1 = e at *
  cases ho with
  | moved hr n1 n2 n3 speed sensors d2 _ g1 g2 g3 g4 g5 _ _ =>
    rcases he with ⟨s, hs, hs'⟩ | ⟨nm, el, e1, e2, e3⟩
    · obtain ⟨i, hi⟩ := List.mem_iff_getElem?.mp hs
      obtain ⟨x, hx, hx'⟩ := decoded_sensor h hi
      rw [← a1] at hx
      obtain ⟨y, -, hy⟩ := (mapM_mem g5).2 i x hx
      rw [sensor_empty x (not_ne fun hx => hs' ((sensor_points hx').mpr hx))] at hy
      cases hy
    · obtain ⟨d0, k1, -, -, k2, -⟩ := decoded_parts h
      obtain ⟨nm', _, e', l1, l2, -, l3, -⟩ := parts k1
      rw [e1] at l1
      cases l1
      rw [e2] at l2
      cases l2
      have hp : d.navigator.elevation.gen.points = [] := by
        rw [k2]; exact not_ne fun hx => e3 ((sensor_points l3).mpr hx)
      have hel : n2.elevation = d.navigator.elevation := by
        rw [(nextLocation_routes g3).2.2.2, ← a2]
        unfold powered at g1
        split at g1
        · unfold toOffline at g1
          split at g1
          · cases g1; rfl
          · split at g1
            · cases g1
            · cases g1; rfl
        · cases g1; rfl
      obtain ⟨x, hx, -⟩ := bind_eq_ok g4
      rw [hel, sensor_empty _ hp] at hx
      cases hx

/-! ## The full claim fails -/

/-- Eighteen bytes: a navigator with a point and an elevation, a speed, a battery and a sensor, all with fields at their
defaults and curves without points. -/
def hostile : Bytes := [0x4A, 6, 0x52, 0, 0x5A, 2, 0x3A, 0, 0x52, 2, 0x22, 0, 0x5A, 0, 0x62, 2, 0x3A, 0]

/-- **The full property fails**, for every number type: `DecodeTracker` makes a device of these bytes, and the first `Next` of
its sensor panics. -/
theorem claim_fails [GoMath F] [WireFloat F] [JsonFloat F] :
    ∃ d : Device F, decodeTrackerText hostile = .ok (some d) ∧ ∀ t, d.step (.sensorNext 0 t) = .error .indexOutOfRange := by
  obtain ⟨m, hm⟩ : ∃ m : SnapMsg F, message hostile = some m := ⟨_, rfl⟩
  have hs : m.sensors[0]? = some ⟨"", WireFloat.ofBits 0, WireFloat.ofBits 0, WireFloat.ofBits 0, WireFloat.ofBits 0, "",
      some ⟨[], 0, WireFloat.ofBits 0, WireFloat.ofBits 0⟩⟩ := by
    cases hm; rfl
  have hc : SnapComplete m := by
    cases hm
    refine ⟨⟨_, rfl, ?_, ?_, ⟨_, rfl, _, rfl, ?_⟩, Or.inl rfl⟩, ⟨_, rfl, _, rfl, ?_⟩, ?_, ?_⟩
    · intro r hr; cases hr
    · exact Option.some_ne_none _
    · intro p hp; cases hp
    · intro p hp; cases hp
    · exact Option.some_ne_none _
    · intro s hs
      rcases List.mem_cons.mp (show s ∈ [_] from hs) with rfl | hs
      · exact ⟨_, rfl, fun p hp => by cases hp⟩
      · cases hs
  obtain ⟨d, hd⟩ := (decodeTracker_iff_partial m).mpr hc
  refine ⟨d, by rw [accepted _ m hm, hd]; rfl, fun t => ?_⟩
  exact empty_sensor_panics m d hd 0 _ hs (fun hf => hf _ rfl rfl) t

/-- The same without the sensor and with a speed between 0 and 1. -/
def hostileSpeed : Bytes :=
  [0x4A, 6, 0x52, 0, 0x5A, 2, 0x3A, 0, 0x52, 11, 0x11, 0, 0, 0, 0, 0, 0, 0xF0, 0x3F, 0x22, 0, 0x5A, 0]

/-- **The full property fails for `Next`**, in IEEE doubles: `DecodeTracker` makes a device of these bytes. Once it is given
a route, every `Next` panics; a generator calls it in its own goroutine. -/
theorem next_claim_fails [F64.MathLib] [JsonFloat F64] :
    ∃ d : Device F64, decodeTrackerText hostileSpeed = .ok (some d) ∧
      ∀ rs tick rnd, (d.addRoute rs).1.navigator.routes ≠ [] →
        (d.addRoute rs).1.next tick rnd = .error .indexOutOfRange := by
  obtain ⟨m, hm⟩ : ∃ m : SnapMsg F64, message hostileSpeed = some m := ⟨_, rfl⟩
  have hc : SnapComplete m := by
    cases hm
    refine ⟨⟨_, rfl, ?_, ?_, ⟨_, rfl, _, rfl, ?_⟩, Or.inl rfl⟩, ⟨_, rfl, _, rfl, ?_⟩, ?_, ?_⟩
    · intro r hr; cases hr
    · exact Option.some_ne_none _
    · intro p hp; cases hp
    · intro p hp; cases hp
    · exact Option.some_ne_none _
    · intro s hs; cases hs
  have hs : m.speed = some ⟨WireFloat.ofBits 0, WireFloat.ofBits 0x3FF0000000000000, WireFloat.ofBits 0,
      some ⟨[], 0, WireFloat.ofBits 0, WireFloat.ofBits 0⟩⟩ := by
    cases hm; rfl
  have h01 : F64.eq (WireFloat.ofBits 0) (WireFloat.ofBits 0x3FF0000000000000) = false := by
    clear hs hc hm m
    decide +kernel +revert
  obtain ⟨d, hd⟩ := (decodeTracker_iff_partial m).mpr hc
  refine ⟨d, by rw [accepted _ m hm, hd]; rfl, fun rs tick rnd hr => ?_⟩
  exact empty_speed_panics m d hd _ hs (h01 : F64.eq _ _ = false) (fun hf => hf _ rfl rfl) rs hr tick rnd

/-! ## Concrete cases -/

/-- A snapshot with a track index past the end, a negative segment index, odometers beyond the end and crossed bounds of the
offline period. -/
def odd (m : SnapMsg Toy) : SnapMsg Toy :=
  { m with navigator := m.navigator.map fun n => { n with
      trackIndex := 7, segmentIndex := -3, currentDistance := Toy.of 1000000, offlineMin := 9, offlineMax := 2 } }

/-- It decodes and drives on. -/
example : C24.good.map (fun m => ((decodeTracker (odd m)).bind fun d => d.next (Toy.of 1) Toy.nextRnd).toOption.isSome) =
    some true := by decide +kernel

/-- The curves of a device made through the interface have points. -/
example : C24.good.map (fun m => (m.speed.map fun s => s.gen.map fun c => c.points.length)) = some (some (some 16)) := by
  decide +kernel

/-- Without the points of the elevation the same device panics in the first `Next`. -/
example : C24.good.map (fun m => ((decodeTracker { m with navigator := m.navigator.map fun n => { n with
      elevation := n.elevation.map fun e => { e with gen := e.gen.map fun c => { c with points := [] } } } }).bind
      fun d => d.next (Toy.of 1) Toy.nextRnd).toOption.isSome) = some false := by decide +kernel

end C93
end GpsGen
