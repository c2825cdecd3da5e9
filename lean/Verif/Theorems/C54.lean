import Verif.Lemmas.DeviceSafe
import Verif.Theorems.C07
/-!
# C54: device operations never panic

Any number type. The full property inherits the defect of C07: `DestinationTo` into the third of three
routes leaves a route index out of range, after which `Next`, `Update` and the getters panic
(`device_never_panics_fails`). `device_never_panics_partial` covers every history that calls
`DestinationTo` only while at most two routes are held.

Out of scope: snapshots that were not produced by `Snapshot` (C24), and nil property maps.
-/

namespace GpsGen
variable {F : Type}

namespace C54
open Device Navigator C24 C07

/-- Sensors a client can hold: created by a constructor and then used. -/
inductive ApiSensor [GoFloat F] : Sensor F → Prop
  | new {uid : String} {draws : Nat → F} {name : String} {a b : F} {k : Int} {m : UInt16} {s : Sensor F} :
      Sensor.new uid draws name a b k m = .ok s → ApiSensor s
  | restore {p : Option String} {draws : Nat → F} {name : String} {a b : F} {k : Int} {m : UInt16}
      {s : Sensor F} : Sensor.restore p draws name a b k m = .ok s → ApiSensor s
  | shuffle {s : Sensor F} (draws : Nat → F) : ApiSensor s → ApiSensor (s.shuffle draws)
  | next {s s' : Sensor F} {t : F} : ApiSensor s → s.next t = .ok s' → ApiSensor s'
  | decode {s : Sensor F} : ApiSensor s → ∀ s', Sensor.fromSnapshot (some s.snapshot) = .ok s' →
      ApiSensor s'

/-- The operations covered: every one, except that added sensors are `ApiSensor`s and `DestinationTo`
is called only while at most two routes are held. Restoring is a separate constructor of `Live`. -/
def Proper [GoFloat F] (d : Device F) : DevOp F → Prop
  | .addSensor ss => ∀ s, some s ∈ ss → ApiSensor s
  | .move (.destinationTo _) => d.navigator.routes.length ≤ 2
  | .fromSnapshot _ => False
  | _ => True

/-- Devices a client can hold. -/
inductive Live [GoMath F] : Device F → Prop
  | new {rnd : DeviceRnd F} {o : Option (DeviceOptions F)} {d : Device F} :
      Device.new rnd o = .ok d → Live d
  | step {d d' : Device F} {op : DevOp F} : Live d → Proper d op → d.step op = .ok d' → Live d'
  | restore {d e d' : Device F} : Live d → Live e → d.fromSnapshot e.snapshot = .ok d' → Live d'
  | decode {e d' : Device F} : Live e → decodeTracker e.snapshot = .ok d' → Live d'

/-! ## Proof -/

theorem apiSensor_curve [GoFloat F] {s : Sensor F} (h : ApiSensor s) : s.gen.points ≠ [] := by
  induction h with
  | new h => exact sensor_new h
  | restore h => exact sensor_restore h
  | shuffle draws _ ih => exact curve_shuffle _ _ ih
  | next _ h ih =>
    obtain ⟨s', h1, h2⟩ := sensor_next _ _ ih
    rw [h] at h1
    cases h1
    exact h2
  | decode _ s' h ih =>
    rw [sensor_round_trip] at h
    cases h
    exact ih

theorem step_dsafe [GoMath F] {d : Device F} (h : DSafe d) (op : DevOp F) (ho : Proper d op) :
    OkSafe (d.step op) := by
  cases op with
  | addRoute rs =>
    refine ⟨_, rfl, ?_⟩
    obtain ⟨k1, k2⟩ := nav_safe h (.addRoute rs) (fun _ => by simp) rfl
    unfold Device.addRoute
    generalize d.navigator.addRoute rs = q at *
    obtain ⟨n, err⟩ := q
    cases err
    · exact k2
    · exact k1
  | removeRoute id =>
    refine ⟨_, rfl, ?_⟩
    obtain ⟨k1, k2⟩ := nav_safe h (.removeRoute id) (fun _ => by simp) rfl
    unfold Device.removeRoute
    generalize d.navigator.removeRoute id = q at *
    obtain ⟨n, ok⟩ := q
    cases ok
    · exact k1
    · exact k2
  | removeTrack rid tid =>
    refine ⟨_, rfl, ?_⟩
    obtain ⟨k1, k2⟩ := nav_safe h (.removeTrack rid tid) (fun _ => by simp) rfl
    unfold Device.removeTrack
    generalize d.navigator.removeTrack rid tid = q at *
    obtain ⟨n, ok⟩ := q
    cases ok
    · exact k1
    · exact k2
  | resetRoutes =>
    refine ⟨_, rfl, ?_⟩
    obtain ⟨k1, k2⟩ := nav_safe h .resetRoutes (fun _ => by simp) rfl
    unfold Device.resetRoutes
    generalize d.navigator.resetRoutes = q at *
    obtain ⟨n, ok⟩ := q
    cases ok
    · exact k1
    · exact k2
  | move m =>
    refine move_safe h m.navOp ?_
    rintro ⟨x, hx⟩
    cases m <;> first | exact ho | cases hx
  | onRoute i op => exact move_safe h (.onRoute i op) (by rintro ⟨m, e⟩; cases e)
  | addSensor ss =>
    refine ⟨_, rfl, ?_⟩
    unfold addSensor
    split
    · exact h
    · have := addSensors_mem (k := 0) (l := ss) h.sensors (fun s hs => apiSensor_curve (ho s hs))
      generalize addSensors d.sensors 0 ss = q at *
      obtain ⟨held, k⟩ := q
      simp only
      split <;> exact ⟨h.nav, h.speed, this⟩
  | removeSensor id =>
    refine ⟨_, rfl, ?_⟩
    unfold removeSensor
    split
    · exact h
    · have : ∀ s ∈ (removeFirst (fun s : Sensor F => s.id == id) d.sensors).1, s.gen.points ≠ [] :=
        fun s hs => h.sensors s (mem_removeFirst hs)
      generalize removeFirst (fun s : Sensor F => s.id == id) d.sensors = q at *
      obtain ⟨held, k⟩ := q
      simp only
      split <;> exact ⟨h.nav, h.speed, this⟩
  | resetSensors => exact ⟨_, rfl, ⟨h.nav, h.speed, fun _ hs => by cases hs⟩⟩
  | sensorNext i t => exact onSensorNext_safe h i t
  | sensorShuffle i draws =>
    refine ⟨_, rfl, ⟨h.nav, h.speed, ?_⟩⟩
    intro s hs
    obtain ⟨j, hj, rfl⟩ := List.mem_iff_getElem.mp hs
    rw [List.getElem_modify]
    rw [List.length_modify] at hj
    split
    · exact curve_shuffle _ _ (h.sensors _ (List.getElem_mem hj))
    · exact h.sensors _ (List.getElem_mem hj)
  | next tick rnd =>
    obtain ⟨d', b, h1, h2⟩ := next_safe h tick rnd
    exact ⟨d', by simp only [Device.step, h1]; rfl, h2⟩
  | skipTick => exact ⟨_, rfl, ⟨h.nav, h.speed, h.sensors⟩⟩
  | update => exact update_safe h
  | setModel s =>
    refine ⟨_, rfl, ?_⟩
    unfold setModel
    split
    · exact h
    · exact ⟨h.nav, h.speed, h.sensors⟩
  | setUserID s => exact ⟨_, rfl, ⟨h.nav, h.speed, h.sensors⟩⟩
  | setDescription s => exact ⟨_, rfl, ⟨h.nav, h.speed, h.sensors⟩⟩
  | setColor c =>
    refine ⟨_, rfl, ?_⟩
    unfold setColor
    split
    · exact h
    · exact ⟨h.nav, h.speed, h.sensors⟩
  | fromSnapshot m => exact ho.elim

theorem decode_safe [GoMath F] {e : Device F} (h : DSafe e) : OkSafe (decodeTracker e.snapshot) := by
  obtain ⟨d, h1, h2⟩ := restore_safe (ss := []) (tk := 0) (by simp) h
  obtain ⟨d', h3, h4⟩ := update_safe h2
  exact ⟨d', by simp only [decodeTracker, h1, ok_bind, h3], h4⟩

theorem live_safe [GoMath F] {d : Device F} (h : Live d) : DSafe d := by
  induction h with
  | new h => exact new_safe h
  | step _ ho hs ih =>
    obtain ⟨d1, h1, h2⟩ := step_dsafe ih _ ho
    rw [hs] at h1
    cases h1
    exact h2
  | restore _ _ hr ih1 ih2 =>
    obtain ⟨d1, h1, h2⟩ := restore_safe (tk := _) ih1.sensors ih2
    unfold Device.fromSnapshot at hr
    rw [hr] at h1
    cases h1
    exact h2
  | decode _ hr ih =>
    obtain ⟨d1, h1, h2⟩ := decode_safe ih
    rw [hr] at h1
    cases h1
    exact h2

/-! ## The claim -/

/-- **C54 (partial).** On a device obtained through the public interface every operation returns, as
do all getters of the navigator, encoding it, restoring any other such device onto it, and decoding
its own encoding.

Missing for the full property: the proviso on `DestinationTo` in `Proper`, which is necessary, see
`device_never_panics_fails`. -/
theorem device_never_panics_partial [GoMath F] (d : Device F) (h : Live d) :
    GettersOk d.navigator ∧ (∀ op, Proper d op → Returns (d.step op)) ∧
    (∀ tick rnd, Returns (d.next tick rnd)) ∧
    (∀ e, Live e → Returns (d.fromSnapshot e.snapshot)) ∧
    Returns (encodeTracker d) ∧ Returns (decodeTracker d.snapshot) := by
  have hs := live_safe h
  refine ⟨getters_ok _ hs.nav.index, ?_, ?_, ?_, ?_, ?_⟩
  · intro op ho
    obtain ⟨d', h1, -⟩ := step_dsafe hs op ho
    exact ⟨d', h1⟩
  · intro tick rnd
    obtain ⟨d', b, h1, -⟩ := next_safe hs tick rnd
    exact ⟨_, h1⟩
  · intro e he
    obtain ⟨d', h1, -⟩ := restore_safe (ss := d.sensors) (tk := d.tick) hs.sensors (live_safe he)
    exact ⟨d', h1⟩
  · obtain ⟨d', h1, -⟩ := update_safe hs
    exact ⟨(d', d'.snapshot), by simp only [encodeTracker, h1, ok_bind, pure_eq_ok]⟩
  · obtain ⟨d', h1, -⟩ := decode_safe hs
    exact ⟨d', h1⟩

/-! ## The full property fails -/

/-- A route of one track with two segments. -/
def demoRoute (id : String) : Route Toy :=
  Route.addTrack (Route.restore id "#000000" none) (some Toy.track)

/-- Three routes, then a jump into the third one. -/
def jump : List (DevOp Toy) :=
  [.addRoute [some (demoRoute "a"), some (demoRoute "b"), some (demoRoute "c")],
   .move (.destinationTo (Toy.of (5 / 2 * (demoRoute "a").dist.val)))]

/-- **The full property fails.** A device holding three routes is sent into the third one. From then
on `Next` panics, `Update` and hence `EncodeTracker` panic, and so does decoding the snapshot. -/
theorem device_never_panics_fails :
    ∃ d, Toy.dev jump = some d ∧ d.next (Toy.of 1) Toy.nextRnd = .error .indexOutOfRange ∧
      d.update = .error .indexOutOfRange ∧ d.navigator.currentRoute = .error .indexOutOfRange ∧
      decodeTracker d.snapshot = .error .indexOutOfRange := by
  have : (Toy.dev jump).isSome = true := by decide +kernel
  obtain ⟨d, hd⟩ := Option.isSome_iff_exists.mp this
  refine ⟨d, hd, ?_⟩
  have h : (Toy.dev jump).all (fun d =>
      decide (d.next (Toy.of 1) Toy.nextRnd = .error .indexOutOfRange ∧
        d.update = .error .indexOutOfRange ∧ d.navigator.currentRoute = .error .indexOutOfRange ∧
        decodeTracker d.snapshot = .error .indexOutOfRange)) = true := by decide +kernel
  rw [hd] at h
  simpa using h

/-! ## A concrete case -/

/-- Two routes, a sensor, a jump into the second route, ticks, a removal. -/
def tour (s : Sensor Toy) : List (DevOp Toy) :=
  [.addRoute [some (demoRoute "a"), some (demoRoute "b")], .addSensor [some s],
   .move (.destinationTo (Toy.of (3 / 2 * (demoRoute "a").dist.val))),
   .next (Toy.of 1) Toy.nextRnd, .sensorNext 0 (Toy.of 1), .removeRoute "b", .next (Toy.of 3) Toy.nextRnd]

/-- A sensor with four control points. -/
def probe : Sensor Toy :=
  match Sensor.new "s" (fun _ => Toy.of 0) "probe" (Toy.of 0) (Toy.of 9) 4 0 with
  | .ok s => s
  | .error _ => ⟨"", "", Toy.of 0, Toy.of 0, Toy.of 0, Toy.of 0, ⟨[], 0, Toy.of 0, Toy.of 0⟩⟩

/-- The history runs and moves the device into the second route. -/
example : (Toy.dev ((tour probe).take 4)).map (fun d => (d.navigator.routeIndex, d.sensors.length)) =
    some (1, 1) := by decide +kernel
example : (Toy.dev (tour probe)).isSome = true := by decide +kernel

/-- A sensor whose curve has no points, which no constructor produces, makes `Next` panic. -/
example : Toy.dev [.addRoute [some (demoRoute "a")],
    .addSensor [some ⟨"s", "s", Toy.of 0, Toy.of 0, Toy.of 0, Toy.of 0, ⟨[], 0, Toy.of 0, Toy.of 0⟩⟩],
    .next (Toy.of 1) Toy.nextRnd] = none := by decide +kernel

end C54
end GpsGen
