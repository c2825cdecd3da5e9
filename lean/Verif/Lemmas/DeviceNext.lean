import Verif.Lemmas.Frame
import Verif.Lemmas.New
import Verif.Model.DevHistory
/-!
# Helper lemmas: the outcomes of `Device.Next`, `Update` and `FromSnapshot`
-/

namespace GpsGen
variable {F : Type}

theorem bind_eq_ok {ε α β : Type} {g : Except ε α} {f : α → Except ε β} {b : β}
    (h : g >>= f = .ok b) :
    ∃ a, g = .ok a ∧ f a = .ok b := by
  cases g with
  | error e => cases h
  | ok a => exact ⟨a, rfl, h⟩

theorem map_eq_ok {ε α β : Type} {g : Except ε α} {f : α → β} {b : β} (h : g.map f = .ok b) :
    ∃ a, g = .ok a ∧ f a = b := by
  cases g with
  | error e => cases h
  | ok a => cases h; exact ⟨a, rfl, rfl⟩

namespace Device
variable [GoMath F]

/-- The sensors published by `updateState`. -/
def pubSensors (old : List (SensorPub F)) (ss : List (Sensor F)) : List (SensorPub F) :=
  if ss.length ≠ old.length then ss.map (fun s => ⟨s.id, s.name, s.valX, s.valY⟩)
  else List.zipWith (fun (p : SensorPub F) (s : Sensor F) => { p with valX := s.valX, valY := s.valY })
    old ss

/-- The state written by `updateState`, given the state written by the navigator. -/
def refreshed (d : Device F) (st : DevState F) : Device F :=
  { d with state := { st with
      charge := d.battery.value
      chargeTime := GoMath.toInt (durSeconds d.battery.chargeTime : F)
      timeEstimate := st.dist.distance /. st.speed
      sensors := pubSensors st.sensors d.sensors } }

theorem updateState_eq {d d' : Device F} (h : d.updateState = .ok d') :
    ∃ st, d.navigator.update d.state = .ok st ∧ d' = d.refreshed st := by
  unfold updateState at h
  obtain ⟨st, h1, h2⟩ := bind_eq_ok h
  refine ⟨st, h1, ?_⟩
  simp only [pure_eq_ok, Except.ok.injEq] at h2
  rw [← h2]
  unfold refreshed pubSensors
  split
  · rfl
  · rfl

/-- What the navigator's `Update` leaves alone. -/
theorem nav_update_frame {n : Navigator F} {s s' : DevState F} (h : n.update s = .ok s') :
    s'.id = s.id ∧ s'.userId = s.userId ∧ s'.tick = s.tick ∧ s'.duration = s.duration ∧
    s'.model = s.model ∧ s'.speed = s.speed ∧ s'.routes = s.routes ∧ s'.sensors = s.sensors ∧
    s'.description = s.description ∧ s'.color = s.color := by
  unfold Navigator.update at h
  obtain ⟨_, _, h⟩ := bind_eq_ok h
  obtain ⟨_, _, h⟩ := bind_eq_ok h
  obtain ⟨_, _, h⟩ := bind_eq_ok h
  obtain ⟨_, _, h⟩ := bind_eq_ok h
  obtain ⟨_, _, h⟩ := bind_eq_ok h
  obtain ⟨_, _, h⟩ := bind_eq_ok h
  cases h
  exact ⟨rfl, rfl, rfl, rfl, rfl, rfl, rfl, rfl, rfl, rfl⟩

/-- The length of the tick that `Next` performs, including skipped ticks. -/
def seconds (d : Device F) (tick : F) : F := lit d.tick.toNat +. tick

/-- The battery after `Next`: it is reset when it ran low. -/
def drained (d : Device F) (s : F) : Battery F :=
  if (d.battery.next s).isLow then (d.battery.next s).reset else d.battery.next s

/-- The navigator after the low-battery check of `Next`. -/
def powered (d : Device F) (s : F) (x : UInt32) : Go (Navigator F) :=
  if (d.battery.next s).isLow then d.navigator.toOffline x else .ok d.navigator

/-- The curve parameter used by `Next`. -/
def phase (d : Device F) (s : F) : F :=
  GoMath.fmin ((d.state.duration +. s +. s) /. d.avgT) (lit 1)

/-- The device after the speed and location updates of `Next`. -/
def advanced (d : Device F) (s : F) (speed : Speed F) (n : Navigator F) : Device F :=
  { d with
    tick := 0, battery := d.drained s, speed := speed, navigator := n
    state := { d.state with duration := d.state.duration +. s, tick := s, speed := speed.value } }

/-- The device at the end of a lap, before its state is refreshed. -/
def lapped (d : Device F) (n : Navigator F) (rnd : NextRnd F) : Device F :=
  { d.updateOfflineState with
    state := { d.updateOfflineState.state with duration := lit 0 }
    speed := d.speed.shuffle rnd.speed
    navigator := n.shuffleElevation rnd.elevation
    sensors := shuffleSensors d.sensors rnd.sensor }

/-- The outcomes of `Next`. -/
inductive NextOutcome (d : Device F) (tick : F) (rnd : NextRnd F) : Device F → Bool → Prop
  | idle (h : d.navigator.routes = []) : NextOutcome d tick rnd d false
  | halted (hr : d.navigator.routes ≠ []) (n1 n2 : Navigator F) (speed : Speed F)
      (h1 : d.powered (d.seconds tick) rnd.low = .ok n1)
      (h2 : d.speed.next (d.phase (d.seconds tick)) = .ok speed)
      (h3 : n1.nextLocation (d.seconds tick) speed.value rnd.loc = .ok (n2, false))
      (h4 : n2.isFinish.2 = false) :
      NextOutcome d tick rnd
        { (d.advanced (d.seconds tick) speed n2).updateOfflineState with navigator := n2.isFinish.1 } false
  | lap (hr : d.navigator.routes ≠ []) (n1 n2 : Navigator F) (speed : Speed F) (d' : Device F)
      (h1 : d.powered (d.seconds tick) rnd.low = .ok n1)
      (h2 : d.speed.next (d.phase (d.seconds tick)) = .ok speed)
      (h3 : n1.nextLocation (d.seconds tick) speed.value rnd.loc = .ok (n2, false))
      (h4 : n2.isFinish.2 = true)
      (h5 : ((d.advanced (d.seconds tick) speed n2).lapped n2.isFinish.1 rnd).updateState = .ok d') :
      NextOutcome d tick rnd d' false
  | moved (hr : d.navigator.routes ≠ []) (n1 n2 n3 : Navigator F) (speed : Speed F)
      (sensors : List (Sensor F)) (d2 d' : Device F)
      (h1 : d.powered (d.seconds tick) rnd.low = .ok n1)
      (h2 : d.speed.next (d.phase (d.seconds tick)) = .ok speed)
      (h3 : n1.nextLocation (d.seconds tick) speed.value rnd.loc = .ok (n2, true))
      (h4 : n2.nextElevation (d.phase (d.seconds tick)) = .ok n3)
      (h5 : d.sensors.mapM (fun s => s.next (d.phase (d.seconds tick))) = .ok sensors)
      (hd2 : d2 = { d.advanced (d.seconds tick) speed n3 with sensors := sensors })
      (h6 : (if d2.navigator.sum ≠ d2.ns then d2.updateRoutes else d2).updateState = .ok d') :
      NextOutcome d tick rnd d' true

theorem next_outcome {d d' : Device F} {tick : F} {rnd : NextRnd F} {b : Bool}
    (h : d.next tick rnd = .ok (d', b)) : NextOutcome d tick rnd d' b := by
  unfold next at h
  split at h
  · rename_i hl
    cases h
    exact .idle (List.length_eq_zero_iff.mp hl)
  · rename_i hl
    have hr : d.navigator.routes ≠ [] := fun hc => hl (List.length_eq_zero_iff.mpr hc)
    obtain ⟨d1, hd1, h⟩ := bind_eq_ok h
    have hpow : ∃ n1, d.powered (d.seconds tick) rnd.low = .ok n1 ∧
        d1 = { d with tick := 0, battery := d.drained (d.seconds tick), navigator := n1
                      state := { d.state with duration := d.state.duration +. d.seconds tick,
                                              tick := d.seconds tick } } := by
      unfold powered drained
      unfold seconds
      unfold drain at hd1
      simp only at hd1
      split at hd1
      · rename_i hb
        simp only [hb, if_true]
        obtain ⟨n1, hn1, hd1⟩ := bind_eq_ok hd1
        cases hd1
        exact ⟨n1, hn1, rfl⟩
      · rename_i hb
        simp only [hb]
        cases hd1
        exact ⟨d.navigator, rfl, rfl⟩
    obtain ⟨n1, hn1, rfl⟩ := hpow
    obtain ⟨speed, hs, h⟩ := bind_eq_ok h
    obtain ⟨⟨n2, ok⟩, hn2, h⟩ := bind_eq_ok h
    obtain ⟨d4, hd4, h⟩ := bind_eq_ok h
    simp only [pure_eq_ok, Except.ok.injEq, Prod.mk.injEq] at h
    obtain ⟨e1, e2⟩ := h
    subst e1 e2
    cases ok with
    | false =>
      simp only [Bool.false_eq_true, if_false, halt] at hd4
      split at hd4
      · rename_i hf
        exact .lap hr n1 n2 speed d4 hn1 hs hn2 hf hd4
      · rename_i hf
        cases hd4
        exact .halted hr n1 n2 speed hn1 hs hn2 (eq_false_of_ne_true hf)
    | true =>
      simp only [if_true, proceed] at hd4
      obtain ⟨n3, hn3, h⟩ := bind_eq_ok hd4
      obtain ⟨ss, hss, h⟩ := bind_eq_ok h
      exact .moved hr n1 n2 n3 speed ss _ d4 hn1 hs hn2 hn3 hss rfl h

theorem powered_step {d : Device F} {s : F} {x : UInt32} {n : Navigator F}
    (h : d.powered s x = .ok n) :
    n = d.navigator ∨ d.navigator.step (.toOffline x) = .ok n := by
  unfold powered at h
  split at h
  · exact Or.inr h
  · cases h; exact Or.inl rfl

theorem fromSnapshotOnto_eq {ss : List (Sensor F)} {tk : UInt32} {m : SnapMsg F} {d : Device F}
    (h : fromSnapshotOnto ss tk m = .ok d) :
    ∃ n speed battery sensors d1,
      Navigator.fromSnapshot m.navigator = .ok n ∧ Speed.fromSnapshot m.speed = .ok speed ∧
      Battery.fromSnapshot m.battery = .ok battery ∧
      (if m.sensors.length > 0 then m.sensors.mapM (fun s => Sensor.fromSnapshot (some s))
        else .ok ss) = .ok sensors ∧
      ({ status := m.status % 256, navigator := n, speed := speed, battery := battery
         state := { (DevState.init : DevState F) with
           id := m.id, userId := m.userId, tick := m.tick, model := m.model, color := m.color
           description := m.descr, duration := m.duration, speed := speed.value }
         sensors := sensors, avgT := lit 0, tick := tk, ns := (0, 0, 0) } : Device F).updateSensors.updateState
          = .ok d1 ∧
      d = d1.updateRoutes := by
  unfold fromSnapshotOnto at h
  obtain ⟨n, h1, h⟩ := bind_eq_ok h
  obtain ⟨speed, h2, h⟩ := bind_eq_ok h
  obtain ⟨battery, h3, h⟩ := bind_eq_ok h
  obtain ⟨sensors, h4, h⟩ := bind_eq_ok h
  obtain ⟨d1, h5, h⟩ := bind_eq_ok h
  cases h
  exact ⟨n, speed, battery, sensors, d1, h1, h2, h3, h4, h5, rfl⟩

theorem update_eq {d d' : Device F} (h : d.update = .ok d') :
    ∃ st, d.navigator.update d.state = .ok st ∧ d' = (d.refreshed st).updateRoutes.updateSensors := by
  unfold update at h
  obtain ⟨d1, h1, h⟩ := bind_eq_ok h
  cases h
  obtain ⟨st, hst, rfl⟩ := updateState_eq h1
  exact ⟨st, hst, rfl⟩

end Device

theorem applyFor_eq {o : DeviceOptions F} {rnd : DeviceRnd F} {s s' : DevState F}
    (h : o.applyFor rnd s = .ok s') :
    ∃ model color, s' = { s with
      id := if goLen o.id = 0 then rnd.uid else o.id, description := o.descr, model := model
      userId := o.userID, color := color } ∧
      (if goLen o.model > 0 then newModel o.model else .ok ("Device-" ++ rnd.suffix)) = .ok model ∧
      (if goLen o.color > 0 then rnd.hex o.color else some rnd.color) = some color := by
  unfold DeviceOptions.applyFor at h
  generalize (if goLen o.id = 0 then rnd.uid else o.id) = i at h ⊢
  obtain ⟨model, hm, h⟩ := bind_eq_ok h
  split at h
  · rename_i hc
    split at h
    · cases h
    · rename_i c hh
      cases h
      exact ⟨model, c, rfl, hm, by rw [if_pos hc, hh]⟩
  · rename_i hc
    cases h
    exact ⟨model, rnd.color, rfl, hm, by rw [if_neg hc]⟩

theorem Device.new_eq [GoFloat F] {rnd : DeviceRnd F} {opts : Option (DeviceOptions F)} {d : Device F}
    (h : Device.new rnd opts = .ok d) :
    ∃ n speed battery state,
      Navigator.new rnd.sensorUid rnd.elevationDraws (opts.getD DeviceOptions.default).navOpts = .ok n ∧
      Speed.new rnd.speedDraws (opts.getD DeviceOptions.default).speedMin
        (opts.getD DeviceOptions.default).speedMax (opts.getD DeviceOptions.default).speedAmplitude
        = .ok speed ∧
      Battery.new (opts.getD DeviceOptions.default).batteryMin
        (opts.getD DeviceOptions.default).batteryMax (opts.getD DeviceOptions.default).chargeTime
        = .ok battery ∧
      (opts.getD DeviceOptions.default).applyFor rnd DevState.init = .ok state ∧
      d = { status := Status.stopped, navigator := n, speed := speed, battery := battery
            state := state, sensors := [], avgT := lit 0, tick := 0, ns := (0, 0, 0) } := by
  unfold Device.new at h
  obtain ⟨n, h1, h⟩ := bind_eq_ok h
  obtain ⟨speed, h2, h⟩ := bind_eq_ok h
  obtain ⟨battery, h3, h⟩ := bind_eq_ok h
  obtain ⟨state, h4, h⟩ := bind_eq_ok h
  cases h
  exact ⟨n, speed, battery, state, h1, h2, h3, h4, rfl⟩

theorem Device.run_induction [GoMath F] (P : Device F → Prop)
    (hs : ∀ d d' op, P d → d.step op = .ok d' → P d') (d d' : Device F) (ops : List (DevOp F))
    (h0 : P d) (h : d.run ops = .ok d') : P d' := by
  induction ops generalizing d with
  | nil => cases h; exact h0
  | cons op ops ih =>
    obtain ⟨d1, h1, h2⟩ := bind_eq_ok h
    exact ih d1 (hs d d1 op h0 h1) h2

end GpsGen
