import Verif.Theorems.C22
import Verif.Lemmas.DeviceTwin
import Verif.Lemmas.DeviceReal
/-!
# C23: a device survives EncodeTracker/DecodeTracker

Any number type, any device that was created, operated, restored or decoded, any continuation. The
unrestricted claim is false; three pieces of state are not in the snapshot (see the negations at the
end): the pending tick counter, the published speed, and the ids published when there is no current
route or track. The theorems are `_partial` because they exclude exactly these cases and, as C21 and
C22, properties that JSON cannot represent.
-/

namespace GpsGen
variable {F : Type}

namespace C23
open Device Navigator C21 C22

/-- Operations with faithful properties; restoring is a separate constructor of `Lived`. -/
def SoundDevOp : DevOp F → Prop
  | .addRoute rs => ∀ r, some r ∈ rs → SoundRoute r
  | .onRoute _ op => SoundRouteOp op
  | .fromSnapshot _ => False
  | _ => True

/-- A tick that takes effect. -/
def Ticks (d : Device F) (op : DevOp F) : Prop := (∃ t r, op = .next t r) ∧ d.navigator.routes ≠ []

/-- Devices with a history. The first argument implies that the speed has been published: a tick took
effect or the device was restored. -/
inductive Lived [GoMath F] : Prop → Device F → Prop
  | new {rnd opts d} (h : Device.new rnd opts = .ok d) : Lived False d
  | step {p d op d'} (hd : Lived p d) (ho : SoundDevOp op) (h : d.step op = .ok d') :
      Lived (p ∨ Ticks d op) d'
  | restore {p q d e d'} (hd : Lived p d) (he : Lived q e) (h : d.fromSnapshot e.snapshot = .ok d') :
      Lived True d'
  | decode {p d e m d'} (hd : Lived p d) (he : encodeTracker d = .ok (e, m))
      (h : decodeTracker m = .ok d') : Lived True d'

/-- No route (track) id remains published from the time when there was a current route (track). -/
def NoStale (d : Device F) : Prop :=
  (d.navigator.currentRoute = .ok none → d.state.nav.currentRouteId = "") ∧
  (d.navigator.currentTrack = .ok none → d.state.nav.currentTrackId = "")

/-! ## Proof -/

theorem sound_of [GoFloat F] {n n' : Navigator F} (h : Sound n) (hr : ∀ r ∈ n'.routes, SoundRoute r)
    (ho : n'.skipOffline = n.skipOffline ∧ n'.offline = n.offline) : Sound n' :=
  ⟨hr, by rw [ho.1, ho.2]; exact h.offline⟩

theorem faithful_make : FaithfulProps (some (PMap.make : PMap F)) := by
  intro m hm
  cases hm
  exact ⟨List.nodup_nil, fun e he => by cases he⟩

theorem sound_touch {r : Route F} (h : SoundRoute r) : SoundRoute (touchRoute r) := by
  rw [touchRoute_eq]
  refine ⟨h.1, ?_, ?_⟩
  · have h2 := h.2.1
    unfold Route.propsOf
    cases hp : r.props with
    | none => exact faithful_make
    | some p => rw [hp] at h2; exact h2
  · intro t ht
    obtain ⟨a, ha, rfl⟩ := List.mem_map.mp ht
    have h2 := h.2.2 a ha
    rw [Track.propsOf_fields]
    show FaithfulProps (some a.propsOf.2)
    unfold Track.propsOf
    cases hp : a.props with
    | none => exact faithful_make
    | some p => rw [hp] at h2; exact h2

theorem sound_touched [GoFloat F] {n : Navigator F} (h : Sound n) : Sound (touched n) := by
  refine sound_of h ?_ ⟨rfl, rfl⟩
  intro r hr
  obtain ⟨a, ha, rfl⟩ := List.mem_map.mp hr
  exact sound_touch (h.routes a ha)

theorem nav_sound [GoMath F] {n n' : Navigator F} {op : NavOp F} (h : Sound n) (ho : SoundOp op)
    (hs : n.step op = .ok n') : Sound n' := step_sound h ho hs

theorem proceed_sound [GoMath F] {d d' : Device F} {t : F} (h : Sound d.navigator)
    (hp : d.proceed t = .ok d') : Sound d'.navigator := by
  unfold proceed at hp
  obtain ⟨n, h1, hp⟩ := bind_eq_ok hp
  obtain ⟨ss, h2, hp⟩ := bind_eq_ok hp
  have hn : Sound n := nav_sound h (op := .nextElevation t) trivial h1
  obtain ⟨st, h3, rfl⟩ := updateState_eq hp
  simp only [refreshed]
  split
  · exact sound_touched hn
  · exact hn

theorem halt_sound [GoMath F] {d d' : Device F} {rnd : NextRnd F} (h : Sound d.navigator)
    (hp : d.halt rnd = .ok d') : Sound d'.navigator := by
  unfold halt at hp
  have hf : Sound d.navigator.isFinish.1 := nav_sound h (op := .isFinish) trivial rfl
  simp only at hp
  split at hp
  · obtain ⟨st, h3, rfl⟩ := updateState_eq hp
    exact nav_sound hf (op := .shuffleElevation rnd.elevation) trivial rfl
  · cases hp
    exact hf

theorem next_sound [GoMath F] {d d' : Device F} {t : F} {rnd : NextRnd F} {b : Bool}
    (hs : Sound d.navigator) (h : d.next t rnd = .ok (d', b)) : Sound d'.navigator := by
  unfold next at h
  split at h
  · cases h; exact hs
  · simp only at h
    obtain ⟨d1, h1, h⟩ := bind_eq_ok h
    have g1 : Sound d1.navigator := by
      unfold drain at h1
      dsimp only at h1
      split at h1
      · obtain ⟨n, h2, h1⟩ := bind_eq_ok h1
        cases h1
        exact nav_sound hs (op := .toOffline rnd.low) trivial h2
      · cases h1; exact hs
    obtain ⟨sp, h2, h⟩ := bind_eq_ok h
    obtain ⟨⟨n, ok⟩, h3, h⟩ := bind_eq_ok h
    have hn : Sound n := by
      refine nav_sound g1 (op := .nextLocation (lit d.tick.toNat +. t) sp.value rnd.loc) trivial ?_
      simp only [Navigator.step]
      rw [h3]; rfl
    obtain ⟨d2, h4, h⟩ := bind_eq_ok h
    simp only [pure_eq_ok, Except.ok.injEq, Prod.mk.injEq] at h
    obtain ⟨rfl, -⟩ := h
    split at h4
    · exact proceed_sound (d := { d1 with
        speed := sp, state := { d1.state with speed := sp.value }, navigator := n }) hn h4
    · exact halt_sound (d := { d1 with
        speed := sp, state := { d1.state with speed := sp.value }, navigator := n }) hn h4

theorem update_sound [GoMath F] {d d' : Device F} (h : Sound d.navigator) (hu : d.update = .ok d') :
    Sound d'.navigator := by
  obtain ⟨st, -, rfl⟩ := update_eq hu
  exact sound_touched (n := d.navigator) h

theorem devStep_sound [GoMath F] {d d' : Device F} {op : DevOp F} (h : Sound d.navigator)
    (ho : SoundDevOp op) (hs : d.step op = .ok d') : Sound d'.navigator := by
  cases op with
  | addRoute rs =>
    have := nav_sound h (op := .addRoute rs) ho rfl
    cases hs
    unfold Device.addRoute
    revert this
    cases d.navigator.addRoute rs with
    | mk n err =>
      cases err with
      | none => exact fun h => sound_touched (n := n) h
      | some e => exact fun h => h
  | removeRoute id =>
    have := nav_sound h (op := .removeRoute id) trivial rfl
    cases hs
    unfold Device.removeRoute
    revert this
    cases d.navigator.removeRoute id with
    | mk n ok =>
      cases ok with
      | true => exact fun h => sound_touched (n := n) h
      | false => exact fun h => h
  | removeTrack rid tid =>
    have := nav_sound h (op := .removeTrack rid tid) trivial rfl
    cases hs
    unfold Device.removeTrack
    revert this
    cases d.navigator.removeTrack rid tid with
    | mk n ok =>
      cases ok with
      | true => exact fun h => sound_touched (n := n) h
      | false => exact fun h => h
  | resetRoutes =>
    have := nav_sound h (op := .resetRoutes) trivial rfl
    cases hs
    unfold Device.resetRoutes
    revert this
    cases d.navigator.resetRoutes with
    | mk n ok =>
      cases ok with
      | true => exact fun h => sound_touched (n := n) h
      | false => exact fun h => h
  | move m =>
    obtain ⟨n, hn, rfl⟩ := map_eq_ok hs
    exact nav_sound h (by cases m <;> trivial) hn
  | onRoute i rop =>
    cases hs
    exact nav_sound (op := .onRoute i rop) h ho rfl
  | addSensor ss =>
    cases hs
    unfold addSensor
    split
    · exact h
    · simp only
      split <;> exact h
  | removeSensor id =>
    cases hs
    unfold removeSensor
    split
    · exact h
    · simp only
      split <;> exact h
  | resetSensors => cases hs; exact h
  | sensorNext i t =>
    simp only [Device.step, onSensorNext] at hs
    split at hs
    · cases hs; exact h
    · obtain ⟨y, _, hs⟩ := bind_eq_ok hs
      cases hs
      exact h
  | sensorShuffle i draws => cases hs; exact h
  | next t rnd =>
    obtain ⟨⟨x, b⟩, hn, hd⟩ := map_eq_ok hs
    cases hd
    exact next_sound h hn
  | skipTick => cases hs; exact h
  | update => exact update_sound h hs
  | setModel m =>
    cases hs
    unfold setModel
    cases newModel m <;> exact h
  | setUserID m => cases hs; exact h
  | setDescription m => cases hs; exact h
  | setColor c => cases hs; cases c <;> exact h
  | fromSnapshot m => exact ho.elim

theorem alike_sound [GoFloat F] {n m : Navigator F} (h : Sound n) (ha : Alike n m) : Sound m := by
  rcases ha with rfl | ⟨hs, o, rfl⟩
  · exact h
  · exact ⟨h.routes, Or.inl hs⟩

theorem restored_sound [GoMath F] {ss : List (Sensor F)} {tk : UInt32} {e d' : Device F}
    (h : Sound e.navigator) (hr : fromSnapshotOnto ss tk e.snapshot = .ok d') :
    Sound d'.navigator ∧ d'.state.speed = d'.speed.value := by
  obtain ⟨n, speed, battery, sensors, d1, h1, h2, h3, h4, h5, rfl⟩ := fromSnapshotOnto_eq hr
  obtain ⟨m, h6, h7⟩ := restore_sound h
  rw [show e.snapshot.navigator = some e.navigator.snapshot from rfl, h6] at h1
  cases h1
  obtain ⟨st, h8, rfl⟩ := updateState_eq h5
  refine ⟨sound_touched (n := n) (alike_sound h h7), ?_⟩
  have := nav_update_frame h8
  exact this.2.2.2.2.2.1

theorem update_speed [GoMath F] {d d' : Device F} (h : d.update = .ok d') :
    d'.speed = d.speed ∧ d'.state.speed = d.state.speed :=
  step_speed_frame (op := .update) h (by intros; simp) (by intros; simp)

theorem next_published [GoMath F] {d d' : Device F} {t : F} {rnd : NextRnd F} {b : Bool}
    (h : d.next t rnd = .ok (d', b)) :
    (d.navigator.routes ≠ [] → d'.state.speed = d'.speed.value) ∧ (d.navigator.routes = [] → d' = d) ∧
    d'.speed.isStatic = d.speed.isStatic := by
  have static : ∀ {s : Speed F} {x}, d.speed.next x = .ok s → s.isStatic = d.speed.isStatic := by
    intro s x hx
    unfold Speed.next at hx
    split at hx
    · cases hx; rfl
    · obtain ⟨y, _, hx⟩ := bind_eq_ok hx
      cases hx
      rfl
  cases next_outcome h with
  | idle hr => exact ⟨fun h => absurd hr h, fun _ => rfl, rfl⟩
  | halted hr n1 n2 speed h1 h2 h3 h4 => exact ⟨fun _ => rfl, fun h => absurd h hr, static h2⟩
  | lap hr n1 n2 speed _ h1 h2 h3 h4 h5 =>
    refine ⟨fun _ => ?_, fun h => absurd h hr, ?_⟩
    · obtain ⟨st, h6, rfl⟩ := updateState_eq h5
      have := nav_update_frame h6
      exact this.2.2.2.2.2.1
    · obtain ⟨st, h6, rfl⟩ := updateState_eq h5
      exact (static h2 :)
  | moved hr n1 n2 n3 speed sensors d2 _ h1 h2 h3 h4 h5 hd2 h6 =>
    obtain ⟨st, h7, rfl⟩ := updateState_eq h6
    have h8 := nav_update_frame h7
    refine ⟨fun _ => ?_, fun h => absurd h hr, ?_⟩
    · refine (h8.2.2.2.2.2.1).trans ?_
      subst hd2
      simp only [refreshed]
      split <;> rfl
    · refine Eq.trans ?_ (static h2)
      subst hd2
      simp only [refreshed]
      split <;> rfl

theorem lived_sound [GoMath F] {p : Prop} {d : Device F} (h : Lived p d) : Sound d.navigator := by
  induction h with
  | new h =>
    obtain ⟨n, _, _, _, h1, -, -, -, rfl⟩ := Device.new_eq h
    exact new_sound h1
  | step _ ho h ih => exact devStep_sound ih ho h
  | restore _ _ h _ ih => exact (restored_sound ih h).1
  | decode _ he h ih =>
    obtain ⟨e, h1, h2⟩ := bind_eq_ok he
    cases h2
    obtain ⟨d1, h3, h4⟩ := bind_eq_ok h
    exact update_sound (restored_sound (update_sound ih h1) h3).1 h4

/-- The published speed is the speed, unless it is constant and no tick took effect yet. -/
theorem lived_speed [GoMath F] {p : Prop} {d : Device F} (h : Lived p d) :
    (p ∨ d.speed.isStatic = false) → d.state.speed = d.speed.value := by
  induction h with
  | new h =>
    obtain ⟨_, speed, _, st, -, h1, -, h2, rfl⟩ := Device.new_eq h
    rintro (h | h)
    · exact h.elim
    · have e1 : st.speed = lit 0 := by
        obtain ⟨_, _, rfl, -⟩ := applyFor_eq h2
        rfl
      have e2 : speed.val = lit 0 := by
        unfold Speed.new at h1
        simp only at h1
        repeat' split at h1
        all_goals first
        | cases h1
        | (obtain ⟨_, _, h1⟩ := bind_eq_ok h1
           cases h1
           rfl)
      simp only [Speed.value] at h ⊢
      rw [h, if_neg (by simp), e1, e2]
  | @step p d op d' hd ho h ih =>
    by_cases hn : ∃ t r, op = .next t r
    · obtain ⟨t, r, rfl⟩ := hn
      obtain ⟨⟨d'', b⟩, hn, hd'⟩ := map_eq_ok h
      cases hd'
      obtain ⟨a1, a2, a3⟩ := next_published hn
      by_cases hr : d.navigator.routes = []
      · rw [a2 hr]
        rintro ((h | h) | h)
        · exact ih (Or.inl h)
        · exact absurd hr h.2
        · exact ih (Or.inr h)
      · exact fun _ => a1 hr
    · obtain ⟨e1, e2⟩ := step_speed_frame h (fun t r hc => hn ⟨t, r, hc⟩)
        (by rintro m rfl; exact ho)
      rw [e1, e2]
      rintro ((h | h) | h)
      · exact ih (Or.inl h)
      · exact absurd h.1 hn
      · exact ih (Or.inr h)
  | restore _ he h _ _ => exact fun _ => (restored_sound (lived_sound he) h).2
  | decode hd he h _ =>
    intro _
    obtain ⟨e, h1, h2⟩ := bind_eq_ok he
    cases h2
    obtain ⟨d1, h3, h4⟩ := bind_eq_ok h
    have := (restored_sound (update_sound (lived_sound hd) h1) h3).2
    have h5 := update_speed h4
    rw [h5.1, h5.2]
    exact this

theorem update_keep [GoMath F] {n : Navigator F} {s s' : DevState F} (h : n.update s = .ok s') :
    (n.currentRoute = .ok none → s'.nav.currentRouteId = s.nav.currentRouteId) ∧
    (n.currentTrack = .ok none → s'.nav.currentTrackId = s.nav.currentTrackId) := by
  unfold Navigator.update at h
  obtain ⟨a1, h1, h⟩ := bind_eq_ok h
  obtain ⟨a2, h2, h⟩ := bind_eq_ok h
  obtain ⟨a3, h3, h⟩ := bind_eq_ok h
  obtain ⟨a4, h4, h⟩ := bind_eq_ok h
  obtain ⟨a5, h5, h⟩ := bind_eq_ok h
  obtain ⟨a6, h6, h⟩ := bind_eq_ok h
  cases h
  constructor
  · intro hc
    rw [hc] at h4
    cases h4
    rfl
  · intro hc
    rw [hc] at h5
    cases h5
    rfl

theorem sensors_restore [GoMath F] (ss : List (Sensor F)) :
    (if (ss.map Sensor.snapshot).length > 0 then
      (ss.map Sensor.snapshot).mapM (fun s => Sensor.fromSnapshot (some s)) else .ok []) = Except.ok ss := by
  cases ss with
  | nil => rfl
  | cons a l =>
    rw [if_pos (by simp)]
    have := mapM_map_ok (fun s : SensorMsg F => Sensor.fromSnapshot (some s)) Sensor.snapshot id (a :: l)
      (fun s _ => sensor_round_trip s)
    rw [List.map_id] at this
    exact this

theorem pub_same [GoMath F] (ss : List (Sensor F)) :
    pubSensors (ss.map (fun s => (⟨s.id, s.name, s.valX, s.valY⟩ : SensorPub F))) ss =
      ss.map (fun s => ⟨s.id, s.name, s.valX, s.valY⟩) := by
  unfold pubSensors
  rw [if_neg (by simp)]
  induction ss with
  | nil => rfl
  | cons a l ih => simp only [List.map_cons, List.zipWith_cons_cons, ih]

theorem alike_like [GoMath F] {n m : Navigator F} (h : Alike n m) :
    ∃ o, OffFree o n ∧ m = n.withOffline o := by
  rcases h with rfl | ⟨hs, o, rfl⟩
  · exact ⟨m.offline, Or.inr rfl, rfl⟩
  · exact ⟨o, Or.inl hs, rfl⟩

theorem decode_encode [GoMath F] {d e : Device F} {m : SnapMsg F} (hs : Sound d.navigator) (ht : d.tick = 0)
    (hv : d.state.speed = d.speed.value) (hc : NoStale d) (he : encodeTracker d = .ok (e, m)) :
    ∃ o, OffFree o e.navigator ∧ decodeTracker m = .ok (e.like o Status.stopped) := by
  obtain ⟨e1, h1, h2⟩ := bind_eq_ok he
  cases h2
  have hse := update_sound hs h1
  obtain ⟨st, h3, rfl⟩ := update_eq h1
  obtain ⟨n, h4, h5⟩ := restore_sound hse
  obtain ⟨o, ho, rfl⟩ := alike_like h5
  refine ⟨o, ho, ?_⟩
  have fr := nav_update_frame h3
  have hk := update_keep h3
  unfold decodeTracker
  have hv' : st.speed = d.speed.value := fr.2.2.2.2.2.1.trans hv
  let base : Device F := {
    status := Status.stopped % 256, navigator := (touched d.navigator).withOffline o, speed := d.speed
    battery := d.battery
    state := { (DevState.init : DevState F) with
      id := st.id, userId := st.userId, tick := st.tick, model := st.model, color := st.color
      description := st.description, duration := st.duration, speed := d.speed.value }
    sensors := d.sensors, avgT := lit 0, tick := 0, ns := (0, 0, 0) }
  have g1 := update_agree h3 base.updateSensors.state hc.1 hc.2
  rw [← update_touched] at g1
  have g2 := updateState_of (d := base.updateSensors) g1
  have g3 : Device.fromSnapshotOnto [] 0 (d.refreshed st).updateRoutes.updateSensors.snapshot =
      base.updateSensors.updateState.map updateRoutes := by
    unfold Device.fromSnapshotOnto
    have k1 : (d.refreshed st).updateRoutes.updateSensors.snapshot.navigator =
      some (d.refreshed st).updateRoutes.updateSensors.navigator.snapshot := rfl
    have k2 : (d.refreshed st).updateRoutes.updateSensors.snapshot.speed = some d.speed.snapshot := rfl
    have k3 : (d.refreshed st).updateRoutes.updateSensors.snapshot.battery =
      some d.battery.snapshot := rfl
    have k4 : (d.refreshed st).updateRoutes.updateSensors.snapshot.sensors =
      d.sensors.map Sensor.snapshot := rfl
    rw [k1, h4, k2, speed_round_trip, k3, battery_round_trip, k4, sensors_restore]
    simp only [ok_bind]
    show (base.updateSensors.updateState >>= fun d => pure d.updateRoutes) = _
    cases base.updateSensors.updateState <;> rfl
  rw [g3, g2]
  simp only [map_ok, ok_bind]
  generalize hX : (base.updateSensors.refreshed _).updateRoutes = X
  have x1 : X.navigator = (touched d.navigator).withOffline o := by
    rw [← hX]
    show (touched (touched d.navigator)).withOffline o = _
    rw [touched_idem]
  have x2 : X.state.nav = st.nav := by rw [← hX]; rfl
  have g4 := update_agree h3 X.state (fun h => by rw [x2]; exact (hk.1 h).symm)
    (fun h => by rw [x2]; exact (hk.2 h).symm)
  have g5 := (update_touched d.navigator X.state).trans g4
  rw [show (touched d.navigator).update X.state = ((touched d.navigator).withOffline o).update X.state from rfl,
    ← x1] at g5
  unfold Device.update
  rw [updateState_of g5]
  simp only [ok_bind, pure_eq_ok, Except.ok.injEq]
  have y1 : X.sensors = d.sensors := by rw [← hX]; rfl
  have y2 : X.speed = d.speed := by rw [← hX]; rfl
  have y3 : X.battery = d.battery := by rw [← hX]; rfl
  have y4 : X.status = Status.stopped := by rw [← hX]; rfl
  have y5 : X.tick = 0 := by rw [← hX]; rfl
  have y6 : X.state.id = st.id ∧ X.state.userId = st.userId ∧ X.state.tick = st.tick ∧
      X.state.duration = st.duration ∧ X.state.model = st.model ∧ X.state.speed = st.speed ∧
      X.state.color = st.color ∧ X.state.description = st.description := by
    rw [← hX, hv']; exact ⟨rfl, rfl, rfl, rfl, rfl, rfl, rfl, rfl⟩
  obtain ⟨z1, z2, z3, z4, z5, z6, z7, z8⟩ := y6
  have w1 : (touched d.navigator).routes.map pubRoute = d.navigator.routes.map pubRoute := by
    show (d.navigator.routes.map touchRoute).map pubRoute = _
    rw [List.map_map]
    exact List.map_congr_left (fun r _ => pubRoute_touch r)
  have w2 := touched_idem d.navigator
  simp only [refreshed, updateRoutes, updateSensors, calcAvgT, like, x1, y1, y2, y3, y4, y5,
    z1, z2, z3, z4, z5, z6, z7, z8, Device.mk.injEq, DevState.mk.injEq, ht, and_true, true_and]
  refine ⟨congrArg (withOffline o) w2, w1, rfl, ?_⟩
  exact (congrArg Navigator.sum w2 :)

/-! ## The claim -/

/-- **C23, the state.** The decoded device is stopped, has the same identity, time, navigator, speed,
battery and sensors, and publishes exactly what the original publishes after `Update`. -/
theorem device_survives_partial [GoMath F] (p : Prop) (d e : Device F) (m : SnapMsg F) (h : Lived p d)
    (ht : d.tick = 0) (hs : p ∨ d.speed.isStatic = false) (hc : NoStale d)
    (he : encodeTracker d = .ok (e, m)) :
    d.update = .ok e ∧ ∃ d', decodeTracker m = .ok d' ∧
      d'.status = Status.stopped ∧ d'.state = e.state ∧
      (d'.state.id, d'.state.userId, d'.state.model, d'.state.color, d'.state.description,
        d'.state.duration, d'.state.tick) =
      (d.state.id, d.state.userId, d.state.model, d.state.color, d.state.description,
        d.state.duration, d.state.tick) ∧
      d'.speed = d.speed ∧ d'.battery = d.battery ∧ d'.sensors = d.sensors ∧
      Alike e.navigator d'.navigator ∧ (d.navigator.skipOffline = false → d'.navigator = e.navigator) ∧
      Twin e d' := by
  obtain ⟨o, h1, h2⟩ := decode_encode (lived_sound h) ht (lived_speed h hs) hc he
  obtain ⟨e', h3, h4⟩ := bind_eq_ok he
  cases h4
  refine ⟨h3, _, h2, rfl, rfl, ?_, ?_⟩
  · obtain ⟨st, h5, rfl⟩ := update_eq h3
    have fr := nav_update_frame h5
    simp only [Prod.mk.injEq]
    exact ⟨fr.1, fr.2.1, fr.2.2.2.2.1, fr.2.2.2.2.2.2.2.2.2, fr.2.2.2.2.2.2.2.2.1, fr.2.2.2.1, fr.2.2.1⟩
  · obtain ⟨st, h5, rfl⟩ := update_eq h3
    refine ⟨rfl, rfl, rfl, ?_, ?_, o, _, h1, rfl⟩
    · rcases h1 with h1 | h1
      · exact Or.inr ⟨h1, o, rfl⟩
      · exact Or.inl (withOffline_self h1)
    · intro hk
      rcases h1 with h1 | h1
      · rw [show (d.refreshed st).updateRoutes.updateSensors.navigator.skipOffline =
          d.navigator.skipOffline from rfl, hk] at h1
        cases h1
      · exact withOffline_self h1

/-- **C23, the future.** From then on the decoded device gives the same answers as the original for
every sequence of operations with the same arguments and random draws, panics where it panics, and
publishes the same state. -/
theorem device_evolves_alike_partial [GoMath F] (p : Prop) (d e d' : Device F) (m : SnapMsg F)
    (h : Lived p d) (ht : d.tick = 0) (hs : p ∨ d.speed.isStatic = false) (hc : NoStale d)
    (he : encodeTracker d = .ok (e, m)) (hd : decodeTracker m = .ok d') (rest : List (DevOp F)) :
    (∃ f f' as, answers e rest = .ok (f, as) ∧ answers d' rest = .ok (f', as) ∧ f'.state = f.state ∧
      f'.snapshot.id = f.snapshot.id ∧ f'.speed = f.speed ∧ f'.battery = f.battery ∧
      f'.sensors = f.sensors ∧ f'.tick = f.tick) ∨
    (∃ x, answers e rest = .error x ∧ answers d' rest = .error x) := by
  obtain ⟨-, d'', h1, -, -, -, -, -, -, -, -, h2⟩ := device_survives_partial p d e m h ht hs hc he
  rw [hd] at h1
  cases h1
  rcases twin_answers h2 rest with ⟨f, f', as, h3, h4, o, s, -, rfl⟩ | h
  · exact Or.inl ⟨f, _, as, h3, h4, rfl, rfl, rfl, rfl, rfl, rfl⟩
  · exact Or.inr h

/-! ## What the snapshot loses -/

theorem decode_fields [GoMath F] {d e d' : Device F} {m : SnapMsg F} (he : encodeTracker d = .ok (e, m))
    (hd : decodeTracker m = .ok d') :
    e.tick = d.tick ∧ d'.tick = 0 ∧ e.state.speed = d.state.speed ∧ d'.state.speed = d.speed.value := by
  obtain ⟨e', h3, h4⟩ := bind_eq_ok he
  cases h4
  obtain ⟨st, h5, rfl⟩ := update_eq h3
  obtain ⟨d1, h6, h7⟩ := bind_eq_ok hd
  obtain ⟨st', h8, rfl⟩ := update_eq h7
  obtain ⟨n, speed, battery, sensors, d2, g1, g2, g3, g4, g5, rfl⟩ := fromSnapshotOnto_eq h6
  obtain ⟨st2, g6, rfl⟩ := updateState_eq g5
  rw [show (d.refreshed st).updateRoutes.updateSensors.snapshot.speed = some d.speed.snapshot from rfl,
    speed_round_trip] at g2
  cases g2
  refine ⟨rfl, rfl, (nav_update_frame h5).2.2.2.2.2.1, ?_⟩
  exact (nav_update_frame h8).2.2.2.2.2.1.trans (nav_update_frame g6).2.2.2.2.2.1

/-- **Negation 1.** Skipped ticks that were not yet applied are lost. -/
theorem pending_ticks_lost [GoMath F] (d e d' : Device F) (m : SnapMsg F)
    (he : encodeTracker d = .ok (e, m)) (hd : decodeTracker m = .ok d') :
    e.tick = d.tick ∧ d'.tick = 0 := ⟨(decode_fields he hd).1, (decode_fields he hd).2.1⟩

/-- **Negation 2.** A device with a constant speed that never moved publishes speed zero; the decoded
one publishes the constant. -/
theorem static_speed_differs [GoMath F] (rnd : DeviceRnd F) (opts : Option (DeviceOptions F))
    (d e d' : Device F) (m : SnapMsg F) (h : Device.new rnd opts = .ok d) (hs : d.speed.isStatic = true)
    (he : encodeTracker d = .ok (e, m)) (hd : decodeTracker m = .ok d') :
    e.state.speed = lit 0 ∧ d'.state.speed = d.speed.min := by
  obtain ⟨-, -, h1, h2⟩ := decode_fields he hd
  rw [h1, h2]
  refine ⟨?_, by unfold Speed.value; rw [if_pos hs]⟩
  obtain ⟨_, _, _, st, -, -, -, h3, rfl⟩ := Device.new_eq h
  obtain ⟨_, _, rfl, -⟩ := applyFor_eq h3
  rfl

/-- **Negation 3.** Without routes the original keeps publishing the last route and track, the decoded
device publishes none. -/
theorem stale_ids_differ [GoMath F] (d e d' : Device F) (m : SnapMsg F) (hr : d.navigator.routes = [])
    (he : encodeTracker d = .ok (e, m)) (hd : decodeTracker m = .ok d') :
    e.state.nav.currentRouteId = d.state.nav.currentRouteId ∧
    e.state.nav.currentTrackId = d.state.nav.currentTrackId ∧
    d'.state.nav.currentRouteId = "" ∧ d'.state.nav.currentTrackId = "" := by
  have noRoute : ∀ {n : Navigator F}, n.routes = [] → n.currentRoute = .ok none ∧ n.currentTrack = .ok none := by
    intro n hn
    have : n.currentRoute = .ok none := by unfold currentRoute; rw [hn]; rfl
    exact ⟨this, by unfold currentTrack; rw [this]; rfl⟩
  obtain ⟨e', h3, h4⟩ := bind_eq_ok he
  cases h4
  obtain ⟨st, h5, rfl⟩ := update_eq h3
  have k1 := update_keep h5
  obtain ⟨d1, h6, h7⟩ := bind_eq_ok hd
  obtain ⟨st', h8, rfl⟩ := update_eq h7
  obtain ⟨n, speed, battery, sensors, d2, g1, g2, g3, g4, g5, rfl⟩ := fromSnapshotOnto_eq h6
  obtain ⟨st2, g6, rfl⟩ := updateState_eq g5
  have hn : n.routes = [] := by
    rw [show (d.refreshed st).updateRoutes.updateSensors.snapshot.navigator =
      some (touched d.navigator).snapshot from rfl] at g1
    simp only [Navigator.fromSnapshot, Navigator.fromSnapshotOnto] at g1
    have : (touched d.navigator).snapshot.routes = [] := by
      show ((d.navigator.routes.map touchRoute).map Route.snapshot) = []
      rw [hr]; rfl
    rw [this] at g1
    obtain ⟨rs, j1, g1⟩ := bind_eq_ok g1
    obtain ⟨_, _, g1⟩ := bind_eq_ok g1
    obtain ⟨_, _, g1⟩ := bind_eq_ok g1
    cases g1
    cases j1
    rfl
  have k2 := update_keep g6
  have k3 := update_keep h8
  have hn' : n.routes.map touchRoute = [] := by rw [hn]; rfl
  have k4 := noRoute (n := { n with routes := n.routes.map touchRoute }) hn'
  refine ⟨k1.1 (noRoute hr).1, k1.2 (noRoute hr).2, ?_, ?_⟩
  · exact (k3.1 k4.1).trans (k2.1 (noRoute hn).1)
  · exact (k3.2 k4.2).trans (k2.2 (noRoute hn).2)

/-! Non-vacuity, on rationals: a moved device with a sensor (satisfying all hypotheses) decodes to a
device with the same state. -/

def trip : List (DevOp Toy) :=
  [.addRoute [some Toy.route], .next (Toy.of 1) Toy.nextRnd, .next (Toy.of 2) Toy.nextRnd]

def decoded (d : Device Toy) : Option (Device Toy × Device Toy) :=
  match encodeTracker d with
  | .error _ => none
  | .ok (e, m) => match decodeTracker m with
    | .error _ => none
    | .ok d' => some (e, d')

example : (Toy.dev trip).map (fun d => (d.tick, d.state.speed.val, d.state.nav.currentTrackId,
    decide (d.state.dist.currentDistance.val > 0))) = some (0, 2, "t", true) := by decide +kernel

example : ((Toy.dev trip).bind decoded).map (fun p => decide (p.2.state = p.1.state)) = some true := by
  decide +kernel

/-! The three losses: a pending tick, a constant speed before the first tick, ids after removing the
last route. -/

example : ((Toy.dev (trip ++ [.skipTick])).bind decoded).map (fun p => (p.1.tick, p.2.tick)) =
    some (1, 0) := by decide +kernel

example : ((Toy.dev [.addRoute [some Toy.route]]).bind decoded).map
    (fun p => (p.1.state.speed.val, p.2.state.speed.val)) = some (0, 2) := by decide +kernel

example : ((Toy.dev (trip ++ [.removeRoute "r"])).bind decoded).map
    (fun p => (p.1.state.nav.currentRouteId, p.2.state.nav.currentRouteId)) = some ("r", "") := by
  decide +kernel

end C23
end GpsGen
