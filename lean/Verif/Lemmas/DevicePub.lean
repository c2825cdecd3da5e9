import Verif.Lemmas.DeviceNext
/-!
# Helper lemmas: what one device operation does to the navigator, the battery and the published state
-/

namespace GpsGen
variable {F : Type}

/-- Navigators reached by navigator operations and by creating missing property maps. -/
inductive NavPath [GoMath F] : Navigator F → Navigator F → Prop
  | refl (n) : NavPath n n
  | step {n m k} (op : NavOp F) (h : n.step op = .ok m) (p : NavPath m k) : NavPath n k
  | touch {n k} (p : NavPath { n with routes := n.routes.map Device.touchRoute } k) : NavPath n k

namespace NavPath
variable [GoMath F]

theorem one {n m : Navigator F} (op : NavOp F) (h : n.step op = .ok m) : NavPath n m := .step op h (.refl _)

theorem trans {n m k : Navigator F} (p : NavPath n m) (q : NavPath m k) : NavPath n k := by
  induction p with
  | refl => exact q
  | step op h _ ih => exact .step op h (ih q)
  | touch _ ih => exact .touch (ih q)

/-- Invariants of navigator operations are preserved along paths. -/
theorem induct {P : Navigator F → Prop} (h1 : ∀ n m op, P n → n.step op = .ok m → P m)
    (h2 : ∀ n, P n → P { n with routes := n.routes.map Device.touchRoute }) {n k : Navigator F}
    (p : NavPath n k) (h : P n) : P k := by
  induction p with
  | refl => exact h
  | step op hs _ ih => exact ih (h1 _ _ op h hs)
  | touch _ ih => exact ih (h2 _ h)

end NavPath

namespace Device
variable [GoMath F]

/-- The published state was written from the device as it is. -/
structure Fresh (d : Device F) : Prop where
  distance : d.state.dist.distance = d.navigator.distance
  lat : d.state.loc.lat = d.navigator.point.lat
  lon : d.state.loc.lon = d.navigator.point.lon
  elevation : d.state.loc.elevation = d.navigator.elevation.valY
  charge : d.state.charge = d.battery.value
  chargeTime : d.state.chargeTime = GoMath.toInt (durSeconds d.battery.chargeTime : F)
  estimate : d.state.timeEstimate = d.navigator.distance /. d.state.speed
  offlineDuration : d.state.offlineDuration = d.navigator.offlineIndex
  isOffline : d.state.isOffline = decide (d.navigator.offlineIndex > 0)

/-- The published state was not written, except the offline part. -/
structure Stale (d d' : Device F) : Prop where
  dist : d'.state.dist = d.state.dist
  loc : d'.state.loc = d.state.loc
  charge : d'.state.charge = d.state.charge
  chargeTime : d'.state.chargeTime = d.state.chargeTime
  estimate : d'.state.timeEstimate = d.state.timeEstimate
  offline : (d'.state.offlineDuration = d.state.offlineDuration ∧ d'.state.isOffline = d.state.isOffline) ∨
    (d'.state.offlineDuration = d'.navigator.offlineIndex ∧
      d'.state.isOffline = decide (d'.navigator.offlineIndex > 0))

theorem nav_update_shows {n : Navigator F} {s s' : DevState F} (h : n.update s = .ok s') :
    s'.dist.distance = n.distance ∧ s'.loc.lat = n.point.lat ∧ s'.loc.lon = n.point.lon ∧
    s'.loc.elevation = n.elevation.valY ∧ s'.offlineDuration = n.offlineIndex ∧
    s'.isOffline = decide (n.offlineIndex > 0) := by
  unfold Navigator.update at h
  obtain ⟨_, _, h⟩ := bind_eq_ok h
  obtain ⟨_, _, h⟩ := bind_eq_ok h
  obtain ⟨_, _, h⟩ := bind_eq_ok h
  obtain ⟨_, _, h⟩ := bind_eq_ok h
  obtain ⟨_, _, h⟩ := bind_eq_ok h
  obtain ⟨_, _, h⟩ := bind_eq_ok h
  cases h
  exact ⟨rfl, rfl, rfl, rfl, rfl, rfl⟩

theorem refreshed_fresh {d : Device F} {st : DevState F} (h : d.navigator.update d.state = .ok st) :
    Fresh (d.refreshed st) := by
  obtain ⟨h1, h2, h3, h4, h5, h6⟩ := nav_update_shows h
  refine ⟨h1, h2, h3, h4, rfl, rfl, ?_, h5, h6⟩
  show st.dist.distance /. st.speed = d.navigator.distance /. st.speed
  rw [h1]

theorem updateState_fresh {d d' : Device F} (h : d.updateState = .ok d') :
    Fresh d' ∧ d'.navigator = d.navigator ∧ d'.battery = d.battery ∧ d'.speed = d.speed ∧
    d'.sensors = d.sensors ∧ d'.state.speed = d.state.speed ∧ d'.state.duration = d.state.duration ∧
    d'.state.tick = d.state.tick ∧ d'.tick = d.tick ∧ d'.avgT = d.avgT := by
  obtain ⟨st, h1, rfl⟩ := updateState_eq h
  obtain ⟨-, -, f1, f2, -, f3, -⟩ := nav_update_frame h1
  exact ⟨refreshed_fresh h1, rfl, rfl, rfl, rfl, f3, f2, f1, rfl, rfl⟩

theorem fresh_updateRoutes {d : Device F} (h : Fresh d) : Fresh d.updateRoutes := ⟨h.1, h.2, h.3, h.4, h.5, h.6, h.7, h.8, h.9⟩

theorem fresh_updateSensors {d : Device F} (h : Fresh d) : Fresh d.updateSensors := ⟨h.1, h.2, h.3, h.4, h.5, h.6, h.7, h.8, h.9⟩

/-- A path of navigator operations ending in `updateRoutes`. -/
theorem path_updateRoutes (d : Device F) : NavPath d.navigator d.updateRoutes.navigator :=
  .touch (.refl _)

theorem powered_path {d : Device F} {s : F} {x : UInt32} {n : Navigator F} (h : d.powered s x = .ok n) :
    NavPath d.navigator n := by
  rcases powered_step h with rfl | h
  · exact .refl _
  · exact .one _ h

theorem loc_path {n m : Navigator F} {t v : F} {x : UInt32} {b : Bool} (h : n.nextLocation t v x = .ok (m, b)) :
    NavPath n m := .one (.nextLocation t v x) (show (n.nextLocation t v x).map (·.1) = _ by rw [h]; rfl)

theorem finish_path (n : Navigator F) : NavPath n n.isFinish.1 := .one .isFinish rfl

/-- What `Next` does to the navigator, the battery and the published state. -/
theorem next_parts {d d' : Device F} {tick : F} {rnd : NextRnd F} {b : Bool} (h : d.next tick rnd = .ok (d', b)) :
    NavPath d.navigator d'.navigator ∧
    (d'.battery = if d.navigator.routes = [] then d.battery else d.drained (d.seconds tick)) ∧
    (Stale d d' ∨ Fresh d') := by
  cases next_outcome h with
  | idle hr => exact ⟨.refl _, by rw [if_pos hr], Or.inl ⟨rfl, rfl, rfl, rfl, rfl, Or.inl ⟨rfl, rfl⟩⟩⟩
  | halted hr n1 n2 speed h1 h2 h3 h4 =>
    have e : n2.isFinish.1.offlineIndex = n2.offlineIndex := by unfold Navigator.isFinish; split <;> rfl
    exact ⟨(powered_path h1).trans ((loc_path h3).trans (finish_path n2)), by rw [if_neg hr]; rfl,
      Or.inl ⟨rfl, rfl, rfl, rfl, rfl, Or.inr ⟨by rw [e]; rfl, by rw [e]; rfl⟩⟩⟩
  | lap hr n1 n2 speed d' h1 h2 h3 h4 h5 =>
    obtain ⟨hf, e1, e2, -⟩ := updateState_fresh h5
    refine ⟨?_, by rw [e2, if_neg hr]; rfl, Or.inr hf⟩
    rw [e1]
    exact (powered_path h1).trans ((loc_path h3).trans ((finish_path n2).trans
      (.one (.shuffleElevation rnd.elevation) rfl)))
  | moved hr n1 n2 n3 speed sensors d2 d' h1 h2 h3 h4 h5 hd2 h6 =>
    obtain ⟨hf, e1, e2, -⟩ := updateState_fresh h6
    have hp : NavPath d.navigator n3 := (powered_path h1).trans ((loc_path h3).trans
      (.one (.nextElevation (d.phase (d.seconds tick))) h4))
    refine ⟨?_, ?_, Or.inr hf⟩
    · rw [e1]
      subst hd2
      split
      · exact hp.trans (path_updateRoutes { d.advanced (d.seconds tick) speed n3 with sensors := sensors })
      · exact hp
    · rw [e2, if_neg hr]
      subst hd2
      split <;> rfl

/-- What any operation other than restoring a snapshot does to the navigator, the battery and the published state. -/
theorem step_parts {d d' : Device F} {op : DevOp F} (h : d.step op = .ok d') (hf : ∀ m, op ≠ .fromSnapshot m) :
    NavPath d.navigator d'.navigator ∧
    (d'.battery = d.battery ∨ ∃ tick rnd, op = .next tick rnd ∧ d'.battery = d.drained (d.seconds tick)) ∧
    (Stale d d' ∨ Fresh d') := by
  have stale : ∀ {e : Device F}, e.state.dist = d.state.dist → e.state.loc = d.state.loc →
      e.state.charge = d.state.charge → e.state.chargeTime = d.state.chargeTime →
      e.state.timeEstimate = d.state.timeEstimate → e.state.offlineDuration = d.state.offlineDuration →
      e.state.isOffline = d.state.isOffline → Stale d e ∨ Fresh e :=
    fun h1 h2 h3 h4 h5 h6 h7 => Or.inl ⟨h1, h2, h3, h4, h5, Or.inl ⟨h6, h7⟩⟩
  cases op with
  | addRoute rs =>
    cases h
    have hn : d.navigator.step (.addRoute rs) = .ok (d.navigator.addRoute rs).1 := rfl
    unfold Device.addRoute
    revert hn
    rcases d.navigator.addRoute rs with ⟨n, _ | e⟩
    · exact fun hn => ⟨.step _ hn (.touch (.refl _)), Or.inl rfl, stale rfl rfl rfl rfl rfl rfl rfl⟩
    · exact fun hn => ⟨.one _ hn, Or.inl rfl, stale rfl rfl rfl rfl rfl rfl rfl⟩
  | removeRoute id =>
    cases h
    have hn : d.navigator.step (.removeRoute id) = .ok (d.navigator.removeRoute id).1 := rfl
    unfold Device.removeRoute
    revert hn
    rcases d.navigator.removeRoute id with ⟨n, _ | _⟩
    · exact fun hn => ⟨.one _ hn, Or.inl rfl, stale rfl rfl rfl rfl rfl rfl rfl⟩
    · exact fun hn => ⟨.step _ hn (.touch (.refl _)), Or.inl rfl, stale rfl rfl rfl rfl rfl rfl rfl⟩
  | removeTrack r t =>
    cases h
    have hn : d.navigator.step (.removeTrack r t) = .ok (d.navigator.removeTrack r t).1 := rfl
    unfold Device.removeTrack
    revert hn
    rcases d.navigator.removeTrack r t with ⟨n, _ | _⟩
    · exact fun hn => ⟨.one _ hn, Or.inl rfl, stale rfl rfl rfl rfl rfl rfl rfl⟩
    · exact fun hn => ⟨.step _ hn (.touch (.refl _)), Or.inl rfl, stale rfl rfl rfl rfl rfl rfl rfl⟩
  | resetRoutes =>
    cases h
    have hn : d.navigator.step .resetRoutes = .ok d.navigator.resetRoutes.1 := rfl
    unfold Device.resetRoutes
    revert hn
    rcases d.navigator.resetRoutes with ⟨n, _ | _⟩
    · exact fun hn => ⟨.one _ hn, Or.inl rfl, stale rfl rfl rfl rfl rfl rfl rfl⟩
    · exact fun hn => ⟨.step _ hn (.touch (.refl _)), Or.inl rfl, stale rfl rfl rfl rfl rfl rfl rfl⟩
  | move m =>
    obtain ⟨n, hn, rfl⟩ := map_eq_ok h
    exact ⟨.one _ hn, Or.inl rfl, stale rfl rfl rfl rfl rfl rfl rfl⟩
  | onRoute i op =>
    replace h : (d.navigator.step (.onRoute i op)).map (fun n => { d with navigator := n }) = .ok d' := h
    obtain ⟨n, hn, rfl⟩ := map_eq_ok h
    exact ⟨.one _ hn, Or.inl rfl, stale rfl rfl rfl rfl rfl rfl rfl⟩
  | addSensor ss =>
    cases h
    unfold Device.addSensor
    split
    · exact ⟨.refl _, Or.inl rfl, stale rfl rfl rfl rfl rfl rfl rfl⟩
    · simp only
      split <;> exact ⟨.refl _, Or.inl rfl, stale rfl rfl rfl rfl rfl rfl rfl⟩
  | removeSensor id =>
    cases h
    unfold Device.removeSensor
    split
    · exact ⟨.refl _, Or.inl rfl, stale rfl rfl rfl rfl rfl rfl rfl⟩
    · simp only
      split <;> exact ⟨.refl _, Or.inl rfl, stale rfl rfl rfl rfl rfl rfl rfl⟩
  | resetSensors => cases h; exact ⟨.refl _, Or.inl rfl, stale rfl rfl rfl rfl rfl rfl rfl⟩
  | sensorNext i t =>
    replace h : d.onSensorNext i t = .ok d' := h
    unfold Device.onSensorNext at h
    split at h
    · cases h; exact ⟨.refl _, Or.inl rfl, stale rfl rfl rfl rfl rfl rfl rfl⟩
    · obtain ⟨s, -, h⟩ := bind_eq_ok h
      cases h
      exact ⟨.refl _, Or.inl rfl, stale rfl rfl rfl rfl rfl rfl rfl⟩
  | sensorShuffle i draws => cases h; exact ⟨.refl _, Or.inl rfl, stale rfl rfl rfl rfl rfl rfl rfl⟩
  | next tick rnd =>
    obtain ⟨⟨x, b⟩, h1, rfl⟩ := map_eq_ok h
    obtain ⟨p1, p2, p3⟩ := next_parts h1
    refine ⟨p1, ?_, p3⟩
    split at p2
    · exact Or.inl p2
    · exact Or.inr ⟨_, _, rfl, p2⟩
  | skipTick => cases h; exact ⟨.refl _, Or.inl rfl, stale rfl rfl rfl rfl rfl rfl rfl⟩
  | update =>
    obtain ⟨st, h1, rfl⟩ := update_eq h
    exact ⟨.touch (.refl _), Or.inl rfl, Or.inr (fresh_updateSensors (fresh_updateRoutes (refreshed_fresh h1)))⟩
  | setModel s =>
    cases h
    unfold Device.setModel
    split <;> exact ⟨.refl _, Or.inl rfl, stale rfl rfl rfl rfl rfl rfl rfl⟩
  | setUserID s => cases h; exact ⟨.refl _, Or.inl rfl, stale rfl rfl rfl rfl rfl rfl rfl⟩
  | setDescription s => cases h; exact ⟨.refl _, Or.inl rfl, stale rfl rfl rfl rfl rfl rfl rfl⟩
  | setColor c => cases h; cases c <;> exact ⟨.refl _, Or.inl rfl, stale rfl rfl rfl rfl rfl rfl rfl⟩
  | fromSnapshot m => exact absurd rfl (hf m)

end Device
end GpsGen
