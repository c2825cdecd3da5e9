import Verif.Lemmas.DeviceAlike
/-!
# Helper lemmas: publishing twice, and operations with answers
-/

namespace GpsGen
variable {F : Type}

/-! ## Creating the property maps changes nothing that is published -/

theorem goIndex_map {α β : Type} (f : α → β) (l : List α) (i : Int) :
    goIndex (l.map f) i = (goIndex l i).map f := by
  unfold goIndex
  simp only [List.getElem?_map]
  split
  · cases l[i.toNat]? <;> rfl
  · rfl

theorem goAt?_map {α β : Type} (f : α → β) (l : List α) (i : Int) :
    goAt? (l.map f) i = (goAt? l i).map f := by
  unfold goAt?
  simp only [List.getElem?_map]
  split
  · rfl
  · rfl

theorem Track.propsOf_fields (t : Track F) : t.propsOf.1 = { t with props := some t.propsOf.2 } := by
  unfold propsOf
  cases h : t.props with
  | none => rfl
  | some p =>
    simp only
    cases t
    simp only at h
    subst h
    rfl

theorem Route.propsOf_fields (r : Route F) : r.propsOf.1 = { r with props := some r.propsOf.2 } := by
  unfold propsOf
  cases h : r.props with
  | none => rfl
  | some p =>
    simp only
    cases r
    simp only at h
    subst h
    rfl

namespace Device
open Navigator

theorem touchRoute_eq (r : Route F) : touchRoute r =
    { r with props := some r.propsOf.2, tracks := r.tracks.map (fun t => t.propsOf.1) } := by
  unfold touchRoute
  simp only [Route.propsOf_fields]

theorem touchRoute_idem (r : Route F) : touchRoute (touchRoute r) = touchRoute r := by
  have ht : ∀ t : Track F, t.propsOf.1.propsOf.1 = t.propsOf.1 := by
    intro t
    rw [Track.propsOf_fields t]
    rfl
  simp only [touchRoute_eq, List.map_map]
  have : (fun t : Track F => t.propsOf.1) ∘ (fun t : Track F => t.propsOf.1) = fun t => t.propsOf.1 := by
    funext t; exact ht t
  rw [this]
  rfl

theorem pubRoute_touch [GoFloat F] (r : Route F) : pubRoute (touchRoute r) = pubRoute r := by
  have ht : ∀ t : Track F, pubTrack t.propsOf.1 = pubTrack t := by
    intro t
    rw [Track.propsOf_fields t]
    rfl
  have : (pubTrack (F := F)) ∘ (fun t : Track F => t.propsOf.1) = pubTrack := by
    funext t; exact ht t
  rw [touchRoute_eq]
  simp only [pubRoute, List.map_map, this]
  rfl

/-- The navigator after the property maps were created. -/
def touched (n : Navigator F) : Navigator F := { n with routes := n.routes.map touchRoute }

theorem touched_idem (n : Navigator F) : touched (touched n) = touched n := by
  unfold touched
  simp only [List.map_map]
  have : (touchRoute (F := F)) ∘ touchRoute = touchRoute := by funext r; exact touchRoute_idem r
  rw [this]

theorem currentRoute_touched (n : Navigator F) :
    (touched n).currentRoute = n.currentRoute.map (Option.map touchRoute) := by
  unfold currentRoute touched
  simp only [List.isEmpty_iff, List.map_eq_nil_iff, goIndex_map]
  split
  · rfl
  · cases goIndex n.routes n.routeIndex <;> rfl

theorem trackAt_touch (r : Route F) (i : Int) :
    (touchRoute r).trackAt i = (r.trackAt i).map (fun t => t.propsOf.1) := by
  rw [touchRoute_eq]
  exact goAt?_map _ _ _

theorem currentTrack_touched (n : Navigator F) :
    (touched n).currentTrack = n.currentTrack.map (Option.map (fun t => t.propsOf.1)) := by
  unfold currentTrack
  rw [currentRoute_touched]
  cases n.currentRoute with
  | error e => rfl
  | ok r =>
    cases r with
    | none => rfl
    | some r => exact congrArg Except.ok (trackAt_touch r n.trackIndex)

theorem currentSegment_touched [GoFloat F] (n : Navigator F) :
    (touched n).currentSegment = n.currentSegment := by
  unfold currentSegment
  rw [currentRoute_touched]
  cases n.currentRoute with
  | error e => rfl
  | ok r =>
    cases r with
    | none => rfl
    | some r =>
      have := trackAt_touch r n.trackIndex
      simp only [map_ok, Option.map_some, ok_bind]
      rw [show (touched n).trackIndex = n.trackIndex from rfl, this]
      cases r.trackAt n.trackIndex with
      | none => rfl
      | some t =>
        simp only [Option.map_some, Track.propsOf_fields t]
        rfl

theorem update_touched [GoMath F] (n : Navigator F) (s : DevState F) : (touched n).update s = n.update s := by
  have e1 : (touched n).routeDistance = n.routeDistance := by
    unfold routeDistance
    rw [currentRoute_touched]
    cases n.currentRoute with
    | error e => rfl
    | ok r =>
      cases r with
      | none => rfl
      | some r => simp only [map_ok, Option.map_some, ok_bind, touchRoute_eq]
  have e2 : (touched n).trackDistance = n.trackDistance := by
    unfold trackDistance
    rw [currentTrack_touched]
    cases n.currentTrack with
    | error e => rfl
    | ok r =>
      cases r with
      | none => rfl
      | some r => simp only [map_ok, Option.map_some, ok_bind, Track.propsOf_fields r]
  have e3 : (touched n).segmentDistance = n.segmentDistance := by
    unfold segmentDistance; rw [currentSegment_touched]
  have e4 : (touched n).currentBearing = n.currentBearing := by
    unfold currentBearing; rw [currentSegment_touched]
  unfold Navigator.update
  rw [e1, e2, e3, e4, currentRoute_touched, currentTrack_touched]
  cases n.routeDistance with
  | error e => rfl
  | ok _ =>
  cases n.trackDistance with
  | error e => rfl
  | ok _ =>
  cases n.segmentDistance with
  | error e => rfl
  | ok _ =>
  cases n.currentRoute with
  | error e => rfl
  | ok r =>
  cases n.currentTrack with
  | error e => rfl
  | ok t =>
  cases n.currentBearing with
  | error e => rfl
  | ok _ =>
    cases r with
    | none =>
      cases t with
      | none => rfl
      | some t =>
        simp only [map_ok, ok_bind, Option.map_some, Option.map_none, Track.propsOf_fields t]
        rfl
    | some r =>
      cases t with
      | none =>
        simp only [map_ok, ok_bind, Option.map_some, Option.map_none, touchRoute_eq]
        rfl
      | some t =>
        simp only [map_ok, ok_bind, Option.map_some, Track.propsOf_fields t, touchRoute_eq]
        rfl

/-- What is published depends on the previous state only through the ids kept when there is no current
route or track. -/
theorem update_agree [GoMath F] {n : Navigator F} {s s' : DevState F} (h : n.update s = .ok s')
    (t : DevState F)
    (hr : n.currentRoute = .ok none → s.nav.currentRouteId = t.nav.currentRouteId)
    (ht : n.currentTrack = .ok none → s.nav.currentTrackId = t.nav.currentTrackId) :
    n.update t = .ok { t with
      dist := s'.dist, nav := s'.nav, loc := s'.loc, isOffline := s'.isOffline
      offlineDuration := s'.offlineDuration } := by
  unfold Navigator.update at h ⊢
  obtain ⟨a1, h1, h⟩ := bind_eq_ok h
  obtain ⟨a2, h2, h⟩ := bind_eq_ok h
  obtain ⟨a3, h3, h⟩ := bind_eq_ok h
  obtain ⟨a4, h4, h⟩ := bind_eq_ok h
  obtain ⟨a5, h5, h⟩ := bind_eq_ok h
  obtain ⟨a6, h6, h⟩ := bind_eq_ok h
  rw [h1, h2, h3, h4, h5, h6]
  cases h
  cases a4 with
  | none =>
    cases a5 with
    | none => simp only [ok_bind, pure_eq_ok, hr h4, ht h5]
    | some _ => simp only [ok_bind, pure_eq_ok, hr h4]
  | some _ =>
    cases a5 with
    | none => simp only [ok_bind, pure_eq_ok, ht h5]
    | some _ => simp only [ok_bind, pure_eq_ok]

theorem updateState_of [GoMath F] {d : Device F} {st : DevState F} (h : d.navigator.update d.state = .ok st) :
    d.updateState = .ok (d.refreshed st) := by
  unfold updateState
  rw [h]
  simp only [ok_bind, pure_eq_ok]
  unfold refreshed pubSensors
  split <;> rfl

/-! ## Operations with answers -/

/-- Execute one operation, keeping its answer. -/
def perform [GoMath F] (d : Device F) : DevOp F → Go (Device F × Answer)
  | .addRoute rs => .ok ((d.addRoute rs).1, .err (d.addRoute rs).2)
  | .removeRoute id => .ok ((d.removeRoute id).1, .bool (d.removeRoute id).2)
  | .removeTrack rid tid => .ok ((d.removeTrack rid tid).1, .bool (d.removeTrack rid tid).2)
  | .resetRoutes => .ok (d.resetRoutes.1, .bool d.resetRoutes.2)
  | .move m => (d.navigator.perform m.navOp).map (fun p => ({ d with navigator := p.1 }, p.2))
  | .onRoute i op =>
    (d.navigator.perform (.onRoute i op)).map (fun p => ({ d with navigator := p.1 }, p.2))
  | .addSensor ss => .ok (d.addSensor ss, .unit)
  | .removeSensor id => .ok ((d.removeSensor id).1, .bool (d.removeSensor id).2)
  | .resetSensors => .ok (d.resetSensors, .unit)
  | .sensorNext i t => (d.onSensorNext i t).map (fun d => (d, .unit))
  | .sensorShuffle i draws =>
    .ok ({ d with sensors := d.sensors.modify i (fun s => s.shuffle draws) }, .unit)
  | .next tick rnd => (d.next tick rnd).map (fun p => (p.1, .bool p.2))
  | .skipTick => .ok (d.skipTick, .bool false)
  | .update => d.update.map (fun d => (d, .unit))
  | .setModel s => .ok ((d.setModel s).1, .err (d.setModel s).2)
  | .setUserID s => .ok (d.setUserID s, .unit)
  | .setDescription s => .ok (d.setDescription s, .unit)
  | .setColor c => .ok ((d.setColor c).1, .err (d.setColor c).2)
  | .fromSnapshot m => (d.fromSnapshot m).map (fun d => (d, .unit))

/-- `step` is `perform` without the answer. -/
theorem perform_step [GoMath F] (d : Device F) (op : DevOp F) :
    (d.perform op).map (·.1) = d.step op := by
  cases op <;> simp only [perform, step, map_map_go, map_ok, map_id_go, ← Navigator.perform_step]

end Device
end GpsGen
