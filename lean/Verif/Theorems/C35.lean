import Verif.Lemmas.DeviceRound
import Verif.Theorems.C26
/-!
# C35: the published state mirrors the navigator

Any number type. `Shows` lists every field that the claim mentions, in terms of the routes, tracks and
segments at the navigator's indices. The claim is false in one case: without a current route (or track)
the published ids keep their last value (`stale_route_id`, `stale_witness`). Everything else is proved after
every successful `Next`, after the `Next` that ends a lap, and after `Update`; an unsuccessful `Next`
still publishes the offline state.
-/

namespace GpsGen
variable {F : Type}

namespace C35
open Device Navigator

/-! ## Specification -/

/-- Element at an index. -/
def nth {α : Type} (l : List α) (i : Int) : Option α := if i < 0 then none else l[i.toNat]?

/-- The route at the navigator's indices. -/
def theRoute (n : Navigator F) : Option (Route F) := nth n.routes n.routeIndex

/-- The track at the navigator's indices. -/
def theTrack (n : Navigator F) : Option (Track F) := (theRoute n).bind (fun r => nth r.tracks n.trackIndex)

/-- The segment at the navigator's indices. -/
def theSegment (n : Navigator F) : Option (Segment F) :=
  (theTrack n).bind (fun t => nth t.segments n.segmentIndex)

/-- The published state shows the navigator: distances, indices, location, bearing, elevation and
offline state. Lengths of absent parts are zero, and so is the bearing of an absent or zero-length
segment. -/
structure Shows [GoFloat F] (st : DevState F) (n : Navigator F) : Prop where
  distance : st.dist.distance = n.distance
  currentDistance : st.dist.currentDistance = n.currentDistance
  currentRouteDistance : st.dist.currentRouteDistance = n.currentRouteDistance
  currentTrackDistance : st.dist.currentTrackDistance = n.currentTrackDistance
  currentSegmentDistance : st.dist.currentSegmentDistance = n.currentSegmentDistance
  routeDistance : st.dist.routeDistance = ((theRoute n).map (·.dist)).getD (lit 0)
  trackDistance : st.dist.trackDistance = ((theTrack n).map (·.dist)).getD (lit 0)
  segment : ∀ s, theSegment n = some s → (s.dist ==. lit 0) = false →
    st.dist.segmentDistance = s.dist ∧ st.loc.bearing = s.bearing
  noSegment : (∀ s, theSegment n = some s → (s.dist ==. lit 0) = true) →
    st.dist.segmentDistance = lit 0 ∧ st.loc.bearing = lit 0
  routeIndex : st.nav.currentRouteIndex = n.routeIndex
  trackIndex : st.nav.currentTrackIndex = n.trackIndex
  segmentIndex : st.nav.currentSegmentIndex = n.segmentIndex
  lat : st.loc.lat = n.point.lat
  lon : st.loc.lon = n.point.lon
  elevation : st.loc.elevation = n.elevation.valY
  isOffline : st.isOffline = true ↔ 0 < n.offlineIndex
  offlineDuration : st.offlineDuration = n.offlineIndex

/-- The published ids are those of the current route and track, as far as they exist. -/
def ShowsIds (st : DevState F) (n : Navigator F) : Prop :=
  (∀ r, theRoute n = some r → st.nav.currentRouteId = r.id) ∧
  (∀ t, theTrack n = some t → st.nav.currentTrackId = t.id)

/-- The published sensors are the sensors. -/
def ShowsSensors (d : Device F) : Prop :=
  d.state.sensors.map (fun p => (p.id, p.name, p.valX, p.valY)) =
    d.sensors.map (fun s => (s.id, s.name, s.valX, s.valY))

/-! ## Proof -/

theorem nth_goAt {α : Type} (l : List α) (i : Int) : goAt? l i = nth l i := by
  unfold goAt? nth
  by_cases h : i < 0
  · rw [if_pos h, if_neg (by omega)]
  · rw [if_neg h, if_pos (by omega)]

theorem currentRoute_spec {n : Navigator F} {o : Option (Route F)} (h : n.currentRoute = .ok o) :
    o = theRoute n := by
  unfold currentRoute at h
  split at h
  · rename_i he
    cases h
    unfold theRoute nth
    rw [List.isEmpty_iff.mp he]
    split <;> simp
  · obtain ⟨r, h1, h2⟩ := bind_eq_ok h
    cases h2
    unfold goIndex at h1
    split at h1
    · rename_i h0
      unfold theRoute nth
      rw [if_neg (by omega)]
      cases hx : n.routes[n.routeIndex.toNat]? with
      | none => rw [hx] at h1; cases h1
      | some x => rw [hx] at h1; cases h1; rfl
    · cases h1

theorem currentTrack_spec {n : Navigator F} {o : Option (Track F)} (h : n.currentTrack = .ok o) :
    o = theTrack n := by
  unfold currentTrack at h
  obtain ⟨r, h1, h2⟩ := bind_eq_ok h
  have e := currentRoute_spec h1
  cases r with
  | none => cases h2; unfold theTrack; rw [← e]; rfl
  | some r => cases h2; unfold theTrack Route.trackAt; rw [← e, nth_goAt]; rfl

theorem currentSegment_spec [GoFloat F] {n : Navigator F} {s : Segment F} (h : n.currentSegment = .ok s) :
    (∀ x, theSegment n = some x → (x.dist ==. lit 0) = false → s = x) ∧
    ((∀ x, theSegment n = some x → (x.dist ==. lit 0) = true) → s = Segment.zero) := by
  unfold currentSegment at h
  obtain ⟨r, h1, h2⟩ := bind_eq_ok h
  have e := currentRoute_spec h1
  have z0 : (Segment.zero : Segment F).isEmpty = true := GoFloat.zero_eq_zero
  cases r with
  | none =>
    cases h2
    have : theSegment n = none := by unfold theSegment theTrack; rw [← e]; rfl
    rw [this]
    exact ⟨fun x hx => by (cases hx), fun _ => rfl⟩
  | some r =>
    simp only at h2
    have et : theTrack n = r.trackAt n.trackIndex := by
      unfold theTrack Route.trackAt; rw [← e, nth_goAt]; rfl
    cases ht : r.trackAt n.trackIndex with
    | none =>
      rw [ht] at h2 et
      cases h2
      have : theSegment n = none := by unfold theSegment; rw [et]; rfl
      rw [this]
      exact ⟨fun x hx => by (cases hx), fun _ => rfl⟩
    | some t =>
      rw [ht] at h2 et
      have es : theSegment n = goAt? t.segments n.segmentIndex := by
        unfold theSegment; rw [et, nth_goAt]; rfl
      rw [es]
      have e2 : t.segmentAt n.segmentIndex = (goAt? t.segments n.segmentIndex).getD Segment.zero := rfl
      cases hs : goAt? t.segments n.segmentIndex with
      | none =>
        rw [hs, Option.getD_none] at e2
        simp only [e2, z0, if_true, pure_eq_ok, Except.ok.injEq] at h2
        exact ⟨fun x hx => by (cases hx), fun _ => h2.symm⟩
      | some x =>
        rw [hs, Option.getD_some] at e2
        simp only [e2, pure_eq_ok, Except.ok.injEq] at h2
        constructor
        · intro y hy hd
          cases hy
          rw [← h2]
          exact if_neg (by show ¬ (x.dist ==. lit 0) = true; rw [hd]; simp)
        · intro hall
          have : x.isEmpty = true := hall x rfl
          rw [← h2, if_pos this]

/-- The navigator's `Update` shows the navigator. -/
theorem update_shows [GoMath F] {n : Navigator F} {s s' : DevState F} (h : n.update s = .ok s') :
    Shows s' n ∧ ShowsIds s' n := by
  unfold Navigator.update at h
  obtain ⟨rd, h1, h⟩ := bind_eq_ok h
  obtain ⟨td, h2, h⟩ := bind_eq_ok h
  obtain ⟨sd, h3, h⟩ := bind_eq_ok h
  obtain ⟨r, h4, h⟩ := bind_eq_ok h
  obtain ⟨t, h5, h⟩ := bind_eq_ok h
  obtain ⟨b, h6, h⟩ := bind_eq_ok h
  cases h
  have er := currentRoute_spec h4
  have et := currentTrack_spec h5
  have hrd : rd = ((theRoute n).map (·.dist)).getD (lit 0) := by
    unfold Navigator.routeDistance at h1
    rw [h4] at h1
    rw [← er]
    cases r <;> (cases h1; rfl)
  have htd : td = ((theTrack n).map (·.dist)).getD (lit 0) := by
    unfold Navigator.trackDistance at h2
    rw [h5] at h2
    rw [← et]
    cases t <;> (cases h2; rfl)
  obtain ⟨seg, hseg, h3⟩ := bind_eq_ok h3
  obtain ⟨seg', hseg', h6⟩ := bind_eq_ok h6
  rw [hseg] at hseg'
  cases hseg'
  cases h3
  cases h6
  obtain ⟨c1, c2⟩ := currentSegment_spec hseg
  refine ⟨{ distance := rfl, currentDistance := rfl, currentRouteDistance := rfl,
            currentTrackDistance := rfl, currentSegmentDistance := rfl, routeDistance := hrd,
            trackDistance := htd, segment := ?_, noSegment := ?_, routeIndex := rfl, trackIndex := rfl,
            segmentIndex := rfl, lat := rfl, lon := rfl, elevation := rfl,
            isOffline := by simp, offlineDuration := rfl }, ?_, ?_⟩
  · intro s hs hd
    have := c1 s hs hd
    subst this
    have hn : ¬ seg.isEmpty = true := by show ¬ (seg.dist ==. lit 0) = true; rw [hd]; simp
    exact ⟨if_neg hn, if_neg hn⟩
  · intro hall
    have := c2 hall
    subst this
    have z0 : (Segment.zero : Segment F).isEmpty = true := GoFloat.zero_eq_zero
    exact ⟨if_pos z0, if_pos z0⟩
  · intro x hx
    rw [← er] at hx
    subst hx
    rfl
  · intro x hx
    rw [← et] at hx
    subst hx
    rfl

theorem theRoute_touched (n : Navigator F) : theRoute (touched n) = (theRoute n).map touchRoute := by
  have := goAt?_map touchRoute n.routes n.routeIndex
  rw [nth_goAt, nth_goAt] at this
  exact this

theorem theTrack_touched (n : Navigator F) :
    theTrack (touched n) = (theTrack n).map (fun t => t.propsOf.1) := by
  unfold theTrack
  rw [theRoute_touched]
  cases theRoute n with
  | none => rfl
  | some r =>
    show nth (touchRoute r).tracks n.trackIndex = Option.map _ (nth r.tracks n.trackIndex)
    rw [← nth_goAt, ← nth_goAt, touchRoute_eq]
    exact goAt?_map _ _ _

/-- `Shows` does not depend on property maps. -/
theorem shows_touched [GoFloat F] {st : DevState F} {n : Navigator F} (h : Shows st n) (hi : ShowsIds st n) :
    Shows st (touched n) ∧ ShowsIds st (touched n) := by
  have hs : theSegment (touched n) = theSegment n := by
    unfold theSegment
    rw [theTrack_touched]
    cases theTrack n with
    | none => rfl
    | some t =>
      simp only [Option.map_some, Option.bind_some, Track.propsOf_fields t]
      rfl
  refine ⟨{ h with
    routeDistance := ?_, trackDistance := ?_, segment := ?_, noSegment := ?_ }, ?_, ?_⟩
  · rw [h.routeDistance, theRoute_touched]
    cases theRoute n with
    | none => rfl
    | some r => simp only [Option.map_some, touchRoute_eq]
  · rw [h.trackDistance, theTrack_touched]
    cases theTrack n with
    | none => rfl
    | some t => simp only [Option.map_some, Track.propsOf_fields t]
  · rw [hs]; exact h.segment
  · rw [hs]; exact h.noSegment
  · intro r hr
    rw [theRoute_touched] at hr
    obtain ⟨r0, h0, rfl⟩ := Option.map_eq_some_iff.mp hr
    rw [hi.1 r0 h0, touchRoute_eq]
  · intro t ht
    rw [theTrack_touched] at ht
    obtain ⟨t0, h0, rfl⟩ := Option.map_eq_some_iff.mp ht
    rw [hi.2 t0 h0, Track.propsOf_fields]

/-- `Shows` and `ShowsIds` do not look at the fields written by `updateState` itself. -/
theorem refreshed_shows [GoMath F] {d : Device F} {st : DevState F} (h : d.navigator.update d.state = .ok st) :
    Shows (d.refreshed st).state d.navigator ∧ ShowsIds (d.refreshed st).state d.navigator := by
  obtain ⟨a, b⟩ := update_shows h
  exact ⟨⟨a.1, a.2, a.3, a.4, a.5, a.6, a.7, a.8, a.9, a.10, a.11, a.12, a.13, a.14, a.15, a.16, a.17⟩, b⟩

/-- **C35, `Update`.** For any device. -/
theorem update_mirrors_partial [GoMath F] (d d' : Device F) (h : d.update = .ok d') :
    Shows d'.state d'.navigator ∧ ShowsIds d'.state d'.navigator ∧ ShowsSensors d' ∧
    d'.state.charge = d'.battery.value := by
  obtain ⟨st, h1, rfl⟩ := update_eq h
  obtain ⟨a, b⟩ := refreshed_shows h1
  obtain ⟨a, b⟩ := shows_touched a b
  refine ⟨⟨a.1, a.2, a.3, a.4, a.5, a.6, a.7, a.8, a.9, a.10, a.11, a.12, a.13, a.14, a.15, a.16, a.17⟩, b,
    ?_, rfl⟩
  exact C26.updateSensors_mirrored _

/-- **C35, a successful `Next`.** For every device with any history; `ShowsSensors` needs a history in
which no snapshot was restored onto the device (`C26.sensors_mirrored` covers that case). -/
theorem next_mirrors_partial [GoMath F] (rnd : DeviceRnd F) (o : Option (DeviceOptions F))
    (d0 d d' : Device F) (ops : List (DevOp F)) (hn : ∀ op ∈ ops, C26.NoRestore op)
    (h0 : Device.new rnd o = .ok d0) (hr : d0.run ops = .ok d)
    (tick : F) (r : NextRnd F) (h : d.next tick r = .ok (d', true)) :
    Shows d'.state d'.navigator ∧ ShowsIds d'.state d'.navigator ∧ ShowsSensors d' ∧
    d'.state.charge = d'.battery.value ∧ d'.state.speed = d'.speed.value := by
  have hp := (C26.sensors_refine rnd o d0 d ops hn h0 hr).2.2
  have hm : ShowsSensors d' := (C26.refreshing_ops_mirror d hp).2.2.2.2 d' tick r h
  cases next_outcome h with
  | moved _ n1 n2 n3 speed sensors d2 _ h1 h2 h3 h4 h5 hd2 h6 =>
    obtain ⟨st, h7, rfl⟩ := updateState_eq h6
    obtain ⟨a, b⟩ := refreshed_shows h7
    refine ⟨a, b, hm, rfl, ?_⟩
    have h8 := (nav_update_frame h7).2.2.2.2.2.1
    refine (show _ = st.speed from rfl).trans (h8.trans ?_)
    subst hd2
    simp only [refreshed]
    split <;> rfl

/-- **C35 for any device** (also restored ones): a successful `Next` shows the navigator. -/
theorem next_shows_partial [GoMath F] (d d' : Device F) (tick : F) (r : NextRnd F)
    (h : d.next tick r = .ok (d', true)) :
    Shows d'.state d'.navigator ∧ ShowsIds d'.state d'.navigator := by
  cases next_outcome h with
  | moved _ n1 n2 n3 speed sensors d2 _ h1 h2 h3 h4 h5 hd2 h6 =>
    obtain ⟨st, h7, rfl⟩ := updateState_eq h6
    exact refreshed_shows h7

/-- An unsuccessful `Next` on a device with routes publishes the offline state. -/
theorem next_offline [GoMath F] (d d' : Device F) (tick : F) (r : NextRnd F)
    (hr : d.navigator.routes ≠ []) (h : d.next tick r = .ok (d', false)) :
    (d'.state.isOffline = true ↔ 0 < d'.navigator.offlineIndex) ∧
    d'.state.offlineDuration = d'.navigator.offlineIndex := by
  cases next_outcome h with
  | idle h0 => exact absurd h0 hr
  | halted _ n1 n2 speed h1 h2 h3 h4 =>
    have e : n2.isFinish.1.offlineIndex = n2.offlineIndex := by
      unfold isFinish; split <;> rfl
    simp only [updateOfflineState, advanced, Navigator.isOffline]
    exact ⟨by rw [e]; simp, e.symm⟩
  | lap _ n1 n2 speed _ h1 h2 h3 h4 h5 =>
    obtain ⟨st, h7, rfl⟩ := updateState_eq h5
    have := (refreshed_shows h7).1
    exact ⟨this.isOffline, this.offlineDuration⟩

/-- **Negation.** Without routes `Update` leaves the published route and track id as they were. -/
theorem stale_route_id [GoMath F] (n : Navigator F) (s s' : DevState F) (hr : n.routes = [])
    (h : n.update s = .ok s') :
    s'.nav.currentRouteId = s.nav.currentRouteId ∧ s'.nav.currentTrackId = s.nav.currentTrackId := by
  unfold Navigator.update at h
  obtain ⟨rd, h1, h⟩ := bind_eq_ok h
  obtain ⟨td, h2, h⟩ := bind_eq_ok h
  obtain ⟨sd, h3, h⟩ := bind_eq_ok h
  obtain ⟨r, h4, h⟩ := bind_eq_ok h
  obtain ⟨t, h5, h⟩ := bind_eq_ok h
  obtain ⟨b, h6, h⟩ := bind_eq_ok h
  cases h
  have er := currentRoute_spec h4
  have et := currentTrack_spec h5
  have e0 : theRoute n = none := by
    unfold theRoute nth; rw [hr]; split <;> simp
  have e1 : theTrack n = none := by unfold theTrack; rw [e0]; rfl
  rw [e0] at er
  rw [e1] at et
  subst er et
  exact ⟨rfl, rfl⟩

/-- The stale id is reachable: after the only route is removed, it is still published. -/
theorem stale_witness :
    (Toy.dev [.addRoute [some Toy.route], .update, .removeRoute "r", .update]).map
      (fun d => (d.navigator.routes.length, d.state.nav.currentRouteId, d.state.nav.currentTrackId)) =
    some (0, "r", "t") := by decide +kernel

/-! Non-vacuity: after two ticks the state shows route "r", track "t" and a positive distance. -/

def demo : Option (Device Toy) :=
  Toy.dev [.addRoute [some Toy.route], .next (Toy.of 1) Toy.nextRnd, .next (Toy.of 1) Toy.nextRnd]

example : demo.map (fun d => (d.state.nav.currentRouteId, d.state.nav.currentTrackId,
    decide (0 < d.state.dist.currentDistance.val),
    decide (d.state.dist.currentDistance = d.navigator.currentDistance),
    decide (d.state.dist.routeDistance.val = 0))) = some ("r", "t", true, true, false) := by decide +kernel

end C35
end GpsGen
