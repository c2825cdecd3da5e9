import Verif.Model.NavUpdate
import Verif.Theorems.C24
import Verif.Theorems.C35
/-!
# C90: `Navigator.Update` into a message of the caller

Any number type, any navigator, any message. Whenever `Update` returns, the message shows the navigator as the state of a
device does (C35) and is otherwise unchanged. It returns exactly if the message is not nil, the route index is valid (C54)
and the message has no `Location` or one with UTM and both DMS parts. So the claim that it fills every message fails:
absent sub-messages are made, but not those of a `Location` that is there already. The message is then left half written.
-/

namespace GpsGen
variable {F : Type}

namespace C90
open C24 (Returns)
open C35 (theRoute theTrack theSegment)

/-! ## Specification -/

/-- The route index is usable. -/
def Usable (n : Navigator F) : Prop := n.routes = [] ∨ (0 ≤ n.routeIndex ∧ n.routeIndex < n.routes.length)

/-- A location has all its parts. -/
def Complete (l : LocationPb F) : Prop := l.utm ≠ none ∧ l.latDms ≠ none ∧ l.lonDms ≠ none

/-- The distances of the message. -/
structure Distances [GoFloat F] (n : Navigator F) (d : DistancePb F) : Prop where
  distance : d.distance = n.distance
  currentDistance : d.currentDistance = n.currentDistance
  currentRouteDistance : d.currentRouteDistance = n.currentRouteDistance
  currentTrackDistance : d.currentTrackDistance = n.currentTrackDistance
  currentSegmentDistance : d.currentSegmentDistance = n.currentSegmentDistance
  routeDistance : d.routeDistance = ((theRoute n).map (·.dist)).getD (lit 0)
  trackDistance : d.trackDistance = ((theTrack n).map (·.dist)).getD (lit 0)
  segment : ∀ s, theSegment n = some s → (s.dist ==. lit 0) = false → d.segmentDistance = s.dist
  noSegment : (∀ s, theSegment n = some s → (s.dist ==. lit 0) = true) → d.segmentDistance = lit 0

/-- The indices and ids; an id without a route or track stays as it was (`old`, empty at first). -/
structure Place (n : Navigator F) (old : Option NavigatorPb) (v : NavigatorPb) : Prop where
  routeIndex : v.currentRouteIndex = n.routeIndex
  trackIndex : v.currentTrackIndex = n.trackIndex
  segmentIndex : v.currentSegmentIndex = n.segmentIndex
  routeId : v.currentRouteId = match theRoute n with | some r => r.id | none => (old.map (·.currentRouteId)).getD ""
  trackId : v.currentTrackId = match theTrack n with | some t => t.id | none => (old.map (·.currentTrackId)).getD ""

/-- The location, apart from its parts. -/
structure Position [GoFloat F] (n : Navigator F) (l : LocationPb F) : Prop where
  lat : l.lat = n.point.lat
  lon : l.lon = n.point.lon
  elevation : l.elevation = n.elevation.valY
  bearing : ∀ s, theSegment n = some s → (s.dist ==. lit 0) = false → l.bearing = s.bearing
  noBearing : (∀ s, theSegment n = some s → (s.dist ==. lit 0) = true) → l.bearing = lit 0

/-- Everything but the parts of the location: what the message shows, and what is left alone. -/
structure Shown [GoFloat F] (n : Navigator F) (m m' : DevicePb F) : Prop where
  distance : ∃ d, m'.distance = some d ∧ Distances n d
  navigator : ∃ v, m'.navigator = some v ∧ Place n m.navigator v
  location : ∃ l, m'.location = some l ∧ Position n l
  isOffline : m'.isOffline = true ↔ 0 < n.offlineIndex
  offlineDuration : m'.offlineDuration = n.offlineIndex
  rest : DevicePb.mk m'.id m'.userId m'.tick m'.duration m'.model m'.speed m.distance m'.battery m'.routes m.location m.navigator
    m'.sensors m'.description m.isOffline m.offlineDuration m'.color m'.timeEstimate m'.units = m

/-- The parts of the location are those of the position. -/
def Parts [GoMath F] [UtmLib F] (n : Navigator F) (m : DevicePb F) : Prop :=
  ∃ l, m.location = some l ∧ l.utm = some (setUTM n.point.lat n.point.lon) ∧
    l.latDms = some (toDMS "N" "S" n.point.lat).pb ∧ l.lonDms = some (toDMS "E" "W" n.point.lon).pb

/-- The claim: a navigator with a usable index fills every message. -/
def Claim (F : Type) [GoMath F] [UtmLib F] : Prop := ∀ (n : Navigator F) (m : DevicePb F), Usable n →
  ∃ m', n.updateMsg (some m) = (some m', none) ∧ Shown n m m' ∧ Parts n m'

/-! ## Proof -/

/-- Distances as a message. -/
def distPb (d : DistPub F) : DistancePb F :=
  ⟨d.distance, d.currentDistance, d.routeDistance, d.currentRouteDistance, d.trackDistance, d.currentTrackDistance,
    d.segmentDistance, d.currentSegmentDistance⟩

/-- Place as a message. -/
def navPb (v : NavPub) : NavigatorPb :=
  ⟨v.currentRouteIndex, v.currentTrackIndex, v.currentSegmentIndex, v.currentRouteId, v.currentTrackId⟩

/-- A state with the ids of a message. -/
def idState [GoFloat F] (m : DevicePb F) : DevState F :=
  { DevState.init with nav := ⟨0, 0, 0, (m.navigator.map (·.currentRouteId)).getD "", (m.navigator.map (·.currentTrackId)).getD ""⟩ }

/-- The location of a message after `normalizeDeviceState`. -/
def locOf [GoFloat F] (m : DevicePb F) : LocationPb F := m.location.getD
  ⟨lit 0, lit 0, lit 0, lit 0, some ⟨0, 0, lit 0, ""⟩, some ⟨0, 0, lit 0, ""⟩, some ⟨lit 0, lit 0, lit 0, 0, "", "", 0⟩⟩

/-- The message before the parts of the location are written. -/
def before [GoFloat F] (m : DevicePb F) (s : DevState F) (l : LocationPb F) : DevicePb F :=
  { m with
    distance := some (distPb s.dist), navigator := some (navPb s.nav)
    location := some { l with lat := s.loc.lat, lon := s.loc.lon, elevation := s.loc.elevation, bearing := s.loc.bearing }
    isOffline := s.isOffline, offlineDuration := s.offlineDuration }

theorem run_append {α : Type} (a b : List (α → Go α)) (m m' : α) (h : runSteps a m = (m', none)) :
    runSteps (a ++ b) m = runSteps b m' := by
  induction a generalizing m with
  | nil => cases h; rfl
  | cons s a ih =>
    rw [List.cons_append, runSteps]
    rw [runSteps] at h
    cases e : s m with
    | ok x => rw [e] at h; exact ih x h
    | error p => rw [e] at h; cases h

theorem steps_split [GoMath F] [UtmLib F] (n : Navigator F) : ∃ a, n.updateSteps = a ++ [
    onUtm (setUTM n.point.lat n.point.lon), onLatDms (toDMS "N" "S" n.point.lat).pb, onLonDms (toDMS "E" "W" n.point.lon).pb] ∧
    ∀ (m : DevicePb F) (s' : DevState F), n.update (idState m) = .ok s' →
      runSteps a (normalizeMsg m) = (before m s' (locOf m), none) := by
  refine ⟨n.updateSteps.take 19, rfl, ?_⟩
  intro m s' h
  unfold Navigator.update at h
  obtain ⟨rd, h1, h⟩ := bind_eq_ok h
  obtain ⟨td, h2, h⟩ := bind_eq_ok h
  obtain ⟨sd, h3, h⟩ := bind_eq_ok h
  obtain ⟨r, h4, h⟩ := bind_eq_ok h
  obtain ⟨t, h5, h⟩ := bind_eq_ok h
  obtain ⟨b, h6, h⟩ := bind_eq_ok h
  cases h
  have e1 : (m.navigator.map (·.currentRouteId)).getD "" = (m.navigator.getD ⟨0, 0, 0, "", ""⟩).currentRouteId := by
    cases m.navigator <;> rfl
  have e2 : (m.navigator.map (·.currentTrackId)).getD "" = (m.navigator.getD ⟨0, 0, 0, "", ""⟩).currentTrackId := by
    cases m.navigator <;> rfl
  cases r <;> cases t <;>
    simp only [Navigator.updateSteps, List.take, runSteps, onDistance, onNavigator, onLocation, normalizeMsg, h1, h2, h3, h4, h5, h6, ok_bind, pure_eq_ok, Except.map,
      before, distPb, navPb, locOf, idState, e1, e2]

/-- The result of `Update`, when the navigator is usable. -/
theorem update_eq [GoMath F] [UtmLib F] (n : Navigator F) (m : DevicePb F) (s' : DevState F) (h : n.update (idState m) = .ok s') :
    n.updateMsg (some m) =
      match (locOf m).utm, (locOf m).latDms, (locOf m).lonDms with
      | none, _, _ => (some (before m s' (locOf m)), some .nilDeref)
      | some _, none, _ => (some (before m s' { locOf m with utm := some (setUTM n.point.lat n.point.lon) }), some .nilDeref)
      | some _, some _, none => (some (before m s' { locOf m with
          utm := some (setUTM n.point.lat n.point.lon), latDms := some (toDMS "N" "S" n.point.lat).pb }), some .nilDeref)
      | some _, some _, some _ => (some (before m s' { locOf m with
          utm := some (setUTM n.point.lat n.point.lon), latDms := some (toDMS "N" "S" n.point.lat).pb,
          lonDms := some (toDMS "E" "W" n.point.lon).pb }), none) := by
  obtain ⟨a, ha, hs⟩ := steps_split n
  unfold Navigator.updateMsg
  rw [ha]
  simp only [run_append a _ _ _ (hs m s' h)]
  rcases hu : (locOf m).utm with _ | u <;> rcases ht : (locOf m).latDms with _ | t <;> rcases ho : (locOf m).lonDms with _ | o <;>
    simp [runSteps, onUtm, onLatDms, onLonDms, onLocation, before, hu, ht, ho, Except.map]

theorem before_shown [GoMath F] (n : Navigator F) (m : DevicePb F) (s' : DevState F) (h : n.update (idState m) = .ok s')
    (l : LocationPb F) : Shown n m (before m s' l) := by
  obtain ⟨hs, hi⟩ := C35.update_shows h
  have hid : s'.nav.currentRouteId = (match theRoute n with | some r => r.id | none => (m.navigator.map (·.currentRouteId)).getD "") ∧
      s'.nav.currentTrackId = (match theTrack n with | some t => t.id | none => (m.navigator.map (·.currentTrackId)).getD "") := by
    unfold Navigator.update at h
    obtain ⟨rd, h1, h⟩ := bind_eq_ok h
    obtain ⟨td, h2, h⟩ := bind_eq_ok h
    obtain ⟨sd, h3, h⟩ := bind_eq_ok h
    obtain ⟨r, h4, h⟩ := bind_eq_ok h
    obtain ⟨t, h5, h⟩ := bind_eq_ok h
    obtain ⟨b, h6, h⟩ := bind_eq_ok h
    cases h
    rw [← C35.currentRoute_spec h4, ← C35.currentTrack_spec h5]
    exact ⟨rfl, rfl⟩
  exact {
    distance := ⟨_, rfl, hs.distance, hs.currentDistance, hs.currentRouteDistance, hs.currentTrackDistance, hs.currentSegmentDistance,
      hs.routeDistance, hs.trackDistance, fun s h1 h2 => (hs.segment s h1 h2).1, fun h1 => (hs.noSegment h1).1⟩
    navigator := ⟨_, rfl, hs.routeIndex, hs.trackIndex, hs.segmentIndex, hid.1, hid.2⟩
    location := ⟨_, rfl, hs.lat, hs.lon, hs.elevation, fun s h1 h2 => (hs.segment s h1 h2).2, fun h1 => (hs.noSegment h1).2⟩
    isOffline := hs.isOffline
    offlineDuration := hs.offlineDuration
    rest := rfl }

theorem usable_iff [GoMath F] (n : Navigator F) (s : DevState F) : (∃ s', n.update s = .ok s') ↔ Usable n := C24.update_iff n s

theorem unusable_route (n : Navigator F) (h : ¬ Usable n) : n.currentRoute = .error .indexOutOfRange := by
  unfold Navigator.currentRoute goIndex
  by_cases h0 : n.routes = []
  · exact absurd (Or.inl h0) h
  · rw [if_neg (by simpa using h0)]
    by_cases h1 : 0 ≤ n.routeIndex
    · have : n.routes.length ≤ n.routeIndex.toNat := by
        rcases Nat.lt_or_ge n.routeIndex.toNat n.routes.length with h2 | h2
        · exact absurd (Or.inr ⟨h1, by omega⟩) h
        · exact h2
      rw [if_pos h1, List.getElem?_eq_none this]
      rfl
    · rw [if_neg h1]
      rfl

/-- **C90, bad index.** A route index that is not usable panics in the third statement: of the message only two distances are
written, and absent sub-messages are made. -/
theorem bad_index [GoMath F] [UtmLib F] (n : Navigator F) (m : DevicePb F) (h : ¬ Usable n) :
    ∃ m' d, n.updateMsg (some m) = (some m', some .indexOutOfRange) ∧ m'.distance = some d ∧ d.distance = n.distance ∧
      d.currentDistance = n.currentDistance ∧ d.routeDistance = (m.distance.map (·.routeDistance)).getD (lit 0) ∧
      m'.isOffline = m.isOffline ∧ m'.location = some (locOf m) := by
  have hr : n.routeDistance = .error .indexOutOfRange := by
    unfold Navigator.routeDistance
    rw [unusable_route n h]
    rfl
  have hd : (normalizeMsg m).distance = some (m.distance.getD ⟨lit 0, lit 0, lit 0, lit 0, lit 0, lit 0, lit 0, lit 0⟩) := rfl
  have he : n.updateMsg (some m) = (some { normalizeMsg m with
      distance := some { (m.distance.getD ⟨lit 0, lit 0, lit 0, lit 0, lit 0, lit 0, lit 0, lit 0⟩) with
        distance := n.distance, currentDistance := n.currentDistance } }, some .indexOutOfRange) := by
    simp only [Navigator.updateMsg, Navigator.updateSteps, runSteps, onDistance, hd, hr, Except.map, bind, Except.bind]
  refine ⟨_, _, he, rfl, rfl, rfl, ?_, rfl, rfl⟩
  cases m.distance <;> rfl

/-- **C90, returns.** `Update` returns exactly for messages that are not nil and whose location, if there is one, has all its
parts, and for usable indices. -/
theorem returns_iff [GoMath F] [UtmLib F] (n : Navigator F) (o : Option (DevicePb F)) :
    (n.updateMsg o).2 = none ↔ ∃ m, o = some m ∧ Usable n ∧ ∀ l, m.location = some l → Complete l := by
  cases o with
  | none => simp [Navigator.updateMsg]
  | some m =>
    by_cases hu : Usable n
    · obtain ⟨s', hs⟩ := (usable_iff n (idState m)).mpr hu
      rw [update_eq n m s' hs]
      cases hl : m.location with
      | none =>
        have e : locOf m = ⟨lit 0, lit 0, lit 0, lit 0, some ⟨0, 0, lit 0, ""⟩, some ⟨0, 0, lit 0, ""⟩,
          some ⟨lit 0, lit 0, lit 0, 0, "", "", 0⟩⟩ := by rw [locOf, hl]; rfl
        rw [e]
        simp [hu, hl]
      | some l =>
        have e : locOf m = l := by rw [locOf, hl]; rfl
        rw [e]
        rcases hu' : l.utm with _ | u <;> rcases ht : l.latDms with _ | t <;> rcases ho : l.lonDms with _ | o <;>
          simp [hu, hl, Complete, hu', ht, ho]
    · obtain ⟨m', d, h, -⟩ := bad_index n m hu
      rw [h]
      simp only [reduceCtorEq, Option.some.injEq, exists_eq_left', false_iff, not_and]
      intro hc
      exact absurd hc hu

/-- **C90, shown.** Whenever `Update` returns, the message shows the navigator and is otherwise as it was. -/
theorem shown_partial [GoMath F] [UtmLib F] (n : Navigator F) (m : DevicePb F) (o : Option (DevicePb F))
    (h : n.updateMsg (some m) = (o, none)) : ∃ m', o = some m' ∧ Shown n m m' ∧ Parts n m' := by
  have hr : (n.updateMsg (some m)).2 = none := by rw [h]
  obtain ⟨_, e, hu, hl⟩ := (returns_iff n (some m)).mp hr
  cases e
  obtain ⟨s', hs⟩ := (usable_iff n (idState m)).mpr hu
  rw [update_eq n m s' hs] at h
  split at h
  · cases h
  · cases h
  · cases h
  · cases h
    exact ⟨_, rfl, before_shown n m s' hs _, _, rfl, rfl, rfl, rfl⟩

/-- **C90, half written.** If a part of the location is missing, `Update` panics after everything else was written. The parts
are written in the order UTM, latitude, longitude, up to the missing one. -/
theorem half_written [GoMath F] [UtmLib F] (n : Navigator F) (m : DevicePb F) (hu : Usable n) (l : LocationPb F)
    (hl : m.location = some l) (hc : ¬ Complete l) : ∃ m' l', n.updateMsg (some m) = (some m', some .nilDeref) ∧ Shown n m m' ∧
      m'.location = some l' ∧ l'.lonDms = l.lonDms ∧
      (l.utm = none → l'.utm = none ∧ l'.latDms = l.latDms) ∧
      (l.utm ≠ none → l'.utm = some (setUTM n.point.lat n.point.lon)) ∧
      (l.utm ≠ none → l.latDms ≠ none → l'.latDms = some (toDMS "N" "S" n.point.lat).pb) := by
  obtain ⟨s', hs⟩ := (usable_iff n (idState m)).mpr hu
  rw [update_eq n m s' hs]
  have e : locOf m = l := by rw [locOf, hl]; rfl
  rw [e]
  rcases hu' : l.utm with _ | u
  · exact ⟨_, _, rfl, before_shown n m s' hs _, rfl, rfl, by simp [hu'], by simp, by simp⟩
  · rcases ht : l.latDms with _ | t
    · exact ⟨_, _, rfl, before_shown n m s' hs _, rfl, rfl, by simp, by simp, by simp⟩
    · rcases ho : l.lonDms with _ | o
      · exact ⟨_, _, rfl, before_shown n m s' hs _, rfl, by simp [ho], by simp, by simp, by simp⟩
      · exact absurd ⟨by simp [hu'], by simp [ht], by simp [ho]⟩ hc

/-- **C90, again.** After an `Update` that returned, another one returns and changes nothing. -/
theorem again [GoMath F] [UtmLib F] (n : Navigator F) (m : DevicePb F) (o : Option (DevicePb F))
    (h : n.updateMsg (some m) = (o, none)) : n.updateMsg o = (o, none) := by
  have hr : (n.updateMsg (some m)).2 = none := by rw [h]
  obtain ⟨_, e, hu, hl⟩ := (returns_iff n (some m)).mp hr
  cases e
  obtain ⟨s', hs⟩ := (usable_iff n (idState m)).mpr hu
  rw [update_eq n m s' hs] at h
  split at h
  · cases h
  · cases h
  · cases h
  · cases h
    have hs2 : n.update (idState (before m s' { locOf m with
          utm := some (setUTM n.point.lat n.point.lon), latDms := some (toDMS "N" "S" n.point.lat).pb,
          lonDms := some (toDMS "E" "W" n.point.lon).pb })) = .ok s' := by
      unfold Navigator.update at hs ⊢
      obtain ⟨rd, h1, hs⟩ := bind_eq_ok hs
      obtain ⟨td, h2, hs⟩ := bind_eq_ok hs
      obtain ⟨sd, h3, hs⟩ := bind_eq_ok hs
      obtain ⟨r, h4, hs⟩ := bind_eq_ok hs
      obtain ⟨t, h5, hs⟩ := bind_eq_ok hs
      obtain ⟨b, h6, hs⟩ := bind_eq_ok hs
      cases hs
      rw [h1, h2, h3, h4, h5, h6]
      simp only [ok_bind, pure_eq_ok]
      cases r <;> cases t <;> rfl
    rw [update_eq n _ s' hs2]
    rfl

/-- **C90, devices.** On the message of a device, `Update` does what the model of devices says. -/
theorem device_message [GoMath F] [JsonFloat F] [UtmLib F] (n : Navigator F) (s s' : DevState F) (rs : List (Route F))
    (h : n.update s = .ok s') : n.updateMsg (some (s.pb rs)) = (some (s'.pb rs), none) := by
  have h0 := h
  unfold Navigator.update at h
  obtain ⟨rd, h1, h⟩ := bind_eq_ok h
  obtain ⟨td, h2, h⟩ := bind_eq_ok h
  obtain ⟨sd, h3, h⟩ := bind_eq_ok h
  obtain ⟨r, h4, h⟩ := bind_eq_ok h
  obtain ⟨t, h5, h⟩ := bind_eq_ok h
  obtain ⟨b, h6, h⟩ := bind_eq_ok h
  have hd : (toDMS "N" "S" n.point.lat).direction ≠ "" := by
    unfold toDMS
    dsimp only
    split <;> decide
  obtain ⟨s2, hs2⟩ := (usable_iff n (idState (s.pb rs))).mpr ((usable_iff n s).mp ⟨s', h0⟩)
  rw [update_eq n _ s2 hs2]
  unfold Navigator.update at hs2
  rw [h1, h2, h3, h4, h5, h6] at hs2
  simp only [ok_bind, pure_eq_ok] at hs2
  cases hs2
  cases h
  simp only [locOf, DevState.pb, LocPub.pb, Option.getD_some, before, distPb, navPb, if_neg hd]
  rfl

/-- **C90, the claim fails**: a message whose location has no UTM part. -/
theorem claim_fails [GoMath F] [UtmLib F] : ¬ Claim F := by
  intro hc
  let m : DevicePb F := ⟨"", "", lit 0, lit 0, "", lit 0, none, none, none, some ⟨lit 0, lit 0, lit 0, lit 0, none, none, none⟩,
    none, [], "", false, 0, "", lit 0, none⟩
  have : Inhabited F := ⟨lit 0⟩
  obtain ⟨m', h, -⟩ := hc default m (Or.inl rfl)
  obtain ⟨_, e, -, hl⟩ := (returns_iff default (some m)).mp (by rw [h])
  cases e
  exact (hl _ rfl).1 rfl

/-- **C90, nil.** A nil message panics, whatever the navigator. -/
theorem nil_message [GoMath F] [UtmLib F] (n : Navigator F) : n.updateMsg none = (none, some .nilDeref) := rfl

/-! Examples: the navigator after two ticks on the route of `Toy`, and three messages of the caller. -/

/-- A library that puts everything into zone 37U. -/
local instance : UtmLib Toy := ⟨fun lat lon => (lat, lon, ⟨37, 'U', true, Toy.of 39, 32637⟩)⟩

/-- An empty message with the given id, location and navigator. -/
def exMsg (l : Option (LocationPb Toy)) (v : Option NavigatorPb) : DevicePb Toy :=
  ⟨"mine", "", Toy.of 7, Toy.of 0, "", Toy.of 0, none, none, none, l, v, [], "", true, 9, "", Toy.of 0, none⟩

/-- A location of zeros without UTM part. -/
def exLoc : LocationPb Toy := ⟨Toy.of 0, Toy.of 0, Toy.of 0, Toy.of 0, none, none, none⟩

/-- An empty message: everything is made and filled. -/
example : C35.demo.map (fun d =>
    let r := d.navigator.updateMsg (some (exMsg none none))
    (r.2, r.1.map (fun m => (m.id, m.tick, m.isOffline, m.offlineDuration)))) =
    some (none, some ("mine", Toy.of 7, false, 0)) := by decide +kernel

example : C35.demo.map (fun d =>
    let r := d.navigator.updateMsg (some (exMsg none none))
    r.1.map (fun m => (m.navigator.map (·.currentRouteId), m.distance.map (fun x => decide (0 < x.currentDistance.val))))) =
    some (some (some "r", some true)) := by decide +kernel

example : C35.demo.map (fun d =>
    let r := d.navigator.updateMsg (some (exMsg none none))
    (r.1.bind (·.location)).map (fun l => (l.utm.map (·.longZone), l.latDms.map (·.direction)))) =
    some (some (some 37, some "N")) := by decide +kernel

/-- A location without UTM part: a panic, but the position is written. -/
example : C35.demo.map (fun d =>
    let r := d.navigator.updateMsg (some (exMsg (some exLoc) none))
    (r.2, r.1.map (fun m => (m.isOffline, m.location.map (fun l => (decide (l.lat = d.navigator.point.lat), l.utm.isSome)))))) =
    some (some .nilDeref, some (false, some (true, false))) := by decide +kernel

/-- Without routes the ids of the message stay as they were. -/
example : (Toy.dev []).map (fun d =>
    let r := d.navigator.updateMsg (some (exMsg none (some ⟨3, 2, 1, "old", "older"⟩)))
    (r.2, r.1.bind (·.navigator))) = some (none, some ⟨0, 0, 0, "old", "older"⟩) := by decide +kernel

/-- A route index out of range (reachable, C54) panics early. -/
example : C35.demo.map (fun d =>
    let r := ({ d.navigator with routeIndex := 5 } : Navigator Toy).updateMsg (some (exMsg none none))
    (r.2, r.1.map (fun m => (m.isOffline, m.distance.map (fun x => decide (0 < x.currentDistance.val)))))) =
    some (some .indexOutOfRange, some (true, some true)) := by decide +kernel

end C90
end GpsGen
