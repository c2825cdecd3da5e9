import Verif.Lemmas.Versions
import Verif.Lemmas.DeviceNext
import Verif.Lemmas.Toy
/-!
# C20: published routes mirror the navigator

Any number type, any device created by `NewDevice`, any history of device operations, including
mutation of held routes and tracks and `FromSnapshot` with an arbitrary snapshot.
-/

namespace GpsGen
variable {F : Type}

namespace C20
open Device

/-- What is published about a track: id, length, number of segments, colour. -/
structure TrackInfo (F : Type) where
  id : String
  distance : F
  numSegments : Int
  color : String

/-- What is published about a route: id, length, colour, tracks. -/
structure RouteInfo (F : Type) where
  id : String
  distance : F
  color : String
  tracks : List (TrackInfo F)

/-- The navigator's routes, read off the routes themselves. -/
def held (d : Device F) : List (RouteInfo F) :=
  d.navigator.routes.map fun r => ⟨r.id, r.dist, r.color,
    r.tracks.map fun t => ⟨t.id, t.dist, t.segments.length, t.color⟩⟩

/-- The published routes. -/
def published (d : Device F) : List (RouteInfo F) :=
  d.state.routes.map fun r => ⟨r.routeId, r.distance, r.color,
    r.tracks.map fun t => ⟨t.trackId, t.distance, t.numSegments, t.color⟩⟩

theorem held_of_view {d d' : Device F}
    (h : d.navigator.routes.map Route.view = d'.navigator.routes.map Route.view) :
    held d = held d' := by
  have key : ∀ d : Device F, held d = (d.navigator.routes.map Route.view).map (fun v =>
      ⟨v.1, v.2.2.2.1, v.2.2.1, v.2.2.2.2.map fun t => ⟨t.1, t.2.2.2.1, t.2.2.2.2.2.length, t.2.2.1⟩⟩) := by
    intro d
    simp only [held, List.map_map, Function.comp_def, Route.view, Track.view]
  rw [key, key, h]

/-- The invariant: the remembered version lies in the past, or the published routes are current. -/
def Fresh (d : Device F) : Prop :=
  Earlier d.ns d.navigator.sum ∨ (d.ns = d.navigator.sum ∧ published d = held d)

theorem fresh_step {d d' : Device F} (h : Fresh d) (hn : d'.ns = d.ns)
    (hr : d'.state.routes = d.state.routes)
    (hv : Navigator.VersionStep d.navigator d'.navigator) : Fresh d' := by
  have hp : published d' = published d := by simp only [published, hr]
  unfold Fresh
  rw [hn, hp]
  rcases h with h | ⟨h, hm⟩ <;> rcases hv with hv | ⟨hv, hw⟩
  · exact Or.inl (h.trans hv)
  · left; rw [← hv]; exact h
  · left; rw [h]; exact hv
  · right; exact ⟨h.trans hv, hm.trans (held_of_view hw)⟩

theorem touch_version (r : Route F) : (touchRoute r).version = r.version ∧
    (touchRoute r).trackVersions = r.trackVersions ∧ (touchRoute r).view = r.view := by
  have ht : ∀ t : Track F, t.propsOf.1.version = t.version ∧ t.propsOf.1.view = t.view := by
    intro t; unfold Track.propsOf; split <;> exact ⟨rfl, rfl⟩
  have hr : r.propsOf.1.version = r.version ∧ r.propsOf.1.tracks = r.tracks ∧ r.propsOf.1.id = r.id ∧
      r.propsOf.1.name = r.name ∧ r.propsOf.1.color = r.color ∧ r.propsOf.1.dist = r.dist := by
    unfold Route.propsOf; split <;> exact ⟨rfl, rfl, rfl, rfl, rfl, rfl⟩
  obtain ⟨h1, h2, h3, h4, h5, h6⟩ := hr
  refine ⟨h1, ?_, ?_⟩
  · simp only [touchRoute, Route.trackVersions, h2, List.map_map, Function.comp_def, (ht _).1]
  · simp only [touchRoute, Route.view, h2, h3, h4, h5, h6, List.map_map, Function.comp_def, (ht _).2]

theorem touch_sum (n : Navigator F) :
    ({ n with routes := n.routes.map touchRoute } : Navigator F).sum = n.sum := by
  rw [Navigator.sum_eq, Navigator.sum_eq]
  simp only [List.map_map, Function.comp_def, (touch_version _).1, (touch_version _).2.1]

theorem updateRoutes_fresh [GoFloat F] (d : Device F) :
    d.updateRoutes.ns = d.updateRoutes.navigator.sum ∧ published d.updateRoutes = held d.updateRoutes := by
  refine ⟨rfl, ?_⟩
  have e : held d.updateRoutes = held d := by
    apply held_of_view
    simp only [updateRoutes, calcAvgT, List.map_map, Function.comp_def, (touch_version _).2.2]
  rw [e]
  simp only [published, held, updateRoutes, calcAvgT, pubRoute, pubTrack, List.map_map,
    Function.comp_def, Track.numSegments]

theorem fresh_updateRoutes [GoFloat F] (d : Device F) : Fresh d.updateRoutes :=
  Or.inr (updateRoutes_fresh d)

theorem refreshed_frame [GoMath F] {d d' : Device F} (h : d.updateState = .ok d') :
    d'.ns = d.ns ∧ d'.state.routes = d.state.routes ∧ d'.navigator = d.navigator := by
  obtain ⟨st, hst, rfl⟩ := updateState_eq h
  exact ⟨rfl, (nav_update_frame hst).2.2.2.2.2.2.1, rfl⟩

theorem step_fresh [GoMath F] {d d' : Device F} {op : DevOp F} (h : Fresh d)
    (hs : d.step op = .ok d') : Fresh d' := by
  have same : ∀ {e : Device F}, e.ns = d.ns → e.state.routes = d.state.routes →
      e.navigator = d.navigator → Fresh e := fun h1 h2 h3 => fresh_step h h1 h2 (by rw [h3]; exact .refl _)
  have nav : ∀ {op : NavOp F} {n : Navigator F}, d.navigator.step op = .ok n →
      Fresh { d with navigator := n } := fun hn => fresh_step h rfl rfl (Navigator.step_version hn)
  cases op with
  | addRoute rs =>
    cases hs
    unfold addRoute
    have hn : d.navigator.step (.addRoute rs) = .ok (d.navigator.addRoute rs).1 := rfl
    revert hn
    cases d.navigator.addRoute rs with
    | mk n err =>
      intro hn
      cases err with
      | none => exact fresh_updateRoutes _
      | some e => exact nav hn
  | removeRoute id =>
    cases hs
    unfold removeRoute
    have hn : d.navigator.step (.removeRoute id) = .ok (d.navigator.removeRoute id).1 := rfl
    revert hn
    cases d.navigator.removeRoute id with
    | mk n ok =>
      intro hn
      cases ok with
      | true => exact fresh_updateRoutes _
      | false => exact nav hn
  | removeTrack rid tid =>
    cases hs
    unfold removeTrack
    have hn : d.navigator.step (.removeTrack rid tid) = .ok (d.navigator.removeTrack rid tid).1 := rfl
    revert hn
    cases d.navigator.removeTrack rid tid with
    | mk n ok =>
      intro hn
      cases ok with
      | true => exact fresh_updateRoutes _
      | false => exact nav hn
  | resetRoutes =>
    cases hs
    unfold resetRoutes
    have hn : d.navigator.step .resetRoutes = .ok d.navigator.resetRoutes.1 := rfl
    revert hn
    cases d.navigator.resetRoutes with
    | mk n ok =>
      intro hn
      cases ok with
      | true => exact fresh_updateRoutes _
      | false => exact nav hn
  | move m =>
    obtain ⟨n, hn, rfl⟩ := map_eq_ok hs
    exact nav hn
  | onRoute i op => cases hs; exact nav (op := .onRoute i op) rfl
  | addSensor ss =>
    cases hs
    unfold addSensor
    split
    · exact same rfl rfl rfl
    · simp only
      split <;> exact same rfl rfl rfl
  | removeSensor id =>
    cases hs
    unfold removeSensor
    split
    · exact same rfl rfl rfl
    · simp only
      split <;> exact same rfl rfl rfl
  | resetSensors => cases hs; exact same rfl rfl rfl
  | sensorNext i t =>
    simp only [step, onSensorNext] at hs
    split at hs
    · cases hs; exact same rfl rfl rfl
    · obtain ⟨s, _, hs⟩ := bind_eq_ok hs
      cases hs
      exact same rfl rfl rfl
  | sensorShuffle i draws => cases hs; exact same rfl rfl rfl
  | next tick rnd =>
    obtain ⟨⟨e, b⟩, he, rfl⟩ := map_eq_ok hs
    have pow : ∀ {n1 : Navigator F}, d.powered (d.seconds tick) rnd.low = .ok n1 →
        Navigator.VersionStep d.navigator n1 := by
      intro n1 h1
      rcases powered_step h1 with rfl | h1
      · exact .refl _
      · exact Navigator.step_version h1
    have loc : ∀ {n1 n2 : Navigator F} {sp : F} {b : Bool},
        n1.nextLocation (d.seconds tick) sp rnd.loc = .ok (n2, b) → Navigator.VersionStep n1 n2 := by
      intro n1 n2 sp b h3
      exact Navigator.step_version (op := .nextLocation (d.seconds tick) sp rnd.loc)
        (by simp only [Navigator.step, h3]; rfl)
    have fin : ∀ n2 : Navigator F, Navigator.VersionStep n2 n2.isFinish.1 :=
      fun n2 => Navigator.step_version (op := .isFinish) rfl
    generalize hres : (e, b).1 = e'
    cases hres
    cases next_outcome he with
    | idle _ => exact h
    | halted _ n1 n2 speed h1 h2 h3 h4 =>
      exact fresh_step h rfl rfl (((pow h1).trans (loc h3)).trans (fin n2))
    | lap _ n1 n2 speed _ h1 h2 h3 h4 h5 =>
      obtain ⟨e1, e2, e3⟩ := refreshed_frame h5
      refine fresh_step h e1 e2 ?_
      rw [e3]
      exact ((((pow h1).trans (loc h3)).trans (fin n2))).trans
        (Navigator.step_version (op := .shuffleElevation rnd.elevation) rfl)
    | moved _ n1 n2 n3 speed ss d2 _ h1 h2 h3 h4 h5 hd2 h6 =>
      obtain ⟨e1, e2, e3⟩ := refreshed_frame h6
      have : Fresh d2 := by
        rw [hd2]
        exact fresh_step h rfl rfl (((pow h1).trans (loc h3)).trans
          (Navigator.step_version (op := .nextElevation _) h4))
      split at e1
      · rename_i hc
        rw [if_pos hc] at e2 e3
        exact fresh_step (fresh_updateRoutes d2) e1 e2 (by rw [e3]; exact .refl _)
      · rename_i hc
        rw [if_neg hc] at e2 e3
        exact fresh_step this e1 e2 (by rw [e3]; exact .refl _)
  | skipTick => cases hs; exact same rfl rfl rfl
  | update =>
    obtain ⟨st, hst, rfl⟩ := update_eq hs
    exact fresh_step (fresh_updateRoutes (d.refreshed st)) rfl rfl (.refl _)
  | setModel s =>
    cases hs
    unfold setModel
    split <;> exact same rfl rfl rfl
  | setUserID s => cases hs; exact same rfl rfl rfl
  | setDescription s => cases hs; exact same rfl rfl rfl
  | setColor c =>
    cases hs
    unfold setColor
    split <;> exact same rfl rfl rfl
  | fromSnapshot m =>
    obtain ⟨n, speed, battery, sensors, d1, -, -, -, -, -, rfl⟩ := fromSnapshotOnto_eq hs
    exact fresh_updateRoutes d1

theorem new_fresh [GoFloat F] {rnd : DeviceRnd F} {o : Option (DeviceOptions F)} {d : Device F}
    (h : Device.new rnd o = .ok d) : Fresh d := by
  obtain ⟨n, speed, bat, st, hn, -, -, hst, rfl⟩ := Device.new_eq h
  obtain ⟨_, _, _, -, -, -, rfl⟩ := new_cases hn
  obtain ⟨_, _, rfl, -, -⟩ := applyFor_eq hst
  right
  exact ⟨by rw [Navigator.sum_eq]; rfl, rfl⟩

/-- **C20.** After any history, whenever a `Next` succeeds the published routes are exactly the
routes of the navigator. -/
theorem next_mirrors [GoMath F] (rnd : DeviceRnd F) (o : Option (DeviceOptions F))
    (d0 d d' : Device F) (ops : List (DevOp F)) (tick : F) (r : NextRnd F)
    (h0 : Device.new rnd o = .ok d0) (h1 : d0.run ops = .ok d) (h2 : d.next tick r = .ok (d', true)) :
    published d' = held d' := by
  have hf : Fresh d := run_induction Fresh (fun _ _ _ => step_fresh) d0 d ops (new_fresh h0) h1
  cases next_outcome h2 with
  | moved _ n1 n2 n3 speed ss d2 _ h1 h2' h3 h4 h5 hd2 h6 =>
    have hstep : Fresh d2 := by
      have pow : Navigator.VersionStep d.navigator n1 := by
        rcases powered_step h1 with rfl | h1
        · exact .refl _
        · exact Navigator.step_version h1
      have loc : Navigator.VersionStep n1 n2 :=
        Navigator.step_version (op := .nextLocation (d.seconds tick) speed.value r.loc)
          (by simp only [Navigator.step, h3]; rfl)
      rw [hd2]
      exact fresh_step hf rfl rfl ((pow.trans loc).trans
        (Navigator.step_version (op := .nextElevation _) h4))
    obtain ⟨e1, e2, e3⟩ := refreshed_frame h6
    have fin : ∀ {a : Device F}, published a = held a → d'.state.routes = a.state.routes →
        d'.navigator = a.navigator → published d' = held d' := by
      intro a ha hb hc
      have q1 : published d' = published a := by simp only [published, hb]
      have q2 : held d' = held a := by simp only [held, hc]
      rw [q1, q2, ha]
    split at e2
    · rename_i hc
      rw [if_pos hc] at e3
      exact fin (updateRoutes_fresh d2).2 e2 e3
    · rename_i hc
      rw [if_neg hc] at e3
      rcases hstep with hE | ⟨_, hm⟩
      · exact absurd (fun heq => hE.ne heq.symm) hc
      · exact fin hm e2 e3

/-- **C20 for `Update`**, from any state at all. -/
theorem update_mirrors [GoMath F] (d d' : Device F) (h : d.update = .ok d') :
    published d' = held d' := by
  obtain ⟨st, hst, rfl⟩ := update_eq h
  exact (updateRoutes_fresh (d.refreshed st)).2

/-- `AddRoute`, `RemoveRoute`, `RemoveTrack` and `ResetRoutes` publish the new routes at once when
they report success. -/
theorem route_ops_mirror [GoMath F] (d : Device F) :
    (∀ rs, (d.addRoute rs).2 = none → published (d.addRoute rs).1 = held (d.addRoute rs).1) ∧
    (∀ id, (d.removeRoute id).2 = true → published (d.removeRoute id).1 = held (d.removeRoute id).1) ∧
    (∀ r t, (d.removeTrack r t).2 = true →
      published (d.removeTrack r t).1 = held (d.removeTrack r t).1) ∧
    (d.resetRoutes.2 = true → published d.resetRoutes.1 = held d.resetRoutes.1) := by
  refine ⟨fun rs h => ?_, fun id h => ?_, fun r t h => ?_, fun h => ?_⟩
  · unfold addRoute at h ⊢
    cases hn : d.navigator.addRoute rs with
    | mk n err =>
      rw [hn] at h
      cases err with
      | none => exact (updateRoutes_fresh _).2
      | some e => cases h
  · unfold removeRoute at h ⊢
    cases hn : d.navigator.removeRoute id with
    | mk n ok =>
      rw [hn] at h
      cases ok with
      | true => exact (updateRoutes_fresh _).2
      | false => cases h
  · unfold removeTrack at h ⊢
    cases hn : d.navigator.removeTrack r t with
    | mk n ok =>
      rw [hn] at h
      cases ok with
      | true => exact (updateRoutes_fresh _).2
      | false => cases h
  · unfold resetRoutes at h ⊢
    cases hn : d.navigator.resetRoutes with
    | mk n ok =>
      rw [hn] at h
      cases ok with
      | true => exact (updateRoutes_fresh _).2
      | false => cases h

/-- A limit of C20: properties are published too, but changing them has no version, so a later `Next`
still publishes the old ones. -/
theorem props_not_republished :
    (Toy.dev [.addRoute [some Toy.route], .onRoute 0 (.setProps [("k", .bool true)]),
      .next (Toy.of 1) Toy.nextRnd]).map (fun d =>
        (d.navigator.routes.map (fun r => r.propsOf.2.length), d.state.routes.map (·.propsCount))) =
    some ([1], [0]) := by
  decide +kernel

/-- Non-vacuity: a track of a held route is recoloured behind the device's back; before the next tick
the published colour is stale, after it the colour is current. -/
example :
    (Toy.dev [.addRoute [some Toy.route],
      .onRoute 0 (.onTrack 0 (.changeColor (some "#123456")))]).map
        (fun d => (held d).map (fun r => r.tracks.map (·.color)) ) = some [["#123456"]] ∧
    (Toy.dev [.addRoute [some Toy.route],
      .onRoute 0 (.onTrack 0 (.changeColor (some "#123456")))]).map
        (fun d => (published d).map (fun r => r.tracks.map (·.color)) ) = some [["#000000"]] ∧
    (Toy.dev [.addRoute [some Toy.route],
      .onRoute 0 (.onTrack 0 (.changeColor (some "#123456"))), .next (Toy.of 1) Toy.nextRnd]).map
        (fun d => (published d).map (fun r => (r.id, r.tracks.map (fun t => (t.numSegments, t.color)))))
      = some [("r", [(2, "#123456")])] := by
  decide +kernel

end C20
end GpsGen
