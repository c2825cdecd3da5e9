import Verif.Model.DeviceRead
import Verif.Lemmas.Toy
import Verif.Theorems.C35
/-!
# C107: the getters answer what the device publishes

Whoever asks a device through its methods gets what its subscribers get. `published` lists for each method the field of
the published state that holds the same fact. Identity, texts and duration agree at any time; everything else agrees after
a successful `Update` or `Next`, and then no such method panics. At other times the claim is false: moves and changes of
the routes show in the methods at once and in the published state only after the next `Next` or `Update`
(`claim_fails`).
-/

namespace GpsGen
namespace C107
open Device Navigator

variable {F : Type}

/-! ## Specification -/

/-- The published fact that a method is asked for. -/
def published (st : DevState F) : Getter → Option (Reading F)
  | .id => some (.str st.id)
  | .model => some (.str st.model)
  | .userID => some (.str st.userId)
  | .color => some (.str st.color)
  | .descr => some (.str st.description)
  | .duration => some (.num st.duration)
  | .distance => some (.num st.dist.distance)
  | .currentDistance => some (.num st.dist.currentDistance)
  | .routeDistance => some (.num st.dist.routeDistance)
  | .currentRouteDistance => some (.num st.dist.currentRouteDistance)
  | .trackDistance => some (.num st.dist.trackDistance)
  | .currentTrackDistance => some (.num st.dist.currentTrackDistance)
  | .segmentDistance => some (.num st.dist.segmentDistance)
  | .currentSegmentDistance => some (.num st.dist.currentSegmentDistance)
  | .currentBearing => some (.num st.loc.bearing)
  | .location => some (.point { lat := st.loc.lat, lon := st.loc.lon })
  | .routeIndex => some (.int st.nav.currentRouteIndex)
  | .trackIndex => some (.int st.nav.currentTrackIndex)
  | .segmentIndex => some (.int st.nav.currentSegmentIndex)
  | .isOffline => some (.bool st.isOffline)
  | .state => some (.state st)
  | .sensors | .sensorByID _ | .numSensors | .sensorAt _ | .numRoutes | .routes | .routeAt _ | .status | .isFinish
  | .currentRoute | .currentTrack | .currentSegment | .version => none

/-- Every method with a published counterpart answers it, without a panic and without a change, and the current route and
track are those whose ids are published. -/
structure Agrees [GoFloat F] (d : Device F) : Prop where
  answers : ∀ g v, published d.state g = some v → d.read g = .ok (d, v)
  route : ∃ r, d.read .currentRoute = .ok (d, .route r) ∧ ∀ x, r = some x → d.state.nav.currentRouteId = x.id
  track : ∃ t, d.read .currentTrack = .ok (d, .track t) ∧ ∀ x, t = some x → d.state.nav.currentTrackId = x.id

/-- The full claim: devices with any history agree at any time. -/
def Claim (F : Type) [GoMath F] : Prop :=
  ∀ (rnd : DeviceRnd F) (o : Option (DeviceOptions F)) (d0 d : Device F) (ops : List (DevOp F)),
    Device.new rnd o = .ok d0 → d0.run ops = .ok d → Agrees d

/-! ## Proof -/

theorem agrees_of [GoFloat F] {d : Device F} (hs : C35.Shows d.state d.navigator)
    (hi : C35.ShowsIds d.state d.navigator) (hr : ∃ o, d.navigator.currentRoute = .ok o) : Agrees d := by
  obtain ⟨o, ho⟩ := hr
  have eo := C35.currentRoute_spec ho
  have ht : d.navigator.currentTrack = .ok (C35.theTrack d.navigator) := by
    have : ∃ t, d.navigator.currentTrack = .ok t := by
      unfold currentTrack
      rw [ho]
      cases o <;> exact ⟨_, rfl⟩
    obtain ⟨t, ht⟩ := this
    rw [ht, C35.currentTrack_spec ht]
  have hseg : ∃ s, d.navigator.currentSegment = .ok s ∧
      (if s.isEmpty then lit 0 else s.dist) = d.state.dist.segmentDistance ∧
      (if s.isEmpty then lit 0 else s.bearing) = d.state.loc.bearing := by
    have : ∃ s, d.navigator.currentSegment = .ok s := by
      unfold currentSegment
      rw [ho]
      cases o with
      | none => exact ⟨_, rfl⟩
      | some r =>
        show ∃ s, (match r.trackAt d.navigator.trackIndex with
          | none => pure Segment.zero
          | some t =>
            let s := t.segmentAt d.navigator.segmentIndex
            pure (if s.isEmpty then Segment.zero else s)) = Except.ok s
        split <;> exact ⟨_, rfl⟩
    obtain ⟨s, hsg⟩ := this
    obtain ⟨c1, c2⟩ := C35.currentSegment_spec hsg
    refine ⟨s, hsg, ?_⟩
    have z0 : (Segment.zero : Segment F).isEmpty = true := GoFloat.zero_eq_zero
    by_cases hall : ∀ x, C35.theSegment d.navigator = some x → (x.dist ==. lit 0) = true
    · obtain ⟨h1, h2⟩ := hs.noSegment hall
      rw [c2 hall, if_pos z0, if_pos z0, h1, h2]
      exact ⟨rfl, rfl⟩
    · simp only [Classical.not_forall] at hall
      obtain ⟨x, hx, hne⟩ := hall
      have hf : (x.dist ==. lit 0) = false := by simpa using hne
      obtain ⟨h1, h2⟩ := hs.segment x hx hf
      have e := c1 x hx hf
      have hn : ¬ s.isEmpty = true := by rw [e]; show ¬ (x.dist ==. lit 0) = true; rw [hf]; simp
      rw [if_neg hn, if_neg hn, e, h1, h2]
      exact ⟨rfl, rfl⟩
  obtain ⟨s, hsg, hsd, hsb⟩ := hseg
  have hrd : d.navigator.routeDistance = .ok d.state.dist.routeDistance := by
    unfold routeDistance
    rw [ho, hs.routeDistance, ← eo]
    cases o <;> rfl
  have htd : d.navigator.trackDistance = .ok d.state.dist.trackDistance := by
    unfold trackDistance
    rw [ht, hs.trackDistance]
    cases C35.theTrack d.navigator <;> rfl
  have hsd' : d.navigator.segmentDistance = .ok d.state.dist.segmentDistance := by
    unfold segmentDistance
    rw [hsg]
    exact congrArg Except.ok hsd
  have hb : d.navigator.currentBearing = .ok d.state.loc.bearing := by
    unfold currentBearing
    rw [hsg]
    exact congrArg Except.ok hsb
  refine ⟨fun g v hv => ?_, ⟨o, ?_, fun x hx => hi.1 x ?_⟩, ⟨C35.theTrack d.navigator, ?_, fun x hx => hi.2 x hx⟩⟩
  · cases g <;> simp only [published, Option.some.injEq, reduceCtorEq] at hv <;> subst hv
    case currentBearing => simp only [Device.read, hb]; rfl
    case routeDistance => simp only [Device.read, hrd]; rfl
    case trackDistance => simp only [Device.read, htd]; rfl
    case segmentDistance => simp only [Device.read, hsd']; rfl
    case distance => simp only [Device.read, hs.distance]
    case currentDistance => simp only [Device.read, hs.currentDistance]
    case currentRouteDistance => simp only [Device.read, hs.currentRouteDistance]
    case currentTrackDistance => simp only [Device.read, hs.currentTrackDistance]
    case currentSegmentDistance => simp only [Device.read, hs.currentSegmentDistance]
    case routeIndex => simp only [Device.read, hs.routeIndex]
    case trackIndex => simp only [Device.read, hs.trackIndex]
    case segmentIndex => simp only [Device.read, hs.segmentIndex]
    case location => simp only [Device.read, hs.lat, hs.lon]
    case isOffline =>
      have : d.state.isOffline = d.navigator.isOffline := by
        rw [Bool.eq_iff_iff, hs.isOffline]
        simp [isOffline]
      simp only [Device.read, this]
    all_goals rfl
  · simp only [Device.read, ho]; rfl
  · rw [← eo, hx]
  · simp only [Device.read, ht]; rfl

theorem route_of_update [GoMath F] {n : Navigator F} {s s' : DevState F} (h : n.update s = .ok s') :
    ∃ o, n.currentRoute = .ok o := by
  unfold Navigator.update at h
  obtain ⟨_, _, h⟩ := bind_eq_ok h
  obtain ⟨_, _, h⟩ := bind_eq_ok h
  obtain ⟨_, _, h⟩ := bind_eq_ok h
  obtain ⟨r, h4, h⟩ := bind_eq_ok h
  exact ⟨r, h4⟩

/-! ## Theorems -/

/-- Who and what the device is, and how long it is under way: at any time. -/
theorem identity [GoFloat F] (d : Device F) (g : Getter) (v : Reading F)
    (hg : g ∈ [.id, .model, .userID, .color, .descr, .duration, .state]) (h : published d.state g = some v) :
    d.read g = .ok (d, v) := by
  simp only [List.mem_cons, List.not_mem_nil, or_false] at hg
  rcases hg with rfl | rfl | rfl | rfl | rfl | rfl | rfl <;> cases h <;> rfl

/-- After `Update`, for any device. -/
theorem update_agrees_partial [GoMath F] (d d' : Device F) (h : d.update = .ok d') : Agrees d' := by
  obtain ⟨a, b, -⟩ := C35.update_mirrors_partial d d' h
  refine agrees_of a b ?_
  obtain ⟨st, h1, rfl⟩ := update_eq h
  obtain ⟨o, ho⟩ := route_of_update h1
  refine ⟨o.map touchRoute, ?_⟩
  refine (currentRoute_touched d.navigator).trans ?_
  rw [ho]; rfl

/-- After a successful `Next`, for any device. -/
theorem next_agrees_partial [GoMath F] (d d' : Device F) (tick : F) (r : NextRnd F)
    (h : d.next tick r = .ok (d', true)) : Agrees d' := by
  obtain ⟨a, b⟩ := C35.next_shows_partial d d' tick r h
  refine agrees_of a b ?_
  cases next_outcome h with
  | moved _ n1 n2 n3 speed sensors d2 _ h1 h2 h3 h4 h5 hd2 h6 =>
    obtain ⟨st, h7, rfl⟩ := updateState_eq h6
    exact route_of_update h7

/-- After a `Next` that did not move the device, for any device with routes: whether it is offline. -/
theorem halted_agrees [GoMath F] (d d' : Device F) (tick : F) (r : NextRnd F) (hr : d.navigator.routes ≠ [])
    (h : d.next tick r = .ok (d', false)) : d'.read .isOffline = .ok (d', .bool d'.state.isOffline) := by
  have := (C35.next_offline d d' tick r hr h).1
  have e : d'.state.isOffline = d'.navigator.isOffline := by
    rw [Bool.eq_iff_iff, this]
    simp [isOffline]
  rw [e]; rfl

/-! ## The full claim fails -/

theorem toy_history {ops : List (DevOp Toy)} {d : Device Toy} (h : Toy.dev ops = some d) :
    ∃ d0, Device.new Toy.rnd (some Toy.opts) = .ok d0 ∧ d0.run ops = .ok d := by
  unfold Toy.dev at h
  split at h
  · cases h
  · rename_i d0 h0
    split at h
    · rename_i d1 h1
      cases h
      exact ⟨d0, h0, h1⟩
    · cases h

/-- `Distance()` and `Location()` with their published counterparts. -/
def seen (ops : List (DevOp Toy)) : Option ((Toy × Toy) × LatLon Toy × LatLon Toy) :=
  (Toy.dev ops).map fun d =>
    ((d.navigator.distance, d.state.dist.distance), d.navigator.point, { lat := d.state.loc.lat, lon := d.state.loc.lon })

/-- A new device with a route publishes a distance of zero until the first `Next` or `Update`, though `Distance()` is
the length of the route. -/
theorem added_unpublished : seen [.addRoute [some Toy.route]] =
    some ((Toy.of 6371000, Toy.of 0), Toy.pt 0 0, Toy.pt 0 0) := by
  decide +kernel

/-- After `MoveToSegment` the device publishes the place where it was before. -/
theorem moved_unpublished : seen [.addRoute [some Toy.route], .update, .move (.moveToSegment 0 0 1)] =
    some ((Toy.of 6371000, Toy.of 6371000), Toy.pt 0 1, Toy.pt 0 0) := by
  decide +kernel

/-- The full claim fails. -/
theorem claim_fails : ¬ Claim Toy := by
  intro h
  have hm := moved_unpublished
  unfold seen at hm
  obtain ⟨d, hd, e⟩ := Option.map_eq_some_iff.mp hm
  obtain ⟨d0, h0, h1⟩ := toy_history hd
  have := (h _ _ _ _ _ h0 h1).answers .location _ rfl
  simp only [Device.read, Except.ok.injEq, Prod.mk.injEq, Reading.point.injEq, true_and] at this
  simp only [Prod.mk.injEq] at e
  rw [e.2.1, e.2.2] at this
  revert this
  decide +kernel

/-- Once the device is updated, the same methods agree with what is published. -/
example : seen [.addRoute [some Toy.route], .update, .move (.moveToSegment 0 0 1), .update] =
    some ((Toy.of 6371000, Toy.of 6371000), Toy.pt 0 1, Toy.pt 0 1) := by
  decide +kernel

end C107
end GpsGen
