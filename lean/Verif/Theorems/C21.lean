import Verif.Lemmas.RoundTrip
import Verif.Lemmas.Lists
import Verif.Lemmas.Toy
/-!
# C21: routes survive a snapshot round trip

Any number type, any route reachable through the API. The claim fails for properties that JSON does
not represent faithfully (Go integers come back as `float64`; a value that cannot be marshalled drops
the whole map), so the exact theorem is `_partial`: it asks that no such value is stored. The general
theorem says exactly what comes back otherwise.

The wire format between the messages and bytes is the subject of C52.
-/

namespace GpsGen
variable {F : Type}

namespace C21

/-- Property values that JSON represents faithfully. -/
def Faithful : PVal F → Prop
  | .null | .str _ | .bool _ | .float _ => True
  | .int _ | .int32 _ | .int64 _ | .other _ => False

/-- A nil map, or a map (unique keys) of faithful values. -/
def FaithfulProps (p : Option (PMap F)) : Prop :=
  ∀ m, p = some m → (m.map (·.1)).Nodup ∧ ∀ e ∈ m, Faithful e.2

/-- A map with unique keys, as every Go map. -/
def GoMap (m : PMap F) : Prop := (m.map (·.1)).Nodup

/-- Tracks that a client can build. -/
inductive ApiTrack [GoMath F] : Track F → Prop
  | new {uid color : String} {pts : List (LatLon F)} {t : Track F} (h : Track.new uid color pts = .ok t) :
      ApiTrack t
  | restore {id color : String} {pts : List (LatLon F)} {t : Track F}
      (h : Track.restore id color pts = .ok t) : ApiTrack t
  | color {t : Track F} (c : Option String) (h : ApiTrack t) : ApiTrack (t.changeColor c).1
  | name {t : Track F} (s : String) (h : ApiTrack t) : ApiTrack (t.changeName s).1
  | props {t : Track F} (m : PMap F) (hm : GoMap m) (h : ApiTrack t) : ApiTrack { t with props := some m }

/-- Routes that a client can build. -/
inductive ApiRoute [GoMath F] : Route F → Prop
  | new (uid color : String) : ApiRoute (Route.new uid color)
  | restore (id color : String) (p : Option (PMap F)) (hp : ∀ m, p = some m → GoMap m) :
      ApiRoute (Route.restore id color p)
  | addTrack {r : Route F} {t : Track F} (h : ApiRoute r) (ht : ApiTrack t) : ApiRoute (r.addTrack (some t))
  | removeTrack {r : Route F} (id : String) (h : ApiRoute r) : ApiRoute (r.removeTrack id).1
  | trackByID {r : Route F} (id : String) (h : ApiRoute r) : ApiRoute (r.trackByID id).1
  | color {r : Route F} (c : Option String) (h : ApiRoute r) : ApiRoute (r.changeColor c).1
  | name {r : Route F} (s : String) (h : ApiRoute r) : ApiRoute (r.changeName s).1
  | props {r : Route F} (m : PMap F) (hm : GoMap m) (h : ApiRoute r) : ApiRoute { r with props := some m }
  | onTrack {r : Route F} {t' : Track F} (i : Nat) (h : ApiRoute r) (ht : ApiTrack t') :
      ApiRoute { r with tracks := r.tracks.set i t' }

theorem api_track_keys [GoMath F] {t : Track F} (h : ApiTrack t) : KeysUnique t.props := by
  have hbind : ∀ {id color : String} {pts : List (LatLon F)} {t : Track F},
      (makeSegments pts >>= fun x => (pure ⟨id, x.1, color, "", none, x.2, isClosedPts pts, 0⟩ :
        Except Err (Track F))) = .ok t → t.props = none := by
    intro id color pts t h
    cases hm : makeSegments pts with
    | error e => rw [hm] at h; cases h
    | ok x => rw [hm] at h; cases h; rfl
  induction h with
  | new h =>
    intro m hm
    rw [hbind h] at hm; cases hm
  | restore h =>
    unfold Track.restore at h
    split at h
    · cases h
    · intro m hm
      rw [hbind h] at hm; cases hm
  | color c _ ih => cases c <;> exact ih
  | name s _ ih => unfold Track.changeName; split <;> exact ih
  | props m hm _ _ => intro m' h'; cases h'; exact hm

theorem api_route [GoMath F] {r : Route F} (h : ApiRoute r) :
    NameOk r.name ∧ KeysUnique r.props ∧ ∀ t ∈ r.tracks, KeysUnique t.props := by
  induction h with
  | new uid color => exact ⟨Or.inl rfl, fun m h => (by cases h), fun t h => (by cases h)⟩
  | restore id color p hp => exact ⟨Or.inl rfl, hp, fun t h => (by cases h)⟩
  | addTrack _ ht ih =>
    refine ⟨ih.1, ih.2.1, fun t hm => ?_⟩
    simp only [Route.addTrack, Route.updateState, List.mem_append, List.mem_singleton] at hm
    rcases hm with hm | rfl
    · exact ih.2.2 t hm
    · exact api_track_keys ht
  | removeTrack id _ ih =>
    unfold Route.removeTrack
    split
    · exact ih
    · simp only [removeFirst_eq]
      split
      · exact ⟨ih.1, ih.2.1, fun t hm => ih.2.2 t (List.mem_of_mem_eraseP hm)⟩
      · exact ih
  | trackByID id _ ih =>
    unfold Route.trackByID
    split
    · exact ih
    · split
      · exact ih
      · exact ih
  | color c _ ih => cases c <;> exact ih
  | name s _ ih =>
    unfold Route.changeName
    cases hp : parseName s with
    | error e => exact ih
    | ok s' =>
      refine ⟨?_, ih.2⟩
      unfold parseName at hp
      split at hp
      · cases hp
      split at hp
      · cases hp
      cases hp
      exact Or.inr (by simp only; omega)
  | props m hm _ ih => exact ⟨ih.1, fun m' h' => by cases h'; exact hm, ih.2.2⟩
  | onTrack i _ ht ih =>
    refine ⟨ih.1, ih.2.1, fun t hm => ?_⟩
    rcases List.mem_or_eq_of_mem_set hm with hm | rfl
    · exact ih.2.2 t hm
    · exact api_track_keys ht

theorem faithful_json [GoFloat F] (p : Option (PMap F)) (h : FaithfulProps p) : jsonProps p = p := by
  cases p with
  | none => rfl
  | some m =>
    obtain ⟨_, hv⟩ := h m rfl
    have h1 : m.all (fun e => e.2.supported) = true := by
      simp only [List.all_eq_true]
      intro e he
      have := hv e he
      cases hx : e.2 <;> rw [hx] at this <;> first | rfl | exact absurd this id
    have h2 : m.map (fun e => (e.1, e.2.json)) = m := by
      have : m.map (fun e => (e.1, e.2.json)) = m.map id := by
        apply List.map_congr_left
        intro e he
        have := hv e he
        obtain ⟨k, v⟩ := e
        cases v <;> first | rfl | exact absurd this id
      simpa using this
    simp only [jsonProps, Option.bind, h1, if_true, h2]

/-- **C21, segments.** -/
theorem segment_survives (s : Segment F) : Segment.fromSnapshot s.snapshot = .ok s := rfl

/-- **C21, tracks.** `Full statement`: for every track. Missing: tracks holding unfaithful values. -/
theorem track_survives_partial [GoFloat F] (t : Track F) (h : FaithfulProps t.props) :
    Track.fromSnapshot t.snapshot = .ok t := by
  rw [track_round_trip t (fun m hm => (h m hm).1)]
  simp only [Track.reloaded, faithful_json _ h]

theorem reloaded_faithful [GoFloat F] (r : Route F) (h : FaithfulProps r.props)
    (ht : ∀ t ∈ r.tracks, FaithfulProps t.props) : r.reloaded = r := by
  have : r.tracks.map Track.reloaded = r.tracks := by
    have : r.tracks.map Track.reloaded = r.tracks.map id := by
      apply List.map_congr_left
      intro t hm
      simp only [Track.reloaded, faithful_json _ (ht t hm), id]
    simpa using this
  simp only [Route.reloaded, faithful_json _ h, this]

/-- **C21, routes.** A route built through the API comes back identical and without an error, if its
properties are faithful. (`Full statement`: without the hypotheses `hp`, `ht`.) -/
theorem route_survives_partial [GoMath F] (r : Route F) (hr : ApiRoute r) (hp : FaithfulProps r.props)
    (ht : ∀ t ∈ r.tracks, FaithfulProps t.props) :
    Route.fromSnapshot r.snapshot = .ok (r, none) := by
  have ⟨h1, h2, h3⟩ := api_route hr
  rw [route_round_trip r h1 h2 h3, reloaded_faithful r hp ht]

/-- **C21, EncodeRoutes/DecodeRoutes.** -/
theorem routes_survive_partial [GoMath F] (rs : List (Route F)) (hne : rs ≠ [])
    (hr : ∀ r ∈ rs, ApiRoute r ∧ FaithfulProps r.props ∧ ∀ t ∈ r.tracks, FaithfulProps t.props) :
    ∃ ms, encodeRoutes rs = .ok ms ∧ decodeRoutes ms = .ok rs := by
  refine ⟨rs.map Route.snapshot, ?_, ?_⟩
  · unfold encodeRoutes
    rw [if_neg (fun hc => hne (List.length_eq_zero_iff.mp hc))]
  · have := mapM_map_ok (fun m : RouteMsg F => (do let (r, _) ← Route.fromSnapshot m; return r : Go (Route F)))
      Route.snapshot id rs (fun r hm => by
        have ⟨h1, h2, h3⟩ := hr r hm
        rw [route_survives_partial r h1 h2 h3]; rfl)
    simpa [decodeRoutes] using this

/-- **What comes back in general**: everything except the properties is identical, whatever they
are. -/
theorem route_comes_back [GoMath F] (r : Route F) (hr : ApiRoute r) :
    ∃ r', Route.fromSnapshot r.snapshot = .ok (r', none) ∧ r'.id = r.id ∧ r'.color = r.color ∧
      r'.name = r.name ∧ r'.dist = r.dist ∧ r'.version = r.version ∧ r'.props = jsonProps r.props ∧
      r'.tracks = r.tracks.map (fun t => { t with props := jsonProps t.props }) := by
  have ⟨h1, h2, h3⟩ := api_route hr
  exact ⟨r.reloaded, route_round_trip r h1 h2 h3, rfl, rfl, rfl, rfl, rfl, rfl, rfl⟩

/-- **Negation of the unrestricted claim.** A route with the integer property `1` comes back with the
floating-point property `1`, and `Properties.Int` no longer finds it. -/
theorem int_property_changes [GoMath F] : ∃ r r' : Route F, ApiRoute r ∧
    Route.fromSnapshot r.snapshot = .ok (r', none) ∧ r' ≠ r ∧
    r.propsOf.2.getInt "k" = (1, true) ∧ r'.propsOf.2.getInt "k" = (0, false) := by
  refine ⟨Route.restore "r" "#000000" (some [("k", .int 1)]),
    Route.restore "r" "#000000" (some [("k", .float (lit 1))]),
    .restore _ _ _ (fun m h => by cases h; exact List.pairwise_singleton _ _), rfl, ?_, rfl, rfl⟩
  intro h
  injection h with _ _ _ _ _ h _
  cases h

/-- A value that cannot be marshalled makes the whole map disappear. -/
theorem unmarshalable_property_drops_all [GoMath F] : ∃ r r' : Route F, ApiRoute r ∧
    Route.fromSnapshot r.snapshot = .ok (r', none) ∧
    r.propsOf.2.getBool "keep" = (true, true) ∧ r'.propsOf.2.getBool "keep" = (false, false) := by
  refine ⟨Route.restore "r" "#000000" (some [("keep", .bool true), ("bad", .other 0)]),
    Route.restore "r" "#000000" none, .restore _ _ _ (fun m h => ?_), rfl, rfl, rfl⟩
  cases h
  exact (by decide : ["keep", "bad"].Nodup)

/-- Non-vacuity: a named, coloured route with properties and a two-segment track, all reachable. -/
def sample : Route Toy :=
  { ((Toy.route.changeName "My route").1.changeColor (some "#00ff00")).1 with
    props := some [("a", .str "b"), ("c", .bool true)] }

example : Route.fromSnapshot sample.snapshot = .ok (sample, none) ∧ sample.tracks.length = 1 ∧
    sample.version = 3 ∧ sample.name = "My route" := by
  decide +kernel

example : ApiRoute sample :=
  .props _ (by decide : ["a", "c"].Nodup) (.color _ (.name _ (.addTrack
    (.restore _ _ _ (fun _ h => by cases h)) (.restore Toy.track_ok))))

end C21
end GpsGen
