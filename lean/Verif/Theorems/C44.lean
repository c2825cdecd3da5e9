import Verif.Lemmas.GeoJson
import Verif.Lemmas.Toy
/-!
# C44: GeoJSON encoding and decoding of routes

Any number type, any list of routes reachable through the API, any ids generated while decoding. The claim as
stated is false: `parseGeometry` gives every track of a route the id, colour and properties of the first one, track
names are never restored, routes without tracks disappear, and a route property named like a reserved key replaces
the route's own id, colour or name. `routes_come_back` says exactly what does come back; `routes_survive_partial` is
the claim for routes where none of this happens.

The text form of JSON and the `orb` library are in C86.
-/

namespace GpsGen
variable {F : Type}

namespace C44
open C21 (ApiTrack ApiRoute)

/-! ## Specification -/

/-- The contents of a property map; a missing map is empty. -/
def contents (p : Option (PMap F)) : PMap F := p.getD []

/-- The value after a trip through JSON: all numbers are floats. -/
def viaJson [GoFloat F] : PVal F → PVal F
  | .int i => .float (lit i)
  | .int32 i => .float (lit i)
  | .int64 i => .float (lit i)
  | v => v

/-- All that the claim speaks of for a track; the segments hold the points. -/
def SameTrack (a b : Track F) : Prop :=
  a.id = b.id ∧ a.color = b.color ∧ a.name = b.name ∧ contents a.props = contents b.props ∧
  a.segments = b.segments ∧ a.dist = b.dist ∧ a.isClosed = b.isClosed

/-- All that the claim speaks of for a route. -/
def SameRoute (a b : Route F) : Prop :=
  a.id = b.id ∧ a.color = b.color ∧ a.name = b.name ∧ contents a.props = contents b.props ∧
  List.Forall₂ SameTrack a.tracks b.tracks

/-- The names of feature properties that the encoder uses itself. -/
def Reserved (k : String) : Prop :=
  k = "routeID" ∨ k = "color" ∨ k = "name" ∨ k = "numTracks" ∨ k = "tracksInfo" ∨ k = "distance" ∨ k = "units"

/-- Values that `json.Marshal` accepts. -/
def Printable (p : Option (PMap F)) : Prop := ∀ e ∈ contents p, ∀ n, e.2 ≠ .other n

/-- Routes the encoder accepts and whose feature keeps the encoder's own properties. -/
structure Plain (r : Route F) : Prop where
  props : Printable r.props
  reserved : ∀ e ∈ contents r.props, ¬ Reserved e.1
  tracks : ∀ t ∈ r.tracks, Printable t.props ∧ t.id ≠ ""

/-- What comes back of a route whose first track is `t₀`. -/
def ComesBack [GoFloat F] (r r' : Route F) : Prop :=
  ∃ t₀, r.tracks.head? = some t₀ ∧ r'.id = r.id ∧ r'.color = r.color ∧ r'.name = r.name ∧
    r'.props = some ((contents r.props).map fun e => (e.1, viaJson e.2)) ∧
    r'.tracks = r.tracks.map fun t =>
      { t with
        id := t₀.id, color := t₀.color, name := "", version := 0,
        props := some ((contents t₀.props).map fun e => (e.1, viaJson e.2)) }

/-! ## Proof -/

theorem viaJson_eq [GoFloat F] : (viaJson : PVal F → PVal F) = PVal.json := by
  funext v
  cases v <;> rfl

theorem contents_route (r : Route F) : r.propsOf.2 = contents r.props := by
  unfold Route.propsOf contents
  cases r.props <;> rfl

theorem contents_track (t : Track F) : t.propsOf.2 = contents t.props := by
  unfold Track.propsOf contents
  cases t.props <;> rfl

theorem supported_of {p : Option (PMap F)} (h : Printable p) : ∀ e ∈ contents p, e.2.supported = true := by
  intro e he
  have := h e he
  cases hx : e.2 with
  | other n => exact absurd hx (this n)
  | _ => rfl

theorem keys_of {p : Option (PMap F)} (h : KeysUnique p) : ((contents p).map (·.1)).Nodup := by
  cases p with
  | none => exact List.nodup_nil
  | some m => exact h m rfl

theorem api_tracks [GoMath F] {r : Route F} (h : ApiRoute r) : ∀ t ∈ r.tracks, ApiTrack t := by
  induction h with
  | new uid color => intro t h; cases h
  | restore id color p hp => intro t h; cases h
  | addTrack _ ht ih =>
    intro t hm
    simp only [Route.addTrack, Route.updateState, List.mem_append, List.mem_singleton] at hm
    rcases hm with hm | rfl
    · exact ih t hm
    · exact ht
  | removeTrack id _ ih =>
    unfold Route.removeTrack
    split
    · exact ih
    · simp only [removeFirst_eq]
      split
      · exact fun t hm => ih t (List.mem_of_mem_eraseP hm)
      · exact ih
  | trackByID id _ ih =>
    unfold Route.trackByID
    split
    · exact ih
    · split
      · exact ih
      · exact ih
  | color c _ ih => cases c <;> exact ih
  | name s _ ih => unfold Route.changeName; split <;> exact ih
  | props m hm _ ih => exact ih
  | onTrack i _ ht ih =>
    intro t hm
    rcases List.mem_or_eq_of_mem_set hm with hm | rfl
    · exact ih t hm
    · exact ht

/-- A track labelled with the information `info`. -/
def relabel (info : TrackInfo F) (t : Track F) : Track F :=
  ⟨info.id, t.segments, info.color, "", some (PMap.merge PMap.make info.props.toPMap), t.dist, t.isClosed, 0⟩

theorem parse_track [GoMath F] (gen : Nat → String × String) (r : Route F) (info : TrackInfo F)
    (infos : List (TrackInfo F)) (t : Track F) (ht : FromPoints t) (hid : info.id ≠ "") :
    parseGeometry gen r (info :: infos) (some t.geom) = .ok (.ok (r.addTrack (some (relabel info t)))) := by
  have h := restore_points t ht info.id info.color hid
  unfold Track.geom
  cases t.isClosed <;>
    simp only [Bool.false_eq_true, if_false, if_true, parseGeometry, addLine, h] <;> rfl

theorem parse_tracks [GoMath F] (gen : Nat → String × String) (info : TrackInfo F) (infos : List (TrackInfo F))
    (hid : info.id ≠ "") (ts : List (Track F)) (ht : ∀ t ∈ ts, FromPoints t) (r : Route F) :
    parseCollection gen (info :: infos) r (ts.map Track.geom) =
      .ok (.ok (ts.foldl (fun r t => r.addTrack (some (relabel info t))) r)) := by
  induction ts generalizing r with
  | nil => rfl
  | cons t ts ih =>
    simp only [List.map_cons, parseCollection, parse_track gen r info infos t (ht t (by simp)) hid,
      ih (fun x hx => ht x (by simp [hx])), List.foldl_cons]

theorem add_tracks [GoFloat F] (f : Track F → Track F) (ts : List (Track F)) (r : Route F) :
    let r' := ts.foldl (fun r t => r.addTrack (some (f t))) r
    r'.id = r.id ∧ r'.color = r.color ∧ r'.name = r.name ∧ r'.props = r.props ∧ r'.tracks = r.tracks ++ ts.map f := by
  induction ts generalizing r with
  | nil => simp
  | cons t ts ih =>
    have := ih (r.addTrack (some (f t)))
    simp only [List.foldl_cons]
    simpa [Route.addTrack, Route.updateState] using this

theorem infos_ok [GoFloat F] (ts : List (Track F)) (h : ∀ t ∈ ts, Printable t.props) :
    ∃ infos, ts.mapM Track.info = some infos ∧ infos.length = ts.length ∧
      ∀ t₀, ts.head? = some t₀ → ∃ g rest, t₀.propsOf.2.toGMap = some g ∧
        infos.map TrackInfo.read = ⟨t₀.id, t₀.color, g⟩ :: rest := by
  induction ts with
  | nil => exact ⟨[], rfl, rfl, fun t₀ h => by cases h⟩
  | cons t ts ih =>
    obtain ⟨infos, h1, h2, _⟩ := ih (fun x hx => h x (by simp [hx]))
    have hp := supported_of (h t (by simp))
    rw [← contents_track] at hp
    obtain ⟨g, hg, _, _⟩ := toGMap_ok _ hp
    have hi : t.info = some (.obj [("trackID", .str t.id), ("name", .str t.name), ("color", .str t.color),
        ("distance", .num t.dist), ("numSegments", .num (lit t.numSegments)), ("properties", .obj g)]) := by
      simp only [Track.info, hg]
      rfl
    refine ⟨.obj [("trackID", .str t.id), ("name", .str t.name), ("color", .str t.color),
        ("distance", .num t.dist), ("numSegments", .num (lit t.numSegments)), ("properties", .obj g)] :: infos,
      ?_, by simp [h2], ?_⟩
    · simp [List.mapM_cons, hi, h1]
    · intro t₀ h0
      simp only [List.head?_cons, Option.some.injEq] at h0
      subst h0
      exact ⟨g, infos.map TrackInfo.read, hg, rfl⟩

theorem name_kept [GoFloat F] (r : Route F) (hr : NameOk r.name) (q : Route F) (hq : q.name = "") :
    ((if goLen r.name > 0 then (q.changeName r.name).1 else q)).name = r.name ∧
    ((if goLen r.name > 0 then (q.changeName r.name).1 else q)).id = q.id ∧
    ((if goLen r.name > 0 then (q.changeName r.name).1 else q)).color = q.color ∧
    ((if goLen r.name > 0 then (q.changeName r.name).1 else q)).props = q.props ∧
    ((if goLen r.name > 0 then (q.changeName r.name).1 else q)).tracks = q.tracks := by
  rcases hr with hn | ⟨h1, h2⟩
  · have : ¬ goLen r.name > 0 := by rw [hn]; decide
    rw [if_neg this, hn]
    exact ⟨hq, rfl, rfl, rfl, rfl⟩
  · have hp : parseName r.name = .ok r.name := by
      unfold parseName
      rw [if_neg (by omega), if_neg (by omega)]
    have : goLen r.name > 0 := by omega
    rw [if_pos this]
    simp only [Route.changeName, hp, and_self]

theorem route_comes_back [GoMath F] (gen : Nat → String × String) (r : Route F) (hr : ApiRoute r) (hp : Plain r)
    (hne : r.tracks ≠ []) :
    ∃ props r', r.featureProps = some props ∧
      decodeFeature gen (some ⟨"Feature", some props, some r.geometry⟩) = .ok (.ok (some r')) ∧ ComesBack r r' := by
  have ⟨hname, hkeys, htkeys⟩ := C21.api_route hr
  have hapi := api_tracks hr
  obtain ⟨t₀, ts, hts⟩ : ∃ t₀ ts, r.tracks = t₀ :: ts := by
    cases h : r.tracks with
    | nil => exact absurd h hne
    | cons a b => exact ⟨a, b, rfl⟩
  have hhead : r.tracks.head? = some t₀ := by rw [hts]; rfl
  have hm0 : t₀ ∈ r.tracks := by rw [hts]; simp
  obtain ⟨infos, hinf, hlen, hinf0⟩ := infos_ok r.tracks (fun t ht => (hp.tracks t ht).1)
  obtain ⟨g, rest, hg, hread⟩ := hinf0 t₀ hhead
  have hsup := supported_of hp.props
  rw [← contents_route] at hsup
  obtain ⟨own, hown, hownp, hownk⟩ := toGMap_ok _ hsup
  have hsup0 := supported_of (hp.tracks t₀ hm0).1
  rw [← contents_track] at hsup0
  obtain ⟨g', hg', hgp, hgk⟩ := toGMap_ok _ hsup0
  obtain rfl : g = g' := by rw [hg] at hg'; exact Option.some.inj hg'
  have hkeysO : (own.map (·.1)).Nodup := by
    rw [hownk, contents_route]; exact keys_of hkeys
  have hres : ∀ e ∈ own, ¬ Reserved e.1 := by
    intro e he
    have : e.1 ∈ own.map (·.1) := List.mem_map_of_mem he
    rw [hownk, contents_route, List.mem_map] at this
    obtain ⟨x, hx, hxe⟩ := this
    rw [← hxe]
    exact hp.reserved x hx
  let base : GMap F := [("routeID", .str r.id), ("color", .str r.color), ("name", .str r.name),
    ("numTracks", .num (lit r.numTracks)), ("tracksInfo", .arr infos), ("distance", .num r.dist),
    ("units", .str "meters")]
  have hfp : r.featureProps = some (base ++ own) := by
    have hnd : ((base ++ own).map (·.1)).Nodup := by
      rw [List.map_append, List.nodup_append]
      have hb : base.map (·.1) = ["routeID", "color", "name", "numTracks", "tracksInfo", "distance", "units"] := rfl
      refine ⟨by rw [hb]; decide, hkeysO, ?_⟩
      intro a ha b hb hab
      subst hab
      obtain ⟨e, he, rfl⟩ := List.mem_map.mp hb
      have := hres e he
      simp only [Reserved, not_or] at this
      simp only [base, List.map_cons, List.map_nil, List.mem_cons, List.not_mem_nil, or_false] at ha
      rcases ha with h | h | h | h | h | h | h <;> rw [h] at this <;> simp at this
    have := gfoldl_set_nodup own base hnd
    simp only [Route.featureProps, hinf, hown]
    show some _ = some _
    rw [← this]
  have hreset : resetProps (base ++ own) = own := by
    rw [resetProps_eq, List.filter_append]
    have h1 : base.filter (fun e => !reservedKeys.contains e.1) = [] := by
      rw [List.filter_eq_nil_iff]
      intro e he
      simp only [base, List.mem_cons, List.not_mem_nil, or_false] at he
      rcases he with h | h | h | h | h | h | h <;> rw [h] <;> simp [reservedKeys]
    have h2 : own.filter (fun e => !reservedKeys.contains e.1) = own := by
      rw [List.filter_eq_self]
      intro e he
      have := hres e he
      simp only [Reserved, not_or] at this
      obtain ⟨a1, a2, a3, a4, a5, a6, a7⟩ := this
      simp [reservedKeys, a1, a2, a3, a4, a5, a6, a7]
    rw [h1, h2, List.nil_append]
  have hex : routeExists (base ++ own) = true := rfl
  have hti : (base ++ own).get? "tracksInfo" = some (.arr infos) := rfl
  have hid : (base ++ own).getString "routeID" = r.id := rfl
  have hco : (base ++ own).getString "color" = r.color := rfl
  have hna : (base ++ own).getString "name" = r.name := rfl
  let q : Route F := Route.restore r.id r.color (some own.toPMap)
  let q1 : Route F := if goLen r.name > 0 then (q.changeName r.name).1 else q
  obtain ⟨n1, n2, n3, n4, n5⟩ := name_kept r hname q rfl
  have hrr : restoreRoute (base ++ own) = .ok (q1, infos.map TrackInfo.read) := by
    simp only [restoreRoute, hti, hid, hco, hna, hreset]
    rfl
  have hself : own.toPMap.merge own.toPMap = own.toPMap := by
    apply merge_self
    have : own.toPMap.map (·.1) = own.map (·.1) := by
      simp [GMap.toPMap, List.map_map, Function.comp_def]
    rw [this]; exact hkeysO
  have hpp : parseProperties q1 own.toPMap = q1 := by
    have h4 : q1.props = some own.toPMap := n4
    unfold parseProperties Route.propsOf
    rw [h4]
    simp only [hself]
    rw [← h4]
  have hq1 : (q1.id = r.id ∧ q1.color = r.color ∧ q1.name = r.name ∧ q1.props = some own.toPMap) ∧ q1.tracks = [] :=
    ⟨⟨n2, n3, n1, n4⟩, n5⟩
  have hgeom : parseGeometries gen q1 (some (infos.map TrackInfo.read)) (some r.geometry) =
      .ok (.ok (r.tracks.foldl (fun r t => r.addTrack (some (relabel ⟨t₀.id, t₀.color, g⟩ t))) q1)) := by
    have hfp0 := api_from_points (hapi t₀ hm0)
    have hid0 := (hp.tracks t₀ hm0).2
    have hlen' : ((⟨t₀.id, t₀.color, g⟩ : TrackInfo F) :: rest).length = r.tracks.length := by
      rw [← hread, List.length_map, hlen]
    cases ts with
    | nil =>
      have hl : ((⟨t₀.id, t₀.color, g⟩ : TrackInfo F) :: rest).length = 1 := by rw [hlen', hts]; rfl
      have hgm : r.geometry = .single t₀.geom := by simp only [Route.geometry, hts]; rfl
      simp only [hgm, parseGeometries, Option.map_some, Option.getD_some, hread, hl, ne_eq,
        not_true_eq_false, if_false, hts]
      exact parse_track gen q1 ⟨t₀.id, t₀.color, g⟩ rest t₀ hfp0 hid0
    | cons t1 ts =>
      have hgm : r.geometry = .collection (r.tracks.map Track.geom) := by simp only [Route.geometry, hts]; rfl
      simp only [hgm, parseGeometries, Option.map_some, Option.getD_some, List.length_map, hread, hlen', ne_eq,
        not_true_eq_false, if_false]
      exact parse_tracks gen ⟨t₀.id, t₀.color, g⟩ rest hid0 r.tracks (fun t ht => api_from_points (hapi t ht)) q1
  refine ⟨_, r.tracks.foldl (fun r t => r.addTrack (some (relabel ⟨t₀.id, t₀.color, g⟩ t))) q1, hfp, ?_, ?_⟩
  · simp only [decodeFeature, ne_eq, not_true_eq_false, if_false, hex, if_true, hrr, hreset, hpp, hgeom]
    rfl
  · obtain ⟨a1, a2, a3, a4, a5⟩ := add_tracks (relabel ⟨t₀.id, t₀.color, g⟩) r.tracks q1
    refine ⟨t₀, hhead, by rw [a1, hq1.1.1], by rw [a2, hq1.1.2.1], by rw [a3, hq1.1.2.2.1], ?_, ?_⟩
    · rw [a4, hq1.1.2.2.2, hownp, contents_route, viaJson_eq]
    · rw [a5, hq1.2, List.nil_append]
      apply List.map_congr_left
      intro t _
      have hk0 : (g.toPMap.map (·.1)).Nodup := by
        have : g.toPMap.map (·.1) = g.map (·.1) := by
          simp [GMap.toPMap, List.map_map, Function.comp_def]
        rw [this, hgk, contents_track]; exact keys_of (htkeys t₀ hm0)
      simp only [relabel]
      rw [merge_make _ hk0, hgp, contents_track, viaJson_eq]

theorem list_comes_back [GoMath F] (gen : Nat → Nat → String × String) (rs : List (Route F))
    (hr : ∀ r ∈ rs, ApiRoute r ∧ Plain r) (i : Nat) :
    ∃ fs rs', toFeatures rs = some fs ∧ decodeFeatures gen i fs = .ok (.ok rs') ∧
      List.Forall₂ ComesBack (rs.filter fun r => !r.tracks.isEmpty) rs' := by
  induction rs generalizing i with
  | nil => exact ⟨[], [], rfl, rfl, .nil⟩
  | cons r rs ih =>
    have ih := fun i => ih (fun x hx => hr x (by simp [hx])) i
    cases hts : r.tracks with
    | nil =>
      obtain ⟨fs, rs', h1, h2, h3⟩ := ih i
      refine ⟨fs, rs', ?_, h2, ?_⟩
      · simp only [toFeatures, hts, List.length_nil, if_true, h1]
      · simpa [hts] using h3
    | cons t ts =>
      obtain ⟨fs, rs', h1, h2, h3⟩ := ih (i + 1)
      have hne : r.tracks ≠ [] := by rw [hts]; simp
      obtain ⟨props, r', p1, p2, p3⟩ := route_comes_back (gen i) r (hr r (by simp)).1 (hr r (by simp)).2 hne
      refine ⟨some ⟨"Feature", some props, some r.geometry⟩ :: fs, r' :: rs', ?_, ?_, ?_⟩
      · have hl : ¬ r.tracks.length = 0 := by rw [hts]; simp
        simp only [toFeatures, if_neg hl, p1, h1]
        rfl
      · simp only [decodeFeatures, p2, h2]
        rfl
      · rw [List.filter_cons_of_pos (by simp [hts])]
        exact .cons p3 h3

/-- **C44, what comes back.** Routes without tracks disappear; of every other route the id, colour and name come
back, the properties with integers turned into floats, and all tracks in order with their points; but every track
carries the id, colour and properties of the first one and no name. -/
theorem routes_come_back [GoMath F] (gen : Nat → Nat → String × String) (rs : List (Route F)) (hne : rs ≠ [])
    (hr : ∀ r ∈ rs, ApiRoute r ∧ Plain r) :
    ∃ fs rs', geoEncode rs = .ok fs ∧ geoDecode gen (some fs) = .ok (.ok rs') ∧
      List.Forall₂ ComesBack (rs.filter fun r => !r.tracks.isEmpty) rs' := by
  obtain ⟨fs, rs', h1, h2, h3⟩ := list_comes_back gen rs hr 0
  refine ⟨fs, rs', ?_, h2, h3⟩
  have hl : ¬ rs.length = 0 := fun hc => hne (List.length_eq_zero_iff.mp hc)
  simp only [geoEncode, if_neg hl, h1]

/-- Properties that come back unchanged: no integers, nothing unprintable. -/
def Stable (p : Option (PMap F)) : Prop := ∀ e ∈ contents p, C21.Faithful e.2

theorem stable_json [GoFloat F] {p : Option (PMap F)} (h : Stable p) :
    (contents p).map (fun e => (e.1, viaJson e.2)) = contents p := by
  have : (contents p).map (fun e => (e.1, viaJson e.2)) = (contents p).map id := by
    apply List.map_congr_left
    intro e he
    have := h e he
    obtain ⟨k, v⟩ := e
    cases v <;> first | rfl | exact absurd this id
  simpa using this

theorem stable_printable {p : Option (PMap F)} (h : Stable p) : Printable p := by
  intro e he n hc
  have := h e he
  rw [hc] at this
  exact this

/-- **C44, the claim as far as it holds.** (`Full statement`: every list of routes. Missing: routes with no or with
several tracks, named tracks, integer or unprintable properties, route properties named like reserved keys, tracks
without id.) -/
theorem routes_survive_partial [GoMath F] (gen : Nat → Nat → String × String) (rs : List (Route F)) (hne : rs ≠ [])
    (hr : ∀ r ∈ rs, ApiRoute r ∧ Stable r.props ∧ (∀ e ∈ contents r.props, ¬ Reserved e.1) ∧
      ∃ t, r.tracks = [t] ∧ t.id ≠ "" ∧ t.name = "" ∧ Stable t.props) :
    ∃ fs rs', geoEncode rs = .ok fs ∧ geoDecode gen (some fs) = .ok (.ok rs') ∧ List.Forall₂ SameRoute rs rs' := by
  obtain ⟨fs, rs', h1, h2, h3⟩ := routes_come_back gen rs hne (fun r hm => by
    obtain ⟨a, b, c, t, ht, hid, _, hs⟩ := hr r hm
    refine ⟨a, stable_printable b, c, ?_⟩
    intro x hx
    rw [ht, List.mem_singleton] at hx
    subst hx
    exact ⟨stable_printable hs, hid⟩)
  refine ⟨fs, rs', h1, h2, ?_⟩
  have hfil : rs.filter (fun r => !r.tracks.isEmpty) = rs := by
    rw [List.filter_eq_self]
    intro r hm
    obtain ⟨_, _, _, t, ht, _⟩ := hr r hm
    rw [ht]; rfl
  rw [hfil] at h3
  clear h1 h2 hfil hne
  induction h3 with
  | nil => exact .nil
  | cons hc _ ih =>
    rename_i r r' l l' _
    refine .cons ?_ (ih (fun x hx => hr x (by simp [hx])))
    obtain ⟨_, hs, _, t, ht, _, hn, hst⟩ := hr r (by simp)
    obtain ⟨t₀, h0, c1, c2, c3, c4, c5⟩ := hc
    rw [ht, List.head?_cons, Option.some.injEq] at h0
    subst h0
    refine ⟨c1.symm, c2.symm, c3.symm, ?_, ?_⟩
    · rw [c4, stable_json hs]; rfl
    · rw [c5, ht, stable_json hst]
      refine .cons ⟨rfl, rfl, hn, rfl, rfl, rfl, rfl⟩ .nil

/-- **Encoding nothing** is an error. -/
theorem encode_empty [GoFloat F] : geoEncode ([] : List (Route F)) = .error .noRoutes := rfl

/-! ## Negations of the unrestricted claim -/

theorem line_ok [GoMath F] (id color : String) (hid : id ≠ "") (a b : LatLon F) :
    ∃ t, Track.restore id color [a, b] = .ok t ∧ t.id = id ∧ t.color = color ∧ t.name = "" ∧ t.props = none := by
  have : ¬ goLen id = 0 := by
    have := (goLen_pos_iff id).mpr hid
    omega
  exact ⟨_, by simp only [Track.restore, if_neg this]; rfl, rfl, rfl, rfl, rfl⟩

theorem printable_none : Printable (none : Option (PMap F)) := fun e he => by cases he

/-- Two tracks with different ids come back with the same id. -/
theorem second_track_takes_first_id [GoMath F] (gen : Nat → Nat → String × String) (a b : LatLon F) :
    ∃ (r r' : Route F) (fs : _) (t₁ t₂ u₁ u₂ : Track F), ApiRoute r ∧ geoEncode [r] = .ok fs ∧
      geoDecode gen (some fs) = .ok (.ok [r']) ∧ r.tracks = [t₁, t₂] ∧ r'.tracks = [u₁, u₂] ∧
      t₁.id ≠ t₂.id ∧ u₁.id = u₂.id ∧ ¬ SameRoute r r' := by
  obtain ⟨t₁, e₁, i₁, _, _, p₁⟩ := line_ok "one" "#000000" (by decide) a b
  obtain ⟨t₂, e₂, i₂, _, _, p₂⟩ := line_ok "two" "#ffffff" (by decide) a b
  let r : Route F := ((Route.new "r" "#000000").addTrack (some t₁)).addTrack (some t₂)
  have hr : ApiRoute r := .addTrack (.addTrack (.new _ _) (.restore e₁)) (.restore e₂)
  have hrt : r.tracks = [t₁, t₂] := rfl
  have hpl : Plain r := by
    refine ⟨printable_none, fun e (he : e ∈ []) => absurd he List.not_mem_nil, fun t ht => ?_⟩
    rw [hrt] at ht
    simp only [List.mem_cons, List.not_mem_nil, or_false] at ht
    rcases ht with rfl | rfl
    · rw [p₁, i₁]; exact ⟨printable_none, by decide⟩
    · rw [p₂, i₂]; exact ⟨printable_none, by decide⟩
  obtain ⟨fs, rs', h1, h2, h3⟩ := routes_come_back gen [r] (by simp) (fun x hx => by
    rw [List.mem_singleton] at hx; subst hx; exact ⟨hr, hpl⟩)
  have hf : [r].filter (fun r => !r.tracks.isEmpty) = [r] := rfl
  rw [hf] at h3
  cases h3 with
  | cons hc hn =>
    cases hn
    rename_i r'
    obtain ⟨t₀, h0, _, _, _, _, c5⟩ := hc
    rw [hrt, List.head?_cons, Option.some.injEq] at h0
    subst h0
    rw [hrt] at c5
    refine ⟨r, r', fs, t₁, t₂, _, _, hr, h1, h2, hrt, c5, by rw [i₁, i₂]; decide, rfl, ?_⟩
    rintro ⟨_, _, _, _, hs⟩
    rw [hrt, c5] at hs
    cases hs with
    | cons _ hs => cases hs with
      | cons h _ =>
        have := h.1
        rw [i₁, i₂] at this
        exact absurd this (by decide)

/-- The name of a track is lost. -/
theorem track_name_lost [GoMath F] (gen : Nat → Nat → String × String) (a b : LatLon F) :
    ∃ (r r' : Route F) (fs : _) (t u : Track F), ApiRoute r ∧ geoEncode [r] = .ok fs ∧
      geoDecode gen (some fs) = .ok (.ok [r']) ∧ r.tracks = [t] ∧ r'.tracks = [u] ∧
      t.name = "name" ∧ u.name = "" := by
  obtain ⟨t, e, i, _, _, p⟩ := line_ok "one" "#000000" (by decide) a b
  let t' : Track F := (t.changeName "name").1
  have ht' : t' = { t with name := "name", version := t.version + 1 } := rfl
  let r : Route F := (Route.new "r" "#000000").addTrack (some t')
  have hr : ApiRoute r := .addTrack (.new _ _) (.name _ (.restore e))
  have hrt : r.tracks = [t'] := rfl
  have hpl : Plain r := by
    refine ⟨printable_none, fun e (he : e ∈ []) => absurd he List.not_mem_nil, fun x hx => ?_⟩
    rw [hrt, List.mem_singleton] at hx
    subst hx
    rw [ht']
    simp only [p, i]
    exact ⟨printable_none, by decide⟩
  obtain ⟨fs, rs', h1, h2, h3⟩ := routes_come_back gen [r] (by simp) (fun x hx => by
    rw [List.mem_singleton] at hx; subst hx; exact ⟨hr, hpl⟩)
  have hf : [r].filter (fun r => !r.tracks.isEmpty) = [r] := rfl
  rw [hf] at h3
  cases h3 with
  | cons hc hn =>
    cases hn
    rename_i r'
    obtain ⟨t₀, _, _, _, _, _, c5⟩ := hc
    rw [hrt] at c5
    exact ⟨r, r', fs, t', _, hr, h1, h2, hrt, c5, rfl, rfl⟩

/-- A route without tracks disappears without an error. -/
theorem empty_route_dropped [GoMath F] (gen : Nat → Nat → String × String) :
    ∃ r : Route F, ApiRoute r ∧ geoEncode [r] = .ok [] ∧ geoDecode gen (some []) = .ok (.ok ([] : List (Route F))) :=
  ⟨Route.new "r" "#000000", .new _ _, rfl, rfl⟩

/-- A route property called `routeID` replaces the id of the route and is then lost itself. -/
theorem reserved_property_clobbers [GoMath F] (gen : Nat → Nat → String × String) (a b : LatLon F) :
    ∃ (r r' : Route F) (fs : _), ApiRoute r ∧ geoEncode [r] = .ok fs ∧ geoDecode gen (some fs) = .ok (.ok [r']) ∧
      r.id = "r" ∧ r'.id = "mine" ∧ contents r.props = [("routeID", .str "mine")] ∧ contents r'.props = [] := by
  obtain ⟨t, e, i, hc, hn, p⟩ := line_ok "one" "#000000" (by decide) a b
  let r : Route F := (Route.restore "r" "#000000" (some [("routeID", .str "mine")])).addTrack (some t)
  have hr : ApiRoute r :=
    .addTrack (.restore _ _ _ (fun m h => by cases h; exact List.pairwise_singleton _ _)) (.restore e)
  have hfp := api_from_points (.restore e)
  have hgeom : r.geometry = .single t.geom := rfl
  have hpr : t.propsOf.2 = PMap.make := by simp only [Track.propsOf, p]
  let info : GVal F := .obj [("trackID", .str "one"), ("name", .str t.name), ("color", .str t.color),
    ("distance", .num t.dist), ("numSegments", .num (lit t.numSegments)), ("properties", .obj [])]
  let props : GMap F := [("routeID", .str "mine"), ("color", .str "#000000"), ("name", .str ""),
    ("numTracks", .num (lit r.numTracks)), ("tracksInfo", .arr [info]), ("distance", .num r.dist),
    ("units", .str "meters")]
  have hi : t.info = some info := by
    simp only [Track.info, hpr, i]
    rfl
  have hfe : r.featureProps = some props := by
    have : r.tracks.mapM Track.info = some [info] := by
      have : r.tracks = [t] := rfl
      rw [this]
      simp [List.mapM_cons, hi]
    simp only [Route.featureProps, this]
    rfl
  have henc : geoEncode [r] = .ok [some ⟨"Feature", some props, some (.single t.geom)⟩] := by
    have h1 : ¬ r.tracks.length = 0 := Nat.one_ne_zero
    have h2 : ¬ [r].length = 0 := by simp
    simp only [geoEncode, if_neg h2, toFeatures, if_neg h1, hfe, hgeom]
    rfl
  have hread : [info].map TrackInfo.read = [⟨"one", t.color, []⟩] := rfl
  have hrr : restoreRoute props = .ok (Route.restore "mine" "#000000" (some []), [⟨"one", t.color, []⟩]) := rfl
  have hpg := parse_track (gen 0) (Route.restore "mine" "#000000" (some [])) ⟨"one", t.color, []⟩ [] t hfp
    (show "one" ≠ "" by decide)
  have hdec : decodeFeature (gen 0) (some ⟨"Feature", some props, some (.single t.geom)⟩) =
      .ok (.ok (some ((Route.restore "mine" "#000000" (some [])).addTrack (some (relabel ⟨"one", t.color, []⟩ t))))) := by
    have hex : routeExists props = true := rfl
    have hres : resetProps props = [] := rfl
    have hpp : parseProperties (Route.restore "mine" "#000000" (some []) : Route F) (GMap.toPMap []) =
        Route.restore "mine" "#000000" (some []) := rfl
    have hg : parseGeometries (gen 0) (Route.restore "mine" "#000000" (some [])) (some [⟨"one", t.color, []⟩])
        (some (.single t.geom)) = _ := hpg
    simp only [decodeFeature, ne_eq, not_true_eq_false, if_false, hex, if_true, hrr, hres, hpp, hg]
    rfl
  refine ⟨r, (Route.restore "mine" "#000000" (some [])).addTrack (some (relabel ⟨"one", t.color, []⟩ t)), _, hr, henc,
    ?_, rfl, rfl, rfl, rfl⟩
  simp only [geoDecode, decodeFeatures, hdec]
  rfl

/-- A property that cannot be marshalled makes encoding fail. -/
theorem unprintable_property_fails [GoMath F] (a b : LatLon F) :
    ∃ r : Route F, ApiRoute r ∧ geoEncode [r] = .error .marshalFailed := by
  obtain ⟨t, e, i, hc, hn, p⟩ := line_ok "one" "#000000" (by decide) a b
  let r : Route F := (Route.restore "r" "#000000" (some [("bad", .other 0)])).addTrack (some t)
  refine ⟨r, .addTrack (.restore _ _ _ (fun m h => by cases h; exact List.pairwise_singleton _ _)) (.restore e), ?_⟩
  have hown : r.propsOf.2.toGMap = none := rfl
  have h1 : ¬ r.tracks.length = 0 := Nat.one_ne_zero
  have h2 : ¬ [r].length = 0 := by simp
  have hfe : r.featureProps = none := by
    simp only [Route.featureProps, hown]
    cases r.tracks.mapM Track.info <;> rfl
  simp only [geoEncode, if_neg h2, toFeatures, if_neg h1, hfe]
  rfl

/-! ## Concrete cases -/

/-- A named route with properties and one track with a property. -/
def sample : Route Toy :=
  { (Route.addTrack (Route.restore "r" "#00ff00" none) (some { Toy.track with props := some [("k", .float (Toy.of 2))] }) |>.changeName
      "My route").1 with props := some [("a", .str "b"), ("c", .bool true)] }

/-- The same with two tracks, one of them closed. -/
def sample2 : Route Toy :=
  match Track.restore "u" "#ffffff" [Toy.pt 0 0, Toy.pt 0 1, Toy.pt 1 1, Toy.pt 0 0] with
  | .ok t => sample.addTrack (some t)
  | .error _ => sample

/-- Encode and decode, with fixed ids for new routes. -/
def trip (rs : List (Route Toy)) : Option (List (Route Toy)) :=
  match geoEncode rs with
  | .error _ => none
  | .ok fs => match geoDecode (fun _ _ => ("new", "#123456")) (some fs) with
    | .ok (.ok rs) => some rs
    | _ => none

example : (trip [sample]).map (fun rs => rs.map fun r => (r.id, r.color, r.name)) =
      some [("r", "#00ff00", "My route")] ∧
    (trip [sample]).map (fun rs => rs.flatMap fun r => contents r.props) =
      some [("a", .str "b"), ("c", .bool true)] ∧
    (trip [sample]).map (fun rs => rs.flatMap fun r => r.tracks.flatMap fun t => contents t.props) =
      some [("k", .float (Toy.of 2))] := by
  decide +kernel

example : (trip [sample, sample]).map (fun rs => rs.map (·.tracks.map (·.segments))) =
    some [[Toy.track.segments], [Toy.track.segments]] := by
  decide +kernel

example : sample2.tracks.map (·.isClosed) = [false, true] ∧
    (trip [sample2]).map (fun rs => rs.map fun r => r.tracks.map fun t => (t.id, t.color, t.isClosed)) =
      some [[("t", "#000000", false), ("t", "#000000", true)]] ∧
    (trip [sample2]).map (fun rs => rs.map (·.tracks.map (·.segments))) = some [sample2.tracks.map (·.segments)] := by
  decide +kernel

end C44
end GpsGen
