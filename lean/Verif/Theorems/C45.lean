import Verif.Lemmas.Gpx
import Verif.Theorems.C44
import Mathlib.Tactic.IntervalCases
import Mathlib.Tactic.Tauto
/-!
# C45: GPX encoding and decoding of routes

Any number type, any text form of floats, any list of routes reachable through the API. The claim as stated is
false: the properties of tracks are not written, attribute values that look like numbers or booleans are read as
such (a route with the id `7` is rejected, one named `123` loses its name), routes without tracks disappear and route
properties named like the encoder's own attributes replace them. `routes_back` says exactly what does come back, whatever
gpxgo does to coordinates, `routes_come_back` the same if it preserves them;
`routes_survive_partial` is the claim for routes where none of this happens, with any number of tracks.

The text form of XML and the gpxgo library are not modelled.
-/

namespace GpsGen
variable {F : Type}

namespace C45
open C21 (ApiTrack ApiRoute)
open C44 (contents SameTrack SameRoute)

/-! ## Specification -/

/-- The names of attributes that the encoder writes or the decoder deletes. -/
def Reserved (k : String) : Prop :=
  k = "id" ∨ k = "color" ∨ k = "distance" ∨ k = "tracksInfo" ∨ k = "numTracks" ∨ k = "name" ∨ k = "units"

/-- The text is read back as text. -/
def TextStable (T : GpxText F) (s : String) : Prop := T.value s = .str s

/-- The text if it is read back as text, otherwise nothing. -/
def asText (T : GpxText F) (s : String) : String :=
  match T.value s with
  | .str s => s
  | _ => ""

/-- gpxgo preserves coordinates. -/
def Exact (T : GpxText F) : Prop := ∀ x, T.coord x = x

/-- Routes for which the encoder's own attributes survive and can be restored. -/
structure Plain (T : GpxText F) (r : Route F) : Prop where
  id : TextStable T r.id
  reserved : ∀ e ∈ contents r.props, ¬ Reserved e.1
  tracks : ∀ t ∈ r.tracks, t.id ≠ ""

/-- What comes back of a route. -/
def ComesBack (T : GpxText F) (r r' : Route F) : Prop :=
  r'.id = r.id ∧ r'.color = asText T r.color ∧ r'.name = asText T r.name ∧
  r'.props = some ((contents r.props).map fun e => (e.1, T.value (T.print e.2))) ∧
  r'.tracks = r.tracks.map fun t =>
    { t with
      color := asText T t.color, name := asText T t.name, props := some [],
      version := if asText T t.name = "" then 0 else 1 }

/-- A track as it comes back when gpxgo changes coordinates: it is made anew from the changed points. -/
def TrackBack [GoMath F] (T : GpxText F) (t t' : Track F) : Prop :=
  ∃ segs dist, makeSegments ((Track.points t.segments).map fun p => ⟨T.coord p.lat, T.coord p.lon⟩) = .ok (segs, dist) ∧
    t' = { id := t.id, color := asText T t.color, name := asText T t.name, props := some [], segments := segs,
           dist := dist, isClosed := isClosedPts ((Track.points t.segments).map fun p => ⟨T.coord p.lat, T.coord p.lon⟩),
           version := if asText T t.name = "" then 0 else 1 }

/-- What comes back of a route when gpxgo changes coordinates. -/
def RouteBack [GoMath F] (T : GpxText F) (r r' : Route F) : Prop :=
  r'.id = r.id ∧ r'.color = asText T r.color ∧ r'.name = asText T r.name ∧
  r'.props = some ((contents r.props).map fun e => (e.1, T.value (T.print e.2))) ∧
  List.Forall₂ (TrackBack T) r.tracks r'.tracks

/-! ## Proof -/

theorem asText_cases (T : GpxText F) (s : String) : asText T s = s ∨ asText T s = "" := by
  unfold asText GpxText.value
  cases parseInt64 s with
  | some i => exact Or.inr rfl
  | none => cases parseBool s with
    | some b => exact Or.inr rfl
    | none => cases T.parseFloat s with
      | some f => exact Or.inr rfl
      | none => exact Or.inl rfl

theorem nameOk_asText (T : GpxText F) (s : String) (h : NameOk s) : NameOk (asText T s) := by
  rcases asText_cases T s with hs | hs <;> rw [hs]
  · exact h
  · exact Or.inl rfl

theorem parseName_ok (s : String) (h : NameOk s) (hs : goLen s > 0) : parseName s = .ok s := by
  rcases h with rfl | ⟨h1, h2⟩
  · exact absurd hs (by decide)
  · unfold parseName
    rw [if_neg (by omega), if_neg (by omega)]

theorem api_track_name [GoMath F] {t : Track F} (h : ApiTrack t) : NameOk t.name := by
  have hbind : ∀ {id color : String} {pts : List (LatLon F)} {t : Track F},
      (makeSegments pts >>= fun x => (pure ⟨id, x.1, color, "", none, x.2, isClosedPts pts, 0⟩ :
        Except Err (Track F))) = .ok t → NameOk t.name := by
    intro id color pts t h
    cases hm : makeSegments pts with
    | error e => rw [hm] at h; cases h
    | ok x =>
      rw [hm] at h
      obtain rfl := Except.ok.inj h
      exact Or.inl rfl
  induction h with
  | new h => exact hbind h
  | restore h =>
    unfold Track.restore at h
    split at h
    · cases h
    · exact hbind h
  | color c _ ih => cases c <;> exact ih
  | name s _ ih =>
    unfold Track.changeName
    cases hp : parseName s with
    | error e => exact ih
    | ok s' =>
      unfold parseName at hp
      split at hp
      · cases hp
      split at hp
      · cases hp
      cases hp
      exact Or.inr (by simp only; omega)
  | props m hm _ ih => exact ih

/-- A track as the decoder rebuilds it. -/
def back (T : GpxText F) (t : Track F) : Track F :=
  { t with
    color := asText T t.color, name := asText T t.name, props := some [],
    version := if asText T t.name = "" then 0 else 1 }

theorem getString_asText (T : GpxText F) (m : PMap F) (k s : String) (h : m.get? k = some (T.value s)) :
    (m.getString k).1 = asText T s := by
  unfold PMap.getString asText
  rw [h]
  cases T.value s <;> rfl

theorem gpx_points [GoMath F] (T : GpxText F) (hT : Exact T) (t : Track F) :
    gpxPoints T t = Track.points t.segments := by
  unfold gpxPoints
  have : (fun p : LatLon F => (⟨T.coord p.lat, T.coord p.lon⟩ : LatLon F)) = id := by
    funext p
    rw [hT, hT]
    rfl
  rw [this, List.map_id]

/-- The segments and the length of a track with changed coordinates. -/
def rebuilt [GoMath F] (T : GpxText F) (t : Track F) : List (Segment F) × F :=
  match makeSegments (gpxPoints T t) with
  | .ok x => x
  | .error _ => ([], lit 0)

/-- A track as the decoder rebuilds it from changed coordinates. -/
def backVia [GoMath F] (T : GpxText F) (t : Track F) : Track F :=
  { back T t with
    segments := (rebuilt T t).1, dist := (rebuilt T t).2, isClosed := isClosedPts (gpxPoints T t) }

theorem rebuilt_eq [GoMath F] (T : GpxText F) (t : Track F) (hf : FromPoints t) :
    makeSegments (gpxPoints T t) = .ok (rebuilt T t) := by
  have hl : ¬ (gpxPoints T t).length < 2 := by
    intro hc
    have h := hf.1
    unfold makeSegments at h
    rw [if_pos (by simpa [gpxPoints] using hc)] at h
    cases h
  have : ∃ x, makeSegments (gpxPoints T t) = .ok x := by
    unfold makeSegments
    rw [if_neg hl]
    simp only
    split <;> exact ⟨_, rfl⟩
  obtain ⟨x, hx⟩ := this
  rw [rebuilt, hx]

theorem backVia_exact [GoMath F] (T : GpxText F) (hT : Exact T) (t : Track F) (hf : FromPoints t) :
    backVia T t = back T t := by
  have h := rebuilt_eq T t hf
  rw [gpx_points T hT t, hf.1] at h
  have h := Except.ok.inj h
  unfold backVia
  rw [← h, gpx_points T hT t, ← hf.2]
  rfl

theorem trackBack [GoMath F] (T : GpxText F) (t : Track F) (hf : FromPoints t) : TrackBack T t (backVia T t) :=
  ⟨_, _, rebuilt_eq T t hf, rfl⟩

theorem restore_track [GoMath F] (T : GpxText F) (t : Track F) (ht : ApiTrack t) (hid : t.id ≠ "") :
    gpxRestoreTrack T (gpxTrackNode T t) (gpxPoints T t) = .ok (backVia T t) := by
  have hf := api_from_points ht
  have hn := nameOk_asText T t.name (api_track_name ht)
  have hmp : makeProps T (gpxTrackNode T t).attrs =
      [("name", T.value t.name), ("color", T.value t.color), ("distance", T.value (T.f2s t.dist))] := by
    rw [makeProps_nodup]
    · rfl
    · exact (by decide : ["name", "color", "distance"].Nodup)
  have hre : gpxResetProps ([("name", T.value t.name), ("color", T.value t.color),
      ("distance", T.value (T.f2s t.dist))] : PMap F) = [] := rfl
  have hco : (PMap.getString ([("name", T.value t.name), ("color", T.value t.color),
      ("distance", T.value (T.f2s t.dist))] : PMap F) "color").1 = asText T t.color := getString_asText T _ _ _ rfl
  have hna : (PMap.getString ([("name", T.value t.name), ("color", T.value t.color),
      ("distance", T.value (T.f2s t.dist))] : PMap F) "name").1 = asText T t.name := getString_asText T _ _ _ rfl
  have hda : (gpxTrackNode T t).data = t.id := rfl
  have hi : ¬ goLen t.id = 0 := by
    have := (goLen_pos_iff t.id).mpr hid
    omega
  have hres : ∀ color, Track.restore t.id color (gpxPoints T t) =
      .ok ⟨t.id, (rebuilt T t).1, color, "", none, (rebuilt T t).2, isClosedPts (gpxPoints T t), 0⟩ := by
    intro color
    simp only [Track.restore, if_neg hi, rebuilt_eq T t hf]
    rfl
  unfold gpxRestoreTrack
  simp only [hmp, hco, hna, hda, hres, hre]
  show Except.ok _ = Except.ok _
  congr 1
  have hm : (PMap.merge (PMap.make : PMap F) []) = [] := rfl
  simp only [Track.propsOf, hm]
  by_cases h0 : asText T t.name = ""
  · have : ¬ goLen (asText T t.name) > 0 := by rw [h0]; decide
    rw [if_neg this]
    simp only [backVia, back, h0, if_true]
  · have h1 : goLen (asText T t.name) > 0 := (goLen_pos_iff _).mpr h0
    rw [if_pos h1]
    simp only [Track.changeName, parseName_ok _ hn h1, backVia, back, if_neg h0]
    rfl

theorem restore_tracks [GoMath F] (T : GpxText F) (root : List GpxRouteNode) (i : Nat)
    (node : GpxRouteNode) (hi : goIndex root (i : Int) = .ok node) (ts : List (Track F))
    (ht : ∀ t ∈ ts, ApiTrack t ∧ t.id ≠ "") (j : Nat) (hd : node.nodes.drop j = ts.map (gpxTrackNode T))
    (r : Route F) : gpxRestoreTracks T root i j (ts.map (gpxPoints T)) r =
      .ok (.ok (ts.foldl (fun r t => r.addTrack (some (backVia T t))) r)) := by
  induction ts generalizing j r with
  | nil => rfl
  | cons t ts ih =>
    have hj := goIndex_drop _ _ _ _ hd
    have := ih (fun x hx => ht x (by simp [hx])) (j + 1) (drop_succ _ _ _ _ hd) (r.addTrack (some (backVia T t)))
    simp only [List.map_cons, gpxRestoreTracks, hi, hj, ok_bind,
      restore_track T t (ht t (by simp)).1 (ht t (by simp)).2, List.foldl_cons]
    exact this

/-- The route as the decoder rebuilds it, before its tracks are added. -/
def bare [GoMath F] (T : GpxText F) (r : Route F) : Route F :=
  let q := Route.restore r.id (asText T r.color) (some ((contents r.props).map fun e => (e.1, T.value (T.print e.2))))
  if goLen (asText T r.name) > 0 then (q.changeName (asText T r.name)).1 else q

theorem bare_fields [GoMath F] (T : GpxText F) (r : Route F) (hn : NameOk r.name) :
    (bare T r).id = r.id ∧ (bare T r).color = asText T r.color ∧ (bare T r).name = asText T r.name ∧
      (bare T r).props = some ((contents r.props).map fun e => (e.1, T.value (T.print e.2))) ∧ (bare T r).tracks = [] := by
  unfold bare
  have hn := nameOk_asText T r.name hn
  by_cases h0 : asText T r.name = ""
  · have : ¬ goLen (asText T r.name) > 0 := by rw [h0]; decide
    simp only [if_neg this]
    rw [h0]
    exact ⟨rfl, rfl, rfl, rfl, rfl⟩
  · have h1 : goLen (asText T r.name) > 0 := (goLen_pos_iff _).mpr h0
    simp only [if_pos h1, Route.changeName, parseName_ok _ hn h1, Route.restore, and_self]

theorem restore_bare [GoMath F] (T : GpxText F) (r : Route F) (hr : ApiRoute r) (hp : Plain T r) :
    gpxRestoreRoute T (gpxRouteNode T r).attrs = .ok (bare T r) := by
  have ⟨hname, hkeys, _⟩ := C21.api_route hr
  let base : Attrs := [("id", r.id), ("name", r.name), ("color", r.color), ("distance", T.f2s r.dist),
    ("units", "meters")]
  let own : Attrs := makeAttrs T r.propsOf.2
  have hownk : own.map (·.1) = (contents r.props).map (·.1) := by
    simp [own, makeAttrs, C44.contents_route, List.map_map, Function.comp_def]
  have hres : ∀ e ∈ own, ¬ Reserved e.1 := by
    intro e he
    have : e.1 ∈ own.map (·.1) := List.mem_map_of_mem he
    rw [hownk, List.mem_map] at this
    obtain ⟨x, hx, hxe⟩ := this
    rw [← hxe]
    exact hp.reserved x hx
  have hat : (gpxRouteNode T r).attrs = base ++ own := rfl
  have hb : base.map (·.1) = ["id", "name", "color", "distance", "units"] := rfl
  have hnd : ((base ++ own).map (·.1)).Nodup := by
    rw [List.map_append, List.nodup_append]
    refine ⟨by rw [hb]; decide, by rw [hownk]; exact C44.keys_of hkeys, ?_⟩
    intro a ha b hb' hab
    subst hab
    obtain ⟨e, he, rfl⟩ := List.mem_map.mp hb'
    have := hres e he
    simp only [Reserved, not_or] at this
    simp only [hb, List.mem_cons, List.not_mem_nil, or_false] at ha
    rcases ha with h | h | h | h | h <;> rw [h] at this <;> simp at this
  have hmp := makeProps_nodup T (base ++ own) hnd
  let vals : PMap F := (base ++ own).map fun e => (e.1, T.value e.2)
  have hid : vals.getString "id" = (r.id, true) := by
    have : vals.get? "id" = some (T.value r.id) := rfl
    rw [hp.id] at this
    simp only [PMap.getString, this]
  have hco : (vals.getString "color").1 = asText T r.color := getString_asText T _ _ _ rfl
  have hna : (vals.getString "name").1 = asText T r.name := getString_asText T _ _ _ rfl
  have hreset : gpxResetProps vals = (contents r.props).map fun e => (e.1, T.value (T.print e.2)) := by
    rw [gpxReset_eq]
    have hv : vals = base.map (fun e => (e.1, T.value e.2)) ++ own.map (fun e => (e.1, T.value e.2)) := List.map_append
    rw [hv, List.filter_append]
    have h1 : (base.map (fun e => (e.1, T.value e.2))).filter (fun e => !gpxReserved.contains e.1) = [] := by
      rw [List.filter_eq_nil_iff]
      intro e he
      simp only [base, List.map_cons, List.map_nil, List.mem_cons, List.not_mem_nil, or_false] at he
      rcases he with h | h | h | h | h <;> rw [h] <;> simp [gpxReserved]
    have h2 : (own.map (fun e => (e.1, T.value e.2))).filter (fun e => !gpxReserved.contains e.1) =
        own.map (fun e => (e.1, T.value e.2)) := by
      rw [List.filter_eq_self]
      intro e he
      obtain ⟨x, hx, rfl⟩ := List.mem_map.mp he
      have := hres x hx
      simp only [Reserved, not_or] at this
      obtain ⟨a1, a2, a3, a4, a5, a6, a7⟩ := this
      simp [gpxReserved, a1, a2, a3, a4, a5, a6, a7]
    rw [h1, h2, List.nil_append]
    simp [own, makeAttrs, C44.contents_route, List.map_map, Function.comp_def]
  have hrr : gpxRestoreRoute T (gpxRouteNode T r).attrs = .ok (if goLen (asText T r.name) > 0 then
      ((Route.restore r.id (asText T r.color) (some (gpxResetProps vals))).changeName (asText T r.name)).1
      else Route.restore r.id (asText T r.color) (some (gpxResetProps vals))) := by
    have hv : makeProps T (gpxRouteNode T r).attrs = vals := by rw [hat, hmp]
    simp only [gpxRestoreRoute, hv, hid, hco, hna]
  rw [hrr, hreset]
  rfl

theorem restore_route [GoMath F] (T : GpxText F) (r : Route F) (hr : ApiRoute r) (hp : Plain T r) :
    ∃ q, gpxRestoreRoute T (gpxRouteNode T r).attrs = .ok q ∧ q.id = r.id ∧ q.color = asText T r.color ∧
      q.name = asText T r.name ∧ q.props = some ((contents r.props).map fun e => (e.1, T.value (T.print e.2))) ∧
      q.tracks = [] :=
  ⟨_, restore_bare T r hr hp, bare_fields T r (C21.api_route hr).1⟩

/-- A route as the decoder rebuilds it. -/
def whole [GoMath F] (T : GpxText F) (r : Route F) : Route F :=
  r.tracks.foldl (fun q t => q.addTrack (some (backVia T t))) (bare T r)

theorem whole_back [GoMath F] (T : GpxText F) (r : Route F) (hr : ApiRoute r) : RouteBack T r (whole T r) := by
  obtain ⟨q1, q2, q3, q4, q5⟩ := bare_fields T r (C21.api_route hr).1
  obtain ⟨a1, a2, a3, a4, a5⟩ := C44.add_tracks (backVia T) r.tracks (bare T r)
  refine ⟨a1.trans q1, a2.trans q2, a3.trans q3, a4.trans q4, ?_⟩
  have a6 : (whole T r).tracks = r.tracks.map (backVia T) := by
    refine a5.trans ?_
    rw [q5, List.nil_append]
  rw [a6]
  have hfp : ∀ t ∈ r.tracks, FromPoints t := fun t ht => api_from_points (C44.api_tracks hr t ht)
  generalize r.tracks = l at hfp
  induction l with
  | nil => exact .nil
  | cons a l ih' =>
    exact .cons (trackBack T a (hfp a (by simp))) (ih' fun t ht => hfp t (by simp [ht]))

theorem restore_routes [GoMath F] (T : GpxText F) (root : List GpxRouteNode) (rs : List (Route F))
    (hr : ∀ r ∈ rs, ApiRoute r ∧ Plain T r) (i : Nat) (hd : root.drop i = rs.map (gpxRouteNode T)) :
    gpxRestoreRoutes T root i (rs.map fun r => r.tracks.map (gpxPoints T)) =
      .ok (.ok ((rs.filter fun r => !r.tracks.isEmpty).map (whole T))) := by
  induction rs generalizing i with
  | nil => rfl
  | cons r rs ih =>
    have h1 := ih (fun x hx => hr x (by simp [hx])) (i + 1) (drop_succ _ _ _ _ hd)
    cases hts : r.tracks with
    | nil =>
      rw [List.filter_cons_of_neg (by simp [hts])]
      simp only [List.map_cons, gpxRestoreRoutes, hts, List.map_nil, List.length_nil, if_true, h1]
    | cons t ts =>
      have hi := goIndex_drop _ _ _ _ hd
      obtain ⟨hapi, hpl⟩ := hr r (by simp)
      have hq := restore_bare T r hapi hpl
      have htr := restore_tracks T root i _ hi r.tracks
        (fun x hx => ⟨C44.api_tracks hapi x hx, hpl.tracks x hx⟩) 0 (by simp [gpxRouteNode]) (bare T r)
      have hl : ¬ (r.tracks.map (gpxPoints T)).length = 0 := by rw [hts]; simp
      rw [List.filter_cons_of_pos (by simp [hts])]
      simp only [List.map_cons, gpxRestoreRoutes, if_neg hl, hi, ok_bind, hq, htr, h1]
      rfl

theorem validate_ok (T : GpxText F) (root : List GpxRouteNode) (rs : List (Route F)) (i : Nat)
    (hd : root.drop i = rs.map (gpxRouteNode T)) :
    gpxValidateTracks root i (rs.map fun r => r.tracks.map (gpxPoints T)) = .ok (.ok ()) := by
  induction rs generalizing i with
  | nil => rfl
  | cons r rs ih =>
    have hi := goIndex_drop _ _ _ _ hd
    have hl : ¬ ((r.tracks.map (gpxPoints T)).length ≠ (gpxRouteNode T r).nodes.length) := by
      simp [gpxRouteNode]
    simp only [List.map_cons, gpxValidateTracks, hi, ok_bind, if_neg hl]
    exact ih (i + 1) (drop_succ _ _ _ _ hd)

theorem decode_encode [GoMath F] (T : GpxText F) (gen : Nat → Nat → String × String)
    (rs : List (Route F)) (hne : rs ≠ []) (hr : ∀ r ∈ rs, ApiRoute r ∧ Plain T r) :
    ∃ d, gpxEncode T rs = .ok d ∧
      gpxDecode T gen d = .ok (.ok ((rs.filter fun r => !r.tracks.isEmpty).map (whole T))) := by
  have hl : ¬ rs.length = 0 := fun hc => hne (List.length_eq_zero_iff.mp hc)
  have h1 := restore_routes T (rs.map (gpxRouteNode T)) rs hr 0 rfl
  refine ⟨_, by simp only [gpxEncode, if_neg hl]; rfl, ?_⟩
  have hv : gpxValidate (⟨[], rs.map fun r => r.tracks.map (gpxPoints T), [],
      [("gpsgen", rs.map (gpxRouteNode T))]⟩ : GpxDoc F) = .ok (.ok ()) := by
    have hc : ¬ ((rs.map fun r => r.tracks.map (gpxPoints T)).length = 0 ∨
        [("gpsgen", rs.map (gpxRouteNode T))].length = 0) := by simpa using hne
    have hix : goIndex [("gpsgen", rs.map (gpxRouteNode T))] 0 = .ok ("gpsgen", rs.map (gpxRouteNode T)) := rfl
    have hlen : ¬ ((rs.map (gpxRouteNode T)).length ≠ (rs.map fun r => r.tracks.map (gpxPoints T)).length) := by simp
    simp only [gpxValidate, if_neg hc, hix, ok_bind, if_neg hlen]
    exact validate_ok T _ rs 0 rfl
  have hex : gpxRoutesExist (⟨[], rs.map fun r => r.tracks.map (gpxPoints T), [],
      [("gpsgen", rs.map (gpxRouteNode T))]⟩ : GpxDoc F) = true := rfl
  simp only [gpxDecode, hex, if_true, hv, ok_bind]
  exact h1

/-- **C45, what comes back.** Routes without tracks disappear. Of every other route the id comes back, the colour and
name if they do not look like a number or boolean, the properties as what their text looks like, and all tracks in
order with their ids and (textual) colours and names, without properties, made anew from their points as gpxgo wrote
and read them. -/
theorem routes_back [GoMath F] (T : GpxText F) (gen : Nat → Nat → String × String)
    (rs : List (Route F)) (hne : rs ≠ []) (hr : ∀ r ∈ rs, ApiRoute r ∧ Plain T r) :
    ∃ d rs', gpxEncode T rs = .ok d ∧ gpxDecode T gen d = .ok (.ok rs') ∧
      List.Forall₂ (RouteBack T) (rs.filter fun r => !r.tracks.isEmpty) rs' := by
  obtain ⟨d, h1, h2⟩ := decode_encode T gen rs hne hr
  refine ⟨d, _, h1, h2, ?_⟩
  have hr' : ∀ r ∈ rs.filter fun r => !r.tracks.isEmpty, ApiRoute r := fun r hm => (hr r (List.mem_filter.mp hm).1).1
  generalize (rs.filter fun r => !r.tracks.isEmpty) = l at hr'
  induction l with
  | nil => exact .nil
  | cons a l ih => exact .cons (whole_back T a (hr' a (by simp))) (ih fun r hm => hr' r (by simp [hm]))

theorem comesBack [GoMath F] (T : GpxText F) (hT : Exact T) {r r' : Route F} (hr : ApiRoute r) (h : RouteBack T r r') :
    ComesBack T r r' := by
  obtain ⟨h1, h2, h3, h4, h5⟩ := h
  refine ⟨h1, h2, h3, h4, ?_⟩
  have hfp : ∀ t ∈ r.tracks, FromPoints t := fun t ht => api_from_points (C44.api_tracks hr t ht)
  generalize r.tracks = l, r'.tracks = l' at h5 hfp
  induction h5 with
  | nil => rfl
  | @cons a b l l' h _ ih =>
    rw [List.map_cons, ih fun t ht => hfp t (by simp [ht])]
    congr 1
    have hf := hfp a (by simp)
    obtain ⟨segs, dist, e1, e2⟩ := h
    have he : (fun p : LatLon F => (⟨T.coord p.lat, T.coord p.lon⟩ : LatLon F)) = id := by
      funext p; rw [hT, hT]; rfl
    rw [he, List.map_id] at e1 e2
    rw [hf.1] at e1
    cases e1
    rw [e2, ← hf.2]

/-- **C45, what comes back when gpxgo preserves coordinates.** The same, with the tracks as they were but for their
colours, names, properties and versions. -/
theorem routes_come_back [GoMath F] (T : GpxText F) (hT : Exact T) (gen : Nat → Nat → String × String)
    (rs : List (Route F)) (hne : rs ≠ []) (hr : ∀ r ∈ rs, ApiRoute r ∧ Plain T r) :
    ∃ d rs', gpxEncode T rs = .ok d ∧ gpxDecode T gen d = .ok (.ok rs') ∧
      List.Forall₂ (ComesBack T) (rs.filter fun r => !r.tracks.isEmpty) rs' := by
  obtain ⟨d, rs', h1, h2, h3⟩ := routes_back T gen rs hne hr
  refine ⟨d, rs', h1, h2, ?_⟩
  have hr' : ∀ r ∈ rs.filter fun r => !r.tracks.isEmpty, ApiRoute r := fun r hm => (hr r (List.mem_filter.mp hm).1).1
  generalize (rs.filter fun r => !r.tracks.isEmpty) = l at h3 hr'
  clear h1 h2
  induction h3 with
  | nil => exact .nil
  | cons h _ ih => exact .cons (comesBack T hT (hr' _ (by simp)) h) (ih fun r hm => hr' r (by simp [hm]))

/-- A property value is read back as it was. -/
def ValueStable (T : GpxText F) (v : PVal F) : Prop := T.value (T.print v) = v

/-- **C45, the claim as far as it holds.** (`Full statement`: every list of routes. Missing: routes without tracks,
tracks with properties or without id, texts that look like numbers or booleans, property values that their text does
not determine, route properties named like reserved attributes, inexact coordinates.) -/
theorem routes_survive_partial [GoMath F] (T : GpxText F) (hT : Exact T) (gen : Nat → Nat → String × String)
    (rs : List (Route F)) (hne : rs ≠ [])
    (hr : ∀ r ∈ rs, ApiRoute r ∧ r.tracks ≠ [] ∧ TextStable T r.id ∧ TextStable T r.color ∧ TextStable T r.name ∧
      (∀ e ∈ contents r.props, ¬ Reserved e.1 ∧ ValueStable T e.2) ∧
      ∀ t ∈ r.tracks, t.id ≠ "" ∧ TextStable T t.color ∧ TextStable T t.name ∧ contents t.props = []) :
    ∃ d rs', gpxEncode T rs = .ok d ∧ gpxDecode T gen d = .ok (.ok rs') ∧ List.Forall₂ SameRoute rs rs' := by
  obtain ⟨d, rs', h1, h2, h3⟩ := routes_come_back T hT gen rs hne (fun r hm => by
    obtain ⟨a, _, b, _, _, c, e⟩ := hr r hm
    exact ⟨a, b, fun x hx => (c x hx).1, fun t ht => (e t ht).1⟩)
  refine ⟨d, rs', h1, h2, ?_⟩
  have hfil : rs.filter (fun r => !r.tracks.isEmpty) = rs := by
    rw [List.filter_eq_self]
    intro r hm
    have := (hr r hm).2.1
    simpa using this
  rw [hfil] at h3
  clear h1 h2 hfil hne
  have hst : ∀ {s : String}, TextStable T s → asText T s = s := by
    intro s hs
    unfold TextStable at hs
    unfold asText
    rw [hs]
  induction h3 with
  | nil => exact .nil
  | cons hc _ ih =>
    rename_i r r' l l' _
    refine .cons ?_ (ih (fun x hx => hr x (by simp [hx])))
    obtain ⟨_, _, hid, hco, hna, hpr, htr⟩ := hr r (by simp)
    obtain ⟨c1, c2, c3, c4, c5⟩ := hc
    refine ⟨c1.symm, by rw [c2, hst hco], by rw [c3, hst hna], ?_, ?_⟩
    · rw [c4]
      have : (contents r.props).map (fun e => (e.1, T.value (T.print e.2))) = (contents r.props).map id := by
        apply List.map_congr_left
        intro e he
        have := (hpr e he).2
        unfold ValueStable at this
        rw [this]
        rfl
      rw [this, List.map_id]
      rfl
    · rw [c5]
      generalize r.tracks = ts at htr
      clear c5
      induction ts with
      | nil => exact .nil
      | cons t ts iht =>
        obtain ⟨_, t1, t2, t3⟩ := htr t (by simp)
        refine .cons ⟨rfl, (hst t1).symm, (hst t2).symm, t3, rfl, rfl, rfl⟩ (iht (fun x hx => htr x (by simp [hx])))

/-- **Encoding nothing** is an error. -/
theorem encode_empty (T : GpxText F) : gpxEncode T [] = .error .noRoutes := rfl

/-! ## Which values are stable -/

/-- Booleans are. -/
theorem bool_stable (T : GpxText F) (b : Bool) : ValueStable T (.bool b) := by
  cases b
  · have h1 : parseInt64 "false" = none := by decide +kernel
    have h2 : parseBool "false" = some false := by decide +kernel
    simp only [ValueStable, GpxText.print, GpxText.value, Bool.false_eq_true, if_false, h1, h2]
  · have h1 : parseInt64 "true" = none := by decide +kernel
    have h2 : parseBool "true" = some true := by decide +kernel
    simp only [ValueStable, GpxText.print, GpxText.value, if_true, h1, h2]

/-- 64-bit integers are. -/
theorem int64_stable (T : GpxText F) (i : Int) (h1 : -9223372036854775808 ≤ i) (h2 : i ≤ 9223372036854775807) :
    ValueStable T (.int64 i) := by
  simp only [ValueStable, GpxText.print, GpxText.value, parseInt_show i h1 h2]

/-- Other integers come back as 64-bit integers, with the same number under `Properties.Int`. -/
theorem int_becomes_int64 (T : GpxText F) (i : Int) (h1 : -9223372036854775808 ≤ i) (h2 : i ≤ 9223372036854775807) :
    T.value (T.print (.int i)) = .int64 i ∧ T.value (T.print (.int32 i)) = .int64 i ∧
    ∀ k, PMap.getInt ([(k, .int64 i)] : PMap F) k = PMap.getInt ([(k, .int i)] : PMap F) k := by
  simp only [GpxText.print, GpxText.value, parseInt_show i h1 h2, true_and]
  intro k
  simp [PMap.getInt, PMap.get?]

/-- The number a list of decimal digits stands for. -/
def Decimal (cs : List Char) (n : Nat) : Prop :=
  cs ≠ [] ∧ (∀ c ∈ cs, c ∈ ['0', '1', '2', '3', '4', '5', '6', '7', '8', '9']) ∧
  n = cs.foldl (fun n c => 10 * n + (c.toNat - 48)) 0

/-- The text of a 64-bit integer: digits with an optional sign. -/
def IntText (s : String) (i : Int) : Prop :=
  ∃ cs n, Decimal cs n ∧
    (s.toList = cs ∧ i = (n : Int) ∨ s.toList = '+' :: cs ∧ i = (n : Int) ∨ s.toList = '-' :: cs ∧ i = -(n : Int)) ∧
    -(2 : Int) ^ 63 ≤ i ∧ i < 2 ^ 63

/-- The texts of booleans. -/
def BoolText (s : String) (b : Bool) : Prop :=
  b = true ∧ s ∈ ["1", "t", "T", "true", "True", "TRUE"] ∨ b = false ∧ s ∈ ["0", "f", "F", "false", "False", "FALSE"]

theorem digit_iff (c : Char) : c.isDigit = true ↔ c ∈ ['0', '1', '2', '3', '4', '5', '6', '7', '8', '9'] := by
  constructor
  · intro h
    have h1 : 48 ≤ c.toNat ∧ c.toNat ≤ 57 := by
      unfold Char.isDigit at h
      rw [Bool.and_eq_true, decide_eq_true_eq, decide_eq_true_eq] at h
      exact ⟨UInt32.le_iff_toNat_le.1 h.1, UInt32.le_iff_toNat_le.1 h.2⟩
    have h2 : c = Char.ofNat c.toNat := (Char.ofNat_toNat c).symm
    obtain ⟨ha, hb⟩ := h1
    generalize c.toNat = n at ha hb h2
    subst h2
    interval_cases n <;> decide
  · intro h
    simp only [List.mem_cons, List.not_mem_nil, or_false] at h
    rcases h with rfl | rfl | rfl | rfl | rfl | rfl | rfl | rfl | rfl | rfl <;> rfl

theorem readDigits_iff (a : Nat) (cs : List Char) (n : Nat) : readDigits a cs = some n ↔
    (∀ c ∈ cs, c ∈ ['0', '1', '2', '3', '4', '5', '6', '7', '8', '9']) ∧
    n = cs.foldl (fun n c => 10 * n + (c.toNat - 48)) a := by
  induction cs generalizing a with
  | nil => simp [readDigits, eq_comm]
  | cons c cs ih =>
    simp only [readDigits, List.foldl_cons, List.forall_mem_cons]
    by_cases hc : c.isDigit = true
    · rw [if_pos hc, ih]
      simp only [(digit_iff c).1 hc, true_and]
    · rw [if_neg hc]
      simp only [reduceCtorEq, false_iff]
      exact fun h => hc ((digit_iff c).2 h.1.1)

theorem readNat_iff (cs : List Char) (n : Nat) : readNat cs = some n ↔ Decimal cs n := by
  unfold readNat Decimal
  by_cases h : cs = []
  · simp [h]
  · rw [if_neg h, readDigits_iff]
    simp [h]

theorem decimal_head {c : Char} {cs : List Char} {n : Nat} (h : Decimal (c :: cs) n) : c ≠ '+' ∧ c ≠ '-' := by
  have := h.2.1 c (by simp)
  constructor <;> rintro rfl <;> revert this <;> decide

/-- **Integers**: `ParseInt` accepts exactly the texts of 64-bit integers. -/
theorem parseInt64_iff (s : String) (i : Int) : parseInt64 s = some i ↔ IntText s i := by
  have range : ∀ i : Int, (-9223372036854775808 ≤ i ∧ i ≤ 9223372036854775807) ↔ -(2 : Int) ^ 63 ≤ i ∧ i < 2 ^ 63 := by
    intro i; norm_num; omega
  have key : ∀ (o : Option Int), (o.bind fun i => if -9223372036854775808 ≤ i ∧ i ≤ 9223372036854775807 then some i
      else none) = some i ↔ o = some i ∧ -(2 : Int) ^ 63 ≤ i ∧ i < 2 ^ 63 := by
    intro o
    cases o with
    | none => simp
    | some j =>
      simp only [Option.bind_some, Option.some.injEq]
      by_cases h : -9223372036854775808 ≤ j ∧ j ≤ 9223372036854775807
      · rw [if_pos h, Option.some.injEq]
        exact ⟨fun e => ⟨e, e ▸ (range j).1 h⟩, fun e => e.1⟩
      · rw [if_neg h]
        simp only [reduceCtorEq, false_iff]
        rintro ⟨rfl, hr⟩
        exact h ((range j).2 hr)
  unfold parseInt64
  simp only [key]
  unfold IntText
  split
  · rename_i cs hs
    simp only [Option.map_eq_some_iff, readNat_iff, Int.ofNat_eq_natCast, hs]
    constructor
    · rintro ⟨⟨n, hn, rfl⟩, hr⟩
      exact ⟨cs, n, hn, Or.inr (Or.inr ⟨rfl, rfl⟩), hr⟩
    · rintro ⟨cs', n, hn, h, hr⟩
      rcases h with ⟨h, _⟩ | ⟨h, _⟩ | ⟨h, rfl⟩
      · exact absurd rfl (decimal_head (h ▸ hn)).2
      · exact absurd (List.cons.inj h).1 (by decide)
      · exact ⟨⟨n, (List.cons.inj h).2 ▸ hn, rfl⟩, hr⟩
  · rename_i cs hs
    simp only [Option.map_eq_some_iff, readNat_iff, Int.ofNat_eq_natCast, hs]
    constructor
    · rintro ⟨⟨n, hn, rfl⟩, hr⟩
      exact ⟨cs, n, hn, Or.inr (Or.inl ⟨rfl, rfl⟩), hr⟩
    · rintro ⟨cs', n, hn, h, hr⟩
      rcases h with ⟨h, _⟩ | ⟨h, rfl⟩ | ⟨h, _⟩
      · exact absurd rfl (decimal_head (h ▸ hn)).1
      · exact ⟨⟨n, (List.cons.inj h).2 ▸ hn, rfl⟩, hr⟩
      · exact absurd (List.cons.inj h).1 (by decide)
  · rename_i h1 h2
    simp only [Option.map_eq_some_iff, readNat_iff, Int.ofNat_eq_natCast]
    constructor
    · rintro ⟨⟨n, hn, rfl⟩, hr⟩
      exact ⟨s.toList, n, hn, Or.inl ⟨rfl, rfl⟩, hr⟩
    · rintro ⟨cs', n, hn, h, hr⟩
      rcases h with ⟨h, rfl⟩ | ⟨h, _⟩ | ⟨h, _⟩
      · exact ⟨⟨n, h ▸ hn, rfl⟩, hr⟩
      · exact absurd h (h2 cs')
      · exact absurd h (h1 cs')

/-- **Booleans**: `ParseBool` accepts exactly the texts of booleans. -/
theorem parseBool_iff (s : String) (b : Bool) : parseBool s = some b ↔ BoolText s b := by
  unfold parseBool BoolText
  simp only [List.mem_cons, List.not_mem_nil, or_false]
  by_cases h1 : s = "1" ∨ s = "t" ∨ s = "T" ∨ s = "TRUE" ∨ s = "true" ∨ s = "True"
  · rw [if_pos h1]
    rcases h1 with rfl | rfl | rfl | rfl | rfl | rfl <;> cases b <;> decide
  · rw [if_neg h1]
    by_cases h2 : s = "0" ∨ s = "f" ∨ s = "F" ∨ s = "FALSE" ∨ s = "false" ∨ s = "False"
    · rw [if_pos h2]
      rcases h2 with rfl | rfl | rfl | rfl | rfl | rfl <;> cases b <;> decide
    · rw [if_neg h2]
      simp only [reduceCtorEq, false_iff]
      tauto

/-- A string is stable exactly if it is not the text of an integer, a boolean or a float. -/
theorem str_stable_iff (T : GpxText F) (s : String) : ValueStable T (.str s) ↔
    (¬ ∃ i, IntText s i) ∧ (¬ ∃ b, BoolText s b) ∧ T.parseFloat s = none := by
  simp only [← parseInt64_iff, ← parseBool_iff]
  unfold ValueStable GpxText.print GpxText.value
  cases parseInt64 s with
  | some i => simp
  | none => cases parseBool s with
    | some b => simp
    | none => cases T.parseFloat s with
      | some f => simp
      | none => simp

/-- A nil value comes back as a string or number, never as nil. -/
theorem null_unstable (T : GpxText F) : ¬ ValueStable T (.null : PVal F) := by
  unfold ValueStable GpxText.value
  split
  · simp
  · split
    · simp
    · split <;> simp

/-! ## Negations of the unrestricted claim -/

theorem attrs_get (T : GpxText F) (r : Route F) (hp : r.props = none) :
    makeProps T (gpxRouteNode T r).attrs = [("id", T.value r.id), ("name", T.value r.name), ("color", T.value r.color),
      ("distance", T.value (T.f2s r.dist)), ("units", T.value "meters")] := by
  have : (gpxRouteNode T r).attrs = [("id", r.id), ("name", r.name), ("color", r.color),
      ("distance", T.f2s r.dist), ("units", "meters")] := by
    simp only [gpxRouteNode, Route.propsOf, hp]
    rfl
  rw [this, makeProps_nodup]
  · rfl
  · exact (by decide : ["id", "name", "color", "distance", "units"].Nodup)

/-- A route with the id `7` is encoded and then rejected. -/
theorem numeric_id_rejected [GoMath F] (T : GpxText F) (gen : Nat → Nat → String × String) (a b : LatLon F) :
    ∃ (r : Route F) (d : GpxDoc F), ApiRoute r ∧ r.id = "7" ∧ gpxEncode T [r] = .ok d ∧
      gpxDecode T gen d = .ok (.error .invalidRoute) := by
  obtain ⟨t, e, _⟩ := C44.line_ok "one" "#000000" (by decide) a b
  let r : Route F := (Route.restore "7" "#000000" none).addTrack (some t)
  refine ⟨r, _, .addTrack (.restore _ _ _ (fun m h => by cases h)) (.restore e), rfl, rfl, ?_⟩
  have h7 : T.value "7" = .int64 7 := by
    have : parseInt64 "7" = some 7 := by decide +kernel
    simp only [GpxText.value, this]
  have hid : (makeProps T (gpxRouteNode T r).attrs).getString "id" = ("", false) := by
    rw [attrs_get T r rfl, show r.id = "7" from rfl, h7]
    rfl
  have hrr : gpxRestoreRoute T (gpxRouteNode T r).attrs = .error .invalidRoute := by
    simp only [gpxRestoreRoute, hid]
  show gpxRestoreRoutes T [gpxRouteNode T r] 0 [[gpxPoints T t]] = _
  have hi : goIndex [gpxRouteNode T r] ((0 : Nat) : Int) = .ok (gpxRouteNode T r) := rfl
  simp only [gpxRestoreRoutes, List.length_singleton, Nat.one_ne_zero, if_false, hi, ok_bind, hrr]
  rfl

/-- Get a route back alone. -/
theorem one_back [GoMath F] (T : GpxText F) (hT : Exact T) (gen : Nat → Nat → String × String) (r : Route F)
    (hr : ApiRoute r) (hp : Plain T r) (hne : r.tracks ≠ []) :
    ∃ d r', gpxEncode T [r] = .ok d ∧ gpxDecode T gen d = .ok (.ok [r']) ∧ ComesBack T r r' := by
  obtain ⟨d, rs', h1, h2, h3⟩ := routes_come_back T hT gen [r] (by simp) (fun x hx => by
    rw [List.mem_singleton] at hx; subst hx; exact ⟨hr, hp⟩)
  rw [List.filter_cons_of_pos (by simpa using hne), List.filter_nil] at h3
  cases h3 with
  | cons hc hn => cases hn; exact ⟨d, _, h1, h2, hc⟩

/-- Track properties are lost. -/
theorem track_properties_lost [GoMath F] (T : GpxText F) (hT : Exact T) (gen : Nat → Nat → String × String)
    (hid : TextStable T "route") (a b : LatLon F) :
    ∃ (r r' : Route F) (d : GpxDoc F) (t u : Track F), ApiRoute r ∧ gpxEncode T [r] = .ok d ∧
      gpxDecode T gen d = .ok (.ok [r']) ∧ r.tracks = [t] ∧ r'.tracks = [u] ∧
      contents t.props = [("k", .bool true)] ∧ contents u.props = [] := by
  obtain ⟨t, e, i, _, _, _⟩ := C44.line_ok "one" "#000000" (by decide) a b
  let t' : Track F := { t with props := some [("k", .bool true)] }
  let r : Route F := (Route.new "route" "#000000").addTrack (some t')
  have hr : ApiRoute r := .addTrack (.new _ _) (.props _ (List.pairwise_singleton _ _) (.restore e))
  have hpl : Plain T r := by
    refine ⟨hid, fun e (he : e ∈ []) => absurd he List.not_mem_nil, fun x (hx : x ∈ [t']) => ?_⟩
    rw [List.mem_singleton] at hx
    subst hx
    show t.id ≠ ""
    rw [i]; decide
  obtain ⟨d, r', h1, h2, h3⟩ := one_back T hT gen r hr hpl (List.cons_ne_nil _ _)
  exact ⟨r, r', d, t', _, hr, h1, h2, rfl, h3.2.2.2.2, rfl, rfl⟩

/-- A route named `123` loses its name. -/
theorem numeric_name_lost [GoMath F] (T : GpxText F) (hT : Exact T) (gen : Nat → Nat → String × String)
    (hid : TextStable T "route") (a b : LatLon F) :
    ∃ (r r' : Route F) (d : GpxDoc F), ApiRoute r ∧ gpxEncode T [r] = .ok d ∧
      gpxDecode T gen d = .ok (.ok [r']) ∧ r.name = "123" ∧ r'.name = "" := by
  obtain ⟨t, e, i, _, _, _⟩ := C44.line_ok "one" "#000000" (by decide) a b
  let r : Route F := (((Route.new "route" "#000000").addTrack (some t)).changeName "123").1
  have hr : ApiRoute r := .name _ (.addTrack (.new _ _) (.restore e))
  have hpl : Plain T r := by
    refine ⟨hid, fun e (he : e ∈ []) => absurd he List.not_mem_nil, fun x (hx : x ∈ [t]) => ?_⟩
    rw [List.mem_singleton] at hx
    subst hx
    rw [i]; decide
  obtain ⟨d, r', h1, h2, h3⟩ := one_back T hT gen r hr hpl (List.cons_ne_nil _ _)
  refine ⟨r, r', d, hr, h1, h2, rfl, ?_⟩
  rw [h3.2.2.1, show r.name = "123" from rfl]
  have : parseInt64 "123" = some 123 := by decide +kernel
  simp only [asText, GpxText.value, this]

/-- Decoding the encoding of one route with one track. -/
theorem decode_one [GoMath F] (T : GpxText F) (hT : Exact T) (gen : Nat → Nat → String × String) (r q : Route F)
    (t : Track F) (ht : ApiTrack t) (hid : t.id ≠ "") (hts : r.tracks = [t])
    (hq : gpxRestoreRoute T (gpxRouteNode T r).attrs = .ok q) :
    ∃ d, gpxEncode T [r] = .ok d ∧ gpxDecode T gen d = .ok (.ok [q.addTrack (some (back T t))]) := by
  have hi : goIndex [gpxRouteNode T r] ((0 : Nat) : Int) = .ok (gpxRouteNode T r) := rfl
  have htr := restore_tracks T [gpxRouteNode T r] 0 _ hi [t]
    (fun x hx => by rw [List.mem_singleton] at hx; subst hx; exact ⟨ht, hid⟩) 0 (by simp [gpxRouteNode, hts]) q
  rw [List.foldl_cons, List.foldl_nil, backVia_exact T hT t (api_from_points ht)] at htr
  refine ⟨⟨[], [r.tracks.map (gpxPoints T)], [], [("gpsgen", [gpxRouteNode T r])]⟩, rfl, ?_⟩
  have hv : gpxValidate (⟨[], [r.tracks.map (gpxPoints T)], [], [("gpsgen", [gpxRouteNode T r])]⟩ : GpxDoc F) =
      .ok (.ok ()) := validate_ok T [gpxRouteNode T r] [r] 0 rfl
  have hex : gpxRoutesExist (⟨[], [r.tracks.map (gpxPoints T)], [], [("gpsgen", [gpxRouteNode T r])]⟩ : GpxDoc F) =
      true := rfl
  have hx : goIndex [("gpsgen", [gpxRouteNode T r])] 0 = .ok ("gpsgen", [gpxRouteNode T r]) := rfl
  rw [List.map_cons, List.map_nil] at htr
  simp only [gpxDecode, hex, if_true, hv, ok_bind, hx]
  simp only [gpxRestoreRoutes, hts, List.map_cons, List.map_nil, List.length_singleton, Nat.one_ne_zero, if_false, hi,
    ok_bind, hq, htr]
  rfl

/-- A route property called `id` replaces the id of the route and is then lost itself. -/
theorem reserved_property_clobbers [GoMath F] (T : GpxText F) (hT : Exact T) (gen : Nat → Nat → String × String)
    (hid : TextStable T "mine") (a b : LatLon F) :
    ∃ (r r' : Route F) (d : GpxDoc F), ApiRoute r ∧ gpxEncode T [r] = .ok d ∧ gpxDecode T gen d = .ok (.ok [r']) ∧
      r.id = "route" ∧ r'.id = "mine" ∧ contents r.props = [("id", .str "mine")] ∧ contents r'.props = [] := by
  obtain ⟨t, e, i, _, _, _⟩ := C44.line_ok "one" "#000000" (by decide) a b
  generalize hr0 : (Route.restore "route" "#000000" (some [("id", .str "mine")])).addTrack (some t) = r
  have hr : ApiRoute r := by
    rw [← hr0]
    exact .addTrack (.restore _ _ _ (fun m h => by cases h; exact List.pairwise_singleton _ _)) (.restore e)
  have hts : r.tracks = [t] := by rw [← hr0]; rfl
  have hrid : r.id = "route" := by rw [← hr0]; rfl
  have hrn : r.name = "" := by rw [← hr0]; rfl
  have hrc : r.color = "#000000" := by rw [← hr0]; rfl
  have hrp : r.props = some [("id", .str "mine")] := by rw [← hr0]; rfl
  let m : PMap F := [("id", T.value "mine"), ("name", T.value ""), ("color", T.value "#000000"),
    ("distance", T.value (T.f2s r.dist)), ("units", T.value "meters")]
  have hmp : makeProps T (gpxRouteNode T r).attrs = m := by
    simp only [gpxRouteNode, hrid, hrn, hrc, Route.propsOf, hrp]
    rfl
  have hgs : m.getString "id" = ("mine", true) := by
    have : m.get? "id" = some (T.value "mine") := rfl
    unfold TextStable at hid
    rw [hid] at this
    simp only [PMap.getString, this]
  have hreset : gpxResetProps m = [] := rfl
  have hna : (m.getString "name").1 = "" := by
    rw [getString_asText T m "name" "" rfl]
    rcases asText_cases T "" with h | h <;> exact h
  have hg : ¬ goLen "" > 0 := by decide
  have hrr : gpxRestoreRoute T (gpxRouteNode T r).attrs =
      .ok (Route.restore "mine" (m.getString "color").1 (some [])) := by
    simp only [gpxRestoreRoute, hmp, hgs, hna, hreset, if_neg hg]
  obtain ⟨d, h1, h2⟩ := decode_one T hT gen r _ t (.restore e) (by rw [i]; decide) hts hrr
  exact ⟨r, _, d, hr, h1, h2, hrid, rfl, by rw [hrp]; rfl, rfl⟩

/-- A route without tracks disappears without an error. -/
theorem empty_route_dropped [GoMath F] (T : GpxText F) (gen : Nat → Nat → String × String) :
    ∃ (r : Route F) (d : GpxDoc F), ApiRoute r ∧ gpxEncode T [r] = .ok d ∧ gpxDecode T gen d = .ok (.ok []) :=
  ⟨Route.new "r" "#000000", _, .new _ _, rfl, rfl⟩

/-! ## Concrete cases -/

/-- A text form for examples: floats print as `x` and are never read. -/
def toyText : GpxText Toy := ⟨fun _ => none, fun _ => "x", fun _ => "x", fun _ => "y", id⟩

/-- A route with two tracks, names and properties. -/
def sample : Route Toy := { C44.sample2 with props := some [("a", .str "b"), ("c", .bool true), ("d", .int64 (-42))] }

/-- Encode and decode. -/
def trip (rs : List (Route Toy)) : Option (List (Route Toy)) :=
  match gpxEncode toyText rs with
  | .error _ => none
  | .ok d => match gpxDecode toyText (fun _ _ => ("new", "#123456")) d with
    | .ok (.ok rs) => some rs
    | _ => none

example : (trip [sample, sample]).map (fun rs => rs.map fun r => (r.id, r.color, r.name)) =
      some [("r", "#00ff00", "My route"), ("r", "#00ff00", "My route")] ∧
    (trip [sample]).map (fun rs => rs.flatMap fun r => contents r.props) =
      some [("a", .str "b"), ("c", .bool true), ("d", .int64 (-42))] ∧
    (trip [sample]).map (fun rs => rs.map fun r => r.tracks.map fun t => (t.id, t.color, t.isClosed)) =
      some [[("t", "#000000", false), ("u", "#ffffff", true)]] ∧
    (trip [sample]).map (fun rs => rs.map (·.tracks.map (·.segments))) = some [sample.tracks.map (·.segments)] := by
  decide +kernel

example : showInt (-9223372036854775808) = "-9223372036854775808" ∧ parseInt64 "9223372036854775808" = none ∧
    parseInt64 "+5" = some 5 ∧ parseInt64 "-" = none ∧ parseInt64 "1a" = none := by
  decide +kernel

end C45
end GpsGen
