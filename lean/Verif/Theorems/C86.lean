import Verif.Lemmas.GeoText
import Verif.Theorems.C44
import Verif.Theorems.C69
import Verif.Theorems.C83
/-!
# C86: GeoJSON documents as text

Any number type with decimal numbers that read as they were written (C69), any list of routes reachable through the API.
`document_text` and `geometry_text` say what `Encode` writes: a GeoJSON FeatureCollection whose positions are arrays of
longitude and latitude, in this order. `collection_read` says what `ParseFeatureCollection` reads from it, `routes_through_text`
what `Decode` makes of it. `unwritable_fails` is the limit: one NaN or infinite number, and `Encode` fails; in doubles this
happens to routes with ordinary coordinates (`antipodal_route`).
-/

set_option linter.unusedSectionVars false

namespace GpsGen
variable {F : Type}

namespace C86
open C21 (ApiTrack ApiRoute)
open C44 (contents viaJson Reserved)

/-! ## Specification -/

section
variable [GoFloat F] [JsonFloat F]

/-- The number has a decimal form. -/
def Written (x : F) : Prop := ∃ l, JsonFloat.write x = some l

/-- Properties with a JSON form. -/
def PlainProps (p : Option (PMap F)) : Prop := ∀ e ∈ contents p, C69.Plain e.2

/-- A track whose information and geometry have a JSON form. -/
structure PlainTrack (t : Track F) : Prop where
  props : PlainProps t.props
  dist : Written t.dist
  coords : ∀ p ∈ Track.points t.segments, Written p.lon ∧ Written p.lat
  size : t.segments.length < 2 ^ 63

/-- A route that has a JSON form. -/
structure PlainRoute (r : Route F) : Prop where
  props : PlainProps r.props
  dist : Written r.dist
  tracks : ∀ t ∈ r.tracks, PlainTrack t
  size : r.tracks.length < 2 ^ 63

/-- A number in decimal. -/
def number (x : F) : Option (List Char) := (JsonFloat.write x).map NumLit.text

/-- Separated by commas. -/
def commas (l : List (List Char)) : List Char := List.intercalate [','] l

/-- RFC 7946, 3.1.1: a position is an array of longitude and latitude. -/
def position (p : LatLon F) : Option (List Char) := do
  let lon ← number p.lon
  let lat ← number p.lat
  return "[".toList ++ lon ++ ",".toList ++ lat ++ "]".toList

/-- RFC 7946, 3.1.4: an array of positions. -/
def positions (ps : List (LatLon F)) : Option (List Char) := do
  let l ← ps.mapM position
  return "[".toList ++ commas l ++ "]".toList

/-- RFC 7946, 3.1.4 and 3.1.6: an open track is a line, a closed one a polygon with one ring. -/
def geometry (t : Track F) : Option (List Char) := do
  let ps ← positions (Track.points t.segments)
  return if t.isClosed then "{\"type\":\"Polygon\",\"coordinates\":[".toList ++ ps ++ "]}".toList
    else "{\"type\":\"LineString\",\"coordinates\":".toList ++ ps ++ "}".toList

/-- RFC 7946, 3.1.8: several tracks are a collection. -/
def routeGeometry (r : Route F) : Option (List Char) := do
  match ← r.tracks.mapM geometry with
  | [g] => return g
  | gs => return "{\"type\":\"GeometryCollection\",\"geometries\":[".toList ++ commas gs ++ "]}".toList

end

/-- What comes back of a route: as in C44, the entries of property maps in any order. -/
def Back [GoFloat F] (r r' : Route F) : Prop :=
  ∃ t₀ m m₀, r.tracks.head? = some t₀ ∧
    m.Perm ((contents r.props).map fun e => (e.1, viaJson e.2)) ∧
    m₀.Perm ((contents t₀.props).map fun e => (e.1, viaJson e.2)) ∧
    r'.id = r.id ∧ r'.color = r.color ∧ r'.name = r.name ∧ r'.props = some m ∧
    r'.tracks = r.tracks.map fun t =>
      { t with id := t₀.id, color := t₀.color, name := "", version := 0, props := some m₀ }

/-- What is read of a route's feature. -/
def FeatureOf [GoFloat F] (r : Route F) (f : Option (Feature F)) : Prop :=
  ∃ props infos, f = some ⟨"Feature", some props, some r.geometry⟩ ∧
    props.get? "routeID" = some (.str r.id) ∧ props.get? "color" = some (.str r.color) ∧
    props.get? "name" = some (.str r.name) ∧ props.get? "numTracks" = some (.num (lit r.tracks.length)) ∧
    props.get? "distance" = some (.num r.dist) ∧ props.get? "units" = some (.str "meters") ∧
    props.get? "tracksInfo" = some (.arr infos) ∧ infos.length = r.tracks.length ∧
    ∀ e ∈ contents r.props, ∃ v, props.get? e.1 = some v ∧ v.toPVal = viaJson e.2

/-! ## Proof: the text -/

section
variable [GoFloat F] [JsonFloat F]

theorem written_iff (x : F) : Written x ↔ (JsonFloat.write x).isSome = true := by
  rw [Option.isSome_iff_exists]; rfl

theorem rest_text (l : List (WVal F)) : WVal.restText l =
    (l.mapM WVal.text).map fun ss => (ss.map fun s => ',' :: s).flatten ++ [']'] := by
  induction l with
  | nil => rfl
  | cons v l ih =>
    rw [WVal.restText, ih, List.mapM_cons]
    cases v.text <;> cases l.mapM WVal.text <;> simp

theorem commas_cons (a : List Char) (l : List (List Char)) : commas (a :: l) = a ++ (l.map fun s => ',' :: s).flatten := by
  induction l generalizing a with
  | nil => simp [commas, List.intercalate]
  | cons b l ih =>
    have : commas (a :: b :: l) = a ++ ',' :: commas (b :: l) := by simp [commas, List.intercalate]
    rw [this, ih, List.map_cons, List.flatten_cons]
    simp

theorem arr_text (l : List (WVal F)) : (WVal.arr l).text =
    (l.mapM WVal.text).map fun ss => '[' :: (commas ss ++ [']']) := by
  cases l with
  | nil => rfl
  | cons v l =>
    rw [WVal.text, rest_text, List.mapM_cons]
    cases v.text <;> cases l.mapM WVal.text <;> simp [commas_cons]

theorem position_text (p : LatLon F) : (posW (orbPoint p)).text = position p := by
  unfold posW orbPoint position number
  rw [arr_text]
  simp only [List.mapM_cons, List.mapM_nil, WVal.text]
  cases JsonFloat.write p.lon <;> cases JsonFloat.write p.lat <;> simp [commas, List.intercalate]

theorem mapM_map {α β γ : Type} (f : α → β) (g : β → Option γ) (l : List α) :
    (l.map f).mapM g = l.mapM fun x => g (f x) := by
  induction l with
  | nil => rfl
  | cons x l ih => rw [List.map_cons, List.mapM_cons, List.mapM_cons, ih]

theorem line_text (ps : List (LatLon F)) : (lineW ps).text = positions ps := by
  unfold lineW positions
  rw [arr_text, mapM_map]
  simp only [position_text]
  cases ps.mapM position <;> rfl

/-- **C86, geometries.** The geometry of a track is written as RFC 7946 says, longitude before latitude; there is none
only if a coordinate has no decimal form. -/
theorem geometry_text (t : Track F) : t.geomW.text = geometry t := by
  unfold Track.geomW geometry
  have e1 : "{\"type\":\"LineString\",\"coordinates\":".toList = '{' :: (jsonString "type" ++ ':' ::
      (jsonString "LineString" ++ ',' :: (jsonString "coordinates" ++ [':']))) := by decide
  have e2 : "{\"type\":\"Polygon\",\"coordinates\":[".toList = '{' :: (jsonString "type" ++ ':' ::
      (jsonString "Polygon" ++ ',' :: (jsonString "coordinates" ++ [':', '[']))) := by decide
  have e3 : "}".toList = ['}'] := rfl
  have e4 : "]}".toList = [']', '}'] := rfl
  rw [e1, e2, e3, e4]
  cases t.isClosed
  · simp only [Bool.false_eq_true, if_false, WVal.text, WVal.membersText, line_text]
    cases positions (Track.points t.segments) <;> simp
  · simp only [if_true, WVal.text, WVal.membersText, WVal.restText, line_text]
    cases positions (Track.points t.segments) <;> simp

theorem two_text (k : String) (v : WVal F) (k' : String) (v' : WVal F) : (WVal.obj [(k, v), (k', v')]).text = (do
    let a ← v.text
    let b ← v'.text
    return '{' :: (jsonString k ++ ':' :: (a ++ ',' :: (jsonString k' ++ ':' :: (b ++ ['}']))))) := by
  rw [WVal.text, WVal.membersText, WVal.membersText]
  cases v.text <;> cases v'.text <;> rfl

theorem three_text (k : String) (v : WVal F) (k' : String) (v' : WVal F) (k'' : String) (v'' : WVal F) :
    (WVal.obj [(k, v), (k', v'), (k'', v'')]).text = (do
    let a ← v.text
    let b ← v'.text
    let c ← v''.text
    return '{' :: (jsonString k ++ ':' :: (a ++ ',' :: (jsonString k' ++ ':' :: (b ++ ',' ::
      (jsonString k'' ++ ':' :: (c ++ ['}']))))))) := by
  rw [WVal.text, WVal.membersText, WVal.membersText, WVal.membersText]
  cases v.text <;> cases v'.text <;> cases v''.text <;> rfl

/-- **C86, geometries of routes.** -/
theorem route_geometry_text (r : Route F) : r.geometryW.text = routeGeometry r := by
  unfold Route.geometryW routeGeometry
  have e1 : "{\"type\":\"GeometryCollection\",\"geometries\":[".toList = '{' :: (jsonString "type" ++ ':' ::
      (jsonString "GeometryCollection" ++ ',' :: (jsonString "geometries" ++ [':', '[']))) := by decide
  have e4 : "]}".toList = [']', '}'] := rfl
  rw [e1, e4]
  have h : (WVal.arr (r.tracks.map Track.geomW)).text =
      (r.tracks.mapM geometry).map fun ss => '[' :: (commas ss ++ [']']) := by
    rw [arr_text, mapM_map]
    simp only [geometry_text]
  have key : ∀ gs, gs = r.tracks.map Track.geomW → (WVal.obj [("type", .str "GeometryCollection"),
      ("geometries", .arr gs)]).text = (r.tracks.mapM geometry).map fun ss => '{' :: (jsonString "type" ++ ':' ::
      (jsonString "GeometryCollection" ++ ',' :: (jsonString "geometries" ++ [':', '[']))) ++ commas ss ++ [']', '}'] := by
    rintro _ rfl
    rw [two_text, h, WVal.text]
    cases r.tracks.mapM geometry <;> simp
  match hr : r.tracks with
  | [] =>
    rw [hr] at key
    simpa using key [] rfl
  | [t] =>
    simp only [List.map_cons, List.map_nil, List.mapM_cons, List.mapM_nil, geometry_text]
    cases geometry t <;> rfl
  | t :: u :: ts =>
    rw [hr] at key
    have := key _ rfl
    simp only [List.map_cons] at this ⊢
    rw [this]
    simp only [List.mapM_cons]
    cases geometry t <;> cases geometry u <;> cases ts.mapM geometry <;> rfl

/-! ## Proof: reading -/

open Json (tree WFits tree_arr tree_obj)

theorem toW_ok (m : PMap F) (h : ∀ e ∈ m, C69.Plain e.2) : ∃ w, m.toW = some w ∧ w.map (·.1) = m.map (·.1) ∧
    (w.map fun e => (e.1, (tree e.2).toPVal)) = m.map (fun e => (e.1, viaJson e.2)) ∧
    (∀ e ∈ w, WFits e.2) ∧ ∀ e ∈ w, e.2.text.isSome = true := by
  induction m with
  | nil => exact ⟨[], rfl, rfl, rfl, nofun, nofun⟩
  | cons e m ih =>
    obtain ⟨w, h1, h2, h3, h4, h5⟩ := ih (fun x hx => h x (List.mem_cons_of_mem _ hx))
    obtain ⟨k, v⟩ := e
    have hv : ∃ j, v.toW = some j ∧ (tree j).toPVal = viaJson v ∧ WFits j ∧ j.text.isSome = true := by
      have := h (k, v) List.mem_cons_self
      cases v with
      | other n => exact this.elim
      | float f =>
        obtain ⟨l, hl⟩ := this
        exact ⟨_, rfl, by rw [tree]; rfl, by rw [WFits]; trivial, by rw [WVal.text, hl]; rfl⟩
      | int i => exact ⟨_, rfl, by rw [tree]; rfl, by rw [WFits]; exact this, rfl⟩
      | int32 i => exact ⟨_, rfl, by rw [tree]; rfl, by rw [WFits]; exact this, rfl⟩
      | int64 i => exact ⟨_, rfl, by rw [tree]; rfl, by rw [WFits]; exact this, rfl⟩
      | _ => exact ⟨_, rfl, by rw [tree]; rfl, by rw [WFits]; trivial, rfl⟩
    obtain ⟨j, j1, j2, j3, j4⟩ := hv
    refine ⟨(k, j) :: w, ?_, by simp [h2], ?_, ?_, ?_⟩
    · unfold PMap.toW at h1 ⊢
      rw [List.mapM_cons, h1]
      simp [j1]
    · simp only [List.map_cons, h3, j2]
    · exact List.forall_mem_cons.mpr ⟨j3, h4⟩
    · exact List.forall_mem_cons.mpr ⟨j4, h5⟩

theorem pos_fits (q : F × F) : WFits (posW q) := by
  unfold posW
  rw [WFits, Json.allFit_iff]
  intro v hv
  simp only [List.mem_cons, List.not_mem_nil, or_false] at hv
  rcases hv with rfl | rfl <;> (rw [WFits]; trivial)

theorem line_fits (ps : List (LatLon F)) : WFits (lineW ps) := by
  unfold lineW
  rw [WFits, Json.allFit_iff]
  intro v hv
  obtain ⟨p, -, rfl⟩ := List.mem_map.mp hv
  exact pos_fits _

theorem str_fits (s : String) : WFits (.str s : WVal F) := by rw [WFits]; trivial

theorem geom_fits (t : Track F) : WFits t.geomW := by
  unfold Track.geomW
  cases t.isClosed
  · simp only [Bool.false_eq_true, if_false]
    rw [WFits, Json.membersFit_iff]
    intro e he
    simp only [List.mem_cons, List.not_mem_nil, or_false] at he
    rcases he with rfl | rfl
    · exact str_fits _
    · exact line_fits _
  · simp only [if_true]
    rw [WFits, Json.membersFit_iff]
    intro e he
    simp only [List.mem_cons, List.not_mem_nil, or_false] at he
    rcases he with rfl | rfl
    · exact str_fits _
    · rw [WFits, Json.allFit_iff]
      intro v hv
      rw [List.mem_singleton.mp hv]
      exact line_fits _

theorem geometry_fits (r : Route F) : WFits r.geometryW := by
  unfold Route.geometryW
  split
  · rename_i g hg
    have : g ∈ r.tracks.map Track.geomW := by rw [hg]; exact List.mem_singleton.mpr rfl
    obtain ⟨t, -, rfl⟩ := List.mem_map.mp this
    exact geom_fits t
  · rw [WFits, Json.membersFit_iff]
    intro e he
    simp only [List.mem_cons, List.not_mem_nil, or_false] at he
    rcases he with rfl | rfl
    · exact str_fits _
    · rw [WFits, Json.allFit_iff]
      intro v hv
      obtain ⟨t, -, rfl⟩ := List.mem_map.mp hv
      exact geom_fits t

theorem read_pos (q : F × F) : readPos (tree (posW q)) = some q := by
  unfold posW
  rw [tree_arr]
  simp [tree, readPos, readCoord]

theorem mapM_some {α β : Type} (f : α → Option β) (g : α → β) (l : List α) (h : ∀ x ∈ l, f x = some (g x)) :
    l.mapM f = some (l.map g) := by
  induction l with
  | nil => rfl
  | cons x l ih =>
    rw [List.mapM_cons, h x List.mem_cons_self, ih (fun y hy => h y (List.mem_cons_of_mem _ hy))]
    rfl

theorem read_line (ps : List (LatLon F)) : readLine (tree (lineW ps)) = some ps := by
  unfold lineW readLine
  rw [tree_arr]
  have : readSlice readPos (.arr ((ps.map fun p => posW (orbPoint p)).map tree)) = some (ps.map orbPoint) := by
    show ((ps.map fun p => posW (orbPoint p)).map tree).mapM readPos = _
    rw [List.map_map, mapM_map]
    exact mapM_some _ _ _ fun p _ => read_pos _
  rw [this]
  simp [Function.comp_def, ofOrbPoint, orbPoint]

theorem read_geom (t : Track F) : readGeom (tree t.geomW) = some t.geom ∧
    ∃ m, tree t.geomW = .obj m ∧ GMap.getString m "type" ≠ "GeometryCollection" := by
  have hl := read_line (Track.points t.segments)
  unfold Track.geomW Track.geom
  cases t.isClosed
  · simp only [Bool.false_eq_true, if_false]
    rw [tree_obj _ (by simp)]
    refine ⟨?_, _, rfl, by simp [GMap.getString, GMap.get?, tree]⟩
    simp [readGeom, GMap.get?, tree, readText, hl]
  · simp only [if_true]
    rw [tree_obj _ (by simp)]
    refine ⟨?_, _, rfl, by simp [GMap.getString, GMap.get?, tree]⟩
    simp [readGeom, GMap.get?, tree, readText, readSlice, Json.trees, hl]

theorem read_geometry (r : Route F) (h : r.tracks ≠ []) :
    readGeometry (some (tree r.geometryW)) = some (some r.geometry) := by
  unfold Route.geometryW Route.geometry
  match hr : r.tracks with
  | [] => exact absurd hr h
  | [t] =>
    obtain ⟨h1, m, h2, h3⟩ := read_geom t
    simp only [List.map_cons, List.map_nil]
    rw [h2] at h1 ⊢
    simp [readGeometry, h3, h1]
  | t :: u :: ts =>
    simp only [List.map_cons]
    rw [tree_obj _ (by simp)]
    have : readSlice readGeom (tree (.arr (t.geomW :: u.geomW :: ts.map Track.geomW))) =
        some (t.geom :: u.geom :: ts.map Track.geom) := by
      rw [tree_arr]
      show (List.map tree ((t :: u :: ts).map Track.geomW)).mapM readGeom = _
      rw [List.map_map, mapM_map]
      exact mapM_some _ Track.geom _ fun t _ => (read_geom t).1
    simp [readGeometry, GMap.getString, GMap.get?, tree] at this ⊢
    simp [this]

theorem line_writes (ps : List (LatLon F)) :
    (lineW ps).text.isSome = true ↔ ∀ p ∈ ps, Written p.lon ∧ Written p.lat := by
  unfold lineW
  rw [Json.arr_writes, List.forall_mem_map]
  refine forall₂_congr fun p _ => ?_
  unfold posW orbPoint
  rw [Json.arr_writes, written_iff, written_iff]
  simp only [List.forall_mem_cons, List.not_mem_nil, false_imp_iff, implies_true, and_true, Json.num_writes]

theorem geom_writes (t : Track F) :
    t.geomW.text.isSome = true ↔ ∀ p ∈ Track.points t.segments, Written p.lon ∧ Written p.lat := by
  rw [← line_writes]
  unfold Track.geomW
  cases t.isClosed
  · simp only [Bool.false_eq_true, if_false]
    rw [Json.obj_writes]
    simp [WVal.text]
  · simp only [if_true]
    rw [Json.obj_writes]
    simp only [List.forall_mem_cons, List.not_mem_nil, false_imp_iff, implies_true, and_true, Json.arr_writes]
    simp [WVal.text]

theorem geometry_writes (r : Route F) : r.geometryW.text.isSome = true ↔
    ∀ t ∈ r.tracks, ∀ p ∈ Track.points t.segments, Written p.lon ∧ Written p.lat := by
  have h : (∀ v ∈ r.tracks.map Track.geomW, v.text.isSome = true) ↔
      ∀ t ∈ r.tracks, ∀ p ∈ Track.points t.segments, Written p.lon ∧ Written p.lat := by
    rw [List.forall_mem_map]
    exact forall₂_congr fun t _ => geom_writes t
  rw [← h]
  unfold Route.geometryW
  split
  · rename_i g hg
    rw [hg]; simp
  · rw [Json.obj_writes]
    simp only [List.forall_mem_cons, List.not_mem_nil, false_imp_iff, implies_true, and_true, Json.arr_writes]
    simp [WVal.text]

/-- What a route's feature needs of the information about its tracks. -/
theorem infos_ok (ts : List (Track F)) (h : ∀ t ∈ ts, PlainTrack t) (hk : ∀ t ∈ ts, KeysUnique t.props) :
    ∃ infos, ts.mapM Track.infoW = some infos ∧ infos.length = ts.length ∧ (∀ v ∈ infos, WFits v) ∧
      (∀ v ∈ infos, v.text.isSome = true) ∧
      ∀ t₀, ts.head? = some t₀ → ∃ g rest, (infos.map tree).map TrackInfo.read = ⟨t₀.id, t₀.color, g⟩ :: rest ∧
        (g.map (·.1)).Nodup ∧ g.toPMap.Perm ((contents t₀.props).map fun e => (e.1, viaJson e.2)) := by
  induction ts with
  | nil => exact ⟨[], rfl, rfl, nofun, nofun, nofun⟩
  | cons t ts ih =>
    obtain ⟨infos, h1, h2, h3, h4, -⟩ := ih (fun x hx => h x (List.mem_cons_of_mem _ hx))
      (fun x hx => hk x (List.mem_cons_of_mem _ hx))
    have ht := h t List.mem_cons_self
    have hp := ht.props
    unfold PlainProps at hp
    rw [← C44.contents_track] at hp
    obtain ⟨w, w1, w2, w3, w4, w5⟩ := toW_ok _ hp
    have hs := Json.sort_perm w
    let o : WVal F := .obj [("trackID", .str t.id), ("name", .str t.name), ("color", .str t.color),
      ("distance", .num t.dist), ("numSegments", .int t.numSegments), ("properties", .obj (sortEntries w))]
    have hi : t.infoW = some o := by
      simp only [Track.infoW, w1]
      rfl
    have hfits : WFits o := by
      show WFits (.obj _)
      rw [WFits, Json.membersFit_iff]
      intro e he
      simp only [List.mem_cons, List.not_mem_nil, or_false] at he
      rcases he with rfl | rfl | rfl | rfl | rfl | rfl
      · exact str_fits _
      · exact str_fits _
      · exact str_fits _
      · rw [WFits]; trivial
      · rw [WFits]
        have := ht.size
        unfold Track.numSegments
        constructor <;> omega
      · rw [WFits, Json.membersFit_iff]
        exact fun e he => w4 e (hs.mem_iff.mp he)
    have hw : o.text.isSome = true := by
      show (WVal.obj _).text.isSome = true
      rw [Json.obj_writes]
      intro e he
      simp only [List.mem_cons, List.not_mem_nil, or_false] at he
      rcases he with rfl | rfl | rfl | rfl | rfl | rfl
      · rfl
      · rfl
      · rfl
      · rw [Json.num_writes]; exact (written_iff _).mp ht.dist
      · rfl
      · rw [Json.obj_writes]
        exact fun e he => w5 e (hs.mem_iff.mp he)
    refine ⟨o :: infos, ?_, by simp [h2], List.forall_mem_cons.mpr ⟨hfits, h3⟩,
      List.forall_mem_cons.mpr ⟨hw, h4⟩, ?_⟩
    · rw [List.mapM_cons, hi, h1]; rfl
    · intro t₀ h0
      simp only [List.head?_cons, Option.some.injEq] at h0
      subst h0
      have hn : ((sortEntries w).map (·.1)).Nodup := by
        refine (hs.map _).nodup_iff.mpr ?_
        rw [w2, C44.contents_track]
        exact C44.keys_of (hk t List.mem_cons_self)
      refine ⟨(sortEntries w).map fun e => (e.1, tree e.2), (infos.map tree).map TrackInfo.read, ?_, ?_, ?_⟩
      · have : tree o = .obj [("trackID", .str t.id), ("name", .str t.name), ("color", .str t.color),
            ("distance", .num t.dist), ("numSegments", .num (lit t.numSegments)),
            ("properties", .obj ((sortEntries w).map fun e => (e.1, tree e.2)))] := by
          show tree (.obj _) = _
          rw [tree_obj _ (by simp)]
          simp only [List.map_cons, List.map_nil, tree_obj _ hn]
          simp only [tree]
        rw [List.map_cons, List.map_cons, this]
        rfl
      · simpa [List.map_map, Function.comp_def] using hn
      · unfold GMap.toPMap
        rw [List.map_map]
        refine (hs.map _).trans (List.Perm.of_eq ?_)
        rw [← C44.contents_track, ← w3]
        rfl

/-- The feature of a route, as it is written and read. -/
theorem feature_ok (r : Route F) (h : PlainRoute r) (hres : ∀ e ∈ contents r.props, ¬ Reserved e.1)
    (hku : KeysUnique r.props) (hkt : ∀ t ∈ r.tracks, KeysUnique t.props) (hne : r.tracks ≠ []) :
    ∃ (w : WVal F) (props : GMap F) (infos : List (GVal F)) (own : GMap F), r.featureW = some w ∧ WFits w ∧ w.text.isSome = true ∧
      readFeature (tree w) = some (some ⟨"Feature", some props, some r.geometry⟩) ∧
      infos.length = r.tracks.length ∧ (own.map (·.1)).Nodup ∧
      own.toPMap = (contents r.props).map (fun e => (e.1, viaJson e.2)) ∧
      props.Perm ([("routeID", .str r.id), ("color", .str r.color), ("name", .str r.name),
        ("numTracks", .num (lit r.tracks.length)), ("tracksInfo", .arr infos), ("distance", .num r.dist),
        ("units", .str "meters")] ++ own) ∧ (props.map (·.1)).Nodup ∧
      ∀ t₀, r.tracks.head? = some t₀ → ∃ g rest, infos.map TrackInfo.read = ⟨t₀.id, t₀.color, g⟩ :: rest ∧
        (g.map (·.1)).Nodup ∧ g.toPMap.Perm ((contents t₀.props).map fun e => (e.1, viaJson e.2)) := by
  obtain ⟨infos, i1, i2, i3, i4, i5⟩ := infos_ok r.tracks h.tracks hkt
  have hp := h.props
  unfold PlainProps at hp
  rw [← C44.contents_route] at hp
  obtain ⟨own, w1, w2, w3, w4, w5⟩ := toW_ok _ hp
  have hko : (own.map (·.1)).Nodup := by rw [w2, C44.contents_route]; exact C44.keys_of hku
  have hro : ∀ e ∈ own, ¬ Reserved e.1 := by
    intro e he
    have : e.1 ∈ own.map (·.1) := List.mem_map_of_mem he
    rw [w2, C44.contents_route, List.mem_map] at this
    obtain ⟨x, hx, hxe⟩ := this
    rw [← hxe]
    exact hres x hx
  let base : List (String × WVal F) := [("routeID", .str r.id), ("color", .str r.color), ("name", .str r.name),
    ("numTracks", .int r.numTracks), ("tracksInfo", .arr infos), ("distance", .num r.dist), ("units", .str "meters")]
  have hnd : ((base ++ own).map (·.1)).Nodup := by
    rw [List.map_append, List.nodup_append]
    have hb : base.map (·.1) = ["routeID", "color", "name", "numTracks", "tracksInfo", "distance", "units"] := rfl
    refine ⟨by rw [hb]; decide, hko, ?_⟩
    intro a ha b hb hab
    subst hab
    obtain ⟨e, he, rfl⟩ := List.mem_map.mp hb
    have := hro e he
    simp only [Reserved, not_or] at this
    simp only [base, List.map_cons, List.map_nil, List.mem_cons, List.not_mem_nil, or_false] at ha
    rcases ha with h | h | h | h | h | h | h <;> rw [h] at this <;> simp at this
  have hpw : r.propsW = some (base ++ own) := by
    have := Json.setEntry_fold own base hnd
    simp only [Route.propsW, i1, w1]
    show some _ = some _
    rw [← this]
  have hs := Json.sort_perm (base ++ own)
  have hsn : ((sortEntries (base ++ own)).map (·.1)).Nodup := (hs.map _).nodup_iff.mpr hnd
  let w : WVal F := .obj [("type", .str "Feature"), ("geometry", r.geometryW),
    ("properties", .obj (sortEntries (base ++ own)))]
  have hw : r.featureW = some w := by
    simp only [Route.featureW, hpw]
    rfl
  have hall : ∀ e ∈ base ++ own, WFits e.2 ∧ e.2.text.isSome = true := by
    intro e he
    rcases List.mem_append.mp he with he | he
    · simp only [base, List.mem_cons, List.not_mem_nil, or_false] at he
      rcases he with rfl | rfl | rfl | rfl | rfl | rfl | rfl
      · exact ⟨str_fits _, rfl⟩
      · exact ⟨str_fits _, rfl⟩
      · exact ⟨str_fits _, rfl⟩
      · refine ⟨?_, rfl⟩
        rw [WFits]
        have := h.size
        unfold Route.numTracks
        constructor <;> omega
      · refine ⟨?_, ?_⟩
        · rw [WFits, Json.allFit_iff]; exact i3
        · rw [Json.arr_writes]; exact i4
      · refine ⟨by rw [WFits]; trivial, ?_⟩
        rw [Json.num_writes]; exact (written_iff _).mp h.dist
      · exact ⟨str_fits _, rfl⟩
    · exact ⟨w4 e he, w5 e he⟩
  have hgt : r.geometryW.text.isSome = true :=
    (geometry_writes r).mpr fun t ht p hp => (h.tracks t ht).coords p hp
  refine ⟨w, (sortEntries (base ++ own)).map fun e => (e.1, tree e.2), infos.map tree,
    own.map fun e => (e.1, tree e.2), hw, ?_, ?_, ?_, by simp [i2], ?_, ?_, ?_, ?_, i5⟩
  · show WFits (.obj _)
    rw [WFits, Json.membersFit_iff]
    intro e he
    simp only [List.mem_cons, List.not_mem_nil, or_false] at he
    rcases he with rfl | rfl | rfl
    · exact str_fits _
    · exact geometry_fits r
    · rw [WFits, Json.membersFit_iff]
      exact fun e he => (hall e (hs.mem_iff.mp he)).1
  · show (WVal.obj _).text.isSome = true
    rw [Json.obj_writes]
    intro e he
    simp only [List.mem_cons, List.not_mem_nil, or_false] at he
    rcases he with rfl | rfl | rfl
    · rfl
    · exact hgt
    · rw [Json.obj_writes]
      exact fun e he => (hall e (hs.mem_iff.mp he)).2
  · have hg := read_geometry r hne
    show readFeature (tree (.obj _)) = _
    rw [tree_obj _ (by simp)]
    simp only [List.map_cons, List.map_nil, tree_obj _ hsn]
    simp [readFeature, GMap.get?, readText, tree, hg, readFeatureProps]
  · simpa [List.map_map, Function.comp_def] using hko
  · unfold GMap.toPMap
    rw [List.map_map, ← C44.contents_route, ← w3]
    rfl
  · refine (hs.map _).trans (List.Perm.of_eq ?_)
    rw [List.map_append]
    simp only [base, List.map_cons, List.map_nil, tree, Json.trees_eq]
    rfl
  · simpa [List.map_map, Function.comp_def] using hsn

/-- All features of a document. -/
theorem features_ok (rs : List (Route F)) (h : ∀ r ∈ rs, PlainRoute r ∧ (∀ e ∈ contents r.props, ¬ Reserved e.1) ∧
    KeysUnique r.props ∧ (∀ t ∈ r.tracks, KeysUnique t.props) ∧ r.tracks ≠ []) :
    ∃ ws fs, rs.mapM Route.featureW = some ws ∧ (∀ w ∈ ws, WFits w) ∧ (∀ w ∈ ws, w.text.isSome = true) ∧
      (ws.map tree).mapM readFeature = some fs ∧
      List.Forall₂ (fun r f => ∃ props infos own, f = some ⟨"Feature", some props, some r.geometry⟩ ∧
      infos.length = r.tracks.length ∧ (own.map (·.1)).Nodup ∧
      GMap.toPMap own = (contents r.props).map (fun e => (e.1, viaJson e.2)) ∧
      props.Perm ([("routeID", .str r.id), ("color", .str r.color), ("name", .str r.name),
        ("numTracks", .num (lit r.tracks.length)), ("tracksInfo", .arr infos), ("distance", .num r.dist),
        ("units", .str "meters")] ++ own) ∧ (props.map (·.1)).Nodup ∧
      ∀ t₀, r.tracks.head? = some t₀ → ∃ g rest, infos.map TrackInfo.read = ⟨t₀.id, t₀.color, g⟩ :: rest ∧
        (g.map (·.1)).Nodup ∧ g.toPMap.Perm ((contents t₀.props).map fun e => (e.1, viaJson e.2))) rs fs := by
  induction rs with
  | nil => exact ⟨[], [], rfl, nofun, nofun, rfl, .nil⟩
  | cons r rs ih =>
    obtain ⟨ws, fs, h1, h2, h3, h4, h5⟩ := ih fun x hx => h x (List.mem_cons_of_mem _ hx)
    obtain ⟨a1, a2, a3, a4, a5⟩ := h r List.mem_cons_self
    obtain ⟨w, props, infos, own, b1, b2, b3, b4, b5⟩ := feature_ok r a1 a2 a3 a4 a5
    refine ⟨w :: ws, _ :: fs, ?_, List.forall_mem_cons.mpr ⟨b2, h2⟩, List.forall_mem_cons.mpr ⟨b3, h3⟩, ?_,
      .cons ⟨props, infos, own, rfl, b5⟩ h5⟩
    · rw [List.mapM_cons, b1, h1]; rfl
    · rw [List.map_cons, List.mapM_cons, b4, h4]; rfl

/-- A document is read as its features. -/
theorem collection_ok (rs : List (Route F)) (hne : rs ≠ []) (ws : List (WVal F)) (fs : List (Option (Feature F)))
    (h1 : (rs.filter fun r => !r.tracks.isEmpty).mapM Route.featureW = some ws) (h2 : ∀ w ∈ ws, WFits w)
    (h3 : ∀ w ∈ ws, w.text.isSome = true) (h4 : (ws.map tree).mapM readFeature = some fs) :
    ∃ bs, geoEncodeText rs = .ok bs ∧ readGeo bs = some (some fs) := by
  let w : WVal F := .obj [("features", .arr ws), ("type", .str "FeatureCollection")]
  have hc : collectionW rs = some w := by
    simp only [collectionW, h1]
    rfl
  have hw : w.text.isSome = true := by
    show (WVal.obj _).text.isSome = true
    rw [Json.obj_writes]
    simp only [List.forall_mem_cons, List.not_mem_nil, false_imp_iff, implies_true, and_true, Json.arr_writes]
    exact ⟨h3, rfl⟩
  have hf : WFits w := by
    show WFits (.obj _)
    rw [WFits, Json.membersFit_iff]
    simp only [List.forall_mem_cons, List.not_mem_nil, false_imp_iff, implies_true, and_true]
    rw [WFits, WFits, Json.allFit_iff]
    exact ⟨h2, trivial⟩
  obtain ⟨cs, hcs⟩ := Option.isSome_iff_exists.mp hw
  have hr := Json.readJson_text w hf cs hcs
  have hl : ¬ rs.length = 0 := fun hc => hne (List.length_eq_zero_iff.mp hc)
  refine ⟨utf8 (String.ofList cs), ?_, ?_⟩
  · simp only [geoEncodeText, if_neg hl, hc, Option.bind_some, hcs]
  · unfold readGeo
    rw [utf8_valid]
    simp only [String.toList_ofList, Option.bind_eq_bind, Option.bind_some, hr]
    show readCollection (tree (.obj _)) = _
    rw [tree_obj _ (by simp)]
    simp only [List.map_cons, List.map_nil, tree_arr]
    simp only [tree]
    simp [readCollection, GMap.get?, readText, readSlice, h4]

end

/-- A route that `Encode` can write and whose feature keeps the encoder's own properties. -/
structure Encodable [GoFloat F] [JsonFloat F] (r : Route F) : Prop where
  plain : PlainRoute r
  reserved : ∀ e ∈ contents r.props, ¬ Reserved e.1
  ids : ∀ t ∈ r.tracks, t.id ≠ ""

theorem features_of [GoMath F] [JsonFloat F] (rs : List (Route F)) (h : ∀ r ∈ rs, ApiRoute r ∧ Encodable r) :
    ∀ r ∈ rs.filter (fun r => !r.tracks.isEmpty), PlainRoute r ∧ (∀ e ∈ contents r.props, ¬ Reserved e.1) ∧
    KeysUnique r.props ∧ (∀ t ∈ r.tracks, KeysUnique t.props) ∧ r.tracks ≠ [] := by
  intro r hr
  rw [List.mem_filter] at hr
  obtain ⟨a, b⟩ := h r hr.1
  have ⟨_, k1, k2⟩ := C21.api_route a
  exact ⟨b.plain, b.reserved, k1, k2, by simpa using hr.2⟩

/-- **C86, reading the document.** `ParseFeatureCollection` of what `Encode` writes gives one feature for each route with
tracks, with its geometry and its properties. -/
theorem collection_read [GoMath F] [JsonFloat F] (rs : List (Route F)) (hne : rs ≠ [])
    (h : ∀ r ∈ rs, ApiRoute r ∧ Encodable r) :
    ∃ bs fs, geoEncodeText rs = .ok bs ∧ parseFeatureCollection bs = some fs ∧
      List.Forall₂ FeatureOf (rs.filter fun r => !r.tracks.isEmpty) fs := by
  obtain ⟨ws, fs, h1, h2, h3, h4, h5⟩ := features_ok _ (features_of rs h)
  obtain ⟨bs, b1, b2⟩ := collection_ok rs hne ws fs h1 h2 h3 h4
  refine ⟨bs, fs, b1, by unfold parseFeatureCollection; rw [b2]; rfl, h5.imp ?_⟩
  rintro r f ⟨props, infos, own, rfl, c1, c2, c3, c4, c5, -⟩
  have c6 := (c4.map (·.1)).nodup_iff.mp c5
  refine ⟨props, infos, rfl, ?_, ?_, ?_, ?_, ?_, ?_, ?_, c1, ?_⟩
  all_goals try (rw [Json.gget_perm c4 c6]; rfl)
  intro e he
  have : (e.1, viaJson e.2) ∈ GMap.toPMap own := by rw [c3]; exact List.mem_map.mpr ⟨e, he, rfl⟩
  obtain ⟨x, hx, hxe⟩ := List.mem_map.mp this
  obtain ⟨hk, hv⟩ := Prod.mk.inj hxe
  refine ⟨x.2, ?_, hv⟩
  rw [← hk, Json.gget_mem c5, c4.mem_iff]
  exact List.mem_append_right _ hx

/-- Decoding a feature whose properties are in any order. -/
theorem feature_back [GoMath F] (gen : Nat → String × String) (r : Route F) (hr : ApiRoute r)
    (hids : ∀ t ∈ r.tracks, t.id ≠ "") (hres : ∀ e ∈ contents r.props, ¬ Reserved e.1)
    (props : GMap F) (infos : List (GVal F)) (own : GMap F) (hne : r.tracks ≠ [])
    (hlen : infos.length = r.tracks.length) (hown : (own.map (·.1)).Nodup)
    (hownp : own.toPMap = (contents r.props).map (fun e => (e.1, viaJson e.2)))
    (hp : props.Perm ([("routeID", .str r.id), ("color", .str r.color), ("name", .str r.name),
        ("numTracks", .num (lit r.tracks.length)), ("tracksInfo", .arr infos), ("distance", .num r.dist),
        ("units", .str "meters")] ++ own)) (hnd : (props.map (·.1)).Nodup)
    (hinf : ∀ t₀, r.tracks.head? = some t₀ → ∃ g rest, infos.map TrackInfo.read = ⟨t₀.id, t₀.color, g⟩ :: rest ∧
        (g.map (·.1)).Nodup ∧ g.toPMap.Perm ((contents t₀.props).map fun e => (e.1, viaJson e.2))) :
    ∃ r', decodeFeature gen (some ⟨"Feature", some props, some r.geometry⟩) = .ok (.ok (some r')) ∧ Back r r' := by
  have ⟨hname, _, _⟩ := C21.api_route hr
  have hapi := C44.api_tracks hr
  obtain ⟨t₀, ts, hts⟩ : ∃ t₀ ts, r.tracks = t₀ :: ts := by
    cases h : r.tracks with
    | nil => exact absurd h hne
    | cons a b => exact ⟨a, b, rfl⟩
  have hhead : r.tracks.head? = some t₀ := by rw [hts]; rfl
  have hm0 : t₀ ∈ r.tracks := by rw [hts]; simp
  obtain ⟨g, rest, hread, hgn, hgp⟩ := hinf t₀ hhead
  have hnd' := (hp.map (·.1)).nodup_iff.mp hnd
  have hget := Json.gget_perm hp hnd'
  have hro : ∀ e ∈ own, ¬ Reserved e.1 := by
    intro e he
    have : (e.1, e.2.toPVal) ∈ own.toPMap := List.mem_map.mpr ⟨e, he, rfl⟩
    rw [hownp] at this
    obtain ⟨x, hx, hxe⟩ := List.mem_map.mp this
    rw [← (Prod.mk.inj hxe).1]
    exact hres x hx
  have hreset : (resetProps props).Perm own := by
    rw [resetProps_eq]
    refine (hp.filter _).trans ?_
    rw [List.filter_append]
    have h2 : own.filter (fun e => !reservedKeys.contains e.1) = own := by
      rw [List.filter_eq_self]
      intro e he
      have := hro e he
      simp only [Reserved, not_or] at this
      obtain ⟨a1, a2, a3, a4, a5, a6, a7⟩ := this
      simp [reservedKeys, a1, a2, a3, a4, a5, a6, a7]
    rw [h2]
    refine List.Perm.of_eq ?_
    simp [reservedKeys]
  have hsub : (resetProps props).toPMap.Perm own.toPMap := hreset.map _
  have hpn : ((resetProps props).toPMap.map (·.1)).Nodup := by
    have : (resetProps props).toPMap.map (·.1) = (resetProps props).map (·.1) := by
      simp [GMap.toPMap, List.map_map, Function.comp_def]
    rw [this]
    exact (hreset.map _).nodup_iff.mpr hown
  have hex : routeExists props = true := by
    unfold routeExists
    rw [hget, hget]; rfl
  have hti : props.get? "tracksInfo" = some (.arr infos) := by rw [hget]; rfl
  have hid : props.getString "routeID" = r.id := by unfold GMap.getString; rw [hget]; rfl
  have hco : props.getString "color" = r.color := by unfold GMap.getString; rw [hget]; rfl
  have hna : props.getString "name" = r.name := by unfold GMap.getString; rw [hget]; rfl
  let q : Route F := Route.restore r.id r.color (some (resetProps props).toPMap)
  let q1 : Route F := if goLen r.name > 0 then (q.changeName r.name).1 else q
  obtain ⟨n1, n2, n3, n4, n5⟩ := C44.name_kept r hname q rfl
  have hrr : restoreRoute props = .ok (q1, infos.map TrackInfo.read) := by
    simp only [restoreRoute, hti, hid, hco, hna]
    rfl
  have hpp : parseProperties q1 (resetProps props).toPMap = q1 := by
    have h4 : q1.props = some (resetProps props).toPMap := n4
    unfold parseProperties Route.propsOf
    rw [h4]
    simp only [merge_self _ hpn]
    rw [← h4]
  have hgeom : parseGeometries gen q1 (some (infos.map TrackInfo.read)) (some r.geometry) =
      .ok (.ok (r.tracks.foldl (fun r t => r.addTrack (some (C44.relabel ⟨t₀.id, t₀.color, g⟩ t))) q1)) := by
    have hfp0 := api_from_points (hapi t₀ hm0)
    have hid0 := hids t₀ hm0
    have hlen' : ((⟨t₀.id, t₀.color, g⟩ : TrackInfo F) :: rest).length = r.tracks.length := by
      rw [← hread, List.length_map, hlen]
    cases ts with
    | nil =>
      have hl : ((⟨t₀.id, t₀.color, g⟩ : TrackInfo F) :: rest).length = 1 := by rw [hlen', hts]; rfl
      have hgm : r.geometry = .single t₀.geom := by simp only [Route.geometry, hts]; rfl
      simp only [hgm, parseGeometries, Option.map_some, Option.getD_some, hread, hl, ne_eq,
        not_true_eq_false, if_false, hts]
      exact C44.parse_track gen q1 ⟨t₀.id, t₀.color, g⟩ rest t₀ hfp0 hid0
    | cons t1 ts =>
      have hgm : r.geometry = .collection (r.tracks.map Track.geom) := by simp only [Route.geometry, hts]; rfl
      simp only [hgm, parseGeometries, Option.map_some, Option.getD_some, List.length_map, hread, hlen', ne_eq,
        not_true_eq_false, if_false]
      exact C44.parse_tracks gen ⟨t₀.id, t₀.color, g⟩ rest hid0 r.tracks (fun t ht => api_from_points (hapi t ht)) q1
  refine ⟨r.tracks.foldl (fun r t => r.addTrack (some (C44.relabel ⟨t₀.id, t₀.color, g⟩ t))) q1, ?_, ?_⟩
  · simp only [decodeFeature, ne_eq, not_true_eq_false, if_false, hex, if_true, hrr, hpp, hgeom]
    rfl
  · obtain ⟨a1, a2, a3, a4, a5⟩ := C44.add_tracks (C44.relabel ⟨t₀.id, t₀.color, g⟩) r.tracks q1
    refine ⟨t₀, (resetProps props).toPMap, g.toPMap, hhead, hownp ▸ hsub, hgp, by rw [a1]; exact n2, by rw [a2]; exact n3,
      by rw [a3]; exact n1, by rw [a4]; exact n4, ?_⟩
    rw [a5, show q1.tracks = [] from n5, List.nil_append]
    apply List.map_congr_left
    intro t _
    have hk0 : (g.toPMap.map (·.1)).Nodup := by
      have : g.toPMap.map (·.1) = g.map (·.1) := by
        simp [GMap.toPMap, List.map_map, Function.comp_def]
      rw [this]; exact hgn
    simp only [C44.relabel]
    rw [merge_make _ hk0]

/-- **C86, through the text.** Routes that can be written come back from the bytes that `Encode` returns: id, colour, name,
properties with integers turned into floats, and all tracks in order with their points; as in C44 every track carries the
id, colour and properties of the first one and no name, and routes without tracks disappear. -/
theorem routes_through_text [GoMath F] [JsonFloat F] (gen : Nat → Nat → String × String) (rs : List (Route F))
    (hne : rs ≠ []) (h : ∀ r ∈ rs, ApiRoute r ∧ Encodable r) :
    ∃ bs rs', geoEncodeText rs = .ok bs ∧ geoDecodeText gen bs = .ok (some rs') ∧
      List.Forall₂ Back (rs.filter fun r => !r.tracks.isEmpty) rs' := by
  obtain ⟨ws, fs, h1, h2, h3, h4, h5⟩ := features_ok _ (features_of rs h)
  obtain ⟨bs, b1, b2⟩ := collection_ok rs hne ws fs h1 h2 h3 h4
  have hmem : ∀ r ∈ rs.filter (fun r => !r.tracks.isEmpty), ApiRoute r ∧ Encodable r ∧ r.tracks ≠ [] := by
    intro r hr
    rw [List.mem_filter] at hr
    obtain ⟨a, b⟩ := h r hr.1
    exact ⟨a, b, by simpa using hr.2⟩
  have key : ∀ i, ∃ rs', decodeFeatures gen i fs = .ok (.ok rs') ∧
      List.Forall₂ Back (rs.filter fun r => !r.tracks.isEmpty) rs' := by
    clear b1 b2 h1 h4
    revert h5 hmem
    generalize rs.filter (fun r => !r.tracks.isEmpty) = l
    intro h5 hmem
    induction h5 with
    | nil => exact fun i => ⟨[], rfl, .nil⟩
    | cons hc _ ih =>
      rename_i r f l l' _
      intro i
      obtain ⟨rs', d1, d2⟩ := ih (fun x hx => hmem x (List.mem_cons_of_mem _ hx)) (i + 1)
      obtain ⟨props, infos, own, rfl, c1, c2, c3, c4, c5, c6⟩ := hc
      obtain ⟨a, b, c⟩ := hmem r List.mem_cons_self
      obtain ⟨r', e1, e2⟩ := feature_back (gen i) r a b.ids b.reserved props infos own c c1 c2 c3 c4 c5 c6
      refine ⟨r' :: rs', ?_, .cons e2 d2⟩
      simp only [decodeFeatures, e1, d1]
      rfl
  obtain ⟨rs', d1, d2⟩ := key 0
  refine ⟨bs, rs', b1, ?_, d2⟩
  unfold geoDecodeText
  rw [b2]
  simp only [geoDecode, d1]
  rfl

/-! ## The document -/

section
variable [GoFloat F] [JsonFloat F]

theorem mapM_mem {α β : Type} (f : α → Option β) (l : List α) (ys : List β) (h : l.mapM f = some ys) (x : α)
    (hx : x ∈ l) : ∃ y ∈ ys, f x = some y := by
  induction l generalizing ys with
  | nil => cases hx
  | cons a l ih =>
    rw [List.mapM_cons] at h
    cases ha : f a with
    | none => rw [ha] at h; cases h
    | some b =>
      cases hl : l.mapM f with
      | none => rw [ha, hl] at h; cases h
      | some bs =>
        rw [ha, hl] at h
        cases h
        rcases List.mem_cons.mp hx with rfl | hx
        · exact ⟨b, List.mem_cons_self, ha⟩
        · obtain ⟨y, hy, e⟩ := ih bs hl hx
          exact ⟨y, List.mem_cons_of_mem _ hy, e⟩

theorem mapM_forall {α β : Type} (f : α → Option β) (l : List α) (ys : List β) (h : l.mapM f = some ys) :
    List.Forall₂ (fun x y => f x = some y) l ys := by
  induction l generalizing ys with
  | nil => cases h; exact .nil
  | cons a l ih =>
    rw [List.mapM_cons] at h
    cases ha : f a with
    | none => rw [ha] at h; cases h
    | some b =>
      cases hl : l.mapM f with
      | none => rw [ha, hl] at h; cases h
      | some bs =>
        rw [ha, hl] at h
        cases h
        exact .cons ha (ih bs hl)

theorem more_close (m : List (String × WVal F)) (b : List Char) (h : WVal.membersText m = some b) :
    ∃ p, b = p ++ ['}'] := by
  induction m generalizing b with
  | nil => cases h; exact ⟨[], rfl⟩
  | cons e m ih =>
    obtain ⟨k, v⟩ := e
    rw [WVal.membersText] at h
    split at h
    · rename_i a b _ hb
      cases h
      obtain ⟨p, rfl⟩ := ih _ hb
      exact ⟨',' :: (jsonString k ++ ':' :: (a ++ p)), by simp⟩
    · cases h

theorem obj_close (m : List (String × WVal F)) (b : List Char) (h : (WVal.obj m).text = some b) :
    ∃ p, b = '{' :: (p ++ ['}']) := by
  cases m with
  | nil => cases h; exact ⟨[], rfl⟩
  | cons e m =>
    obtain ⟨k, v⟩ := e
    rw [WVal.text] at h
    split at h
    · rename_i a b _ hb
      cases h
      obtain ⟨p, rfl⟩ := more_close _ _ hb
      exact ⟨jsonString k ++ ':' :: (a ++ p), by simp⟩
    · cases h

/-- A GeoJSON feature with the geometry of the route (RFC 7946, 3.2). -/
def IsFeature (r : Route F) (s : List Char) : Prop :=
  ∃ g p, routeGeometry r = some g ∧
    s = "{\"type\":\"Feature\",\"geometry\":".toList ++ g ++ ",\"properties\":{".toList ++ p ++ "}}".toList

/-- **C86, the document.** What `Encode` returns is a GeoJSON FeatureCollection (RFC 7946, 3.3) with one feature for each
route with tracks. -/
theorem document_text (rs : List (Route F)) (bs : Bytes) (h : geoEncodeText rs = .ok bs) :
    ∃ fs, bs = utf8 (String.ofList ("{\"features\":[".toList ++ commas fs ++ "],\"type\":\"FeatureCollection\"}".toList)) ∧
      List.Forall₂ IsFeature (rs.filter fun r => !r.tracks.isEmpty) fs := by
  unfold geoEncodeText at h
  split at h
  · cases h
  split at h
  · cases h
  rename_i cs hcs
  cases h
  unfold collectionW at hcs
  cases hw : (rs.filter fun r => !r.tracks.isEmpty).mapM Route.featureW with
  | none => rw [hw] at hcs; cases hcs
  | some ws =>
    rw [hw] at hcs
    replace hcs : (WVal.obj [("features", .arr ws), ("type", .str "FeatureCollection")]).text = some cs := hcs
    rw [two_text, arr_text, WVal.text] at hcs
    cases hf : ws.mapM WVal.text with
    | none => rw [hf] at hcs; cases hcs
    | some fs =>
      rw [hf] at hcs
      refine ⟨fs, ?_, ?_⟩
      · have e1 : "{\"features\":[".toList = '{' :: (jsonString "features" ++ [':', '[']) := by decide
        have e2 : "],\"type\":\"FeatureCollection\"}".toList = ']' :: ',' :: (jsonString "type" ++ ':' ::
          (jsonString "FeatureCollection" ++ ['}'])) := by decide
        rw [e1, e2]
        congr 2
        have := Option.some.inj hcs
        rw [← this]
        simp
      · have h1 := mapM_forall _ _ _ hw
        have h2 := mapM_forall _ _ _ hf
        clear hw hf hcs
        revert h1
        generalize rs.filter (fun r => !r.tracks.isEmpty) = l
        intro h1
        induction h1 generalizing fs with
        | nil => cases h2; exact .nil
        | cons ha _ ih =>
          rename_i r w l l' _
          cases h2 with
          | cons hb hl =>
            rename_i f fs
            refine .cons ?_ (ih fs hl)
            unfold Route.featureW at ha
            cases hp : r.propsW with
            | none => rw [hp] at ha; cases ha
            | some props =>
              rw [hp] at ha
              replace ha : some (WVal.obj [("type", .str "Feature"), ("geometry", r.geometryW),
                ("properties", .obj (sortEntries props))]) = some w := ha
              cases ha
              rw [three_text, route_geometry_text] at hb
              cases hg : routeGeometry r with
              | none => rw [hg, WVal.text] at hb; cases hb
              | some g =>
                cases ho : (WVal.obj (sortEntries props)).text with
                | none => rw [hg, ho, WVal.text] at hb; cases hb
                | some o =>
                  rw [hg, ho, WVal.text] at hb
                  obtain ⟨p, rfl⟩ := obj_close _ _ ho
                  refine ⟨g, p, hg, ?_⟩
                  have e1 : "{\"type\":\"Feature\",\"geometry\":".toList = '{' :: (jsonString "type" ++ ':' ::
                    (jsonString "Feature" ++ ',' :: (jsonString "geometry" ++ [':']))) := by decide
                  have e2 : ",\"properties\":{".toList = ',' :: (jsonString "properties" ++ [':', '{']) := by decide
                  have e3 : "}}".toList = ['}', '}'] := rfl
                  rw [e1, e2, e3, ← Option.some.inj hb]
                  simp

/-- A property value with a JSON form. -/
def HasForm (v : PVal F) : Prop := (∀ n, v ≠ .other n) ∧ ∀ f, v = .float f → Written f

/-- Everything that is written of a route has a JSON form. -/
structure Sound (r : Route F) : Prop where
  coords : ∀ t ∈ r.tracks, ∀ p ∈ Track.points t.segments, Written p.lon ∧ Written p.lat
  dist : Written r.dist
  props : ∀ e ∈ contents r.props, HasForm e.2
  lengths : ∀ t ∈ r.tracks, Written t.dist
  trackProps : ∀ t ∈ r.tracks, ∀ e ∈ contents t.props, HasForm e.2

theorem toW_mem (m : PMap F) (w : List (String × WVal F)) (h : m.toW = some w) : w.map (·.1) = m.map (·.1) ∧
    ∀ e ∈ m, ∃ v, e.2.toW = some v ∧ (e.1, v) ∈ w := by
  induction m generalizing w with
  | nil => cases h; exact ⟨rfl, nofun⟩
  | cons e m ih =>
    unfold PMap.toW at h ih
    rw [List.mapM_cons] at h
    cases hv : e.2.toW with
    | none => rw [hv] at h; cases h
    | some v =>
      cases hm : m.mapM fun e => e.2.toW.map fun v => (e.1, v) with
      | none => rw [hv, hm] at h; cases h
      | some w' =>
        rw [hv, hm] at h
        cases h
        obtain ⟨a, b⟩ := ih w' hm
        refine ⟨by simp [a], List.forall_mem_cons.mpr ⟨⟨v, hv, List.mem_cons_self⟩, ?_⟩⟩
        intro x hx
        obtain ⟨y, y1, y2⟩ := b x hx
        exact ⟨y, y1, List.mem_cons_of_mem _ y2⟩

theorem form_of {v : PVal F} {w : WVal F} (h : v.toW = some w) (hw : w.text.isSome = true) : HasForm v := by
  constructor
  · rintro n rfl; cases h
  · rintro f rfl
    cases h
    rw [Json.num_writes] at hw
    exact (written_iff f).mpr hw

theorem sound_of (r : Route F) (w : WVal F) (h : r.featureW = some w) (hw : w.text.isSome = true)
    (hku : KeysUnique r.props) (hres : ∀ e ∈ contents r.props, ¬ Reserved e.1) : Sound r := by
  unfold Route.featureW at h
  cases hp : r.propsW with
  | none => rw [hp] at h; cases h
  | some props =>
    rw [hp] at h
    replace h : some (WVal.obj [("type", .str "Feature"), ("geometry", r.geometryW),
      ("properties", .obj (sortEntries props))]) = some w := h
    cases h
    rw [Json.obj_writes] at hw
    simp only [List.forall_mem_cons, List.not_mem_nil, false_imp_iff, implies_true, and_true, Json.obj_writes] at hw
    obtain ⟨-, hg, hs⟩ := hw
    have hs : ∀ e ∈ props, e.2.text.isSome = true := fun e he => hs e ((Json.sort_perm props).mem_iff.mpr he)
    unfold Route.propsW at hp
    cases hi : r.tracks.mapM Track.infoW with
    | none => rw [hi] at hp; cases hp
    | some infos =>
      cases ho : r.propsOf.2.toW with
      | none => rw [hi, ho] at hp; cases hp
      | some own =>
        rw [hi, ho] at hp
        obtain ⟨o1, o2⟩ := toW_mem _ _ ho
        rw [C44.contents_route] at o1 o2
        have hko : (own.map (·.1)).Nodup := by rw [o1]; exact C44.keys_of hku
        have hro : ∀ e ∈ own, ¬ Reserved e.1 := by
          intro e he
          have : e.1 ∈ own.map (·.1) := List.mem_map_of_mem he
          rw [o1, List.mem_map] at this
          obtain ⟨x, hx, hxe⟩ := this
          rw [← hxe]
          exact hres x hx
        let base : List (String × WVal F) := [("routeID", .str r.id), ("color", .str r.color), ("name", .str r.name),
          ("numTracks", .int r.numTracks), ("tracksInfo", .arr infos), ("distance", .num r.dist), ("units", .str "meters")]
        have hnd : ((base ++ own).map (·.1)).Nodup := by
          rw [List.map_append, List.nodup_append]
          have hb : base.map (·.1) = ["routeID", "color", "name", "numTracks", "tracksInfo", "distance", "units"] := rfl
          refine ⟨by rw [hb]; decide, hko, ?_⟩
          intro a ha b hb hab
          subst hab
          obtain ⟨e, he, rfl⟩ := List.mem_map.mp hb
          have := hro e he
          simp only [Reserved, not_or] at this
          simp only [base, List.map_cons, List.map_nil, List.mem_cons, List.not_mem_nil, or_false] at ha
          rcases ha with h | h | h | h | h | h | h <;> rw [h] at this <;> simp at this
        replace hp : some (own.foldl (fun m e => setEntry m e.1 e.2) base) = some props := hp
        rw [Json.setEntry_fold own base hnd] at hp
        cases hp
        have hinfo : ∀ t ∈ r.tracks, Written t.dist ∧ ∀ e ∈ contents t.props, HasForm e.2 := by
          intro t ht
          obtain ⟨v, hv, hvi⟩ := mapM_mem _ _ _ hi t ht
          have hvt : v.text.isSome = true := by
            have := hs ("tracksInfo", .arr infos) (List.mem_append_left _ (by simp [base]))
            rw [Json.arr_writes] at this
            exact this v hv
          unfold Track.infoW at hvi
          cases hpt : t.propsOf.2.toW with
          | none => rw [hpt] at hvi; cases hvi
          | some tp =>
            rw [hpt] at hvi
            obtain rfl := Option.some.inj hvi
            rw [Json.obj_writes] at hvt
            simp only [List.forall_mem_cons, List.not_mem_nil, false_imp_iff, implies_true, and_true, Json.obj_writes] at hvt
            obtain ⟨-, -, -, hd, -, hpp⟩ := hvt
            refine ⟨(written_iff _).mpr ((Json.num_writes _).mp hd), ?_⟩
            intro e he
            obtain ⟨-, q2⟩ := toW_mem _ _ hpt
            rw [C44.contents_track] at q2
            obtain ⟨x, x1, x2⟩ := q2 e he
            exact form_of x1 (hpp _ ((Json.sort_perm tp).mem_iff.mpr x2))
        refine ⟨(geometry_writes r).mp hg, ?_, ?_, fun t ht => (hinfo t ht).1, fun t ht => (hinfo t ht).2⟩
        · have := hs ("distance", .num r.dist) (List.mem_append_left _ (by simp [base]))
          exact (written_iff _).mpr ((Json.num_writes _).mp this)
        · intro e he
          obtain ⟨x, x1, x2⟩ := o2 e he
          exact form_of x1 (hs _ (List.mem_append_right _ x2))

end

/-- **C86, limit.** One coordinate, length or property of one route without a JSON form (NaN, an infinity, a channel), and
`Encode` returns an error instead of the document. -/
theorem unwritable_fails [GoMath F] [JsonFloat F] (rs : List (Route F)) (r : Route F) (hr : r ∈ rs) (ha : ApiRoute r)
    (hne : r.tracks ≠ []) (hres : ∀ e ∈ contents r.props, ¬ Reserved e.1) (h : ¬ Sound r) :
    geoEncodeText rs = .error .marshalFailed := by
  unfold geoEncodeText
  have hl : ¬ rs.length = 0 := fun hc => by
    rw [List.length_eq_zero_iff.mp hc] at hr; cases hr
  rw [if_neg hl]
  cases hb : (collectionW rs).bind WVal.text with
  | none => rfl
  | some cs =>
    exfalso
    apply h
    unfold collectionW at hb
    cases hw : (rs.filter fun r => !r.tracks.isEmpty).mapM Route.featureW with
    | none => rw [hw] at hb; cases hb
    | some ws =>
      rw [hw] at hb
      replace hb : (WVal.obj [("features", .arr ws), ("type", .str "FeatureCollection")]).text = some cs := hb
      have hs : (WVal.obj [("features", .arr ws), ("type", .str "FeatureCollection")]).text.isSome = true := by rw [hb]; rfl
      rw [Json.obj_writes] at hs
      simp only [List.forall_mem_cons, List.not_mem_nil, false_imp_iff, implies_true, and_true, Json.arr_writes] at hs
      obtain ⟨w, w1, w2⟩ := mapM_mem _ _ _ hw r (List.mem_filter.mpr ⟨hr, by simpa using hne⟩)
      exact sound_of r w w2 (hs.1 w w1) (C21.api_route ha).2.1 hres

/-! ## Doubles -/

/-- The doubles with a decimal form are the finite ones. -/
theorem written_double (x : F64) : Written x ↔ x ≠ .nan ∧ ∀ s, x ≠ .inf s := by
  have h := F64.toLit_none x
  rw [written_iff]
  show (F64.toLit x).isSome = true ↔ _
  constructor
  · intro hs
    refine ⟨fun e => ?_, fun s e => ?_⟩
    · rw [h.mpr (Or.inl e)] at hs; cases hs
    · rw [h.mpr (Or.inr ⟨s, e⟩)] at hs; cases hs
  · rintro ⟨h1, h2⟩
    cases hl : F64.toLit x with
    | some l => rfl
    | none =>
      rcases h.mp hl with e | ⟨s, e⟩
      · exact absurd e h1
      · exact absurd e (h2 s)

/-- A point in Maine. -/
def maine : LatLon F64 := ⟨lit (44008 / 1000), lit (-66125 / 1000)⟩

/-- The point opposite to it. -/
def opposite : LatLon F64 := ⟨lit (-44008 / 1000), lit (113875 / 1000)⟩

/-- **C86, in doubles.** With Go's sine and cosine, a track between two opposite points of the Earth is accepted by
`NewTrack` but cannot be encoded: its length is NaN (C83). -/
theorem antipodal_route [F64.MathLib] (G : C83.GoLibrary) (id color rid rcolor : String) :
    ∃ t, Track.new id color [maine, opposite] = .ok t ∧
      geoEncodeText [(Route.new rid rcolor).addTrack (some t)] = .error .marshalFailed := by
  let t : Track F64 := ⟨id, [⟨maine, opposite, distance maine.lat maine.lon opposite.lat opposite.lon,
    bearing maine.lat maine.lon opposite.lat opposite.lon, 0, -1⟩], color, "", none,
    lit 0 +. distance maine.lat maine.lon opposite.lat opposite.lon, false, 0⟩
  have ht : Track.new id color [maine, opposite] = .ok t := rfl
  have hd : t.dist = .nan := by
    show lit 0 +. distance maine.lat maine.lon opposite.lat opposite.lon = _
    rw [show distance maine.lat maine.lon opposite.lat opposite.lon = .nan from C83.antipode_nan G]
    generalize (lit 0 : F64) = x
    cases x <;> rfl
  refine ⟨t, ht, ?_⟩
  refine unwritable_fails _ _ (List.mem_singleton.mpr rfl) (.addTrack (.new rid rcolor) (.new ht)) ?_ nofun ?_
  · exact List.cons_ne_nil _ _
  · intro h
    have := h.lengths t (List.mem_singleton.mpr rfl)
    rw [written_double, hd] at this
    exact this.1 rfl

/-! Examples. -/

/-- The double nearest to a fraction. -/
def dbl (q : Rat) : F64 := F64.round false q

/-- An open and a closed track. -/
def exLine : Track F64 := ⟨"t1", [⟨⟨dbl 1, dbl 2⟩, ⟨dbl (3 / 2), dbl (-5 / 2)⟩, dbl 7, dbl 0, 0, -1⟩], "#000000", "", none, dbl 7, false, 0⟩

def exRing : Track F64 := ⟨"t2", [⟨⟨dbl 1, dbl 2⟩, ⟨dbl 3, dbl 4⟩, dbl 1, dbl 0, 0, 0⟩,
  ⟨⟨dbl 3, dbl 4⟩, ⟨dbl 1, dbl 2⟩, dbl 1, dbl 0, 1, 0⟩], "#000000", "", some [("x", .int 3)], dbl 2, true, 0⟩

/-- A route with both. -/
def exRoute : Route F64 := ⟨"r1", dbl 9, "#ffffff", "A&B", [exLine, exRing], some [("a", .int 1)], 0⟩

/-- Longitude comes first. -/
example : geometry exLine = some "{\"type\":\"LineString\",\"coordinates\":[[2e+0,1e+0],[-25e-1,15e-1]]}".toList := by decide +kernel

example : exRing.geomW.text = some "{\"type\":\"Polygon\",\"coordinates\":[[[2e+0,1e+0],[4e+0,3e+0],[2e+0,1e+0]]]}".toList := by decide +kernel

/-- The text of a document. -/
def encoded (rs : List (Route F64)) : Option String := ((collectionW rs).bind WVal.text).map String.ofList

example : encoded [exRoute] = some ("{\"features\":[{\"type\":\"Feature\",\"geometry\":{\"type\":\"GeometryCollection\",\"geometries\":[" ++
    "{\"type\":\"LineString\",\"coordinates\":[[2e+0,1e+0],[-25e-1,15e-1]]}," ++
    "{\"type\":\"Polygon\",\"coordinates\":[[[2e+0,1e+0],[4e+0,3e+0],[2e+0,1e+0]]]}]}," ++
    "\"properties\":{\"a\":1,\"color\":\"#ffffff\",\"distance\":9e+0,\"name\":\"A\\u0026B\",\"numTracks\":2,\"routeID\":\"r1\"," ++
    "\"tracksInfo\":[{\"trackID\":\"t1\",\"name\":\"\",\"color\":\"#000000\",\"distance\":7e+0,\"numSegments\":1,\"properties\":{}}," ++
    "{\"trackID\":\"t2\",\"name\":\"\",\"color\":\"#000000\",\"distance\":2e+0,\"numSegments\":2,\"properties\":{\"x\":3}}]," ++
    "\"units\":\"meters\"}}],\"type\":\"FeatureCollection\"}") := by decide +kernel

/-- NaN is refused. -/
example : geoEncodeText [exRoute, { exRoute with dist := .nan }] = .error .marshalFailed := by decide +kernel

/-- The lines of a document, if it consists of lines. -/
def linesOf (s : String) : Option (List (List (LatLon F64))) :=
  (parseFeatureCollection (utf8 s)).map fun fs => fs.filterMap fun f => match f with
    | some ⟨_, _, some (.single (.lineString ps))⟩ => some ps
    | _ => none

/-- Documents of other programs: white space, another order of members, altitudes. -/
example : linesOf (" {\"type\" : \"FeatureCollection\", \"bbox\":[1,2,3,4], \"features\":[ {\"properties\":null,\n\"type\":\"Feature\"," ++
    "\"geometry\":{\"coordinates\":[ [2.0,1,100] ,[-2.5]],\"type\":\"LineString\"}}] }") =
    some [[⟨dbl 1, dbl 2⟩, ⟨dbl 0, dbl (-5 / 2)⟩]] := by decide +kernel

/-- `null` is zero as a number and as a position. -/
example : linesOf "{\"type\":\"FeatureCollection\",\"features\":[{\"type\":\"Feature\",\"geometry\":{\"type\":\"LineString\",\"coordinates\":[[null,1],null]}}]}" =
    some [[⟨dbl 1, dbl 0⟩, ⟨dbl 0, dbl 0⟩]] := by decide +kernel

/-- Every feature has the type `Feature`. -/
example : linesOf "{\"type\":\"FeatureCollection\",\"features\":[{\"type\":\"LineString\",\"geometry\":{\"type\":\"LineString\",\"coordinates\":[[2,1],[3,1]]}}]}" =
    none := by decide +kernel

example : (parseFeatureCollection (F := F64) (utf8 "null")).isNone ∧
    (parseFeatureCollection (F := F64) (utf8 "{\"type\":\"Feature\",\"features\":[]}")).isNone ∧
    (parseFeatureCollection (F := F64) (utf8 "{\"type\":\"FeatureCollection\",\"features\":[{\"type\":\"Feature\",\"geometry\":{\"type\":\"Circle\",\"coordinates\":[]}}]}")).isNone ∧
    (parseFeatureCollection (F := F64) (utf8 "{\"type\":\"FeatureCollection\",\"features\":[}")).isNone ∧
    (parseFeatureCollection (F := F64) (utf8 "{\"type\":\"FeatureCollection\",\"features\":[]}")).isSome := by decide +kernel

example : PlainRoute exRoute := by
  have w : ∀ q : Rat, Written (F64.round false q) ↔ (F64.toLit (F64.round false q)).isSome = true := fun q => written_iff _
  refine ⟨?_, (w _).mpr (by decide +kernel), ?_, by decide⟩
  · intro e he
    simp only [exRoute, contents, Option.getD_some, List.mem_singleton] at he
    subst he
    exact ⟨by decide, by decide⟩
  · intro t ht
    simp only [exRoute, List.mem_cons, List.not_mem_nil, or_false] at ht
    rcases ht with rfl | rfl
    · refine ⟨nofun, (w _).mpr (by decide +kernel), ?_, by decide⟩
      intro p hp
      simp only [exLine, Track.points, List.mem_cons, List.not_mem_nil, or_false] at hp
      rcases hp with rfl | rfl <;> exact ⟨(w _).mpr (by decide +kernel), (w _).mpr (by decide +kernel)⟩
    · refine ⟨?_, (w _).mpr (by decide +kernel), ?_, by decide⟩
      · intro e he
        simp only [exRing, contents, Option.getD_some, List.mem_singleton] at he
        subst he
        exact ⟨by decide, by decide⟩
      · intro p hp
        simp only [exRing, Track.points, List.mem_cons, List.not_mem_nil, or_false] at hp
        rcases hp with rfl | rfl | rfl <;> exact ⟨(w _).mpr (by decide +kernel), (w _).mpr (by decide +kernel)⟩

end C86
end GpsGen
