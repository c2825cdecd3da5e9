import Verif.Theorems.C24
import Verif.Theorems.C44
/-!
# C24, GeoJSON: when `DecodeGeoJSONRoutes` panics

Any number type, any parsed document. The claim is false: the document `null`, a `null` feature, a feature without
geometry, and a restored track without id or with fewer than two points all panic. `decode_returns_partial` lists
enough conditions for a result or an error, `geometry_returns_iff` is exact for one geometry, and what the encoder
produces never panics.
-/

namespace GpsGen
variable {F : Type}

namespace C24
open C21 (ApiTrack ApiRoute)

/-! ## Specification -/

/-- A line or ring has two points at least. -/
def LongEnough : Geom F → Prop
  | .lineString pts => 2 ≤ pts.length
  | .polygon (ring :: _) => 2 ≤ ring.length
  | _ => True

/-- Every line or ring of a geometry has two points at least. -/
def AllLong : Geometry F → Prop
  | .single g => LongEnough g
  | .collection gs => ∀ g ∈ gs, LongEnough g

/-- A JSON object with a non-empty string under `trackID`; of equal keys the first counts. -/
def HasTrackID : GVal F → Prop
  | .obj m => ∃ s, s ≠ "" ∧ m.lookup "trackID" = some (.str s)
  | _ => False

/-- The feature describes routes written by the encoder, with at least one track. -/
def Restores (props : GMap F) (info : GVal F) : Prop :=
  ∃ rest, props.lookup "tracksInfo" = some (.arr (info :: rest))

/-- Features that do not make the decoder panic. -/
def SafeFeature (f : Feature F) : Prop :=
  f.type ≠ "Feature" ∨ ∃ g, f.geometry = some g ∧
    ∀ props info, f.props = some props → Restores props info → HasTrackID info ∧ AllLong g

/-! ## Proof -/

theorem get_lookup (m : GMap F) (k : String) : m.get? k = m.lookup k := by
  induction m with
  | nil => rfl
  | cons e m ih =>
    unfold GMap.get? at ih ⊢
    rw [List.find?_cons, List.lookup_cons]
    by_cases h : e.1 = k
    · subst h; simp
    · have h2 : (k == e.1) = false := by simpa using fun hc => h hc.symm
      have h1 : (e.1 == k) = false := by simpa using h
      rw [h1, h2]
      exact ih

theorem make_ok_iff [GoMath F] (pts : List (LatLon F)) :
    (∃ x, makeSegments pts = .ok x) ↔ 2 ≤ pts.length := by
  unfold makeSegments
  split
  · rename_i h
    exact ⟨fun ⟨x, hx⟩ => by (cases hx), fun h2 => by omega⟩
  · rename_i h
    refine ⟨fun _ => by omega, fun _ => ?_⟩
    dsimp only
    split
    · exact ⟨_, rfl⟩
    · exact ⟨_, rfl⟩

theorem restore_ok_iff [GoMath F] (id color : String) (pts : List (LatLon F)) :
    (∃ t, Track.restore id color pts = .ok t) ↔ id ≠ "" ∧ 2 ≤ pts.length := by
  rw [← make_ok_iff, ← goLen_pos_iff]
  unfold Track.restore
  split
  · rename_i h
    exact ⟨fun ⟨t, ht⟩ => by (cases ht), fun ⟨h2, _⟩ => by omega⟩
  · rename_i h
    constructor
    · rintro ⟨t, ht⟩
      refine ⟨by omega, ?_⟩
      cases hm : makeSegments pts with
      | error e => rw [hm] at ht; cases ht
      | ok x => exact ⟨x, rfl⟩
    · rintro ⟨_, x, hx⟩
      rw [hx]
      exact ⟨_, rfl⟩

theorem line_returns_iff [GoMath F] (gen : Nat → String × String) (r : Route F) (infos : List (TrackInfo F))
    (pts : List (LatLon F)) : Returns (addLine gen r infos pts) ↔
      ∀ info rest, infos = info :: rest → info.id ≠ "" ∧ 2 ≤ pts.length := by
  cases infos with
  | nil => exact ⟨fun _ i r h => by (cases h), fun _ => ⟨_, rfl⟩⟩
  | cons info rest =>
    rw [show (∀ i r, info :: rest = i :: r → i.id ≠ "" ∧ 2 ≤ pts.length) ↔ (info.id ≠ "" ∧ 2 ≤ pts.length) from
      ⟨fun h => h _ _ rfl, fun h i r hc => by cases hc; exact h⟩]
    rw [← restore_ok_iff info.id info.color pts]
    simp only [addLine]
    cases h : Track.restore info.id info.color pts with
    | error e => exact ⟨fun ⟨x, hx⟩ => by (cases hx), fun ⟨t, ht⟩ => by (cases ht)⟩
    | ok t => exact ⟨fun _ => ⟨t, rfl⟩, fun _ => ⟨_, rfl⟩⟩

/-- The geometry is a line or a non-empty polygon, i.e. one that uses the track information. -/
def UsesInfo : Geom F → Prop
  | .lineString _ => True
  | .polygon (_ :: _) => True
  | _ => False

/-- **C24, one geometry, exact.** Decoding returns iff the geometry is present and, if track information is used,
its first entry has an id and the line has two points. -/
theorem geometry_returns_iff [GoMath F] (gen : Nat → String × String) (r : Route F) (infos : List (TrackInfo F))
    (g : Option (Geom F)) : Returns (parseGeometry gen r infos g) ↔
      ∃ g', g = some g' ∧ (UsesInfo g' → ∀ info rest, infos = info :: rest → info.id ≠ "" ∧ LongEnough g') := by
  cases g with
  | none => exact ⟨fun ⟨x, hx⟩ => by (cases hx), fun ⟨g', hg, _⟩ => by (cases hg)⟩
  | some g =>
    have triv : ∀ x, parseGeometry gen r infos (some g) = .ok x → ¬ UsesInfo g →
        (Returns (parseGeometry gen r infos (some g)) ↔ ∃ g', some g = some g' ∧ (UsesInfo g' → ∀ info rest,
          infos = info :: rest → info.id ≠ "" ∧ LongEnough g')) := by
      intro x hx hu
      exact ⟨fun _ => ⟨g, rfl, fun h => absurd h hu⟩, fun _ => ⟨x, hx⟩⟩
    cases g with
    | lineString pts =>
      rw [show parseGeometry gen r infos (some (.lineString pts)) = addLine gen r infos pts from rfl,
        line_returns_iff]
      exact ⟨fun h => ⟨_, rfl, fun _ => h⟩, fun ⟨g', hg, h⟩ => by cases hg; exact h trivial⟩
    | polygon rings =>
      cases rings with
      | nil => exact triv _ rfl (fun h => h)
      | cons ring rest =>
        rw [show parseGeometry gen r infos (some (.polygon (ring :: rest))) = addLine gen r infos ring from rfl,
          line_returns_iff]
        exact ⟨fun h => ⟨_, rfl, fun _ => h⟩, fun ⟨g', hg, h⟩ => by cases hg; exact h trivial⟩
    | multiLineString ls =>
      simp only [parseGeometry] at triv ⊢
      split at triv <;> rename_i h <;> simp only [h] at triv ⊢
      · exact triv _ rfl (fun h => h)
      · exact triv _ rfl (fun h => h)
    | multiPolygon ls =>
      simp only [parseGeometry] at triv ⊢
      split at triv <;> rename_i h <;> simp only [h] at triv ⊢
      · exact triv _ rfl (fun h => h)
      · exact triv _ rfl (fun h => h)
    | multiPoint ls =>
      simp only [parseGeometry] at triv ⊢
      split at triv <;> rename_i h <;> simp only [h] at triv ⊢
      · exact triv _ rfl (fun h => h)
      · exact triv _ rfl (fun h => h)
    | other => exact triv _ rfl (fun h => h)

theorem collection_returns [GoMath F] (gen : Nat → String × String) (infos : List (TrackInfo F)) (gs : List (Geom F))
    (h : ∀ info rest, infos = info :: rest → info.id ≠ "" ∧ ∀ g ∈ gs, LongEnough g) (r : Route F) :
    Returns (parseCollection gen infos r gs) := by
  induction gs generalizing r with
  | nil => exact ⟨_, rfl⟩
  | cons g gs ih =>
    obtain ⟨x, hx⟩ := (geometry_returns_iff gen r infos (some g)).mpr
      ⟨g, rfl, fun _ info rest hi => ⟨(h info rest hi).1, (h info rest hi).2 g (by simp)⟩⟩
    have ih := ih (fun info rest hi => ⟨(h info rest hi).1, fun x hx => (h info rest hi).2 x (by simp [hx])⟩)
    unfold parseCollection
    rw [hx]
    cases x with
    | error e => exact ⟨_, rfl⟩
    | ok r' => exact ih r'

theorem geometries_return [GoMath F] (gen : Nat → String × String) (r : Route F) (infos : Option (List (TrackInfo F)))
    (g : Geometry F) (h : ∀ info rest, infos = some (info :: rest) → info.id ≠ "" ∧ AllLong g) :
    Returns (parseGeometries gen r infos (some g)) := by
  have hd : ∀ info rest, infos.getD [] = info :: rest → infos = some (info :: rest) := by
    intro info rest hi
    cases infos with
    | none => cases hi
    | some l => rw [Option.getD_some] at hi; rw [hi]
  cases g with
  | single g =>
    unfold parseGeometries
    dsimp only
    split
    · exact ⟨_, rfl⟩
    · exact (geometry_returns_iff gen r _ (some g)).mpr ⟨g, rfl, fun _ info rest hi => h info rest (hd info rest hi)⟩
  | collection gs =>
    unfold parseGeometries
    dsimp only
    split
    · exact ⟨_, rfl⟩
    · exact collection_returns gen _ gs (fun info rest hi => h info rest (hd info rest hi)) r

theorem returns_map {α β : Type} {g : Go α} (f : α → β) (h : Returns g) : Returns (g.map f) := by
  obtain ⟨a, rfl⟩ := h
  exact ⟨f a, rfl⟩

theorem feature_returns [GoMath F] (gen : Nat → String × String) (f : Feature F) (h : SafeFeature f) :
    Returns (decodeFeature gen (some f)) := by
  unfold decodeFeature
  dsimp only
  split
  · exact ⟨_, rfl⟩
  · rename_i ht
    rcases h with h | ⟨g, hg, h⟩
    · exact absurd h ht
    · rw [hg]
      cases hp : f.props with
      | none => exact returns_map _ (geometries_return _ _ _ g (fun _ _ hc => by cases hc))
      | some props =>
        dsimp only
        split
        · unfold restoreRoute
          cases hti : props.get? "tracksInfo" with
          | none => exact ⟨_, rfl⟩
          | some v => cases v with
            | arr l =>
              refine returns_map _ (geometries_return _ _ _ g ?_)
              intro info rest hi
              cases l with
              | nil => cases hi
              | cons v vs =>
                rw [get_lookup] at hti
                obtain ⟨h1, h2⟩ := h props v hp ⟨vs, hti⟩
                refine ⟨?_, h2⟩
                have he : info = TrackInfo.read v := by cases hi; rfl
                rw [he]
                cases v with
                | obj m =>
                  obtain ⟨s, hs, hm⟩ := h1
                  rw [← get_lookup] at hm
                  simp only [TrackInfo.read, GMap.getString, hm]
                  exact hs
                | _ => exact absurd h1 id
            | _ => exact ⟨_, rfl⟩
        · exact returns_map _ (geometries_return _ _ _ g (fun _ _ hc => by cases hc))

theorem features_return [GoMath F] (gen : Nat → Nat → String × String) (fs : List (Option (Feature F)))
    (h : ∀ f ∈ fs, ∃ f', f = some f' ∧ SafeFeature f') (i : Nat) : Returns (decodeFeatures gen i fs) := by
  induction fs generalizing i with
  | nil => exact ⟨_, rfl⟩
  | cons f fs ih =>
    obtain ⟨f', rfl, hf⟩ := h f (by simp)
    obtain ⟨x, hx⟩ := feature_returns (gen i) f' hf
    obtain ⟨y, hy⟩ := ih (fun f hm => h f (by simp [hm])) (i + 1)
    unfold decodeFeatures
    rw [hx, hy]
    cases x with
    | error e => exact ⟨_, rfl⟩
    | ok o => cases y <;> exact ⟨_, rfl⟩

/-- **C24, GeoJSON.** A document of safe features decodes to routes or an error. (`Full statement`: every document.
Missing: the panics below.) -/
theorem geojson_returns_partial [GoMath F] (gen : Nat → Nat → String × String) (fs : List (Option (Feature F)))
    (h : ∀ f ∈ fs, ∃ f', f = some f' ∧ SafeFeature f') : Returns (geoDecode gen (some fs)) :=
  features_return gen fs h 0

/-- Documents not written by the encoder (no `tracksInfo`) are safe as soon as every feature has a geometry. -/
theorem foreign_returns [GoMath F] (gen : Nat → Nat → String × String) (fs : List (Feature F))
    (h : ∀ f ∈ fs, f.geometry ≠ none ∧ ∀ props, f.props = some props → props.lookup "tracksInfo" = none) :
    Returns (geoDecode gen (some (fs.map some))) := by
  apply geojson_returns_partial
  intro f hf
  obtain ⟨f', hm, rfl⟩ := List.mem_map.mp hf
  obtain ⟨h1, h2⟩ := h f' hm
  refine ⟨f', rfl, Or.inr ?_⟩
  cases hg : f'.geometry with
  | none => exact absurd hg h1
  | some g =>
    refine ⟨g, rfl, fun props info hp hr => ?_⟩
    obtain ⟨rest, hr⟩ := hr
    rw [h2 props hp] at hr
    cases hr

/-! ## Panics -/

/-- The document `null` panics. -/
theorem null_document_panics [GoMath F] (gen : Nat → Nat → String × String) :
    geoDecode gen (none : Option (List (Option (Feature F)))) = .error .nilDeref := rfl

/-- A `null` feature panics. -/
theorem null_feature_panics [GoMath F] (gen : Nat → Nat → String × String) (fs : List (Option (Feature F))) :
    geoDecode gen (some (none :: fs)) = .error .nilDeref := rfl

/-- A feature without geometry panics. -/
theorem missing_geometry_panics [GoMath F] (gen : Nat → Nat → String × String) (fs : List (Option (Feature F))) :
    geoDecode gen (some (some ⟨"Feature", none, none⟩ :: fs)) = .error .nilDeref := rfl

/-- A restored line with track information but without a track id panics, whatever its points. -/
theorem missing_track_id_panics [GoMath F] (gen : Nat → Nat → String × String) (pts : List (LatLon F)) :
    geoDecode gen (some [some ⟨"Feature", some [("routeID", .str "r"), ("color", .str "#000000"),
      ("tracksInfo", .arr [.obj []])], some (.single (.lineString pts))⟩]) = .error .nilDeref := rfl

/-- So does a restored line of one point. -/
theorem short_line_panics [GoMath F] (gen : Nat → Nat → String × String) (a : LatLon F) :
    geoDecode gen (some [some ⟨"Feature", some [("routeID", .str "r"), ("color", .str "#000000"),
      ("tracksInfo", .arr [.obj [("trackID", .str "t")]])], some (.single (.lineString [a]))⟩]) = .error .nilDeref :=
  rfl

/-! ## What the encoder writes -/

theorem set_lookup (m : GMap F) (k : String) (v : GVal F) (q : String) :
    (m.set k v).lookup q = if q = k then some v else m.lookup q := by
  have happ : ∀ m : GMap F, (m.any (fun e => e.1 == k)) = false →
      (m ++ [(k, v)]).lookup q = if q = k then some v else m.lookup q := by
    intro m
    induction m with
    | nil =>
      intro _
      by_cases h : q = k
      · subst h; simp
      · have : (q == k) = false := by simpa using h
        simp [List.lookup_cons, this, h]
    | cons e m ih =>
      intro hm
      simp only [List.any_cons, Bool.or_eq_false_iff] at hm
      rw [List.cons_append, List.lookup_cons, List.lookup_cons, ih hm.2]
      by_cases h : q = k
      · subst h
        have : (q == e.1) = false := by
          have := hm.1
          simp only [beq_eq_false_iff_ne, ne_eq] at this ⊢
          exact fun hc => this hc.symm
        rw [this]
      · simp [h]
  have hmap : ∀ m : GMap F, (m.any (fun e => e.1 == k)) = true →
      (m.map (fun e => if (e.1 == k) = true then (k, v) else e)).lookup q = if q = k then some v else m.lookup q := by
    intro m
    induction m with
    | nil => intro h; cases h
    | cons e m ih =>
      intro hm
      rw [List.map_cons, List.lookup_cons, List.lookup_cons]
      by_cases he : e.1 = k
      · have h1 : (e.1 == k) = true := by simpa using he
        rw [if_pos h1]
        by_cases h : q = k
        · subst h; simp
        · have h2 : (q == k) = false := by simpa using h
          have h3 : (q == e.1) = false := by rw [he]; exact h2
          simp only [h2, h3, if_neg h]
          cases hm' : m.any (fun e => e.1 == k) with
          | true => rw [ih hm', if_neg h]
          | false =>
            congr 1
            have : m.map (fun e => if (e.1 == k) = true then (k, v) else e) = m.map id := by
              apply List.map_congr_left
              intro x hx
              rw [List.any_eq_false] at hm'
              rw [if_neg (hm' x hx)]
              rfl
            simpa using this
      · have h1 : (e.1 == k) = false := by simpa using he
        simp only [List.any_cons, h1, Bool.false_or] at hm
        rw [if_neg (by rw [h1]; simp), ih hm]
        by_cases h : q = k
        · subst h
          have : (q == e.1) = false := by simpa using fun hc => he hc.symm
          simp [this]
        · simp [h]
  unfold GMap.set
  split
  · rename_i h; exact hmap m h
  · rename_i h; exact happ m (Bool.eq_false_iff.mpr h)

/-- After writing scalar properties, a list is found only if it was there before. -/
theorem scalars_keep (own m : GMap F) (h : ∀ e ∈ own, ∀ l, e.2 ≠ .arr l) (k : String) (l : List (GVal F))
    (hl : (own.foldl (fun m e => m.set e.1 e.2) m).lookup k = some (.arr l)) : m.lookup k = some (.arr l) := by
  induction own generalizing m with
  | nil => exact hl
  | cons e own ih =>
    have := ih (m.set e.1 e.2) (fun x hx => h x (by simp [hx])) hl
    rw [set_lookup] at this
    split at this
    · exact absurd (Option.some.inj this) (h e (by simp) l)
    · exact this

theorem toGMap_scalar [GoFloat F] (m : PMap F) (g : GMap F) (h : m.toGMap = some g) :
    ∀ e ∈ g, ∀ l, e.2 ≠ .arr l := by
  induction m generalizing g with
  | nil => cases h; intro e he; cases he
  | cons x m ih =>
    unfold PMap.toGMap at h ih
    rw [List.mapM_cons] at h
    cases hv : x.2.toGVal with
    | none => rw [hv] at h; cases h
    | some v =>
      cases hm : m.mapM (fun e => e.2.toGVal.map fun v => (e.1, v)) with
      | none => rw [hv, hm] at h; cases h
      | some g' =>
        rw [hv, hm] at h
        obtain rfl : (x.1, v) :: g' = g := Option.some.inj h
        intro e he l
        rcases List.mem_cons.mp he with rfl | he
        · intro hc
          simp only at hc
          rw [hc] at hv
          cases hx : x.2 <;> rw [hx] at hv <;> cases hv
        · exact ih g' hm e he l

theorem geom_long [GoMath F] {t : Track F} (h : ApiTrack t) : LongEnough t.geom := by
  have hf := api_from_points h
  have h2 : 2 ≤ (Track.points t.segments).length := (make_ok_iff _).mp ⟨_, hf.1⟩
  unfold Track.geom
  split <;> exact h2

/-- **C24, encoded routes.** Whatever the encoder produces from routes of the API whose tracks have ids decodes
without a panic, even if properties hide the encoder's own. -/
theorem encoded_returns [GoMath F] (gen : Nat → Nat → String × String) (rs : List (Route F))
    (hr : ∀ r ∈ rs, ApiRoute r ∧ ∀ t ∈ r.tracks, t.id ≠ "") (fs : List (Option (Feature F)))
    (he : geoEncode rs = .ok fs) : Returns (geoDecode gen (some fs)) := by
  apply geojson_returns_partial
  have hto : toFeatures rs = some fs := by
    unfold geoEncode at he
    split at he
    · cases he
    · cases h : toFeatures rs with
      | none => rw [h] at he; cases he
      | some fs' => rw [h] at he; rw [Except.ok.inj he]
  clear he
  induction rs generalizing fs with
  | nil => cases hto; intro f hf; cases hf
  | cons r rs ih =>
    have ih := ih (fun x hx => hr x (by simp [hx]))
    unfold toFeatures at hto
    split at hto
    · exact ih fs hto
    · cases hp : r.featureProps with
      | none => rw [hp] at hto; cases hto
      | some props =>
        cases hrest : toFeatures rs with
        | none => rw [hp, hrest] at hto; cases hto
        | some rest =>
          rw [hp, hrest] at hto
          obtain rfl : some ⟨"Feature", some props, some r.geometry⟩ :: rest = fs := Option.some.inj hto
          intro f hf
          rcases List.mem_cons.mp hf with rfl | hf
          · refine ⟨_, rfl, Or.inr ⟨_, rfl, ?_⟩⟩
            rintro props' info hpp ⟨rest', hl⟩
            obtain rfl : props = props' := Option.some.inj hpp
            have ⟨hapi, hids⟩ := hr r (by simp)
            have hlong : AllLong r.geometry := by
              have hall : ∀ g ∈ r.tracks.map Track.geom, LongEnough g := by
                intro g hg
                obtain ⟨t, ht, rfl⟩ := List.mem_map.mp hg
                exact geom_long (C44.api_tracks hapi t ht)
              unfold Route.geometry
              split
              · rename_i g hg
                exact hall g (by rw [hg]; simp)
              · exact hall
            refine ⟨?_, hlong⟩
            unfold Route.featureProps at hp
            cases hin : r.tracks.mapM Track.info with
            | none => rw [hin] at hp; cases hp
            | some infos =>
              cases hown : r.propsOf.2.toGMap with
              | none => rw [hin, hown] at hp; cases hp
              | some own =>
                rw [hin, hown] at hp
                have hp := Option.some.inj hp
                rw [← hp] at hl
                have hk := scalars_keep own _ (toGMap_scalar _ own hown) _ _ hl
                have hk : infos = info :: rest' := by
                  have : some (GVal.arr infos) = some (GVal.arr (info :: rest')) := hk
                  injection this with this
                  injection this
                rw [hk] at hin
                cases hts : r.tracks with
                | nil => rw [hts] at hin; cases hin
                | cons t ts =>
                  rw [hts, List.mapM_cons] at hin
                  cases hti : t.info with
                  | none => rw [hti] at hin; cases hin
                  | some v =>
                    cases hts' : ts.mapM Track.info with
                    | none => rw [hti, hts'] at hin; cases hin
                    | some vs =>
                      rw [hti, hts'] at hin
                      obtain rfl : v = info := (List.cons.inj (Option.some.inj hin)).1
                      unfold Track.info at hti
                      cases htp : t.propsOf.2.toGMap with
                      | none => rw [htp] at hti; cases hti
                      | some g =>
                        rw [htp] at hti
                        obtain rfl := Option.some.inj hti
                        exact ⟨t.id, hids t (by rw [hts]; simp), rfl⟩
          · exact ih rest hrest f hf

/-! ## Concrete cases -/

/-- An ordinary foreign document: a line, a polygon and a point. -/
def foreign : List (Option (Feature Toy)) :=
  [some ⟨"Feature", some [("k", .str "v")], some (.single (.lineString [Toy.pt 0 0, Toy.pt 0 1]))⟩,
   some ⟨"Feature", none, some (.single (.polygon [[Toy.pt 0 0, Toy.pt 0 1, Toy.pt 1 1, Toy.pt 0 0]]))⟩]

example : (match geoDecode (fun i k => (s!"{i}-{k}", "#000000")) (some foreign) with
    | .ok (.ok rs) => rs.map fun r => (r.id, r.tracks.map (·.id))
    | _ => []) = [("0-0", ["0-1"]), ("1-0", ["1-1"])] := by
  decide +kernel

example : geoDecode (fun _ _ => ("", "")) (some (foreign ++
    [some ⟨"Feature", none, some (.single .other)⟩])) = .ok (.error .invalidGeometryType) := by
  decide +kernel

end C24
end GpsGen
