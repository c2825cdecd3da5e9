import Verif.Model.Examples
import Verif.Model.NumReal
import Verif.Lemmas.JsonF64
import Verif.Lemmas.Wire
/-!
# What the texts of the example programs say

The two documents are evaluated by the kernel, as lists of characters.
-/

namespace GpsGen
namespace Examples
open XmlText

open Lean Elab Tactic Meta in
/-- Prove an equation by evaluation in the kernel. -/
elab "kernel_rfl" : tactic => liftMetaFinishingTactic fun g => do
  let some (_, a, _) := (← g.getType').eq? | throwError "not an equation"
  g.assign (← mkEqRefl a)

/-! ## GeoJSON -/

/-- The number a literal stands for. -/
noncomputable def real (l : NumLit) : ℝ := (l.value : ℚ)

/-- Latitudes and longitudes of the points of the GeoJSON document. -/
def geoLits : List (NumLit × NumLit) := [
  (⟨false, 23, [7,6,6,0,2,6,7,4,4,9,9,5,6,2,8], none⟩, ⟨true, 0, [6,8,4,8,9,7,7,0,0,7,7,1,9,5,5,4], none⟩),
  (⟨true, 2, [9,3,6,1,4,1,2,0,5,4,8,1,2,9,1,6], none⟩, ⟨false, 31, [6,5,1,7,2,1,4,0,7,7,6,7,4,4], none⟩),
  (⟨false, 44, [7,4,3,3,2,7,4,8,9,4,7,0,8,3], none⟩, ⟨false, 67, [6,7,8,9,3,2,9,1,4,5,6,2,6,4], none⟩),
  (⟨false, 48, [2,4,9,9,9,9,9,0,4,1,7,2,1,1,4], none⟩, ⟨false, 64, [8,6,7,0,5,2,9,9,2,0,7,9,8,9], none⟩),
  (⟨false, 53, [2,4,7,4,8,3,8,0,4,8,1,9,6,6,6], none⟩, ⟨false, 28, [3,1,2,6,1,3,9,9,9,8,2], none⟩)
]

/-- The points of the GeoJSON document. -/
noncomputable def geoDocLine : List (LatLon ℝ) := geoLits.map fun p => ⟨real p.1, real p.2⟩

/-- A document with one line. -/
def lineDocument {F : Type} (pts : List (LatLon F)) : Option (Option (List (Option (Feature F)))) :=
  some (some [some ⟨"Feature", some [], some (.single (.lineString pts))⟩])

theorem readGeo_utf8 {F : Type} [GoFloat F] [JsonFloat F] (s : String) :
    readGeo (F := F) (utf8 s) = (readJson (F := F) s.toList).bind readCollection := by
  unfold readGeo
  rw [utf8_valid]
  rfl

set_option maxRecDepth 100000 in
theorem geo_read (J : JsonFloat ℝ) (hJ : ∀ l, JsonFloat.read l = some (real l)) :
    readGeo (F := ℝ) (utf8 geoText) = lineDocument geoDocLine := by
  rw [readGeo_utf8, show geoText = String.ofList _ from rfl, String.toList_ofList]
  obtain ⟨w, r, h1, h2⟩ := J
  have hJ' : ∀ l, r l = some (real l) := hJ
  obtain rfl : r = fun l => some (real l) := funext hJ'
  kernel_rfl

/-- The double a literal is read as. -/
def double (l : NumLit) : F64 := (F64.ofLit l).getD (lit 0)

set_option maxRecDepth 100000 in
theorem geo_read_double : readGeo (F := F64) (utf8 geoText) = lineDocument (geoLits.map fun p => ⟨double p.1, double p.2⟩) := by
  rw [readGeo_utf8, show geoText = String.ofList _ from rfl, String.toList_ofList]
  kernel_rfl

/-! ## GPX -/

/-- The parts of a document that are read, apart from numbers; none if there are routes, way points or extensions. -/
def view : Xml → Option (List (List (List Attrs)))
  | .elem n _ ks =>
    if localName n = "gpx" then
      if (elemsNamed "rte" ks).isEmpty && (elemsNamed "wpt" ks).isEmpty && (elemsNamed "extensions" ks).isEmpty then
        some ((elemsNamed "trk" ks).map fun e => (elemsNamed "trkseg" e.2).map fun e => (elemsNamed "trkpt" e.2).map Prod.fst)
      else none
    else none
  | _ => none

theorem readList_map {α β γ : Type} (f : β → Option γ) (g : α → β) (l : List α) :
    gpxReadList (fun a => f (g a)) l = gpxReadList f (l.map g) := by
  induction l with
  | nil => rfl
  | cons a l ih => simp only [gpxReadList, List.map_cons, ih]

/-- Reading goes through the view. -/
theorem parse_view {F : Type} [GoFloat F] {N : NameChars} (T : GpxText F) {cs : List Char} {v : List (List (List Attrs))}
    (h : (parseXml N cs).bind view = some v) :
    gpxParse N T cs = (gpxReadList (gpxReadList (gpxReadList (gpxReadPoint T))) v).map fun tracks => ⟨[], tracks, [], []⟩ := by
  obtain ⟨x, hx, hv⟩ := Option.bind_eq_some_iff.mp h
  unfold gpxParse
  rw [hx]
  cases x with
  | text s => cases hv
  | space s => cases hv
  | elem n as ks =>
    by_cases hn : localName n = "gpx"
    · rw [view, if_pos hn] at hv
      by_cases hk : ((elemsNamed "rte" ks).isEmpty && (elemsNamed "wpt" ks).isEmpty && (elemsNamed "extensions" ks).isEmpty) = true
      · rw [if_pos hk] at hv
        simp only [Bool.and_eq_true, List.isEmpty_iff] at hk
        obtain ⟨⟨k1, k2⟩, k3⟩ := hk
        simp only [if_pos hn, gpxReadPoints, k1, k2, k3]
        rw [← Option.some.inj hv]
        have e1 : ∀ ks, gpxReadList (fun e : Attrs × List Xml => gpxReadPoint T e.1) ks =
            gpxReadList (gpxReadPoint T) (ks.map Prod.fst) := fun ks => readList_map (gpxReadPoint T) Prod.fst ks
        have e2 : ∀ ks : List (Attrs × List Xml), gpxReadList (fun e => gpxReadList (gpxReadPoint T) ((elemsNamed "trkpt" e.2).map Prod.fst)) ks =
            gpxReadList (gpxReadList (gpxReadPoint T)) (ks.map fun e => (elemsNamed "trkpt" e.2).map Prod.fst) :=
          fun ks => readList_map _ _ ks
        simp only [e1, e2]
        rw [readList_map (gpxReadList (gpxReadList (gpxReadPoint T)))
          (fun e : Attrs × List Xml => (elemsNamed "trkseg" e.2).map fun e => (elemsNamed "trkpt" e.2).map Prod.fst)]
        simp only [gpxReadList, Option.bind_some, Option.map_some, List.flatMap_nil, List.map_nil]
        cases gpxReadList _ _ <;> rfl
      · rw [if_neg hk] at hv; cases hv
    · rw [view, if_neg hn] at hv; cases hv

/-- Latitudes and longitudes of the points of the GPX document. -/
def gpxLits : List (NumLit × NumLit) := [
  (⟨false, 53, [8,3,0,4,8,8,7,5,0,3,0,0,1,5,5], none⟩, ⟨false, 35, [3,7,8,5,7,1,6,8,6,6,6,6,3,7], none⟩),
  (⟨false, 54, [7,5,3,3,5,0,4,3,3,3,1,0,5,4,4], none⟩, ⟨false, 39, [9,0,4,2,7,0,6,2,9,6,9,3,5,3], none⟩),
  (⟨false, 54, [5,2,4,5,7,2,1,1,7,3,9,5,5,8], none⟩, ⟨false, 39, [9,0,4,2,7,0,6,2,9,6,9,3,5,3], none⟩),
  (⟨false, 52, [1,9,2,2,6,3,8,2,1,9,8,7,8,7], none⟩, ⟨false, 43, [8,1,4,8,2,6,0,2,7,0,6,6,5], none⟩),
  (⟨false, 54, [0,3,7,3,5,8,1,7,2,7,5,1,7,1], none⟩, ⟨false, 47, [4,1,7,8,0,9,6,5,1,6,1,2,4,1], none⟩),
  (⟨false, 52, [7,2,7,5,2,5,6,9,0,7,6,3,4,8,5], none⟩, ⟨false, 51, [6,7,9,8,7,5,6,4,6,5,0,2,0,6], none⟩),
  (⟨false, 56, [0,9,9,1,5,5,6,2,9,4,2,5,8,8], none⟩, ⟨false, 56, [1,1,7,6,9,6,9,4,0,1,5,0,0,5], none⟩)
]

/-- The points of the GPX document. -/
noncomputable def gpxDocLine : List (LatLon ℝ) := gpxLits.map fun p => ⟨real p.1, real p.2⟩

/-- The attributes of a point. -/
def pointAttrs (p : NumLit × NumLit) : Attrs := [("lat", String.ofList p.1.text), ("lon", String.ofList p.2.text)]

set_option maxRecDepth 100000 in
theorem gpx_view (N : NameChars) : (parseXml N gpxDocument.toList).bind view = some [[gpxLits.map pointAttrs]] := by
  rw [show gpxDocument = String.ofList _ from rfl, String.toList_ofList]
  kernel_rfl

theorem point_read {F : Type} [GoFloat F] (T : GpxText F) (v : NumLit → F) (p : NumLit × NumLit)
    (hT : T.parseFloat (String.ofList p.1.text) = some (v p.1) ∧ T.parseFloat (String.ofList p.2.text) = some (v p.2))
    (h : p.1.text ≠ [] ∧ p.2.text ≠ []) : gpxReadPoint T (pointAttrs p) = some ⟨v p.1, v p.2⟩ := by
  have l1 : localName "lat" = "lat" := by decide +kernel
  have l2 : localName "lon" = "lon" := by decide +kernel
  have n : ∀ l : List Char, l ≠ [] → String.ofList l ≠ "" := by
    intro l hl h
    exact hl (by simpa using congrArg String.toList h)
  have c1 : gpxReadCoord T (pointAttrs p) "lat" = some (v p.1) := by
    simp [gpxReadCoord, localAttrs, pointAttrs, l1, l2, hT.1, n _ h.1]
  have c2 : gpxReadCoord T (pointAttrs p) "lon" = some (v p.2) := by
    simp [gpxReadCoord, localAttrs, pointAttrs, l1, l2, hT.2, n _ h.2]
  unfold gpxReadPoint
  rw [c1, c2]
  rfl

theorem gpx_read {F : Type} [GoFloat F] (N : NameChars) (T : GpxText F) (v : NumLit → F)
    (hT : ∀ p ∈ gpxLits, T.parseFloat (String.ofList p.1.text) = some (v p.1) ∧ T.parseFloat (String.ofList p.2.text) = some (v p.2)) :
    gpxParse N T gpxDocument.toList = some ⟨[], [[gpxLits.map fun p => ⟨v p.1, v p.2⟩]], [], []⟩ := by
  rw [parse_view T (gpx_view N)]
  have key : ∀ l : List (NumLit × NumLit), (∀ p ∈ l, p.1.text ≠ [] ∧ p.2.text ≠ []) → (∀ p ∈ l, p ∈ gpxLits) →
      gpxReadList (gpxReadPoint T) (l.map pointAttrs) = some (l.map fun p => ⟨v p.1, v p.2⟩) := by
    intro l
    induction l with
    | nil => intro _ _; rfl
    | cons p l ih =>
      intro h hl
      simp only [List.map_cons, gpxReadList]
      rw [point_read T v p (hT p (hl p List.mem_cons_self)) (h p List.mem_cons_self),
        ih (fun q hq => h q (List.mem_cons_of_mem _ hq)) fun q hq => hl q (List.mem_cons_of_mem _ hq)]
      rfl
  simp only [gpxReadList]
  rw [key gpxLits (by decide +kernel) fun _ h => h]
  rfl

/-! ## Decoding -/

section
variable {F : Type} [GoMath F]

/-- The route of the GeoJSON program, before its track is added. -/
def geoRoute (gen : Nat → Nat → String × String) : Route F :=
  parseProperties (Route.new (gen 0 0).1 (gen 0 0).2) (GMap.toPMap [])

theorem geoRoute_is (gen : Nat → Nat → String × String) : (geoRoute (F := F) gen).tracks = [] ∧ (geoRoute (F := F) gen).dist = lit 0 := by
  have e0 : geoRoute (F := F) gen = { Route.new (F := F) (gen 0 0).1 (gen 0 0).2 with
      props := some ((Route.new (F := F) (gen 0 0).1 (gen 0 0).2).propsOf.2.merge (GMap.toPMap [])) } := rfl
  rw [e0]
  exact ⟨rfl, rfl⟩

theorem geo_decoded [JsonFloat F] (gen : Nat → Nat → String × String) (pts : List (LatLon F)) (t : Track F)
    (hr : readGeo (F := F) (utf8 geoText) = lineDocument pts) (e : Track.new (gen 0 1).1 (gen 0 1).2 pts = .ok t) :
    fromGeo gen = some [(geoRoute gen).addTrack (some t)] := by
  obtain ⟨t0, -⟩ := geoRoute_is (F := F) gen
  have e' : Track.new (gen 0 ((geoRoute (F := F) gen).tracks.length + 1)).1 (gen 0 ((geoRoute (F := F) gen).tracks.length + 1)).2 pts = .ok t := by
    rw [t0]; exact e
  have : decodeFeature (gen 0) (some ⟨"Feature", some [], some (.single (.lineString pts))⟩) =
      .ok (.ok (some ((geoRoute gen).addTrack (some t)))) := by
    unfold decodeFeature
    have : addNewTrack (gen 0) (geoRoute gen) pts = .ok ((geoRoute gen).addTrack (some t)) := by
      unfold addNewTrack
      rw [e']
      rfl
    simp only [ne_eq, not_true_eq_false, if_false]
    rw [if_neg (by simp [routeExists, GMap.get?])]
    unfold parseGeometries parseGeometry addLine
    simp only [Option.map_none, Option.getD_none, ne_eq, not_true_eq_false, if_false]
    rw [show parseProperties (Route.new (F := F) (gen 0 0).1 (gen 0 0).2) (GMap.toPMap []) = geoRoute gen from rfl, this]
    rfl
  have hdec : geoDecodeText (F := F) gen (utf8 geoText) = .ok (some [(geoRoute gen).addTrack (some t)]) := by
    unfold geoDecodeText
    rw [hr]
    unfold lineDocument geoDecode decodeFeatures decodeFeatures
    simp only
    rw [this]
    rfl
  unfold fromGeo
  rw [hdec]

theorem gpx_decoded (N : NameChars) (T : GpxText F) (gen : Nat → Nat → String × String) (pts : List (LatLon F)) (t : Track F)
    (hr : gpxParse N T gpxDocument.toList = some ⟨[], [[pts]], [], []⟩) (e : Track.new (gen 0 1).1 (gen 0 1).2 pts = .ok t) :
    fromGpx N T gen = some [(Route.new (gen 0 0).1 (gen 0 0).2).addTrack (some t)] := by
  have e' : Track.new (gen 0 ((Route.new (F := F) (gen 0 0).1 (gen 0 0).2).tracks.length + 1)).1
      (gen 0 ((Route.new (F := F) (gen 0 0).1 (gen 0 0).2).tracks.length + 1)).2 pts = .ok t := e
  have : gpxForeign gen ⟨[], [[pts]], [], []⟩ = .ok [(Route.new (gen 0 0).1 (gen 0 0).2).addTrack (some t)] := by
    unfold gpxForeign gpxNewRoutes addNewTracks addNewTrack
    simp only [List.map_nil]
    rw [e']
    rfl
  have hdec : ∀ cs, gpxParse N T cs = some ⟨[], [[pts]], [], []⟩ →
      gpxDecodeText N T gen cs = .ok (some (.ok [(Route.new (gen 0 0).1 (gen 0 0).2).addTrack (some t)])) := by
    intro cs hcs
    have hne : cs ≠ [] := by
      rintro rfl
      cases hcs
    unfold gpxDecodeText
    rw [if_neg hne, hcs]
    unfold gpxDecode
    simp only
    rw [if_neg (by simp [gpxRoutesExist]), this]
    rfl
  have hrd : ∀ cs, gpxParse N T cs = some ⟨[], [[pts]], [], []⟩ →
      readGpx N T gen cs = some [(Route.new (gen 0 0).1 (gen 0 0).2).addTrack (some t)] := by
    intro cs hcs
    unfold readGpx
    rw [hdec cs hcs]
  exact hrd _ hr

end

end Examples
end GpsGen
