import Verif.Model.Route
/-!
# C01: a track is exactly its polyline

Holds for every number type `F`, hence for IEEE doubles including NaN coordinates.
-/

namespace GpsGen
variable {F : Type} [GoMath F]

namespace C01

/-- Specification: `segs` is the list of edges of the polyline `pts`, numbered from `0`. -/
structure IsPolyline (pts : List (LatLon F)) (segs : List (Segment F)) : Prop where
  length : segs.length + 1 = pts.length
  edge : ∀ (i : Nat) (s : Segment F), segs[i]? = some s →
    pts[i]? = some s.pointA ∧ pts[i + 1]? = some s.pointB ∧ s.index = i
  measure : ∀ s ∈ segs,
    s.dist = distance s.pointA.lat s.pointA.lon s.pointB.lat s.pointB.lon ∧
    s.bearing = bearing s.pointA.lat s.pointA.lon s.pointB.lat s.pointB.lon

/-- Reading the points back from the segments, as the GeoJSON and GPX encoders do: all start
points, then the end point of the last segment. -/
def readBack (segs : List (Segment F)) : List (LatLon F) :=
  segs.map (·.pointA) ++ (segs.getLast?.map (·.pointB)).toList

/-- What relation assignment leaves alone. -/
def key (s : Segment F) : LatLon F × LatLon F × F × F × Int :=
  (s.pointA, s.pointB, s.dist, s.bearing, s.index)

theorem relate_key (s : Int) (p : Segment F) (rest : List (Segment F)) :
    (relateSegments s p rest).map key = (p :: rest).map key := by
  induction rest generalizing s p with
  | nil => rfl
  | cons q rest ih =>
    unfold relateSegments
    split <;> simp only [List.map_cons, ih] <;> rfl

theorem raw_length (i : Int) (pts : List (LatLon F)) :
    (rawSegments i pts).length = pts.length - 1 := by
  induction pts generalizing i with
  | nil => rfl
  | cons a rest ih =>
    cases rest with
    | nil => rfl
    | cons b rest => have := ih (i + 1); simp_all [rawSegments]

theorem raw_edge (i : Int) (pts : List (LatLon F)) (k : Nat) (s : Segment F)
    (h : (rawSegments i pts)[k]? = some s) :
    pts[k]? = some s.pointA ∧ pts[k + 1]? = some s.pointB ∧ s.index = i + k ∧
    s.dist = distance s.pointA.lat s.pointA.lon s.pointB.lat s.pointB.lon ∧
    s.bearing = bearing s.pointA.lat s.pointA.lon s.pointB.lat s.pointB.lon := by
  induction k generalizing i pts with
  | zero =>
    match pts with
    | [] => simp [rawSegments] at h
    | [_] => simp [rawSegments] at h
    | a :: b :: r =>
      simp only [rawSegments, List.getElem?_cons_zero, Option.some.injEq] at h
      subst h; simp
  | succ k ih =>
    match pts with
    | [] => simp [rawSegments] at h
    | [_] => simp [rawSegments] at h
    | a :: b :: r =>
      simp only [rawSegments, List.getElem?_cons_succ] at h
      have := ih (i + 1) (b :: r) h
      simp only [List.getElem?_cons_succ] at this ⊢
      refine ⟨this.1, this.2.1, ?_, this.2.2.2⟩
      rw [this.2.2.1]; omega

theorem makeSegments_ok (pts : List (LatLon F)) (h : 2 ≤ pts.length) :
    ∃ segs dist, makeSegments pts = .ok (segs, dist) ∧
      segs.map key = (rawSegments 0 pts).map key := by
  unfold makeSegments
  rw [if_neg (by omega)]
  match pts, h with
  | a :: b :: r, _ =>
    simp only [rawSegments]
    exact ⟨_, _, rfl, relate_key _ _ _⟩

theorem isPolyline_of_key (pts : List (LatLon F)) (h : 2 ≤ pts.length) (segs : List (Segment F))
    (hk : segs.map key = (rawSegments 0 pts).map key) : IsPolyline pts segs := by
  have hl : segs.length = (rawSegments 0 pts).length := by
    simpa using congrArg List.length hk
  have key_at : ∀ (i : Nat) (s : Segment F), segs[i]? = some s →
      ∃ s', (rawSegments 0 pts)[i]? = some s' ∧ key s' = key s := by
    intro i s hs
    have := congrArg (fun l => l[i]?) hk
    simp only [List.getElem?_map, hs, Option.map_some] at this
    rcases h' : (rawSegments 0 pts)[i]? with _ | s'
    · rw [h'] at this; simp at this
    · rw [h'] at this; simp at this; exact ⟨s', rfl, this.symm⟩
  have all : ∀ (i : Nat) (s : Segment F), segs[i]? = some s →
      pts[i]? = some s.pointA ∧ pts[i + 1]? = some s.pointB ∧ s.index = i ∧
      s.dist = distance s.pointA.lat s.pointA.lon s.pointB.lat s.pointB.lon ∧
      s.bearing = bearing s.pointA.lat s.pointA.lon s.pointB.lat s.pointB.lon := by
    intro i s hs
    obtain ⟨s', h1, h2⟩ := key_at i s hs
    have h3 := raw_edge 0 pts i s' h1
    simp only [key, Prod.mk.injEq] at h2
    obtain ⟨e1, e2, e3, e4, e5⟩ := h2
    rw [e1, e2, e3, e4, e5] at h3
    refine ⟨h3.1, h3.2.1, ?_, h3.2.2.2⟩
    have := h3.2.2.1; omega
  refine ⟨?_, ?_, ?_⟩
  · rw [hl, raw_length]; omega
  · intro i s hs; exact ⟨(all i s hs).1, (all i s hs).2.1, (all i s hs).2.2.1⟩
  · intro s hs
    obtain ⟨i, hi, rfl⟩ := List.getElem_of_mem hs
    exact (all i _ (List.getElem?_eq_getElem hi)).2.2.2

theorem readBack_of_polyline (pts : List (LatLon F)) (h : 2 ≤ pts.length)
    (segs : List (Segment F)) (hp : IsPolyline pts segs) : readBack segs = pts := by
  have hl := hp.length
  have hlast : segs.getLast?.map (·.pointB) = pts[segs.length]? := by
    rw [List.getLast?_eq_getElem?]
    have : segs.length - 1 < segs.length := by omega
    rw [List.getElem?_eq_getElem this, Option.map_some]
    have := (hp.edge _ _ (List.getElem?_eq_getElem this)).2.1
    rw [show segs.length - 1 + 1 = segs.length by omega] at this
    exact this.symm
  apply List.ext_getElem?
  intro i
  unfold readBack
  rw [hlast, List.getElem?_append]
  simp only [List.length_map]
  split
  · rename_i hi
    rw [List.getElem?_map, List.getElem?_eq_getElem hi, Option.map_some]
    exact (hp.edge _ _ (List.getElem?_eq_getElem hi)).1.symm
  · rename_i hi
    have hlt : segs.length < pts.length := by omega
    rw [List.getElem?_eq_getElem hlt]
    simp only [Option.toList_some]
    by_cases e : i = segs.length
    · subst e; simp [List.getElem?_eq_getElem hlt]
    · rw [List.getElem?_eq_none (by simp; omega), List.getElem?_eq_none (by omega)]

/-- **C01.** `NewTrack` succeeds exactly for at least two points; the result is the polyline and
the points can be read back. -/
theorem newTrack_polyline (uid color : String) (pts : List (LatLon F)) :
    (2 ≤ pts.length →
      ∃ t, Track.new uid color pts = .ok t ∧ t.id = uid ∧ t.color = color ∧
        IsPolyline pts t.segments ∧ readBack t.segments = pts) ∧
    (pts.length < 2 → Track.new uid color pts = .error .invalidRoutePath) := by
  constructor
  · intro h
    obtain ⟨segs, d, h1, h2⟩ := makeSegments_ok pts h
    have hp := isPolyline_of_key pts h segs h2
    exact ⟨⟨uid, segs, color, "", none, d, isClosedPts pts, 0⟩,
      by simp [Track.new, h1]; rfl, rfl, rfl, hp, readBack_of_polyline pts h segs hp⟩
  · intro h
    simp [Track.new, makeSegments, h]; rfl

/-- **C01** for `RestoreTrack`: additionally the id must be non-empty. -/
theorem restoreTrack_polyline (id color : String) (pts : List (LatLon F)) :
    (2 ≤ pts.length → id ≠ "" →
      ∃ t, Track.restore id color pts = .ok t ∧ t.id = id ∧ t.color = color ∧
        IsPolyline pts t.segments ∧ readBack t.segments = pts) ∧
    (pts.length < 2 ∨ id = "" → ∃ e, Track.restore id color pts = .error e) := by
  constructor
  · intro h hid
    obtain ⟨segs, d, h1, h2⟩ := makeSegments_ok pts h
    have hp := isPolyline_of_key pts h segs h2
    have hid' : goLen id ≠ 0 := by simpa [goLen] using hid
    exact ⟨⟨id, segs, color, "", none, d, isClosedPts pts, 0⟩,
      by simp [Track.restore, h1, hid']; rfl, rfl, rfl, hp, readBack_of_polyline pts h segs hp⟩
  · rintro (h | rfl)
    · unfold Track.restore
      split
      · exact ⟨_, rfl⟩
      · exact ⟨.invalidRoutePath, by simp [makeSegments, h]; rfl⟩
    · exact ⟨.emptyTrackID, rfl⟩

/-- Consecutive segments share an end point. -/
theorem newTrack_contiguous (uid color : String) (pts : List (LatLon F)) (t : Track F)
    (h : Track.new uid color pts = .ok t) (i : Nat) (s s' : Segment F)
    (hs : t.segments[i]? = some s) (hs' : t.segments[i + 1]? = some s') :
    s.pointB = s'.pointA := by
  have hl : 2 ≤ pts.length := by
    rcases Nat.lt_or_ge pts.length 2 with hl | hl
    · rw [(newTrack_polyline uid color pts).2 hl] at h; cases h
    · exact hl
  obtain ⟨t', h', -, -, hp, -⟩ := (newTrack_polyline uid color pts).1 hl
  rw [h] at h'; cases h'
  have h1 := (hp.edge i s hs).2.1
  have h2 := (hp.edge (i + 1) s' hs').1
  rw [h1] at h2; exact Option.some.inj h2

/-- Non-vacuity: a three-point track exists and has two segments. -/
example (a b c : LatLon F) : ∃ t, Track.new "id" "#fff" [a, b, c] = .ok t ∧
    t.segments.length = 2 ∧ readBack t.segments = [a, b, c] := by
  obtain ⟨t, h, -, -, hp, hr⟩ := (newTrack_polyline "id" "#fff" [a, b, c]).1 (by simp)
  exact ⟨t, h, by have := hp.length; simpa using this, hr⟩

end C01
end GpsGen
