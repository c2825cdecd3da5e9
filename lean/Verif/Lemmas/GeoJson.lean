import Verif.Model.GeoJson
import Verif.Lemmas.RoundTrip
import Verif.Theorems.C21
import Mathlib.Data.List.Nodup
/-!
# Helper lemmas: GeoJSON
-/

namespace GpsGen
variable {F : Type}

/-! ## Points of a track -/

theorem points_congr (l l' : List (Segment F))
    (h : l.map (fun s => (s.pointA, s.pointB)) = l'.map (fun s => (s.pointA, s.pointB))) :
    Track.points l = Track.points l' := by
  induction l generalizing l' with
  | nil => cases l' with
    | nil => rfl
    | cons a l' => simp at h
  | cons a l ih => cases l' with
    | nil => simp at h
    | cons b l' =>
      simp only [List.map_cons, List.cons.injEq, Prod.mk.injEq] at h
      have h' := ih l' h.2
      cases l with
      | nil => cases l' with
        | nil => simp [Track.points, h.1]
        | cons _ _ => simp at h
      | cons c l => cases l' with
        | nil => simp at h
        | cons d l' => simp only [Track.points] at h' ⊢; rw [h', h.1.1]

theorem relate_points [GoFloat F] (s : Int) (p : Segment F) (l : List (Segment F)) :
    (relateSegments s p l).map (fun s => (s.pointA, s.pointB)) = (p :: l).map (fun s => (s.pointA, s.pointB)) := by
  induction l generalizing s p with
  | nil => rfl
  | cons q l ih =>
    unfold relateSegments
    split
    · simp only [List.map_cons, ih]
    · simp only [List.map_cons, ih]

theorem points_raw [GoMath F] (i : Int) (a b : LatLon F) (l : List (LatLon F)) :
    Track.points (rawSegments i (a :: b :: l)) = a :: b :: l := by
  induction l generalizing i a b with
  | nil => rfl
  | cons c l ih =>
    have := ih (i + 1) b c
    simp only [rawSegments] at this ⊢
    simp only [Track.points, this]

theorem points_make [GoMath F] (pts : List (LatLon F)) (segs : List (Segment F)) (d : F)
    (h : makeSegments pts = .ok (segs, d)) : Track.points segs = pts := by
  match pts with
  | [] => simp [makeSegments] at h
  | [_] => simp [makeSegments] at h
  | a :: b :: l =>
    have h1 : ¬ (a :: b :: l).length < 2 := by simp
    simp only [makeSegments, if_neg h1, rawSegments, Except.ok.injEq, Prod.mk.injEq] at h
    rw [← h.1, points_congr _ _ (relate_points _ _ _)]
    exact points_raw 0 a b l

/-- The part of a track that its points determine. -/
def FromPoints [GoMath F] (t : Track F) : Prop :=
  makeSegments (Track.points t.segments) = .ok (t.segments, t.dist) ∧
  t.isClosed = isClosedPts (Track.points t.segments)

theorem api_from_points [GoMath F] {t : Track F} (h : C21.ApiTrack t) : FromPoints t := by
  have hbind : ∀ {id color : String} {pts : List (LatLon F)} {t : Track F},
      (makeSegments pts >>= fun x => (pure ⟨id, x.1, color, "", none, x.2, isClosedPts pts, 0⟩ :
        Except Err (Track F))) = .ok t → FromPoints t := by
    intro id color pts t h
    cases hm : makeSegments pts with
    | error e => rw [hm] at h; cases h
    | ok x =>
      rw [hm] at h
      obtain rfl := Except.ok.inj h
      have := points_make pts x.1 x.2 hm
      simp only [FromPoints, this, hm, and_self]
  induction h with
  | new h => exact hbind h
  | restore h =>
    unfold Track.restore at h
    split at h
    · cases h
    · exact hbind h
  | color c _ ih => cases c <;> exact ih
  | name s _ ih => unfold Track.changeName; split <;> exact ih
  | props m hm _ ih => exact ih

theorem restore_points [GoMath F] (t : Track F) (h : FromPoints t) (id color : String) (hid : id ≠ "") :
    Track.restore id color (Track.points t.segments) =
      .ok ⟨id, t.segments, color, "", none, t.dist, t.isClosed, 0⟩ := by
  have : ¬ goLen id = 0 := by
    have := (goLen_pos_iff id).mpr hid
    omega
  simp only [Track.restore, if_neg this, h.1, h.2]
  rfl

/-! ## Maps -/

theorem gfoldl_set_nodup (l acc : GMap F) (h : ((acc ++ l).map (·.1)).Nodup) :
    l.foldl (fun m e => m.set e.1 e.2) acc = acc ++ l := by
  induction l generalizing acc with
  | nil => simp
  | cons e l ih =>
    have hk : ¬ acc.any (fun x => x.1 == e.1) = true := by
      intro hc
      simp only [List.any_eq_true, beq_iff_eq] at hc
      obtain ⟨x, hx, he⟩ := hc
      simp only [List.map_append, List.map_cons, List.nodup_append] at h
      exact h.2.2 x.1 (List.mem_map_of_mem hx) e.1 (by simp) he
    have hs : GMap.set acc e.1 e.2 = acc ++ [e] := by
      unfold GMap.set
      rw [if_neg hk]
    rw [List.foldl_cons, hs, ih (acc ++ [e]) (by simpa using h)]
    simp

/-- The keys that `resetProps` deletes. -/
def reservedKeys : List String := ["routeID", "color", "distance", "tracksInfo", "numTracks", "name", "units"]

theorem resetProps_eq (m : GMap F) : resetProps m = m.filter (fun e => !reservedKeys.contains e.1) := by
  simp only [resetProps, GMap.remove, List.filter_filter]
  congr 1
  funext e
  simp only [reservedKeys, List.contains_cons, List.contains_nil, Bool.or_false, Bool.not_or]
  cases (e.1 == "routeID") <;> cases (e.1 == "color") <;> cases (e.1 == "distance") <;> cases (e.1 == "tracksInfo") <;>
    cases (e.1 == "numTracks") <;> cases (e.1 == "name") <;> cases (e.1 == "units") <;> rfl

theorem toGMap_ok [GoFloat F] (m : PMap F) (h : ∀ e ∈ m, e.2.supported = true) :
    ∃ g, m.toGMap = some g ∧ g.toPMap = m.map (fun e => (e.1, e.2.json)) ∧ g.map (·.1) = m.map (·.1) := by
  induction m with
  | nil => exact ⟨[], rfl, rfl, rfl⟩
  | cons e m ih =>
    obtain ⟨g, h1, h2, h3⟩ := ih (fun x hx => h x (by simp [hx]))
    obtain ⟨k, v⟩ := e
    have hv : ∃ j, v.toGVal = some j ∧ j.toPVal = v.json := by
      have := h (k, v) (by simp)
      cases v with
      | other n => simp [PVal.supported] at this
      | _ => exact ⟨_, rfl, rfl⟩
    obtain ⟨j, hj1, hj2⟩ := hv
    refine ⟨(k, j) :: g, ?_, ?_, ?_⟩
    · unfold PMap.toGMap at h1 ⊢
      simp [List.mapM_cons, hj1, h1]
    · unfold GMap.toPMap at h2 ⊢
      simp [h2, hj2]
    · simp [h3]

theorem set_same (m : PMap F) (k : String) (v : PVal F) (hn : (m.map (·.1)).Nodup) (h : (k, v) ∈ m) :
    m.set k v = m := by
  have ha : m.any (fun e => e.1 == k) = true := by
    simp only [List.any_eq_true, beq_iff_eq]
    exact ⟨_, h, rfl⟩
  unfold PMap.set
  rw [if_pos ha]
  have : m.map (fun e => if (e.1 == k) = true then (k, v) else e) = m.map id := by
    apply List.map_congr_left
    intro e he
    split
    · rename_i hk
      simp only [beq_iff_eq] at hk
      exact List.inj_on_of_nodup_map hn h he hk.symm
    · rfl
  simpa using this

theorem merge_self (m : PMap F) (hn : (m.map (·.1)).Nodup) : m.merge m = m := by
  have : ∀ l : PMap F, (∀ e ∈ l, e ∈ m) → l.foldl (fun acc e => acc.set e.1 e.2) m = m := by
    intro l
    induction l with
    | nil => intro _; rfl
    | cons e l ih =>
      intro h
      rw [List.foldl_cons, set_same m e.1 e.2 hn (h e (by simp))]
      exact ih (fun x hx => h x (by simp [hx]))
  exact this m (fun _ h => h)

theorem merge_make (m : PMap F) (hn : (m.map (·.1)).Nodup) : PMap.merge PMap.make m = m := by
  have := foldl_set_nodup m [] (by simpa using hn)
  simpa [PMap.merge, PMap.make] using this

end GpsGen
