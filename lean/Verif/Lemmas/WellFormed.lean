import Verif.Lemmas.Sums
import Verif.Lemmas.Lists
import Verif.Theorems.C02
/-!
# Well-formed routes in exact arithmetic
-/

namespace GpsGen
open C02

/-! ## Well-formed routes: what the public constructors build -/

/-- The track's length is the sum of its non-negative segment lengths. -/
def WFTrack (t : Track ℝ) : Prop :=
  (∀ s ∈ t.segments, 0 ≤ s.dist) ∧ t.dist = (t.segments.map (·.dist)).sum

/-- The route's length is the sum of the lengths of its well-formed tracks. -/
def WFRoute (r : Route ℝ) : Prop :=
  (∀ t ∈ r.tracks, WFTrack t) ∧ r.dist = (r.tracks.map (·.dist)).sum

theorem distance_nonneg (a b c d : ℝ) : 0 ≤ distance a b c d := by
  simp only [distance, distanceFromHaversine, earthRadius, real_mul, real_lit, real_asin, real_sqrt]
  have := Real.arcsin_nonneg.mpr (Real.sqrt_nonneg (haversine a b c d))
  push_cast
  positivity

theorem raw_nonneg (i : Int) (pts : List (LatLon ℝ)) : ∀ s ∈ rawSegments i pts, 0 ≤ s.dist := by
  fun_induction rawSegments i pts with
  | case1 i a b rest ih =>
    intro s hs
    rcases List.mem_cons.mp hs with rfl | hs
    · exact distance_nonneg _ _ _ _
    · exact ih s hs
  | case2 => simp

theorem make_nonneg {pts : List (LatLon ℝ)} {segs : List (Segment ℝ)} {d : ℝ}
    (h : makeSegments pts = .ok (segs, d)) : ∀ s ∈ segs, 0 ≤ s.dist := by
  have hmap : ∀ x ∈ segs.map (·.dist), 0 ≤ x := by
    unfold makeSegments at h
    split at h
    · cases h
    · simp only at h
      split at h
      · cases h; simp
      · rename_i p rest h'
        cases h
        rw [relate_dist, ← h']
        intro x hx
        obtain ⟨s, hs, rfl⟩ := List.mem_map.mp hx
        exact raw_nonneg _ _ s hs
  intro s hs
  exact hmap _ (List.mem_map.mpr ⟨s, hs, rfl⟩)

/-- Tracks built by `NewTrack` or `RestoreTrack` are well formed. -/
theorem new_wf (uid color : String) (pts : List (LatLon ℝ)) (t : Track ℝ)
    (h : Track.new uid color pts = .ok t ∨ Track.restore uid color pts = .ok t) : WFTrack t := by
  rcases h with h | h
  · have hd := track_distance_eq_sum uid color pts t h
    refine ⟨?_, hd.trans (goSum_real _)⟩
    unfold Track.new at h
    rcases hm : makeSegments pts with e | ⟨segs, d⟩
    · rw [hm] at h; cases h
    · rw [hm] at h; cases h; exact make_nonneg hm
  · have hd := restored_distance_eq_sum uid color pts t h
    refine ⟨?_, hd.trans (goSum_real _)⟩
    unfold Track.restore at h
    split at h
    · cases h
    rcases hm : makeSegments pts with e | ⟨segs, d⟩
    · rw [hm] at h; cases h
    · rw [hm] at h; cases h; exact make_nonneg hm

theorem track_apply_wf (t : Track ℝ) (op : TrackOp ℝ) (h : WFTrack t) : WFTrack (t.apply op) := by
  cases op with
  | changeColor c => cases c <;> exact h
  | changeName s => simp only [Track.apply, Track.changeName]; split <;> exact h
  | setProps m => exact h

theorem route_apply_wf (r : Route ℝ) (op : RouteOp ℝ)
    (hop : ∀ t, op = .addTrack (some t) → WFTrack t) (h : WFRoute r) : WFRoute (r.apply op) := by
  refine ⟨?_, ?_⟩
  · intro t ht
    cases op with
    | addTrack o =>
      cases o with
      | none => exact h.1 t ht
      | some u =>
        rcases List.mem_append.mp (show t ∈ r.tracks ++ [u] from ht) with ht | ht
        · exact h.1 t ht
        · simp at ht; subst ht; exact hop _ rfl
    | removeTrack id =>
      simp only [Route.apply, Route.removeTrack, removeFirst_eq] at ht
      split at ht
      · exact h.1 t ht
      · split at ht
        · exact h.1 t (List.mem_of_mem_eraseP ht)
        · exact h.1 t ht
    | trackByID id =>
      simp only [Route.apply, Route.trackByID] at ht
      split at ht
      · exact h.1 t ht
      · split at ht <;> exact h.1 t ht
    | changeColor c => cases c <;> exact h.1 t ht
    | changeName s =>
      simp only [Route.apply, Route.changeName] at ht
      split at ht <;> exact h.1 t ht
    | setProps m => exact h.1 t ht
    | onTrack i op =>
      rcases mem_modify ht with ht | ⟨a, ha, rfl⟩
      · exact h.1 t ht
      · exact track_apply_wf a op (h.1 a ha)
  · have := consistent_apply r op (by unfold Consistent; rw [goSum_real]; exact h.2)
    unfold Consistent at this
    rw [goSum_real] at this
    exact this

/-- Routes built through the API from well-formed tracks are well formed. -/
theorem api_route_wf (uid color : String) (ops : List (RouteOp ℝ))
    (hops : ∀ t, .addTrack (some t) ∈ ops → WFTrack t) : WFRoute ((Route.new uid color).run ops) := by
  have : ∀ r : Route ℝ, WFRoute r → WFRoute (r.run ops) := by
    induction ops with
    | nil => intro r h; exact h
    | cons op ops ih =>
      intro r h
      exact ih (fun t ht => hops t (List.mem_cons_of_mem _ ht)) _
        (route_apply_wf r op (fun t ht => hops t (ht ▸ List.mem_cons_self)) h)
  exact this _ ⟨by simp [Route.new], by simp [Route.new]⟩

theorem wf_track_nonneg {t : Track ℝ} (h : WFTrack t) : 0 ≤ t.dist := by
  rw [h.2, ← psum_all _ _ (le_refl _)]
  exact psum_nonneg _ _ h.1 _

theorem wf_route_nonneg {r : Route ℝ} (h : WFRoute r) : 0 ≤ r.dist := by
  rw [h.2, ← psum_all _ _ (le_refl _)]
  exact psum_nonneg _ _ (fun t ht => wf_track_nonneg (h.1 t ht)) _

end GpsGen
