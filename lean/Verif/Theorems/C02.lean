import Mathlib.Algebra.BigOperators.Group.List.Basic
import Verif.Model.NumReal
import Verif.Lemmas.Lists
/-!
# C02: track and route lengths are sums

For every number type the length is the left-to-right sum (as the code adds it); over the reals it
is the mathematical sum.
-/

namespace GpsGen
variable {F : Type}

namespace C02

/-- Specification: the sum of a list of numbers, added from left to right. -/
def goSum [GoFloat F] (xs : List F) : F := xs.foldl (· +. ·) (lit 0)

theorem goSum_real (xs : List ℝ) : goSum xs = xs.sum := by
  have : ∀ (a : ℝ), xs.foldl (fun x y : ℝ => x +. y) a = a + xs.sum := by
    induction xs with
    | nil => simp
    | cons x xs ih => intro a; rw [List.foldl_cons, ih, List.sum_cons, real_add]; ring
  unfold goSum
  rw [this]; simp

theorem relate_dist [GoFloat F] (s : Int) (p : Segment F) (rest : List (Segment F)) :
    (relateSegments s p rest).map (·.dist) = (p :: rest).map (·.dist) := by
  induction rest generalizing s p with
  | nil => rfl
  | cons q rest ih => unfold relateSegments; split <;> simp [ih]

theorem makeSegments_dist [GoMath F] {pts : List (LatLon F)} {segs : List (Segment F)} {d : F}
    (h : makeSegments pts = .ok (segs, d)) : d = goSum (segs.map (·.dist)) := by
  unfold makeSegments at h
  split at h
  · cases h
  · simp only at h
    split at h
    · rename_i h'; cases h; rw [h']; rfl
    · rename_i p rest h'
      cases h
      rw [relate_dist, h', goSum, List.foldl_map]

/-- **C02 (tracks).** The length of a new track is the sum of its segment lengths. -/
theorem track_distance_eq_sum [GoMath F] (uid color : String) (pts : List (LatLon F)) (t : Track F)
    (h : Track.new uid color pts = .ok t) : t.dist = goSum (t.segments.map (·.dist)) := by
  unfold Track.new at h
  rcases hm : makeSegments pts with e | ⟨segs, d⟩
  · rw [hm] at h; cases h
  · rw [hm] at h; cases h; exact makeSegments_dist hm

/-- **C02 (restored tracks).** -/
theorem restored_distance_eq_sum [GoMath F] (id color : String) (pts : List (LatLon F))
    (t : Track F) (h : Track.restore id color pts = .ok t) :
    t.dist = goSum (t.segments.map (·.dist)) := by
  unfold Track.restore at h
  split at h
  · cases h
  rcases hm : makeSegments pts with e | ⟨segs, d⟩
  · rw [hm] at h; cases h
  · rw [hm] at h; cases h; exact makeSegments_dist hm

/-- A route whose stored length is the sum of the lengths of its tracks. -/
def Consistent [GoFloat F] (r : Route F) : Prop := r.dist = goSum (r.tracks.map (·.dist))

theorem Track.apply_dist (t : Track F) (op : TrackOp F) : (t.apply op).dist = t.dist := by
  cases op with
  | changeColor c => cases c <;> rfl
  | changeName s =>
    simp only [Track.apply, Track.changeName]
    split <;> rfl
  | setProps m => rfl

theorem consistent_updateState [GoFloat F] (r : Route F) : Consistent r.updateState := by
  simp [Consistent, Route.updateState, goSum, List.foldl_map]

theorem consistent_apply [GoFloat F] (r : Route F) (op : RouteOp F) (h : Consistent r) :
    Consistent (r.apply op) := by
  cases op with
  | addTrack t =>
    cases t with
    | none => exact h
    | some t => exact consistent_updateState { r with tracks := r.tracks ++ [t] }
  | removeTrack id =>
    simp only [Route.apply, Route.removeTrack]
    split
    · exact h
    · simp only [removeFirst_eq]
      split
      · exact consistent_updateState _
      · exact h
  | trackByID id =>
    simp only [Route.apply, Route.trackByID]
    split
    · exact h
    · split <;> exact h
  | changeColor c => cases c <;> exact h
  | changeName s =>
    simp only [Route.apply, Route.changeName]
    split <;> exact h
  | setProps m => exact h
  | onTrack i op =>
    unfold Consistent at h ⊢
    simp only [Route.apply]
    rw [map_modify_of_eq _ _ (fun t => Track.apply_dist t op)]
    exact h

/-- **C02 (routes).** After any history of route operations the length of the route is the sum of
the lengths of the tracks it currently holds. -/
theorem route_distance_eq_sum [GoFloat F] (uid color : String) (ops : List (RouteOp F)) :
    ((Route.new uid color : Route F).run ops).dist =
      goSum (((Route.new uid color : Route F).run ops).tracks.map (·.dist)) := by
  have : ∀ (r : Route F), Consistent r → Consistent (r.run ops) := by
    induction ops with
    | nil => intro r h; exact h
    | cons op ops ih => intro r h; exact ih _ (consistent_apply r op h)
  exact this _ rfl

/-- The same for `RestoreRoute` and for `RouteFromTracks`. -/
theorem restored_route_distance_eq_sum [GoFloat F] (id color : String) (props : Option (PMap F))
    (ops : List (RouteOp F)) :
    ((Route.restore id color props : Route F).run ops).dist =
      goSum (((Route.restore id color props : Route F).run ops).tracks.map (·.dist)) := by
  have : ∀ (r : Route F), Consistent r → Consistent (r.run ops) := by
    induction ops with
    | nil => intro r h; exact h
    | cons op ops ih => intro r h; exact ih _ (consistent_apply r op h)
  exact this _ rfl

/-- **C02 over the reals.** The length of a route is the sum over its tracks. -/
theorem route_distance_real (uid color : String) (ops : List (RouteOp ℝ)) :
    ((Route.new uid color : Route ℝ).run ops).dist =
      (((Route.new uid color : Route ℝ).run ops).tracks.map (·.dist)).sum := by
  rw [route_distance_eq_sum, goSum_real]

/-- **C02 over the reals.** The length of a track is the sum over its segments. -/
theorem track_distance_real (uid color : String) (pts : List (LatLon ℝ)) (t : Track ℝ)
    (h : Track.new uid color pts = .ok t) : t.dist = (t.segments.map (·.dist)).sum := by
  rw [track_distance_eq_sum uid color pts t h, goSum_real]

/-- Non-vacuity: adding two tracks of lengths 3 and 4 and removing the first leaves 4. -/
example (t u : Track ℝ) (ht : t.dist = 3) (hu : u.dist = 4) (hti : t.id = "t") (hui : u.id = "u") :
    ((Route.new "r" "#fff" : Route ℝ).run
      [.addTrack (some t), .addTrack (some u)]).dist = 7 ∧
    ((Route.new "r" "#fff" : Route ℝ).run
      [.addTrack (some t), .addTrack (some u), .removeTrack "t"]).dist = 4 := by
  have l1 : goLen "t" = 1 := by decide
  constructor
  · rw [route_distance_real]
    simp [Route.run, Route.apply, Route.addTrack, Route.new, Route.updateState, ht, hu]
    norm_num
  · rw [route_distance_real]
    simp [Route.run, Route.apply, Route.addTrack, Route.new, Route.updateState, Route.removeTrack,
      removeFirst_eq, l1, hti, hui, hu]

end C02
end GpsGen
