import Verif.Lemmas.Moves
import Verif.Lemmas.GeoReal
/-!
# C17: `MoveTo*` moves exactly to existing targets
-/

namespace GpsGen
variable {F : Type}

namespace C17
open Navigator

/-- `(r, t, k)` addresses the existing segment `s`. -/
def Exists (n : Navigator F) (r t k : Int) (s : Segment F) : Prop :=
  ∃ (a b c : Nat) (route : Route F) (track : Track F), r = a ∧ t = b ∧ k = c ∧
    n.routes[a]? = some route ∧ route.tracks[b]? = some track ∧ track.segments[c]? = some s

theorem exists_iff (n : Navigator F) (r t k : Int) (s : Segment F) :
    Exists n r t k s ↔ n.target? r t k = some s := by
  unfold Exists target?
  simp only [Option.bind_eq_some_iff, goAt?_eq_some]
  constructor
  · rintro ⟨a, b, c, route, track, rfl, rfl, rfl, h1, h2, h3⟩
    exact ⟨route, ⟨by omega, h1⟩, track, ⟨by omega, h2⟩, by omega, h3⟩
  · rintro ⟨route, ⟨h0, h1⟩, track, ⟨h2, h3⟩, h4, h5⟩
    exact ⟨r.toNat, t.toNat, k.toNat, route, track, by omega, by omega, by omega, h1, h3, h5⟩

/-- **C17.** For every number type and navigator state `MoveToSegment(r,t,k)` returns normally; it
returns `true` exactly when `(r,t,k)` addresses an existing segment and is not the current position.
In that case the cursor is `(r,t,k)`, the location is the segment's start point, nothing is travelled
in it yet, the navigator is online, and routes, totals, elevation and settings are unchanged;
otherwise nothing at all changes. -/
theorem moveToSegment_spec [GoFloat F] (n : Navigator F) (r t k : Int) :
    ∃ n' ok, n.moveToSegment r t k = .ok (n', ok) ∧
      (ok = true ↔ (∃ s, Exists n r t k s) ∧
        ¬ (n.routeIndex = r ∧ n.trackIndex = t ∧ n.segmentIndex = k)) ∧
      (ok = false → n' = n) ∧
      (ok = true → ∃ s, Exists n r t k s ∧
        n'.routeIndex = r ∧ n'.trackIndex = t ∧ n'.segmentIndex = k ∧ n'.point = s.pointA ∧
        n'.currentSegmentDistance = lit 0 ∧ n'.isOffline = false ∧
        n'.currentTrackDistance =
          (if r = n.routeIndex ∧ t = n.trackIndex then n.currentTrackDistance else lit 0) ∧
        n'.currentRouteDistance = (if r = n.routeIndex then n.currentRouteDistance else lit 0) ∧
        n'.currentDistance = n.currentDistance ∧
        n'.routes = n.routes ∧ n'.distance = n.distance ∧ n'.version = n.version ∧
        n'.elevation = n.elevation ∧ n'.offline = n.offline ∧ n'.skipOffline = n.skipOffline) := by
  rw [moveToSegment_eq]
  by_cases h1 : n.routeIndex = r ∧ n.trackIndex = t ∧ n.segmentIndex = k
  · rw [if_pos h1]
    exact ⟨n, false, rfl, by simp [h1], fun _ => rfl, by simp⟩
  · rw [if_neg h1]
    cases ht : n.target? r t k with
    | none =>
      refine ⟨n, false, rfl, ?_, fun _ => rfl, by simp⟩
      simp [exists_iff, ht]
    | some s =>
      refine ⟨n.movedTo r t k s, true, rfl, ?_, by simp, fun _ => ⟨s, ?_, rfl, rfl, rfl, rfl, rfl, rfl,
        rfl, rfl, rfl, rfl, rfl, rfl, rfl, rfl, rfl⟩⟩
      · simp [exists_iff, ht, h1]
      · rw [exists_iff, ht]

/-- **C17.** `MoveToRoute` and `MoveToTrack` are the special cases with track, segment 0. -/
theorem moveToRoute_spec [GoFloat F] (n : Navigator F) (r t : Int) :
    n.moveToRoute r = n.moveToSegment r 0 0 ∧ n.moveToTrack r t = n.moveToSegment r t 0 :=
  ⟨rfl, rfl⟩

/-- **C17.** `NextRoute`/`PrevRoute` move to the neighbouring route if there is one, and otherwise do
nothing. -/
theorem neighbour_spec [GoFloat F] (n : Navigator F) :
    n.toNextRoute = (if n.routeIndex + 1 < n.routes.length then n.moveToSegment (n.routeIndex + 1) 0 0
      else .ok (n, false)) ∧
    n.toPrevRoute = (if 0 ≤ n.routeIndex - 1 then n.moveToSegment (n.routeIndex - 1) 0 0
      else .ok (n, false)) := by
  constructor
  · unfold toNextRoute moveToRoute
    by_cases h : n.routeIndex + 1 < n.routes.length
    · rw [if_pos h, if_pos (by omega)]
    · rw [if_neg h, if_neg (by omega)]
  · unfold toPrevRoute moveToRoute
    by_cases h : 0 ≤ n.routeIndex - 1
    · rw [if_pos h, if_pos (by omega)]
    · rw [if_neg h, if_neg (by omega)]

/-- Position `i` holds the first element satisfying `p`. -/
def FirstAt {α : Type} (p : α → Bool) (l : List α) (i : Nat) : Prop :=
  (∃ a, l[i]? = some a ∧ p a = true) ∧ ∀ j < i, ∀ a, l[j]? = some a → p a = false

theorem findIdx?_first {α : Type} (p : α → Bool) (l : List α) (i : Nat)
    (h : l.findIdx? p = some i) : FirstAt p l i := by
  rw [List.findIdx?_eq_some_iff_getElem] at h
  obtain ⟨hi, h1, h2⟩ := h
  refine ⟨⟨l[i], by simp [hi], h1⟩, fun j hj a ha => ?_⟩
  have := h2 j hj
  have hl : j < l.length := by omega
  rw [List.getElem?_eq_getElem hl] at ha
  cases ha
  simpa using this

/-- **C17.** `MoveToRouteByID(id)` is `MoveToRoute` of the first route with that ID; if no route has
it (or the ID is empty), nothing changes and the result is `false`. -/
theorem moveToRouteByID_spec [GoFloat F] (n : Navigator F) (id : String) :
    (∃ i, goLen id ≠ 0 ∧ FirstAt (fun r : Route F => r.id == id) n.routes i ∧
      n.moveToRouteByID id = n.moveToSegment i 0 0) ∨
    ((goLen id = 0 ∨ ∀ r ∈ n.routes, r.id ≠ id) ∧ n.moveToRouteByID id = .ok (n, false)) := by
  unfold moveToRouteByID indexRoute moveToRoute
  by_cases h0 : goLen id = 0
  · right; simp [h0]
  · simp only [h0, if_false]
    cases hf : n.routes.findIdx? (fun r => r.id == id) with
    | none =>
      right
      refine ⟨Or.inr ?_, by simp⟩
      intro r hr
      have := List.findIdx?_eq_none_iff.mp hf r hr
      simpa using this
    | some i =>
      left
      refine ⟨i, h0, findIdx?_first _ _ _ hf, ?_⟩
      rw [if_neg (by simp)]

/-- **C17.** `MoveToTrackByID(rid, tid)` is `MoveToTrack` of the first track with ID `tid` in the
first route with ID `rid`; if there is none, nothing changes and the result is `false`. -/
theorem moveToTrackByID_spec [GoFloat F] (n : Navigator F) (rid tid : String) :
    (∃ i j route, goLen rid ≠ 0 ∧ FirstAt (fun r : Route F => r.id == rid) n.routes i ∧
      n.routes[i]? = some route ∧ FirstAt (fun t : Track F => t.id == tid) route.tracks j ∧
      n.moveToTrackByID rid tid = n.moveToSegment i j 0) ∨
    ((goLen rid = 0 ∨ (∀ r ∈ n.routes, r.id ≠ rid) ∨
        ∃ i route, FirstAt (fun r : Route F => r.id == rid) n.routes i ∧ n.routes[i]? = some route ∧
          ∀ t ∈ route.tracks, t.id ≠ tid) ∧
      n.moveToTrackByID rid tid = .ok (n, false)) := by
  unfold moveToTrackByID indexRoute moveToTrack
  by_cases h0 : goLen rid = 0
  · right; simp [h0]
  · simp only [h0, if_false]
    cases hf : n.routes.findIdx? (fun r => r.id == rid) with
    | none =>
      right
      refine ⟨Or.inr (Or.inl ?_), by simp⟩
      intro r hr
      have := List.findIdx?_eq_none_iff.mp hf r hr
      simpa using this
    | some i =>
      have hfirst := findIdx?_first _ _ _ hf
      obtain ⟨⟨route, hroute, -⟩, -⟩ := hfirst
      have hfirst := findIdx?_first _ _ _ hf
      have hgi : goIndex n.routes (i : Int) = .ok route := by
        rw [goIndex_eq_ok, goAt?_natCast]; exact hroute
      simp only
      rw [if_neg (by omega), hgi]
      simp only [ok_bind]
      unfold Route.indexTrack
      cases hft : route.tracks.findIdx? (fun t => t.id == tid) with
      | none =>
        right
        refine ⟨Or.inr (Or.inr ⟨i, route, hfirst, hroute, ?_⟩), by simp⟩
        intro t ht
        have := List.findIdx?_eq_none_iff.mp hft t ht
        simpa using this
      | some j =>
        left
        refine ⟨i, j, route, h0, hfirst, hroute, findIdx?_first _ _ _ hft, ?_⟩
        simp only
        rw [if_neg (by omega)]

/-- A navigator with two routes. -/
noncomputable def two : Navigator ℝ :=
  { freshNav true with
    routes := [eqRoute "a" "t" "#000000" 0 1, eqRoute "b" "u" "#000000" 3 4] }

/-- Non-vacuity: with two routes, moving to route "b" succeeds, moving to route 2 does not. -/
example :
    (∃ n' : Navigator ℝ, two.moveToRouteByID "b" = .ok (n', true) ∧ n'.routeIndex = 1 ∧
      n'.point = eqPt 3) ∧
    two.moveToRoute 2 = .ok (two, false) := by
  have h1 : ("a" == "b") = false := by decide
  have h2 : goLen "b" ≠ 0 := by decide
  have hi : two.indexRoute "b" = 1 := by
    simp [indexRoute, h2, List.findIdx?_cons, two, eqRoute, h1]
  have ht : two.target? 1 0 0 = some (eqSeg 3 4 0 (-1)) := rfl
  have ht2 : two.target? 2 0 0 = none := rfl
  have hr : two.routeIndex = 0 := rfl
  constructor
  · refine ⟨two.movedTo 1 0 0 (eqSeg 3 4 0 (-1)), ?_, rfl, rfl⟩
    simp [moveToRouteByID, hi, moveToRoute, moveToSegment_eq, ht, hr]
  · simp [moveToRoute, moveToSegment_eq, ht2]

end C17
end GpsGen
