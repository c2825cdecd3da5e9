import Verif.Theorems.C05
/-!
# C06: held routes and tracks can be found and removed by id

The full property fails for ids that are empty or longer than 36 bytes, which are accepted but never
found (`bad_id_never_found`), and for tracks with equal ids, which `AddTrack` accepts
(`duplicate_track_still_found`).
-/

namespace GpsGen
variable {F : Type}

namespace C06
open Navigator C05

/-- **C06 (partial), routes.** After any history, a held route whose id has 1..36 bytes is found by
its id; removing it by its id succeeds, removes exactly this route, and afterwards it is not found.
Missing for the full property: ids of other lengths. -/
theorem route_found_and_removed_partial [GoMath F] (uid : String) (draws : Nat → F)
    (opts : List (NavOption F)) (n : Navigator F) (hn : Navigator.new uid draws opts = .ok n)
    (ops : List (NavOp F)) (n' : Navigator F) (h : n.run ops = .ok n')
    (r : Route F) (hr : r ∈ n'.routes) (h1 : 1 ≤ goLen r.id) (h2 : goLen r.id ≤ 36) :
    n'.routeByID r.id = .ok r ∧
    (n'.removeRoute r.id).2 = true ∧
    (n'.removeRoute r.id).1.routes = n'.routes.filter (fun q => q.id ≠ r.id) ∧
    r ∉ (n'.removeRoute r.id).1.routes ∧
    (n'.removeRoute r.id).1.routeByID r.id = .error .routeNotFound := by
  have hd := ids_distinct uid draws opts n hn ops n' h
  have hrem : (n'.removeRoute r.id).1.routes = n'.routes.filter (fun q => q.id ≠ r.id) :=
    (removeRoute_routes n' r.id ⟨h1, h2⟩).trans (eraseP_eq_filter hd r.id)
  refine ⟨((lookups_agree n' hd).2.2.2 r.id r h1 h2).mpr ⟨hr, rfl⟩, ?_, hrem, ?_, ?_⟩
  · unfold removeRoute
    rw [if_neg (by omega)]
    simp only [removeFirst_eq]
    rw [if_pos]
    simp only [List.any_eq_true]
    exact ⟨r, hr, by simp⟩
  · rw [hrem]; simp
  · unfold routeByID
    rw [if_neg (by omega), hrem]
    have : (n'.routes.filter (fun q => q.id ≠ r.id)).find? (fun q => q.id == r.id) = none := by
      rw [List.find?_eq_none]
      intro q hq
      simp only [ne_eq, decide_not, List.mem_filter, Bool.not_eq_true', decide_eq_false_iff_not] at hq
      simpa using hq.2
    rw [this]

/-- **C06 (partial), tracks.** A held track whose id has 1..36 bytes is found if no earlier track of
the route has the same id; `RemoveTrack` removes it, and if no later track has that id either, it is
not found afterwards. -/
theorem track_found_and_removed_partial [GoFloat F] (r : Route F) (before after : List (Track F))
    (t : Track F) (hts : r.tracks = before ++ t :: after) (hb : ∀ u ∈ before, u.id ≠ t.id)
    (h1 : 1 ≤ goLen t.id) (h2 : goLen t.id ≤ 36) :
    (r.trackByID t.id).2 = some t ∧
    (r.removeTrack t.id).2 = true ∧ (r.removeTrack t.id).1.tracks = before ++ after ∧
    ((∀ u ∈ after, u.id ≠ t.id) →
      ((r.removeTrack t.id).1.trackByID t.id).2 = none) := by
  have hnb : ∀ u ∈ before, ¬ (u.id == t.id) = true := fun u hu => by simpa using hb u hu
  have herase : r.tracks.eraseP (fun u => u.id == t.id) = before ++ after := by
    rw [hts, List.eraseP_append_right _ hnb]
    simp
  have hany : r.tracks.any (fun u => u.id == t.id) = true := by
    rw [List.any_eq_true]; exact ⟨t, by simp [hts], by simp⟩
  have hrem : (r.removeTrack t.id).2 = true ∧ (r.removeTrack t.id).1.tracks = before ++ after := by
    unfold Route.removeTrack
    rw [if_neg (by omega)]
    simp only [removeFirst_eq, hany, if_true]
    exact ⟨trivial, herase⟩
  refine ⟨?_, hrem.1, hrem.2, fun ha => ?_⟩
  · unfold Route.trackByID
    rw [if_neg (by omega)]
    have : r.tracks.find? (fun u => u.id == t.id) = some t := by
      rw [hts, List.find?_append, List.find?_eq_none.mpr hnb]
      simp
    rw [this]
  · unfold Route.trackByID
    rw [if_neg (by omega), hrem.2]
    have : (before ++ after).find? (fun u => u.id == t.id) = none := by
      rw [List.find?_eq_none]
      intro u hu
      rcases List.mem_append.mp hu with hu | hu
      · exact hnb u hu
      · simpa using ha u hu
    rw [this]

/-- **The full property fails (1).** A route with an empty id or one longer than 36 bytes is never
found and never removed, whatever the navigator holds. -/
theorem bad_id_never_found [GoFloat F] (n : Navigator F) (id : String)
    (h : goLen id = 0 ∨ 36 < goLen id) :
    n.routeByID id = .error .routeNotFound ∧ n.removeRoute id = (n, false) := by
  unfold routeByID removeRoute
  rw [if_pos h, if_pos h]
  exact ⟨rfl, rfl⟩

/-- Such a route is nevertheless accepted by `AddRoute`. -/
theorem bad_id_held :
    ((freshNav true).addRoute [some longRoute]).1.routes = [longRoute] ∧ 36 < goLen longRoute.id :=
  ⟨long_id_not_removed.1, by decide⟩

/-- **The full property fails (2).** Adding a track twice and removing it once leaves it in the
route. -/
theorem duplicate_track_still_found (t : Track ℝ) (ht : t.id = "t") :
    let r := ((Route.new "r" "#000000" : Route ℝ).addTrack (some t)).addTrack (some t)
    (r.removeTrack "t").2 = true ∧ ((r.removeTrack "t").1.trackByID "t").2 = some t := by
  have h := track_found_and_removed_partial
    (((Route.new "r" "#000000" : Route ℝ).addTrack (some t)).addTrack (some t)) [] [t] t rfl (by simp)
    (by rw [ht]; decide) (by rw [ht]; decide)
  rw [ht] at h
  refine ⟨h.2.1, ?_⟩
  have hl : goLen "t" = 1 := by decide
  simp [Route.trackByID, hl, h.2.2.1, ht]

/-- Non-vacuity: the one-degree route is held, has a good id, is found and removed. -/
example : (oneNav true).routeByID "r" = .ok oneRoute ∧ ((oneNav true).removeRoute "r").2 = true := by
  have h := route_found_and_removed_partial "" (fun _ => (0 : ℝ)) [.skipOffline] (freshNav true)
    (freshNav_new true) [.addRoute [some oneRoute]] (oneNav true)
    (by simp [Navigator.run, Navigator.step, oneNav_add]) oneRoute (by simp [oneNav])
    (by decide) (by decide)
  exact ⟨h.1, h.2.1⟩

end C06
end GpsGen
