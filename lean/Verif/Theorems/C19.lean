import Verif.Lemmas.Versions
import Verif.Lemmas.Demo
/-!
# C19: structural changes always change the version

Any number type, any starting state, any history of public operations (including mutation of held
routes and tracks).
-/

namespace GpsGen
variable {F : Type}

namespace C19
open Navigator

/-- The structure of a track: id, name, colour and points. -/
structure TrackShape (F : Type) where
  id : String
  name : String
  color : String
  points : List (LatLon F × LatLon F)

/-- The structure of a route: id, name, colour and tracks. -/
structure RouteShape (F : Type) where
  id : String
  name : String
  color : String
  tracks : List (TrackShape F)

/-- The structure a client can observe: routes, their tracks, names and colours. -/
def shape (n : Navigator F) : List (RouteShape F) :=
  n.routes.map fun r => ⟨r.id, r.name, r.color,
    r.tracks.map fun t => ⟨t.id, t.name, t.color, t.segments.map fun s => (s.pointA, s.pointB)⟩⟩

theorem shape_of_view {n n' : Navigator F} (h : n.routes.map Route.view = n'.routes.map Route.view) :
    shape n = shape n' := by
  have key : ∀ n : Navigator F, shape n = (n.routes.map Route.view).map (fun v =>
      ⟨v.1, v.2.1, v.2.2.1, v.2.2.2.2.map fun t => ⟨t.1, t.2.1, t.2.2.1,
        t.2.2.2.2.2.map fun s => (s.pointA, s.pointB)⟩⟩) := by
    intro n
    simp only [shape, List.map_map, Function.comp_def, Route.view, Track.view]
  rw [key, key, h]

/-- **C19.** If the structure after a history differs from the structure before it, the version sum
differs as well. Since every state of a run is the start of the rest of the run, the sum after a
structural change differs from the sum at *every* earlier moment with another structure. -/
theorem change_is_visible [GoMath F] (n n' : Navigator F) (ops : List (NavOp F))
    (h : n.run ops = .ok n') (hc : shape n ≠ shape n') : n.sum ≠ n'.sum := by
  rcases run_version h with h | ⟨_, h⟩
  · exact h.ne
  · exact absurd (shape_of_view h) hc

/-- **C19, a value never comes back.** If some operation of the history changes the structure, the sum
at the end differs from the sum at the beginning, even if the structure later returns to what it
was. -/
theorem change_is_never_undone [GoMath F] (n m m' n' : Navigator F) (pre post : List (NavOp F))
    (op : NavOp F) (h1 : n.run pre = .ok m) (h2 : m.step op = .ok m') (h3 : m'.run post = .ok n')
    (hc : shape m ≠ shape m') : n.sum ≠ n'.sum := by
  have s2 : Earlier m.sum m'.sum := by
    rcases step_version h2 with h | ⟨_, h⟩
    · exact h
    · exact absurd (shape_of_view h) hc
  have e1 : n.sum = m.sum ∨ Earlier n.sum m.sum := by
    rcases run_version h1 with h | ⟨h, _⟩
    · exact Or.inr h
    · exact Or.inl h
  have e3 : m'.sum = n'.sum ∨ Earlier m'.sum n'.sum := by
    rcases run_version h3 with h | ⟨h, _⟩
    · exact Or.inr h
    · exact Or.inl h
  have : Earlier n.sum n'.sum := by
    rcases e1 with e1 | e1 <;> rcases e3 with e3 | e3
    · rw [e1, ← e3]; exact s2
    · rw [e1]; exact s2.trans e3
    · rw [← e3]; exact e1.trans s2
    · exact e1.trans (s2.trans e3)
  exact this.ne

/-- Converse reading for a client: an unchanged version means that nothing structural happened. -/
theorem same_version_same_structure [GoMath F] (n n' : Navigator F) (ops : List (NavOp F))
    (h : n.run ops = .ok n') (hv : n.sum = n'.sum) : shape n = shape n' :=
  Classical.byContradiction fun hc => change_is_visible n n' ops h hc hv

/-- Non-vacuity: renaming the track of a held route keeps the navigator's own version and the routes'
versions but changes the sum; undoing the colour change does not restore the sum. -/
example : ∃ n', (oneNav true).run [.onRoute 0 (.onTrack 0 (.changeName "abc"))] = .ok n' ∧
    shape (oneNav true) ≠ shape n' ∧ (oneNav true).sum = (1, 1, 0) ∧ n'.sum = (1, 1, 1) := by
  refine ⟨_, rfl, ?_, ?_, ?_⟩
  · simp [shape, oneNav, freshNav, oneRoute, eqRoute, eqTrack, Route.apply, Track.apply,
      Track.changeName, parseName, goLen, List.modify]
    decide
  · simp [sum, oneNav, freshNav, oneRoute, eqRoute, eqTrack]
  · simp [sum, oneNav, freshNav, oneRoute, eqRoute, eqTrack, Route.apply, Track.apply,
      Track.changeName, parseName, goLen, List.modify]
    decide

end C19
end GpsGen
