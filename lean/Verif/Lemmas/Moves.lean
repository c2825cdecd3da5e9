import Verif.Lemmas.Basic
/-!
# Helper lemmas: `MoveToSegment` without panics
-/

namespace GpsGen
variable {F : Type}

namespace Navigator

/-- The segment at an absolute position. -/
def target? (n : Navigator F) (a b c : Int) : Option (Segment F) :=
  (goAt? n.routes a).bind fun r => (goAt? r.tracks b).bind fun t => goAt? t.segments c

/-- The state after a successful move to a different position. -/
def movedTo [GoFloat F] (n : Navigator F) (a b c : Int) (s : Segment F) : Navigator F :=
  { n with point := s.pointA, routeIndex := a, trackIndex := b, segmentIndex := c, offlineIndex := 0
           currentSegmentDistance := lit 0
           currentTrackDistance := if a = n.routeIndex ∧ b = n.trackIndex then n.currentTrackDistance
             else lit 0
           currentRouteDistance := if a = n.routeIndex then n.currentRouteDistance else lit 0 }

theorem moveToSegment_eq [GoFloat F] (n : Navigator F) (a b c : Int) :
    n.moveToSegment a b c =
      if n.routeIndex = a ∧ n.trackIndex = b ∧ n.segmentIndex = c then .ok (n, false) else
      match n.target? a b c with
      | none => .ok (n, false)
      | some s => .ok (n.movedTo a b c s, true) := by
  unfold moveToSegment target?
  by_cases h0 : n.routes.length = 0
  · rw [if_pos h0]
    have : n.routes = [] := List.length_eq_zero_iff.mp h0
    simp [this, goAt?]
  rw [if_neg h0]
  by_cases h1 : n.routeIndex = a ∧ n.trackIndex = b ∧ n.segmentIndex = c
  · rw [if_pos h1, if_pos h1]
  rw [if_neg h1, if_neg h1]
  by_cases h2 : a < 0 ∨ a > (n.routes.length : Int) - 1
  · rw [if_pos h2]
    have : goAt? n.routes a = none := goAt?_eq_none.mpr (by omega)
    simp [this]
  rw [if_neg h2]
  obtain ⟨r, -, hr⟩ := goIndex_ok (l := n.routes) (i := a) (by omega) (by omega)
  rw [hr, goIndex_eq_ok.mp hr]
  simp only [ok_bind, Option.bind_some]
  by_cases h3 : r.tracks.length = 0
  · rw [if_pos h3]
    have : r.tracks = [] := List.length_eq_zero_iff.mp h3
    simp [this, goAt?]
  rw [if_neg h3]
  by_cases h4 : b < 0 ∨ b > (r.tracks.length : Int) - 1
  · rw [if_pos h4]
    have : goAt? r.tracks b = none := goAt?_eq_none.mpr (by omega)
    simp [this]
  rw [if_neg h4]
  have : (r.trackAt b).isSome := goAt?_isSome.mpr (by omega)
  obtain ⟨t, ht⟩ := Option.isSome_iff_exists.mp this
  have ht' : goAt? r.tracks b = some t := ht
  rw [ht, ht']
  simp only [Option.bind_some]
  by_cases h5 : c < 0 ∨ c > (t.segments.length : Int) - 1
  · rw [if_pos h5]
    have : goAt? t.segments c = none := goAt?_eq_none.mpr (by omega)
    simp [this]
  rw [if_neg h5]
  have : (goAt? t.segments c).isSome := goAt?_isSome.mpr (by omega)
  obtain ⟨s, hs⟩ := Option.isSome_iff_exists.mp this
  rw [hs]
  simp only [Except.ok.injEq, Prod.mk.injEq, and_true]
  unfold movedTo Track.segmentAt
  rw [hs]
  by_cases e1 : a = n.routeIndex <;> by_cases e2 : b = n.trackIndex <;>
    by_cases e3 : c = n.segmentIndex <;> simp [e1, e2, e3]
  exact absurd ⟨e1.symm, e2.symm, e3.symm⟩ h1

theorem moveToSegment_cases [GoFloat F] {n n' : Navigator F} {a b c : Int} {ok : Bool}
    (h : n.moveToSegment a b c = .ok (n', ok)) :
    (n' = n ∧ ok = false) ∨
    (∃ s, n.target? a b c = some s ∧ ¬ (n.routeIndex = a ∧ n.trackIndex = b ∧ n.segmentIndex = c) ∧
      n' = n.movedTo a b c s ∧ ok = true) := by
  rw [moveToSegment_eq] at h
  split at h
  · cases h; exact Or.inl ⟨rfl, rfl⟩
  · rename_i hne
    split at h
    · cases h; exact Or.inl ⟨rfl, rfl⟩
    · rename_i s hs
      cases h; exact Or.inr ⟨s, hs, hne, rfl, rfl⟩

/-- Every public move is a `MoveToSegment` or does nothing. -/
theorem move_cases [GoMath F] {n n' : Navigator F} {op : NavOp F} (h : n.step op = .ok n')
    (hop : match op with
      | .moveToSegment .. | .moveToRoute .. | .moveToTrack .. | .moveToRouteByID .. |
        .moveToTrackByID .. | .toNextRoute | .toPrevRoute => True
      | _ => False) :
    n' = n ∨ ∃ a b c ok, n.moveToSegment a b c = .ok (n', ok) := by
  have fst : ∀ {g : Go (Navigator F × Bool)}, g.map (·.1) = .ok n' → ∃ b, g = .ok (n', b) := by
    intro g h
    cases g with
    | error e => cases h
    | ok p => cases h; exact ⟨p.2, rfl⟩
  cases op with
  | moveToSegment r t s => obtain ⟨b, h⟩ := fst h; exact Or.inr ⟨_, _, _, b, h⟩
  | moveToRoute r => obtain ⟨b, h⟩ := fst h; exact Or.inr ⟨_, _, _, b, h⟩
  | moveToTrack r t => obtain ⟨b, h⟩ := fst h; exact Or.inr ⟨_, _, _, b, h⟩
  | moveToRouteByID rid =>
    obtain ⟨b, h⟩ := fst h
    unfold moveToRouteByID at h
    simp only at h
    split at h
    · cases h; exact Or.inl rfl
    · exact Or.inr ⟨_, _, _, b, h⟩
  | moveToTrackByID rid tid =>
    obtain ⟨b, h⟩ := fst h
    unfold moveToTrackByID at h
    simp only at h
    split at h
    · cases h; exact Or.inl rfl
    · cases hg : goIndex n.routes (n.indexRoute rid) with
      | error e => rw [hg] at h; cases h
      | ok r =>
        rw [hg] at h
        simp only [ok_bind] at h
        split at h
        · cases h; exact Or.inl rfl
        · exact Or.inr ⟨_, _, _, b, h⟩
  | toNextRoute =>
    obtain ⟨b, h⟩ := fst h
    unfold toNextRoute at h
    split at h
    · exact Or.inr ⟨_, _, _, b, h⟩
    · cases h; exact Or.inl rfl
  | toPrevRoute =>
    obtain ⟨b, h⟩ := fst h
    unfold toPrevRoute at h
    split at h
    · exact Or.inr ⟨_, _, _, b, h⟩
    · cases h; exact Or.inl rfl
  | _ => exact hop.elim

end Navigator
end GpsGen
