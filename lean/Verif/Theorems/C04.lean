import Verif.Lemmas.GeoReal
/-!
# C04: closed tracks

The full property fails: `isClosed` compares the longitudes only (`latitude_ignored`). Proved: a
track that returns to its start is reported closed, and a track is reported closed exactly when it
has at least three points and ends on the meridian it started from.
-/

namespace GpsGen

namespace C04

/-- Specification: at least three points, and the last point equals the first. -/
def ReturnsToStart (pts : List (LatLon ℝ)) : Prop :=
  3 ≤ pts.length ∧ ∃ p, pts.head? = some p ∧ pts.getLast? = some p

/-- The property as stated in English. -/
def FullProperty : Prop :=
  ∀ (uid color : String) (pts : List (LatLon ℝ)) (t : Track ℝ),
    Track.new uid color pts = .ok t → (t.isClosed = true ↔ ReturnsToStart pts)

theorem new_isClosed {uid color : String} {pts : List (LatLon ℝ)} {t : Track ℝ}
    (h : Track.new uid color pts = .ok t) : t.isClosed = isClosedPts pts := by
  unfold Track.new at h
  rcases hm : makeSegments pts with e | ⟨segs, d⟩
  · rw [hm] at h; cases h
  · rw [hm] at h; cases h; rfl

theorem restore_isClosed {id color : String} {pts : List (LatLon ℝ)} {t : Track ℝ}
    (h : Track.restore id color pts = .ok t) : t.isClosed = isClosedPts pts := by
  unfold Track.restore at h
  split at h
  · cases h
  rcases hm : makeSegments pts with e | ⟨segs, d⟩
  · rw [hm] at h; cases h
  · rw [hm] at h; cases h; rfl

theorem isClosedPts_iff (pts : List (LatLon ℝ)) :
    isClosedPts pts = true ↔
      3 ≤ pts.length ∧ ∃ p q, pts.head? = some p ∧ pts.getLast? = some q ∧ p.lon = q.lon := by
  unfold isClosedPts
  by_cases hl : pts.length < 3
  · rw [if_pos hl]
    constructor
    · intro h; cases h
    · rintro ⟨h, -⟩; omega
  · rw [if_neg hl]
    have hne : pts ≠ [] := by rintro rfl; simp at hl
    obtain ⟨p, hp⟩ := Option.ne_none_iff_exists'.mp (mt List.head?_eq_none_iff.mp hne)
    obtain ⟨q, hq⟩ := Option.ne_none_iff_exists'.mp (mt List.getLast?_eq_none_iff.mp hne)
    rw [hp, hq]
    simp only [real_eq, decide_true, Bool.and_true, decide_eq_true_eq, Option.some.injEq]
    constructor
    · intro h; exact ⟨by omega, p, q, rfl, rfl, h⟩
    · rintro ⟨-, p', q', rfl, rfl, h⟩; exact h

/-- **C04 (partial), what is computed.** A new or restored track is reported closed exactly when it
has at least three points and its last point has the *longitude* of its first point. Missing for the
full property: the latitudes. -/
theorem isClosed_iff_same_meridian_partial (uid color : String) (pts : List (LatLon ℝ)) (t : Track ℝ)
    (h : Track.new uid color pts = .ok t ∨ Track.restore uid color pts = .ok t) :
    t.isClosed = true ↔
      3 ≤ pts.length ∧ ∃ p q, pts.head? = some p ∧ pts.getLast? = some q ∧ p.lon = q.lon := by
  rcases h with h | h
  · rw [new_isClosed h, isClosedPts_iff]
  · rw [restore_isClosed h, isClosedPts_iff]

/-- **C04 (partial), one direction.** A track that returns to its start is reported closed. -/
theorem closed_of_returns_partial (uid color : String) (pts : List (LatLon ℝ)) (t : Track ℝ)
    (h : Track.new uid color pts = .ok t ∨ Track.restore uid color pts = .ok t)
    (hr : ReturnsToStart pts) : t.isClosed = true := by
  obtain ⟨h3, p, hp, hq⟩ := hr
  exact (isClosed_iff_same_meridian_partial uid color pts t h).mpr ⟨h3, p, p, hp, hq, rfl⟩

/-- **C04 (partial), both directions where latitudes agree.** If the first and last points have the
same latitude the English property holds. -/
theorem closed_iff_same_latitude_partial (uid color : String) (pts : List (LatLon ℝ)) (t : Track ℝ)
    (h : Track.new uid color pts = .ok t ∨ Track.restore uid color pts = .ok t)
    (hlat : ∀ p q, pts.head? = some p → pts.getLast? = some q → p.lat = q.lat) :
    t.isClosed = true ↔ ReturnsToStart pts := by
  rw [isClosed_iff_same_meridian_partial uid color pts t h]
  constructor
  · rintro ⟨h3, p, q, hp, hq, hlon⟩
    have hl := hlat p q hp hq
    have : p = q := by cases p; cases q; simp_all
    exact ⟨h3, p, hp, this ▸ hq⟩
  · rintro ⟨h3, p, hp, hq⟩
    exact ⟨h3, p, p, hp, hq, rfl⟩

/-- The track (0,0) → (1,1) → (2,0), written latitude first: it ends two degrees north of its start. -/
noncomputable def bentPts : List (LatLon ℝ) := [⟨0, 0⟩, ⟨1, 1⟩, ⟨2, 0⟩]

/-- **The full property fails**: this track is reported closed. -/
theorem latitude_ignored : ¬ FullProperty := by
  intro hfull
  have hb : ∃ t, Track.new "t" "#000000" bentPts = .ok t := by
    simp [Track.new, makeSegments, bentPts, rawSegments, bind, Except.bind, pure, Except.pure]
  obtain ⟨t, ht⟩ := hb
  have h1 : t.isClosed = true :=
    (isClosed_iff_same_meridian_partial _ _ _ _ (Or.inl ht)).mpr
      ⟨by simp [bentPts], ⟨0, 0⟩, ⟨2, 0⟩, by simp [bentPts], by simp [bentPts], rfl⟩
  obtain ⟨-, p, hp, hq⟩ := (hfull _ _ _ _ ht).mp h1
  simp [bentPts] at hp hq
  rw [← hp] at hq
  simp at hq

/-- Non-vacuity: a triangle is closed, an open path along the equator is not. -/
example : ∃ t u : Track ℝ,
    Track.new "t" "#000000" [⟨0, 0⟩, ⟨1, 1⟩, ⟨1, 0⟩, ⟨0, 0⟩] = .ok t ∧ t.isClosed = true ∧
    Track.new "u" "#000000" [⟨0, 0⟩, ⟨0, 1⟩, ⟨0, 2⟩] = .ok u ∧ u.isClosed = false := by
  simp [Track.new, makeSegments, rawSegments, bind, Except.bind, pure, Except.pure, isClosedPts]

end C04
end GpsGen
