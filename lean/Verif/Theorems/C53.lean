import Verif.Lemmas.Gpx
import Verif.Lemmas.Basic
import Verif.Lemmas.Toy
/-!
# C53: decoding GPX never panics

Any number type, any text form of floats, any parsed document. `validateRoutes` makes every index that the restore
loop uses valid. Contrast with GeoJSON (`C24GeoJSON`).
-/

namespace GpsGen
variable {F : Type}

namespace C53

/-- The computation returned a value; otherwise it panicked. -/
def Returns {α : Type} (g : Go α) : Prop := ∃ a, g = .ok a

theorem index_returns {α : Type} (l : List α) (i : Nat) (h : i < l.length) :
    ∃ a, goIndex l (i : Int) = .ok a ∧ l[i]? = some a := by
  refine ⟨l[i], ?_, List.getElem?_eq_getElem h⟩
  simp [goIndex, List.getElem?_eq_getElem h]

theorem validate_returns (root : List GpxRouteNode) (ts : List (List (List (LatLon F)))) (i : Nat)
    (h : i + ts.length ≤ root.length) : Returns (gpxValidateTracks root i ts) := by
  induction ts generalizing i with
  | nil => exact ⟨_, rfl⟩
  | cons t ts ih =>
    have h : i + (ts.length + 1) ≤ root.length := h
    obtain ⟨node, hn, _⟩ := index_returns root i (by omega)
    obtain ⟨x, hx⟩ := ih (i + 1) (by omega)
    simp only [gpxValidateTracks, hn, ok_bind]
    split
    · exact ⟨_, rfl⟩
    · exact ⟨x, hx⟩

theorem validate_sound (root : List GpxRouteNode) (ts : List (List (List (LatLon F)))) (i : Nat)
    (h : gpxValidateTracks root i ts = .ok (.ok ())) :
    ∀ k segs, ts[k]? = some segs → ∃ node, goIndex root ((i + k : Nat) : Int) = .ok node ∧
      node.nodes.length = segs.length := by
  induction ts generalizing i with
  | nil => intro k segs hk; simp at hk
  | cons t ts ih =>
    intro k segs hk
    simp only [gpxValidateTracks] at h
    cases hn : goIndex root (i : Int) with
    | error p => rw [hn] at h; cases h
    | ok node =>
      rw [hn, ok_bind] at h
      split at h
      · cases h
      · rename_i hl
        cases k with
        | zero =>
          cases hk
          exact ⟨node, hn, by simp only [ne_eq, not_not] at hl; exact hl.symm⟩
        | succ k =>
          have := ih (i + 1) h k segs (by simpa using hk)
          rwa [show i + 1 + k = i + (k + 1) by omega] at this

theorem tracks_return [GoMath F] (T : GpxText F) (root : List GpxRouteNode) (i : Nat) (node : GpxRouteNode)
    (hi : goIndex root (i : Int) = .ok node) (segs : List (List (LatLon F))) (j : Nat)
    (h : j + segs.length ≤ node.nodes.length) (r : Route F) : Returns (gpxRestoreTracks T root i j segs r) := by
  induction segs generalizing j r with
  | nil => exact ⟨_, rfl⟩
  | cons pts segs ih =>
    have h : j + (segs.length + 1) ≤ node.nodes.length := h
    obtain ⟨info, hn, _⟩ := index_returns node.nodes j (by omega)
    simp only [gpxRestoreTracks, hi, hn, ok_bind]
    cases gpxRestoreTrack T info pts with
    | error e => exact ⟨_, rfl⟩
    | ok t => exact ih (j + 1) (by omega) _

theorem routes_return [GoMath F] (T : GpxText F) (root : List GpxRouteNode) (ts : List (List (List (LatLon F))))
    (i : Nat) (h : ∀ k segs, ts[k]? = some segs → ∃ node, goIndex root ((i + k : Nat) : Int) = .ok node ∧
      node.nodes.length = segs.length) : Returns (gpxRestoreRoutes T root i ts) := by
  induction ts generalizing i with
  | nil => exact ⟨_, rfl⟩
  | cons segs ts ih =>
    have ih := ih (i + 1) (fun k s hk => by
      have := h (k + 1) s (by simpa using hk)
      rwa [show i + (k + 1) = i + 1 + k by omega] at this)
    simp only [gpxRestoreRoutes]
    split
    · exact ih
    · obtain ⟨node, hn, hl⟩ := h 0 segs rfl
      rw [Nat.add_zero] at hn
      rw [hn, ok_bind]
      cases gpxRestoreRoute T node.attrs with
      | error e => exact ⟨_, rfl⟩
      | ok route =>
        obtain ⟨x, hx⟩ := tracks_return T root i node hn segs 0 (by omega) route
        obtain ⟨y, hy⟩ := ih
        simp only [hx, ok_bind]
        cases x with
        | error e => exact ⟨_, rfl⟩
        | ok route =>
          simp only [hy, ok_bind]
          cases y <;> exact ⟨_, rfl⟩

/-- **C53.** -/
theorem decode_never_panics [GoMath F] (T : GpxText F) (gen : Nat → Nat → String × String) (d : GpxDoc F) :
    Returns (gpxDecode T gen d) := by
  unfold gpxDecode
  split
  · have hv : Returns (gpxValidate d) := by
      unfold gpxValidate
      split
      · exact ⟨_, rfl⟩
      · rename_i hc
        obtain ⟨root, hr, _⟩ := index_returns d.ext 0 (by omega)
        rw [show ((0 : Nat) : Int) = 0 from rfl] at hr
        rw [hr, ok_bind]
        split
        · exact ⟨_, rfl⟩
        · rename_i hl
          exact validate_returns root.2 d.tracks 0 (by simp only [ne_eq, not_not] at hl; omega)
    obtain ⟨v, hv⟩ := hv
    simp only [hv, ok_bind]
    cases v with
    | error e => exact ⟨_, rfl⟩
    | ok u =>
      unfold gpxValidate at hv
      split at hv
      · cases hv
      · cases hr : goIndex d.ext 0 with
        | error p => rw [hr] at hv; cases hv
        | ok root =>
          rw [hr, ok_bind] at hv
          split at hv
          · cases hv
          · have := validate_sound root.2 d.tracks 0 hv
            exact routes_return T root.2 d.tracks 0 this
  · exact ⟨_, rfl⟩

/-- A document with more GPX tracks than route nodes is rejected, not indexed out of range. -/
theorem mismatch_rejected [GoMath F] (T : GpxText F) (gen : Nat → Nat → String × String) (d : GpxDoc F)
    (nodes : List GpxRouteNode) (rest : List (String × List GpxRouteNode)) (he : d.ext = ("gpsgen", nodes) :: rest)
    (hl : nodes.length ≠ d.tracks.length) : gpxDecode T gen d = .ok (.error .invalidRoute) := by
  have h1 : gpxRoutesExist d = true := by simp [gpxRoutesExist, he]
  have h2 : gpxValidate d = .ok (.error .invalidRoute) := by
    unfold gpxValidate
    split
    · rfl
    · rw [he]
      have : goIndex (("gpsgen", nodes) :: rest) 0 = .ok ("gpsgen", nodes) := rfl
      rw [this, ok_bind, if_pos hl]
  simp only [gpxDecode, h1, if_true, h2, ok_bind]
  rfl

/-- Concrete case: one track node missing. -/
example : gpxDecode (⟨fun _ => none, fun _ => "", fun _ => "", fun _ => "", id⟩ : GpxText Toy) (fun _ _ => ("", ""))
    ⟨[], [[[Toy.pt 0 0, Toy.pt 0 1], [Toy.pt 0 0, Toy.pt 0 1]]], [],
      [("gpsgen", [⟨[("id", "r")], [⟨[], "t"⟩]⟩])]⟩ = .ok (.error .invalidRoute) := by
  decide +kernel

/-- Concrete case: way points win over tracks. -/
example : (match gpxDecode (⟨fun _ => none, fun _ => "", fun _ => "", fun _ => "", id⟩ : GpxText Toy)
    (fun _ k => (s!"{k}", ""))
    ⟨[], [[[Toy.pt 0 0, Toy.pt 0 1]]], [Toy.pt 5 5, Toy.pt 6 6, Toy.pt 7 7], []⟩ with
    | .ok (.ok rs) => rs.map fun r => (r.id, r.tracks.map (·.segments.length))
    | _ => []) = [("0", [2])] := by
  decide +kernel

end C53
end GpsGen
