import Verif.Theorems.C22
import Verif.Lemmas.Jump
import Verif.Lemmas.New
import Verif.Lemmas.Preserve
/-!
# Histories in which all tracks have some property

For any number type: `P` holds of the segments of every track that is added, `Q` of the travelled distance.
-/

namespace GpsGen
variable {F : Type}

namespace Held
open Navigator

/-- Every track of the route has the property. -/
def HeldRoute (P : List (Segment F) → Prop) (r : Route F) : Prop := ∀ t ∈ r.tracks, P t.segments

/-- Every track the navigator holds has the property. -/
def Holds (P : List (Segment F) → Prop) (n : Navigator F) : Prop := ∀ r ∈ n.routes, HeldRoute P r

/-- Routes and tracks that are added have the property; steps are allowed ones. -/
def Allowed (P : List (Segment F) → Prop) (S : F → F → Prop) : NavOp F → Prop
  | .addRoute rs => ∀ r, some r ∈ rs → HeldRoute P r
  | .nextLocation t s _ => S t s
  | .onRoute _ (.addTrack (some t)) => P t.segments
  | _ => True

/-- Any history of a navigator: moves, jumps, offline periods, changes of its routes and tracks. -/
inductive Reach [GoMath F] (P : List (Segment F) → Prop) (S : F → F → Prop) : Navigator F → Prop
  | init {uid draws opts n} (h : Navigator.new uid draws opts = .ok n) : Reach P S n
  | step {n op n'} (hr : Reach P S n) (ha : Allowed P S op) (h : n.step op = .ok n') : Reach P S n'

theorem mem_addLoop (l : List (Route F)) (k : Nat) (rs : List (Option (Route F))) (r : Route F)
    (h : r ∈ (addLoop l k rs).1) : r ∈ l ∨ some r ∈ rs := by
  induction rs generalizing l k with
  | nil => exact Or.inl h
  | cons o rs ih =>
    cases o with
    | none => rcases ih l k h with h | h
              · exact Or.inl h
              · exact Or.inr (List.mem_cons_of_mem _ h)
    | some q =>
      unfold addLoop at h
      split at h
      · rcases ih _ _ h with h | h
        · exact Or.inl h
        · exact Or.inr (List.mem_cons_of_mem _ h)
      · rcases ih _ _ h with h | h
        · rcases List.mem_append.mp h with h | h
          · exact Or.inl h
          · simp at h; subst h; exact Or.inr List.mem_cons_self
        · exact Or.inr (List.mem_cons_of_mem _ h)

theorem apply_held [GoFloat F] {P : List (Segment F) → Prop} (r : Route F) (op : RouteOp F)
    (hop : ∀ t, op = .addTrack (some t) → P t.segments) (h : HeldRoute P r) : HeldRoute P (r.apply op) := by
  intro t ht
  cases op with
  | addTrack o =>
    cases o with
    | none => exact h t ht
    | some u =>
      rcases List.mem_append.mp (show t ∈ r.tracks ++ [u] from ht) with ht | ht
      · exact h t ht
      · simp at ht; subst ht; exact hop _ rfl
  | removeTrack id =>
    simp only [Route.apply, Route.removeTrack, removeFirst_eq] at ht
    split at ht
    · exact h t ht
    · split at ht
      · exact h t (List.mem_of_mem_eraseP ht)
      · exact h t ht
  | trackByID id =>
    simp only [Route.apply, Route.trackByID] at ht
    split at ht
    · exact h t ht
    · split at ht <;> exact h t ht
  | changeColor c => cases c <;> exact h t ht
  | changeName s =>
    simp only [Route.apply, Route.changeName] at ht
    split at ht <;> exact h t ht
  | setProps m => exact h t ht
  | onTrack i op =>
    rcases mem_modify ht with ht | ⟨a, ha, rfl⟩
    · exact h t ht
    · have : (a.apply op).segments = a.segments := by
        cases op with
        | changeColor c => cases c <;> rfl
        | changeName s => simp only [Track.apply, Track.changeName]; split <;> rfl
        | setProps m => rfl
      rw [this]
      exact h a ha

/-- One operation keeps the invariant. -/
theorem step_held [GoMath F] {P : List (Segment F) → Prop} {S : F → F → Prop} {Q : F → Prop} (z : Q (lit 0))
    (habs : ∀ d, Q (GoFloat.abs d)) (hadd : ∀ d t s, Q d → S t s → Q (d +. t *. s)) {n n' : Navigator F} {op : NavOp F}
    (ha : Allowed P S op) (h : n.step op = .ok n') (hd : Holds P n) (h0 : Q n.currentSegmentDistance) :
    Holds P n' ∧ Q n'.currentSegmentDistance := by
  have mv : (n' = n ∨ ∃ a b c ok, n.moveToSegment a b c = .ok (n', ok)) →
      Holds P n' ∧ Q n'.currentSegmentDistance := by
    rintro (rfl | ⟨a, b, c, ok, hm⟩)
    · exact ⟨hd, h0⟩
    · rcases moveToSegment_cases hm with ⟨rfl, -⟩ | ⟨s, ht, hne, rfl, -⟩
      · exact ⟨hd, h0⟩
      · exact ⟨hd, z⟩
  cases op with
  | addRoute rs =>
    cases h
    unfold addRoute
    split
    · exact ⟨hd, h0⟩
    · simp only
      have hm : ∀ r ∈ (addLoop n.routes 0 rs).1, HeldRoute P r := by
        intro r hr
        rcases mem_addLoop _ _ _ _ hr with hr | hr
        · exact hd r hr
        · exact ha r hr
      split
      · exact ⟨hm, z⟩
      · exact ⟨hm, h0⟩
  | removeRoute id =>
    cases h
    unfold removeRoute
    split
    · exact ⟨hd, h0⟩
    · simp only [removeFirst_eq]
      split
      · exact ⟨fun r hr => hd r (List.mem_of_mem_eraseP hr), z⟩
      · exact ⟨hd, h0⟩
  | removeTrack rid tid =>
    cases h
    unfold removeTrack
    split
    · exact ⟨hd, h0⟩
    · split
      · exact ⟨hd, h0⟩
      · have hm : ∀ r ∈ updateFirst (fun r : Route F => r.id == rid) (fun r => (r.removeTrack tid).1) n.routes,
            HeldRoute P r := by
          intro r hr
          rcases C22.mem_updateFirst hr with hr | ⟨q, hq, rfl⟩
          · exact hd r hr
          · exact apply_held q (.removeTrack tid) nofun (hd q hq)
        simp only
        split <;> exact ⟨hm, h0⟩
  | resetRoutes =>
    cases h
    unfold resetRoutes
    split
    · exact ⟨hd, h0⟩
    · exact ⟨nofun, z⟩
  | reset => cases h; exact ⟨hd, z⟩
  | moveToSegment _ _ _ => exact mv (move_cases h trivial)
  | moveToRoute _ => exact mv (move_cases h trivial)
  | moveToTrack _ _ => exact mv (move_cases h trivial)
  | moveToRouteByID _ => exact mv (move_cases h trivial)
  | moveToTrackByID _ _ => exact mv (move_cases h trivial)
  | toNextRoute => exact mv (move_cases h trivial)
  | toPrevRoute => exact mv (move_cases h trivial)
  | destinationTo m =>
    cases h
    rcases destinationTo_cases n m with e | ⟨route, ri, rd, track, ti, rd2, crd, s, si, rd3, crd3, ctd, -, -, -, -, -, e⟩
    · rw [e]; exact ⟨hd, h0⟩
    · rw [e]; exact ⟨hd, habs _⟩
  | toOffline x =>
    rcases toOffline_cases h with ⟨-, rfl⟩ | ⟨_, _, _, rfl⟩ <;> exact ⟨hd, h0⟩
  | nextLocation t s x =>
    obtain ⟨b, hs⟩ := map_fst_ok h
    refine nextLocation_preserves (fun m => Holds P m ∧ Q m.currentSegmentDistance)
      (fun m hm _ _ => ⟨hm.1, z⟩) (fun m r hm _ _ => ⟨hm.1, ?_⟩) (fun m r hm _ => ?_)
      (fun m k hm => hm) ⟨hd, h0⟩ hs
    · exact hadd _ _ _ hm.2 ha
    · unfold leaveTrack
      split
      · exact ⟨hm.1, z⟩
      · split <;> exact ⟨hm.1, z⟩
  | isFinish =>
    cases h
    unfold isFinish
    split <;> exact ⟨hd, h0⟩
  | nextElevation t =>
    simp only [Navigator.step, nextElevation] at h
    cases he : n.elevation.next t with
    | error e => rw [he] at h; cases h
    | ok s => rw [he] at h; cases h; exact ⟨hd, h0⟩
  | shuffleElevation draws => cases h; exact ⟨hd, h0⟩
  | onRoute i rop =>
    cases h
    refine ⟨fun r hr => ?_, h0⟩
    rcases mem_modify hr with hr | ⟨q, hq, rfl⟩
    · exact hd r hr
    · refine apply_held q rop ?_ (hd q hq)
      rintro t rfl
      exact ha

/-- The invariant. -/
theorem reach_held [GoMath F] {P : List (Segment F) → Prop} {S : F → F → Prop} {Q : F → Prop} (z : Q (lit 0))
    (habs : ∀ d, Q (GoFloat.abs d)) (hadd : ∀ d t s, Q d → S t s → Q (d +. t *. s)) {n : Navigator F} (h : Reach P S n) :
    Holds P n ∧ Q n.currentSegmentDistance := by
  induction h with
  | init h =>
    obtain ⟨_, _, _, -, -, -, rfl⟩ := new_cases h
    exact ⟨nofun, z⟩
  | step _ ha h ih => exact step_held z habs hadd ha h ih.1 ih.2

end Held
end GpsGen
