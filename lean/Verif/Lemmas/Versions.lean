import Verif.Lemmas.Frame
import Verif.Lemmas.Lists
/-!
# Helper lemmas: versions grow with every structural change
-/

namespace GpsGen
variable {F : Type}

/-- What a client sees of a track, apart from its properties and version. -/
def Track.view (t : Track F) : String × String × String × F × Bool × List (Segment F) :=
  (t.id, t.name, t.color, t.dist, t.isClosed, t.segments)

/-- What a client sees of a route, apart from its properties and version. -/
def Route.view (r : Route F) :
    String × String × String × F × List (String × String × String × F × Bool × List (Segment F)) :=
  (r.id, r.name, r.color, r.dist, r.tracks.map Track.view)

/-- Lexicographic order on version triples. -/
def Earlier (a b : Int × Int × Int) : Prop :=
  a.1 < b.1 ∨ (a.1 = b.1 ∧ (a.2.1 < b.2.1 ∨ (a.2.1 = b.2.1 ∧ a.2.2 < b.2.2)))

theorem Earlier.trans {a b c : Int × Int × Int} (h1 : Earlier a b) (h2 : Earlier b c) :
    Earlier a c := by
  unfold Earlier at *; omega

theorem Earlier.ne {a b : Int × Int × Int} (h : Earlier a b) : a ≠ b := by
  rintro rfl; unfold Earlier at h; omega

theorem foldl_add_sum {α : Type} (g : α → Int) (l : List α) (a : Int) :
    l.foldl (fun a x => a + g x) a = a + (l.map g).sum := by
  induction l generalizing a with
  | nil => simp
  | cons x l ih => simp only [List.foldl_cons, ih, List.map_cons, List.sum_cons]; omega

/-- Sum of the versions of a route's tracks. -/
def Route.trackVersions (r : Route F) : Int := (r.tracks.map (·.version)).sum

theorem foldl_foldl_sum (l : List (Route F)) (b : Int) :
    l.foldl (fun b r => r.tracks.foldl (fun b t => b + t.version) b) b =
      b + (l.map Route.trackVersions).sum := by
  induction l generalizing b with
  | nil => simp
  | cons r l ih =>
    simp only [List.foldl_cons, ih, List.map_cons, List.sum_cons]
    rw [foldl_add_sum (fun t : Track F => t.version)]
    unfold Route.trackVersions
    omega

theorem Navigator.sum_eq (n : Navigator F) :
    n.sum = (n.version, (n.routes.map (·.version)).sum, (n.routes.map Route.trackVersions).sum) := by
  unfold Navigator.sum
  rw [foldl_add_sum (fun r : Route F => r.version), foldl_foldl_sum]
  simp

/-- One step on a route: the versions grow, or nothing visible changed. -/
def RouteStep (r r' : Route F) : Prop :=
  r.version < r'.version ∨ (r.version = r'.version ∧ r.trackVersions < r'.trackVersions) ∨
  (r.version = r'.version ∧ r.trackVersions = r'.trackVersions ∧ r.view = r'.view)

theorem track_apply_version (t : Track F) (op : TrackOp F) :
    t.version < (t.apply op).version ∨ (t.version = (t.apply op).version ∧ t.view = (t.apply op).view) := by
  cases op with
  | changeColor c =>
    cases c with
    | none => right; exact ⟨rfl, rfl⟩
    | some c => left; simp only [Track.apply, Track.changeColor]; omega
  | changeName s =>
    simp only [Track.apply, Track.changeName]
    cases parseName s with
    | error e => right; exact ⟨rfl, rfl⟩
    | ok s => left; simp only; omega
  | setProps m => right; exact ⟨rfl, rfl⟩

theorem sum_modify_lt_or {α β : Type} (g : α → Int) (v : α → β) (f : α → α)
    (h : ∀ a, g a < g (f a) ∨ (g a = g (f a) ∧ v a = v (f a))) (l : List α) (i : Nat) :
    (l.map g).sum < ((l.modify i f).map g).sum ∨
    ((l.map g).sum = ((l.modify i f).map g).sum ∧ l.map v = (l.modify i f).map v) := by
  induction l generalizing i with
  | nil => right; cases i <;> exact ⟨rfl, rfl⟩
  | cons a l ih =>
    cases i with
    | zero =>
      simp only [List.modify_zero_cons, List.map_cons, List.sum_cons, List.cons.injEq]
      rcases h a with h | ⟨h1, h2⟩
      · left; omega
      · right; exact ⟨by omega, h2, trivial⟩
    | succ i =>
      simp only [List.modify_succ_cons, List.map_cons, List.sum_cons, List.cons.injEq, true_and]
      rcases ih i with h | ⟨h1, h2⟩
      · left; omega
      · right; exact ⟨by omega, h2⟩

theorem route_apply_step [GoFloat F] (r : Route F) (op : RouteOp F) : RouteStep r (r.apply op) := by
  have same : RouteStep r r := Or.inr (Or.inr ⟨rfl, rfl, rfl⟩)
  cases op with
  | addTrack t =>
    cases t with
    | none => exact same
    | some t => left; simp only [Route.apply, Route.addTrack, Route.updateState]; omega
  | removeTrack id =>
    simp only [Route.apply, Route.removeTrack]
    split
    · exact same
    · split
      · left; simp only [Route.updateState]; omega
      · exact same
  | trackByID id =>
    simp only [Route.apply, Route.trackByID]
    split
    · exact same
    · split
      · left; simp only; omega
      · exact same
  | changeColor c =>
    cases c with
    | none => exact same
    | some c => left; simp only [Route.apply, Route.changeColor]; omega
  | changeName s =>
    simp only [Route.apply, Route.changeName]
    split
    · exact same
    · left; simp only; omega
  | setProps m => exact Or.inr (Or.inr ⟨rfl, rfl, rfl⟩)
  | onTrack i op =>
    right
    rcases sum_modify_lt_or (fun t : Track F => t.version) Track.view (fun t => t.apply op)
      (fun t => track_apply_version t op) r.tracks i with h | ⟨h1, h2⟩
    · left; exact ⟨rfl, h⟩
    · right; exact ⟨rfl, h1, by simp only [Route.apply, Route.view, h2]⟩

theorem sums_modify [GoFloat F] (f : Route F → Route F) (hf : ∀ r, RouteStep r (f r))
    (l : List (Route F)) (i : Nat) :
    (l.map (·.version)).sum < ((l.modify i f).map (·.version)).sum ∨
    ((l.map (·.version)).sum = ((l.modify i f).map (·.version)).sum ∧
      ((l.map Route.trackVersions).sum < ((l.modify i f).map Route.trackVersions).sum ∨
      ((l.map Route.trackVersions).sum = ((l.modify i f).map Route.trackVersions).sum ∧
        l.map Route.view = (l.modify i f).map Route.view))) := by
  induction l generalizing i with
  | nil => right; refine ⟨?_, Or.inr ⟨?_, ?_⟩⟩ <;> cases i <;> rfl
  | cons a l ih =>
    cases i with
    | zero =>
      simp only [List.modify_zero_cons, List.map_cons, List.sum_cons, List.cons.injEq]
      rcases hf a with h | ⟨h1, h2⟩ | ⟨h1, h2, h3⟩
      · left; omega
      · right; exact ⟨by omega, by left; omega⟩
      · right; exact ⟨by omega, Or.inr ⟨by omega, h3, trivial⟩⟩
    | succ i =>
      simp only [List.modify_succ_cons, List.map_cons, List.sum_cons, List.cons.injEq, true_and]
      rcases ih i with h | ⟨h1, h2 | ⟨h2, h3⟩⟩
      · left; omega
      · right; exact ⟨by omega, by left; omega⟩
      · right; exact ⟨by omega, Or.inr ⟨by omega, h3⟩⟩

namespace Navigator

/-- One step on a navigator: the version grows, or nothing visible changed. -/
def VersionStep (n n' : Navigator F) : Prop :=
  Earlier n.sum n'.sum ∨ (n.sum = n'.sum ∧ n.routes.map Route.view = n'.routes.map Route.view)

theorem VersionStep.refl (n : Navigator F) : VersionStep n n := Or.inr ⟨rfl, rfl⟩

theorem VersionStep.trans {a b c : Navigator F} (h1 : VersionStep a b) (h2 : VersionStep b c) :
    VersionStep a c := by
  unfold VersionStep at *
  rcases h1 with h1 | ⟨h1, v1⟩
  · rcases h2 with h2 | ⟨h2, v2⟩
    · exact Or.inl (h1.trans h2)
    · left; rw [← h2]; exact h1
  · rcases h2 with h2 | ⟨h2, v2⟩
    · left; rw [h1]; exact h2
    · exact Or.inr ⟨h1.trans h2, v1.trans v2⟩

theorem VersionStep.of_routes {n n' : Navigator F} (h1 : n'.routes = n.routes)
    (h2 : n'.version = n.version) : VersionStep n n' := by
  right
  rw [sum_eq, sum_eq, h1, h2]
  exact ⟨rfl, rfl⟩

theorem VersionStep.of_version {n n' : Navigator F} (h : n.version < n'.version) :
    VersionStep n n' := by
  left
  rw [sum_eq, sum_eq]
  exact Or.inl h

theorem addLoop_count' (held : List (Route F)) (k : Nat) (l : List (Option (Route F))) :
    k ≤ (addLoop held k l).2 ∧ ((addLoop held k l).2 = k → (addLoop held k l).1 = held) := by
  induction l generalizing held k with
  | nil => simp [addLoop]
  | cons o l ih =>
    cases o with
    | none => exact ih held k
    | some r =>
      unfold addLoop
      split
      · exact ih held k
      · have := (ih (held ++ [r]) (k + 1)).1
        exact ⟨by omega, fun he => by omega⟩

theorem updateFirst_fix {α : Type} (p : α → Bool) (f : α → α) (l : List α) (a : α)
    (h : l.find? p = some a) (hf : f a = a) : updateFirst p f l = l := by
  induction l with
  | nil => rfl
  | cons b l ih =>
    unfold updateFirst
    by_cases hb : p b
    · rw [List.find?_cons_of_pos hb] at h
      cases h
      rw [if_pos hb, hf]
    · rw [List.find?_cons_of_neg hb] at h
      rw [if_neg hb, ih h]

theorem removeTrack_fix [GoFloat F] (r : Route F) (id : String) (h : (r.removeTrack id).2 = false) :
    (r.removeTrack id).1 = r := by
  unfold Route.removeTrack at h ⊢
  split at h
  · rename_i hc; rw [if_pos hc]
  · rename_i hc
    rw [if_neg hc]
    simp only at h ⊢
    split at h
    · cases h
    · rename_i hd; rw [if_neg hd]

theorem step_version [GoMath F] {n n' : Navigator F} {op : NavOp F} (h : n.step op = .ok n') :
    VersionStep n n' := by
  have moving : Moving op → VersionStep n n' := fun hm =>
    have ⟨h1, _, h3⟩ := step_routes_frame hm h
    .of_routes h1 h3
  cases op with
  | addRoute rs =>
    cases h
    unfold addRoute
    split
    · exact .refl _
    · simp only
      split
      · exact .of_version (by simp only [nextVersion, reset, calcRouteDistance, resetIndexes]; omega)
      · have := (addLoop_count' n.routes 0 rs).2 (by omega)
        exact .of_routes this rfl
  | removeRoute id =>
    cases h
    unfold removeRoute
    split
    · exact .refl _
    · simp only
      split
      · exact .of_version (by simp only [nextVersion, reset, calcRouteDistance, resetIndexes]; omega)
      · exact .refl _
  | removeTrack rid tid =>
    cases h
    unfold removeTrack
    split
    · exact .refl _
    · rename_i hlen
      cases hr : n.routeByID rid with
      | error e => exact .refl _
      | ok r =>
        simp only
        split
        · exact .of_version (by simp only [nextVersion]; omega)
        · rename_i hf
          have hfind : n.routes.find? (fun r => r.id == rid) = some r := by
            unfold routeByID at hr
            split at hr
            · cases hr
            · split at hr
              · rename_i h; cases hr; exact h
              · cases hr
          refine .of_routes ?_ rfl
          simp only
          exact updateFirst_fix _ _ _ r hfind (removeTrack_fix r tid (by simpa using hf))
  | resetRoutes =>
    cases h
    unfold resetRoutes
    split
    · exact .refl _
    · exact .of_version (by simp only [nextVersion, reset, calcRouteDistance, resetIndexes]; omega)
  | reset => cases h; exact .of_routes rfl rfl
  | onRoute i op =>
    cases h
    unfold VersionStep
    rw [sum_eq, sum_eq]
    rcases sums_modify (fun r => r.apply op) (fun r => route_apply_step r op) n.routes i with
      h | ⟨h1, h2 | ⟨h2, h3⟩⟩
    · left; exact Or.inr ⟨rfl, Or.inl h⟩
    · left; exact Or.inr ⟨rfl, Or.inr ⟨h1, h2⟩⟩
    · right
      refine ⟨?_, h3⟩
      simp only [Prod.mk.injEq, true_and]
      exact ⟨h1, h2⟩
  | _ => exact moving trivial

theorem run_version [GoMath F] {n n' : Navigator F} {ops : List (NavOp F)} (h : n.run ops = .ok n') :
    VersionStep n n' :=
  run_induction (fun m => VersionStep n m) (fun _ _ _ hm hs => hm.trans (step_version hs)) n n' ops
    (.refl _) h

end Navigator
end GpsGen
