import Verif.Theorems.C19
/-!
# C73: only changes of the structure change the version

The full property fails: `TrackByID`, a lookup, counts as a change (`claim_fails`), and so does renaming to the
same name. `version_iff` says exactly which operations change the version.
-/

namespace GpsGen
variable {F : Type}

namespace C73
open Navigator C19

/-- An id that lookups accept: 1 to 36 bytes. -/
def GoodId (s : String) : Prop := 0 < goLen s ∧ goLen s ≤ 36

/-- A name that is accepted: 3 to 256 bytes. -/
def GoodName (s : String) : Prop := 3 ≤ goLen s ∧ goLen s ≤ 256

/-- The track mutators that are carried out; `changeColor none` is a colour that cannot be parsed. -/
def TrackCause : TrackOp F → Prop
  | .changeColor c => c ≠ none
  | .changeName s => GoodName s
  | .setProps _ => False

/-- The route mutators that are carried out, and the lookups that succeed. -/
def RouteCause (r : Route F) : RouteOp F → Prop
  | .addTrack t => t ≠ none
  | .removeTrack id => GoodId id ∧ ∃ t ∈ r.tracks, t.id = id
  | .trackByID id => GoodId id ∧ ∃ t ∈ r.tracks, t.id = id
  | .changeColor c => c ≠ none
  | .changeName s => GoodName s
  | .setProps _ => False
  | .onTrack i op => i < r.tracks.length ∧ TrackCause op

/-- The operations that change the version of a navigator. -/
def Cause (n : Navigator F) : NavOp F → Prop
  | .addRoute rs => ∃ r, some r ∈ rs ∧ ∀ r' ∈ n.routes, r'.id ≠ r.id
  | .removeRoute id => GoodId id ∧ ∃ r ∈ n.routes, r.id = id
  | .removeTrack rid tid => GoodId rid ∧ GoodId tid ∧
      ∃ r, n.routes.find? (fun r => decide (r.id = rid)) = some r ∧ ∃ t ∈ r.tracks, t.id = tid
  | .resetRoutes => n.routes ≠ []
  | .onRoute i op => ∃ r, n.routes[i]? = some r ∧ RouteCause r op
  | _ => False

theorem goodId_iff (s : String) : (goLen s = 0 ∨ goLen s > 36) ↔ ¬ GoodId s := by
  unfold GoodId; omega

theorem parseName_ok (s : String) : (∃ v, parseName s = .ok v) ↔ GoodName s := by
  unfold parseName GoodName
  split
  · simp; omega
  · split
    · simp; omega
    · simp; omega

/-! ## Tracks and routes -/

theorem track_version (t : Track F) (op : TrackOp F) :
    (t.apply op).version ≠ t.version ↔ TrackCause op := by
  cases op with
  | changeColor c => cases c <;> simp [Track.apply, Track.changeColor, TrackCause]
  | changeName s =>
    have := parseName_ok s
    simp only [Track.apply, Track.changeName, TrackCause]
    cases h : parseName s with
    | error e => rw [h] at this; simp at this; simp [this]
    | ok v => rw [h] at this; simp at this; simp [this]
  | setProps m => simp [Track.apply, TrackCause]

theorem sum_modify {α : Type} (g : α → Int) (f : α → α) (l : List α) (i : Nat) :
    ((l.modify i f).map g).sum - (l.map g).sum = match l[i]? with
      | some a => g (f a) - g a
      | none => 0 := by
  induction l generalizing i with
  | nil => cases i <;> rfl
  | cons a l ih =>
    cases i with
    | zero =>
      simp only [List.modify_zero_cons, List.map_cons, List.sum_cons, List.getElem?_cons_zero]
      show g (f a) + _ - (g a + _) = g (f a) - g a
      omega
    | succ i =>
      have := ih i
      simp only [List.modify_succ_cons, List.map_cons, List.sum_cons, List.getElem?_cons_succ]
      omega

theorem route_version [GoFloat F] (r : Route F) (op : RouteOp F) :
    ((r.apply op).version ≠ r.version ∨ (r.apply op).version = r.version ∧
      (r.apply op).trackVersions ≠ r.trackVersions) ↔ RouteCause r op := by
  cases op with
  | addTrack t => cases t <;> simp [Route.apply, Route.addTrack, Route.updateState, RouteCause]
  | removeTrack id =>
    simp only [Route.apply, Route.removeTrack, RouteCause, removeFirst_eq]
    by_cases hg : GoodId id
    · rw [if_neg (fun h => (goodId_iff id).mp h hg)]
      by_cases hm : ∃ t ∈ r.tracks, t.id = id
      · have : r.tracks.any (fun t => t.id == id) = true := by simpa using hm
        simp only [this, if_true, hg, hm, and_self, iff_true, Route.updateState]
        left; omega
      · have : r.tracks.any (fun t => t.id == id) = false := by simpa using hm
        simp only [this, hm, if_false, Bool.false_eq_true, and_false]
        simp
    · rw [if_pos ((goodId_iff id).mpr hg)]
      simp [hg]
  | trackByID id =>
    simp only [Route.apply, Route.trackByID, RouteCause]
    by_cases hg : GoodId id
    · rw [if_neg (fun h => (goodId_iff id).mp h hg)]
      cases hf : r.tracks.find? (fun t => t.id == id) with
      | none => simp at hf; simp; intro _; exact hf
      | some t =>
        have h1 := List.find?_some hf
        have h2 := List.mem_of_find?_eq_some hf
        simp at h1
        refine ⟨fun _ => ⟨hg, t, h2, h1⟩, fun _ => Or.inl ?_⟩
        simp only; omega
    · rw [if_pos ((goodId_iff id).mpr hg)]
      simp [hg]
  | changeColor c => cases c <;> simp [Route.apply, Route.changeColor, RouteCause]
  | changeName s =>
    have := parseName_ok s
    simp only [Route.apply, Route.changeName, RouteCause]
    cases h : parseName s with
    | error e => rw [h] at this; simp at this; simp [this]
    | ok v => rw [h] at this; simp at this; simp [this]
  | setProps m => simp [Route.apply, RouteCause, Route.trackVersions]
  | onTrack i op =>
    have hs := sum_modify (fun t : Track F => t.version) (fun t => t.apply op) r.tracks i
    simp only [Route.apply, RouteCause, Route.trackVersions, ne_eq, not_true_eq_false, true_and, false_or]
    cases hi : r.tracks[i]? with
    | none =>
      rw [hi] at hs
      have := List.getElem?_eq_none_iff.mp hi
      simp only at hs
      constructor
      · intro h; exact absurd (by omega) h
      · rintro ⟨h, -⟩; omega
    | some t =>
      rw [hi] at hs
      have hl := (List.getElem?_eq_some_iff.mp hi).1
      have ht := track_version t op
      simp only at hs
      rw [← ht]
      constructor
      · intro h; exact ⟨hl, fun e => h (by omega)⟩
      · rintro ⟨-, h⟩ e; exact h (by omega)

/-! ## Navigators -/

theorem addLoop_ok (held : List (Route F)) (k : Nat) (l : List (Option (Route F))) :
    k < (addLoop held k l).2 ↔ ∃ r, some r ∈ l ∧ ∀ r' ∈ held, r'.id ≠ r.id := by
  induction l generalizing held k with
  | nil => simp [addLoop]
  | cons o l ih =>
    cases o with
    | none => simp [addLoop, ih]
    | some r =>
      unfold addLoop
      have hh : hasRoute held r.id = true ↔ ∃ r' ∈ held, r'.id = r.id := by
        simp only [hasRoute, List.any_eq_true, beq_iff_eq]
        exact ⟨fun ⟨x, h1, h2⟩ => ⟨x, h1, h2.symm⟩, fun ⟨x, h1, h2⟩ => ⟨x, h1, h2.symm⟩⟩
      by_cases hc : hasRoute held r.id = true
      · rw [if_pos hc, ih]
        constructor
        · rintro ⟨q, h1, h2⟩; exact ⟨q, List.mem_cons_of_mem _ h1, h2⟩
        · rintro ⟨q, h1, h2⟩
          rcases List.mem_cons.mp h1 with e | h1
          · cases e
            obtain ⟨r', h3, h4⟩ := hh.mp hc
            exact absurd h4 (h2 r' h3)
          · exact ⟨q, h1, h2⟩
      · rw [if_neg hc]
        have := (addLoop_count' (held ++ [r]) (k + 1) l).1
        constructor
        · intro _
          exact ⟨r, by simp, fun r' h1 h2 => hc (hh.mpr ⟨r', h1, h2⟩)⟩
        · intro _; omega

theorem sum_ne_of_version {n n' : Navigator F} (h : n'.version ≠ n.version) : n'.sum ≠ n.sum := by
  rw [sum_eq, sum_eq]
  intro e
  exact h (Prod.mk.inj e).1

theorem sum_of_routes {n n' : Navigator F} (h1 : n'.routes = n.routes) (h2 : n'.version = n.version) :
    n'.sum = n.sum := by
  rw [sum_eq, sum_eq, h1, h2]

/-- **C73, exactly.** For every number type, every state and every operation: the version changes if and only if
the operation is a structural change that is carried out, or a track was looked up by its id. -/
theorem version_iff [GoMath F] (n n' : Navigator F) (op : NavOp F) (h : n.step op = .ok n') :
    n'.sum ≠ n.sum ↔ Cause n op := by
  have moving : Moving op → ¬ Cause n op → (n'.sum ≠ n.sum ↔ Cause n op) := fun hm hc => by
    have ⟨h1, _, h3⟩ := step_routes_frame hm h
    exact ⟨fun h => absurd (sum_of_routes h1 h3) h, fun h => absurd h hc⟩
  cases op with
  | addRoute rs =>
    cases h
    have hc := addLoop_ok n.routes 0 rs
    simp only [Cause]
    rw [← hc]
    unfold addRoute
    split
    · rename_i h0
      have : rs = [] := List.eq_nil_of_length_eq_zero h0
      simp [this, addLoop]
    · simp only
      split
      · rename_i hk
        exact ⟨fun _ => hk, fun _ => sum_ne_of_version (by
          simp only [nextVersion, reset, calcRouteDistance, resetIndexes, ne_eq]; omega)⟩
      · rename_i hk
        have := (addLoop_count' n.routes 0 rs).2 (by omega)
        refine ⟨fun h => absurd ?_ h, fun h => absurd h hk⟩
        exact sum_of_routes this rfl
  | removeRoute id =>
    cases h
    simp only [removeRoute, Cause, removeFirst_eq]
    by_cases hg : GoodId id
    · rw [if_neg (fun h => (goodId_iff id).mp h hg)]
      by_cases hm : ∃ r ∈ n.routes, r.id = id
      · have : n.routes.any (fun r => r.id == id) = true := by simpa using hm
        simp only [this, if_true]
        exact ⟨fun _ => ⟨hg, hm⟩, fun _ => sum_ne_of_version (by
          simp only [nextVersion, reset, calcRouteDistance, resetIndexes, ne_eq]; omega)⟩
      · have : n.routes.any (fun r => r.id == id) = false := by simpa using hm
        simp only [this, hm, if_false, Bool.false_eq_true, and_false]
        simp
    · rw [if_pos ((goodId_iff id).mpr hg)]
      simp [hg]
  | removeTrack rid tid =>
    cases h
    have hb : (fun r : Route F => decide (r.id = rid)) = fun r => r.id == rid := by
      funext r; simp [beq_eq_decide]
    simp only [removeTrack, Cause, hb]
    by_cases hg : GoodId rid
    · by_cases hg' : GoodId tid
      · have hlen : ¬ (goLen rid = 0 ∨ goLen rid > 36 ∨ goLen tid = 0 ∨ goLen tid > 36) := by
          unfold GoodId at hg hg'; omega
        have hlen' : ¬ (goLen rid = 0 ∨ goLen rid > 36) := by unfold GoodId at hg; omega
        simp only [hlen, if_false, routeByID, hlen', hg, hg', true_and]
        cases hf : n.routes.find? (fun r => r.id == rid) with
        | none => simp
        | some r =>
          simp only [Option.some.injEq, exists_eq_left']
          have hr : (r.removeTrack tid).2 = true ↔ ∃ t ∈ r.tracks, t.id = tid := by
            simp only [Route.removeTrack, goodId_iff, hg', not_true_eq_false, if_false, removeFirst_eq]
            by_cases hm : ∃ t ∈ r.tracks, t.id = tid
            · have : r.tracks.any (fun t => t.id == tid) = true := by simpa using hm
              simp [this, hm]
            · have : r.tracks.any (fun t => t.id == tid) = false := by simpa using hm
              simp only [this, hm, if_false, Bool.false_eq_true]
          rw [← hr]
          by_cases hk : (r.removeTrack tid).2 = true
          · simp only [hk, if_true]
            exact ⟨fun _ => trivial, fun _ => sum_ne_of_version (by simp only [nextVersion, ne_eq]; omega)⟩
          · have hk' : (r.removeTrack tid).2 = false := by simpa using hk
            simp only [hk', Bool.false_eq_true, if_false]
            have e := updateFirst_fix _ (fun r => (r.removeTrack tid).1) _ r hf (removeTrack_fix r tid hk')
            rw [e]
            simp
      · have hlen : (goLen rid = 0 ∨ goLen rid > 36 ∨ goLen tid = 0 ∨ goLen tid > 36) := by
          unfold GoodId at hg'; omega
        simp [hlen, hg']
    · have hlen : (goLen rid = 0 ∨ goLen rid > 36 ∨ goLen tid = 0 ∨ goLen tid > 36) := by
        unfold GoodId at hg; omega
      simp [hlen, hg]
  | resetRoutes =>
    cases h
    simp only [resetRoutes, Cause]
    split
    · rename_i h0
      simp [List.eq_nil_of_length_eq_zero h0]
    · rename_i h0
      exact ⟨fun _ e => h0 (by rw [e]; rfl), fun _ => sum_ne_of_version (by
        simp only [nextVersion, reset, calcRouteDistance, resetIndexes, ne_eq]; omega)⟩
  | reset =>
    cases h
    simp only [Cause, iff_false, not_not, ne_eq]
    exact sum_of_routes rfl rfl
  | onRoute i op =>
    cases h
    simp only [Cause]
    have s1 := sum_modify (fun r : Route F => r.version) (fun r => r.apply op) n.routes i
    have s2 := sum_modify Route.trackVersions (fun r : Route F => r.apply op) n.routes i
    rw [sum_eq, sum_eq]
    simp only [ne_eq, Prod.mk.injEq, true_and]
    cases hi : n.routes[i]? with
    | none =>
      rw [hi] at s1 s2
      simp only at s1 s2
      constructor
      · intro h; exact absurd ⟨by omega, by omega⟩ h
      · rintro ⟨r, h, -⟩; cases h
    | some r =>
      rw [hi] at s1 s2
      simp only at s1 s2
      have hr := route_version r op
      simp only [Option.some.injEq, exists_eq_left']
      rw [← hr]
      constructor
      · intro h
        by_cases h1 : (r.apply op).version = r.version
        · right
          refine ⟨h1, fun h2 => h ⟨by omega, by omega⟩⟩
        · left; exact h1
      · rintro (h | ⟨-, h⟩) ⟨e1, e2⟩
        · exact h (by omega)
        · exact h (by omega)
  | _ => exact moving trivial (fun h => h)

/-- Driving, moving, jumping, resetting, going offline and asking for the end of a lap keep the version. -/
theorem driving_keeps [GoMath F] (n n' : Navigator F) (op : NavOp F) (hm : Moving op ∨ op = .reset)
    (h : n.step op = .ok n') : n'.sum = n.sum := by
  by_contra hne
  have := (version_iff n n' op h).mp hne
  rcases hm with hm | rfl
  · cases op <;> first | exact hm | exact this
  · exact this

/-! ## The claim -/

/-- The full property: an operation that leaves the structure as it was leaves the version as it was. -/
def Claim (F : Type) [GoMath F] : Prop :=
  ∀ (n n' : Navigator F) (op : NavOp F), n.step op = .ok n' → shape n' = shape n → n'.sum = n.sum

/-- The exceptions: looking up a track by its id, and giving a name or a colour (which may be the present one). -/
def Exempt : NavOp F → Prop
  | .onRoute _ (.trackByID _) | .onRoute _ (.changeColor _) | .onRoute _ (.changeName _) => True
  | .onRoute _ (.onTrack _ _) => True
  | _ => False

theorem shape_length {n n' : Navigator F} (h : shape n' = shape n) : n'.routes.length = n.routes.length := by
  have := congrArg List.length h
  simpa [shape] using this

/-- The number of tracks. -/
def tracksOf (n : Navigator F) : Int := (n.routes.map fun r => (r.tracks.length : Int)).sum

theorem shape_tracks {n n' : Navigator F} (h : shape n' = shape n) : tracksOf n' = tracksOf n := by
  have := congrArg (fun l : List (RouteShape F) => (l.map fun r => (r.tracks.length : Int)).sum) h
  simpa [shape, tracksOf, Function.comp_def] using this

theorem addLoop_length (held : List (Route F)) (k : Nat) (l : List (Option (Route F))) :
    (addLoop held k l).1.length + k = held.length + (addLoop held k l).2 := by
  induction l generalizing held k with
  | nil => rfl
  | cons o l ih =>
    cases o with
    | none => exact ih held k
    | some r =>
      unfold addLoop
      split
      · exact ih held k
      · have := ih (held ++ [r]) (k + 1)
        simp only [List.length_append, List.length_cons, List.length_nil] at this
        omega

theorem sum_updateFirst {α : Type} (g : α → Int) (p : α → Bool) (f : α → α) (l : List α) (a : α)
    (h : l.find? p = some a) : ((updateFirst p f l).map g).sum - (l.map g).sum = g (f a) - g a := by
  induction l with
  | nil => cases h
  | cons b l ih =>
    unfold updateFirst
    by_cases hb : p b
    · rw [List.find?_cons_of_pos hb] at h
      cases h
      rw [if_pos hb]
      simp only [List.map_cons, List.sum_cons]
      omega
    · rw [List.find?_cons_of_neg hb] at h
      rw [if_neg hb]
      have := ih h
      simp only [List.map_cons, List.sum_cons]
      omega

theorem erase_length {α : Type} (p : α → Bool) (l : List α) (h : ∃ a ∈ l, p a = true) :
    (l.eraseP p).length + 1 = l.length := by
  obtain ⟨a, ha, hp⟩ := h
  have := List.length_eraseP_of_mem ha hp
  have := List.length_pos_of_mem ha
  omega

theorem removeTrack_length [GoFloat F] (r : Route F) (id : String) (hg : GoodId id)
    (hm : ∃ t ∈ r.tracks, t.id = id) : (r.removeTrack id).1.tracks.length + 1 = r.tracks.length := by
  have hany : r.tracks.any (fun t => t.id == id) = true := by simpa using hm
  have := erase_length (fun t : Track F => t.id == id) r.tracks (by simpa using hm)
  unfold Route.removeTrack
  rw [if_neg (fun h => (goodId_iff id).mp h hg), removeFirst_eq]
  simp only [hany, if_true, Route.updateState]
  exact this

/-- **C73, partial.** An operation that leaves the structure as it was leaves the version as it was, unless it
looks up a track by its id or gives a name or a colour. Missing: these calls, for which the claim is false. -/
theorem only_changes_partial [GoMath F] (n n' : Navigator F) (op : NavOp F) (hx : ¬ Exempt op)
    (h : n.step op = .ok n') (hs : shape n' = shape n) : n'.sum = n.sum := by
  by_contra hne
  have hc := (version_iff n n' op h).mp hne
  have hl := shape_length hs
  have ht := shape_tracks hs
  cases op with
  | addRoute rs =>
    cases h
    have hk := (addLoop_ok n.routes 0 rs).mpr hc
    have := addLoop_length n.routes 0 rs
    have hr : rs.length ≠ 0 := by
      intro e
      obtain ⟨r, hr, -⟩ := hc
      rw [List.eq_nil_of_length_eq_zero e] at hr
      cases hr
    unfold addRoute at hl
    rw [if_neg hr] at hl
    simp only [gt_iff_lt, hk, if_true, nextVersion, reset, calcRouteDistance, resetIndexes] at hl
    omega
  | removeRoute id =>
    cases h
    obtain ⟨hg, hm⟩ := hc
    have hany : n.routes.any (fun r => r.id == id) = true := by simpa using hm
    have := erase_length (fun r : Route F => r.id == id) n.routes (by simpa using hm)
    unfold removeRoute at hl
    rw [if_neg (fun h => (goodId_iff id).mp h hg), removeFirst_eq] at hl
    simp only [hany, if_true, nextVersion, reset, calcRouteDistance, resetIndexes] at hl
    omega
  | removeTrack rid tid =>
    cases h
    obtain ⟨hg, hg', r, hf, hm⟩ := hc
    have hb : (fun r : Route F => decide (r.id = rid)) = fun r => r.id == rid := by
      funext r; simp [beq_eq_decide]
    rw [hb] at hf
    have hlen : ¬ (goLen rid = 0 ∨ goLen rid > 36 ∨ goLen tid = 0 ∨ goLen tid > 36) := by
      unfold GoodId at hg hg'; omega
    have hsum := sum_updateFirst (fun r : Route F => (r.tracks.length : Int)) _
      (fun r => (r.removeTrack tid).1) n.routes r hf
    have hcount := removeTrack_length r tid hg' hm
    have key : (n.removeTrack rid tid).1.routes =
        updateFirst (fun r : Route F => r.id == rid) (fun r => (r.removeTrack tid).1) n.routes := by
      unfold removeTrack routeByID
      rw [if_neg hlen, if_neg (fun h => (goodId_iff rid).mp h hg), hf]
      simp only
      split <;> rfl
    unfold tracksOf at ht
    rw [key] at ht
    omega
  | resetRoutes =>
    cases h
    have : n.routes.length ≠ 0 := fun e => hc (List.eq_nil_of_length_eq_zero e)
    unfold resetRoutes at hl
    rw [if_neg this] at hl
    simp only [nextVersion, reset, calcRouteDistance, resetIndexes, List.length_nil] at hl
    omega
  | onRoute i op =>
    cases h
    obtain ⟨r, hi, hc⟩ := hc
    have hsum := sum_modify (fun r : Route F => (r.tracks.length : Int)) (fun r => r.apply op) n.routes i
    rw [hi] at hsum
    simp only at hsum
    unfold tracksOf at ht
    cases op with
    | addTrack t =>
      cases t with
      | none => exact hc rfl
      | some t =>
        simp only [Route.apply, Route.addTrack, Route.updateState, List.length_append, List.length_cons,
          List.length_nil] at hsum ht
        omega
    | removeTrack id =>
      have := removeTrack_length r id hc.1 hc.2
      simp only [Route.apply] at hsum ht
      omega
    | setProps m => exact hc
    | _ => exact hx trivial
  | _ => exact hc

/-- **The full property fails.** Looking up a track by its id changes the version: on a navigator with one route. -/
theorem claim_fails : ¬ Claim ℝ := by
  intro hc
  have := hc (oneNav true) _ (.onRoute 0 (.trackByID "t")) rfl rfl
  refine (version_iff (oneNav true) _ (.onRoute 0 (.trackByID "t")) rfl).mpr ?_ this
  exact ⟨oneRoute, rfl, ⟨by decide, by decide⟩, eqTrack "t" "#000000" 0 1, by simp [oneRoute, eqRoute], rfl⟩

/-! Non-vacuity: both directions on the one-degree route: a drive keeps the version, a new track changes it. -/

example (n' : Navigator ℝ) (h : (oneNav true).step (.nextLocation 1 1 0) = .ok n') :
    n'.sum = (oneNav true).sum := driving_keeps _ _ (.nextLocation 1 1 0) (Or.inl trivial) h

example (n' : Navigator ℝ) (h : (oneNav true).step (.onRoute 0 (.addTrack (some (eqTrack "u" "#000000" 1 2)))) = .ok n') :
    n'.sum ≠ (oneNav true).sum :=
  (version_iff _ _ _ h).mpr ⟨oneRoute, rfl, by simp [RouteCause]⟩

end C73
end GpsGen
