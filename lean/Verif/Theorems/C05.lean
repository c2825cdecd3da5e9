import Verif.Lemmas.Frame
import Verif.Lemmas.New
import Verif.Lemmas.Lists
import Verif.Lemmas.Demo
/-!
# C05: routes form an insertion-ordered set keyed by ID

The refinement is exact except for ids the lookup functions refuse (empty or longer than 36 bytes):
`RemoveRoute` never removes such a route (`long_id_not_removed`), so the full property is false for
them and the theorem is partial.
-/

namespace GpsGen
variable {F : Type}

namespace C05
open Navigator

/-! ## Specification: an insertion-ordered set with keys -/

/-- Insert unless the key is present. -/
def insertNew (l : List (Route F)) (r : Route F) : List (Route F) :=
  if r.id ∈ l.map (·.id) then l else l ++ [r]

/-- The abstract effect of an operation on the list of routes. -/
def specStep (l : List (Route F)) : NavOp F → List (Route F)
  | .addRoute rs => (rs.filterMap id).foldl insertNew l
  | .removeRoute id => l.filter (fun r => r.id ≠ id)
  | .resetRoutes => []
  | _ => l

/-- Ids that the lookup functions accept. -/
def GoodId (id : String) : Prop := 1 ≤ goLen id ∧ goLen id ≤ 36

/-- The operation neither mutates a held route nor removes by an id the code refuses to look up. -/
def Covered : NavOp F → Prop
  | .removeRoute id => GoodId id
  | .removeTrack .. => False
  | .onRoute .. => False
  | _ => True

def Distinct (l : List (Route F)) : Prop := (l.map (·.id)).Nodup

/-! ## Proof -/

theorem insertNew_distinct {l : List (Route F)} (h : Distinct l) (r : Route F) :
    Distinct (insertNew l r) := by
  unfold insertNew
  split
  · exact h
  · rename_i hn
    unfold Distinct at *
    rw [List.map_append, List.nodup_append]
    refine ⟨h, by simp, ?_⟩
    intro a ha b hb
    simp at hb
    subst hb
    rintro rfl
    exact hn ha

theorem addLoop_spec (l : List (Route F)) (k : Nat) (rs : List (Option (Route F))) :
    (addLoop l k rs).1 = (rs.filterMap id).foldl insertNew l := by
  induction rs generalizing l k with
  | nil => rfl
  | cons o rs ih =>
    cases o with
    | none => exact ih l k
    | some r =>
      simp only [addLoop, List.filterMap_cons, id, List.foldl_cons]
      have : hasRoute l r.id = true ↔ r.id ∈ l.map (·.id) := by
        simp only [hasRoute, List.any_eq_true, beq_iff_eq, List.mem_map]
        constructor
        · rintro ⟨a, ha, h⟩; exact ⟨a, ha, h.symm⟩
        · rintro ⟨a, ha, h⟩; exact ⟨a, ha, h.symm⟩
      by_cases h : hasRoute l r.id = true
      · rw [if_pos h, insertNew, if_pos (this.mp h)]; exact ih l k
      · rw [if_neg h, insertNew, if_neg (mt this.mpr h)]; exact ih _ _

theorem eraseP_eq_filter {l : List (Route F)} (h : Distinct l) (id : String) :
    l.eraseP (fun r => r.id == id) = l.filter (fun r => r.id ≠ id) := by
  induction l with
  | nil => rfl
  | cons a l ih =>
    unfold Distinct at h
    simp only [List.map_cons, List.nodup_cons] at h
    by_cases ha : a.id = id
    · subst ha
      simp only [beq_self_eq_true, List.eraseP_cons_of_pos, ne_eq, decide_not]
      symm
      simp only [decide_true, Bool.not_true, Bool.false_eq_true, not_false_eq_true,
        List.filter_cons_of_neg]
      rw [List.filter_eq_self]
      intro b hb
      simp only [Bool.not_eq_true', decide_eq_false_iff_not]
      intro hc
      exact h.1 (List.mem_map.mpr ⟨b, hb, hc⟩)
    · rw [List.eraseP_cons_of_neg (by simpa using ha), ih h.2, List.filter_cons_of_pos (by simpa using ha)]

theorem addRoute_routes [GoFloat F] (n : Navigator F) (rs : List (Option (Route F))) :
    (n.addRoute rs).1.routes = (addLoop n.routes 0 rs).1 := by
  unfold addRoute
  split
  · rename_i h
    rw [List.length_eq_zero_iff] at h
    subst h; rfl
  · simp only
    split <;> rfl

theorem removeRoute_routes [GoFloat F] (n : Navigator F) (id : String) (hg : GoodId id) :
    (n.removeRoute id).1.routes = n.routes.eraseP (fun r => r.id == id) := by
  unfold removeRoute
  rw [if_neg (by unfold GoodId at hg; omega)]
  simp only [removeFirst_eq]
  split
  · rfl
  · rename_i h
    symm
    apply List.eraseP_of_forall_not
    intro a ha hc
    apply h
    simp only [List.any_eq_true]
    exact ⟨a, ha, hc⟩

theorem resetRoutes_routes [GoFloat F] (n : Navigator F) : n.resetRoutes.1.routes = [] := by
  unfold resetRoutes
  split
  · rename_i h; exact List.length_eq_zero_iff.mp h
  · rfl

theorem step_refines [GoMath F] {n n' : Navigator F} {op : NavOp F} (hc : Covered op)
    (hd : Distinct n.routes) (h : n.step op = .ok n') :
    n'.routes = specStep n.routes op := by
  have moving : Moving op → n'.routes = n.routes := fun hm => (step_routes_frame hm h).1
  cases op with
  | addRoute rs => cases h; exact (addRoute_routes n rs).trans (addLoop_spec _ _ _)
  | removeRoute id =>
    cases h
    exact (removeRoute_routes n id hc).trans (eraseP_eq_filter hd id)
  | removeTrack _ _ => exact hc.elim
  | onRoute _ _ => exact hc.elim
  | resetRoutes => cases h; exact resetRoutes_routes n
  | reset => cases h; rfl
  | _ => exact moving trivial

theorem spec_distinct (l : List (Route F)) (op : NavOp F) (h : Distinct l) :
    Distinct (specStep l op) := by
  cases op with
  | addRoute rs =>
    simp only [specStep]
    generalize rs.filterMap id = rs
    induction rs generalizing l with
    | nil => exact h
    | cons r rs ih => exact ih _ (insertNew_distinct h r)
  | removeRoute id =>
    unfold specStep Distinct
    exact List.Nodup.sublist (List.Sublist.map _ List.filter_sublist) h
  | resetRoutes => exact List.nodup_nil
  | _ => exact h

/-- **C05 (partial).** For every number type, every history (without mutation of held routes, and
removing only by ids of 1..36 bytes) and every set of routes: the navigator holds exactly the list
computed by the insertion-ordered set. Missing for the full property: ids of other lengths. -/
theorem routes_refine_partial [GoMath F] (uid : String) (draws : Nat → F) (opts : List (NavOption F))
    (n : Navigator F) (hn : Navigator.new uid draws opts = .ok n) (ops : List (NavOp F))
    (hc : ∀ op ∈ ops, Covered op) (n' : Navigator F) (h : n.run ops = .ok n') :
    n'.routes = ops.foldl specStep [] := by
  have h0 : n.routes = [] := by obtain ⟨_, _, _, -, -, -, rfl⟩ := new_cases hn; rfl
  rw [← h0]
  have hd : Distinct n.routes := by rw [h0]; exact List.nodup_nil
  clear hn h0
  induction ops generalizing n with
  | nil => cases h; rfl
  | cons op ops ih =>
    simp only [run] at h
    cases hs : n.step op with
    | error e => rw [hs] at h; cases h
    | ok m =>
      rw [hs] at h
      have hr := step_refines (hc op List.mem_cons_self) hd hs
      rw [List.foldl_cons, ← hr]
      exact ih m (fun o ho => hc o (List.mem_cons_of_mem _ ho)) h
        (by rw [hr]; exact spec_distinct _ _ hd)

theorem updateFirst_ids (p : Route F → Bool) (f : Route F → Route F) (hf : ∀ r, (f r).id = r.id)
    (l : List (Route F)) : (updateFirst p f l).map (·.id) = l.map (·.id) := by
  induction l with
  | nil => rfl
  | cons a l ih => unfold updateFirst; split <;> simp [hf, ih]

theorem removeTrack_id [GoFloat F] (r : Route F) (tid : String) : (r.removeTrack tid).1.id = r.id := by
  unfold Route.removeTrack
  split
  · rfl
  · simp only
    split <;> rfl

theorem apply_id [GoFloat F] (r : Route F) (op : RouteOp F) : (r.apply op).id = r.id := by
  cases op with
  | addTrack t => cases t <;> rfl
  | removeTrack id => exact removeTrack_id r id
  | trackByID id =>
    simp only [Route.apply, Route.trackByID]
    split
    · rfl
    · split <;> rfl
  | changeColor c => simp only [Route.apply, Route.changeColor]; split <;> rfl
  | changeName s => simp only [Route.apply, Route.changeName]; split <;> rfl
  | setProps m => rfl
  | onTrack j top => rfl

theorem step_distinct [GoMath F] {n n' : Navigator F} {op : NavOp F}
    (hd : Distinct n.routes) (h : n.step op = .ok n') : Distinct n'.routes := by
  have cov : Covered op → Distinct n'.routes := fun hc => by
    rw [step_refines hc hd h]; exact spec_distinct _ _ hd
  cases op with
  | removeRoute id =>
    by_cases hg : GoodId id
    · exact cov hg
    · cases h
      unfold GoodId at hg
      unfold removeRoute
      rw [if_pos (by omega)]
      exact hd
  | removeTrack rid tid =>
    cases h
    unfold Navigator.removeTrack
    split
    · exact hd
    · split
      · exact hd
      · simp only
        split <;>
        · unfold Distinct at *
          simp only [nextVersion]
          rw [updateFirst_ids _ _ (fun r => removeTrack_id r tid)]
          exact hd
  | onRoute i rop =>
    cases h
    unfold Distinct at *
    simp only
    rw [map_modify_of_eq _ _ (fun r => apply_id r rop)]
    exact hd
  | _ => exact cov trivial

/-- **C05, distinct ids.** After *every* history — including mutation of held routes and ids of any
length — the ids of the held routes are pairwise distinct. -/
theorem ids_distinct [GoMath F] (uid : String) (draws : Nat → F) (opts : List (NavOption F))
    (n : Navigator F) (hn : Navigator.new uid draws opts = .ok n) (ops : List (NavOp F))
    (n' : Navigator F) (h : n.run ops = .ok n') : (n'.routes.map (·.id)).Nodup := by
  have h0 : Distinct n.routes := by
    obtain ⟨_, _, _, -, -, -, rfl⟩ := new_cases hn; exact List.nodup_nil
  clear hn
  induction ops generalizing n with
  | nil => cases h; exact h0
  | cons op ops ih =>
    simp only [run] at h
    cases hs : n.step op with
    | error e => rw [hs] at h; cases h
    | ok m => rw [hs] at h; exact ih m h (step_distinct h0 hs)

/-- **C05, lookups.** `NumRoutes` is the number of routes, `RouteAt(i)` the i-th one (nil outside),
and `RouteByID` returns the held route with that id, if the id has 1..36 bytes. -/
theorem lookups_agree (n : Navigator F) (hd : (n.routes.map (·.id)).Nodup) :
    n.numRoutes = n.routes.length ∧
    (∀ i : Nat, n.routeAt i = n.routes[i]?) ∧ (∀ i < 0, n.routeAt i = none) ∧
    (∀ id r, 1 ≤ goLen id → goLen id ≤ 36 →
      (n.routeByID id = .ok r ↔ r ∈ n.routes ∧ r.id = id)) := by
  refine ⟨rfl, fun i => goAt?_natCast _ _, fun i hi => goAt?_eq_none.mpr (Or.inl hi), ?_⟩
  intro id r h1 h2
  unfold routeByID
  rw [if_neg (by omega)]
  constructor
  · intro h
    split at h
    · rename_i r' hf
      cases h
      exact ⟨List.mem_of_find?_eq_some hf, by simpa using List.find?_some hf⟩
    · cases h
  · rintro ⟨hm, rfl⟩
    have : n.routes.find? (fun r' => r'.id == r.id) = some r := by
      clear h1 h2
      generalize n.routes = l at hm hd
      induction l with
      | nil => simp at hm
      | cons a l ih =>
        simp only [List.map_cons, List.nodup_cons] at hd
        rcases List.mem_cons.mp hm with rfl | hm'
        · simp
        · have : a.id ≠ r.id := fun hc => hd.1 (List.mem_map.mpr ⟨r, hm', hc.symm⟩)
          rw [List.find?_cons_of_neg (by simpa using this)]
          exact ih hm' hd.2
    rw [this]

/-- A route with an id of 40 bytes (a UUID has 36). -/
noncomputable def longRoute : Route ℝ :=
  eqRoute "0123456789012345678901234567890123456789" "t" "#000000" 0 1

/-- **The full property fails**: the route is accepted and listed, but removing it by its id has no
effect. -/
theorem long_id_not_removed :
    ((freshNav true).addRoute [some longRoute]).1.routes = [longRoute] ∧
    (((freshNav true).addRoute [some longRoute]).1.removeRoute longRoute.id) =
      (((freshNav true).addRoute [some longRoute]).1, false) := by
  constructor
  · rw [addRoute_routes]; rfl
  · have h : 36 < goLen longRoute.id := by decide
    unfold removeRoute
    rw [if_pos (Or.inr h)]

/-- Non-vacuity: a duplicate id is skipped, removal takes out exactly that id. -/
example (a b c : Route ℝ) (ha : a.id = "a") (hb : b.id = "b") (hc : c.id = "a") :
    ([.addRoute [some a, none, some b, some c], .removeRoute "a"] : List (NavOp ℝ)).foldl specStep []
      = [b] ∧
    Covered (.removeRoute "a" : NavOp ℝ) := by
  have h1 : goLen "a" = 1 := by decide
  simp [specStep, insertNew, ha, hb, hc, Covered, GoodId, h1]

end C05
end GpsGen
