import Verif.Lemmas.Frame
import Verif.Lemmas.New
import Verif.Lemmas.Demo
import Verif.Theorems.C02
/-!
# C03: the navigator's total distance is the sum of its routes

The full property fails: `Navigator.RemoveTrack`, and `AddTrack`/`RemoveTrack` on a held route, do
not update the total (`stale_after_removeTrack`, `stale_after_addTrack`). The partial theorem covers
all histories without these calls, and histories in which they are followed by a call that
recomputes the total.
-/

namespace GpsGen
variable {F : Type}

namespace C03
open Navigator C02

/-- The total is the left-to-right sum of the distances of the held routes. -/
def InSync [GoFloat F] (n : Navigator F) : Prop := n.distance = goSum (n.routes.map (·.dist))

/-- The operation does not change the tracks of a held route. -/
def KeepsTracks : NavOp F → Prop
  | .removeTrack .. => False
  | .onRoute _ (.addTrack _) => False
  | .onRoute _ (.removeTrack _) => False
  | _ => True

theorem calc_sync [GoFloat F] (n : Navigator F) : InSync n.reset := by
  unfold InSync reset calcRouteDistance resetIndexes goSum
  simp only [List.foldl_map]

theorem addLoop_count (held : List (Route F)) (k : Nat) (l : List (Option (Route F))) :
    k ≤ (addLoop held k l).2 ∧ ((addLoop held k l).2 = k → (addLoop held k l).1 = held) := by
  induction l generalizing held k with
  | nil => simp [addLoop]
  | cons o l ih =>
    cases o with
    | none => exact ih held k
    | some r =>
      unfold addLoop
      split
      · exact ih held k
      · have := (ih (held ++ [r]) (k + 1)).1
        exact ⟨by omega, fun he => by omega⟩

theorem step_sync [GoMath F] (n n' : Navigator F) (op : NavOp F) (hk : KeepsTracks op)
    (hs : InSync n) (h : n.step op = .ok n') : InSync n' := by
  have moving : Moving op → InSync n' := by
    intro hm
    obtain ⟨h1, h2, -⟩ := step_routes_frame hm h
    unfold InSync; rw [h1, h2]; exact hs
  cases op with
  | addRoute rs =>
    cases h
    unfold addRoute
    split
    · exact hs
    · simp only
      split
      · exact calc_sync _
      · have := (addLoop_count n.routes 0 rs).2 (by omega)
        unfold InSync
        simp only [this]
        exact hs
  | removeRoute id =>
    cases h
    unfold removeRoute
    split
    · exact hs
    · simp only
      split
      · exact calc_sync _
      · exact hs
  | removeTrack _ _ => exact hk.elim
  | resetRoutes =>
    cases h
    unfold resetRoutes
    split
    · exact hs
    · exact calc_sync _
  | reset => cases h; exact calc_sync _
  | onRoute i rop =>
    cases h
    have : (n.routes.modify i (fun r => r.apply rop)).map (·.dist) = n.routes.map (·.dist) := by
      apply map_modify_of_eq
      intro r
      cases rop with
      | addTrack _ => exact hk.elim
      | removeTrack _ => exact hk.elim
      | trackByID id =>
        simp only [Route.apply, Route.trackByID]
        split
        · rfl
        · split <;> rfl
      | changeColor c => simp only [Route.apply, Route.changeColor]; split <;> rfl
      | changeName s => simp only [Route.apply, Route.changeName]; split <;> rfl
      | setProps m => rfl
      | onTrack j top => rfl
    unfold InSync
    simp only [this]
    exact hs
  | _ => exact moving trivial

/-- **C03 (partial).** For every number type: after any history without `RemoveTrack` and without
`AddTrack`/`RemoveTrack` on a held route, `Distance()` is the sum of the routes' distances (summed in
route order). Missing for the full property: histories with these calls, for which it is false. -/
theorem distance_eq_sum_partial [GoMath F] (uid : String) (draws : Nat → F)
    (opts : List (NavOption F)) (n : Navigator F) (hn : Navigator.new uid draws opts = .ok n)
    (ops : List (NavOp F)) (hk : ∀ op ∈ ops, KeepsTracks op) (n' : Navigator F)
    (h : n.run ops = .ok n') : n'.distance = goSum (n'.routes.map (·.dist)) := by
  have h0 : InSync n := by obtain ⟨_, _, _, -, -, -, rfl⟩ := new_cases hn; rfl
  change InSync n'
  clear hn
  induction ops generalizing n with
  | nil => cases h; exact h0
  | cons op ops ih =>
    simp only [run] at h
    cases hs : n.step op with
    | error e => rw [hs] at h; cases h
    | ok m =>
      rw [hs] at h
      exact ih m (fun o ho => hk o (List.mem_cons_of_mem _ ho)) h
        (step_sync n m op (hk op List.mem_cons_self) h0 hs)

/-- **C03 (partial), recovery.** From every state, `Reset`, an `AddRoute` that adds a route, a
`RemoveRoute` that removes one and a `ResetRoutes` that removes any restore the equation. -/
theorem resync_partial [GoFloat F] (n : Navigator F) :
    InSync n.reset ∧
    (∀ rs, (n.addRoute rs).1.routes ≠ n.routes → InSync (n.addRoute rs).1) ∧
    (∀ id, (n.removeRoute id).2 = true → InSync (n.removeRoute id).1) ∧
    (n.resetRoutes.2 = true → InSync n.resetRoutes.1) := by
  refine ⟨calc_sync n, fun rs h => ?_, fun id h => ?_, fun h => ?_⟩
  · unfold addRoute at h ⊢
    split at h
    · exact absurd rfl h
    · rename_i hl
      rw [if_neg hl]
      simp only at h ⊢
      split at h
      · rename_i hp; rw [if_pos hp]; exact calc_sync _
      · exact absurd ((addLoop_count n.routes 0 rs).2 (by omega)) h
  · unfold removeRoute at h ⊢
    split at h
    · cases h
    · rename_i hl
      rw [if_neg hl]
      simp only at h ⊢
      split at h
      · rename_i hp; rw [if_pos hp]; exact calc_sync _
      · cases h
  · unfold resetRoutes at h ⊢
    split at h
    · cases h
    · rename_i hl; rw [if_neg hl]; exact calc_sync _

/-- At exact reals `InSync` is the mathematical statement. -/
theorem inSync_real (n : Navigator ℝ) : InSync n ↔ n.distance = (n.routes.map (·.dist)).sum := by
  unfold InSync; rw [goSum_real]

/-- **The full property fails (1).** Removing the only track of the only route leaves the total at
one degree although the routes now have length 0. -/
theorem stale_after_removeTrack :
    ∃ n : Navigator ℝ, (oneNav true).removeTrack "r" "t" = (n, true) ∧
      (n.routes.map (·.dist)).sum = 0 ∧ n.distance = degLen := by
  have h1 : goLen "r" = 1 := by decide
  have h2 : goLen "t" = 1 := by decide
  refine ⟨((oneNav true).removeTrack "r" "t").1, ?_, ?_, ?_⟩ <;>
    simp [removeTrack, h1, h2, routeByID, oneNav, oneRoute, eqRoute, Route.removeTrack, removeFirst,
      eqTrack, updateFirst, Route.updateState, nextVersion]

/-- **The full property fails (2).** Adding a second one-degree track to the held route doubles the
route's length but not the total. -/
theorem stale_after_addTrack :
    ∃ n : Navigator ℝ,
      (oneNav true).step (.onRoute 0 (.addTrack (some (eqTrack "u" "#000000" 1 2)))) = .ok n ∧
      (n.routes.map (·.dist)).sum = 2 * degLen ∧ n.distance = degLen := by
  refine ⟨_, rfl, ?_, rfl⟩
  have h : |(2 : ℝ) - 1| = 1 := by norm_num
  simp [oneNav, oneRoute, eqRoute, Route.apply, Route.addTrack, Route.updateState, eqTrack, h]
  ring

/-- Non-vacuity of the partial theorem: the total is one degree after adding the route and taking a
step. -/
example : ∃ n : Navigator ℝ,
    (freshNav true).run [.addRoute [some oneRoute], .nextLocation 5 1 0] = .ok n ∧
      n.distance = degLen ∧ n.distance = goSum (n.routes.map (·.dist)) := by
  have hd := degLen_gt
  have hs := oneNav_step true 5 1 0 (by linarith)
  have hrun : (freshNav true).run [.addRoute [some oneRoute], .nextLocation 5 1 0] =
      .ok ((oneNav true).land (5 * 1)) := by
    simp [Navigator.run, Navigator.step, oneNav_add, hs]
  refine ⟨_, hrun, rfl, ?_⟩
  exact distance_eq_sum_partial "" (fun _ => (0 : ℝ)) [.skipOffline] _ (freshNav_new true) _
    (by simp [KeepsTracks]) _ hrun

end C03
end GpsGen
