import Verif.Lemmas.Safety
import Verif.Lemmas.GeoReal
/-!
# C07: navigation never panics

The full property fails: `DestinationTo` into the third of three routes leaves an invalid route
index (see `never_panics_fails`). What holds is
`never_panics_partial`: no history panics in which `DestinationTo` is called only while at most two
routes are held. For every number type.
-/

namespace GpsGen
variable {F : Type}

namespace C07
open Navigator

/-- All getters of the navigator return normally. -/
def GettersOk [GoFloat F] (n : Navigator F) : Prop :=
  (∃ v, n.currentRoute = .ok v) ∧ (∃ v, n.currentTrack = .ok v) ∧ (∃ v, n.currentSegment = .ok v) ∧
  (∃ v, n.currentBearing = .ok v) ∧ (∃ v, n.routeDistance = .ok v) ∧
  (∃ v, n.trackDistance = .ok v) ∧ (∃ v, n.segmentDistance = .ok v)

/-- A history that calls `DestinationTo` only while at most two routes are held. -/
def Disciplined [GoMath F] (n : Navigator F) : List (NavOp F) → Prop
  | [] => True
  | op :: ops => ((∃ m, op = .destinationTo m) → n.routes.length ≤ 2) ∧
      ∀ n', n.step op = .ok n' → Disciplined n' ops

theorem getters_ok [GoFloat F] (n : Navigator F) (h : n.IndexOk) : GettersOk n := by
  have h1 := currentRoute_eq n h
  have h2 := currentTrack_eq n h
  have h3 := currentSegment_eq' n h
  refine ⟨⟨_, h1⟩, ⟨_, h2⟩, ⟨_, h3⟩, ?_, ?_, ?_, ?_⟩
  · unfold currentBearing; rw [h3]; exact ⟨_, rfl⟩
  · unfold routeDistance; rw [h1]; cases n.route? <;> exact ⟨_, rfl⟩
  · unfold trackDistance; rw [h2]; cases n.track? <;> exact ⟨_, rfl⟩
  · unfold segmentDistance; rw [h3]; exact ⟨_, rfl⟩

theorem run_safe [GoMath F] (ops : List (NavOp F)) (n : Navigator F) (h : Safe n)
    (hd : Disciplined n ops) : ∃ n', n.run ops = .ok n' ∧ Safe n' := by
  induction ops generalizing n with
  | nil => exact ⟨n, rfl, h⟩
  | cons op ops ih =>
    obtain ⟨n1, h1, h2⟩ := step_safe n h op hd.1
    obtain ⟨n2, h3, h4⟩ := ih n1 h2 (hd.2 n1 h1)
    exact ⟨n2, by simp [Navigator.run, h1, h3], h4⟩

/-- **C07 (partial).** A history in which `DestinationTo` is called only while at most two routes
are held runs without panic, from every freshly created navigator, and afterwards every getter and
every further operation (with the same proviso) returns normally.

Missing for the full property: the proviso on `DestinationTo`, which is necessary, see
`never_panics_fails`. -/
theorem never_panics_partial [GoMath F] (uid : String) (draws : Nat → F) (opts : List (NavOption F))
    (n : Navigator F) (hn : Navigator.new uid draws opts = .ok n) (ops : List (NavOp F))
    (hd : Disciplined n ops) :
    ∃ n', n.run ops = .ok n' ∧ GettersOk n' ∧
      ∀ op, ((∃ m, op = .destinationTo m) → n'.routes.length ≤ 2) → ∃ n'', n'.step op = .ok n'' := by
  obtain ⟨n', h1, h2⟩ := run_safe ops n (safe_new uid draws opts n hn) hd
  refine ⟨n', h1, getters_ok n' h2.index, ?_⟩
  intro op hop
  obtain ⟨n'', h3, -⟩ := step_safe n' h2 op hop
  exact ⟨n'', h3⟩

/-- The witness: three routes of one degree each. -/
noncomputable def three : List (Route ℝ) :=
  [eqRoute "r0" "t0" "#000000" 0 1, eqRoute "r1" "t1" "#000000" 1 2,
   eqRoute "r2" "t2" "#000000" 2 3]

/-- The navigator holding them. -/
noncomputable def threeNav : Navigator ℝ :=
  { freshNav true with routes := three, distance := 3 * degLen, version := 1 }

theorem threeNav_add : (freshNav true).addRoute (three.map some) = (threeNav, none) := by
  have h10 : ("r1" == "r0") = false := by decide
  have h20 : ("r2" == "r0") = false := by decide
  have h21 : ("r2" == "r1") = false := by decide
  have e : degLen * |1 - 0| + degLen * |2 - 1| + degLen * |3 - 2| = 3 * degLen := by
    norm_num; ring
  simp [addRoute, three, addLoop, freshNav, hasRoute, eqRoute, h10, h20, h21, reset, resetIndexes,
    calcRouteDistance, nextVersion, threeNav] at e ⊢
  linarith

/-- **The full property fails.** A new navigator is given three routes of one track each, then
`DestinationTo` is called with a distance in the middle of the third route. It reports success with
route index 3, and `CurrentRoute` as well as the next `NextLocation` panic. -/
theorem never_panics_fails :
    ∃ n1 n2 : Navigator ℝ,
      (freshNav true).addRoute (three.map some) = (n1, none) ∧
      n1.destinationTo (5 / 2 * degLen) = (n2, true) ∧
      n2.currentRoute = .error .indexOutOfRange ∧
      (∀ x, n2.nextLocation 1 1 x = .error .indexOutOfRange) ∧
      (freshNav true).run [.addRoute (three.map some), .destinationTo (5 / 2 * degLen),
        .nextLocation 1 1 0] = .error .indexOutOfRange := by
  have hd := degLen_gt
  have key : (threeNav.destinationTo (5 / 2 * degLen)).2 = true ∧
      (threeNav.destinationTo (5 / 2 * degLen)).1.routes = three ∧
      (threeNav.destinationTo (5 / 2 * degLen)).1.routeIndex = 3 ∧
      (threeNav.destinationTo (5 / 2 * degLen)).1.skipOffline = true := by
    have h0 : ¬ (3 * degLen < 5 / 2 * degLen) := by linarith
    have h1 : ¬ (5 / 2 * degLen < 1) := by linarith
    have h2 : ¬ (5 / 2 * degLen < degLen) := by linarith
    have h3 : ¬ (5 / 2 * degLen < degLen + degLen) := by linarith
    have h4 : 5 / 2 * degLen < degLen + (degLen + degLen) := by linarith
    have h5 : |(2:ℝ) - 1| = 1 := by norm_num
    have h6 : |(3:ℝ) - 2| = 1 := by norm_num
    have hne := eqSeg_nonempty 2 3 0 (-1) (by norm_num)
    have hs : (eqSeg 2 3 0 (-1)).dist = degLen := by simp [eqSeg, h6]
    simp [destinationTo, threeNav, three, freshNav, jumpRoutes, eqRoute, h0, h1, h2, h3, h4, h5, h6,
      jumpTracks, eqTrack, jumpSegments, hs, hne]
  obtain ⟨k1, k2, k3, k4⟩ := key
  have hc : (threeNav.destinationTo (5 / 2 * degLen)).1.currentRoute = .error .indexOutOfRange := by
    simp [currentRoute, k2, k3, three, goIndex, bind, Except.bind]
  have hn : ∀ x, (threeNav.destinationTo (5 / 2 * degLen)).1.nextLocation 1 1 x =
      .error .indexOutOfRange := by
    intro x
    generalize (threeNav.destinationTo (5 / 2 * degLen)).1 = m at *
    have hoff : m.nextOffline = (m, false) := by simp [nextOffline, k4]
    have hcs : m.currentSegment = .error .indexOutOfRange := by
      simp [currentSegment, hc, bind, Except.bind]
    have hb : m.loopBudget = 1 := by
      simp [loopBudget, currentTrack, hc, bind, Except.bind]
    simp [nextLocation, k2, three, hoff, hb, nextLoop, isValidDistance, hcs, bind, Except.bind]
  refine ⟨threeNav, (threeNav.destinationTo (5 / 2 * degLen)).1, threeNav_add,
    Prod.ext rfl k1, hc, hn, ?_⟩
  simp [Navigator.run, Navigator.step, threeNav_add, hn]

/-- Non-vacuity of `never_panics_partial`: a disciplined history with two routes, a jump into the
second one and a step. -/
example : ∃ n : Navigator ℝ,
    (freshNav false).run [.addRoute ((three.take 2).map some), .destinationTo (3 / 2 * degLen),
      .nextLocation 1 1 0] = .ok n ∧ GettersOk n := by
  have h10 : ("r1" == "r0") = false := by decide
  obtain ⟨n, h1, h2, -⟩ := never_panics_partial "" (fun _ => (0 : ℝ)) [] (freshNav false)
    (freshNav_new false)
    [.addRoute ((three.take 2).map some), .destinationTo (3 / 2 * degLen), .nextLocation 1 1 0] (by
      refine ⟨by simp, fun n' hn' => ⟨fun _ => ?_, fun n'' _ => ⟨by simp, fun _ _ => trivial⟩⟩⟩
      simp [Navigator.step, addRoute, three, addLoop, freshNav, hasRoute, eqRoute, h10] at hn'
      subst hn'
      simp [reset, resetIndexes, calcRouteDistance, nextVersion])
  exact ⟨n, h1, h2⟩

end C07
end GpsGen
