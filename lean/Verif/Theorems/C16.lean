import Verif.Lemmas.Frame
import Verif.Lemmas.New
import Verif.Lemmas.Jump
import Verif.Lemmas.Demo
/-!
# C16: `IsFinish` reports each completed lap exactly once

The full property fails because the end of a lap is only marked by the value 0.1 of
`CurrentDistance()`: a first step of 0.1 m is reported as a finished lap (`spurious_finish`).
The positive theorem covers histories whose steps are longer than 0.1 m; exact arithmetic.
-/

namespace GpsGen

namespace C16
open Navigator

/-- The cursor is on the first segment of the first track of the first route. -/
def atStart (n : Navigator ℝ) : Bool :=
  n.routeIndex == 0 && n.trackIndex == 0 && n.segmentIndex == 0

/-- This `NextLocation` call completes a lap: the navigator is online with its cursor in the last
track of the last route, and the call brings the cursor back to the start without landing on the
track. -/
def CompletesLap (n n' : Navigator ℝ) (landed : Bool) : Prop :=
  n.isOffline = false ∧ landed = false ∧ n.routes ≠ [] ∧ n.routeIndex + 1 = n.routes.length ∧
  (∀ r, n.routes[n.routeIndex.toNat]? = some r → (r.tracks.length : Int) ≤ n.trackIndex + 1) ∧
  atStart n' = true

/-- A history with a flag "a completed lap has not been reported yet". The flag is raised by a
completed lap. It is lowered when it is reported, when the next lap is under way (a step or a jump
was made) and when the cursor was reset because the routes changed. `ans` is the answer of an
`IsFinish` call. -/
inductive Step : Navigator ℝ → Bool → NavOp ℝ → Navigator ℝ → Bool → Option Bool → Prop
  | lap {n n' t s x p} (h : n.nextLocation t s x = .ok (n', false)) (hl : CompletesLap n n' false) :
      Step n p (.nextLocation t s x) n' true none
  | noLap {n n' t s x p} (h : n.nextLocation t s x = .ok (n', false))
      (hl : ¬ CompletesLap n n' false) : Step n p (.nextLocation t s x) n' p none
  | landed {n n' t s x p} (h : n.nextLocation t s x = .ok (n', true)) :
      Step n p (.nextLocation t s x) n' false none
  | isFinish {n p} : Step n p .isFinish n.isFinish.1 (p && !n.isFinish.2) (some n.isFinish.2)
  | jump {n m p} : Step n p (.destinationTo m) (n.destinationTo m).1
      (p && !(n.destinationTo m).2) none
  | reset {n p} : Step n p .reset n.reset false none
  | addRoute {n rs p} : Step n p (.addRoute rs) (n.addRoute rs).1
      (p && decide ((n.addRoute rs).1.routes.length = n.routes.length)) none
  | removeRoute {n id p} : Step n p (.removeRoute id) (n.removeRoute id).1
      (p && !(n.removeRoute id).2) none
  | resetRoutes {n p} : Step n p .resetRoutes n.resetRoutes.1 (p && !n.resetRoutes.2) none
  | other {n op n' p} (h : n.step op = .ok n')
      (hop : match op with
        | .nextLocation .. | .isFinish | .destinationTo .. | .reset | .addRoute .. | .removeRoute ..
        | .resetRoutes => False
        | _ => True) : Step n p op n' p none

/-- All steps of the history are longer than 0.1 m. -/
def LongStep : NavOp ℝ → Prop
  | .nextLocation t s _ => 1 / 10 < t * s
  | _ => True

/-- States reachable from a new navigator by long steps, with the flag. -/
inductive Reach : Navigator ℝ → Bool → Prop
  | init {uid draws opts n} (h : Navigator.new uid draws opts = .ok n) : Reach n false
  | step {n p op n' p' ans} (hr : Reach n p) (hl : LongStep op) (h : Step n p op n' p' ans) :
      Reach n' p'

/-- The relation between marker and flag. -/
def Marked (n : Navigator ℝ) (p : Bool) : Prop :=
  0 ≤ n.currentDistance ∧ (n.currentDistance = 1 / 10 ↔ p = true) ∧
  (n.skipOffline = true → n.offlineIndex ≤ 0)

theorem destinationTo_dist (n : Navigator ℝ) (m : ℝ) (h : (n.destinationTo m).2 = true) :
    1 ≤ (n.destinationTo m).1.currentDistance := by
  rcases destinationTo_cases n m with h' | ⟨_, ri, _, _, ti, _, _, sg, si, rd, crd, ctd, hd, -, -, -, -, h'⟩
  · rw [h'] at h; cases h
  · rw [h']
    simp at hd
    simp only [jumped, real_add, real_abs, real_sub]
    have := le_abs_self (n.jumpDist m - rd)
    linarith

/-- What a `NextLocation` call does to the marker. -/
theorem nextLocation_marker (n n' : Navigator ℝ) (t s : ℝ) (x : UInt32) (b : Bool)
    (hskip : n.skipOffline = true → n.offlineIndex ≤ 0)
    (h : n.nextLocation t s x = .ok (n', b)) :
    (b = true ∧ n'.currentDistance = n.currentDistance + t * s) ∨
    (b = false ∧ CompletesLap n n' false ∧ n'.currentDistance = 1 / 10) ∨
    (b = false ∧ ¬ CompletesLap n n' false ∧ n'.currentDistance = n.currentDistance) := by
  rcases nextLocation_cases n n' t s x b h with ⟨hr, rfl, rfl⟩ | ⟨ho, rfl, rfl⟩ | ⟨r, hr, hon, j, hj, he⟩
  · exact Or.inr (Or.inr ⟨rfl, fun hc => hc.2.2.1 hr, rfl⟩)
  · refine Or.inr (Or.inr ⟨rfl, fun hc => ?_, rfl⟩)
    have h1 := hc.1
    rw [nextOffline_eq] at ho
    simp [isOffline] at h1 ho
    omega
  have hoff : n.isOffline = false := by
    rw [nextOffline_eq] at hon
    cases hs : n.skipOffline with
    | true => have := hskip hs; simp [isOffline]; omega
    | false => simpa [hs, isOffline] using hon
  have hr' := goAt?_eq_some.mp hr
  have hcd : (n.skipTo j).currentDistance = n.currentDistance := by cases j <;> rfl
  have hri := goAt?_isSome.mp (show (goAt? n.routes n.routeIndex).isSome by
    unfold route? at hr; rw [hr]; rfl)
  have hlast : ∀ r', n.routes[n.routeIndex.toNat]? = some r' → r' = r := by
    intro r' h; rw [hr'.2] at h; cases h; rfl
  generalize hres : (Except.ok (n', b) : Go (Navigator ℝ × Bool)) = res at he
  cases he with
  | land hf =>
    cases hres
    left
    exact ⟨rfl, by rw [← hcd]; rfl⟩
  | unrelated h1 h2 h3 h4 =>
    cases ho : ((n.skipTo j).advanceSegment.toOffline x) with
    | error e => rw [ho] at hres; cases hres
    | ok m =>
      rw [ho] at hres; cases hres
      have hsi : 0 ≤ (n.skipTo j).segmentIndex := by
        have := curSeg_nonempty _ h2
        unfold seg? at this
        simp only [Option.bind_eq_some_iff] at this
        obtain ⟨t, -, ht⟩ := this
        exact (goAt?_eq_some.mp ht).1
      right; right
      have hm : n'.segmentIndex = (n.skipTo j).segmentIndex + 1 ∧
          n'.currentDistance = n.currentDistance := by
        rcases toOffline_cases ho with ⟨-, rfl⟩ | ⟨-, r', -, rfl⟩ <;> exact ⟨rfl, hcd⟩
      refine ⟨rfl, fun hc => ?_, hm.2⟩
      have := hc.2.2.2.2.2
      simp [atStart, hm.1] at this
      omega
  | leave h1 h2 =>
    cases ho : (((n.skipTo j).leaveTrack r).toOffline x) with
    | error e => rw [ho] at hres; cases hres
    | ok m =>
      rw [ho] at hres; cases hres
      right
      have hm : atStart n' = atStart ((n.skipTo j).leaveTrack r) ∧
          n'.currentDistance = ((n.skipTo j).leaveTrack r).currentDistance := by
        rcases toOffline_cases ho with ⟨-, rfl⟩ | ⟨-, r', -, rfl⟩ <;> exact ⟨rfl, rfl⟩
      have e1 := skipTo_trackIndex n j
      have e2 := skipTo_routeIndex n j
      have e3 := skipTo_routes n j
      unfold leaveTrack at hm
      rw [e1, e2, e3] at hm
      by_cases c1 : n.trackIndex < r.numTracks - 1
      · right
        rw [if_pos c1] at hm
        refine ⟨rfl, fun hc => ?_, hm.2.trans hcd⟩
        have := hc.2.2.2.2.1 r hr'.2
        unfold Route.numTracks at c1
        omega
      · rw [if_neg c1] at hm
        by_cases c2 : n.routeIndex < (n.routes.length : Int) - 1
        · right
          rw [if_pos c2] at hm
          refine ⟨rfl, fun hc => ?_, hm.2.trans hcd⟩
          have := hc.2.2.2.1
          omega
        · left
          rw [if_neg c2] at hm
          refine ⟨rfl, ⟨hoff, rfl, ?_, by omega, ?_, hm.1⟩, ?_⟩
          · intro hnil; rw [hnil] at hri; simp at hri; omega
          · intro r' h'
            rw [hlast r' h']
            unfold Route.numTracks at c1
            omega
          · rw [hm.2]; simp

/-- One operation keeps the relation. -/
theorem step_marked {n n' : Navigator ℝ} {p p' : Bool} {op : NavOp ℝ} {ans : Option Bool} (hm : Marked n p)
    (hl : LongStep op) (h : Step n p op n' p' ans) : Marked n' p' := by
  obtain ⟨i1, i2, i3⟩ := hm
  have off : ∀ {m : Navigator ℝ}, OfflineFrame n m → (m.skipOffline = true → m.offlineIndex ≤ 0) := by
    intro m hf hs
    rw [hf.skip] at hs
    cases hf.change with
    | keep h => rw [h]; exact i3 hs
    | zero h => rw [h]
    | dec h1 _ _ => rw [hs] at h1; cases h1
    | draw h1 _ _ _ _ => rw [hs] at h1; cases h1
  cases h with
  | lap h hlap =>
    refine ⟨?_, ?_, off (nextLocation_frame h)⟩
    all_goals
      rcases nextLocation_marker _ _ _ _ _ _ i3 h with ⟨h1, -⟩ | ⟨-, -, h1⟩ | ⟨-, h2, -⟩
      · cases h1
      · rw [h1]; norm_num
      · exact absurd hlap h2
  | noLap h hlap =>
    rcases nextLocation_marker _ _ _ _ _ _ i3 h with ⟨h1, -⟩ | ⟨-, h2, -⟩ | ⟨-, -, h1⟩
    · cases h1
    · exact absurd h2 hlap
    · exact ⟨by rw [h1]; exact i1, by rw [h1]; exact i2, off (nextLocation_frame h)⟩
  | landed h =>
    rcases nextLocation_marker _ _ _ _ _ _ i3 h with ⟨-, h1⟩ | ⟨h1, -, -⟩ | ⟨h1, -, -⟩
    · simp only [LongStep] at hl
      refine ⟨by rw [h1]; linarith, ?_, off (nextLocation_frame h)⟩
      rw [h1]
      constructor
      · intro he; exfalso; linarith
      · intro he; cases he
    · cases h1
    · cases h1
  | isFinish =>
    have hf : OfflineFrame n n.isFinish.1 := step_offline_frame (op := .isFinish) rfl
    refine ⟨?_, ?_, off hf⟩ <;> unfold isFinish <;> split
    · simp
    · exact i1
    · simp
    · simpa using i2
  | @jump m =>
    have hf : OfflineFrame n (n.destinationTo m).1 := step_offline_frame (op := .destinationTo m) rfl
    cases hb : (n.destinationTo m).2 with
    | true =>
      have := destinationTo_dist n m hb
      refine ⟨by linarith, ?_, off hf⟩
      simp only [Bool.not_true, Bool.and_false, Bool.false_eq_true, iff_false]
      intro he; rw [he] at this; norm_num at this
    | false =>
      have : (n.destinationTo m).1 = n := by
        rcases destinationTo_cases n m with h' | ⟨_, _, _, _, _, _, _, _, _, _, _, _, -, -, -, -, -, h'⟩
        · rw [h']
        · rw [h'] at hb; cases hb
      rw [this]
      exact ⟨i1, by simpa using i2, i3⟩
  | reset => exact ⟨by simp [Navigator.reset, resetIndexes, calcRouteDistance],
      by simp [Navigator.reset, resetIndexes, calcRouteDistance], i3⟩
  | @addRoute rs =>
    have hf : OfflineFrame n (n.addRoute rs).1 := step_offline_frame (op := .addRoute rs) rfl
    have hlen : ∀ (held : List (Route ℝ)) (k : Nat) (l : List (Option (Route ℝ))),
        (addLoop held k l).1.length + k = held.length + (addLoop held k l).2 := by
      intro held k l
      induction l generalizing held k with
      | nil => rfl
      | cons o l ih =>
        cases o with
        | none => exact ih held k
        | some r =>
          unfold addLoop
          split
          · exact ih held k
          · have := ih (held ++ [r]) (k + 1)
            simp only [List.length_append, List.length_cons, List.length_nil] at this
            omega
    refine ⟨?_, ?_, off hf⟩ <;> unfold Navigator.addRoute <;> split
    · exact i1
    · simp only; split
      · simp [Navigator.reset, resetIndexes, calcRouteDistance, nextVersion]
      · exact i1
    · simpa using i2
    · simp only
      have := hlen n.routes 0 rs
      split
      · rename_i hpos
        simp only [Navigator.reset, resetIndexes, calcRouteDistance, nextVersion]
        simp
        intro _; exact decide_eq_false (by omega)
      · rename_i hpos
        have : (addLoop n.routes 0 rs).1.length = n.routes.length := by omega
        simpa [this] using i2
  | @removeRoute id =>
    have hf : OfflineFrame n (n.removeRoute id).1 := step_offline_frame (op := .removeRoute id) rfl
    refine ⟨?_, ?_, off hf⟩ <;> unfold Navigator.removeRoute <;> split
    · exact i1
    · simp only; split
      · simp [Navigator.reset, resetIndexes, calcRouteDistance, nextVersion]
      · exact i1
    · simpa using i2
    · simp only
      split
      · simp [Navigator.reset, resetIndexes, calcRouteDistance, nextVersion]
      · simpa using i2
  | resetRoutes =>
    have hf : OfflineFrame n n.resetRoutes.1 := step_offline_frame (op := .resetRoutes) rfl
    refine ⟨?_, ?_, off hf⟩ <;> unfold Navigator.resetRoutes <;> split
    · exact i1
    · simp [Navigator.reset, resetIndexes, calcRouteDistance, nextVersion]
    · simpa using i2
    · simp [Navigator.reset, resetIndexes, calcRouteDistance, nextVersion]
  | other h hop =>
    have hf := step_offline_frame h
    have hcd : n'.currentDistance = n.currentDistance := by
      cases op with
      | moveToSegment _ _ _ | moveToRoute _ | moveToTrack _ _ | moveToRouteByID _
      | moveToTrackByID _ _ | toNextRoute | toPrevRoute =>
        rcases move_cases h trivial with rfl | ⟨_, _, _, _, h⟩
        · rfl
        · rcases moveToSegment_cases h with ⟨rfl, -⟩ | ⟨s, -, -, rfl, -⟩ <;> rfl
      | removeTrack rid tid =>
        cases h
        unfold removeTrack
        split
        · rfl
        · split
          · rfl
          · simp only; split <;> rfl
      | toOffline x =>
        rcases toOffline_cases h with ⟨-, rfl⟩ | ⟨_, _, _, rfl⟩ <;> rfl
      | nextElevation t =>
        simp only [step, nextElevation] at h
        cases he : n.elevation.next t with
        | error e => rw [he] at h; cases h
        | ok s => rw [he] at h; cases h; rfl
      | shuffleElevation draws => cases h; rfl
      | onRoute i op => cases h; rfl
      | _ => exact hop.elim
    exact ⟨by rw [hcd]; exact i1, by rw [hcd]; exact i2, off hf⟩

theorem reach_marked (n : Navigator ℝ) (p : Bool) (h : Reach n p) : Marked n p := by
  induction h with
  | init h =>
    obtain ⟨_, _, _, -, -, -, rfl⟩ := new_cases h
    refine ⟨by simp [newState], by simp [newState], fun _ => by simp [newState]⟩
  | step hr hl h ih => exact step_marked ih hl h

/-- **C16 (partial).** In every history whose steps are longer than 0.1 m, `IsFinish()` answers `true`
exactly when a lap was completed that has not been reported yet and the cursor is (still) at the
start. Missing for the full property: histories with steps of at most 0.1 m, for which it is false,
see `spurious_finish`. -/
theorem isFinish_iff_lap_partial (n : Navigator ℝ) (p : Bool) (h : Reach n p) :
    n.isFinish.2 = (p && atStart n) := by
  obtain ⟨-, h2, -⟩ := reach_marked n p h
  unfold isFinish
  have e : (n.currentDistance ==. lit (1/10)) = p := by
    have : (n.currentDistance ==. lit (1/10)) = decide (n.currentDistance = 1/10) := by simp
    rw [this]
    cases p with
    | true => simpa using h2
    | false => simpa using h2
  have e' : (n.routeIndex == 0 && n.trackIndex == 0 && n.segmentIndex == 0 &&
      (n.currentDistance ==. lit (1/10))) = (atStart n && p) := by rw [e]; rfl
  rw [e', Bool.and_comm]
  cases hb : (p && atStart n) <;> simp

/-- **C16, at most once.** For any state (no assumption on its history) the answer `true` is not
repeated: a second call answers `false`. -/
theorem isFinish_once (n : Navigator ℝ) (h : n.isFinish.2 = true) : n.isFinish.1.isFinish.2 = false := by
  unfold isFinish at h
  split at h
  · rename_i hc
    have : n.isFinish.1 = { n with currentDistance := lit 0 } := by
      unfold isFinish; rw [if_pos hc]
    rw [this]
    unfold isFinish
    simp
  · cases h

/-- **C16, not forgotten while offline.** After a completed lap, offline ticks (which only change the
offline counter, see C13) do not lose the marker: `IsFinish()` still answers `true`. -/
theorem lap_reported (n n' : Navigator ℝ) (t s : ℝ) (x : UInt32)
    (hs : n.skipOffline = true → n.offlineIndex ≤ 0)
    (h : n.nextLocation t s x = .ok (n', false)) (hl : CompletesLap n n' false)
    (k : Int) :
    ({ n' with offlineIndex := k } : Navigator ℝ).isFinish.2 = true := by
  rcases nextLocation_marker _ _ _ _ _ _ hs h with ⟨h1, -⟩ | ⟨-, -, h1⟩ | ⟨-, h2, -⟩
  · cases h1
  · have h3 := hl.2.2.2.2.2
    unfold atStart at h3
    unfold isFinish
    simp only [Bool.and_eq_true] at h3
    simp [h3.1.1, h3.1.2, h3.2, h1]
  · exact absurd hl h2

/-- **The full property fails.** On a new navigator a first step of 0.1 m makes `IsFinish()` answer
`true` although no lap was completed. -/
theorem spurious_finish :
    ∃ n1 n2 : Navigator ℝ,
      (freshNav true).addRoute [some oneRoute] = (n1, none) ∧
      n1.nextLocation (1 / 10) 1 0 = .ok (n2, true) ∧ n2.isFinish.2 = true := by
  have hd := degLen_gt
  refine ⟨_, _, oneNav_add true, oneNav_step true _ _ _ (by linarith), ?_⟩
  simp [land, isFinish, updateDist, oneNav, freshNav]

/-- Non-vacuity: a reachable state with a pending lap, namely after a step of two degrees on the
one-degree track. -/
example : ∃ n : Navigator ℝ, Reach n true ∧ n.isFinish.2 = true := by
  have hd := degLen_gt
  have hr0 : Reach (freshNav true) false := .init (freshNav_new true)
  have hr1 := Reach.step hr0 (op := .addRoute [some oneRoute]) trivial .addRoute
  rw [oneNav_add] at hr1
  simp only [Bool.false_and] at hr1
  have hlap : CompletesLap (oneNav true) ((oneNav true).leaveTrack oneRoute) false := by
    refine ⟨rfl, rfl, by simp [oneNav], rfl, ?_, rfl⟩
    intro r hr
    have : oneRoute = r := by simpa [oneNav, freshNav] using hr
    rw [← this]
    simp [oneRoute, eqRoute, oneNav, freshNav]
  have hr2 := Reach.step hr1 (op := .nextLocation (2 * degLen) 1 0) (by simp [LongStep]; linarith)
    (.lap (oneNav_over _ _ _ (by linarith)) hlap)
  refine ⟨_, hr2, ?_⟩
  rw [isFinish_iff_lap_partial _ _ hr2]
  simpa using hlap.2.2.2.2.2

end C16
end GpsGen
