import Verif.Lemmas.LoopOutcome
import Verif.Lemmas.GeoReal
/-!
# C11: the cursor visits tracks and routes in order
-/

namespace GpsGen
variable {F : Type}

namespace C11
open Navigator

/-- A cursor position: route, track and segment index. -/
structure Pos where
  route : Int
  track : Int
  segment : Int
  deriving DecidableEq

/-- The cursor of a navigator. -/
def pos (n : Navigator F) : Pos := ⟨n.routeIndex, n.trackIndex, n.segmentIndex⟩

/-- Segment number `k` of the track the cursor is in, if there is one. -/
def segAt (n : Navigator F) (k : Int) : Option (Segment F) :=
  match goAt? n.routes n.routeIndex with
  | none => none
  | some r => match goAt? r.tracks n.trackIndex with
    | none => none
    | some t => goAt? t.segments k

/-- Number of segments of the track the cursor is in. -/
def numSegs (n : Navigator F) : Int :=
  match goAt? n.routes n.routeIndex with
  | none => 0
  | some r => match goAt? r.tracks n.trackIndex with
    | none => 0
    | some t => t.segments.length

/-- A step of length `d` was rightly not placed on the segments from the cursor up to (excluding)
`k`: each of them exists, and the step would overshoot its end. -/
def Overshoots [GoFloat F] (n : Navigator F) (d : F) (k : Int) : Prop :=
  ∀ i, n.segmentIndex ≤ i → i < k → ∃ s, segAt n i = some s ∧
    ((if i = n.segmentIndex then n.currentSegmentDistance +. d else lit 0 +. d) <=. s.dist) = false

/-- Leaving the current track is justified: either its last segment is overshot as well, or a
segment that does not exist or has no length was reached. -/
def TrackDone [GoFloat F] (n : Navigator F) (d : F) : Prop :=
  ∃ k, n.segmentIndex ≤ k ∧ Overshoots n d k ∧
    ((k = numSegs n - 1 ∧ Overshoots n d (k + 1)) ∨ segAt n k = none ∨
      ∃ s, segAt n k = some s ∧ (s.dist ==. lit 0) = true)

/-- The moves allowed for one call of `NextLocation` with step length `d` and answer `b` on a navigator
whose current route has `tracks` tracks. -/
inductive Allowed [GoFloat F] (n : Navigator F) (d : F) (tracks : Nat) (b : Bool) (q : Pos) : Prop
  /-- Same track, same or a later existing segment; the segments in between are overshot. The segment
  is the same only if the step was placed on it. -/
  | same (h1 : q.route = n.routeIndex) (h2 : q.track = n.trackIndex)
      (h3 : n.segmentIndex ≤ q.segment) (h4 : (segAt n q.segment).isSome)
      (h5 : Overshoots n d q.segment) (h6 : b = true ∨ n.segmentIndex < q.segment)
  /-- To the start of the next track of the route. -/
  | nextTrack (h1 : n.trackIndex + 1 < tracks) (h2 : q = ⟨n.routeIndex, n.trackIndex + 1, 0⟩)
      (h3 : TrackDone n d) (h4 : b = false)
  /-- From the last track to the start of the next route. -/
  | nextRoute (h1 : (tracks : Int) ≤ n.trackIndex + 1) (h2 : n.routeIndex + 1 < n.routes.length)
      (h3 : q = ⟨n.routeIndex + 1, 0, 0⟩) (h4 : TrackDone n d) (h5 : b = false)
  /-- From the last track of the last route to the start of the first route. -/
  | wrap (h1 : (tracks : Int) ≤ n.trackIndex + 1) (h2 : n.routeIndex + 1 = n.routes.length)
      (h3 : q = ⟨0, 0, 0⟩) (h4 : TrackDone n d) (h5 : b = false)

theorem seg?_skipTo [GoFloat F] (n : Navigator F) (j : Nat) :
    (n.skipTo j).seg? = segAt n (n.segmentIndex + j) := by
  unfold seg? segAt
  rw [skipTo_track?, skipTo_segmentIndex]
  unfold track? route?
  cases goAt? n.routes n.routeIndex with
  | none => rfl
  | some r =>
    simp only [Option.bind_some]
    cases goAt? r.tracks n.trackIndex <;> rfl

theorem numSegs_eq (n : Navigator F) : (n.track?.map Track.numSegments).getD 0 = numSegs n := by
  unfold numSegs track? route?
  cases goAt? n.routes n.routeIndex with
  | none => rfl
  | some r =>
    simp only [Option.bind_some]
    cases goAt? r.tracks n.trackIndex <;> rfl

theorem overshoot_one [GoFloat F] (n : Navigator F) (d : F) (i : Nat)
    (h1 : ¬ (n.skipTo i).Fits d) (h2 : (n.skipTo i).curSeg.isEmpty = false) :
    ∃ s, segAt n (n.segmentIndex + i) = some s ∧
      ((if n.segmentIndex + i = n.segmentIndex then n.currentSegmentDistance +. d
        else lit 0 +. d) <=. s.dist) = false := by
  have hs := curSeg_nonempty _ h2
  rw [seg?_skipTo] at hs
  refine ⟨_, hs, ?_⟩
  have h3 : ((n.skipTo i).currentSegmentDistance +. d <=. (n.skipTo i).curSeg.dist) = false := by
    cases hb : ((n.skipTo i).currentSegmentDistance +. d <=. (n.skipTo i).curSeg.dist) with
    | false => rfl
    | true => exact absurd ⟨h2, hb⟩ h1
  rw [← h3]
  cases i with
  | zero => simp; rfl
  | succ i => rw [if_neg (by omega)]; rfl

theorem overshoots_of [GoFloat F] (n : Navigator F) (d : F) (j : Nat)
    (h : ∀ i < j, ¬ (n.skipTo i).Fits d ∧ (n.skipTo i).curSeg.isEmpty = false) :
    Overshoots n d (n.segmentIndex + j) := by
  intro i hi1 hi2
  have e : i = n.segmentIndex + (i - n.segmentIndex).toNat := by omega
  have := h (i - n.segmentIndex).toNat (by omega)
  have := overshoot_one n d _ this.1 this.2
  rw [← e] at this
  exact this

/-- **C11.** For every number type and every navigator state that is online and holds a route: after
a `NextLocation` call the routes are unchanged and the cursor made one of the allowed moves. -/
theorem visits_in_order [GoMath F] (n n' : Navigator F) (tick speed : F) (x : UInt32) (b : Bool)
    (hne : n.routes ≠ []) (hon : n.skipOffline = true ∨ n.offlineIndex ≤ 0)
    (h : n.nextLocation tick speed x = .ok (n', b)) :
    n'.routes = n.routes ∧
    ∃ r, 0 ≤ n.routeIndex ∧ n.routes[n.routeIndex.toNat]? = some r ∧
      Allowed n (tick *. speed) r.tracks.length b (pos n') := by
  rcases nextLocation_cases n n' tick speed x b h with ⟨h, -, -⟩ | ⟨h, -, -⟩ | ⟨r, hr, -, j, hj, he⟩
  · exact absurd h hne
  · rw [nextOffline_eq] at h
    rcases hon with h' | h'
    · simp [h'] at h
    · simp at h; omega
  have hr' := goAt?_eq_some.mp hr
  have hidx := goAt?_isSome.mp (show (goAt? n.routes n.routeIndex).isSome by
    unfold route? at hr; rw [hr]; rfl)
  have hover := overshoots_of n (tick *. speed) j (fun i hi => ⟨(hj i hi).1, (hj i hi).2.1⟩)
  generalize hres : (Except.ok (n', b) : Go (Navigator F × Bool)) = res at he
  cases he with
  | land hf =>
    simp only [Except.ok.injEq, Prod.mk.injEq] at hres
    obtain ⟨rfl, rfl⟩ := hres
    refine ⟨skipTo_routes n j, r, hr'.1, hr'.2, ?_⟩
    have hsi : ((n.skipTo j).land (tick *. speed)).segmentIndex = n.segmentIndex + j := by
      rw [← skipTo_segmentIndex]; rfl
    refine .same (skipTo_routeIndex n j) (skipTo_trackIndex n j) ?_ ?_ ?_ (Or.inl rfl)
    · simp only [pos, hsi]; omega
    · simp only [pos, hsi]
      have := curSeg_nonempty _ hf.1
      rw [seg?_skipTo] at this
      rw [this]; rfl
    · simp only [pos, hsi]; exact hover
  | unrelated h1 h2 h3 h4 =>
    cases ho : ((n.skipTo j).advanceSegment.toOffline x) with
    | error e => rw [ho] at hres; cases hres
    | ok m =>
      rw [ho] at hres
      simp only [map_ok, Except.ok.injEq, Prod.mk.injEq] at hres
      obtain ⟨rfl, rfl⟩ := hres
      have hm : n'.routes = n.routes ∧ pos n' = ⟨n.routeIndex, n.trackIndex, n.segmentIndex + j + 1⟩ := by
        have hpos : pos (n.skipTo j).advanceSegment =
            ⟨n.routeIndex, n.trackIndex, n.segmentIndex + j + 1⟩ := by
          simp only [pos, advanceSegment, skipTo_routeIndex, skipTo_trackIndex, skipTo_segmentIndex]
        rcases toOffline_cases ho with ⟨-, rfl⟩ | ⟨-, r', -, rfl⟩
        · exact ⟨skipTo_routes n j, hpos⟩
        · exact ⟨skipTo_routes n j, hpos⟩
      have hover' := overshoots_of n (tick *. speed) (j + 1) (fun i hi => by
        by_cases hij : i < j
        · exact ⟨(hj i hij).1, (hj i hij).2.1⟩
        · have : i = j := by omega
          subst this; exact ⟨h1, h2⟩)
      refine ⟨hm.1, r, hr'.1, hr'.2, ?_⟩
      rw [hm.2]
      refine .same rfl rfl (by simp only; omega) ?_ ?_ (Or.inr (by simp only; omega))
      · have hs := curSeg_nonempty _ h2
        rw [seg?_skipTo] at hs
        unfold AtLast at h3
        rw [skipTo_track?, numSegs_eq, skipTo_segmentIndex] at h3
        simp only
        unfold segAt numSegs at *
        cases hR : goAt? n.routes n.routeIndex with
        | none => rw [hR] at hs; simp at hs
        | some r =>
          rw [hR] at hs h3
          simp only at hs h3 ⊢
          cases hT : goAt? r.tracks n.trackIndex with
          | none => rw [hT] at hs; simp at hs
          | some t =>
            rw [hT] at hs h3
            simp only at hs h3 ⊢
            have := goAt?_isSome.mp (show (goAt? t.segments (n.segmentIndex + j)).isSome by rw [hs]; rfl)
            exact goAt?_isSome.mpr (by omega)
      · have e : n.segmentIndex + (j : Int) + 1 = n.segmentIndex + ((j + 1 : Nat) : Int) := by omega
        simp only
        rw [e]; exact hover'
  | leave h1 h2 =>
    cases ho : (((n.skipTo j).leaveTrack r).toOffline x) with
    | error e => rw [ho] at hres; cases hres
    | ok m =>
      rw [ho] at hres
      simp only [map_ok, Except.ok.injEq, Prod.mk.injEq] at hres
      obtain ⟨rfl, rfl⟩ := hres
      have hdone : TrackDone n (tick *. speed) := by
        refine ⟨n.segmentIndex + j, by omega, hover, ?_⟩
        by_cases hempty : (n.skipTo j).curSeg.isEmpty = true
        · right
          cases hs : segAt n (n.segmentIndex + j) with
          | none => exact Or.inl rfl
          | some s =>
            right
            refine ⟨s, rfl, ?_⟩
            rw [← seg?_skipTo] at hs
            unfold curSeg at hempty
            rw [hs] at hempty
            simp only at hempty
            by_cases hse : s.isEmpty = true
            · exact hse
            · simp only [hse] at hempty; exact absurd hempty hse
        · have hempty' : (n.skipTo j).curSeg.isEmpty = false := by simpa using hempty
          left
          have hl := h2.resolve_left hempty
          unfold AtLast at hl
          rw [skipTo_track?, numSegs_eq, skipTo_segmentIndex] at hl
          refine ⟨hl, ?_⟩
          have hover' := overshoots_of n (tick *. speed) (j + 1) (fun i hi => by
            by_cases hij : i < j
            · exact ⟨(hj i hij).1, (hj i hij).2.1⟩
            · have : i = j := by omega
              subst this; exact ⟨h1, hempty'⟩)
          have e : n.segmentIndex + (j : Int) + 1 = n.segmentIndex + ((j + 1 : Nat) : Int) := by omega
          rw [e]; exact hover'
      have hm : n'.routes = ((n.skipTo j).leaveTrack r).routes ∧
          pos n' = pos ((n.skipTo j).leaveTrack r) := by
        rcases toOffline_cases ho with ⟨-, rfl⟩ | ⟨-, r', -, rfl⟩ <;> exact ⟨rfl, rfl⟩
      rw [hm.1, hm.2]
      have hlr : ((n.skipTo j).leaveTrack r).routes = n.routes := by
        unfold leaveTrack
        split
        · exact skipTo_routes n j
        · split <;> exact skipTo_routes n j
      refine ⟨hlr, r, hr'.1, hr'.2, ?_⟩
      unfold leaveTrack
      rw [skipTo_trackIndex, skipTo_routeIndex, skipTo_routes]
      unfold Route.numTracks
      by_cases c1 : n.trackIndex < (r.tracks.length : Int) - 1
      · rw [if_pos c1]
        refine .nextTrack (by omega) ?_ hdone rfl
        simp only [pos]
      · rw [if_neg c1]
        by_cases c2 : n.routeIndex < (n.routes.length : Int) - 1
        · rw [if_pos c2]
          exact .nextRoute (by omega) (by omega) rfl hdone rfl
        · rw [if_neg c2]
          exact .wrap (by omega) (by omega) rfl hdone rfl

/-- Non-vacuity: a step that overshoots the only segment of the first of two routes moves the cursor
to the second route. -/
example : ∃ n' : Navigator ℝ,
    ({ freshNav true with
        routes := [eqRoute "r" "t" "#000000" 0 1, eqRoute "s" "u" "#000000" 0 1] } :
      Navigator ℝ).nextLocation (2 * degLen) 1 0 = .ok (n', false) ∧ pos n' = ⟨1, 0, 0⟩ := by
  have hd := degLen_gt
  generalize hn : ({ freshNav true with
    routes := [eqRoute "r" "t" "#000000" 0 1, eqRoute "s" "u" "#000000" 0 1] } : Navigator ℝ) = n
  have hr : n.route? = some (eqRoute "r" "t" "#000000" 0 1) := by rw [← hn]; rfl
  have hoff : n.nextOffline.2 = false := by rw [← hn]; rfl
  have hne : (eqSeg 0 1 0 (-1)).isEmpty = false := eqSeg_nonempty _ _ _ _ (by norm_num)
  have hseg : n.seg? = some (eqSeg 0 1 0 (-1)) := by rw [← hn]; rfl
  have hc : n.curSeg = eqSeg 0 1 0 (-1) := by simp [curSeg, hseg, hne]
  have h0 : n.currentSegmentDistance = 0 := by rw [← hn]; rfl
  have hlen : n.routes.length ≠ 0 := by rw [← hn]; simp
  have hskip : n.skipOffline = true := by rw [← hn]; rfl
  refine ⟨n.leaveTrack (eqRoute "r" "t" "#000000" 0 1), ?_, ?_⟩
  · have hb : n.loopBudget = (n.loopBudget - 1) + 1 := by
      have : 0 < n.loopBudget := by unfold loopBudget; split <;> omega
      omega
    unfold nextLocation
    rw [if_neg hlen]
    simp only [nextOffline, hskip, if_true, Bool.false_eq_true, if_false]
    rw [hb, nextLoop_succ _ _ _ n _ hr, if_neg, if_neg]
    · have : (n.leaveTrack (eqRoute "r" "t" "#000000" 0 1)).skipOffline = true := by rw [← hn]; rfl
      simp [toOffline, this]
    · rw [hc, hne, ← hn]
      simp [freshNav, track?, route?, goAt?, eqRoute, eqTrack, Track.numSegments]
    · rw [hc, hne, h0]
      simp [eqSeg]; linarith
  · rw [← hn]; rfl

end C11
end GpsGen
