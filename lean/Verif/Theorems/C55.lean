import Verif.Lemmas.DeviceNext
import Verif.Lemmas.Moves
import Verif.Theorems.C09
import Verif.Theorems.C10
import Verif.Theorems.C48
/-!
# C55: a step covers the distance tick × speed

The counters do: every successful step adds exactly tick × speed to the odometers, and nothing else
does (`step_counts`, `idle_counts`, `odometer_exact`; any number type). The position does not: when a
step crosses the end of a segment, the rest of the segment is covered in addition to the full step
(`covers_step_fails`), and the first step of a track puts the device at 1 m (`first_step_one_metre`).
`advance_bounds_partial` says how far the device gets instead. Exact arithmetic.
-/

namespace GpsGen
variable {F : Type}

namespace C55
open Navigator

/-! ## Odometers -/

/-- One call of `NextLocation` ended a lap: the navigator is online with its cursor in the last track
of the last route, and is sent back to the start. -/
def Laps (n n' : Navigator F) : Prop :=
  n.routes ≠ [] ∧ (n.skipOffline = true ∨ n.offlineIndex ≤ 0) ∧ n.routeIndex + 1 = n.routes.length ∧
  (∀ r, n.routes[n.routeIndex.toNat]? = some r → (r.tracks.length : Int) ≤ n.trackIndex + 1) ∧
  n'.routeIndex = 0 ∧ n'.trackIndex = 0 ∧ n'.segmentIndex = 0

/-- Operations that have nothing to do with distances. -/
def Neutral : NavOp F → Prop
  | .moveToSegment .. | .moveToRoute .. | .moveToTrack .. | .moveToRouteByID .. | .moveToTrackByID ..
  | .toNextRoute | .toPrevRoute | .toOffline _ | .nextElevation _ | .shuffleElevation _ | .onRoute ..
  | .removeTrack .. => True
  | _ => False

/-- A history of a navigator, with the distance its client has commanded: a successful step adds
tick × speed; a completed lap restarts at the 0.1 m that mark it; reading the mark and changing the
routes restart at 0. -/
inductive Trip [GoMath F] : F → Navigator F → Prop
  | new {uid draws opts n} : Navigator.new uid draws opts = .ok n → Trip (lit 0) n
  | land {a n n' tick speed x} : Trip a n → n.nextLocation tick speed x = .ok (n', true) →
      Trip (a +. (tick *. speed)) n'
  | lap {a n n' tick speed x} : Trip a n → n.nextLocation tick speed x = .ok (n', false) → Laps n n' →
      Trip (lit (1/10)) n'
  | stay {a n n' tick speed x} : Trip a n → n.nextLocation tick speed x = .ok (n', false) → ¬ Laps n n' →
      Trip a n'
  | neutral {a n n' op} : Trip a n → Neutral op → n.step op = .ok n' → Trip a n'
  | finish {a n n'} : Trip a n → n.isFinish = (n', true) → Trip (lit 0) n'
  | unfinished {a n n'} : Trip a n → n.isFinish = (n', false) → Trip a n'
  | added {a n n' rs} : Trip a n → n.addRoute rs = (n', none) → n'.routes.length ≠ n.routes.length →
      Trip (lit 0) n'
  | removed {a n n' id} : Trip a n → n.removeRoute id = (n', true) → Trip (lit 0) n'
  | cleared {a n n'} : Trip a n → n.resetRoutes = (n', true) → Trip (lit 0) n'
  | reset {a n} : Trip a n → Trip (lit 0) n.reset

/-- **C55, counters of a successful step.** The cursor stays in its track; total, route and track
counter grow by exactly tick × speed; the segment counter does too, or restarts with tick × speed on a
later segment. -/
theorem step_counts [GoMath F] (n n' : Navigator F) (tick speed : F) (x : UInt32)
    (h : n.nextLocation tick speed x = .ok (n', true)) :
    n'.routes = n.routes ∧ n'.distance = n.distance ∧
    n'.routeIndex = n.routeIndex ∧ n'.trackIndex = n.trackIndex ∧
    n'.currentDistance = n.currentDistance +. (tick *. speed) ∧
    n'.currentRouteDistance = n.currentRouteDistance +. (tick *. speed) ∧
    n'.currentTrackDistance = n.currentTrackDistance +. (tick *. speed) ∧
    ((n'.segmentIndex = n.segmentIndex ∧
        n'.currentSegmentDistance = n.currentSegmentDistance +. (tick *. speed)) ∨
     (n.segmentIndex < n'.segmentIndex ∧ n'.currentSegmentDistance = lit 0 +. (tick *. speed))) := by
  rcases nextLocation_cases n n' tick speed x true h with ⟨-, -, h⟩ | ⟨-, -, h⟩ | ⟨r, hr, -, j, hj, he⟩
  · cases h
  · cases h
  generalize hres : (Except.ok (n', true) : Go (Navigator F × Bool)) = res at he
  cases he with
  | unrelated h1 h2 h3 h4 =>
    cases ho : ((n.skipTo j).advanceSegment.toOffline x) with
    | error e => rw [ho] at hres; cases hres
    | ok m => rw [ho] at hres; cases hres
  | leave h1 h2 =>
    cases ho : (((n.skipTo j).leaveTrack r).toOffline x) with
    | error e => rw [ho] at hres; cases hres
    | ok m => rw [ho] at hres; cases hres
  | land hf =>
    cases hres
    cases j with
    | zero => exact ⟨rfl, rfl, rfl, rfl, rfl, rfl, rfl, Or.inl ⟨rfl, rfl⟩⟩
    | succ j =>
      refine ⟨rfl, rfl, rfl, rfl, rfl, rfl, rfl, Or.inr ⟨?_, rfl⟩⟩
      show n.segmentIndex < n.segmentIndex + ((j + 1 : Nat) : Int)
      omega

/-- **C55, counters of a failing step.** The position does not change, and no counter advances: each
one is unchanged or restarts; the total restarts exactly when the call ended a lap. -/
theorem idle_counts [GoMath F] (n n' : Navigator F) (tick speed : F) (x : UInt32)
    (h : n.nextLocation tick speed x = .ok (n', false)) :
    n'.routes = n.routes ∧ n'.distance = n.distance ∧ n'.point = n.point ∧
    (n'.currentSegmentDistance = n.currentSegmentDistance ∨ n'.currentSegmentDistance = lit 0) ∧
    (n'.currentTrackDistance = n.currentTrackDistance ∨ n'.currentTrackDistance = lit 0) ∧
    (n'.currentRouteDistance = n.currentRouteDistance ∨ n'.currentRouteDistance = lit 0) ∧
    (Laps n n' → n'.currentDistance = lit (1/10)) ∧
    (¬ Laps n n' → n'.currentDistance = n.currentDistance) := by
  rcases nextLocation_cases n n' tick speed x false h with
    ⟨hr, rfl, -⟩ | ⟨ho, rfl, -⟩ | ⟨r, hr, hon, j, hj, he⟩
  · exact ⟨rfl, rfl, rfl, Or.inl rfl, Or.inl rfl, Or.inl rfl, fun hl => absurd hr hl.1, fun _ => rfl⟩
  · refine ⟨rfl, rfl, rfl, Or.inl rfl, Or.inl rfl, Or.inl rfl, fun hl => ?_, fun _ => rfl⟩
    exfalso
    rw [nextOffline_eq] at ho
    simp only [Bool.and_eq_true, Bool.not_eq_true', decide_eq_true_eq] at ho
    rcases hl.2.1 with h | h
    · rw [ho.1] at h; cases h
    · omega
  have hr' := goAt?_eq_some.mp hr
  have hri := goAt?_isSome.mp (show (goAt? n.routes n.routeIndex).isSome by
    unfold route? at hr; rw [hr]; rfl)
  have hcd : (n.skipTo j).currentDistance = n.currentDistance := by cases j <;> rfl
  have hkeep : (n.skipTo j).distance = n.distance ∧ (n.skipTo j).point = n.point ∧
      (n.skipTo j).currentTrackDistance = n.currentTrackDistance ∧
      (n.skipTo j).currentRouteDistance = n.currentRouteDistance := by
    cases j <;> exact ⟨rfl, rfl, rfl, rfl⟩
  have hoff : n.skipOffline = true ∨ n.offlineIndex ≤ 0 := by
    rw [nextOffline_eq] at hon
    cases hs : n.skipOffline with
    | true => exact Or.inl rfl
    | false => right; rw [hs] at hon; simp at hon; omega
  generalize hres : (Except.ok (n', false) : Go (Navigator F × Bool)) = res at he
  cases he with
  | land hf => cases hres
  | unrelated h1 h2 h3 h4 =>
    cases ho : ((n.skipTo j).advanceSegment.toOffline x) with
    | error e => rw [ho] at hres; cases hres
    | ok m =>
      rw [ho] at hres; cases hres
      have hsi : 0 ≤ (n.skipTo j).segmentIndex := by
        have := curSeg_nonempty _ h2
        unfold seg? at this
        simp only [Option.bind_eq_some_iff] at this
        obtain ⟨t, -, ht⟩ := this
        exact (goAt?_eq_some.mp ht).1
      obtain ⟨o, rfl⟩ : ∃ o, n' = { (n.skipTo j).advanceSegment with offlineIndex := o } := by
        rcases toOffline_cases ho with ⟨-, rfl⟩ | ⟨-, r', -, rfl⟩ <;> exact ⟨_, rfl⟩
      refine ⟨skipTo_routes n j, hkeep.1, hkeep.2.1, Or.inr rfl, Or.inl hkeep.2.2.1,
        Or.inl hkeep.2.2.2, fun hl => ?_, fun _ => hcd⟩
      have : (n.skipTo j).segmentIndex + 1 = 0 := hl.2.2.2.2.2.2
      omega
  | leave h1 h2 =>
    cases ho : (((n.skipTo j).leaveTrack r).toOffline x) with
    | error e => rw [ho] at hres; cases hres
    | ok m =>
      rw [ho] at hres; cases hres
      obtain ⟨o, rfl⟩ : ∃ o, n' = { (n.skipTo j).leaveTrack r with offlineIndex := o } := by
        rcases toOffline_cases ho with ⟨-, rfl⟩ | ⟨-, r', -, rfl⟩ <;> exact ⟨_, rfl⟩
      have e1 := skipTo_trackIndex n j
      have e2 := skipTo_routeIndex n j
      have e3 := skipTo_routes n j
      have hlast : ∀ r', n.routes[n.routeIndex.toNat]? = some r' → r' = r := by
        intro r' h; rw [hr'.2] at h; cases h; rfl
      unfold leaveTrack
      rw [e1, e2, e3]
      unfold Laps
      by_cases c1 : n.trackIndex < r.numTracks - 1
      · rw [if_pos c1]
        refine ⟨rfl, hkeep.1, hkeep.2.1, Or.inr rfl, Or.inr rfl, Or.inl hkeep.2.2.2, fun hl => ?_,
          fun _ => hcd⟩
        have := hl.2.2.2.1 r hr'.2
        unfold Route.numTracks at c1
        omega
      · rw [if_neg c1]
        by_cases c2 : n.routeIndex < (n.routes.length : Int) - 1
        · rw [if_pos c2]
          refine ⟨rfl, hkeep.1, hkeep.2.1, Or.inr rfl, Or.inr rfl, Or.inr rfl, fun hl => ?_, fun _ => hcd⟩
          have := hl.2.2.1
          omega
        · rw [if_neg c2]
          refine ⟨rfl, hkeep.1, hkeep.2.1, Or.inr rfl, Or.inr rfl, Or.inr rfl, fun _ => rfl, fun hl => ?_⟩
          refine absurd ⟨?_, hoff, by omega, ?_, rfl, rfl, rfl⟩ hl
          · intro hnil; rw [hnil] at hri; simp at hri; omega
          · intro r' h'
            rw [hlast r' h']
            unfold Route.numTracks at c1
            omega

theorem neutral_keeps [GoMath F] {n n' : Navigator F} {op : NavOp F} (ho : Neutral op)
    (h : n.step op = .ok n') : n'.currentDistance = n.currentDistance := by
  have mv : (n' = n ∨ ∃ a b c ok, n.moveToSegment a b c = .ok (n', ok)) →
      n'.currentDistance = n.currentDistance := by
    rintro (rfl | ⟨a, b, c, ok, hm⟩)
    · rfl
    · rcases moveToSegment_cases hm with ⟨rfl, -⟩ | ⟨s, -, -, rfl, -⟩
      · rfl
      · rfl
  cases op with
  | moveToSegment r t s => exact mv (move_cases h trivial)
  | moveToRoute r => exact mv (move_cases h trivial)
  | moveToTrack r t => exact mv (move_cases h trivial)
  | moveToRouteByID rid => exact mv (move_cases h trivial)
  | moveToTrackByID rid tid => exact mv (move_cases h trivial)
  | toNextRoute => exact mv (move_cases h trivial)
  | toPrevRoute => exact mv (move_cases h trivial)
  | toOffline x =>
    rcases toOffline_cases h with ⟨-, rfl⟩ | ⟨-, r, -, rfl⟩ <;> rfl
  | nextElevation t =>
    obtain ⟨e, -, h⟩ := bind_eq_ok (show n.nextElevation t = .ok n' from h)
    cases h; rfl
  | shuffleElevation draws => cases h; rfl
  | onRoute i op => cases h; rfl
  | removeTrack rid tid =>
    cases h
    simp only [removeTrack]
    split
    · rfl
    · split
      · rfl
      · split <;> rfl
  | _ => exact ho.elim

/-- **C55, the odometer.** In every history the total counter is exactly the distance commanded since
the last restart: the sum, in the order and with the rounding of the additions, of tick × speed over
the successful steps. -/
theorem odometer_exact [GoMath F] (a : F) (n : Navigator F) (h : Trip a n) : n.currentDistance = a := by
  induction h with
  | new h =>
    obtain ⟨_, _, _, -, -, -, rfl⟩ := new_cases h
    rfl
  | land _ h ih => rw [(step_counts _ _ _ _ _ h).2.2.2.2.1, ih]
  | lap _ h hl ih => exact (idle_counts _ _ _ _ _ h).2.2.2.2.2.2.1 hl
  | stay _ h hl ih => rw [(idle_counts _ _ _ _ _ h).2.2.2.2.2.2.2 hl, ih]
  | neutral _ ho h ih => rw [neutral_keeps ho h, ih]
  | finish _ h ih =>
    unfold isFinish at h
    split at h
    · cases h; rfl
    · cases h
  | unfinished _ h ih =>
    unfold isFinish at h
    split at h
    · cases h
    · cases h; exact ih
  | @added a n n' rs _ h hl ih =>
    unfold addRoute at h
    split at h
    · cases h
    · simp only at h
      split at h
      · cases h; rfl
      · rename_i hk
        cases h
        exfalso
        have key : ∀ (l : List (Option (Route F))) (held : List (Route F)) (k : Nat),
            (addLoop held k l).1.length + k = held.length + (addLoop held k l).2 := by
          intro l
          induction l with
          | nil => intro held k; rfl
          | cons o l ih =>
            intro held k
            cases o with
            | none => exact ih held k
            | some r =>
              simp only [addLoop]
              split
              · exact ih held k
              · have := ih (held ++ [r]) (k + 1)
                simp only [List.length_append, List.length_singleton] at this
                omega
        have := key rs n.routes 0
        apply hl
        show (addLoop n.routes 0 rs).1.length = n.routes.length
        omega
  | removed _ h ih =>
    unfold removeRoute at h
    split at h
    · cases h
    · simp only at h
      split at h
      · cases h; rfl
      · cases h
  | cleared _ h ih =>
    unfold resetRoutes at h
    split at h
    · cases h
    · cases h; rfl
  | reset _ _ => rfl

/-! ## Position -/

/-- The position along the current track: the lengths of the segments before the cursor plus the
distance travelled in the current one. -/
noncomputable def along (n : Navigator ℝ) : ℝ :=
  match goAt? n.routes n.routeIndex with
  | none => 0
  | some r => match goAt? r.tracks n.trackIndex with
    | none => 0
    | some t => ((t.segments.take n.segmentIndex.toNat).map (·.dist)).sum + n.currentSegmentDistance

/-- Lengths are not negative and the distance travelled in the current segment is at most its length. -/
def InRange (n : Navigator ℝ) : Prop :=
  (∀ r ∈ n.routes, ∀ t ∈ r.tracks, ∀ s ∈ t.segments, 0 ≤ s.dist) ∧
  ∀ s, C09.Addressed n s → n.currentSegmentDistance ≤ s.dist

theorem along_eq {n : Navigator ℝ} {t : Track ℝ} (h : n.track? = some t) :
    along n = psum (·.dist) t.segments n.segmentIndex.toNat + n.currentSegmentDistance := by
  unfold track? route? at h
  obtain ⟨r, hr, ht⟩ := Option.bind_eq_some_iff.mp h
  unfold along psum
  rw [hr]
  simp only
  rw [ht]

theorem along_skip {m : Navigator ℝ} (h : m.curSeg.isEmpty = false) :
    along m.advanceSegment = along m + (m.curSeg.dist - m.currentSegmentDistance) := by
  have hs := curSeg_nonempty m h
  unfold seg? at hs
  obtain ⟨t, ht, hs⟩ := Option.bind_eq_some_iff.mp hs
  obtain ⟨h0, hs⟩ := goAt?_eq_some.mp hs
  rw [along_eq ht, along_eq (show m.advanceSegment.track? = some t from ht)]
  have e : m.advanceSegment.segmentIndex.toNat = m.segmentIndex.toNat + 1 := by
    show (m.segmentIndex + 1).toNat = _
    omega
  have e2 : m.advanceSegment.currentSegmentDistance = 0 := by
    show (lit 0 : ℝ) = 0
    simp
  rw [e, e2, psum_succ _ _ _ _ hs]
  ring

theorem along_land {m : Navigator ℝ} {d : ℝ} (h : m.curSeg.isEmpty = false) :
    along (m.land d) = along m + d := by
  have hs := curSeg_nonempty m h
  unfold seg? at hs
  obtain ⟨t, ht, -⟩ := Option.bind_eq_some_iff.mp hs
  rw [along_eq ht, along_eq (show (m.land d).track? = some t from ht)]
  have e1 : (m.land d).segmentIndex = m.segmentIndex := rfl
  have e2 : (m.land d).currentSegmentDistance = m.currentSegmentDistance + d := rfl
  rw [e1, e2]
  ring

theorem not_fits {m : Navigator ℝ} {d : ℝ} (h : m.curSeg.isEmpty = false) (hf : ¬ m.Fits d) :
    m.curSeg.dist < m.currentSegmentDistance + d := by
  unfold Fits at hf
  simpa [h] using hf

theorem curSeg_mem {m : Navigator ℝ} (h : m.curSeg.isEmpty = false) :
    ∃ r ∈ m.routes, ∃ t ∈ r.tracks, m.curSeg ∈ t.segments := by
  obtain ⟨r, t, -, hr, -, ht, -, hs⟩ := C09.addressed_of_seg? (curSeg_nonempty m h)
  exact ⟨r, List.mem_of_getElem? hr, t, List.mem_of_getElem? ht, List.mem_of_getElem? hs⟩

theorem skipped (n : Navigator ℝ) (d : ℝ) (j : Nat)
    (hj : ∀ i < j, ¬ (n.skipTo i).Fits d ∧ (n.skipTo i).curSeg.isEmpty = false) :
    (0 < j → along (n.skipTo j) - along n < j * d) ∧ (InRange n → along n ≤ along (n.skipTo j)) := by
  induction j with
  | zero => exact ⟨fun h => absurd h (by omega), fun _ => le_refl _⟩
  | succ j ih =>
    obtain ⟨h1, h2⟩ := hj j (by omega)
    obtain ⟨i1, i2⟩ := ih (fun i hi => hj i (by omega))
    rw [skipTo_succ, along_skip h2]
    have hf := not_fits h2 h1
    constructor
    · intro _
      push_cast
      rcases Nat.eq_zero_or_pos j with rfl | hp
      · simp only [skipTo] at hf ⊢
        push_cast
        linarith
      · have := i1 hp
        linarith
    · intro hr
      have := i2 hr
      have hle : (n.skipTo j).currentSegmentDistance ≤ (n.skipTo j).curSeg.dist := by
        cases j with
        | zero => exact hr.2 _ (C09.addressed_of_seg? (curSeg_nonempty _ h2))
        | succ j =>
          obtain ⟨r, hr', t, ht, hs⟩ := curSeg_mem h2
          rw [skipTo_routes] at hr'
          have := hr.1 r hr' t ht _ hs
          show (lit 0 : ℝ) ≤ _
          simpa using this
      linarith

/-- **C55, position (partial).** A successful step moves the device along its track by exactly
tick × speed if it stays on its segment. Otherwise it moves by more: less than one further
tick × speed for every segment end it crosses, and, from a state in range, never by less.

Missing for the full property: the advance is tick × speed also across segment ends, which is false,
see `covers_step_fails`. -/
theorem advance_bounds_partial (n n' : Navigator ℝ) (tick speed : ℝ) (x : UInt32)
    (h : n.nextLocation tick speed x = .ok (n', true)) :
    (n'.segmentIndex = n.segmentIndex → along n' = along n + tick * speed) ∧
    (n.segmentIndex < n'.segmentIndex →
      along n' - along n < (1 + (n'.segmentIndex - n.segmentIndex : Int)) * (tick * speed)) ∧
    (InRange n → tick * speed ≤ along n' - along n) := by
  rcases nextLocation_cases n n' tick speed x true h with ⟨-, -, h⟩ | ⟨-, -, h⟩ | ⟨r, hr, -, j, hj, he⟩
  · cases h
  · cases h
  generalize hres : (Except.ok (n', true) : Go (Navigator ℝ × Bool)) = res at he
  cases he with
  | unrelated h1 h2 h3 h4 =>
    cases ho : ((n.skipTo j).advanceSegment.toOffline x) with
    | error e => rw [ho] at hres; cases hres
    | ok m => rw [ho] at hres; cases hres
  | leave h1 h2 =>
    cases ho : (((n.skipTo j).leaveTrack r).toOffline x) with
    | error e => rw [ho] at hres; cases hres
    | ok m => rw [ho] at hres; cases hres
  | land hf =>
    cases hres
    rw [along_land hf.1]
    have hsi : ((n.skipTo j).land (tick *. speed)).segmentIndex = n.segmentIndex + j := by
      rw [← skipTo_segmentIndex]; rfl
    rw [hsi]
    obtain ⟨k1, k2⟩ := skipped n (tick *. speed) j (fun i hi => ⟨(hj i hi).1, (hj i hi).2.1⟩)
    simp only [real_mul] at k1 ⊢
    refine ⟨fun e => ?_, fun e => ?_, fun hr => ?_⟩
    · have : j = 0 := by omega
      subst this
      rfl
    · have := k1 (by omega)
      have e : ((n.segmentIndex + j - n.segmentIndex : Int) : ℝ) = j := by push_cast; ring
      rw [e]
      linarith
    · have := k2 hr
      linarith

/-- The states of C10 are in range, so the lower bound applies to them. -/
theorem reach_inRange (n : Navigator ℝ) (h : C10.Reach n) : InRange n := by
  have hi := C10.reach_inv h
  refine ⟨fun r hr t ht => ((hi.wf r hr).1 t ht).1, ?_⟩
  rintro s ⟨r, t, h1, h2, h3, h4, h5, h6⟩
  have : n.seg? = some s := by
    unfold seg? track? route?
    rw [goAt?_eq_some.mpr ⟨h1, h2⟩]
    simp only [Option.bind_some]
    rw [goAt?_eq_some.mpr ⟨h3, h4⟩]
    simp only [Option.bind_some]
    exact goAt?_eq_some.mpr ⟨h5, h6⟩
  have hc := hi.cs
  unfold C10.segLen at hc
  rw [this] at hc
  exact hc

/-! ## The full property fails -/

/-- The track along the equator from longitude 0 over 1 to 2. -/
noncomputable def bendTrack : Track ℝ :=
  ⟨"t", [eqSeg 0 1 0 0, eqSeg 1 2 1 1], "#000000", "", none, 2 * degLen, false, 0⟩

theorem bendTrack_new : Track.new "t" "#000000" [eqPt 0, eqPt 1, eqPt 2] = .ok bendTrack := by
  have h1 : distance (F := ℝ) 0 0 0 1 = degLen * |1 - 0| := distance_equator 0 1 (by norm_num)
  have h2 : distance (F := ℝ) 0 1 0 2 = degLen * |2 - 1| := distance_equator 1 2 (by norm_num)
  have h3 : (|(2:ℝ) - 1|) = 1 := by norm_num
  simp [Track.new, makeSegments, rawSegments, relateSegments, isClosedPts, eqPt, bendTrack, eqSeg,
    LatLon.goEq, h1, h2, h3, bind, Except.bind, pure, Except.pure]
  ring

/-- The route holding it. -/
noncomputable def bendRoute : Route ℝ := (Route.new "r" "#000000").addTrack (some bendTrack)

/-- A new navigator that was given this route. -/
noncomputable def bendNav : Navigator ℝ :=
  { freshNav true with routes := [bendRoute], distance := 2 * degLen, version := 1 }

theorem bendNav_add : (freshNav true).addRoute [some bendRoute] = (bendNav, none) := by
  simp [addRoute, addLoop, freshNav, hasRoute, reset, resetIndexes, calcRouteDistance, nextVersion,
      bendRoute, bendNav, Route.addTrack, Route.updateState, Route.new, bendTrack]

/-- After a step of three quarters of the first segment. -/
noncomputable def bendNav1 : Navigator ℝ := bendNav.land (3 / 4 * degLen * 1)

theorem bend_first (x : UInt32) :
    bendNav.nextLocation (3 / 4 * degLen) 1 x = .ok (bendNav1, true) := by
  have hd := degLen_gt
  have hne : (eqSeg 0 1 0 0).isEmpty = false := eqSeg_nonempty _ _ _ _ (by norm_num)
  have hs : bendNav.seg? = some (eqSeg 0 1 0 0) := rfl
  have hc : bendNav.curSeg = eqSeg 0 1 0 0 := by simp [curSeg, hs, hne]
  have h0 : bendNav.currentSegmentDistance = 0 := rfl
  refine nextLocation_land _ _ _ _ bendRoute rfl rfl ⟨by rw [hc]; exact hne, ?_⟩
  rw [hc, h0]
  simp [eqSeg]
  linarith

theorem bend_second (x : UInt32) :
    bendNav1.nextLocation (3 / 4 * degLen) 1 x =
      .ok ((bendNav1.skipTo 1).land (3 / 4 * degLen * 1), true) := by
  have hd := degLen_gt
  have hne0 : (eqSeg 0 1 0 0).isEmpty = false := eqSeg_nonempty _ _ _ _ (by norm_num)
  have hne1 : (eqSeg 1 2 1 1).isEmpty = false := eqSeg_nonempty _ _ _ _ (by norm_num)
  have hc0 : bendNav1.curSeg = eqSeg 0 1 0 0 := by
    have : bendNav1.seg? = some (eqSeg 0 1 0 0) := rfl
    simp [curSeg, this, hne0]
  have hc1 : (bendNav1.skipTo 1).curSeg = eqSeg 1 2 1 1 := by
    have : (bendNav1.skipTo 1).seg? = some (eqSeg 1 2 1 1) := rfl
    simp [curSeg, this, hne1]
  have e0 : bendNav1.currentSegmentDistance = 0 + 3 / 4 * degLen * 1 := rfl
  have e1 : (bendNav1.skipTo 1).currentSegmentDistance = 0 := by
    show (lit 0 : ℝ) = 0
    simp
  have hf0 : ¬ bendNav1.Fits (3 / 4 * degLen *. 1) := by
    unfold Fits
    rw [hc0, e0]
    simp [eqSeg]
    intro _
    linarith
  have hf1 : (bendNav1.skipTo 1).Fits (3 / 4 * degLen *. 1) := by
    refine ⟨by rw [hc1]; exact hne1, ?_⟩
    rw [hc1, e1]
    have h3 : (|(2:ℝ) - 1|) = 1 := by norm_num
    simp [eqSeg, h3]
    linarith
  obtain ⟨j, hj, he⟩ := nextLocation_outcome bendNav1 (3 / 4 * degLen) 1 x bendRoute rfl rfl
  have hj1 : j ≤ 1 := by
    by_contra hlt
    exact (hj 1 (by omega)).1 hf1
  generalize bendNav1.nextLocation (3 / 4 * degLen) 1 x = res at he
  interval_cases j
  · cases he with
    | land hf => exact absurd hf hf0
    | unrelated _ _ _ h4 =>
      exfalso
      rw [show bendNav1.skipTo 0 = bendNav1 from rfl, hc0] at h4
      simp [Segment.hasRelation, eqSeg] at h4
    | leave _ h2 =>
      exfalso
      rw [show bendNav1.skipTo 0 = bendNav1 from rfl, hc0] at h2
      rcases h2 with h2 | h2
      · rw [hne0] at h2; cases h2
      · have : (0 : Int) = 2 - 1 := h2
        omega
  · cases he with
    | land hf => rfl
    | unrelated h1 _ _ _ => exact absurd hf1 h1
    | leave h1 _ => exact absurd hf1 h1

/-- **The full property fails.** On a track of two segments of one degree a device makes steps of
three quarters of a degree. Its second step takes it a full degree further, while every odometer counts
three quarters. -/
theorem covers_step_fails :
    ∃ n n' : Navigator ℝ,
      (freshNav true).run [.addRoute [some bendRoute], .nextLocation (3 / 4 * degLen) 1 0] = .ok n ∧
      n.nextLocation (3 / 4 * degLen) 1 0 = .ok (n', true) ∧
      n'.currentDistance - n.currentDistance = 3 / 4 * degLen ∧ along n' - along n = degLen := by
  refine ⟨bendNav1, _, ?_, bend_second 0, ?_, ?_⟩
  · simp [Navigator.run, Navigator.step, bendNav_add, bend_first]
  · show bendNav1.currentDistance + 3 / 4 * degLen * 1 - bendNav1.currentDistance = _
    ring
  · simp [along, bendNav1, bendNav, bendRoute, land, updateDist, skipTo, freshNav, goAt?, bendTrack,
      Route.addTrack, Route.updateState, Route.new, eqSeg]

/-- The first step of a track puts the device 1 m behind its start, however long the step is: on the
one-degree segment after a step of half a degree. -/
theorem first_step_one_metre :
    ∃ n' : Navigator ℝ, (oneNav true).nextLocation (degLen / 2) 1 0 = .ok (n', true) ∧
      n'.currentSegmentDistance = degLen / 2 ∧ distance 0 0 n'.point.lat n'.point.lon = 1 := by
  have hd := degLen_gt
  refine ⟨_, oneNav_step true (degLen / 2) 1 0 (by linarith), ?_, ?_⟩
  · show 0 + degLen / 2 * 1 = degLen / 2
    ring
  · have hstart : (oneNav true).isStartSegment = true := by
      simp [isStartSegment, oneNav, freshNav]
    have hp : ((oneNav true).land (degLen / 2 * 1)).point = (eqSeg 0 1 0 (-1)).destinationTo 1 := by
      simp [land, hstart, oneNav_curSeg, updateDist]
    rw [hp]
    have := (C48.segment_walk [eqPt 0, eqPt 1] ?_ "t" "#000000" (eqTrack "t" "#000000" 0 1)
      (eqTrack_new "t" "#000000" 0 1 (by norm_num)) (eqSeg 0 1 0 (-1)) (by simp [eqTrack])).2.2 1
      (by norm_num) (by simp [eqSeg]; linarith)
    · simpa [eqSeg, eqPt] using this
    · intro p hp
      simp at hp
      rcases hp with rfl | rfl <;> constructor <;> norm_num [eqPt]

/-! ## Concrete cases -/

/-- The odometer after two steps on the two-segment track. -/
example : Trip (0 + 3 / 4 * degLen * 1 + 3 / 4 * degLen * 1)
    ((bendNav1.skipTo 1).land (3 / 4 * degLen * 1)) := by
  have h0 : Trip (0 : ℝ) (freshNav true) := by
    have := Trip.new (freshNav_new true)
    simpa using this
  have h1 : Trip (0 : ℝ) bendNav := by
    have := Trip.added h0 bendNav_add (by simp [bendNav, freshNav])
    simpa using this
  exact Trip.land (Trip.land h1 (bend_first 0)) (bend_second 0)

/-- Both bounds are met by the second step: between one and two step lengths. -/
example : 3 / 4 * degLen * 1 ≤ along ((bendNav1.skipTo 1).land (3 / 4 * degLen * 1)) - along bendNav1 := by
  have hd := degLen_gt
  simp [along, bendNav1, bendNav, bendRoute, land, updateDist, skipTo, freshNav, goAt?, bendTrack,
      Route.addTrack, Route.updateState, Route.new, eqSeg]
  linarith

end C55
end GpsGen
