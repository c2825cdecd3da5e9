import Verif.Theorems.C11
import Verif.Theorems.C48
import Verif.Lemmas.Demo
/-!
# C72: a track is driven to its end

The full property fails for tracks in which a point is repeated: a segment without length is taken for
the end of the track (`behind_repeat_never`, `claim_fails`). The partial theorems cover the tracks all
of whose segments have a length.
-/

namespace GpsGen
variable {F : Type}

namespace C72
open Navigator C11

/-- The track the cursor is in. -/
def trackOf (n : Navigator F) : Option (Track F) :=
  match goAt? n.routes n.routeIndex with
  | none => none
  | some r => goAt? r.tracks n.trackIndex

/-- The call with answer `b` left the track: the cursor is in another track, or further back in the same
one, or it stayed where it was although the device was online and the step was not placed (as when the
only track begins anew at the segment where the cursor was). -/
def Left (n n' : Navigator F) (b : Bool) : Prop :=
  n'.routeIndex ≠ n.routeIndex ∨ n'.trackIndex ≠ n.trackIndex ∨ n'.segmentIndex < n.segmentIndex ∨
  (n.routes ≠ [] ∧ (n.skipOffline = true ∨ n.offlineIndex ≤ 0) ∧ b = false ∧ n'.segmentIndex = n.segmentIndex)

/-- Any number of `NextLocation` calls, with any ticks, speeds and random numbers. -/
inductive Drive [GoMath F] : Navigator F → Navigator F → Prop
  | refl (n) : Drive n n
  | next {n m n' tick speed x b} (hd : Drive n m) (h : m.nextLocation tick speed x = .ok (n', b)) : Drive n n'

/-- The full property of one call: it leaves the track only if the step overshoots all its remaining
segments. -/
def Claim [GoMath F] (n : Navigator F) : Prop :=
  ∀ tick speed x n' b, n.nextLocation tick speed x = .ok (n', b) → Left n n' b →
    Overshoots n (tick *. speed) (numSegs n)

theorem segAt_eq (n : Navigator F) (t : Track F) (ht : trackOf n = some t) (k : Int) :
    segAt n k = goAt? t.segments k ∧ numSegs n = t.segments.length := by
  unfold trackOf at ht
  unfold segAt numSegs
  cases h : goAt? n.routes n.routeIndex with
  | none => rw [h] at ht; cases ht
  | some r => rw [h] at ht; simp only at ht ⊢; rw [ht]; exact ⟨rfl, rfl⟩

theorem done_of_left [GoMath F] (n n' : Navigator F) (tick speed : F) (x : UInt32) (b : Bool)
    (h : n.nextLocation tick speed x = .ok (n', b)) (hl : Left n n' b) : TrackDone n (tick *. speed) := by
  by_cases hne : n.routes = []
  · simp [nextLocation, hne] at h
    rw [← h.1] at hl
    rcases hl with hl | hl | hl | hl
    · exact absurd rfl hl
    · exact absurd rfl hl
    · omega
    · exact absurd hne hl.1
  by_cases hon : n.skipOffline = true ∨ n.offlineIndex ≤ 0
  · obtain ⟨-, r, -, -, ha⟩ := visits_in_order n n' tick speed x b hne hon h
    cases ha with
    | same h1 h2 h3 h4 h5 h6 =>
      rcases hl with hl | hl | hl | ⟨-, -, hb, hl⟩
      · exact absurd h1 hl
      · exact absurd h2 hl
      · simp only [pos] at h3; omega
      · rcases h6 with h6 | h6
        · rw [hb] at h6; cases h6
        · simp only [pos] at h6; omega
    | nextTrack _ _ h3 => exact h3
    | nextRoute _ _ _ h4 => exact h4
    | wrap _ _ _ h4 => exact h4
  · have hoff : n.nextOffline.2 = true := by
      rw [nextOffline_eq]
      simp only [not_or, Bool.not_eq_true] at hon
      simp [hon.1]; omega
    rw [nextLocation_offline n tick speed x hne hoff] at h
    simp only [Except.ok.injEq, Prod.mk.injEq] at h
    rw [← h.1] at hl
    rcases hl with hl | hl | hl | hl
    · exact absurd rfl hl
    · exact absurd rfl hl
    · simp only at hl; omega
    · exact absurd hl.2.1 hon

/-- **C72, partial.** For every number type: a call that leaves a track all of whose segments have a
length has overshot all its remaining segments. Missing: tracks with a segment without length, for
which this is false (`claim_fails`). -/
theorem left_at_end_partial [GoMath F] (n : Navigator F) (t : Track F) (ht : trackOf n = some t)
    (h0 : 0 ≤ n.segmentIndex)
    (hlen : ∀ s ∈ t.segments, (s.dist ==. lit 0) = false) : Claim n := by
  intro tick speed x n' b h hl
  obtain ⟨k, hk, ho, hc⟩ := done_of_left n n' tick speed x b h hl
  have hs := fun k => (segAt_eq n t ht k).1
  have hn := (segAt_eq n t ht 0).2
  rcases hc with ⟨hc, ho'⟩ | hc | ⟨s, hc, he⟩
  · have : k + 1 = numSegs n := by omega
    rw [← this]; exact ho'
  · intro i hi1 hi2
    refine ho i hi1 ?_
    rw [hs] at hc
    by_contra hki
    have : (goAt? t.segments k).isSome := goAt?_isSome.mpr (by omega)
    rw [hc] at this
    cases this
  · rw [hs] at hc
    have := hlen s (List.mem_of_getElem? (goAt?_eq_some.mp hc).2)
    rw [this] at he
    cases he

/-! ## Segments without length -/

/-- Segment `k` of track `ti` of route `ri` exists and has no length. -/
def Repeat [GoFloat F] (n : Navigator F) (ri ti k : Int) : Prop :=
  ∃ r t s, goAt? n.routes ri = some r ∧ goAt? r.tracks ti = some t ∧ goAt? t.segments k = some s ∧
    (s.dist ==. lit 0) = true

/-- The cursor is behind segment `k` of track `ti` of route `ri`. -/
def Behind (n : Navigator F) (ri ti k : Int) : Prop :=
  n.routeIndex = ri ∧ n.trackIndex = ti ∧ k < n.segmentIndex

theorem repeat_empty [GoFloat F] (n : Navigator F) (ri ti k : Int) (hr : Repeat n ri ti k)
    (h1 : n.routeIndex = ri) (h2 : n.trackIndex = ti) (j : Nat) (hj : n.segmentIndex + j = k) :
    (n.skipTo j).curSeg.isEmpty = true := by
  obtain ⟨r, t, s, hr, ht, hs, he⟩ := hr
  have hseg : (n.skipTo j).seg? = some s := by
    rw [seg?_skipTo, hj]
    unfold segAt
    rw [h1, hr]
    simp only
    rw [h2, ht]
    simp only
    exact hs
  cases hc : (n.skipTo j).curSeg.isEmpty with
  | true => rfl
  | false =>
    have := curSeg_nonempty _ hc
    rw [hseg] at this
    simp only [Option.some.injEq] at this
    rw [← this] at hc
    unfold Segment.isEmpty at hc
    rw [hc] at he
    cases he

theorem leave_start [GoFloat F] (m : Navigator F) (r : Route F) :
    (m.leaveTrack r).segmentIndex = 0 ∧ (m.leaveTrack r).routes = m.routes := by
  unfold leaveTrack
  split
  · exact ⟨rfl, rfl⟩
  · split <;> exact ⟨rfl, rfl⟩

/-- One call: it does not get behind a segment without length, and it does not land on one. -/
theorem step_not_behind [GoMath F] (n n' : Navigator F) (ri ti k : Int) (hr : Repeat n ri ti k)
    (hb : ¬ Behind n ri ti k) (tick speed : F) (x : UInt32) (b : Bool)
    (h : n.nextLocation tick speed x = .ok (n', b)) :
    n'.routes = n.routes ∧ ¬ Behind n' ri ti k ∧
    (b = true → n'.routeIndex = ri → n'.trackIndex = ti → n'.segmentIndex < k) := by
  have hk : 0 ≤ k := by
    obtain ⟨_, _, s, -, -, hs, -⟩ := hr
    exact (goAt?_eq_some.mp hs).1
  rcases nextLocation_cases n n' tick speed x b h with ⟨-, rfl, rfl⟩ | ⟨-, rfl, rfl⟩ | ⟨r, -, -, j, hj, he⟩
  · exact ⟨rfl, hb, fun h => by cases h⟩
  · exact ⟨rfl, hb, fun h => by cases h⟩
  have hno : ∀ i : Nat, n.routeIndex = ri → n.trackIndex = ti → (n.skipTo i).curSeg.isEmpty = false →
      n.segmentIndex + i ≠ k := by
    intro i h1 h2 h3 h4
    rw [repeat_empty n ri ti k hr h1 h2 i h4] at h3
    cases h3
  have hlt : ∀ i : Nat, (∀ l : Nat, l ≤ i → (n.skipTo l).curSeg.isEmpty = false) → n.routeIndex = ri →
      n.trackIndex = ti → n.segmentIndex + i < k := by
    intro i hi h1 h2
    by_contra hge
    have hle : n.segmentIndex ≤ k := by
      by_contra hgt
      exact hb ⟨h1, h2, by omega⟩
    exact hno (k - n.segmentIndex).toNat h1 h2 (hi _ (by omega)) (by omega)
  generalize hres : (Except.ok (n', b) : Go (Navigator F × Bool)) = res at he
  cases he with
  | land hf =>
    simp only [Except.ok.injEq, Prod.mk.injEq] at hres
    obtain ⟨rfl, rfl⟩ := hres
    have hsi : ((n.skipTo j).land (tick *. speed)).segmentIndex = n.segmentIndex + j := by
      rw [← skipTo_segmentIndex]; rfl
    have hri : ((n.skipTo j).land (tick *. speed)).routeIndex = n.routeIndex := by
      rw [← skipTo_routeIndex n j]; rfl
    have hti : ((n.skipTo j).land (tick *. speed)).trackIndex = n.trackIndex := by
      rw [← skipTo_trackIndex n j]; rfl
    have key := hlt j (fun l hl => by
      by_cases hlj : l < j
      · exact (hj l hlj).2.1
      · have : l = j := by omega
        subst this; exact hf.1)
    refine ⟨skipTo_routes n j, ?_, ?_⟩
    · rintro ⟨h1, h2, h3⟩
      rw [hri] at h1; rw [hti] at h2; rw [hsi] at h3
      have := key h1 h2
      omega
    · intro _ h1 h2
      rw [hri] at h1; rw [hti] at h2; rw [hsi]
      exact key h1 h2
  | unrelated h1 h2 h3 h4 =>
    cases ho : ((n.skipTo j).advanceSegment.toOffline x) with
    | error e => rw [ho] at hres; cases hres
    | ok m =>
      rw [ho] at hres
      simp only [map_ok, Except.ok.injEq, Prod.mk.injEq] at hres
      obtain ⟨rfl, rfl⟩ := hres
      have hm : n'.routes = n.routes ∧ pos n' = ⟨n.routeIndex, n.trackIndex, n.segmentIndex + j + 1⟩ := by
        have hpos : pos (n.skipTo j).advanceSegment =
            ⟨n.routeIndex, n.trackIndex, n.segmentIndex + j + 1⟩ := by
          simp only [pos, advanceSegment, skipTo_routeIndex, skipTo_trackIndex, skipTo_segmentIndex]
        rcases toOffline_cases ho with ⟨-, rfl⟩ | ⟨-, r', -, rfl⟩
        · exact ⟨skipTo_routes n j, hpos⟩
        · exact ⟨skipTo_routes n j, hpos⟩
      simp only [pos, Pos.mk.injEq] at hm
      refine ⟨hm.1, ?_, fun h => by cases h⟩
      rintro ⟨e1, e2, e3⟩
      rw [hm.2.1] at e1; rw [hm.2.2.1] at e2; rw [hm.2.2.2] at e3
      have := hlt j (fun l hl => by
        by_cases hlj : l < j
        · exact (hj l hlj).2.1
        · have : l = j := by omega
          subst this; exact h2) e1 e2
      omega
  | leave h1 h2 =>
    cases ho : (((n.skipTo j).leaveTrack r).toOffline x) with
    | error e => rw [ho] at hres; cases hres
    | ok m =>
      rw [ho] at hres
      simp only [map_ok, Except.ok.injEq, Prod.mk.injEq] at hres
      obtain ⟨rfl, rfl⟩ := hres
      have hs := leave_start (n.skipTo j) r
      have hm : n'.routes = ((n.skipTo j).leaveTrack r).routes ∧
          n'.segmentIndex = ((n.skipTo j).leaveTrack r).segmentIndex := by
        rcases toOffline_cases ho with ⟨-, rfl⟩ | ⟨-, r', -, rfl⟩ <;> exact ⟨rfl, rfl⟩
      refine ⟨by rw [hm.1, hs.2, skipTo_routes], ?_, fun h => by cases h⟩
      rintro ⟨-, -, e3⟩
      rw [hm.2, hs.1] at e3
      omega

/-- **The full property fails for repeated points.** For every number type: if segment `k` of a track
has no length, then no number of `NextLocation` calls, with whatever steps, gets a device that is not
behind it behind it: the rest of the track is never driven. -/
theorem behind_repeat_never [GoMath F] (n n' : Navigator F) (ri ti k : Int) (hr : Repeat n ri ti k)
    (hb : ¬ Behind n ri ti k) (hd : Drive n n') : n'.routes = n.routes ∧ ¬ Behind n' ri ti k := by
  induction hd with
  | refl => exact ⟨rfl, hb⟩
  | next _ h ih =>
    obtain ⟨e, hb'⟩ := ih
    have := step_not_behind _ _ ri ti k (by unfold Repeat; rw [e]; exact hr) hb' _ _ _ _ h
    exact ⟨this.1.trans e, this.2.1⟩

/-- A device whose only track begins with a repeated point never moves: every call answers false and
leaves the point as it was. -/
theorem repeat_at_start_stuck [GoMath F] (n n' : Navigator F) (hr : Repeat n 0 0 0)
    (h1 : ∃ r t, n.routes = [r] ∧ r.tracks = [t]) (hri : n.routeIndex = 0) (hti : n.trackIndex = 0)
    (hsi : n.segmentIndex = 0) (hd : Drive n n') :
    n'.point = n.point ∧ n'.routes = n.routes ∧ n'.routeIndex = 0 ∧ n'.trackIndex = 0 ∧ n'.segmentIndex = 0 ∧
    ∀ tick speed x n'' b, n'.nextLocation tick speed x = .ok (n'', b) → b = false := by
  obtain ⟨r0, t0, hr0, ht0⟩ := h1
  have step : ∀ (m m' : Navigator F) tick speed x b, m.routes = n.routes → m.routeIndex = 0 →
      m.trackIndex = 0 → m.segmentIndex = 0 → m.nextLocation tick speed x = .ok (m', b) →
      b = false ∧ m'.point = m.point ∧ m'.routes = m.routes ∧ m'.routeIndex = 0 ∧ m'.trackIndex = 0 ∧
        m'.segmentIndex = 0 := by
    intro m m' tick speed x b e1 e2 e3 e4 h
    have hrm : Repeat m 0 0 0 := by unfold Repeat; rw [e1]; exact hr
    rcases nextLocation_cases m m' tick speed x b h with ⟨-, rfl, rfl⟩ | ⟨-, rfl, rfl⟩ | ⟨r, hrt, -, j, hj, he⟩
    · exact ⟨rfl, rfl, rfl, e2, e3, e4⟩
    · exact ⟨rfl, rfl, rfl, e2, e3, e4⟩
    have hemp : (m.skipTo 0).curSeg.isEmpty = true :=
      repeat_empty m 0 0 0 hrm e2 e3 0 (by rw [e4]; rfl)
    have hj0 : j = 0 := by
      by_contra hj0
      have := (hj 0 (by omega)).2.1
      rw [hemp] at this
      cases this
    subst hj0
    have hrr : r = r0 := by
      have := hrt
      unfold route? at this
      rw [e1, hr0, e2] at this
      simpa [goAt?] using this.symm
    generalize hres : (Except.ok (m', b) : Go (Navigator F × Bool)) = res at he
    cases he with
    | land hf => exact absurd (hemp.symm.trans hf.1) (by simp)
    | unrelated _ h2 _ _ => rw [hemp] at h2; cases h2
    | leave _ _ =>
      cases ho : (((m.skipTo 0).leaveTrack r).toOffline x) with
      | error e => rw [ho] at hres; cases hres
      | ok q =>
        rw [ho] at hres
        simp only [map_ok, Except.ok.injEq, Prod.mk.injEq] at hres
        obtain ⟨rfl, rfl⟩ := hres
        have hl : (m.leaveTrack r).routes = m.routes ∧ (m.leaveTrack r).point = m.point ∧
            (m.leaveTrack r).routeIndex = 0 ∧ (m.leaveTrack r).trackIndex = 0 ∧
            (m.leaveTrack r).segmentIndex = 0 := by
          unfold leaveTrack Route.numTracks
          rw [hrr, ht0, e1, hr0, e2, e3]
          simp
        have hm : m'.routes = (m.leaveTrack r).routes ∧ m'.point = (m.leaveTrack r).point ∧
            m'.routeIndex = (m.leaveTrack r).routeIndex ∧ m'.trackIndex = (m.leaveTrack r).trackIndex ∧
            m'.segmentIndex = (m.leaveTrack r).segmentIndex := by
          rcases toOffline_cases ho with ⟨-, rfl⟩ | ⟨-, r', -, rfl⟩ <;> exact ⟨rfl, rfl, rfl, rfl, rfl⟩
        exact ⟨rfl, hm.2.1.trans hl.2.1, hm.1.trans hl.1, hm.2.2.1.trans hl.2.2.1,
          hm.2.2.2.1.trans hl.2.2.2.1, hm.2.2.2.2.trans hl.2.2.2.2⟩
  have inv : n'.point = n.point ∧ n'.routes = n.routes ∧ n'.routeIndex = 0 ∧ n'.trackIndex = 0 ∧
      n'.segmentIndex = 0 := by
    induction hd with
    | refl => exact ⟨rfl, rfl, hri, hti, hsi⟩
    | next _ h ih =>
      obtain ⟨a, b, c, d, e⟩ := ih
      obtain ⟨-, a', b', c', d', e'⟩ := step _ _ _ _ _ _ b c d e h
      exact ⟨a'.trans a, b'.trans b, c', d', e'⟩
  obtain ⟨a, b, c, d, e⟩ := inv
  exact ⟨a, b, c, d, e, fun tick speed x n'' bb h => (step n' n'' tick speed x bb b c d e h).1⟩

/-! ## Exact arithmetic -/

/-- Coordinates for which the position on the sphere determines the numbers. -/
def Inner (p : LatLon ℝ) : Prop := -90 < p.lat ∧ p.lat < 90 ∧ -180 ≤ p.lon ∧ p.lon < 180

/-- No point is repeated: each is followed by a different one. -/
def NoRepeat : List (LatLon ℝ) → Prop
  | a :: b :: rest => a ≠ b ∧ NoRepeat (b :: rest)
  | _ => True

theorem raw_length_ne (i : Int) (pts : List (LatLon ℝ)) (hv : ∀ p ∈ pts, Inner p) (hn : NoRepeat pts) :
    ∀ s ∈ rawSegments i pts, s.dist ≠ 0 := by
  induction pts generalizing i with
  | nil => intro s hs; simp [rawSegments] at hs
  | cons a rest ih =>
    cases rest with
    | nil => intro s hs; simp [rawSegments] at hs
    | cons b rest =>
      intro s hs
      rw [rawSegments] at hs
      rcases List.mem_cons.mp hs with rfl | hs
      · intro h0
        have ha := hv a (by simp)
        have hb := hv b (by simp)
        have := (C46.zero_iff_equal a.lat a.lon b.lat b.lon ⟨ha.1, ha.2.1⟩ ⟨hb.1, hb.2.1⟩ ha.2.2 hb.2.2).mp h0
        exact hn.1 (by cases a; cases b; simp_all)
      · exact ih (i + 1) (fun p hp => hv p (by simp [hp])) hn.2 s hs

/-- Every segment of a track made from such points without repetition has a length. -/
theorem built_length (pts : List (LatLon ℝ)) (hv : ∀ p ∈ pts, Inner p) (hn : NoRepeat pts)
    (id color : String) (t : Track ℝ) (h : Track.new id color pts = .ok t) : ∀ s ∈ t.segments, s.dist ≠ 0 := by
  unfold Track.new at h
  obtain ⟨⟨segs, d⟩, hm, h⟩ := bind_eq_ok h
  cases h
  unfold makeSegments at hm
  split at hm
  · cases hm
  have hraw := raw_length_ne 0 pts hv hn
  cases hr : rawSegments 0 pts with
  | nil =>
    rw [hr] at hm
    simp only [Except.ok.injEq, Prod.mk.injEq] at hm
    intro s hs
    rw [← hm.1] at hs
    cases hs
  | cons p rest =>
    rw [hr] at hm hraw
    simp only [Except.ok.injEq, Prod.mk.injEq] at hm
    intro s hs
    rw [← hm.1] at hs
    exact C48.relate_spec (fun s => s.dist ≠ 0) (fun _ _ h => h) 1 p rest (hraw p (by simp))
      (fun s hs => hraw s (by simp [hs])) s hs

/-- **C72, partial, for built tracks.** In a track made from points without repetition (away from the
poles, longitudes in [-180, 180)) a device is never taken off before the end. -/
theorem driven_to_end_partial (n : Navigator ℝ) (pts : List (LatLon ℝ)) (hv : ∀ p ∈ pts, Inner p)
    (hn : NoRepeat pts) (id color : String) (t : Track ℝ) (h : Track.new id color pts = .ok t)
    (ht : trackOf n = some t) (h0 : 0 ≤ n.segmentIndex) : Claim n :=
  left_at_end_partial n t ht h0 (fun s hs => by
    have := built_length pts hv hn id color t h s hs
    simpa using this)

/-- With steps that are positive and not longer than any segment no segment is passed over: a call
that stays in the track ends on the same or the next segment, and the track is left from its last
segment only. -/
theorem each_segment_partial (n n' : Navigator ℝ) (t : Track ℝ) (ht : trackOf n = some t)
    (h0 : 0 ≤ n.segmentIndex) (hlen : ∀ s ∈ t.segments, s.dist ≠ 0) (tick speed : ℝ)
    (hstep : ∀ s ∈ t.segments, tick * speed ≤ s.dist) (x : UInt32) (b : Bool)
    (h : n.nextLocation tick speed x = .ok (n', b)) :
    (Left n n' b → (t.segments.length : Int) ≤ n.segmentIndex + 1) ∧
    (¬ Left n n' b → n'.segmentIndex ≤ n.segmentIndex + 1) := by
  have over : ∀ k, Overshoots n (tick * speed) k → n.segmentIndex + 1 < k → False := by
    intro k ho hk
    obtain ⟨s, hs, hle⟩ := ho (n.segmentIndex + 1) (by omega) hk
    rw [if_neg (by omega)] at hle
    rw [(segAt_eq n t ht _).1] at hs
    have := hstep s (List.mem_of_getElem? (goAt?_eq_some.mp hs).2)
    simp at hle
    linarith
  constructor
  · intro hl
    have := left_at_end_partial n t ht h0 (fun s hs => by simpa using hlen s hs) tick speed x n' b h hl
    rw [(segAt_eq n t ht 0).2] at this
    by_contra hlt
    exact over _ this (by omega)
  · intro hl
    unfold Left at hl
    simp only [not_or, not_lt, ne_eq, not_not] at hl
    by_cases hon : n.skipOffline = true ∨ n.offlineIndex ≤ 0
    · have hne : n.routes ≠ [] := by
        intro e
        simp [trackOf, goAt?, e] at ht
      obtain ⟨-, r, -, -, ha⟩ := visits_in_order n n' tick speed x b hne hon h
      cases ha with
      | same _ _ _ _ h5 =>
        by_contra hlt
        exact over _ h5 (by simp only [pos]; omega)
      | nextTrack _ h2 => simp only [pos, Pos.mk.injEq] at h2; omega
      | nextRoute _ _ h3 => simp only [pos, Pos.mk.injEq] at h3; omega
      | wrap _ _ h3 => simp only [pos, Pos.mk.injEq] at h3; omega
    · have hne : n.routes ≠ [] := by
        intro e
        simp [trackOf, goAt?, e] at ht
      have hoff : n.nextOffline.2 = true := by
        rw [nextOffline_eq]
        simp only [not_or, Bool.not_eq_true] at hon
        simp [hon.1]; omega
      rw [nextLocation_offline n tick speed x hne hoff] at h
      simp only [Except.ok.injEq, Prod.mk.injEq] at h
      rw [← h.1]
      simp only
      omega

/-! ## The witness -/

/-- The track along the equator from longitude 0 over 1, given twice, to 2. -/
noncomputable def pausePts : List (LatLon ℝ) := [eqPt 0, eqPt 1, eqPt 1, eqPt 2]

noncomputable def pauseTrack : Track ℝ :=
  ⟨"t", [eqSeg 0 1 0 0, eqSeg 1 1 1 1, eqSeg 1 2 2 2], "#000000", "", none, 2 * degLen, false, 0⟩

theorem pauseTrack_new : Track.new "t" "#000000" pausePts = .ok pauseTrack := by
  have h1 : distance (F := ℝ) 0 0 0 1 = degLen * |1 - 0| := distance_equator 0 1 (by norm_num)
  have h2 : distance (F := ℝ) 0 1 0 2 = degLen * |2 - 1| := distance_equator 1 2 (by norm_num)
  have h4 : distance (F := ℝ) 0 1 0 1 = degLen * |1 - 1| := distance_equator 1 1 (by norm_num)
  have h3 : (|(2:ℝ) - 1|) = 1 := by norm_num
  simp [Track.new, makeSegments, rawSegments, relateSegments, isClosedPts, eqPt, pauseTrack, pausePts, eqSeg,
    LatLon.goEq, h1, h2, h3, h4, bind, Except.bind, pure, Except.pure]
  ring

/-- The route holding it. -/
noncomputable def pauseRoute : Route ℝ := (Route.new "r" "#000000").addTrack (some pauseTrack)

/-- A new navigator that was given this route. -/
noncomputable def pauseNav : Navigator ℝ :=
  { freshNav true with routes := [pauseRoute], distance := 2 * degLen, version := 1 }

theorem pauseNav_add : (freshNav true).addRoute [some pauseRoute] = (pauseNav, none) := by
  simp [addRoute, addLoop, freshNav, hasRoute, reset, resetIndexes, calcRouteDistance, nextVersion,
      pauseRoute, pauseNav, Route.addTrack, Route.updateState, Route.new, pauseTrack]

/-- After a step of three quarters of the first segment. -/
noncomputable def pauseNav1 : Navigator ℝ := pauseNav.land (3 / 4 * degLen * 1)

theorem pause_first (x : UInt32) :
    pauseNav.nextLocation (3 / 4 * degLen) 1 x = .ok (pauseNav1, true) := by
  have hd := degLen_gt
  have hne : (eqSeg 0 1 0 0).isEmpty = false := eqSeg_nonempty _ _ _ _ (by norm_num)
  have hs : pauseNav.seg? = some (eqSeg 0 1 0 0) := rfl
  have hc : pauseNav.curSeg = eqSeg 0 1 0 0 := by simp [curSeg, hs, hne]
  have h0 : pauseNav.currentSegmentDistance = 0 := rfl
  refine nextLocation_land _ _ _ _ pauseRoute rfl rfl ⟨by rw [hc]; exact hne, ?_⟩
  rw [hc, h0]
  simp [eqSeg]
  linarith

theorem pause_repeat : Repeat pauseNav1 0 0 1 := by
  refine ⟨pauseRoute, pauseTrack, eqSeg 1 1 1 1, rfl, rfl, rfl, ?_⟩
  simp [eqSeg]

theorem pause_second (x : UInt32) :
    pauseNav1.nextLocation (3 / 4 * degLen) 1 x = .ok ((pauseNav1.skipTo 1).leaveTrack pauseRoute, false) := by
  have hd := degLen_gt
  have hne0 : (eqSeg 0 1 0 0).isEmpty = false := eqSeg_nonempty _ _ _ _ (by norm_num)
  have hc0 : pauseNav1.curSeg = eqSeg 0 1 0 0 := by
    have : pauseNav1.seg? = some (eqSeg 0 1 0 0) := rfl
    simp [curSeg, this, hne0]
  have e0 : pauseNav1.currentSegmentDistance = 0 + 3 / 4 * degLen * 1 := rfl
  have hf0 : ¬ pauseNav1.Fits (3 / 4 * degLen *. 1) := by
    unfold Fits
    rw [hc0, e0]
    simp [eqSeg]
    intro _
    linarith
  have hemp : (pauseNav1.skipTo 1).curSeg.isEmpty = true :=
    repeat_empty pauseNav1 0 0 1 pause_repeat rfl rfl 1 rfl
  obtain ⟨j, hj, he⟩ := nextLocation_outcome pauseNav1 (3 / 4 * degLen) 1 x pauseRoute rfl rfl
  have hj1 : j ≤ 1 := by
    by_contra hlt
    exact absurd (hemp.symm.trans (hj 1 (by omega)).2.1) (by simp)
  generalize pauseNav1.nextLocation (3 / 4 * degLen) 1 x = res at he
  interval_cases j
  · cases he with
    | land hf => exact absurd hf hf0
    | unrelated _ _ _ h4 =>
      exfalso
      rw [show pauseNav1.skipTo 0 = pauseNav1 from rfl, hc0] at h4
      simp [Segment.hasRelation, eqSeg] at h4
    | leave _ h2 =>
      exfalso
      rw [show pauseNav1.skipTo 0 = pauseNav1 from rfl, hc0] at h2
      rcases h2 with h2 | h2
      · rw [hne0] at h2; cases h2
      · have : (0 : Int) = 3 - 1 := h2
        omega
  · cases he with
    | land hf => exact absurd (hemp.symm.trans hf.1) (by simp)
    | unrelated _ h2 _ _ => exact absurd (hemp.symm.trans h2) (by simp)
    | leave _ _ => rfl

/-- **The full property fails.** On the track 0°, 1°, 1°, 2° of the equator, which `NewTrack` accepts and
counts with two degrees, a device makes steps of three quarters of a degree. The second step ends the
lap although it does not overshoot the last segment, and that segment is never driven whatever steps
follow. -/
theorem claim_fails :
    ∃ n : Navigator ℝ, Track.new "t" "#000000" pausePts = .ok pauseTrack ∧
      (freshNav true).run [.addRoute [some pauseRoute], .nextLocation (3 / 4 * degLen) 1 0] = .ok n ∧
      n.distance = 2 * degLen ∧ ¬ Claim n ∧ ∀ n', Drive n n' → ¬ Behind n' 0 0 1 := by
  have hd := degLen_gt
  refine ⟨pauseNav1, pauseTrack_new, ?_, rfl, ?_, ?_⟩
  · simp [Navigator.run, Navigator.step, pauseNav_add, pause_first]
  · intro hc
    have := hc (3 / 4 * degLen) 1 0 _ _ (pause_second 0) ?_
    · obtain ⟨s, hs, hle⟩ := this 2 (show (0 : Int) ≤ 2 by omega) (show (2 : Int) < 3 by omega)
      have : s = eqSeg 1 2 2 2 := by
        have h2 : segAt pauseNav1 2 = some (eqSeg 1 2 2 2) := rfl
        rw [h2] at hs
        exact (Option.some.inj hs).symm
      subst this
      rw [if_neg (show ¬ (2 : Int) = pauseNav1.segmentIndex from show ¬ (2 : Int) = 0 by omega)] at hle
      have h3 : (|(2:ℝ) - 1|) = 1 := by norm_num
      simp [eqSeg, h3] at hle
      linarith
    · exact Or.inr (Or.inr (Or.inr ⟨by simp [pauseNav1, pauseNav, land, updateDist], Or.inl rfl, rfl, rfl⟩))
  · intro n' hn'
    refine (behind_repeat_never pauseNav1 n' 0 0 1 pause_repeat ?_ hn').2
    rintro ⟨-, -, h⟩
    have : (1 : Int) < 0 := h
    omega

/-! Non-vacuity: the track 0°, 1°, 2° of the equator is driven to its end, and a device on the track
0°, 0°, 1° never moves. -/

example : ∀ t, Track.new "t" "#000000" [eqPt 0, eqPt 1, eqPt 2] = .ok t →
    Claim ({ freshNav true with routes := [(Route.new "r" "#000000").addTrack (some t)] } : Navigator ℝ) := by
  intro t ht
  refine driven_to_end_partial _ _ ?_ ?_ "t" "#000000" t ht rfl (le_refl 0)
  · intro p hp
    simp only [List.mem_cons, List.not_mem_nil, or_false] at hp
    rcases hp with rfl | rfl | rfl <;> norm_num [Inner, eqPt]
  · refine ⟨?_, ?_, trivial⟩ <;> (intro h; have := congrArg LatLon.lon h; norm_num [eqPt] at this)

/-- The track 0°, 0°, 1° of the equator. -/
noncomputable def stuckTrack : Track ℝ :=
  ⟨"t", [eqSeg 0 0 0 0, eqSeg 0 1 1 1], "#000000", "", none, degLen, false, 0⟩

example (n' : Navigator ℝ)
    (hd : Drive ({ freshNav true with routes := [(Route.new "r" "#000000").addTrack (some stuckTrack)] } :
      Navigator ℝ) n') : n'.point = (freshNav true : Navigator ℝ).point :=
  (repeat_at_start_stuck _ n' ⟨(Route.new "r" "#000000").addTrack (some stuckTrack), stuckTrack,
    eqSeg 0 0 0 0, rfl, rfl, rfl, by simp [eqSeg]⟩ ⟨_, _, rfl, rfl⟩ rfl rfl rfl hd).1

end C72
end GpsGen
