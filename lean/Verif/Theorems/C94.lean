import Verif.Lemmas.TripTime
import Verif.Theorems.C72
import Verif.Theorems.C50
import Verif.Theorems.C15
/-!
# C94: a trip takes as long as its length divided by the speed

The full property fails: what a step leaves of a segment is not carried over, so a trip takes the sum
over its segments of the whole steps that fit into each (`lap_exact`), and a track of whatever length
whose points are closer together than a step is over with the first call (`claim_fails`). The partial
theorems say how many calls a trip takes and how far this is from length divided by speed. Exact
arithmetic. The vocabulary (`wholeSteps`, `allTracks`, `Roads`, `Periods`, `Ends`) is in
`Lemmas/TripTime`.
-/

namespace GpsGen
namespace C94
open Navigator Trip TripTime

/-- The trip is at its beginning: the cursor is on the first segment of the first track, nothing of it
is driven and the device is online. -/
structure AtBegin (n : Navigator ℝ) : Prop where
  start : AtStart n
  driven : n.currentSegmentDistance = 0
  online : Online n

/-- The call with number `N` completes the trip and no call before it does: it finds the device online
in the last track, it does not place it, the cursor is back at the first segment, and `IsFinish()`
reports true. -/
def Takes (n : Navigator ℝ) (tick speed : ℕ → ℝ) (x : ℕ → UInt32) (N : ℕ) : Prop :=
  ∃ k m n', N = k + 1 ∧ n.run (calls tick speed x k) = .ok m ∧
    m.nextLocation (tick k) (speed k) (x k) = .ok (n', false) ∧ Ends m false ∧ AtStart n' ∧ n'.isFinish.2 = true ∧
    ∀ i < k, ∃ m' n'' ans, n.run (calls tick speed x i) = .ok m' ∧
      m'.nextLocation (tick i) (speed i) (x i) = .ok (n'', ans) ∧ ¬ Ends m' ans

/-- The length of all tracks. -/
noncomputable def tripLength (n : Navigator ℝ) : ℝ :=
  ((allTracks n).map (fun t => (t.segments.map (fun s => s.dist)).sum)).sum

/-- The number of segments of all tracks. -/
def segCount (n : Navigator ℝ) : ℕ := ((allTracks n).map (fun t => t.segments.length)).sum

/-- The calls of a trip with steps `c` and offline periods of `o` calls: the whole steps that fit into
each segment, one call to leave each track, and an offline period between any two tracks. -/
noncomputable def tripCalls (c : ℝ) (o : ℕ) (n : Navigator ℝ) : ℕ :=
  ((allTracks n).map (fun t => wholeSteps c t + 1)).sum + ((allTracks n).length - 1) * o

/-- The full property, without offline periods: a trip driven in steps of the same length takes its
length divided by the step, up to one call for each track. -/
def Claim (n : Navigator ℝ) : Prop :=
  ∀ tick speed x N, 0 < tick * speed → Takes n (fun _ => tick) (fun _ => speed) x N →
    tripLength n ≤ N * (tick * speed) ∧
    N * (tick * speed) ≤ tripLength n + (allTracks n).length * (tick * speed)

/-! ## How many calls -/

theorem good_begin {lo hi : ℕ} {n : Navigator ℝ} (hr : Roads n) (hp : Periods lo hi n) (hb : AtBegin n) :
    Good lo hi n ∧ ∀ c o, rest c o n = tripCalls c o n := by
  obtain ⟨⟨h1, h2, h3⟩, h4, h5⟩ := hb
  obtain ⟨r, rs, hrs⟩ := List.exists_cons_of_ne_nil hr.routes
  obtain ⟨t, ts, hts⟩ := List.exists_cons_of_ne_nil (hr.tracks r (by rw [hrs]; simp))
  have hroute : n.route? = some r := by unfold route?; rw [hrs, h1]; rfl
  have htrack : n.track? = some t := by unfold track?; rw [hroute, h2]; simp only [Option.bind_some]; rw [hts]; rfl
  refine ⟨⟨hr, ?_, by rw [htrack]; rfl, by omega, hp⟩, fun c o => ?_⟩
  · rw [h1, hrs]; simp
  · have e1 : pause n = 0 := by
      unfold pause
      rcases h5 with h | h
      · simp [h]
      · split
        · rfl
        · omega
    have e2 : allTracks n = t :: later n := by
      unfold allTracks later
      rw [hroute, h1, h2, hrs]
      simp [hts]
    have e3 : here n = t.segments := by
      unfold here; rw [htrack, h3]; rfl
    unfold rest tripCalls
    rw [e1, e2, e3, h4, togo_zero]
    simp only [List.map_cons, List.sum_cons, List.length_cons, Nat.add_sub_cancel]
    have : ∀ l : List (Track ℝ), (l.map (fun t => o + wholeSteps c t + 1)).sum =
        (l.map (fun t => wholeSteps c t + 1)).sum + l.length * o := by
      intro l
      induction l with
      | nil => simp
      | cons a l ih => simp only [List.map_cons, List.sum_cons, List.length_cons, ih]; ring
    rw [this]
    unfold wholeSteps
    omega

theorem takes_unique (n : Navigator ℝ) (tick speed : ℕ → ℝ) (x : ℕ → UInt32) (N M : ℕ)
    (h : Takes n tick speed x N) (h' : Takes n tick speed x M) : N = M := by
  obtain ⟨k, m, n', rfl, h1, h2, h3, -, -, h4⟩ := h
  obtain ⟨k', m', n'', rfl, h1', h2', h3', -, -, h4'⟩ := h'
  rcases Nat.lt_trichotomy k k' with hlt | rfl | hlt
  · obtain ⟨q, q', ans, a, b, c⟩ := h4' k hlt
    rw [h1] at a; cases a
    rw [h2] at b; cases b
    exact absurd h3 c
  · rfl
  · obtain ⟨q, q', ans, a, b, c⟩ := h4 k' hlt
    rw [h1'] at a; cases a
    rw [h2'] at b; cases b
    exact absurd h3' c

/-- **C94, partial.** A trip whose steps are between `a` and `b` long and whose offline periods last
between `lo` and `hi` calls is completed, and the number of calls is between that of a trip with steps
`b` and periods `lo` and that of a trip with steps `a` and periods `hi`. Missing: the comparison with
length divided by speed from below, which is false (`claim_fails`). -/
theorem lap_between_partial (n : Navigator ℝ) (a b : ℝ) (lo hi : ℕ) (ha : 0 < a) (hr : Roads n)
    (hp : Periods lo hi n) (hb : AtBegin n) (tick speed : ℕ → ℝ) (x : ℕ → UInt32)
    (h : ∀ i, a ≤ tick i * speed i ∧ tick i * speed i ≤ b) :
    ∃ N, Takes n tick speed x N ∧ tripCalls b lo n ≤ N ∧ N ≤ tripCalls a hi n := by
  obtain ⟨hg, he⟩ := good_begin hr hp hb
  have hb0 : 0 < b := by have := h 0; linarith
  obtain ⟨k, m, n', r1, -, r3, r4, r5, r6, r7, r8, r9⟩ := trip ha hb0 n hg tick speed x h
  rw [he] at r7 r8
  exact ⟨k + 1, ⟨k, m, n', rfl, r1, r3, r4, r5, r6, r9⟩, r7, r8⟩

/-- With steps of the same length and without offline periods the number of calls is known: for each
track one call to leave it, and for each of its segments the whole steps that fit into it. -/
theorem lap_exact (n : Navigator ℝ) (hr : Roads n) (hs : n.skipOffline = true) (hb : AtBegin n)
    (tick speed : ℝ) (x : ℕ → UInt32) (h : 0 < tick * speed) (N : ℕ) :
    Takes n (fun _ => tick) (fun _ => speed) x N ↔
      N = ((allTracks n).map (fun t => (t.segments.map (fun s => ⌊s.dist / (tick * speed)⌋₊)).sum + 1)).sum := by
  obtain ⟨M, h1, h2, h3⟩ := lap_between_partial n (tick * speed) (tick * speed) 0 0 h hr (Or.inl ⟨hs, rfl, rfl⟩) hb
    (fun _ => tick) (fun _ => speed) x (fun _ => ⟨le_refl _, le_refl _⟩)
  have e : M = tripCalls (tick * speed) 0 n := by omega
  have e' : tripCalls (tick * speed) 0 n =
      ((allTracks n).map (fun t => (t.segments.map (fun s => ⌊s.dist / (tick * speed)⌋₊)).sum + 1)).sum := by
    unfold tripCalls wholeSteps; omega
  rw [← e', ← e]
  exact ⟨fun h => takes_unique n _ _ x _ _ h h1, fun h => h ▸ h1⟩

/-! ## Comparison with length divided by speed -/

theorem floor_sum_le (c : ℝ) (hc : 0 < c) (l : List (Segment ℝ)) (h : ∀ s ∈ l, 0 < s.dist) :
    ((l.map (fun s => ⌊s.dist / c⌋₊)).sum : ℝ) * c ≤ (l.map (fun s => s.dist)).sum ∧
    (l.map (fun s => s.dist)).sum ≤ (((l.map (fun s => ⌊s.dist / c⌋₊)).sum : ℝ) + l.length) * c := by
  induction l with
  | nil => simp
  | cons s l ih =>
    obtain ⟨ih1, ih2⟩ := ih (fun s hs => h s (by simp [hs]))
    have hs := h s (by simp)
    have f1 := Nat.floor_le (div_nonneg hs.le hc.le)
    have f2 := (Nat.lt_floor_add_one (s.dist / c)).le
    rw [le_div_iff₀ hc] at f1
    rw [div_le_iff₀ hc] at f2
    simp only [List.map_cons, List.sum_cons, List.length_cons, Nat.cast_add, Nat.cast_one]
    constructor <;> nlinarith

theorem calls_bounds (c : ℝ) (hc : 0 < c) (l : List (Track ℝ)) (h : ∀ t ∈ l, ∀ s ∈ t.segments, 0 < s.dist) :
    ((l.map (fun t => wholeSteps c t + 1)).sum : ℝ) * c ≤
      (l.map (fun t => (t.segments.map (fun s => s.dist)).sum)).sum + l.length * c ∧
    (l.map (fun t => (t.segments.map (fun s => s.dist)).sum)).sum + l.length * c ≤
      (((l.map (fun t => wholeSteps c t + 1)).sum : ℝ) + ((l.map (fun t => t.segments.length)).sum : ℕ)) * c := by
  induction l with
  | nil => simp
  | cons t l ih =>
    obtain ⟨ih1, ih2⟩ := ih (fun t ht => h t (by simp [ht]))
    obtain ⟨f1, f2⟩ := floor_sum_le c hc t.segments (h t (by simp))
    simp only [List.map_cons, List.sum_cons, List.length_cons, Nat.cast_add, Nat.cast_one]
    unfold wholeSteps at *
    constructor <;> nlinarith

theorem tracks_length {n : Navigator ℝ} (hr : Roads n) : ∀ t ∈ allTracks n, ∀ s ∈ t.segments, 0 < s.dist := by
  intro t ht
  obtain ⟨r, hrm, htm⟩ := List.mem_flatMap.mp ht
  exact hr.length r hrm t htm

/-- **C94, partial: never later.** With steps of at least `a` and offline periods of at most `hi` calls
the trip is completed within its length divided by `a`, plus one call for each track, plus an offline
period between any two tracks. -/
theorem not_late_partial (n : Navigator ℝ) (a b : ℝ) (lo hi : ℕ) (ha : 0 < a) (hr : Roads n)
    (hp : Periods lo hi n) (hb : AtBegin n) (tick speed : ℕ → ℝ) (x : ℕ → UInt32)
    (h : ∀ i, a ≤ tick i * speed i ∧ tick i * speed i ≤ b) :
    ∃ N, Takes n tick speed x N ∧
      (N : ℝ) ≤ tripLength n / a + (allTracks n).length + ((allTracks n).length - 1 : ℕ) * hi := by
  obtain ⟨N, h1, -, h3⟩ := lap_between_partial n a b lo hi ha hr hp hb tick speed x h
  refine ⟨N, h1, ?_⟩
  have h4 : (N : ℝ) ≤ (tripCalls a hi n : ℕ) := by exact_mod_cast h3
  refine le_trans h4 ?_
  have := (calls_bounds a ha (allTracks n) (tracks_length hr)).1
  rw [← le_div_iff₀ ha, add_div, mul_div_cancel_right₀ _ (ne_of_gt ha)] at this
  unfold tripCalls tripLength
  push_cast
  push_cast at this
  linarith

/-- **C94, partial: how early.** With steps of at most `b` the trip takes at least its length divided by
`b`, less one call for each segment, plus one for each track (and the offline periods): per segment less
than one step is lost. -/
theorem not_early_partial (n : Navigator ℝ) (a b : ℝ) (lo hi : ℕ) (ha : 0 < a) (hr : Roads n)
    (hp : Periods lo hi n) (hb : AtBegin n) (tick speed : ℕ → ℝ) (x : ℕ → UInt32)
    (h : ∀ i, a ≤ tick i * speed i ∧ tick i * speed i ≤ b) :
    ∃ N, Takes n tick speed x N ∧
      tripLength n / b - segCount n + (allTracks n).length + ((allTracks n).length - 1 : ℕ) * lo ≤ (N : ℝ) := by
  obtain ⟨N, h1, h2, -⟩ := lap_between_partial n a b lo hi ha hr hp hb tick speed x h
  refine ⟨N, h1, ?_⟩
  have hb0 : 0 < b := by have := h 0; linarith
  have h4 : ((tripCalls b lo n : ℕ) : ℝ) ≤ N := by exact_mod_cast h2
  refine le_trans ?_ h4
  have := (calls_bounds b hb0 (allTracks n) (tracks_length hr)).2
  rw [← div_le_iff₀ hb0, add_div, mul_div_cancel_right₀ _ (ne_of_gt hb0)] at this
  unfold tripCalls tripLength segCount
  push_cast
  push_cast at this
  linarith

/-- The full property holds if every segment is a whole number of steps long. -/
theorem claim_partial (n : Navigator ℝ) (hr : Roads n) (hs : n.skipOffline = true) (hb : AtBegin n)
    (tick speed : ℝ) (x : ℕ → UInt32) (h : 0 < tick * speed)
    (hw : ∀ t ∈ allTracks n, ∀ s ∈ t.segments, ∃ k : ℕ, s.dist = k * (tick * speed)) (N : ℕ)
    (hN : Takes n (fun _ => tick) (fun _ => speed) x N) :
    N * (tick * speed) = tripLength n + (allTracks n).length * (tick * speed) := by
  rw [lap_exact n hr hs hb tick speed x h] at hN
  rw [hN]
  unfold tripLength
  generalize allTracks n = l at hw
  induction l with
  | nil => simp
  | cons t l ih =>
    have ih' := ih (fun t ht => hw t (by simp [ht]))
    have hseg : ∀ l : List (Segment ℝ), (∀ s ∈ l, ∃ k : ℕ, s.dist = k * (tick * speed)) →
        ((l.map (fun s => ⌊s.dist / (tick * speed)⌋₊)).sum : ℕ) * (tick * speed) = (l.map (fun s => s.dist)).sum := by
      intro l hl
      induction l with
      | nil => simp
      | cons s l ih2 =>
        obtain ⟨k, hk⟩ := hl s (by simp)
        have := ih2 (fun s hs => hl s (by simp [hs]))
        simp only [List.map_cons, List.sum_cons, Nat.cast_add]
        rw [add_mul, this, hk, mul_div_cancel_right₀ _ (ne_of_gt h), Nat.floor_natCast]
    have := hseg t.segments (hw t (by simp))
    simp only [List.map_cons, List.sum_cons, List.length_cons, Nat.cast_add, Nat.cast_one] at *
    rw [add_mul, ih', add_mul, this]
    ring

/-! ## Points closer together than a step -/

/-- A trip all of whose segments are shorter than the step takes one call for each track, whatever its
length. -/
theorem short_segments (n : Navigator ℝ) (hr : Roads n) (hs : n.skipOffline = true) (hb : AtBegin n)
    (tick speed : ℝ) (x : ℕ → UInt32)
    (hshort : ∀ t ∈ allTracks n, ∀ s ∈ t.segments, s.dist < tick * speed) (h : 0 < tick * speed) :
    Takes n (fun _ => tick) (fun _ => speed) x (allTracks n).length := by
  rw [lap_exact n hr hs hb tick speed x h]
  generalize allTracks n = l at hshort
  induction l with
  | nil => rfl
  | cons t l ih =>
    have hz : ∀ l : List (Segment ℝ), (∀ s ∈ l, s.dist < tick * speed) →
        (l.map (fun s => ⌊s.dist / (tick * speed)⌋₊)).sum = 0 := by
      intro l hl
      induction l with
      | nil => rfl
      | cons s l ih2 =>
        simp only [List.map_cons, List.sum_cons]
        rw [ih2 (fun s hs => hl s (by simp [hs])), floor_zero h (hl s (by simp))]
    simp only [List.map_cons, List.sum_cons, List.length_cons]
    rw [hz t.segments (hshort t (by simp)), ← ih (fun t ht => hshort t (by simp [ht]))]
    omega

/-- The same for every number type, doubles included: if the only track consists of joined segments into
none of which the step fits from its beginning, then the first call completes the trip, whatever the
number of segments. -/
theorem over_at_once {F : Type} [GoMath F] (n : Navigator F) (r : Route F) (t : Track F) (hr : n.routes = [r])
    (ht : r.tracks = [t]) (hs : AtStart n) (hc : n.currentSegmentDistance = lit 0)
    (hon : n.skipOffline = true) (tick speed : F) (x : UInt32)
    (hj : ∀ k s, t.segments[k]? = some s → k + 1 < t.segments.length → s.rel ≠ -1)
    (hshort : ∀ s ∈ t.segments, (lit 0 +. tick *. speed <=. s.dist) = false) :
    ∃ n', n.nextLocation tick speed x = .ok (n', false) ∧ InLastTrack n ∧ AtStart n' ∧
      n'.currentDistance = lit (1 / 10) := by
  obtain ⟨h1, h2, h3⟩ := hs
  have hroute : n.route? = some r := by unfold route?; rw [hr, h1]; rfl
  have htrack : n.track? = some t := by unfold track?; rw [hroute, h2]; simp only [Option.bind_some]; rw [ht]; rfl
  have hoff : n.nextOffline.2 = false := by rw [nextOffline_eq, hon]; rfl
  have hlast : InLastTrack n := by
    refine ⟨by rw [h1, hr]; rfl, fun r' hr' => ?_⟩
    rw [h1, hr] at hr'
    simp only [Int.toNat_zero, List.getElem?_cons_zero, Option.some.injEq] at hr'
    rw [← hr', ht, h2]; simp
  obtain ⟨j, -, he⟩ := nextLocation_outcome n tick speed x r hroute hoff
  have hcj : (n.skipTo j).currentSegmentDistance = lit 0 := by
    cases j with
    | zero => exact hc
    | succ j => rfl
  have hmem : ∀ m : Navigator F, m.track? = some t → m.curSeg.isEmpty = false →
      t.segments[m.segmentIndex.toNat]? = some m.curSeg := by
    intro m hm he
    have := curSeg_nonempty m he
    unfold seg? at this
    rw [hm] at this
    exact (goAt?_eq_some.mp this).2
  have htj : (n.skipTo j).track? = some t := by rw [skipTo_track?]; exact htrack
  generalize n.nextLocation tick speed x = res at he
  cases he with
  | land hf =>
    have := hshort _ (List.mem_of_getElem? (hmem _ htj hf.1))
    have h2' := hf.2
    rw [hcj, this] at h2'
    cases h2'
  | unrelated _ he hl hrel =>
    exfalso
    have hg := hmem _ htj he
    refine hj _ _ hg ?_ (by unfold Segment.hasRelation at hrel; simpa using hrel)
    obtain ⟨t', ht', i1, i2⟩ := seg_in_range he
    rw [htj] at ht'
    cases ht'
    unfold AtLast at hl
    rw [htj] at hl
    unfold Track.numSegments at hl i2
    simp only [Option.map_some, Option.getD_some] at hl
    omega
  | leave _ _ =>
    have hsk : ((n.skipTo j).leaveTrack r).skipOffline = true := by
      rw [← hon, ← (skipTo_offl n j).1]
      unfold leaveTrack
      split
      · rfl
      · split <;> rfl
    refine ⟨(n.skipTo j).leaveTrack r, ?_, hlast, ?_⟩
    · unfold toOffline
      rw [if_pos hsk]; rfl
    · have e1 : ¬ (n.skipTo j).trackIndex < r.numTracks - 1 := by
        rw [skipTo_trackIndex, h2]; unfold Route.numTracks; rw [ht]; simp
      have e2 : ¬ (n.skipTo j).routeIndex < (n.skipTo j).routes.length - 1 := by
        rw [skipTo_routeIndex, skipTo_routes, h1, hr]; simp
      unfold leaveTrack
      rw [if_neg e1, if_neg e2]
      exact ⟨⟨rfl, rfl, rfl⟩, rfl⟩

/-! ## Built tracks -/

/-- Each segment begins where the one before it ends. -/
def Linked : List (Segment ℝ) → Prop
  | p :: q :: rest => p.pointB = q.pointA ∧ Linked (q :: rest)
  | _ => True

theorem raw_linked (i : Int) (pts : List (LatLon ℝ)) : Linked (rawSegments i pts) := by
  induction pts generalizing i with
  | nil => trivial
  | cons a rest ih =>
    cases rest with
    | nil => trivial
    | cons b rest =>
      have := ih (i + 1)
      rw [rawSegments]
      cases rest with
      | nil => trivial
      | cons c rest => rw [rawSegments] at this ⊢; exact ⟨rfl, this⟩

theorem relate_joined (i : Int) (hi : 1 ≤ i) (p : Segment ℝ) (l : List (Segment ℝ)) (h : Linked (p :: l))
    (k : ℕ) (s : Segment ℝ) (hk : (relateSegments i p l)[k]? = some s) (hl : k + 1 < (relateSegments i p l).length) :
    s.rel ≠ -1 := by
  induction l generalizing i p k with
  | nil => simp [relateSegments] at hl
  | cons q l ih =>
    have hq : p.pointB.goEq q.pointA = true := by rw [h.1]; simp [LatLon.goEq]
    rw [relateSegments, if_pos hq] at hk hl
    cases k with
    | zero =>
      simp only [List.getElem?_cons_zero, Option.some.injEq] at hk
      rw [← hk]
      simp only
      omega
    | succ k =>
      simp only [List.getElem?_cons_succ] at hk
      simp only [List.length_cons] at hl
      refine ih (i + 1) (by omega) { q with rel := i } ?_ k hk (by omega)
      cases l with
      | nil => trivial
      | cons c l => exact h.2

/-- A track made from points without repetition (away from the poles, longitudes in [-180, 180)). -/
def Built (t : Track ℝ) : Prop :=
  ∃ id color pts, (∀ p ∈ pts, C72.Inner p) ∧ C72.NoRepeat pts ∧ Track.new id color pts = .ok t

theorem built_segments {id color : String} {pts : List (LatLon ℝ)} {t : Track ℝ}
    (h : Track.new id color pts = .ok t) :
    t.segments = match rawSegments 0 pts with | [] => [] | p :: l => relateSegments 1 p l := by
  unfold Track.new at h
  obtain ⟨⟨segs, d⟩, hm, h⟩ := bind_eq_ok h
  cases h
  unfold makeSegments at hm
  split at hm
  · cases hm
  cases hr : rawSegments 0 pts with
  | nil => rw [hr] at hm; simp only [Except.ok.injEq, Prod.mk.injEq] at hm; exact hm.1.symm
  | cons p l => rw [hr] at hm; simp only [Except.ok.injEq, Prod.mk.injEq] at hm; exact hm.1.symm

/-- The theorems apply to built tracks. -/
theorem built_roads (n : Navigator ℝ) (h0 : n.routes ≠ [])
    (h : ∀ r ∈ n.routes, r.tracks ≠ [] ∧ ∀ t ∈ r.tracks, Built t) : Roads n := by
  refine ⟨h0, fun r hr => (h r hr).1, ?_, ?_⟩
  · intro r hr t ht s hs
    obtain ⟨id, color, pts, h1, h2, h3⟩ := (h r hr).2 t ht
    have hne := C72.built_length pts h1 h2 id color t h3 s hs
    have hge : 0 ≤ s.dist := by
      rw [built_segments h3] at hs
      have hraw : ∀ i, ∀ s ∈ rawSegments i pts, 0 ≤ s.dist := by
        clear h1 h2 h3 hs
        induction pts with
        | nil => intro i s hs; simp [rawSegments] at hs
        | cons a l ih =>
          cases l with
          | nil => intro i s hs; simp [rawSegments] at hs
          | cons b l =>
            intro i s hs
            rw [rawSegments] at hs
            rcases List.mem_cons.mp hs with rfl | hs
            · exact (C46.bounds ..).1
            · exact ih (i + 1) s hs
      cases hc : rawSegments 0 pts with
      | nil => rw [hc] at hs; cases hs
      | cons p l =>
        rw [hc] at hs
        have hr0 := hraw 0
        rw [hc] at hr0
        exact C48.relate_spec (fun s => 0 ≤ s.dist) (fun _ _ h => h) 1 p l (hr0 p (by simp))
          (fun s hs => hr0 s (by simp [hs])) s hs
    exact lt_of_le_of_ne hge (Ne.symm hne)
  · intro r hr t ht k s hk hl
    obtain ⟨id, color, pts, h1, h2, h3⟩ := (h r hr).2 t ht
    rw [built_segments h3] at hk hl
    have hlink := raw_linked 0 pts
    cases hc : rawSegments 0 pts with
    | nil => rw [hc] at hk; simp at hk
    | cons p l =>
      rw [hc] at hk hl hlink
      exact relate_joined 1 (le_refl _) p l hlink k s hk hl

/-- With offline mode the periods are as configured. -/
theorem periods_configured (n : Navigator ℝ) (g : Random) (h : n.offline = some g) (hs : n.skipOffline = false)
    (h0 : 0 ≤ g.min) (h1 : g.min ≤ g.max) (h2 : g.max - g.min < 2 ^ 32) : Periods g.min.toNat g.max.toNat n := by
  refine Or.inr ⟨hs, g, h, fun x => ?_⟩
  have := C15.value_bounds g x h1 h2
  omega

/-! ## The witness -/

/-- To and fro between two points on the equator, `k` times. -/
noncomputable def toAndFro : ℕ → ℝ → List (LatLon ℝ)
  | 0, a => [eqPt a]
  | k + 1, a => eqPt a :: toAndFro k (1 - a)

theorem toAndFro_head (k : ℕ) (a : ℝ) : ∃ l, toAndFro k a = eqPt a :: l := by
  cases k <;> exact ⟨_, rfl⟩

theorem toAndFro_length (k : ℕ) (a : ℝ) : (toAndFro k a).length = k + 1 := by
  induction k generalizing a with
  | zero => rfl
  | succ k ih => simp [toAndFro, ih]

theorem toAndFro_ok (k : ℕ) (a : ℝ) (ha : a = 0 ∨ a = 1) :
    (∀ p ∈ toAndFro k a, C72.Inner p) ∧ C72.NoRepeat (toAndFro k a) ∧
    ∀ i, ∀ s ∈ rawSegments i (toAndFro k a), s.dist = degLen := by
  have hin : C72.Inner (eqPt a) := by
    rcases ha with rfl | rfl <;> simp only [C72.Inner, eqPt] <;> norm_num
  induction k generalizing a with
  | zero =>
    refine ⟨by intro p hp; rw [toAndFro, List.mem_singleton] at hp; rw [hp]; exact hin, trivial, ?_⟩
    intro i s hs
    simp [toAndFro, rawSegments] at hs
  | succ k ih =>
    have ha' : 1 - a = 0 ∨ 1 - a = 1 := by
      rcases ha with rfl | rfl
      · right; norm_num
      · left; norm_num
    obtain ⟨h1, h2, h3⟩ := ih (1 - a) ha' (by
      rcases ha' with h | h <;> rw [h] <;> simp only [C72.Inner, eqPt] <;> norm_num)
    obtain ⟨l, hl⟩ := toAndFro_head k (1 - a)
    refine ⟨?_, ?_, ?_⟩
    · intro p hp
      rw [toAndFro] at hp
      rcases List.mem_cons.mp hp with rfl | hp
      · exact hin
      · exact h1 p hp
    · rw [toAndFro, hl]
      rw [hl] at h2
      refine ⟨?_, h2⟩
      intro h
      have : a = 1 - a := congrArg LatLon.lon h
      rcases ha with rfl | rfl <;> norm_num at this
    · intro i s hs
      rw [toAndFro, hl, rawSegments] at hs
      rw [hl] at h3
      rcases List.mem_cons.mp hs with rfl | hs
      · have : distance (F := ℝ) 0 a 0 (1 - a) = degLen * |1 - a - a| := distance_equator a (1 - a) (by
          rcases ha with rfl | rfl <;> norm_num)
        simp only [eqPt]
        rw [this]
        rcases ha with rfl | rfl <;> norm_num
      · exact h3 (i + 1) s hs

/-- A track of any number of segments of the same length, made by `NewTrack`. -/
theorem long_track (k : ℕ) (hk : 1 ≤ k) :
    ∃ t, Built t ∧ t.segments.length = k ∧ ∀ s ∈ t.segments, s.dist = degLen := by
  obtain ⟨h1, h2, h3⟩ := toAndFro_ok k 0 (Or.inl rfl)
  have hlen := toAndFro_length k 0
  have hraw := C50.raw_length 0 (toAndFro k 0)
  cases hc : rawSegments 0 (toAndFro k 0) with
  | nil => rw [hc] at hraw; simp at hraw; omega
  | cons p l =>
    obtain ⟨t, ht⟩ : ∃ t, Track.new "t" "#000000" (toAndFro k 0) = .ok t := by
      unfold Track.new makeSegments
      rw [if_neg (by omega), hc]
      exact ⟨_, rfl⟩
    have hs := built_segments ht
    rw [hc] at hs
    simp only at hs
    refine ⟨t, ⟨_, _, _, h1, h2, ht⟩, ?_, ?_⟩
    · rw [hs, C50.relate_length]
      rw [hc] at hraw
      simp only [List.length_cons] at hraw
      omega
    · have h30 := h3 0
      rw [hc] at h30
      rw [hs]
      exact C48.relate_spec (fun s => s.dist = degLen) (fun _ _ h => h) 1 p l (h30 p (by simp))
        (fun s hs => h30 s (by simp [hs]))

/-- A new navigator that was given a route with this track only. -/
noncomputable def navWith (t : Track ℝ) : Navigator ℝ :=
  ((freshNav true).addRoute [some ((Route.new "r" "#000000").addTrack (some t))]).1

theorem navWith_begin (t : Track ℝ) : AtBegin (navWith t) ∧ (navWith t).skipOffline = true ∧
    allTracks (navWith t) = [t] ∧ ∃ r, (navWith t).routes = [r] ∧ r.tracks = [t] := by
  have h : (navWith t).routes = [(Route.new "r" "#000000").addTrack (some t)] ∧ (navWith t).routeIndex = 0 ∧
      (navWith t).trackIndex = 0 ∧ (navWith t).segmentIndex = 0 ∧ (navWith t).currentSegmentDistance = 0 ∧
      (navWith t).skipOffline = true := by
    simp [navWith, addRoute, addLoop, freshNav, hasRoute, reset, resetIndexes, calcRouteDistance, nextVersion,
      Route.addTrack, Route.updateState, Route.new]
  obtain ⟨h1, h2, h3, h4, h5, h6⟩ := h
  have ht : ((Route.new "r" "#000000").addTrack (some t)).tracks = [t] := by
    simp [Route.addTrack, Route.updateState, Route.new]
  refine ⟨⟨⟨h2, h3, h4⟩, h5, Or.inl h6⟩, h6, ?_, _, h1, ht⟩
  unfold allTracks
  rw [h1]
  simp [ht]

theorem navWith_roads (t : Track ℝ) (h : Built t) : Roads (navWith t) := by
  obtain ⟨-, -, -, r, h1, h2⟩ := navWith_begin t
  refine built_roads _ (by rw [h1]; simp) ?_
  intro r' hr'
  rw [h1, List.mem_singleton] at hr'
  subst hr'
  rw [h2]
  refine ⟨by simp, ?_⟩
  intro t' ht'
  rw [List.mem_singleton] at ht'
  rw [ht']; exact h

theorem length_same (t : Track ℝ) (k : ℕ) (d : ℝ) (h1 : t.segments.length = k) (h2 : ∀ s ∈ t.segments, s.dist = d) :
    tripLength (navWith t) = k * d := by
  unfold tripLength
  rw [(navWith_begin t).2.2.1]
  have : ∀ l : List (Segment ℝ), (∀ s ∈ l, s.dist = d) → (l.map (fun s => s.dist)).sum = l.length * d := by
    intro l hl
    induction l with
    | nil => simp
    | cons s l ih =>
      simp only [List.map_cons, List.sum_cons, List.length_cons, Nat.cast_add, Nat.cast_one]
      rw [ih (fun s hs => hl s (by simp [hs])), hl s (by simp)]
      ring
  simp only [List.map_cons, List.map_nil, List.sum_cons, List.sum_nil, add_zero]
  rw [this _ h2, h1]

/-- **The full property fails.** However many times longer than a step: there is a device with a track
of that length, made from points without repetition, whose trip is completed by the first call. -/
theorem claim_fails (M : ℝ) : ∃ (n : Navigator ℝ) (tick speed : ℝ), Roads n ∧ AtBegin n ∧ n.skipOffline = true ∧
    0 < tick * speed ∧ M * (tick * speed) < tripLength n ∧
    (∀ x, Takes n (fun _ => tick) (fun _ => speed) x 1) ∧ ¬ Claim n := by
  have hd := degLen_gt
  obtain ⟨k, hk⟩ := exists_nat_gt (max 2 (2 * M))
  have hk1 : (2 : ℝ) < k := lt_of_le_of_lt (le_max_left _ _) hk
  have hk2 : 2 * M < k := lt_of_le_of_lt (le_max_right _ _) hk
  have hk0 : 1 ≤ k := by
    have : (1 : ℝ) ≤ k := by linarith
    exact_mod_cast this
  obtain ⟨t, hb, hl, hs⟩ := long_track k hk0
  obtain ⟨b1, b2, b3, -⟩ := navWith_begin t
  have hroads := navWith_roads t hb
  have hpos : (0 : ℝ) < 2 * degLen * 1 := by linarith
  have htakes : ∀ x, Takes (navWith t) (fun _ => 2 * degLen) (fun _ => 1) x 1 := by
    intro x
    have := short_segments (navWith t) hroads b2 b1 (2 * degLen) 1 x (by
      intro t' ht' s hs'
      rw [b3, List.mem_singleton] at ht'
      subst ht'
      rw [hs s hs']; linarith) hpos
    rw [b3] at this
    exact this
  have hlen := length_same t k degLen hl hs
  refine ⟨navWith t, 2 * degLen, 1, hroads, b1, b2, hpos, ?_, htakes, ?_⟩
  · rw [hlen]; nlinarith
  · intro hc
    have := (hc (2 * degLen) 1 (fun _ => 0) 1 hpos (htakes _)).1
    rw [hlen] at this
    push_cast at this
    nlinarith

/-! Non-vacuity: three segments of one degree each, driven in steps of 2/5 of a degree, take seven
calls (twice two steps and a last one), although the track is seven and a half steps long. -/

example : ∃ t, Built t ∧ tripLength (navWith t) = 3 * degLen ∧
    ∀ x, Takes (navWith t) (fun _ => degLen) (fun _ => 2 / 5) x 7 := by
  have hd := degLen_gt
  obtain ⟨t, hb, hl, hs⟩ := long_track 3 (by norm_num)
  obtain ⟨b1, b2, b3, -⟩ := navWith_begin t
  refine ⟨t, hb, by rw [length_same t 3 degLen hl hs]; norm_num, fun x => ?_⟩
  rw [lap_exact _ (navWith_roads t hb) b2 b1 degLen (2 / 5) x (by positivity), b3]
  have hf : ∀ s ∈ t.segments, ⌊s.dist / (degLen * (2 / 5))⌋₊ = 2 := by
    intro s hs'
    rw [hs s hs', show degLen / (degLen * (2 / 5)) = 5 / 2 by field_simp]
    norm_num [Nat.floor_eq_iff]
  rw [List.map_cons, List.map_nil, List.map_congr_left hf]
  simp [hl]

end C94
end GpsGen
