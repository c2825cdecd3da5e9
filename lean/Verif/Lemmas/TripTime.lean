import Mathlib.Algebra.Order.Floor.Ring
import Mathlib.Algebra.Order.Floor.Semiring
import Mathlib.Tactic.Linarith
import Verif.Lemmas.Trip
import Verif.Lemmas.GeoReal
/-!
# How many calls a trip takes (helpers of C94)
-/

namespace GpsGen
namespace TripTime
open Navigator Trip

/-- The number of whole steps of length `c` that fit into the segments of a track, each segment counted
for itself. -/
noncomputable def wholeSteps (c : ℝ) (t : Track ℝ) : ℕ := (t.segments.map (fun s => ⌊s.dist / c⌋₊)).sum

/-- All tracks, in the order in which they are driven. -/
def allTracks (n : Navigator ℝ) : List (Track ℝ) := n.routes.flatMap (fun r => r.tracks)

/-- Every route has a track; every segment has a length and is joined to the one behind it. -/
structure Roads (n : Navigator ℝ) : Prop where
  routes : n.routes ≠ []
  tracks : ∀ r ∈ n.routes, r.tracks ≠ []
  length : ∀ r ∈ n.routes, ∀ t ∈ r.tracks, ∀ s ∈ t.segments, 0 < s.dist
  joined : ∀ r ∈ n.routes, ∀ t ∈ r.tracks, ∀ k s, t.segments[k]? = some s → k + 1 < t.segments.length → s.rel ≠ -1

/-- Offline periods last between `lo` and `hi` calls (none if offline mode is disabled). -/
def Periods (lo hi : ℕ) (n : Navigator ℝ) : Prop :=
  (n.skipOffline = true ∧ lo = 0 ∧ hi = 0) ∨
  (n.skipOffline = false ∧ ∃ g, n.offline = some g ∧ ∀ x, (lo : Int) ≤ g.value x ∧ g.value x ≤ hi)

/-- The device is not in an offline period. -/
def Online (n : Navigator ℝ) : Prop := n.skipOffline = true ∨ n.offlineIndex ≤ 0

/-- A call from `n` with answer `b` completes the trip: it does not place the device although it is
online and in the last track. -/
def Ends (n : Navigator ℝ) (b : Bool) : Prop := InLastTrack n ∧ Online n ∧ b = false

/-! ## The calls left -/

/-- The whole steps that fit into the segments `l`, of which the first is driven up to `x`. -/
noncomputable def togo (c x : ℝ) : List (Segment ℝ) → ℕ
  | [] => 0
  | s :: l => ⌊(s.dist - x) / c⌋₊ + (l.map (fun s => ⌊s.dist / c⌋₊)).sum

theorem togo_zero (c : ℝ) (l : List (Segment ℝ)) : togo c 0 l = (l.map (fun s => ⌊s.dist / c⌋₊)).sum := by
  cases l with
  | nil => rfl
  | cons s l => simp [togo]

theorem togo_cons (c x : ℝ) (s : Segment ℝ) (l : List (Segment ℝ)) :
    togo c x (s :: l) = ⌊(s.dist - x) / c⌋₊ + togo c 0 l := by
  rw [togo_zero]; rfl

theorem floor_zero {c y : ℝ} (hc : 0 < c) (h : y < c) : ⌊y / c⌋₊ = 0 := by
  rw [Nat.floor_eq_zero, div_lt_one hc]; exact h

theorem floor_down {c y d : ℝ} (hc : 0 < c) (h1 : c ≤ d) (h2 : d ≤ y) : ⌊(y - d) / c⌋₊ + 1 ≤ ⌊y / c⌋₊ := by
  have h3 : (y - d) / c ≤ y / c - 1 := by
    rw [div_sub_one (ne_of_gt hc)]
    exact div_le_div_of_nonneg_right (by linarith) hc.le
  have h4 := Nat.floor_le_floor h3
  have h5 : 1 ≤ y / c := by rw [le_div_iff₀ hc]; linarith
  have h6 : 1 ≤ ⌊y / c⌋₊ := by rw [Nat.one_le_floor_iff]; exact h5
  rw [Nat.floor_sub_one] at h4
  omega

theorem floor_up {c y d : ℝ} (hc : 0 < c) (h : d ≤ c) : ⌊y / c⌋₊ ≤ ⌊(y - d) / c⌋₊ + 1 := by
  have h3 : y / c - 1 ≤ (y - d) / c := by
    rw [div_sub_one (ne_of_gt hc)]
    exact div_le_div_of_nonneg_right (by linarith) hc.le
  have h4 := Nat.floor_le_floor h3
  rw [Nat.floor_sub_one] at h4
  omega

def later (n : Navigator ℝ) : List (Track ℝ) :=
  ((n.route?.map (fun r => r.tracks)).getD []).drop (n.trackIndex.toNat + 1) ++
    (n.routes.drop (n.routeIndex.toNat + 1)).flatMap (fun r => r.tracks)

def here (n : Navigator ℝ) : List (Segment ℝ) :=
  ((n.track?.map (fun t => t.segments)).getD []).drop n.segmentIndex.toNat

def pause (n : Navigator ℝ) : ℕ := if n.skipOffline then 0 else n.offlineIndex.toNat

/-- The calls left until the trip is completed, for steps `c` and offline periods of `o` calls. -/
noncomputable def rest (c : ℝ) (o : ℕ) (n : Navigator ℝ) : ℕ :=
  pause n + togo c n.currentSegmentDistance (here n) + 1 +
    ((later n).map (fun t => o + wholeSteps c t + 1)).sum

structure Good (lo hi : ℕ) (n : Navigator ℝ) : Prop where
  roads : Roads n
  index : 0 ≤ n.routeIndex ∧ n.routeIndex < n.routes.length
  track : n.track?.isSome
  seg : 0 ≤ n.segmentIndex
  periods : Periods lo hi n

theorem here_cons {n : Navigator ℝ} (h0 : 0 ≤ n.segmentIndex) (h : n.curSeg.isEmpty = false) :
    here n = n.curSeg :: here n.advanceSegment := by
  have hs := curSeg_nonempty n h
  unfold seg? at hs
  obtain ⟨t, ht, hs⟩ := Option.bind_eq_some_iff.mp hs
  have hg := (goAt?_eq_some.mp hs).2
  unfold here
  have ht' : n.advanceSegment.track? = some t := ht
  rw [ht, ht']
  simp only [Option.map_some, Option.getD_some]
  have : n.advanceSegment.segmentIndex.toNat = n.segmentIndex.toNat + 1 := by
    simp only [advanceSegment]; omega
  rw [this]
  obtain ⟨hlt, he⟩ := List.getElem?_eq_some_iff.mp hg
  rw [List.drop_eq_getElem_cons hlt, he]

theorem here_nil {n : Navigator ℝ} (hr : Roads n) (h0 : 0 ≤ n.segmentIndex) (h : n.curSeg.isEmpty = true) :
    here n = [] := by
  unfold here
  cases ht : n.track? with
  | none => simp
  | some t =>
    simp only [Option.map_some, Option.getD_some]
    by_contra hne
    have hlt : n.segmentIndex.toNat < t.segments.length := by
      by_contra hge
      exact hne (List.drop_eq_nil_of_le (by omega))
    obtain ⟨r, hr1, ht1⟩ := Option.bind_eq_some_iff.mp (by unfold track? at ht; exact ht)
    have hrm := List.mem_of_getElem? (goAt?_eq_some.mp hr1).2
    have htm := List.mem_of_getElem? (goAt?_eq_some.mp ht1).2
    have hpos := hr.length r hrm t htm t.segments[n.segmentIndex.toNat] (List.getElem_mem hlt)
    have hseg : n.seg? = some t.segments[n.segmentIndex.toNat] := by
      unfold seg?
      rw [ht]
      simp only [Option.bind_some]
      exact goAt?_eq_some.mpr ⟨h0, List.getElem?_eq_getElem hlt⟩
    unfold curSeg at h
    rw [hseg] at h
    have hne : (t.segments[n.segmentIndex.toNat]).isEmpty = false := by
      unfold Segment.isEmpty; simpa using hpos.ne'
    simp [hne] at h

theorem here_last {n : Navigator ℝ} (h0 : 0 ≤ n.segmentIndex) (h : n.curSeg.isEmpty = false) (hl : n.AtLast) :
    here n = [n.curSeg] := by
  rw [here_cons h0 h]
  obtain ⟨t, ht, -, h2⟩ := seg_in_range h
  unfold AtLast at hl
  rw [ht] at hl
  simp only [Option.map_some, Option.getD_some] at hl
  unfold here
  have ht' : n.advanceSegment.track? = some t := ht
  rw [ht']
  simp only [Option.map_some, Option.getD_some, advanceSegment, List.cons.injEq, true_and]
  apply List.drop_eq_nil_of_le
  unfold Track.numSegments at hl h2
  omega

theorem skipTo_adv (n : Navigator ℝ) (j : Nat) : n.skipTo (j + 1) = (n.skipTo j).advanceSegment := skipTo_succ n j

/-- Passing over segments into which the step does not fit. -/
theorem togo_skip {n : Navigator ℝ} {a b d : ℝ} (hb : 0 < b) (hd : d ≤ b)
    (h0 : 0 ≤ n.segmentIndex) (j : Nat)
    (hj : ∀ i < j, ¬ (n.skipTo i).Fits d ∧ (n.skipTo i).curSeg.isEmpty = false) :
    togo b n.currentSegmentDistance (here n) =
      togo b (n.skipTo j).currentSegmentDistance (here (n.skipTo j)) ∧
    togo a (n.skipTo j).currentSegmentDistance (here (n.skipTo j)) ≤
      togo a n.currentSegmentDistance (here n) := by
  induction j with
  | zero => exact ⟨rfl, le_refl _⟩
  | succ j ih =>
    obtain ⟨ih1, ih2⟩ := ih (fun i hi => hj i (by omega))
    obtain ⟨hf, he⟩ := hj j (by omega)
    have hsi : 0 ≤ (n.skipTo j).segmentIndex := by rw [skipTo_segmentIndex]; omega
    have hc := here_cons hsi he
    have hnf : (n.skipTo j).curSeg.dist - (n.skipTo j).currentSegmentDistance < b := by
      unfold Fits at hf
      simp only [he, true_and, real_add, real_le, decide_eq_true_eq, not_le] at hf
      linarith
    have hz : (n.skipTo j).advanceSegment.currentSegmentDistance = 0 := by simp [advanceSegment]
    rw [skipTo_adv, hz]
    constructor
    · rw [ih1, hc, togo_cons, floor_zero hb hnf, Nat.zero_add]
    · refine le_trans ?_ ih2
      rw [hc, togo_cons]; omega

/-! ## One call -/

theorem later_skip (n : Navigator ℝ) (j : Nat) : later (n.skipTo j) = later n := by
  cases j <;> rfl

theorem pause_skip (n : Navigator ℝ) (j : Nat) : pause (n.skipTo j) = pause n := by
  cases j <;> rfl

theorem periods_skip {lo hi : ℕ} {n : Navigator ℝ} (h : Periods lo hi n) (j : Nat) : Periods lo hi (n.skipTo j) := by
  cases j <;> exact h

theorem pause_online {n : Navigator ℝ} (h : n.nextOffline.2 = false) : pause n = 0 ∧ Online n := by
  rw [nextOffline_eq] at h
  unfold pause Online
  cases hs : n.skipOffline with
  | true => simp
  | false =>
    rw [hs] at h
    simp at h
    refine ⟨?_, Or.inr h⟩
    simp [h]

theorem toOffline_periods {lo hi : ℕ} {n : Navigator ℝ} (h : Periods lo hi n) (x : UInt32) :
    ∃ k, n.toOffline x = .ok { n with offlineIndex := k } ∧
      lo ≤ pause { n with offlineIndex := k } ∧ pause { n with offlineIndex := k } ≤ hi := by
  unfold toOffline pause
  rcases h with ⟨hs, rfl, rfl⟩ | ⟨hs, g, hg, hb⟩
  · refine ⟨n.offlineIndex, by rw [if_pos hs], ?_⟩
    simp [hs]
  · refine ⟨g.value x, by rw [hg]; simp [hs], ?_⟩
    have := hb x
    simp only [hs]
    constructor <;> simp <;> omega

theorem leave_last {n : Navigator ℝ} {r : Route ℝ} {lo hi : ℕ} (hg : Good lo hi n) (hr : n.route? = some r)
    (hl : ¬ n.trackIndex < r.numTracks - 1) (hl' : ¬ n.routeIndex < n.routes.length - 1) :
    later n = [] := by
  unfold later
  rw [hr]
  simp only [Option.map_some, Option.getD_some]
  unfold Route.numTracks at hl
  rw [List.drop_eq_nil_of_le (by omega), List.drop_eq_nil_of_le (by have := hg.index; omega)]
  rfl

/-- Leaving a track that is not the last one. -/
theorem leave_later {n : Navigator ℝ} {r : Route ℝ} {lo hi : ℕ} (hg : Good lo hi n) (hr : n.route? = some r)
    (h : n.trackIndex < r.numTracks - 1 ∨ n.routeIndex < n.routes.length - 1) :
    ∃ t, (n.leaveTrack r).track? = some t ∧ later n = t :: later (n.leaveTrack r) ∧
      0 ≤ (n.leaveTrack r).routeIndex ∧ (n.leaveTrack r).routeIndex < n.routes.length := by
  have hi := hg.index
  have hr0 := hr
  unfold route? at hr
  obtain ⟨hr1, hr2⟩ := goAt?_eq_some.mp hr
  obtain ⟨t0, ht0⟩ := Option.isSome_iff_exists.mp hg.track
  unfold track? at ht0
  rw [hr0] at ht0
  simp only [Option.bind_some] at ht0
  have hti := (goAt?_eq_some.mp ht0).1
  have hti2 := (List.getElem?_eq_some_iff.mp (goAt?_eq_some.mp ht0).2).1
  by_cases h1 : n.trackIndex < r.numTracks - 1
  · unfold Route.numTracks at h1
    have hlt : n.trackIndex.toNat + 1 < r.tracks.length := by omega
    have he : n.leaveTrack r =
        { n with currentSegmentDistance := lit 0, segmentIndex := 0
                 currentTrackDistance := lit 0, trackIndex := n.trackIndex + 1 } := by
      unfold leaveTrack Route.numTracks; rw [if_pos h1]
    rw [he]
    refine ⟨r.tracks[n.trackIndex.toNat + 1], ?_, ?_, hi.1, hi.2⟩
    · unfold track? route?
      simp only [hr, Option.bind_some]
      refine goAt?_eq_some.mpr ⟨by omega, ?_⟩
      rw [show (n.trackIndex + 1).toNat = n.trackIndex.toNat + 1 by omega]
      exact List.getElem?_eq_getElem hlt
    · unfold later route?
      simp only [hr, Option.map_some, Option.getD_some]
      rw [show (n.trackIndex + 1).toNat = n.trackIndex.toNat + 1 by omega, List.drop_eq_getElem_cons hlt]
      rfl
  · have h2 : n.routeIndex < n.routes.length - 1 := by tauto
    have hlt : n.routeIndex.toNat + 1 < n.routes.length := by omega
    have he : n.leaveTrack r =
        { n with currentSegmentDistance := lit 0, segmentIndex := 0
                 currentTrackDistance := lit 0, trackIndex := 0, currentRouteDistance := lit 0
                 routeIndex := n.routeIndex + 1 } := by
      unfold leaveTrack; rw [if_neg h1, if_pos h2]
    rw [he]
    have hne := hg.roads.tracks _ (List.getElem_mem hlt)
    obtain ⟨t, ts, ht⟩ := List.exists_cons_of_ne_nil hne
    have hroute : goAt? n.routes (n.routeIndex + 1) = some n.routes[n.routeIndex.toNat + 1] := by
      refine goAt?_eq_some.mpr ⟨by omega, ?_⟩
      rw [show (n.routeIndex + 1).toNat = n.routeIndex.toNat + 1 by omega]
      exact List.getElem?_eq_getElem hlt
    refine ⟨t, ?_, ?_, by simp only; omega, by simp only; omega⟩
    · unfold track? route?
      simp only [hroute, Option.bind_some]
      rw [ht]; rfl
    · unfold later route?
      simp only [hroute, hr, Option.map_some, Option.getD_some]
      unfold Route.numTracks at h1
      rw [List.drop_eq_nil_of_le (by omega), List.drop_eq_getElem_cons hlt, List.flatMap_cons, ht,
        show (n.routeIndex + 1).toNat = n.routeIndex.toNat + 1 by omega]
      rfl

theorem later_nil_of_last {n : Navigator ℝ} {lo hi : ℕ} {r : Route ℝ} (hg : Good lo hi n)
    (hr : n.route? = some r) :
    InLastTrack n ↔ ¬ n.trackIndex < r.numTracks - 1 ∧ ¬ n.routeIndex < n.routes.length - 1 := by
  unfold InLastTrack Route.numTracks
  have hi := hg.index
  unfold route? at hr
  have h2 := (goAt?_eq_some.mp hr).2
  constructor
  · rintro ⟨h1, h3⟩
    have := h3 r h2
    omega
  · rintro ⟨h1, h3⟩
    refine ⟨by omega, fun r' hr' => ?_⟩
    rw [h2] at hr'; cases hr'; omega

/-- What a call does to the number of calls left. -/
theorem call {a b : ℝ} {lo hi : ℕ} (n : Navigator ℝ) (hg : Good lo hi n) (ha : 0 < a) (hb : 0 < b)
    (tick speed : ℝ) (x : UInt32) (h1 : a ≤ tick * speed) (h2 : tick * speed ≤ b) :
    ∃ n' ans, n.nextLocation tick speed x = .ok (n', ans) ∧ n'.routes = n.routes ∧
      ((Ends n ans ∧ AtStart n' ∧ n'.currentDistance = lit (1 / 10) ∧ rest b lo n ≤ 1) ∨
       (¬ Ends n ans ∧ Good lo hi n' ∧ rest a hi n' + 1 ≤ rest a hi n ∧ rest b lo n ≤ rest b lo n' + 1)) := by
  obtain ⟨r, hr, hrm⟩ := route_of_indexOk (Or.inr hg.index) hg.roads.routes
  cases hoff : n.nextOffline.2 with
  | true =>
    refine ⟨_, _, nextLocation_offline n tick speed x hg.roads.routes hoff, rfl, Or.inr ⟨?_, ?_, ?_⟩⟩
    · rintro ⟨-, ho, -⟩
      rw [nextOffline_eq] at hoff
      simp at hoff
      rcases ho with ho | ho
      · rw [hoff.1] at ho; cases ho
      · omega
    · exact ⟨⟨hg.roads.routes, hg.roads.tracks, hg.roads.length, hg.roads.joined⟩, hg.index, hg.track, hg.seg, hg.periods⟩
    · rw [nextOffline_eq] at hoff
      simp at hoff
      have e1 : pause n = n.offlineIndex.toNat := by unfold pause; simp [hoff.1]
      have e2 : pause { n with offlineIndex := n.offlineIndex - 1 } = (n.offlineIndex - 1).toNat := by
        unfold pause; simp [hoff.1]
      have key : ∀ c o, rest c o { n with offlineIndex := n.offlineIndex - 1 } + 1 = rest c o n := by
        intro c o
        unfold rest
        rw [e1, e2]
        change _ + togo c n.currentSegmentDistance (here n) + 1 + ((later n).map _).sum + 1 = _
        omega
      have k1 := key a hi
      have k2 := key b lo
      omega
  | false =>
    obtain ⟨hp, hon⟩ := pause_online hoff
    obtain ⟨j, hj, he⟩ := nextLocation_outcome n tick speed x r hr hoff
    have hskip := togo_skip (a := a) (d := tick * speed) hb h2 hg.seg j (fun i hi => ⟨(hj i hi).1, (hj i hi).2.1⟩)
    have hrest : ∀ c o, rest c o n = togo c n.currentSegmentDistance (here n) + 1 +
        ((later n).map (fun t => o + wholeSteps c t + 1)).sum := by
      intro c o; unfold rest; rw [hp]; omega
    have hsi : 0 ≤ (n.skipTo j).segmentIndex := by rw [skipTo_segmentIndex]; have := hg.seg; omega
    have hroads : Roads (n.skipTo j) := by
      cases j <;> exact ⟨hg.roads.routes, hg.roads.tracks, hg.roads.length, hg.roads.joined⟩
    have hgj : Good lo hi (n.skipTo j) :=
      ⟨hroads, by rw [skipTo_routeIndex, skipTo_routes]; exact hg.index, by rw [skipTo_track?]; exact hg.track, hsi,
        periods_skip hg.periods j⟩
    have hrj : (n.skipTo j).route? = some r := by rw [skipTo_route?]; exact hr
    generalize n.nextLocation tick speed x = res at he
    cases he with
    | land hf =>
      refine ⟨_, _, rfl, skipTo_routes n j, Or.inr ⟨?_, ?_, ?_⟩⟩
      · rintro ⟨-, -, h⟩; cases h
      · exact ⟨⟨hgj.roads.routes, hgj.roads.tracks, hgj.roads.length, hgj.roads.joined⟩, hgj.index, hgj.track,
          hgj.seg, hgj.periods⟩
      · have hc := here_cons hsi hf.1
        have hfit : (n.skipTo j).currentSegmentDistance + tick * speed ≤ (n.skipTo j).curSeg.dist := by
          have := hf.2; simpa using this
        have hl : ∀ c o, rest c o ((n.skipTo j).land (tick * speed)) =
            togo c ((n.skipTo j).currentSegmentDistance + tick * speed) (here (n.skipTo j)) + 1 +
            ((later n).map (fun t => o + wholeSteps c t + 1)).sum := by
          intro c o
          unfold rest
          have e1 : pause ((n.skipTo j).land (tick * speed)) = 0 := by
            change pause (n.skipTo j) = 0
            rw [pause_skip, hp]
          have e2 : later ((n.skipTo j).land (tick * speed)) = later n := later_skip n j
          have e3 : here ((n.skipTo j).land (tick * speed)) = here (n.skipTo j) := rfl
          have e4 : ((n.skipTo j).land (tick * speed)).currentSegmentDistance =
              (n.skipTo j).currentSegmentDistance + tick * speed := rfl
          rw [e1, e2, e3, e4]; omega
        have hl' : ∀ c o, rest c o ((n.skipTo j).land (tick *. speed)) =
            rest c o ((n.skipTo j).land (tick * speed)) := fun _ _ => rfl
        rw [hl', hl', hl, hl, hrest, hrest]
        have u1 := floor_down (y := (n.skipTo j).curSeg.dist - (n.skipTo j).currentSegmentDistance) ha h1 (by linarith)
        have u2 := floor_up (y := (n.skipTo j).curSeg.dist - (n.skipTo j).currentSegmentDistance) hb h2
        rw [sub_sub] at u1 u2
        obtain ⟨s1, s2⟩ := hskip
        rw [hc, togo_cons] at s1 s2
        rw [hc, togo_cons, togo_cons, s1]
        constructor <;> omega
    | unrelated hf he hl hrel =>
      exfalso
      obtain ⟨t, ht, i1, i2⟩ := seg_in_range he
      have hs := curSeg_nonempty _ he
      unfold seg? at hs
      rw [ht] at hs
      simp only [Option.bind_some] at hs
      have ht' := ht
      unfold track? at ht'
      obtain ⟨r', hr', ht'⟩ := Option.bind_eq_some_iff.mp ht'
      have hrm' := List.mem_of_getElem? (goAt?_eq_some.mp (by unfold route? at hr'; exact hr')).2
      have htm := List.mem_of_getElem? (goAt?_eq_some.mp ht').2
      have := hroads.joined r' hrm' t htm _ _ (goAt?_eq_some.mp hs).2 (by
        unfold AtLast at hl
        rw [ht] at hl
        unfold Track.numSegments at hl i2
        simp only [Option.map_some, Option.getD_some] at hl
        omega)
      unfold Segment.hasRelation at hrel
      simp only [bne_eq_false_iff_eq] at hrel
      exact this hrel
    | leave hf hl =>
      have hz : togo b (n.skipTo j).currentSegmentDistance (here (n.skipTo j)) = 0 := by
        cases hem : (n.skipTo j).curSeg.isEmpty with
        | true => rw [here_nil hroads hsi hem]; rfl
        | false =>
          rw [hem] at hl
          rw [here_last hsi hem (by simpa using hl), togo_cons]
          unfold Fits at hf
          simp only [hem, true_and, real_add, real_mul, real_le, decide_eq_true_eq, not_le] at hf
          rw [floor_zero hb (by linarith)]; rfl
      rw [hz] at hskip
      have hlr : ((n.skipTo j).leaveTrack r).routes = n.routes := by
        rw [← skipTo_routes n j]
        unfold leaveTrack
        split
        · rfl
        · split <;> rfl
      have hper : Periods lo hi ((n.skipTo j).leaveTrack r) := by
        have := hgj.periods
        unfold leaveTrack
        split
        · exact this
        · split <;> exact this
      obtain ⟨k, hk, p1, p2⟩ := toOffline_periods hper x
      refine ⟨{ (n.skipTo j).leaveTrack r with offlineIndex := k }, false, by rw [hk]; rfl, hlr, ?_⟩
      by_cases hlast : InLastTrack n
      · left
        have hlj : InLastTrack (n.skipTo j) := by
          unfold InLastTrack; rw [skipTo_routeIndex, skipTo_routes, skipTo_trackIndex]; exact hlast
        obtain ⟨q1, q2⟩ := (later_nil_of_last hgj hrj).mp hlj
        have he : (n.skipTo j).leaveTrack r =
            { n.skipTo j with currentSegmentDistance := lit 0, segmentIndex := 0, currentTrackDistance := lit 0
                              trackIndex := 0, currentRouteDistance := lit 0, routeIndex := 0
                              currentDistance := lit (1/10) } := by
          unfold leaveTrack; rw [if_neg q1, if_neg q2]
        refine ⟨⟨hlast, hon, rfl⟩, ?_, ?_, ?_⟩
        · rw [he]; exact ⟨rfl, rfl, rfl⟩
        · rw [he]
        · rw [hrest, hskip.1, ← later_skip n j, leave_last hgj hrj q1 q2]
          simp
      · right
        have hlj : ¬ InLastTrack (n.skipTo j) := by
          unfold InLastTrack; rw [skipTo_routeIndex, skipTo_routes, skipTo_trackIndex]; exact hlast
        rw [later_nil_of_last hgj hrj] at hlj
        obtain ⟨t, ht, hlat, i1, i2⟩ := leave_later hgj hrj (by tauto)
        have hs0 : ((n.skipTo j).leaveTrack r).segmentIndex = 0 ∧
            ((n.skipTo j).leaveTrack r).currentSegmentDistance = 0 := by
          unfold leaveTrack
          split
          · simp
          · split <;> simp
        refine ⟨fun h => hlast h.1, ⟨⟨?_, ?_, ?_, ?_⟩, ?_, ?_, ?_, hper⟩, ?_⟩
        · change ((n.skipTo j).leaveTrack r).routes ≠ []
          rw [hlr]; exact hg.roads.routes
        · change ∀ r' ∈ ((n.skipTo j).leaveTrack r).routes, _
          rw [hlr]; exact hg.roads.tracks
        · change ∀ r' ∈ ((n.skipTo j).leaveTrack r).routes, _
          rw [hlr]; exact hg.roads.length
        · change ∀ r' ∈ ((n.skipTo j).leaveTrack r).routes, _
          rw [hlr]; exact hg.roads.joined
        · change 0 ≤ ((n.skipTo j).leaveTrack r).routeIndex ∧ ((n.skipTo j).leaveTrack r).routeIndex <
            (((n.skipTo j).leaveTrack r).routes.length : Int)
          rw [hlr]
          rw [skipTo_routes] at i2
          exact ⟨i1, i2⟩
        · change ((n.skipTo j).leaveTrack r).track?.isSome
          rw [ht]; rfl
        · change 0 ≤ ((n.skipTo j).leaveTrack r).segmentIndex
          omega
        · have hhere : here ((n.skipTo j).leaveTrack r) = t.segments := by
            unfold here
            rw [ht, hs0.1]; rfl
          have hl : ∀ c o, rest c o { (n.skipTo j).leaveTrack r with offlineIndex := k } =
              pause { (n.skipTo j).leaveTrack r with offlineIndex := k } + wholeSteps c t + 1 +
              ((later ((n.skipTo j).leaveTrack r)).map (fun t => o + wholeSteps c t + 1)).sum := by
            intro c o
            change _ + togo c ((n.skipTo j).leaveTrack r).currentSegmentDistance
              (here ((n.skipTo j).leaveTrack r)) + 1 + ((later ((n.skipTo j).leaveTrack r)).map _).sum = _
            rw [hs0.2, hhere, togo_zero]
            rfl
          rw [hl, hl, hrest, hrest, hskip.1, ← later_skip n j, hlat]
          simp only [List.map_cons, List.sum_cons]
          constructor <;> omega

theorem rest_pos (c : ℝ) (o : ℕ) (n : Navigator ℝ) : 1 ≤ rest c o n := by unfold rest; omega

/-- The trip from any good state. -/
theorem trip {a b : ℝ} {lo hi : ℕ} (ha : 0 < a) (hb : 0 < b) (n : Navigator ℝ) (hg : Good lo hi n)
    (tick speed : ℕ → ℝ) (x : ℕ → UInt32) (h : ∀ i, a ≤ tick i * speed i ∧ tick i * speed i ≤ b) :
    ∃ k m n', n.run (calls tick speed x k) = .ok m ∧ n.run (calls tick speed x (k + 1)) = .ok n' ∧
      m.nextLocation (tick k) (speed k) (x k) = .ok (n', false) ∧
      Ends m false ∧ AtStart n' ∧ n'.isFinish.2 = true ∧ rest b lo n ≤ k + 1 ∧ k + 1 ≤ rest a hi n ∧
      ∀ i < k, ∃ m' n'' ans, n.run (calls tick speed x i) = .ok m' ∧
        m'.nextLocation (tick i) (speed i) (x i) = .ok (n'', ans) ∧ ¬ Ends m' ans := by
  induction hn : rest a hi n using Nat.strong_induction_on generalizing n tick speed x with
  | _ v ih =>
    subst hn
    obtain ⟨n', ans, hcall, hrt, ⟨he, hst, hcd, hle⟩ | ⟨hne, hg', hdn, hup⟩⟩ :=
      call n hg ha hb (tick 0) (speed 0) (x 0) (h 0).1 (h 0).2
    · have hans := he.2.2
      subst hans
      refine ⟨0, n, n', rfl, ?_, hcall, he, hst, ?_, by omega, rest_pos _ _ _, fun i hi => absurd hi (by omega)⟩
      · simp [calls, Navigator.run, Navigator.step, hcall]
      · obtain ⟨h1, h2, h3⟩ := hst
        unfold isFinish
        rw [h1, h2, h3, hcd]
        simp
    · have hrun : ∀ k, n.run (calls tick speed x (k + 1)) =
          n'.run (calls (fun i => tick (i + 1)) (fun i => speed (i + 1)) (fun i => x (i + 1)) k) := by
        intro k
        unfold calls
        rw [List.range_succ_eq_map, List.map_cons, List.map_map]
        simp only [Navigator.run, Navigator.step, hcall, map_ok, ok_bind]
        rfl
      obtain ⟨k, m, n'', r1, r2, r3, r4, r5, r6, r7, r8, r9⟩ := ih _ (by omega) n' hg' (fun i => tick (i + 1))
        (fun i => speed (i + 1)) (fun i => x (i + 1)) (fun i => h (i + 1)) rfl
      refine ⟨k + 1, m, n'', by rw [hrun]; exact r1, by rw [hrun]; exact r2, r3, r4, r5, r6, by omega, by omega, ?_⟩
      intro i hi
      cases i with
      | zero => exact ⟨n, n', ans, rfl, hcall, hne⟩
      | succ i =>
        obtain ⟨m', n3, ans', q1, q2, q3⟩ := r9 i (by omega)
        exact ⟨m', n3, ans', by rw [hrun]; exact q1, q2, q3⟩

end TripTime
end GpsGen
