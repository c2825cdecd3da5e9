import Verif.Lemmas.LoopOutcome
import Verif.Lemmas.GeoReal
/-!
# C09: the position stays within the current segment
-/

namespace GpsGen
variable {F : Type}

namespace C09
open Navigator

/-- Segment `s` is the one addressed by the cursor. -/
def Addressed (n : Navigator F) (s : Segment F) : Prop :=
  ∃ r t, 0 ≤ n.routeIndex ∧ n.routes[n.routeIndex.toNat]? = some r ∧
    0 ≤ n.trackIndex ∧ r.tracks[n.trackIndex.toNat]? = some t ∧
    0 ≤ n.segmentIndex ∧ t.segments[n.segmentIndex.toNat]? = some s

theorem addressed_of_seg? {n : Navigator F} {s : Segment F} (h : n.seg? = some s) :
    Addressed n s := by
  unfold seg? track? route? at h
  simp only [Option.bind_eq_some_iff] at h
  obtain ⟨t, ⟨r, hr, ht⟩, hs⟩ := h
  rw [goAt?_eq_some] at hr ht hs
  exact ⟨r, t, hr.1, hr.2, ht.1, ht.2, hs.1, hs.2⟩

/-- **C09.** For every number type and every navigator state: if `NextLocation` returns `true`, the
cursor addresses an existing segment of non-zero length, the distance travelled in it is at most its
length, and the location is the point at that distance along it. The exception is the first step of
a track (nothing travelled yet and the cursor stays on segment 0), where the location is the point at
1 m. The distance travelled is the one before the call plus the step, or just the step if the cursor
advanced to a later segment. -/
theorem position_within_segment [GoMath F] (n n' : Navigator F) (tick speed : F) (x : UInt32)
    (h : n.nextLocation tick speed x = .ok (n', true)) :
    ∃ s, Addressed n' s ∧ (s.dist ==. lit 0) = false ∧
      (n'.currentSegmentDistance <=. s.dist) = true ∧
      (n'.currentSegmentDistance =
        if n'.segmentIndex = n.segmentIndex then n.currentSegmentDistance +. (tick *. speed)
        else lit 0 +. (tick *. speed)) ∧
      ((n.segmentIndex = 0 ∧ n'.segmentIndex = 0 ∧ (n.currentSegmentDistance ==. lit 0) = true ∧
          n'.point = destination s.pointA.lat s.pointA.lon (lit 1) s.bearing) ∨
       (¬ (n.segmentIndex = 0 ∧ n'.segmentIndex = 0 ∧ (n.currentSegmentDistance ==. lit 0) = true) ∧
          n'.point =
            destination s.pointA.lat s.pointA.lon n'.currentSegmentDistance s.bearing)) := by
  rcases nextLocation_cases n n' tick speed x true h with ⟨-, -, h⟩ | ⟨-, -, h⟩ | ⟨r, hr, -, j, hj, he⟩
  · cases h
  · cases h
  generalize hres : (Except.ok (n', true) : Go (Navigator F × Bool)) = res at he
  cases he with
  | unrelated h1 h2 h3 h4 =>
    cases ho : ((n.skipTo j).advanceSegment.toOffline x) with
    | error e => rw [ho] at hres; cases hres
    | ok m => rw [ho] at hres; cases hres
  | leave h1 h2 =>
    cases ho : (((n.skipTo j).leaveTrack r).toOffline x) with
    | error e => rw [ho] at hres; cases hres
    | ok m => rw [ho] at hres; cases hres
  | land hf =>
    simp only [Except.ok.injEq, Prod.mk.injEq, and_true] at hres
    subst hres
    obtain ⟨hf1, hf2⟩ := hf
    have hseg := curSeg_nonempty _ hf1
    have hadr := addressed_of_seg? hseg
    have hsi : ((n.skipTo j).land (tick *. speed)).segmentIndex = n.segmentIndex + j := by
      rw [← skipTo_segmentIndex]; rfl
    have hsi0 : 0 ≤ n.segmentIndex := by
      cases j with
      | zero => obtain ⟨-, -, -, -, -, -, h, -⟩ := hadr; exact h
      | succ j =>
        have := addressed_of_seg? (curSeg_nonempty _ (hj 0 (by omega)).2.1)
        obtain ⟨-, -, -, -, -, -, h, -⟩ := this
        exact h
    refine ⟨(n.skipTo j).curSeg, hadr, hf1, hf2, ?_, ?_⟩
    · rw [hsi]
      cases j with
      | zero => simp; rfl
      | succ j => rw [if_neg (by omega)]; rfl
    · rw [hsi]
      cases j with
      | zero =>
        by_cases hs : n.segmentIndex = 0 ∧ (n.currentSegmentDistance ==. lit 0) = true
        · left
          refine ⟨hs.1, by simp [hs.1], hs.2, ?_⟩
          have : n.isStartSegment = true := by simp [isStartSegment, hs.1, hs.2]
          simp [land, skipTo, this]; rfl
        · right
          refine ⟨fun hc => hs ⟨hc.1, hc.2.2⟩, ?_⟩
          have : n.isStartSegment = false := by
            simp only [isStartSegment]
            by_cases h0 : n.segmentIndex = 0
            · simp only [h0, true_and] at hs; simpa [h0] using hs
            · simp [h0]
          simp [land, skipTo, this]; rfl
      | succ j =>
        right
        refine ⟨fun hc => by omega, ?_⟩
        have : (n.skipTo (j + 1)).isStartSegment = false := by
          have hne : n.segmentIndex + ((j : Int) + 1) ≠ 0 := by omega
          simp [isStartSegment, skipTo, hne]
        simp only [land, this]; rfl

/-- Non-vacuity: on the one-degree track, a first step of 5 m succeeds. -/
example : ∃ n' : Navigator ℝ,
    ({ freshNav true with routes := [eqRoute "r" "t" "#000000" 0 1] } : Navigator ℝ).nextLocation 5 1 0
      = .ok (n', true) ∧ n'.currentSegmentDistance = 5 := by
  have hd := degLen_gt
  have hr : ({ freshNav true with routes := [eqRoute "r" "t" "#000000" 0 1] } : Navigator ℝ).route? =
      some (eqRoute "r" "t" "#000000" 0 1) := rfl
  have hne : (eqSeg 0 1 0 (-1)).isEmpty = false := eqSeg_nonempty _ _ _ _ (by norm_num)
  have hc : ({ freshNav true with routes := [eqRoute "r" "t" "#000000" 0 1] } : Navigator ℝ).curSeg =
      eqSeg 0 1 0 (-1) := by
    have : ({ freshNav true with routes := [eqRoute "r" "t" "#000000" 0 1] } : Navigator ℝ).seg? =
      some (eqSeg 0 1 0 (-1)) := rfl
    simp [curSeg, this, hne]
  generalize hn : ({ freshNav true with routes := [eqRoute "r" "t" "#000000" 0 1] } : Navigator ℝ) = n at *
  have h0 : n.currentSegmentDistance = 0 := by rw [← hn]; rfl
  have hskip : n.skipOffline = true := by rw [← hn]; rfl
  have hlen : n.routes.length ≠ 0 := by rw [← hn]; simp
  refine ⟨n.land 5, ?_, ?_⟩
  · have hb : n.loopBudget = (n.loopBudget - 1) + 1 := by
      have : 0 < n.loopBudget := by unfold loopBudget; split <;> omega
      omega
    unfold nextLocation
    rw [if_neg hlen]
    simp only [nextOffline, hskip, if_true, Bool.false_eq_true, if_false]
    rw [hb, nextLoop_succ _ _ _ n _ hr, if_pos]
    · simp
    · rw [hc, hne, h0]
      simp [eqSeg]; linarith
  · simp [land, updateDist, h0]

end C09
end GpsGen
