import Verif.Theorems.C08
/-!
# Helper lemmas: where the loop of `NextLocation` ends
-/

namespace GpsGen
variable {F : Type}

namespace Navigator

/-- The state after passing over `j` segments of the current track. -/
def skipTo [GoFloat F] (n : Navigator F) : Nat → Navigator F
  | 0 => n
  | j + 1 => { n with currentSegmentDistance := lit 0, segmentIndex := n.segmentIndex + (j + 1 : Nat) }

theorem skipTo_succ [GoFloat F] (n : Navigator F) (j : Nat) :
    n.skipTo (j + 1) = (n.skipTo j).advanceSegment := by
  cases j with
  | zero => rfl
  | succ j => simp [skipTo, advanceSegment]; omega

theorem advance_skipTo [GoFloat F] (n : Navigator F) (j : Nat) :
    n.advanceSegment.skipTo j = n.skipTo (j + 1) := by
  induction j with
  | zero => rfl
  | succ j ih => rw [skipTo_succ, ih, ← skipTo_succ]

theorem skipTo_routes [GoFloat F] (n : Navigator F) (j : Nat) : (n.skipTo j).routes = n.routes := by
  cases j <;> rfl
theorem skipTo_routeIndex [GoFloat F] (n : Navigator F) (j : Nat) :
    (n.skipTo j).routeIndex = n.routeIndex := by cases j <;> rfl
theorem skipTo_trackIndex [GoFloat F] (n : Navigator F) (j : Nat) :
    (n.skipTo j).trackIndex = n.trackIndex := by cases j <;> rfl
theorem skipTo_segmentIndex [GoFloat F] (n : Navigator F) (j : Nat) :
    (n.skipTo j).segmentIndex = n.segmentIndex + j := by cases j <;> simp [skipTo]
theorem skipTo_route? [GoFloat F] (n : Navigator F) (j : Nat) : (n.skipTo j).route? = n.route? := by
  cases j <;> rfl
theorem skipTo_track? [GoFloat F] (n : Navigator F) (j : Nat) : (n.skipTo j).track? = n.track? := by
  cases j <;> rfl

/-- The step fits into the current segment. -/
def Fits [GoFloat F] (n : Navigator F) (d : F) : Prop :=
  n.curSeg.isEmpty = false ∧ (n.currentSegmentDistance +. d <=. n.curSeg.dist) = true

/-- The cursor is on the last segment of the current track. -/
def AtLast (n : Navigator F) : Prop :=
  n.segmentIndex = ((n.track?.map Track.numSegments).getD 0) - 1

/-- The three ways the loop ends. -/
inductive LoopEnd [GoMath F] (d : F) (x : UInt32) (r : Route F) (m : Navigator F) :
    Go (Navigator F × Bool) → Prop
  | land (h : m.Fits d) : LoopEnd d x r m (.ok (m.land d, true))
  | unrelated (h1 : ¬ m.Fits d) (h2 : m.curSeg.isEmpty = false) (h3 : ¬ m.AtLast)
      (h4 : m.curSeg.hasRelation = false) :
      LoopEnd d x r m ((m.advanceSegment.toOffline x).map (fun n => (n, false)))
  | leave (h1 : ¬ m.Fits d) (h2 : m.curSeg.isEmpty = true ∨ m.AtLast) :
      LoopEnd d x r m (((m.leaveTrack r).toOffline x).map (fun n => (n, false)))

theorem loop_outcome [GoMath F] (d : F) (x : UInt32) (fuel : Nat) (n : Navigator F) (r : Route F)
    (hr : n.route? = some r) (h : C08.remaining n < fuel) :
    ∃ j, (∀ i < j, ¬ (n.skipTo i).Fits d ∧ (n.skipTo i).curSeg.isEmpty = false ∧
        ¬ (n.skipTo i).AtLast ∧ (n.skipTo i).curSeg.hasRelation = true) ∧
      LoopEnd d x r (n.skipTo j) (nextLoop d x fuel n) := by
  induction fuel generalizing n with
  | zero => omega
  | succ fuel ih =>
    rw [nextLoop_succ d x fuel n r hr]
    by_cases hf : n.Fits d
    · refine ⟨0, by omega, ?_⟩
      rw [if_pos (by simp [hf.1, hf.2])]
      exact .land hf
    · rw [if_neg (by unfold Fits at hf; simpa using hf)]
      by_cases hc : n.curSeg.isEmpty = false ∧ ¬ n.AtLast
      · have hc' := hc
        unfold AtLast at hc'
        rw [if_pos (by simpa using hc')]
        by_cases hrel : n.curSeg.hasRelation
        · rw [if_pos hrel]
          have hlt : C08.remaining n.advanceSegment < fuel := by
            have hseg := curSeg_nonempty n hc.1
            unfold seg? at hseg
            cases ht : n.track? with
            | none => rw [ht] at hseg; simp at hseg
            | some t =>
              rw [ht] at hseg hc'
              simp only [Option.bind_some, goAt?_eq_some] at hseg
              have hlt : n.segmentIndex.toNat < t.segments.length :=
                (List.getElem?_eq_some_iff.mp hseg.2).1
              have ht' : n.advanceSegment.track? = some t := ht
              unfold C08.remaining at h ⊢
              rw [ht'] ; rw [ht] at h
              have hsi : n.advanceSegment.segmentIndex = n.segmentIndex + 1 := rfl
              simp only [Option.map_some, Option.getD_some, Track.numSegments] at h hc' ⊢
              rw [if_pos (by omega)] at h
              rw [hsi, if_pos (by omega)]
              omega
          obtain ⟨j, h1, h2⟩ := ih n.advanceSegment hr hlt
          refine ⟨j + 1, ?_, ?_⟩
          · intro i hi
            cases i with
            | zero => exact ⟨hf, hc.1, hc.2, hrel⟩
            | succ i => rw [← advance_skipTo]; exact h1 i (by omega)
          · rw [← advance_skipTo]; exact h2
        · rw [if_neg hrel]
          have hrel' : n.curSeg.hasRelation = false := by simpa using hrel
          exact ⟨0, by omega, .unrelated hf hc.1 hc.2 hrel'⟩
      · have hc' := hc
        unfold AtLast at hc'
        rw [if_neg (by simpa using hc')]
        refine ⟨0, by omega, .leave hf ?_⟩
        by_cases he : n.curSeg.isEmpty
        · exact Or.inl he
        · right
          exact Classical.byContradiction fun hl => hc ⟨by simpa using he, hl⟩

/-- Outcome of a whole `NextLocation` call on an online navigator with a valid route index. -/
theorem nextLocation_outcome [GoMath F] (n : Navigator F) (tick speed : F) (x : UInt32) (r : Route F)
    (hr : n.route? = some r) (hon : n.nextOffline.2 = false) :
    ∃ j, (∀ i < j, ¬ (n.skipTo i).Fits (tick *. speed) ∧ (n.skipTo i).curSeg.isEmpty = false ∧
        ¬ (n.skipTo i).AtLast ∧ (n.skipTo i).curSeg.hasRelation = true) ∧
      LoopEnd (tick *. speed) x r (n.skipTo j) (n.nextLocation tick speed x) := by
  have hne : n.routes ≠ [] := by
    intro h
    simp [route?, goAt?, h] at hr
  have hoff : n.nextOffline.1 = n := by
    revert hon
    unfold nextOffline
    split
    · intro _; rfl
    · split
      · intro h; cases h
      · intro _; rfl
  unfold nextLocation
  rw [if_neg (by simpa using hne)]
  simp only [hoff, hon, Bool.false_eq_true, if_false]
  apply loop_outcome _ _ _ _ _ hr
  unfold loopBudget C08.remaining
  rw [currentTrack_eq n (indexOk_of_route hr)]
  cases n.track? with
  | none => simp
  | some t => simp only; split <;> omega

/-- Outcome of `NextLocation` on an offline navigator. -/
theorem nextLocation_offline [GoMath F] (n : Navigator F) (tick speed : F) (x : UInt32)
    (hr : n.routes ≠ []) (hoff : n.nextOffline.2 = true) :
    n.nextLocation tick speed x = .ok ({ n with offlineIndex := n.offlineIndex - 1 }, false) := by
  have h1 : n.nextOffline.1 = { n with offlineIndex := n.offlineIndex - 1 } := by
    revert hoff; unfold nextOffline; split
    · intro h; cases h
    · split
      · intro _; rfl
      · intro h; cases h
  unfold nextLocation
  rw [if_neg (by simpa using hr)]
  simp only [h1, hoff, if_true]

theorem currentSegment_error [GoFloat F] (n : Navigator F) (h : ¬ n.IndexOk) :
    n.currentSegment = .error .indexOutOfRange := by
  unfold IndexOk at h
  have h1 : n.routes.isEmpty = false := by
    cases hr : n.routes with
    | nil => exact absurd (Or.inl hr) h
    | cons _ _ => rfl
  have h2 : goIndex n.routes n.routeIndex = .error .indexOutOfRange := by
    rw [goIndex_error, goAt?_eq_none]
    by_cases h0 : n.routeIndex < 0
    · exact Or.inl h0
    · right; apply Int.not_lt.mp; intro hlt; exact h (Or.inr ⟨by omega, hlt⟩)
  unfold currentSegment currentRoute
  rw [h1, h2]
  rfl

/-- All ways a `NextLocation` call can return normally. -/
theorem nextLocation_cases [GoMath F] (n n' : Navigator F) (tick speed : F) (x : UInt32) (b : Bool)
    (h : n.nextLocation tick speed x = .ok (n', b)) :
    (n.routes = [] ∧ n' = n ∧ b = false) ∨
    (n.nextOffline.2 = true ∧ n' = { n with offlineIndex := n.offlineIndex - 1 } ∧ b = false) ∨
    (∃ r, n.route? = some r ∧ n.nextOffline.2 = false ∧
      ∃ j, (∀ i < j, ¬ (n.skipTo i).Fits (tick *. speed) ∧ (n.skipTo i).curSeg.isEmpty = false ∧
        ¬ (n.skipTo i).AtLast ∧ (n.skipTo i).curSeg.hasRelation = true) ∧
      LoopEnd (tick *. speed) x r (n.skipTo j) (.ok (n', b))) := by
  by_cases hr : n.routes = []
  · left
    simp [nextLocation, hr] at h
    exact ⟨hr, h.1.symm, h.2⟩
  cases hoff : n.nextOffline.2 with
  | true =>
    rw [nextLocation_offline n tick speed x hr hoff] at h
    simp only [Except.ok.injEq, Prod.mk.injEq] at h
    exact Or.inr (Or.inl ⟨rfl, h.1.symm, h.2.symm⟩)
  | false =>
    by_cases hI : n.IndexOk
    · obtain ⟨r, hrt, -⟩ := route_of_indexOk hI hr
      obtain ⟨j, h1, h2⟩ := nextLocation_outcome n tick speed x r hrt hoff
      rw [h] at h2
      exact Or.inr (Or.inr ⟨r, hrt, rfl, j, h1, h2⟩)
    · exfalso
      have hoff1 : n.nextOffline.1 = n := by
        revert hoff
        unfold nextOffline
        split
        · intro _; rfl
        · split
          · intro h; cases h
          · intro _; rfl
      have hb : n.loopBudget = (n.loopBudget - 1) + 1 := by
        have : 0 < n.loopBudget := by unfold loopBudget; split <;> omega
        omega
      unfold nextLocation at h
      rw [if_neg (by simpa using hr)] at h
      simp only [hoff1, hoff, Bool.false_eq_true, if_false] at h
      rw [hb] at h
      unfold nextLoop isValidDistance at h
      rw [currentSegment_error n hI] at h
      cases h

/-- A step that fits into the current segment. -/
theorem nextLocation_land [GoMath F] (n : Navigator F) (tick speed : F) (x : UInt32) (r : Route F)
    (hr : n.route? = some r) (hoff : n.nextOffline.2 = false) (hf : n.Fits (tick *. speed)) :
    n.nextLocation tick speed x = .ok (n.land (tick *. speed), true) := by
  obtain ⟨j, h1, h2⟩ := nextLocation_outcome n tick speed x r hr hoff
  have hj : j = 0 := by
    cases j with
    | zero => rfl
    | succ j => exact absurd hf (h1 0 (by omega)).1
  subst hj
  generalize n.nextLocation tick speed x = res at h2
  cases h2 with
  | land h => rfl
  | unrelated h1 _ _ _ => exact absurd hf h1
  | leave h1 _ => exact absurd hf h1

/-- A step from the last segment that does not fit. -/
theorem nextLocation_leave [GoMath F] (n : Navigator F) (tick speed : F) (x : UInt32) (r : Route F)
    (hr : n.route? = some r) (hoff : n.nextOffline.2 = false) (hf : ¬ n.Fits (tick *. speed))
    (hl : n.curSeg.isEmpty = true ∨ n.AtLast) :
    n.nextLocation tick speed x = ((n.leaveTrack r).toOffline x).map (fun n => (n, false)) := by
  obtain ⟨j, h1, h2⟩ := nextLocation_outcome n tick speed x r hr hoff
  have hj : j = 0 := by
    cases j with
    | zero => rfl
    | succ j =>
      have := h1 0 (by omega)
      rcases hl with hl | hl
      · rw [show n.skipTo 0 = n from rfl, hl] at this
        cases this.2.1
      · exact absurd hl this.2.2.1
  subst hj
  generalize n.nextLocation tick speed x = res at h2
  cases h2 with
  | land h => exact absurd h hf
  | unrelated _ h2 h3 _ =>
    rcases hl with hl | hl
    · rw [show n.skipTo 0 = n from rfl, hl] at h2; cases h2
    · exact absurd hl h3
  | leave _ _ => rfl

theorem toOffline_cases {n n' : Navigator F} {x : UInt32} (h : n.toOffline x = .ok n') :
    (n.skipOffline = true ∧ n' = n) ∨
    (n.skipOffline = false ∧ ∃ r, n.offline = some r ∧ n' = { n with offlineIndex := r.value x }) := by
  unfold toOffline at h
  cases hs : n.skipOffline with
  | true => rw [hs] at h; simp at h; exact Or.inl ⟨rfl, h.symm⟩
  | false =>
    rw [hs] at h
    cases ho : n.offline with
    | none => rw [ho] at h; simp at h
    | some r => rw [ho] at h; simp at h; exact Or.inr ⟨rfl, r, rfl, h.symm⟩

theorem nextOffline_eq (n : Navigator F) :
    n.nextOffline.2 = (!n.skipOffline && decide (n.offlineIndex > 0)) := by
  unfold nextOffline
  cases n.skipOffline with
  | true => simp
  | false => by_cases h : n.offlineIndex > 0 <;> simp [h]

end Navigator
end GpsGen
