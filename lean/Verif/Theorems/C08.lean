import Verif.Lemmas.NextLocation
/-!
# C08: `NextLocation` always terminates

For every number type and every navigator state, including corrupt cursor positions.
-/

namespace GpsGen
variable {F : Type}

namespace C08
open Navigator

/-- Segments of the current track from the cursor on. -/
def remaining (n : Navigator F) : Nat :=
  match n.track? with
  | some t => if 0 ≤ n.segmentIndex ∧ n.segmentIndex < t.segments.length
      then t.segments.length - n.segmentIndex.toNat else 0
  | none => 0

theorem toOffline_ne_diverge (n : Navigator F) (x : UInt32) : n.toOffline x ≠ .error .diverge := by
  unfold toOffline
  split
  · simp
  · split <;> simp

theorem map_ne_diverge {α β : Type} (a : Go α) (f : α → β) (h : a ≠ .error .diverge) :
    a.map f ≠ .error .diverge := by
  cases a with
  | ok a => simp
  | error e => simpa using h

theorem loop_terminates [GoMath F] (d : F) (x : UInt32) (fuel : Nat) (n : Navigator F) (r : Route F)
    (hr : n.route? = some r) (h : remaining n < fuel) :
    nextLoop d x fuel n ≠ .error .diverge ∧
    ∀ k, nextLoop d x (fuel + k) n = nextLoop d x fuel n := by
  induction fuel generalizing n with
  | zero => omega
  | succ fuel ih =>
    have e : ∀ k, fuel + 1 + k = (fuel + k) + 1 := by intro k; omega
    simp only [e, nextLoop_succ d x _ n r hr]
    split
    · simp
    · split
      · rename_i hc
        split
        · simp only [Bool.and_eq_true, Bool.not_eq_true', decide_eq_true_eq] at hc
          apply ih
          · exact hr
          · have hseg := curSeg_nonempty n hc.1
            unfold seg? at hseg
            cases ht : n.track? with
            | none => rw [ht] at hseg; simp at hseg
            | some t =>
              rw [ht] at hseg hc
              simp only [Option.bind_some, goAt?_eq_some] at hseg
              have hlt : n.segmentIndex.toNat < t.segments.length :=
                (List.getElem?_eq_some_iff.mp hseg.2).1
              have ht' : n.advanceSegment.track? = some t := ht
              unfold remaining at h ⊢
              rw [ht'] ; rw [ht] at h
              have hsi : n.advanceSegment.segmentIndex = n.segmentIndex + 1 := rfl
              simp only [Option.map_some, Option.getD_some, Track.numSegments] at h hc ⊢
              rw [if_pos (by omega)] at h
              rw [hsi, if_pos (by omega)]
              omega
        · exact ⟨map_ne_diverge _ _ (toOffline_ne_diverge _ _), fun _ => rfl⟩
      · exact ⟨map_ne_diverge _ _ (toOffline_ne_diverge _ _), fun _ => rfl⟩

theorem loop_bad_index [GoMath F] (d : F) (x : UInt32) (fuel : Nat) (n : Navigator F)
    (hr : n.route? = none) (hn : n.routes ≠ []) :
    nextLoop d x (fuel + 1) n = .error .indexOutOfRange := by
  have h : n.currentRoute = .error .indexOutOfRange := by
    unfold currentRoute
    have : n.routes.isEmpty = false := by simpa using hn
    rw [this]
    unfold route? at hr
    rw [goIndex_error.mpr hr]; rfl
  unfold nextLoop isValidDistance currentSegment
  rw [h]; rfl

/-- **C08.** `NextLocation` terminates within `NumSegments + 1` iterations, from every state and for
every tick, speed and random draw. -/
theorem nextLocation_terminates [GoMath F] (n : Navigator F) (tick speed : F) (x : UInt32) :
    n.nextLocation tick speed x ≠ .error .diverge := by
  unfold nextLocation
  split
  · simp
  · rename_i hn
    simp only
    split
    · simp
    · have hroutes : n.nextOffline.1.routes = n.routes := by
        unfold nextOffline; split
        · rfl
        · split <;> rfl
      generalize hm : n.nextOffline.1 = m at *
      have hb : ∃ k, m.loopBudget = k + 1 := by
        unfold loopBudget; split
        · exact ⟨_, rfl⟩
        · exact ⟨0, rfl⟩
      cases hr : m.route? with
      | none =>
        obtain ⟨k, hk⟩ := hb
        rw [hk, loop_bad_index _ _ _ _ hr (by rw [hroutes]; intro h; simp [h] at hn)]
        simp
      | some r =>
        apply (loop_terminates _ x _ m r hr _).1
        unfold loopBudget remaining
        rw [currentTrack_eq m (indexOk_of_route hr)]
        cases m.track? with
        | none => simp
        | some t => simp only; split <;> omega

/-- The iteration budget does not influence the result: any larger budget gives the same. -/
theorem budget_irrelevant [GoMath F] (n : Navigator F) (d : F) (x : UInt32) (hn : n.routes ≠ [])
    (k : Nat) (hk : n.loopBudget ≤ k) : nextLoop d x k n = nextLoop d x n.loopBudget n := by
  have hb : ∃ j, n.loopBudget = j + 1 := by
    unfold loopBudget; split
    · exact ⟨_, rfl⟩
    · exact ⟨0, rfl⟩
  cases hr : n.route? with
  | none =>
    obtain ⟨j, hj⟩ := hb
    obtain ⟨i, hi⟩ : ∃ i, k = i + 1 := ⟨k - 1, by omega⟩
    rw [hj, hi, loop_bad_index _ _ _ _ hr hn, loop_bad_index _ _ _ _ hr hn]
  | some r =>
    have := (loop_terminates d x n.loopBudget n r hr (by
      unfold loopBudget remaining
      rw [currentTrack_eq n (indexOk_of_route hr)]
      cases n.track? with
      | none => simp
      | some t => simp only; split <;> omega)).2 (k - n.loopBudget)
    rwa [Nat.add_sub_cancel' hk] at this

/-- Non-vacuity: with a one-segment track the loop does run; a cursor far outside the track leads
to a normal return as well. -/
example [GoMath F] (s : Segment F) (e : Sensor F) (tick speed : F) (x : UInt32) :
    let t : Track F := ⟨"t", [s], "", "", none, s.dist, false, 0⟩
    let r : Route F := ⟨"r", s.dist, "", "", [t], none, 1⟩
    let n : Navigator F := ⟨[r], 0, 0, 17, lit 0, lit 0, lit 0, lit 0, 0, ⟨lit 0, lit 0⟩, e,
      some ⟨1, 10⟩, s.dist, false, 1⟩
    n.loopBudget = 2 ∧ n.nextLocation tick speed x ≠ .error .diverge :=
  ⟨rfl, nextLocation_terminates _ _ _ _⟩

end C08
end GpsGen
