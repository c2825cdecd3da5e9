import Verif.Lemmas.Preserve
/-!
# Helper lemmas: every trip finishes, for any number type

What is needed of the numbers: a count `μ` of the steps left in a segment that decreases with every step that fits.
-/

namespace GpsGen
namespace Trip
open Navigator
variable {F : Type}

/-- `k` calls of `NextLocation` with the given ticks, speeds and random draws. -/
def calls (tick speed : Nat → F) (x : Nat → UInt32) (k : Nat) : List (NavOp F) :=
  (List.range k).map (fun i => .nextLocation (tick i) (speed i) (x i))

/-- The cursor is in the last track of the last route. -/
def InLastTrack (n : Navigator F) : Prop :=
  n.routeIndex + 1 = n.routes.length ∧
  ∀ r, n.routes[n.routeIndex.toNat]? = some r → (r.tracks.length : Int) ≤ n.trackIndex + 1

/-- The cursor is on the first segment of the first track of the first route. -/
def AtStart (n : Navigator F) : Prop := n.routeIndex = 0 ∧ n.trackIndex = 0 ∧ n.segmentIndex = 0

/-- Every segment held has the property. -/
def Segments (P : F → Prop) (n : Navigator F) : Prop :=
  ∀ r ∈ n.routes, ∀ t ∈ r.tracks, ∀ s ∈ t.segments, P s.dist

/-- Steps, counters and segment lengths for which the number of steps left in a segment decreases. -/
structure Counts [GoFloat F] (Step Cnt Len : F → Prop) (μ : F → F → Nat) : Prop where
  zero : Cnt (lit 0)
  add : ∀ c d, Cnt c → Step d → Cnt (c +. d)
  less : ∀ D c d, Len D → Cnt c → Step d → (c +. d <=. D) = true → μ D (c +. d) < μ D c

/-- What the proof needs to know about a state: there is a route, the route index is valid, the
offline generator exists if it is used, and the numbers are as required. -/
structure Good (Cnt Len : F → Prop) (n : Navigator F) : Prop where
  routes : n.routes ≠ []
  index : n.IndexOk
  offline : n.skipOffline = true ∨ n.offline.isSome
  cnt : Cnt n.currentSegmentDistance
  len : Segments Len n

/-! ## The measure -/

def routesLeft (n : Navigator F) : Nat := (n.routes.length - n.routeIndex).toNat
def tracksLeft (n : Navigator F) : Nat := (((n.route?.map Route.numTracks).getD 0) - n.trackIndex).toNat
def segsLeft (n : Navigator F) : Nat := (((n.track?.map Track.numSegments).getD 0) - n.segmentIndex).toNat
def stepsLeft [GoFloat F] (μ : F → F → Nat) (n : Navigator F) : Nat := μ n.curSeg.dist n.currentSegmentDistance
def offlineLeft (n : Navigator F) : Nat := n.offlineIndex.toNat

def meas [GoFloat F] (μ : F → F → Nat) (n : Navigator F) : Nat × Nat × Nat × Nat × Nat :=
  (routesLeft n, tracksLeft n, segsLeft n, stepsLeft μ n, offlineLeft n)

/-- The well-founded order on measures. -/
def Less (a b : Nat × Nat × Nat × Nat × Nat) : Prop :=
  (inferInstance : WellFoundedRelation (Nat × Nat × Nat × Nat × Nat)).rel a b

theorem less_wf : WellFounded Less := (inferInstance : WellFoundedRelation (Nat × Nat × Nat × Nat × Nat)).wf

/-- The measure without the offline period. -/
def meas4 [GoFloat F] (μ : F → F → Nat) (n : Navigator F) : Nat × Nat × Nat × Nat :=
  (routesLeft n, tracksLeft n, segsLeft n, stepsLeft μ n)

/-- The well-founded order on measures without the offline period. -/
def Less4 (a b : Nat × Nat × Nat × Nat) : Prop :=
  (inferInstance : WellFoundedRelation (Nat × Nat × Nat × Nat)).rel a b

/-- With any last component. -/
theorem less_of_less4 {a b : Nat × Nat × Nat × Nat} (h : Less4 a b) (x y : Nat) :
    Less (a.1, a.2.1, a.2.2.1, a.2.2.2, x) (b.1, b.2.1, b.2.2.1, b.2.2.2, y) := by
  obtain ⟨a1, a2, a3, a4⟩ := a
  obtain ⟨b1, b2, b3, b4⟩ := b
  cases h with
  | left _ _ h => exact Prod.Lex.left _ _ h
  | right _ h =>
    cases h with
    | left _ _ h => exact Prod.Lex.right _ (Prod.Lex.left _ _ h)
    | right _ h =>
      cases h with
      | left _ _ h => exact Prod.Lex.right _ (Prod.Lex.right _ (Prod.Lex.left _ _ h))
      | right _ h => exact Prod.Lex.right _ (Prod.Lex.right _ (Prod.Lex.right _ (Prod.Lex.left _ _ h)))

theorem less_routes [GoFloat F] {μ : F → F → Nat} {n m : Navigator F} (h : routesLeft n < routesLeft m) :
    Less4 (meas4 μ n) (meas4 μ m) := Prod.Lex.left _ _ h

theorem less_tracks [GoFloat F] {μ : F → F → Nat} {n m : Navigator F} (h0 : routesLeft n = routesLeft m)
    (h : tracksLeft n < tracksLeft m) : Less4 (meas4 μ n) (meas4 μ m) := by
  unfold meas4; rw [h0]; exact Prod.Lex.right _ (Prod.Lex.left _ _ h)

theorem less_segs [GoFloat F] {μ : F → F → Nat} {n m : Navigator F} (h0 : routesLeft n = routesLeft m)
    (h1 : tracksLeft n = tracksLeft m) (h : segsLeft n < segsLeft m) :
    Less4 (meas4 μ n) (meas4 μ m) := by
  unfold meas4; rw [h0, h1]; exact Prod.Lex.right _ (Prod.Lex.right _ (Prod.Lex.left _ _ h))

theorem less_steps [GoFloat F] {μ : F → F → Nat} {n m : Navigator F} (h0 : routesLeft n = routesLeft m)
    (h1 : tracksLeft n = tracksLeft m) (h2 : segsLeft n = segsLeft m)
    (h : stepsLeft μ n < stepsLeft μ m) : Less4 (meas4 μ n) (meas4 μ m) := by
  unfold meas4; rw [h0, h1, h2]
  exact Prod.Lex.right _ (Prod.Lex.right _ (Prod.Lex.right _ h))

theorem less_offline [GoFloat F] {μ : F → F → Nat} {n m : Navigator F} (h0 : routesLeft n = routesLeft m)
    (h1 : tracksLeft n = tracksLeft m) (h2 : segsLeft n = segsLeft m)
    (h3 : stepsLeft μ n = stepsLeft μ m) (h : offlineLeft n < offlineLeft m) :
    Less (meas μ n) (meas μ m) := by
  unfold meas; rw [h0, h1, h2, h3]
  exact Prod.Lex.right _ (Prod.Lex.right _ (Prod.Lex.right _ (Prod.Lex.right _ h)))

theorem toOffline_total {n : Navigator F} (h : n.skipOffline = true ∨ n.offline.isSome) (x : UInt32) :
    ∃ k, n.toOffline x = .ok { n with offlineIndex := k } := by
  unfold toOffline
  cases hs : n.skipOffline with
  | true => exact ⟨n.offlineIndex, by rw [if_pos rfl, ← hs]⟩
  | false =>
    rw [hs] at h
    simp at h
    obtain ⟨r, hr⟩ := Option.isSome_iff_exists.mp h
    rw [hr]
    exact ⟨r.value x, by simp⟩

theorem skipTo_offl [GoFloat F] (n : Navigator F) (j : Nat) :
    (n.skipTo j).skipOffline = n.skipOffline ∧ (n.skipTo j).offline = n.offline := by
  cases j <;> exact ⟨rfl, rfl⟩

theorem seg_in_range [GoFloat F] {n : Navigator F} (h : n.curSeg.isEmpty = false) :
    ∃ t, n.track? = some t ∧ 0 ≤ n.segmentIndex ∧ n.segmentIndex < t.numSegments := by
  have hs := curSeg_nonempty n h
  unfold seg? at hs
  obtain ⟨t, ht, hs⟩ := Option.bind_eq_some_iff.mp hs
  have := goAt?_isSome.mp (show (goAt? t.segments n.segmentIndex).isSome by rw [hs]; rfl)
  exact ⟨t, ht, this.1, this.2⟩

theorem segsLeft_skip [GoFloat F] {n : Navigator F} {j : Nat}
    (hj : ∀ i < j, (n.skipTo i).curSeg.isEmpty = false) (h0 : 0 < j) :
    segsLeft (n.skipTo j) < segsLeft n := by
  obtain ⟨t, ht, h1, h2⟩ := seg_in_range (hj 0 h0)
  have ht0 : n.track? = some t := ht
  have hj' : (n.skipTo j).track? = some t := by rw [skipTo_track?]; exact ht0
  unfold segsLeft
  rw [hj', ht0, skipTo_segmentIndex]
  simp only [Option.map_some, Option.getD_some]
  have h1' : n.segmentIndex < t.numSegments := h2
  omega

theorem cur_len [GoFloat F] {Len : F → Prop} {n : Navigator F} (h : Segments Len n) (he : n.curSeg.isEmpty = false) :
    Len n.curSeg.dist := by
  have hs := curSeg_nonempty n he
  unfold seg? at hs
  obtain ⟨t, ht, hs⟩ := Option.bind_eq_some_iff.mp hs
  unfold track? at ht
  obtain ⟨r, hr, ht⟩ := Option.bind_eq_some_iff.mp ht
  exact h r (List.mem_of_getElem? (goAt?_eq_some.mp hr).2) t (List.mem_of_getElem? (goAt?_eq_some.mp ht).2) _
    (List.mem_of_getElem? (goAt?_eq_some.mp hs).2)

theorem skip_cnt [GoFloat F] {Cnt : F → Prop} {n : Navigator F} (h0 : Cnt (lit 0))
    (h : Cnt n.currentSegmentDistance) (j : Nat) : Cnt (n.skipTo j).currentSegmentDistance := by
  cases j with
  | zero => exact h
  | succ j => exact h0

theorem skip_len [GoFloat F] {Len : F → Prop} {n : Navigator F} (h : Segments Len n) (j : Nat) :
    Segments Len (n.skipTo j) := by
  unfold Segments; rw [skipTo_routes]; exact h

/-- One call of a device that is not offline either completes the trip or decreases the measure without the offline
period. -/
theorem online_call [GoMath F] {Cnt Len : F → Prop} {μ : F → F → Nat} (hzero : Cnt (lit 0)) (n : Navigator F)
    (hg : Good Cnt Len n) (tick speed : F) (x : UInt32) (hoff : n.nextOffline.2 = false)
    (hadd : ∀ c, Cnt c → Cnt (c +. tick *. speed))
    (hless : n.Fits (tick *. speed) → μ n.curSeg.dist (n.currentSegmentDistance +. tick *. speed) <
      μ n.curSeg.dist n.currentSegmentDistance) :
    ∃ n' b, n.nextLocation tick speed x = .ok (n', b) ∧ Good Cnt Len n' ∧
      ((InLastTrack n ∧ AtStart n' ∧ b = false ∧ n'.currentDistance = lit (1 / 10)) ∨
        Less4 (meas4 μ n') (meas4 μ n)) := by
  obtain ⟨r, hr, hrm⟩ := route_of_indexOk hg.index hg.routes
  have hri := goAt?_isSome.mp (show (goAt? n.routes n.routeIndex).isSome by
    unfold route? at hr; rw [hr]; rfl)
  obtain ⟨j, hj, he⟩ := nextLocation_outcome n tick speed x r hr hoff
  have hgs : n.skipOffline = true ∨ n.offline.isSome := hg.offline
  have hne : ∀ i < j, (n.skipTo i).curSeg.isEmpty = false := fun i hi => (hj i hi).2.1
  generalize n.nextLocation tick speed x = res at he
  cases he with
  | land hf =>
    refine ⟨_, _, rfl, ⟨?_, ?_, ?_, hadd _ (skip_cnt hzero hg.cnt j), skip_len hg.len j⟩, Or.inr ?_⟩
    · change (n.skipTo j).routes ≠ []
      rw [skipTo_routes]; exact hg.routes
    · change (n.skipTo j).IndexOk
      unfold IndexOk; rw [skipTo_routes, skipTo_routeIndex]; exact hg.index
    · change (n.skipTo j).skipOffline = true ∨ (n.skipTo j).offline.isSome
      rw [(skipTo_offl n j).1, (skipTo_offl n j).2]; exact hgs
    · have e0 : routesLeft ((n.skipTo j).land (tick *. speed)) = routesLeft n := by
        change routesLeft (n.skipTo j) = _
        unfold routesLeft; rw [skipTo_routes, skipTo_routeIndex]
      have e1 : tracksLeft ((n.skipTo j).land (tick *. speed)) = tracksLeft n := by
        change tracksLeft (n.skipTo j) = _
        unfold tracksLeft; rw [skipTo_route?, skipTo_trackIndex]
      by_cases hj0 : j = 0
      · subst hj0
        refine less_steps e0 e1 rfl ?_
        have hf' : n.Fits (tick *. speed) := hf
        exact hless hf'
      · exact less_segs e0 e1 (segsLeft_skip hne (by omega))
  | unrelated h1 h2 h3 h4 =>
    have ho : (n.skipTo j).advanceSegment.skipOffline = true ∨
        (n.skipTo j).advanceSegment.offline.isSome := by
      change (n.skipTo j).skipOffline = true ∨ (n.skipTo j).offline.isSome
      rw [(skipTo_offl n j).1, (skipTo_offl n j).2]; exact hgs
    obtain ⟨k, hk⟩ := toOffline_total ho x
    rw [hk]
    refine ⟨_, _, rfl, ⟨?_, ?_, ho, hzero, skip_len hg.len j⟩, Or.inr ?_⟩
    · change (n.skipTo j).routes ≠ []
      rw [skipTo_routes]; exact hg.routes
    · change (n.skipTo j).IndexOk
      unfold IndexOk; rw [skipTo_routes, skipTo_routeIndex]; exact hg.index
    · refine less_segs ?_ ?_ ?_
      · change routesLeft (n.skipTo j) = _
        unfold routesLeft; rw [skipTo_routes, skipTo_routeIndex]
      · change tracksLeft (n.skipTo j) = _
        unfold tracksLeft; rw [skipTo_route?, skipTo_trackIndex]
      · change segsLeft (n.skipTo j).advanceSegment < _
        rw [← skipTo_succ]
        apply segsLeft_skip _ (by omega)
        intro i hi
        by_cases hij : i = j
        · subst hij; exact h2
        · exact hne i (by omega)
  | leave h1 h2 =>
    have ho : ((n.skipTo j).leaveTrack r).skipOffline = true ∨
        ((n.skipTo j).leaveTrack r).offline.isSome := by
      have : ((n.skipTo j).leaveTrack r).skipOffline = (n.skipTo j).skipOffline ∧
          ((n.skipTo j).leaveTrack r).offline = (n.skipTo j).offline := by
        unfold leaveTrack
        split
        · exact ⟨rfl, rfl⟩
        · split <;> exact ⟨rfl, rfl⟩
      rw [this.1, this.2, (skipTo_offl n j).1, (skipTo_offl n j).2]
      exact hgs
    obtain ⟨k, hk⟩ := toOffline_total ho x
    rw [hk]
    have hroutes : ((n.skipTo j).leaveTrack r).routes = n.routes := by
      rw [← skipTo_routes n j]
      unfold leaveTrack
      split
      · rfl
      · split <;> rfl
    have hcz : Cnt ((n.skipTo j).leaveTrack r).currentSegmentDistance := by
      unfold leaveTrack
      split
      · exact hzero
      · split <;> exact hzero
    have hlen : Segments Len ((n.skipTo j).leaveTrack r) := by
      unfold Segments; rw [hroutes]; exact hg.len
    have hidx : ((n.skipTo j).leaveTrack r).IndexOk := by
      right
      rw [hroutes]
      unfold leaveTrack
      split
      · simp only [skipTo_routeIndex]; exact hri
      · split
        · rename_i h
          simp only [skipTo_routeIndex, skipTo_routes] at h ⊢; omega
        · simp only; omega
    refine ⟨_, _, rfl, ⟨?_, hidx, ho, hcz, hlen⟩, ?_⟩
    · change ((n.skipTo j).leaveTrack r).routes ≠ []
      rw [hroutes]; exact hg.routes
    · have hr' : goAt? n.routes n.routeIndex = some r := hr
      by_cases ht : n.trackIndex < r.numTracks - 1
      · right
        have ht' : (n.skipTo j).trackIndex < r.numTracks - 1 := by rw [skipTo_trackIndex]; exact ht
        unfold leaveTrack
        rw [if_pos ht']
        refine less_tracks ?_ ?_
        · unfold routesLeft; simp only [skipTo_routes, skipTo_routeIndex]
        · unfold tracksLeft route?
          simp only [skipTo_routes, skipTo_routeIndex, skipTo_trackIndex, hr', Option.map_some,
            Option.getD_some]
          omega
      · have ht' : ¬ (n.skipTo j).trackIndex < r.numTracks - 1 := by
          rw [skipTo_trackIndex]; exact ht
        by_cases hrt : n.routeIndex < n.routes.length - 1
        · right
          have hrt' : (n.skipTo j).routeIndex < (n.skipTo j).routes.length - 1 := by
            rw [skipTo_routeIndex, skipTo_routes]; exact hrt
          unfold leaveTrack
          rw [if_neg ht', if_pos hrt']
          refine less_routes ?_
          unfold routesLeft
          simp only [skipTo_routes, skipTo_routeIndex]
          omega
        · left
          have hrt' : ¬ (n.skipTo j).routeIndex < (n.skipTo j).routes.length - 1 := by
            rw [skipTo_routeIndex, skipTo_routes]; exact hrt
          unfold leaveTrack
          rw [if_neg ht', if_neg hrt']
          refine ⟨⟨by omega, ?_⟩, ⟨rfl, rfl, rfl⟩, rfl, rfl⟩
          intro r' hr2
          rw [(goAt?_eq_some.mp hr').2] at hr2
          cases hr2
          unfold Route.numTracks at ht
          omega

/-- One call either completes the trip or decreases the measure. -/
theorem one_call [GoMath F] {Cnt Len : F → Prop} {μ : F → F → Nat} (hzero : Cnt (lit 0)) (n : Navigator F)
    (hg : Good Cnt Len n) (tick speed : F) (x : UInt32) (hadd : ∀ c, Cnt c → Cnt (c +. tick *. speed))
    (hless : n.Fits (tick *. speed) → μ n.curSeg.dist (n.currentSegmentDistance +. tick *. speed) <
      μ n.curSeg.dist n.currentSegmentDistance) :
    ∃ n' b, n.nextLocation tick speed x = .ok (n', b) ∧ Good Cnt Len n' ∧
      ((InLastTrack n ∧ AtStart n' ∧ n'.currentDistance = lit (1 / 10)) ∨ Less (meas μ n') (meas μ n)) := by
  cases hoff : n.nextOffline.2 with
  | true =>
    refine ⟨_, _, nextLocation_offline n tick speed x hg.routes hoff, ⟨hg.routes, hg.index, hg.offline, hg.cnt, hg.len⟩,
      Or.inr (less_offline rfl rfl rfl rfl ?_)⟩
    rw [nextOffline_eq] at hoff
    simp at hoff
    unfold offlineLeft
    simp only
    omega
  | false =>
    obtain ⟨n', b, h1, h2, h3⟩ := online_call hzero n hg tick speed x hoff hadd hless
    exact ⟨n', b, h1, h2, h3.imp (fun h => ⟨h.1, h.2.1, h.2.2.2⟩) fun h => less_of_less4 h _ _⟩

theorem run_append [GoMath F] (n m : Navigator F) (as bs : List (NavOp F)) (h : n.run as = .ok m) :
    n.run (as ++ bs) = m.run bs := by
  induction as generalizing n with
  | nil => cases h; rfl
  | cons a as ih =>
    simp only [Navigator.run, List.cons_append] at h ⊢
    cases hs : n.step a with
    | error e => rw [hs] at h; cases h
    | ok k => rw [hs] at h; exact ih k h

theorem finishes_run [GoMath F] {Cnt Len : F → Prop} {μ : F → F → Nat} (hzero : Cnt (lit 0))
    (hten : ((lit (1 / 10) : F) ==. lit (1 / 10)) = true) (n : Navigator F) (hg : Good Cnt Len n)
    (tick speed : Nat → F) (x : Nat → UInt32) (hadd : ∀ i c, Cnt c → Cnt (c +. tick i *. speed i))
    (hless : ∀ k m, n.run (calls tick speed x k) = .ok m → Good Cnt Len m → m.Fits (tick k *. speed k) →
      μ m.curSeg.dist (m.currentSegmentDistance +. tick k *. speed k) < μ m.curSeg.dist m.currentSegmentDistance) :
    ∃ k m n', n.run (calls tick speed x k) = .ok m ∧ n.run (calls tick speed x (k + 1)) = .ok n' ∧
      InLastTrack m ∧ AtStart n' ∧ n'.isFinish.2 = true := by
  induction hn : meas μ n using less_wf.induction generalizing n tick speed x with
  | _ v ih =>
    obtain ⟨n', b, hcall, hg', hdone | hl⟩ := one_call hzero n hg (tick 0) (speed 0) (x 0) (hadd 0)
      (hless 0 n rfl hg)
    · refine ⟨0, n, n', rfl, ?_, hdone.1, hdone.2.1, ?_⟩
      · simp [calls, Navigator.run, Navigator.step, hcall]
      · obtain ⟨h1, h2, h3⟩ := hdone.2.1
        unfold isFinish
        rw [h1, h2, h3, hdone.2.2, hten]
        rfl
    · have hrun : ∀ k, n.run (calls tick speed x (k + 1)) =
          n'.run (calls (fun i => tick (i + 1)) (fun i => speed (i + 1)) (fun i => x (i + 1)) k) := by
        intro k
        unfold calls
        rw [List.range_succ_eq_map, List.map_cons, List.map_map]
        simp only [Navigator.run, Navigator.step, hcall, map_ok, ok_bind]
        rfl
      obtain ⟨k, m, n'', h1, h2, h3⟩ := ih _ (hn ▸ hl) n' hg' (fun i => tick (i + 1))
        (fun i => speed (i + 1)) (fun i => x (i + 1)) (fun i => hadd (i + 1))
        (fun k m hm => hless (k + 1) m (by rw [hrun]; exact hm)) rfl
      exact ⟨k + 1, m, n'', by rw [hrun]; exact h1, by rw [hrun]; exact h2, h3⟩

theorem finishes [GoMath F] {Step Cnt Len : F → Prop} {μ : F → F → Nat} (hc : Counts Step Cnt Len μ)
    (hten : ((lit (1 / 10) : F) ==. lit (1 / 10)) = true) (n : Navigator F) (hg : Good Cnt Len n)
    (tick speed : Nat → F) (x : Nat → UInt32) (hstep : ∀ i, Step (tick i *. speed i)) :
    ∃ k m n', n.run (calls tick speed x k) = .ok m ∧ n.run (calls tick speed x (k + 1)) = .ok n' ∧
      InLastTrack m ∧ AtStart n' ∧ n'.isFinish.2 = true :=
  finishes_run hc.zero hten n hg tick speed x (fun i c h => hc.add c _ h (hstep i))
    (fun k _ _ hm hf => hc.less _ _ _ (cur_len hm.len hf.1) hm.cnt (hstep k) hf.2)

end Trip
end GpsGen
