import Verif.Lemmas.DeviceNext
import Verif.Lemmas.Moves
/-!
# Helper lemmas: the `offline` field of a navigator with `skipOffline` is never read
-/

namespace GpsGen
variable {F : Type}

/-- What an operation answers. -/
inductive Answer where
  | bool (b : Bool)
  | err (e : Option Err)
  | unit
  deriving DecidableEq, Repr

namespace Navigator

/-- Execute one operation, keeping its answer. -/
def perform [GoMath F] (n : Navigator F) : NavOp F → Go (Navigator F × Answer)
  | .addRoute rs => .ok ((n.addRoute rs).1, .err (n.addRoute rs).2)
  | .removeRoute id => .ok ((n.removeRoute id).1, .bool (n.removeRoute id).2)
  | .removeTrack rid tid => .ok ((n.removeTrack rid tid).1, .bool (n.removeTrack rid tid).2)
  | .resetRoutes => .ok (n.resetRoutes.1, .bool n.resetRoutes.2)
  | .reset => .ok (n.reset, .unit)
  | .moveToSegment r t s => (n.moveToSegment r t s).map (fun p => (p.1, .bool p.2))
  | .moveToRoute r => (n.moveToRoute r).map (fun p => (p.1, .bool p.2))
  | .moveToTrack r t => (n.moveToTrack r t).map (fun p => (p.1, .bool p.2))
  | .moveToRouteByID rid => (n.moveToRouteByID rid).map (fun p => (p.1, .bool p.2))
  | .moveToTrackByID rid tid => (n.moveToTrackByID rid tid).map (fun p => (p.1, .bool p.2))
  | .toNextRoute => n.toNextRoute.map (fun p => (p.1, .bool p.2))
  | .toPrevRoute => n.toPrevRoute.map (fun p => (p.1, .bool p.2))
  | .destinationTo m => .ok ((n.destinationTo m).1, .bool (n.destinationTo m).2)
  | .toOffline x => (n.toOffline x).map (fun m => (m, .unit))
  | .nextLocation tick speed x => (n.nextLocation tick speed x).map (fun p => (p.1, .bool p.2))
  | .isFinish => .ok (n.isFinish.1, .bool n.isFinish.2)
  | .nextElevation t => (n.nextElevation t).map (fun m => (m, .unit))
  | .shuffleElevation draws => .ok (n.shuffleElevation draws, .unit)
  | .onRoute i op => .ok ({ n with routes := n.routes.modify i (fun r => r.apply op) }, .unit)

theorem map_map_go {α β γ : Type} (g : Go α) (f : α → β) (h : β → γ) :
    (g.map f).map h = g.map (fun a => h (f a)) := by cases g <;> rfl

theorem map_id_go {α : Type} (g : Go α) : g.map (fun a => a) = g := by cases g <;> rfl

/-- `step` is `perform` without the answer. -/
theorem perform_step [GoMath F] (n : Navigator F) (op : NavOp F) :
    (n.perform op).map (·.1) = n.step op := by
  cases op <;> simp only [perform, step, map_map_go, map_ok, map_id_go]

/-- Replace the `offline` field. -/
def withOffline (o : Option Random) (n : Navigator F) : Navigator F := { n with offline := o }

variable {o : Option Random} {n : Navigator F}

theorem moveToSegment_wo [GoFloat F] (a b c : Int) :
    (n.withOffline o).moveToSegment a b c =
      (n.moveToSegment a b c).map (fun p => (p.1.withOffline o, p.2)) := by
  rw [moveToSegment_eq, moveToSegment_eq]
  have e : (n.withOffline o).target? a b c = n.target? a b c := rfl
  rw [e]
  by_cases h : n.routeIndex = a ∧ n.trackIndex = b ∧ n.segmentIndex = c
  · have h' : (n.withOffline o).routeIndex = a ∧ (n.withOffline o).trackIndex = b ∧
      (n.withOffline o).segmentIndex = c := h
    rw [if_pos h, if_pos h']; rfl
  · have h' : ¬ ((n.withOffline o).routeIndex = a ∧ (n.withOffline o).trackIndex = b ∧
      (n.withOffline o).segmentIndex = c) := h
    rw [if_neg h, if_neg h']
    cases n.target? a b c <;> rfl

theorem moveToTrackByID_wo [GoFloat F] (a b : String) :
    (n.withOffline o).moveToTrackByID a b =
      (n.moveToTrackByID a b).map (fun p => (p.1.withOffline o, p.2)) := by
  unfold moveToTrackByID
  have e : (n.withOffline o).indexRoute a = n.indexRoute a := rfl
  have e2 : (n.withOffline o).routes = n.routes := rfl
  rw [e, e2]
  simp only
  split
  · rfl
  cases goIndex n.routes (n.indexRoute a) with
  | error e => rfl
  | ok r =>
    simp only [ok_bind]
    split
    · rfl
    · exact moveToSegment_wo _ _ _

theorem moveToRouteByID_wo [GoFloat F] (a : String) :
    (n.withOffline o).moveToRouteByID a =
      (n.moveToRouteByID a).map (fun p => (p.1.withOffline o, p.2)) := by
  unfold moveToRouteByID
  have e : (n.withOffline o).indexRoute a = n.indexRoute a := rfl
  rw [e]
  simp only
  split
  · rfl
  · exact moveToSegment_wo _ _ _

theorem toNextRoute_wo [GoFloat F] :
    (n.withOffline o).toNextRoute = n.toNextRoute.map (fun p => (p.1.withOffline o, p.2)) := by
  unfold toNextRoute
  have e1 : (n.withOffline o).routeIndex = n.routeIndex := rfl
  have e2 : (n.withOffline o).routes = n.routes := rfl
  rw [e1, e2]
  by_cases h : n.routeIndex < n.routes.length - 1
  · rw [if_pos h, if_pos h]; exact moveToSegment_wo _ _ _
  · rw [if_neg h, if_neg h]; rfl

theorem toPrevRoute_wo [GoFloat F] :
    (n.withOffline o).toPrevRoute = n.toPrevRoute.map (fun p => (p.1.withOffline o, p.2)) := by
  unfold toPrevRoute
  have e1 : (n.withOffline o).routeIndex = n.routeIndex := rfl
  rw [e1]
  by_cases h : n.routeIndex > 0
  · rw [if_pos h, if_pos h]; exact moveToSegment_wo _ _ _
  · rw [if_neg h, if_neg h]; rfl

theorem destinationTo_wo [GoMath F] (m : F) :
    (n.withOffline o).destinationTo m = ((n.destinationTo m).1.withOffline o, (n.destinationTo m).2) := by
  unfold destinationTo
  have e1 : (n.withOffline o).distance = n.distance := rfl
  have e2 : (n.withOffline o).routes = n.routes := rfl
  rw [e1, e2]
  generalize (if (n.distance <. m) = true then n.distance else m) = d
  simp only
  split
  · rfl
  split
  · rfl
  split
  · rfl
  split
  · rfl
  · rfl

theorem nextSegment_wo [GoFloat F] :
    (n.withOffline o).nextSegment = n.nextSegment.map (fun p => (p.1.withOffline o, p.2)) := by
  unfold nextSegment
  have e1 : (n.withOffline o).currentTrack = n.currentTrack := rfl
  have e2 : (n.withOffline o).currentSegment = n.currentSegment := rfl
  have e3 : (n.withOffline o).segmentIndex = n.segmentIndex := rfl
  rw [e1, e2, e3]
  cases n.currentTrack with
  | error e => rfl
  | ok t =>
    cases t with
    | none => rfl
    | some t =>
      simp only [ok_bind]
      split
      · rfl
      · cases n.currentSegment <;> rfl

theorem nextSegment_skip [GoFloat F] {n n' : Navigator F} {s : Segment F}
    (h : n.nextSegment = .ok (n', s)) : n'.skipOffline = n.skipOffline := by
  unfold nextSegment at h
  obtain ⟨t, ht, h⟩ := bind_eq_ok h
  cases t with
  | none => cases h; rfl
  | some t =>
    simp only at h
    split at h
    · cases h; rfl
    · obtain ⟨s, hs, h⟩ := bind_eq_ok h
      cases h; rfl

theorem nextTrack_wo [GoFloat F] :
    (n.withOffline o).nextTrack = n.nextTrack.map (fun p => (p.1.withOffline o, p.2)) := by
  unfold nextTrack
  simp only [withOffline]
  have e1 : ({ n with offline := o, currentSegmentDistance := lit 0, segmentIndex := 0 } :
      Navigator F).currentRoute =
      ({ n with currentSegmentDistance := lit 0, segmentIndex := 0 } : Navigator F).currentRoute := rfl
  rw [e1]
  cases ({ n with currentSegmentDistance := lit 0, segmentIndex := 0 } : Navigator F).currentRoute with
  | error e => rfl
  | ok r =>
    cases r with
    | none => rfl
    | some r =>
      simp only [ok_bind]
      by_cases h : n.trackIndex < r.numTracks - 1
      · simp only [h, if_true]; rfl
      · simp only [h, if_false]; rfl

theorem nextTrack_skip [GoFloat F] {n n' : Navigator F} {b : Bool}
    (h : n.nextTrack = .ok (n', b)) : n'.skipOffline = n.skipOffline := by
  unfold nextTrack at h
  obtain ⟨t, ht, h⟩ := bind_eq_ok h
  cases t with
  | none => cases h; rfl
  | some t =>
    simp only at h
    split at h <;> cases h <;> rfl

theorem nextRoute_wo [GoFloat F] : (n.withOffline o).nextRoute = n.nextRoute.withOffline o := by
  unfold nextRoute
  have e1 : (n.withOffline o).routeIndex = n.routeIndex := rfl
  have e2 : (n.withOffline o).routes = n.routes := rfl
  by_cases h : n.routeIndex < n.routes.length - 1
  · simp only [e1, e2, h, if_true]; rfl
  · simp only [e1, e2, h, if_false]; rfl

theorem nextRoute_skip [GoFloat F] : n.nextRoute.skipOffline = n.skipOffline := by
  unfold nextRoute
  simp only
  split <;> rfl

theorem toOffline_skip (h : n.skipOffline = true) (x : UInt32) : n.toOffline x = .ok n := by
  unfold toOffline; rw [if_pos h]

theorem nextLoop_wo [GoMath F] (d : F) (x : UInt32) (fuel : Nat) (n : Navigator F)
    (h : n.skipOffline = true) :
    nextLoop d x fuel (n.withOffline o) =
      (nextLoop d x fuel n).map (fun p => (p.1.withOffline o, p.2)) := by
  induction fuel generalizing n with
  | zero => rfl
  | succ fuel ih =>
    have e1 : (n.withOffline o).isValidDistance d = n.isValidDistance d := rfl
    have e2 : (n.withOffline o).isStartSegment = n.isStartSegment := rfl
    have e3 : ((n.withOffline o).updateDist d).currentSegment = (n.updateDist d).currentSegment := rfl
    simp only [nextLoop, e1, e2, nextSegment_wo, e3]
    cases n.isValidDistance d with
    | error e => rfl
    | ok b =>
      simp only [ok_bind]
      cases b with
      | true =>
        simp only [if_true]
        cases (n.updateDist d).currentSegment with
        | error e => rfl
        | ok s =>
          simp only [ok_bind]
          split
          · rfl
          · split <;> rfl
      | false =>
        simp only [Bool.false_eq_true, if_false]
        cases hs : n.nextSegment with
        | error e => rfl
        | ok p =>
          obtain ⟨m, s⟩ := p
          have hm : m.skipOffline = true := (nextSegment_skip hs).trans h
          have hm' : (m.withOffline o).skipOffline = true := hm
          simp only [map_ok, ok_bind]
          split
          · split
            · simp only [toOffline_skip hm, toOffline_skip hm', ok_bind]
              rfl
            · exact ih m hm
          · simp only [nextTrack_wo]
            cases ht : m.nextTrack with
            | error e => rfl
            | ok q =>
              obtain ⟨k, b⟩ := q
              have hk : k.skipOffline = true := (nextTrack_skip ht).trans hm
              simp only [map_ok, ok_bind]
              cases b with
              | true =>
                have hk' : (k.withOffline o).skipOffline = true := hk
                simp only [Bool.not_true, Bool.false_eq_true, if_false, toOffline_skip hk, toOffline_skip hk', ok_bind]
                rfl
              | false =>
                have h1 : k.nextRoute.skipOffline = true := nextRoute_skip.trans hk
                have h2 : (k.nextRoute.withOffline o).skipOffline = true := h1
                simp only [Bool.not_false, if_true, nextRoute_wo, toOffline_skip h1, toOffline_skip h2, ok_bind]
                rfl

theorem nextLocation_wo [GoMath F] (h : n.skipOffline = true) (t s : F) (x : UInt32) :
    (n.withOffline o).nextLocation t s x =
      (n.nextLocation t s x).map (fun p => (p.1.withOffline o, p.2)) := by
  have h' : (n.withOffline o).skipOffline = true := h
  have e1 : n.nextOffline = (n, false) := by unfold nextOffline; rw [if_pos h]
  have e2 : (n.withOffline o).nextOffline = (n.withOffline o, false) := by
    unfold nextOffline; rw [if_pos h']
  unfold nextLocation
  rw [e1, e2]
  have e3 : (n.withOffline o).routes = n.routes := rfl
  have e4 : (n.withOffline o).loopBudget = n.loopBudget := rfl
  simp only [e3, e4]
  split
  · rfl
  · simp only [Bool.false_eq_true, if_false]
    exact nextLoop_wo _ _ _ _ h

theorem perform_wo [GoMath F] (h : n.skipOffline = true) (op : NavOp F) :
    (n.withOffline o).perform op = (n.perform op).map (fun p => (p.1.withOffline o, p.2)) := by
  cases op with
  | addRoute rs =>
    simp only [perform, addRoute, map_ok]
    have e3 : (n.withOffline o).routes = n.routes := rfl
    rw [e3]
    split
    · rfl
    · split <;> rfl
  | removeRoute id =>
    simp only [perform, removeRoute, map_ok]
    have e3 : (n.withOffline o).routes = n.routes := rfl
    rw [e3]
    split
    · rfl
    · split <;> rfl
  | removeTrack rid tid =>
    simp only [perform, removeTrack, map_ok]
    have e3 : (n.withOffline o).routes = n.routes := rfl
    have e4 : (n.withOffline o).routeByID rid = n.routeByID rid := rfl
    rw [e3, e4]
    split
    · rfl
    · split
      · rfl
      · split <;> rfl
  | resetRoutes =>
    simp only [perform, resetRoutes, map_ok]
    have e3 : (n.withOffline o).routes = n.routes := rfl
    rw [e3]
    split <;> rfl
  | reset => rfl
  | moveToSegment r t s => simp only [perform, moveToSegment_wo, map_map_go]
  | moveToRoute r => simp only [perform, moveToRoute, moveToSegment_wo, map_map_go]
  | moveToTrack r t => simp only [perform, moveToTrack, moveToSegment_wo, map_map_go]
  | moveToRouteByID rid => simp only [perform, moveToRouteByID_wo, map_map_go]
  | moveToTrackByID rid tid => simp only [perform, moveToTrackByID_wo, map_map_go]
  | toNextRoute => simp only [perform, toNextRoute_wo, map_map_go]
  | toPrevRoute => simp only [perform, toPrevRoute_wo, map_map_go]
  | destinationTo m => simp only [perform, destinationTo_wo, map_ok]
  | toOffline x =>
    have h' : (n.withOffline o).skipOffline = true := h
    simp only [perform, toOffline_skip h, toOffline_skip h', map_ok]
  | nextLocation tick speed x => simp only [perform, nextLocation_wo h, map_map_go]
  | isFinish =>
    simp only [perform, isFinish, map_ok]
    have e1 : (n.withOffline o).routeIndex = n.routeIndex := rfl
    have e2 : (n.withOffline o).trackIndex = n.trackIndex := rfl
    have e3 : (n.withOffline o).segmentIndex = n.segmentIndex := rfl
    have e4 : (n.withOffline o).currentDistance = n.currentDistance := rfl
    rw [e1, e2, e3, e4]
    split <;> rfl
  | nextElevation t =>
    simp only [perform, nextElevation]
    have e : (n.withOffline o).elevation = n.elevation := rfl
    rw [e]
    cases n.elevation.next t <;> rfl
  | shuffleElevation draws => rfl
  | onRoute i op => rfl

theorem perform_skip [GoMath F] {n' : Navigator F} {op : NavOp F} {a : Answer}
    (h : n.perform op = .ok (n', a)) : n'.skipOffline = n.skipOffline ∧ n'.offline = n.offline := by
  have hs : n.step op = .ok n' := by rw [← perform_step, h]; rfl
  have := step_offline_frame hs
  exact ⟨this.skip, this.offline⟩

end Navigator
end GpsGen
