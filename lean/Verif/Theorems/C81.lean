import Verif.Lemmas.Toy
import Verif.Lemmas.Frame
import Verif.Lemmas.New
import Verif.Lemmas.Demo
import Verif.Theorems.C47
import Verif.Theorems.C46
import Verif.Model.DevHistory
/-!
# C81: resetting and changing the routes restart the trip

Any number type.
-/

namespace GpsGen
namespace C81
open Navigator

variable {F : Type}

/-! ## Specification -/

/-- The cursor is at the beginning of the first route, nothing was travelled, and the total is that of the routes. -/
structure AtStart [GoFloat F] (n : Navigator F) : Prop where
  route : n.routeIndex = 0
  track : n.trackIndex = 0
  segment : n.segmentIndex = 0
  segDist : n.currentSegmentDistance = lit 0
  trackDist : n.currentTrackDistance = lit 0
  routeDist : n.currentRouteDistance = lit 0
  dist : n.currentDistance = lit 0
  total : n.distance = n.routes.foldl (fun a r => a +. r.dist) (lit 0)

/-- The same routes to drive, under the same offline settings. -/
structure SameTask (a b : Navigator F) : Prop where
  routes : a.routes = b.routes
  skip : a.skipOffline = b.skipOffline
  range : a.offline = b.offline
  offline : a.offlineIndex = b.offlineIndex

/-- What can be seen of a trip: the cursor, the counters and the offline period. -/
structure SameProgress (a b : Navigator F) : Prop where
  task : SameTask a b
  route : a.routeIndex = b.routeIndex
  track : a.trackIndex = b.trackIndex
  segment : a.segmentIndex = b.segmentIndex
  segDist : a.currentSegmentDistance = b.currentSegmentDistance
  trackDist : a.currentTrackDistance = b.currentTrackDistance
  routeDist : a.currentRouteDistance = b.currentRouteDistance
  dist : a.currentDistance = b.currentDistance
  total : a.distance = b.distance

/-- A trip: `NextLocation` again and again. Returned are the navigator and what the calls returned. -/
def drive [GoMath F] : Navigator F → List (F × F × UInt32) → Go (Navigator F × List Bool)
  | n, [] => .ok (n, [])
  | n, (tick, speed, x) :: rest => do
    let r ← n.nextLocation tick speed x
    let q ← drive r.1 rest
    return (q.1, r.2 :: q.2)

/-! ## What a trip does not depend on -/

/-- Another location, version and elevation. -/
def mask (p : LatLon F) (v : Int) (e : Sensor F) (n : Navigator F) : Navigator F :=
  { n with point := p, version := v, elevation := e }

theorem same_mask {a b : Navigator F} (h : SameProgress a b) : b = mask b.point b.version b.elevation a := by
  obtain ⟨⟨h1, h2, h3, h4⟩, h5, h6, h7, h8, h9, h10, h11, h12⟩ := h
  cases a; cases b
  simp only at *
  subst h1 h2 h3 h4 h5 h6 h7 h8 h9 h10 h11 h12
  rfl

theorem mask_same (p : LatLon F) (v : Int) (e : Sensor F) (n : Navigator F) : SameProgress n (mask p v e n) :=
  ⟨⟨rfl, rfl, rfl, rfl⟩, rfl, rfl, rfl, rfl, rfl, rfl, rfl, rfl⟩

/-- What a masked call returns. -/
def masked (p : LatLon F) (v : Int) (e : Sensor F) (r : Navigator F × Bool) : Navigator F × Bool :=
  (mask (if r.2 then r.1.point else p) v e r.1, r.2)

theorem toOffline_mask (p : LatLon F) (v : Int) (e : Sensor F) (n : Navigator F) (x : UInt32) :
    (mask p v e n).toOffline x = (n.toOffline x).map (mask p v e) := by
  cases n with
  | mk _ _ _ _ _ _ _ _ _ _ _ offline _ skip _ => cases skip <;> cases offline <;> rfl

theorem nextSegment_mask [GoFloat F] (p : LatLon F) (v : Int) (e : Sensor F) (n : Navigator F) :
    (mask p v e n).nextSegment = n.nextSegment.map fun r => (mask p v e r.1, r.2) := by
  unfold nextSegment
  have h1 : (mask p v e n).currentTrack = n.currentTrack := rfl
  have h2 : (mask p v e n).currentSegment = n.currentSegment := rfl
  have h3 : (mask p v e n).segmentIndex = n.segmentIndex := rfl
  rw [h1, h2, h3]
  cases n.currentTrack with
  | error x => rfl
  | ok o =>
    cases o with
    | none => rfl
    | some t =>
      show (if _ then _ else _) = Except.map _ (if _ then _ else _)
      split
      · rfl
      · cases n.currentSegment <;> rfl

theorem nextTrack_mask [GoFloat F] (p : LatLon F) (v : Int) (e : Sensor F) (n : Navigator F) :
    (mask p v e n).nextTrack = n.nextTrack.map fun r => (mask p v e r.1, r.2) := by
  unfold nextTrack
  have h1 : ({ mask p v e n with currentSegmentDistance := lit 0, segmentIndex := 0 } : Navigator F).currentRoute =
    ({ n with currentSegmentDistance := lit 0, segmentIndex := 0 } : Navigator F).currentRoute := rfl
  simp only [h1]
  cases ({ n with currentSegmentDistance := lit 0, segmentIndex := 0 } : Navigator F).currentRoute with
  | error x => rfl
  | ok o =>
    cases o with
    | none => rfl
    | some r =>
      show (if n.trackIndex < _ then _ else _) = Except.map _ (if n.trackIndex < _ then _ else _)
      split <;> rfl

theorem nextRoute_mask [GoFloat F] (p : LatLon F) (v : Int) (e : Sensor F) (n : Navigator F) :
    (mask p v e n).nextRoute = mask p v e n.nextRoute := by
  unfold nextRoute
  show (if n.routeIndex < n.routes.length - 1 then _ else _) =
    mask p v e (if n.routeIndex < n.routes.length - 1 then _ else _)
  split <;> rfl

theorem loop_mask [GoMath F] (d : F) (x : UInt32) (p : LatLon F) (v : Int) (e : Sensor F) (fuel : Nat)
    (n : Navigator F) : nextLoop d x fuel (mask p v e n) = (nextLoop d x fuel n).map (masked p v e) := by
  induction fuel generalizing n with
  | zero => rfl
  | succ fuel ih =>
    unfold nextLoop
    have h1 : (mask p v e n).isValidDistance d = n.isValidDistance d := rfl
    have h2 : (mask p v e n).isStartSegment = n.isStartSegment := rfl
    have h3 : (mask p v e n).updateDist d = mask p v e (n.updateDist d) := rfl
    rw [h1, h2, h3, nextSegment_mask]
    cases n.isValidDistance d with
    | error y => rfl
    | ok b =>
      cases b with
      | true =>
        show (do let segment ← (n.updateDist d).currentSegment; _) = Except.map _ (do let segment ← (n.updateDist d).currentSegment; _)
        cases (n.updateDist d).currentSegment with
        | error y => rfl
        | ok s =>
          show (if s.isEmpty = true then _ else if _ then _ else _) =
            Except.map _ (if s.isEmpty = true then _ else if _ then _ else _)
          split
          · rfl
          · split <;> rfl
      | false =>
        cases n.nextSegment with
        | error y => rfl
        | ok r =>
          obtain ⟨m, s⟩ := r
          show (if (!s.isEmpty) = true then _ else _) = Except.map _ (if (!s.isEmpty) = true then _ else _)
          split
          · split
            · show (do let n ← (mask p v e m).toOffline x; _) = Except.map _ (do let n ← m.toOffline x; _)
              rw [toOffline_mask]
              cases m.toOffline x <;> rfl
            · exact ih m
          · show (do let r ← (mask p v e m).nextTrack; _) = Except.map _ (do let r ← m.nextTrack; _)
            rw [nextTrack_mask]
            cases m.nextTrack with
            | error y => rfl
            | ok q =>
              obtain ⟨k, mv⟩ := q
              cases mv with
              | true =>
                show (do let n ← (mask p v e k).toOffline x; _) = Except.map _ (do let n ← k.toOffline x; _)
                rw [toOffline_mask]
                cases k.toOffline x <;> rfl
              | false =>
                show (do let n ← (mask p v e k).nextRoute.toOffline x; _) =
                  Except.map _ (do let n ← k.nextRoute.toOffline x; _)
                rw [nextRoute_mask, toOffline_mask]
                cases k.nextRoute.toOffline x <;> rfl

theorem nextLocation_mask [GoMath F] (tick speed : F) (x : UInt32) (p : LatLon F) (v : Int) (e : Sensor F)
    (n : Navigator F) :
    (mask p v e n).nextLocation tick speed x = (n.nextLocation tick speed x).map (masked p v e) := by
  unfold nextLocation
  show (if n.routes.length = 0 then _ else _) = Except.map _ (if n.routes.length = 0 then _ else _)
  split
  · rfl
  · have h : (mask p v e n).nextOffline = (mask p v e n.nextOffline.1, n.nextOffline.2) := by
      unfold nextOffline
      show (if n.skipOffline = true then _ else if n.offlineIndex > 0 then _ else _) = _
      split
      · rfl
      · split <;> rfl
    rw [h]
    obtain ⟨m, off⟩ := n.nextOffline
    show (if off = true then _ else _) = Except.map _ (if off = true then _ else _)
    split
    · rfl
    · exact loop_mask _ _ _ _ _ _ _

/-! ## Theorems -/

/-- Two trips from `a` and `b` went alike: both panicked for the same reason, or the calls returned the same, the
progress is the same, and so is the location once it was the same or a call succeeded. -/
def Alike (a b : Navigator F) : Go (Navigator F × List Bool) → Go (Navigator F × List Bool) → Prop
  | .ok (a', x), .ok (b', y) =>
    x = y ∧ SameProgress a' b' ∧ ((a.point = b.point ∨ true ∈ x) → a'.point = b'.point)
  | .error x, .error y => x = y
  | _, _ => False

/-- **C81, same trip.** Two navigators with the same progress, whatever happened to them before: every further trip
goes alike. -/
theorem same_trip [GoMath F] (a b : Navigator F) (h : SameProgress a b) (l : List (F × F × UInt32)) :
    Alike a b (drive a l) (drive b l) := by
  induction l generalizing a b with
  | nil => exact ⟨rfl, h, fun k => k.resolve_right nofun⟩
  | cons s l ih =>
    obtain ⟨tick, speed, x⟩ := s
    have hb := same_mask h
    have hn : b.nextLocation tick speed x = (a.nextLocation tick speed x).map (masked b.point b.version b.elevation) :=
      (congrArg (fun m : Navigator F => m.nextLocation tick speed x) hb).trans (nextLocation_mask ..)
    unfold drive
    rw [hn]
    cases ha : a.nextLocation tick speed x with
    | error y => rfl
    | ok r =>
      obtain ⟨a', ok⟩ := r
      have := ih a' (masked b.point b.version b.elevation (a', ok)).1 (mask_same ..)
      show Alike a b (drive a' l >>= fun q => .ok (q.1, ok :: q.2))
        (drive (masked b.point b.version b.elevation (a', ok)).1 l >>= fun q => .ok (q.1, ok :: q.2))
      cases hx : drive a' l with
      | error y =>
        cases hy : drive (masked b.point b.version b.elevation (a', ok)).1 l with
        | error z => rw [hx, hy] at this; exact this
        | ok z => rw [hx, hy] at this; exact this
      | ok y =>
        cases hy : drive (masked b.point b.version b.elevation (a', ok)).1 l with
        | error z => rw [hx, hy] at this; exact this
        | ok z =>
          rw [hx, hy] at this
          obtain ⟨t1, t2, t3⟩ := this
          refine ⟨congrArg (ok :: ·) t1, t2, fun k => t3 ?_⟩
          cases ok with
          | true => exact .inl rfl
          | false =>
            rcases k with k | k
            · left
              have hs := nextLocation_mask tick speed x a.point a.version a.elevation a
              have hm : mask a.point a.version a.elevation a = a := rfl
              rw [hm, ha] at hs
              have := congrArg (fun r : Navigator F × Bool => r.1.point) (Except.ok.inj hs)
              exact this.trans k
            · right
              simpa using k

theorem start_same [GoFloat F] {a b : Navigator F} (ha : AtStart a) (hb : AtStart b) (h : SameTask a b) :
    SameProgress a b :=
  ⟨h, ha.route.trans hb.route.symm, ha.track.trans hb.track.symm, ha.segment.trans hb.segment.symm,
    ha.segDist.trans hb.segDist.symm, ha.trackDist.trans hb.trackDist.symm, ha.routeDist.trans hb.routeDist.symm,
    ha.dist.trans hb.dist.symm, by rw [ha.total, hb.total, h.routes]⟩

theorem reset_start [GoFloat F] (n : Navigator F) : AtStart n.reset := ⟨rfl, rfl, rfl, rfl, rfl, rfl, rfl, rfl⟩

theorem version_start [GoFloat F] {n : Navigator F} (h : AtStart n) : AtStart n.nextVersion :=
  ⟨h.route, h.track, h.segment, h.segDist, h.trackDist, h.routeDist, h.dist, h.total⟩

/-- Calls that restart the trip: `Reset`, and the calls that add or remove a route and did so. -/
inductive Restart [GoFloat F] : Navigator F → Navigator F → Prop
  | reset (n) : Restart n n.reset
  | added (n rs m e) : n.addRoute rs = (m, e) → n.routes.length < m.routes.length → Restart n m
  | removed (n id m) : n.removeRoute id = (m, true) → Restart n m
  | cleared (n m) : n.resetRoutes = (m, true) → Restart n m

theorem addLoop_count (held : List (Route F)) (ok : Nat) (rs : List (Option (Route F))) :
    (addLoop held ok rs).1.length + ok = held.length + (addLoop held ok rs).2 := by
  induction rs generalizing held ok with
  | nil => rfl
  | cons r rs ih =>
    cases r with
    | none => exact ih held ok
    | some r =>
      unfold addLoop
      split
      · exact ih held ok
      · have := ih (held ++ [r]) (ok + 1)
        simp only [List.length_append, List.length_singleton] at this
        omega

/-- **C81, restart.** After each of these calls the cursor is at the beginning of the first route, nothing was
travelled and the total is that of the routes. The location, the offline period and the settings are as before. -/
theorem restart_start [GoFloat F] {n m : Navigator F} (h : Restart n m) :
    AtStart m ∧ m.point = n.point ∧ m.offlineIndex = n.offlineIndex ∧ m.offline = n.offline ∧
      m.skipOffline = n.skipOffline ∧ m.elevation = n.elevation := by
  cases h with
  | reset => exact ⟨reset_start n, rfl, rfl, rfl, rfl, rfl⟩
  | added rs _ e h hl =>
    unfold addRoute at h
    split at h
    · cases h; omega
    · have hc := addLoop_count n.routes 0 rs
      revert h hc
      generalize addLoop n.routes 0 rs = q
      obtain ⟨held, ok⟩ := q
      intro h hc
      simp only at h hc
      split at h
      · cases h; exact ⟨version_start (reset_start _), rfl, rfl, rfl, rfl, rfl⟩
      · cases h
        simp only at hl
        omega
  | removed id _ h =>
    unfold removeRoute at h
    split at h
    · cases h
    · revert h
      generalize removeFirst (fun r : Route F => r.id == id) n.routes = q
      obtain ⟨rs, ok⟩ := q
      intro h
      simp only at h
      split at h
      · cases h; exact ⟨reset_start _, rfl, rfl, rfl, rfl, rfl⟩
      · cases h
  | cleared _ h =>
    unfold resetRoutes at h
    split at h
    · cases h
    · cases h; exact ⟨version_start (reset_start _), rfl, rfl, rfl, rfl, rfl⟩

/-- **C81.** A navigator that was restarted and is not offline, and any other navigator at the start with the same
routes and settings that is not offline: the same trip follows, whatever was driven before. In particular it is the
trip of a new navigator that was given the routes (`new_start`). -/
theorem restarted_trip_partial [GoMath F] {n m b : Navigator F} (h : Restart n m) (on : n.offlineIndex = 0)
    (hb : AtStart b) (hr : b.routes = m.routes) (hs : b.skipOffline = n.skipOffline) (ho : b.offline = n.offline)
    (bon : b.offlineIndex = 0) (l : List (F × F × UInt32)) : Alike m b (drive m l) (drive b l) := by
  obtain ⟨h1, _, h3, h4, h5, _⟩ := restart_start h
  exact same_trip m b (start_same h1 hb ⟨hr.symm, by rw [h5, hs], by rw [h4, ho], by rw [h3, on, bon]⟩) l

/-- A new navigator is at the start and online, and stays so when it is given routes. -/
theorem new_start [GoFloat F] {uid : String} {draws : Nat → F} {opts : List (NavOption F)} {n : Navigator F}
    (h : Navigator.new uid draws opts = .ok n) (rs : List (Option (Route F))) :
    AtStart n ∧ n.offlineIndex = 0 ∧ AtStart (n.addRoute rs).1 ∧ (n.addRoute rs).1.offlineIndex = 0 := by
  obtain ⟨_, _, _, -, -, -, rfl⟩ := new_cases h
  refine ⟨⟨rfl, rfl, rfl, rfl, rfl, rfl, rfl, rfl⟩, rfl, ?_⟩
  unfold addRoute
  split
  · exact ⟨⟨rfl, rfl, rfl, rfl, rfl, rfl, rfl, rfl⟩, rfl⟩
  · simp only
    split
    · exact ⟨version_start (reset_start _), rfl⟩
    · rename_i h0 hk
      have hc := addLoop_count ([] : List (Route F)) 0 rs
      have he : (addLoop ([] : List (Route F)) 0 rs).1 = [] := by
        apply List.length_eq_zero_iff.mp
        have hk' : ¬ (addLoop ([] : List (Route F)) 0 rs).2 > 0 := hk
        simp only [List.length_nil] at hc
        omega
      refine ⟨⟨rfl, rfl, rfl, rfl, rfl, rfl, rfl, ?_⟩, rfl⟩
      show lit 0 = List.foldl _ (lit 0) (addLoop ([] : List (Route F)) 0 rs).1
      rw [he]
      rfl

/-- The settings of a navigator never change. -/
theorem settings_kept [GoMath F] {f n : Navigator F} {ops : List (NavOp F)} (h : f.run ops = .ok n) :
    n.skipOffline = f.skipOffline ∧ n.offline = f.offline :=
  run_induction (fun m => m.skipOffline = f.skipOffline ∧ m.offline = f.offline)
    (fun _ _ _ hP hst => ⟨(step_offline_frame hst).skip.trans hP.1, (step_offline_frame hst).offline.trans hP.2⟩)
    f n ops ⟨rfl, rfl⟩ h

/-- **C81, any history.** A new navigator `f`, any history on it that leaves it online, then `Reset`: the trip that
follows is that of a new navigator with the same options that was given the same routes. -/
theorem reset_as_new_partial [GoMath F] {uid uid' : String} {draws draws' : Nat → F} {opts : List (NavOption F)}
    {f f' n : Navigator F} (h : Navigator.new uid draws opts = .ok f) (h' : Navigator.new uid' draws' opts = .ok f')
    {ops : List (NavOp F)} (hn : f.run ops = .ok n) (on : n.offlineIndex = 0) (rs : List (Option (Route F)))
    (hr : (f'.addRoute rs).1.routes = n.routes) (l : List (F × F × UInt32)) :
    Alike n.reset (f'.addRoute rs).1 (drive n.reset l) (drive (f'.addRoute rs).1 l) := by
  obtain ⟨_, _, a1, a2⟩ := new_start h' rs
  obtain ⟨s1, s2⟩ := settings_kept hn
  obtain ⟨s3, s4⟩ := settings_kept (f := f') (ops := [.addRoute rs]) rfl
  have hs : f'.skipOffline = f.skipOffline ∧ f'.offline = f.offline := by
    obtain ⟨o1, o2, _, e1, e2, -, rfl⟩ := new_cases h
    obtain ⟨o3, o4, _, e3, e4, -, rfl⟩ := new_cases h'
    rw [e1] at e3
    cases e3
    rw [e2] at e4
    cases e4
    exact ⟨rfl, rfl⟩
  exact restarted_trip_partial (.reset n) on a1 hr (by rw [s3, s1, hs.1]) (by rw [s4, s2, hs.2]) a2 l

/-- **C81, not reset: the offline period.** A restarted navigator that was offline stays offline for the rest of the
period. -/
theorem offline_goes_on [GoMath F] {n m : Navigator F} (h : Restart n m) (hs : n.skipOffline = false)
    (hn : 0 < n.offlineIndex) (hr : m.routes ≠ []) (tick speed : F) (x : UInt32) :
    m.nextLocation tick speed x = .ok ({ m with offlineIndex := n.offlineIndex - 1 }, false) := by
  obtain ⟨_, _, h3, _, h5, _⟩ := restart_start h
  unfold nextLocation nextOffline
  have : m.routes.length ≠ 0 := by simpa using hr
  rw [if_neg this, h5, hs, h3]
  simp [hn]

/-- **C81, not reset: the rest of the device.** `ResetNavigator` resets the navigator and nothing else: the published
state, the simulated duration, the speed curve, the travel time and the location are as before. -/
theorem device_reset [GoMath F] (d : Device F) :
    d.step (.move .resetNavigator) = .ok { d with navigator := d.navigator.reset } ∧
      d.navigator.reset.point = d.navigator.point ∧ d.navigator.reset.offlineIndex = d.navigator.offlineIndex :=
  ⟨rfl, rfl, rfl⟩

/-- What the comments promise (device.go:595-597: "clears all navigation-related state and resets the device's
position"), first half: after any history `Reset` leaves a navigator that drives like a new one with the same options
and routes. -/
def ClaimTrip (F : Type) [GoMath F] : Prop :=
  ∀ (uid : String) (draws : Nat → F) (opts : List (NavOption F)) (f n : Navigator F) (ops : List (NavOp F))
    (rs : List (Option (Route F))), Navigator.new uid draws opts = .ok f → f.run ops = .ok n →
    (f.addRoute rs).1.routes = n.routes →
    ∀ l, Alike n.reset (f.addRoute rs).1 (drive n.reset l) (drive (f.addRoute rs).1 l)

/-- Second half: it stands where a new one stands. -/
def ClaimPlace (F : Type) [GoMath F] : Prop :=
  ∀ (uid : String) (draws : Nat → F) (opts : List (NavOption F)) (f n : Navigator F) (ops : List (NavOp F))
    (rs : List (Option (Route F))), Navigator.new uid draws opts = .ok f → f.run ops = .ok n →
    (f.addRoute rs).1.routes = n.routes → n.reset.point = (f.addRoute rs).1.point

/-- **C81, the location is not reset.** A navigator that moved keeps its location through `Reset`: 1 m east of the
location of a new one. -/
theorem place_fails : ¬ ClaimPlace ℝ := by
  intro h
  have hs := oneNav_step false 1 1 0 (by have := degLen_gt; linarith)
  have hr : (freshNav false).run [.addRoute [some oneRoute], .nextLocation 1 1 0] =
      .ok ((oneNav false).land (1 * 1)) := by
    simp only [Navigator.run, Navigator.step, oneNav_add, ok_bind, hs]
    rfl
  have := h "" (fun _ => 0) [] (freshNav false) _ _ [some oneRoute] (freshNav_new false) hr (by rw [oneNav_add]; rfl)
  rw [oneNav_add] at this
  have hp : (oneNav false).curSeg.destinationTo 1 = (⟨0, 0⟩ : LatLon ℝ) := by
    have hst : (oneNav false).isStartSegment = true := by
      simp [isStartSegment, oneNav, freshNav]
    have hl : ((oneNav false).land (1 * 1)).point = (oneNav false).curSeg.destinationTo 1 := by
      show (oneNav false).curSeg.destinationTo (if (oneNav false).isStartSegment then _ else _) = _
      rw [hst]
      simp
    exact hl.symm.trans this
  rw [oneNav_curSeg] at hp
  have hd := C47.distance_requested 0 0 1 (eqSeg 0 1 0 (-1)).bearing (by norm_num) (by norm_num)
    (by have := Real.pi_gt_three; linarith)
  have he : destination (0 : ℝ) 0 1 (eqSeg 0 1 0 (-1)).bearing = ⟨0, 0⟩ := hp
  rw [he] at hd
  have h0 : distance (0 : ℝ) 0 0 0 = 0 := (C46.zero_iff ..).mpr rfl
  exact zero_ne_one (h0.symm.trans hd)

/-- **C81, the offline period is not reset.** -/
theorem trip_fails : ¬ ClaimTrip ℝ := by
  intro h
  have hr : (freshNav false).run [.addRoute [some oneRoute], .toOffline 7] =
      .ok { oneNav false with offlineIndex := (Random.new 1 10).value 7 } := by
    simp only [Navigator.run, Navigator.step, oneNav_add, ok_bind]
    rfl
  have := h "" (fun _ => 0) [] (freshNav false) _ _ [some oneRoute] (freshNav_new false) hr (by rw [oneNav_add])
    [(1, 1, 0)]
  rw [oneNav_add] at this
  have ho := offline_goes_on (.reset ({ oneNav false with offlineIndex := (Random.new 1 10).value 7 } : Navigator ℝ)) rfl
    (by decide) (List.cons_ne_nil oneRoute []) 1 1 0
  unfold drive drive at this
  rw [ho, oneNav_step false 1 1 0 (by have := degLen_gt; linarith)] at this
  have h1 := this.1
  cases h1

/-- The toy navigator with a route after a history. -/
def toyRun (ops : List (NavOp Toy)) : Option (Navigator Toy) :=
  match Navigator.new "e" (fun _ => Toy.of 0) [] with
  | .ok f => match (f.addRoute [some Toy.route]).1.run ops with
    | .ok n => some n
    | .error _ => none
  | .error _ => none

/-- A concrete case: a moved navigator that is reset and driven again is where a new one would be. -/
example : ((toyRun [.nextLocation (Toy.of 1) (Toy.of 2) 0, .nextLocation (Toy.of 1) (Toy.of 3) 0, .reset,
      .nextLocation (Toy.of 1) (Toy.of 2) 0, .nextLocation (Toy.of 1) (Toy.of 5) 0]).map
      fun n => (n.point.lon, n.currentDistance)) =
    ((toyRun [.nextLocation (Toy.of 1) (Toy.of 2) 0, .nextLocation (Toy.of 1) (Toy.of 5) 0]).map
      fun n => (n.point.lon, n.currentDistance)) ∧
    (toyRun [.nextLocation (Toy.of 1) (Toy.of 2) 0, .nextLocation (Toy.of 1) (Toy.of 5) 0]).map
      (fun n => n.currentDistance) = some (Toy.of 7) := by
  decide +kernel

end C81
end GpsGen
