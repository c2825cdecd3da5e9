import Verif.Lemmas.Trip
import Verif.Lemmas.DeviceRound
import Verif.Lemmas.DeviceSafe
import Verif.Lemmas.SkipOffline
import Verif.Theorems.C54
import Verif.Theorems.C95
import Verif.Lemmas.Toy
/-!
# C97: an attached device completes lap after lap

A device that the generator calls in every round, for ever. This file is about any number type; `C97Real` and `C97Double`
are about exact arithmetic and doubles.
-/

namespace GpsGen
namespace C97
open Device Navigator Trip

variable {F : Type}

/-! ## Specification -/

/-- The first `k` rounds of a ticker that never stops: the time it delivers and the random numbers drawn. -/
def rounds (t : Nat → Int) (x : Nat → NextRnd F) (k : Nat) : List (Int × NextRnd F) :=
  (List.range k).map fun i => (t i, x i)

/-- Round `k` completes a lap: before it the device is in the last track of the last route, after it on the first segment
of the first track of the first route, and the clock of the lap is zero. -/
def Lap [GoMath F] (d : Device F) (start : Int) (t : Nat → Int) (x : Nat → NextRnd F) (k : Nat) : Prop :=
  ∃ d1 d2, driveDevice d start (rounds t x k) = .ok d1 ∧ driveDevice d start (rounds t x (k + 1)) = .ok d2 ∧
    InLastTrack d1.navigator ∧ AtStart d2.navigator ∧ d2.state.duration = lit 0

/-- Laps are completed again and again. -/
def Forever [GoMath F] (d : Device F) (start : Int) (t : Nat → Int) (x : Nat → NextRnd F) : Prop :=
  ∀ K, ∃ k, K ≤ k ∧ Lap d start t x k

/-- The time of the round before. -/
def before (start : Int) (t : Nat → Int) : Nat → Int
  | 0 => start
  | k + 1 => t k

/-! ## Rounds -/

theorem rounds_succ (t : Nat → Int) (x : Nat → NextRnd F) (k : Nat) :
    rounds t x (k + 1) = rounds t x k ++ [(t k, x k)] := by
  unfold rounds
  rw [List.range_succ, List.map_append]
  rfl

/-- The time of the last of the rounds. -/
def lastTime (last : Int) : List (Int × NextRnd F) → Int
  | [] => last
  | (t, _) :: rest => lastTime t rest

theorem lastTime_append (last : Int) (l : List (Int × NextRnd F)) (y : Int × NextRnd F) :
    lastTime last (l ++ [y]) = y.1 := by
  induction l generalizing last with
  | nil => rfl
  | cons z l ih => exact ih _

theorem lastTime_rounds (start : Int) (t : Nat → Int) (x : Nat → NextRnd F) (k : Nat) :
    lastTime start (rounds t x k) = before start t k := by
  cases k with
  | zero => rfl
  | succ k => rw [rounds_succ, lastTime_append]; rfl

theorem drive_append [GoMath F] {d d1 : Device F} {last : Int} {l : List (Int × NextRnd F)} {t : Int} {r : NextRnd F}
    (h : driveDevice d last l = .ok d1) :
    driveDevice d last (l ++ [(t, r)]) = (d1.next (tickOf (lastTime last l) t) r).map Prod.fst := by
  induction l generalizing d last with
  | nil =>
    cases h
    simp only [List.nil_append, driveDevice, lastTime]
    cases d1.next (tickOf last t) r <;> rfl
  | cons y l ih =>
    obtain ⟨t0, r0⟩ := y
    obtain ⟨z, h1, h2⟩ := bind_eq_ok h
    simp only [List.cons_append, driveDevice, h1]
    exact ih h2

theorem drive_succ [GoMath F] {d d1 : Device F} {start : Int} {t : Nat → Int} {x : Nat → NextRnd F} {k : Nat}
    (h : driveDevice d start (rounds t x k) = .ok d1) :
    driveDevice d start (rounds t x (k + 1)) = (d1.next (tickOf (before start t k) (t k)) (x k)).map Prod.fst := by
  rw [rounds_succ, drive_append h, lastTime_rounds]

/-! ## One round -/

theorem touch_tracks (r : Route F) : (touchRoute r).tracks = r.tracks.map (fun t => t.propsOf.1) := by
  unfold touchRoute Route.propsOf; cases r.props <;> rfl

theorem goAt?_map {α β : Type} (f : α → β) (l : List α) (i : Int) : goAt? (l.map f) i = (goAt? l i).map f := by
  unfold goAt?
  split
  · exact List.getElem?_map ..
  · rfl

theorem touch_route? (n : Navigator F) : (touched n).route? = n.route?.map touchRoute := goAt?_map _ _ _

theorem touch_track? (n : Navigator F) : (touched n).track? = n.track?.map (fun t => t.propsOf.1) := by
  unfold track?
  rw [touch_route?]
  cases n.route? with
  | none => rfl
  | some r =>
    simp only [Option.map_some, Option.bind_some, touch_tracks]
    exact goAt?_map _ _ _

theorem props_segments (t : Track F) : t.propsOf.1.segments = t.segments := by
  unfold Track.propsOf; cases t.props <;> rfl

theorem touch_seg? (n : Navigator F) : (touched n).seg? = n.seg? := by
  unfold seg?
  rw [touch_track?]
  cases n.track? with
  | none => rfl
  | some t => simp only [Option.map_some, Option.bind_some, props_segments]; rfl

theorem touch_meas [GoFloat F] (μ : F → F → Nat) (n : Navigator F) : meas4 μ (touched n) = meas4 μ n := by
  have h1 : routesLeft (touched n) = routesLeft n := by
    unfold routesLeft touched; simp only [List.length_map]
  have h2 : tracksLeft (touched n) = tracksLeft n := by
    unfold tracksLeft
    rw [touch_route?]
    cases n.route? with
    | none => rfl
    | some r => simp only [Option.map_some, Route.numTracks, touch_tracks, List.length_map]; rfl
  have h3 : segsLeft (touched n) = segsLeft n := by
    unfold segsLeft
    rw [touch_track?]
    cases n.track? with
    | none => rfl
    | some t => simp only [Option.map_some, Track.numSegments, props_segments]; rfl
  have h4 : (touched n).curSeg = n.curSeg := by unfold curSeg; rw [touch_seg?]
  have h5 : stepsLeft μ (touched n) = stepsLeft μ n := by unfold stepsLeft; rw [h4]; rfl
  unfold meas4
  rw [h1, h2, h3, h5]

theorem touch_good {Cnt Len : F → Prop} {n : Navigator F} (h : Good Cnt Len n) : Good Cnt Len (touched n) where
  routes hc := h.routes (List.map_eq_nil_iff.mp hc)
  index := by
    rcases h.index with hc | hc
    · exact absurd hc h.routes
    · right; unfold touched; simp only [List.length_map]; exact hc
  offline := h.offline
  cnt := h.cnt
  len r hr t ht s hs := by
    obtain ⟨q, hq, rfl⟩ := List.mem_map.mp hr
    rw [touch_tracks] at ht
    obtain ⟨u, hu, rfl⟩ := List.mem_map.mp ht
    rw [props_segments] at hs
    exact h.len q hq u hu s hs

theorem touch_last {n : Navigator F} : InLastTrack (touched n) ↔ InLastTrack n := by
  unfold InLastTrack
  constructor
  · rintro ⟨h1, h2⟩
    refine ⟨by simpa [touched] using h1, fun r hr => ?_⟩
    have := h2 (touchRoute r) (by unfold touched; simp only [List.getElem?_map]; rw [hr]; rfl)
    rw [touch_tracks, List.length_map] at this
    exact this
  · rintro ⟨h1, h2⟩
    refine ⟨by simpa [touched] using h1, fun r hr => ?_⟩
    unfold touched at hr
    simp only [List.getElem?_map] at hr
    obtain ⟨q, hq, rfl⟩ := Option.map_eq_some_iff.mp hr
    rw [touch_tracks, List.length_map]
    exact h2 q hq

/-- Two navigators with the cursor at the same place of the same routes, and the same offline settings. -/
structure Same (n m : Navigator F) : Prop where
  routes : n.routes = m.routes
  route : n.routeIndex = m.routeIndex
  track : n.trackIndex = m.trackIndex
  segment : n.segmentIndex = m.segmentIndex
  distance : n.currentSegmentDistance = m.currentSegmentDistance
  skip : n.skipOffline = m.skipOffline
  offline : n.offline = m.offline

theorem Same.symm {n m : Navigator F} (h : Same n m) : Same m n :=
  ⟨h.1.symm, h.2.symm, h.3.symm, h.4.symm, h.5.symm, h.6.symm, h.7.symm⟩

theorem Same.trans {n m k : Navigator F} (h : Same n m) (g : Same m k) : Same n k :=
  ⟨h.1.trans g.1, h.2.trans g.2, h.3.trans g.3, h.4.trans g.4, h.5.trans g.5, h.6.trans g.6, h.7.trans g.7⟩

theorem Same.good {Cnt Len : F → Prop} {n m : Navigator F} (s : Same n m) (h : Good Cnt Len m) : Good Cnt Len n := by
  obtain ⟨s1, s2, s3, s4, s5, s6, s7⟩ := s
  refine ⟨by rw [s1]; exact h.1, ?_, by rw [s6, s7]; exact h.3, by rw [s5]; exact h.4, fun r hr => ?_⟩
  · have := h.2
    unfold IndexOk at this ⊢
    rw [s1, s2]
    exact this
  · rw [s1] at hr; exact h.5 r hr

theorem Same.meas [GoFloat F] {n m : Navigator F} (s : Same n m) (μ : F → F → Nat) : meas4 μ n = meas4 μ m := by
  obtain ⟨s1, s2, s3, s4, s5, s6, s7⟩ := s
  unfold meas4 routesLeft tracksLeft segsLeft stepsLeft curSeg seg? track? route?
  rw [s1, s2, s3, s4, s5]

theorem Same.last {n m : Navigator F} (s : Same n m) (h : InLastTrack m) : InLastTrack n := by
  obtain ⟨s1, s2, s3, s4, s5, s6, s7⟩ := s
  unfold InLastTrack at h ⊢
  rw [s1, s2, s3]
  exact h

theorem Same.start {n m : Navigator F} (s : Same n m) (h : AtStart m) : AtStart n :=
  ⟨s.route.trans h.1, s.track.trans h.2.1, s.segment.trans h.2.2⟩

theorem toOffline_same {n n' : Navigator F} {x : UInt32} (h : n.toOffline x = .ok n') : Same n' n := by
  rcases toOffline_cases h with ⟨-, rfl⟩ | ⟨-, _, -, rfl⟩ <;> exact ⟨rfl, rfl, rfl, rfl, rfl, rfl, rfl⟩

section
variable [GoMath F]

theorem powered_same {d : Device F} {s : F} {x : UInt32} {n : Navigator F} (h : d.powered s x = .ok n) :
    Same n d.navigator := by
  unfold powered at h
  split at h
  · exact toOffline_same h
  · cases h; exact ⟨rfl, rfl, rfl, rfl, rfl, rfl, rfl⟩

theorem finish_same (n : Navigator F) : Same n.isFinish.1 n ∧ n.isFinish.1.offlineIndex = n.offlineIndex := by
  unfold isFinish
  split <;> exact ⟨⟨rfl, rfl, rfl, rfl, rfl, rfl, rfl⟩, rfl⟩

/-- What a call of `NextLocation` leaves of the offline settings. -/
theorem location_settings {n n' : Navigator F} {t s : F} {x : UInt32} {b : Bool}
    (h : n.nextLocation t s x = .ok (n', b)) : n'.skipOffline = n.skipOffline ∧ n'.offline = n.offline := by
  refine nextLocation_preserves (fun m => m.skipOffline = n.skipOffline ∧ m.offline = n.offline)
    (fun m hm _ _ => hm) (fun m r hm _ _ => hm) (fun m r hm _ => ?_) (fun m k hm => hm) ⟨rfl, rfl⟩ h
  unfold leaveTrack
  split
  · exact hm
  · split <;> exact hm

/-- The device's navigator after a round, apart from the property maps. -/
theorem round_parts {d d' : Device F} {tick : F} {rnd : NextRnd F} {b : Bool} (hr : d.navigator.routes ≠ [])
    (h : d.next tick rnd = .ok (d', b)) :
    ∃ n1 n2 v, d.powered (d.seconds tick) rnd.low = .ok n1 ∧ d.speed.next (d.phase (d.seconds tick)) = .ok v ∧
      n1.nextLocation (d.seconds tick) v.value rnd.loc = .ok (n2, b) ∧
      (∃ m, Same m n2 ∧ m.offlineIndex = n2.offlineIndex ∧ (d'.navigator = m ∨ d'.navigator = touched m)) ∧
      d'.battery = d.drained (d.seconds tick) ∧ d'.tick = 0 ∧
      (b = false → n2.isFinish.2 = true → d'.state.duration = lit 0) := by
  cases next_outcome h with
  | idle hc => exact absurd hc hr
  | halted _ n1 n2 v h1 h2 h3 h4 =>
    exact ⟨n1, n2, v, h1, h2, h3, ⟨_, (finish_same n2).1, (finish_same n2).2, Or.inl rfl⟩, rfl, rfl,
      fun _ hc => by rw [h4] at hc; cases hc⟩
  | lap _ n1 n2 v d' h1 h2 h3 h4 h5 =>
    obtain ⟨st, hst, rfl⟩ := updateState_eq h5
    have hd := (nav_update_frame hst).2.2.2.1
    obtain ⟨s, e⟩ := finish_same n2
    refine ⟨n1, n2, v, h1, h2, h3, ⟨n2.isFinish.1.shuffleElevation rnd.elevation, ?_, e, Or.inl rfl⟩, rfl, rfl,
      fun _ _ => hd⟩
    exact ⟨s.1, s.2, s.3, s.4, s.5, s.6, s.7⟩
  | moved _ n1 n2 n3 v ss d2 d' h1 h2 h3 h4 h5 hd2 h6 =>
    have h3' : Same n3 n2 ∧ n3.offlineIndex = n2.offlineIndex := by
      unfold nextElevation at h4
      obtain ⟨_, _, h4⟩ := bind_eq_ok h4
      cases h4
      exact ⟨⟨rfl, rfl, rfl, rfl, rfl, rfl, rfl⟩, rfl⟩
    obtain ⟨st, hst, rfl⟩ := updateState_eq h6
    subst hd2
    refine ⟨n1, n2, v, h1, h2, h3, ⟨n3, h3'.1, h3'.2, ?_⟩, ?_, ?_, nofun⟩
    · simp only [refreshed]
      split
      · exact Or.inr rfl
      · exact Or.inl rfl
    · simp only [refreshed]
      split <;> rfl
    · simp only [refreshed]
      split <;> rfl

/-- One round: a lap is completed, or the device is online and its measure decreases, or it is offline and stays where it
is for one round less. -/
theorem one_round {Step Cnt Len : F → Prop} {μ : F → F → Nat} (hc : Counts Step Cnt Len μ)
    (hten : ((lit (1 / 10) : F) ==. lit (1 / 10)) = true) {d d' : Device F} {tick : F} {rnd : NextRnd F} {b : Bool}
    (hg : Good Cnt Len d.navigator)
    (hs : ∀ v, d.speed.next (d.phase (d.seconds tick)) = .ok v → Step (d.seconds tick *. v.value))
    (h : d.next tick rnd = .ok (d', b)) :
    Good Cnt Len d'.navigator ∧ ∃ n1, d.powered (d.seconds tick) rnd.low = .ok n1 ∧
      ((InLastTrack d.navigator ∧ AtStart d'.navigator ∧ d'.state.duration = lit 0) ∨
        (n1.nextOffline.2 = false ∧ Less4 (meas4 μ d'.navigator) (meas4 μ d.navigator)) ∨
        (n1.nextOffline.2 = true ∧ meas4 μ d'.navigator = meas4 μ d.navigator ∧
          d'.navigator.offlineIndex = n1.offlineIndex - 1)) := by
  obtain ⟨n1, n2, v, h1, h2, h3, ⟨m, hm, hoi, hd⟩, -, -, hdur⟩ := round_parts hg.routes h
  have s1 := powered_same h1
  have g1 := s1.good hg
  have goodm : Good Cnt Len m → Good Cnt Len d'.navigator := fun g => by
    rcases hd with e | e <;> rw [e]
    · exact g
    · exact touch_good g
  have measm : meas4 μ d'.navigator = meas4 μ n2 := by
    rw [← hm.meas μ]
    rcases hd with e | e <;> rw [e]
    exact touch_meas μ m
  have startm : AtStart m → AtStart d'.navigator := fun g => by
    rcases hd with e | e <;> rw [e] <;> exact g
  have offm : d'.navigator.offlineIndex = m.offlineIndex := by
    rcases hd with e | e <;> rw [e]; rfl
  cases hoff : n1.nextOffline.2 with
  | true =>
    rw [nextLocation_offline n1 _ _ _ g1.routes hoff] at h3
    cases h3
    refine ⟨goodm (hm.good ⟨g1.1, g1.2, g1.3, g1.4, g1.5⟩), n1, h1, Or.inr (Or.inr ⟨hoff, ?_, offm.trans hoi⟩)⟩
    rw [measm, ← s1.meas μ]
    rfl
  | false =>
    obtain ⟨n', b', e, g2, ho⟩ := online_call (μ := μ) hc.zero n1 g1 (d.seconds tick) v.value rnd.loc hoff
      (fun c h => hc.add c _ h (hs v h2)) (fun hf => hc.less _ _ _ (cur_len g1.len hf.1) g1.cnt (hs v h2) hf.2)
    rw [h3] at e
    cases e
    refine ⟨goodm (hm.good g2), n1, h1, ?_⟩
    rcases ho with ⟨o1, o2, o3, o4⟩ | o
    · subst o3
      have hf : n2.isFinish.2 = true := by
        unfold isFinish
        rw [o2.1, o2.2.1, o2.2.2, o4, hten]
        rfl
      exact Or.inl ⟨s1.symm.last o1, startm (hm.start o2), hdur rfl hf⟩
    · right; left
      refine ⟨hoff, ?_⟩
      rw [measm, ← s1.meas μ]
      exact o

/-! ## For ever -/

/-- **C97 (any number type).** A device whose steps are of a countable kind, and for which a rank `ω` decreases in every
offline round after the first, completes laps for ever. `I k` is what is known about the device after `k` rounds. -/
theorem laps {Step Cnt Len : F → Prop} {μ : F → F → Nat} (hc : Counts Step Cnt Len μ)
    (hten : ((lit (1 / 10) : F) ==. lit (1 / 10)) = true) (d : Device F) (start : Int) (t : Nat → Int)
    (x : Nat → NextRnd F) (ω : Device F → Nat) (I : Nat → Device F → Prop) (h0 : I 0 d) (hg : Good Cnt Len d.navigator)
    (hsafe : C54.DSafe d)
    (hI : ∀ k e e' b, I k e → Good Cnt Len e.navigator →
      e.next (tickOf (before start t k) (t k)) (x k) = .ok (e', b) → I (k + 1) e')
    (hstep : ∀ k e v, I k e → e.navigator.routes ≠ [] →
      e.speed.next (e.phase (e.seconds (tickOf (before start t k) (t k)))) = .ok v →
      Step (e.seconds (tickOf (before start t k) (t k)) *. v.value))
    (hoff : ∀ k e e' b n1, 1 ≤ k → I k e → Good Cnt Len e.navigator →
      e.next (tickOf (before start t k) (t k)) (x k) = .ok (e', b) →
      e.powered (e.seconds (tickOf (before start t k) (t k))) (x k).low = .ok n1 → n1.nextOffline.2 = true →
      e'.navigator.offlineIndex = n1.offlineIndex - 1 → ω e' < ω e) :
    Forever d start t x := by
  have hall : ∀ k, ∃ e, driveDevice d start (rounds t x k) = .ok e ∧ I k e ∧ Good Cnt Len e.navigator ∧ C54.DSafe e := by
    intro k
    induction k with
    | zero => exact ⟨d, rfl, h0, hg, hsafe⟩
    | succ k ih =>
      obtain ⟨e, h1, h2, h3, h4⟩ := ih
      obtain ⟨e', b, h5, h6⟩ := C54.next_safe h4 (tickOf (before start t k) (t k)) (x k)
      refine ⟨e', ?_, hI k e e' b h2 h3 h5, (one_round hc hten h3 (fun v => hstep k e v h2 h3.routes) h5).1, h6⟩
      rw [drive_succ h1, h5]
      rfl
  have key : ∀ m k e, m = ((meas4 μ e.navigator).1, (meas4 μ e.navigator).2.1, (meas4 μ e.navigator).2.2.1,
      (meas4 μ e.navigator).2.2.2, ω e) → driveDevice d start (rounds t x k) = .ok e → I k e →
      Good Cnt Len e.navigator → 1 ≤ k → ∃ k', k ≤ k' ∧ Lap d start t x k' := by
    intro m
    induction m using less_wf.induction with
    | _ m ih =>
      intro k e hm h1 h2 h3 hk1
      subst hm
      obtain ⟨e', h1', h2', h3', -⟩ := hall (k + 1)
      have hd := h1'
      rw [drive_succ h1] at hd
      obtain ⟨⟨e'', b⟩, hn, hee⟩ := map_eq_ok hd
      simp only at hee
      subst hee
      obtain ⟨-, n1, hp, ho⟩ := one_round hc hten h3 (fun v => hstep k e v h2 h3.routes) hn
      rcases ho with ⟨o1, o2, o3⟩ | ⟨-, o⟩ | ⟨o1, o2, o3⟩
      · exact ⟨k, Nat.le_refl k, e, _, h1, h1', o1, o2, o3⟩
      · obtain ⟨k', hk, hl⟩ := ih _ (less_of_less4 o _ _) (k + 1) _ rfl h1' h2' h3' (Nat.le_add_left 1 k)
        exact ⟨k', Nat.le_of_succ_le hk, hl⟩
      · obtain ⟨k', hk, hl⟩ := ih _ (by
          rw [o2]
          exact Prod.Lex.right _ (Prod.Lex.right _ (Prod.Lex.right _ (Prod.Lex.right _
            (hoff k e _ b n1 hk1 h2 h3 hn hp o1 o3))))) (k + 1) _ rfl h1' h2' h3' (Nat.le_add_left 1 k)
        exact ⟨k', Nat.le_of_succ_le hk, hl⟩
  intro K
  obtain ⟨e, h1, h2, h3, -⟩ := hall (K + 1)
  obtain ⟨k, hk, hl⟩ := key _ (K + 1) e rfl h1 h2 h3 (Nat.le_add_left 1 K)
  exact ⟨k, Nat.le_of_succ_le hk, hl⟩

/-- A device with offline mode disabled is never offline. -/
theorem skip_online {e e' : Device F} {tick : F} {rnd : NextRnd F} {b : Bool} (hr : e.navigator.routes ≠ [])
    (hk : e.navigator.skipOffline = true) (h : e.next tick rnd = .ok (e', b)) :
    e'.navigator.skipOffline = true ∧ ∀ n1, e.powered (e.seconds tick) rnd.low = .ok n1 → n1.nextOffline.2 = false := by
  obtain ⟨n1, n2, v, h1, h2, h3, ⟨m, hm, -, hd⟩, -, -, -⟩ := round_parts hr h
  refine ⟨?_, fun n1 h => ?_⟩
  · have : m.skipOffline = true := by rw [hm.skip, (location_settings h3).1, (powered_same h1).skip]; exact hk
    rcases hd with e | e <;> rw [e] <;> exact this
  · rw [nextOffline_eq, (powered_same h).skip, hk]
    simp

/-- **C97, offline mode disabled (any number type).** -/
theorem laps_skip {Step Cnt Len : F → Prop} {μ : F → F → Nat} (hc : Counts Step Cnt Len μ)
    (hten : ((lit (1 / 10) : F) ==. lit (1 / 10)) = true) (d : Device F) (start : Int) (t : Nat → Int)
    (x : Nat → NextRnd F) (I : Nat → Device F → Prop) (h0 : I 0 d) (hg : Good Cnt Len d.navigator)
    (hsafe : C54.DSafe d) (hk : d.navigator.skipOffline = true)
    (hI : ∀ k e e' b, I k e → e.navigator.routes ≠ [] →
      e.next (tickOf (before start t k) (t k)) (x k) = .ok (e', b) → I (k + 1) e')
    (hstep : ∀ k e v, I k e → e.navigator.routes ≠ [] →
      e.speed.next (e.phase (e.seconds (tickOf (before start t k) (t k)))) = .ok v →
      Step (e.seconds (tickOf (before start t k) (t k)) *. v.value)) :
    Forever d start t x := by
  refine laps hc hten d start t x (fun _ => 0) (fun k e => I k e ∧ e.navigator.skipOffline = true) ⟨h0, hk⟩ hg hsafe
    (fun k e e' b hi hg h => ⟨hI k e e' b hi.1 hg.routes h, (skip_online hg.routes hi.2 h).1⟩)
    (fun k e v hi => hstep k e v hi.1) (fun k e e' b n1 _ hi hg h hp ho => ?_)
  rw [(skip_online hg.routes hi.2 h).2 n1 hp] at ho
  cases ho

end

/-! ## A concrete case -/

section
open Toy

/-- The toy device on its route, driven for `k` rounds that are 1000000 seconds apart. -/
def demoAfter (k : Nat) : Option (Device Toy) :=
  (Toy.dev [.addRoute [some Toy.route]]).bind fun d =>
    (driveDevice d 0 (rounds (fun k => 1000000000000000 * (k + 1)) (fun _ => Toy.nextRnd) k)).toOption

/-- Where the device is, and the time of its lap. -/
def demoAt (k : Nat) : Option (Int × Int × Int × Rat) :=
  (demoAfter k).map fun d => (d.navigator.routeIndex, d.navigator.trackIndex, d.navigator.segmentIndex, d.state.duration)

/-- Laps are completed in the third and in the sixth round. -/
example : (List.range 7).map demoAt =
    [some (0, 0, 0, 0), some (0, 0, 0, 1000000), some (0, 0, 1, 2000000), some (0, 0, 0, 0), some (0, 0, 0, 1000000),
     some (0, 0, 1, 2000000), some (0, 0, 0, 0)] := by decide +kernel

end

end C97
end GpsGen
