import Verif.Lemmas.DeviceRound
import Verif.Theorems.C09
import Verif.Theorems.C20
import Verif.Theorems.C73
/-!
# Helper lemmas: devices that differ only in what `Next` overwrites
-/

namespace GpsGen
variable {F : Type}

namespace Overlay
open Device Navigator

section
variable [GoMath F]

omit [GoMath F] in
theorem bind_of_ok {α β : Type} {x : Go α} {a : α} (h : x = .ok a) (f : α → Go β) : (x >>= f) = f a := by
  subst h; rfl

/-- The outcomes determine `Next`. -/
theorem next_of {d d' : Device F} {tick : F} {rnd : NextRnd F} {b : Bool} (h : NextOutcome d tick rnd d' b) :
    d.next tick rnd = .ok (d', b) := by
  have hlen : d.navigator.routes ≠ [] → ¬ d.navigator.routes.length = 0 :=
    fun h hc => h (List.length_eq_zero_iff.mp hc)
  have hdrain : ∀ {n1}, d.powered (d.seconds tick) rnd.low = .ok n1 →
      ({ d with tick := 0
                state := { d.state with duration := d.state.duration +. d.seconds tick,
                                        tick := d.seconds tick } } : Device F).drain (d.seconds tick) rnd.low =
        .ok { d with tick := 0, battery := d.drained (d.seconds tick), navigator := n1
                     state := { d.state with duration := d.state.duration +. d.seconds tick,
                                             tick := d.seconds tick } } := by
    intro n1 h1
    unfold powered at h1
    unfold drain drained
    simp only
    split
    · rename_i hb
      rw [if_pos hb] at h1
      rw [h1]; rfl
    · rename_i hb
      rw [if_neg hb] at h1
      cases h1; rfl
  cases h with
  | idle hr => unfold next; rw [if_pos (List.length_eq_zero_iff.mpr hr)]
  | halted hr n1 n2 speed h1 h2 h3 h4 =>
    unfold next
    rw [if_neg (hlen hr)]
    refine (bind_of_ok (hdrain h1) _).trans ?_
    refine (bind_of_ok h2 _).trans ?_
    refine (bind_of_ok h3 _).trans ?_
    have hh : (d.advanced (d.seconds tick) speed n2).halt rnd =
        .ok { (d.advanced (d.seconds tick) speed n2).updateOfflineState with navigator := n2.isFinish.1 } := by
      unfold halt
      exact if_neg (by rw [show ∀ e : Device F, e.updateOfflineState.navigator = e.navigator from fun _ => rfl]
                       show ¬ n2.isFinish.2 = true
                       rw [h4]; simp)
    exact bind_of_ok hh _
  | lap hr n1 n2 speed d' h1 h2 h3 h4 h5 =>
    unfold next
    rw [if_neg (hlen hr)]
    refine (bind_of_ok (hdrain h1) _).trans ?_
    refine (bind_of_ok h2 _).trans ?_
    refine (bind_of_ok h3 _).trans ?_
    have hh : (d.advanced (d.seconds tick) speed n2).halt rnd = .ok d' := by
      unfold halt
      exact (if_pos h4).trans h5
    exact bind_of_ok hh _
  | moved hr n1 n2 n3 speed sensors d2 d' h1 h2 h3 h4 h5 hd2 h6 =>
    unfold next
    rw [if_neg (hlen hr)]
    refine (bind_of_ok (hdrain h1) _).trans ?_
    refine (bind_of_ok h2 _).trans ?_
    refine (bind_of_ok h3 _).trans ?_
    subst hd2
    have hh : (d.advanced (d.seconds tick) speed n2).proceed (d.phase (d.seconds tick)) = .ok d' := by
      unfold proceed
      refine (bind_of_ok h4 _).trans ?_
      refine (bind_of_ok h5 _).trans ?_
      exact h6
    exact bind_of_ok hh _

end

/-! ## What is not overwritten -/

/-- The names of published sensors. -/
def sensorNames (s : DevState F) : List (String × String) := s.sensors.map fun p => (p.id, p.name)

/-- The published states agree in what `updateState` does not write. -/
structure SameCore (a b : DevState F) : Prop where
  id : b.id = a.id
  userId : b.userId = a.userId
  tick : b.tick = a.tick
  duration : b.duration = a.duration
  model : b.model = a.model
  speed : b.speed = a.speed
  routes : b.routes = a.routes
  description : b.description = a.description
  color : b.color = a.color
  names : sensorNames b = sensorNames a

theorem SameCore.refl (a : DevState F) : SameCore a a := ⟨rfl, rfl, rfl, rfl, rfl, rfl, rfl, rfl, rfl, rfl⟩

/-- Devices that differ only in the part of their published state that `updateState` writes. -/
def CoreAlike (d e : Device F) : Prop := ∃ s, SameCore d.state s ∧ e = { d with state := s }

theorem CoreAlike.refl (d : Device F) : CoreAlike d d := ⟨d.state, .refl _, rfl⟩

section
variable [GoMath F]

omit [GoMath F] in
theorem pubSensors_names {a b : List (SensorPub F)} (ss : List (Sensor F))
    (h : b.map (fun p => (p.id, p.name)) = a.map (fun p => (p.id, p.name))) : pubSensors b ss = pubSensors a ss := by
  have hl : b.length = a.length := by simpa using congrArg List.length h
  unfold pubSensors
  rw [hl]
  split
  · rfl
  · induction a generalizing b ss with
    | nil =>
      cases b with
      | nil => rfl
      | cons _ _ => cases hl
    | cons x a ih =>
      cases b with
      | nil => cases hl
      | cons y b =>
        cases ss with
        | nil => rfl
        | cons s ss =>
          simp only [List.map_cons, List.cons.injEq, Prod.mk.injEq] at h
          simp only [List.zipWith_cons_cons, h.1.1, h.1.2]
          rw [ih ss h.2 (by simpa using hl) (by simp only [List.length_cons] at *; omega)]

/-- What the navigator publishes does not depend on the previous state, but for the ids without a current route or
track. -/
theorem update_any {n : Navigator F} {s s' : DevState F} (h : n.update s = .ok s') (t : DevState F) :
    ∃ v, n.update t = .ok { t with
      dist := s'.dist, nav := v, loc := s'.loc, isOffline := s'.isOffline, offlineDuration := s'.offlineDuration } := by
  unfold Navigator.update at h ⊢
  obtain ⟨a1, h1, h⟩ := bind_eq_ok h
  obtain ⟨a2, h2, h⟩ := bind_eq_ok h
  obtain ⟨a3, h3, h⟩ := bind_eq_ok h
  obtain ⟨a4, h4, h⟩ := bind_eq_ok h
  obtain ⟨a5, h5, h⟩ := bind_eq_ok h
  obtain ⟨a6, h6, h⟩ := bind_eq_ok h
  rw [h1, h2, h3, h4, h5, h6]
  cases h
  exact ⟨_, rfl⟩

/-- `updateState` on devices with the same core. -/
theorem updateState_core {d d' : Device F} {s : DevState F} (hc : SameCore d.state s) (h : d.updateState = .ok d') :
    ∃ s', SameCore d'.state s' ∧ ({ d with state := s } : Device F).updateState = .ok { d' with state := s' } ∧
      (d.navigator.currentRoute ≠ .ok none → d.navigator.currentTrack ≠ .ok none → s' = d'.state) := by
  obtain ⟨st, h1, rfl⟩ := updateState_eq h
  obtain ⟨f1, f2, f3, f4, f5, f6, f7, f8, f9, f10⟩ := nav_update_frame h1
  obtain ⟨v, hv⟩ := update_any h1 s
  have key := updateState_of (d := { d with state := s }) hv
  have hsens : pubSensors s.sensors d.sensors = pubSensors st.sensors d.sensors :=
    pubSensors_names _ (by rw [f8]; exact hc.names)
  refine ⟨_, ?_, key, ?_⟩
  · refine ⟨?_, ?_, ?_, ?_, ?_, ?_, ?_, ?_, ?_, ?_⟩
    · exact hc.id.trans f1.symm
    · exact hc.userId.trans f2.symm
    · exact hc.tick.trans f3.symm
    · exact hc.duration.trans f4.symm
    · exact hc.model.trans f5.symm
    · exact hc.speed.trans f6.symm
    · exact hc.routes.trans f7.symm
    · exact hc.description.trans f9.symm
    · exact hc.color.trans f10.symm
    · exact congrArg (List.map fun p => (p.id, p.name)) hsens
  · intro g1 g2
    have := update_agree h1 s (fun h => absurd h g1) (fun h => absurd h g2)
    rw [hv] at this
    have hnav : v = st.nav := congrArg DevState.nav (Except.ok.inj this)
    subst hnav
    simp only [refreshed, DevState.mk.injEq, true_and]
    exact ⟨hc.id.trans f1.symm, hc.userId.trans f2.symm, hc.tick.trans f3.symm, hc.duration.trans f4.symm,
      hc.model.trans f5.symm, hc.speed.trans f6.symm, hc.routes.trans f7.symm, hsens,
      hc.description.trans f9.symm, hc.color.trans f10.symm, by
        show st.dist.distance /. s.speed = st.dist.distance /. st.speed
        rw [hc.speed, f6]⟩

/-- After a successful step there is a current route and a current track. -/
theorem landed_current {n n' : Navigator F} {t v : F} {x : UInt32} (h : n.nextLocation t v x = .ok (n', true)) :
    n'.currentRoute ≠ .ok none ∧ n'.currentTrack ≠ .ok none := by
  obtain ⟨s, ⟨r, tr, h1, h2, h3, h4, -⟩, -⟩ := C09.position_within_segment n n' t v x h
  have hr : n'.currentRoute = .ok (some r) := by
    have hi : n'.IndexOk := by
      right
      obtain ⟨hlt, -⟩ := List.getElem?_eq_some_iff.mp h2
      omega
    rw [currentRoute_eq _ hi]
    unfold route?
    rw [goAt?_eq_some.mpr ⟨h1, h2⟩]
  refine ⟨by rw [hr]; simp, ?_⟩
  unfold currentTrack
  rw [hr]
  simp only [ok_bind]
  rw [show r.trackAt n'.trackIndex = some tr from goAt?_eq_some.mpr ⟨h3, h4⟩]
  simp [pure_eq_ok]

theorem elevation_current {n n' : Navigator F} {t : F} (h : n.nextElevation t = .ok n') :
    n'.currentRoute = n.currentRoute ∧ n'.currentTrack = n.currentTrack ∧ n'.routes = n.routes ∧
    n'.distance = n.distance ∧ n'.version = n.version := by
  unfold nextElevation at h
  obtain ⟨_, _, h⟩ := bind_eq_ok h
  cases h
  exact ⟨rfl, rfl, rfl, rfl, rfl⟩

theorem refresh_core {X Y d' : Device F} (a1 : SameCore X.state Y.state) (a2 : Y = { X with state := Y.state })
    (c1 : X.navigator.currentRoute ≠ .ok none) (c2 : X.navigator.currentTrack ≠ .ok none)
    (h : (if X.navigator.sum ≠ X.ns then X.updateRoutes else X).updateState = .ok d') :
    (if Y.navigator.sum ≠ Y.ns then Y.updateRoutes else Y).updateState = .ok d' := by
  have fin : ∀ (X Y : Device F), SameCore X.state Y.state → Y = { X with state := Y.state } →
      X.navigator.currentRoute ≠ .ok none → X.navigator.currentTrack ≠ .ok none → X.updateState = .ok d' →
      Y.updateState = .ok d' := by
    intro X Y a1 a2 a3 a4 a5
    obtain ⟨s', -, k2, k3⟩ := updateState_core a1 a5
    rw [a2, k2, k3 a3 a4]
  have e1 : Y.navigator = X.navigator := by rw [a2]
  have e2 : Y.ns = X.ns := by rw [a2]
  rw [e1, e2]
  split at h
  · rename_i hsum
    rw [if_pos hsum]
    refine fin _ _ ?_ ?_ ?_ ?_ h
    · refine ⟨a1.id, a1.userId, a1.tick, a1.duration, a1.model, a1.speed, ?_, a1.description, a1.color, a1.names⟩
      show Y.navigator.routes.map pubRoute = _
      rw [e1]; rfl
    · rw [a2]; rfl
    · show (touched X.navigator).currentRoute ≠ _
      rw [currentRoute_touched]
      intro hc
      obtain ⟨a, ha, hb⟩ := map_eq_ok hc
      cases a with
      | none => exact c1 ha
      | some _ => cases hb
    · show (touched X.navigator).currentTrack ≠ _
      rw [currentTrack_touched]
      intro hc
      obtain ⟨a, ha, hb⟩ := map_eq_ok hc
      cases a with
      | none => exact c2 ha
      | some _ => cases hb
  · rename_i hsum
    rw [if_neg hsum]
    exact fin _ _ a1 a2 c1 c2 h

/-- **One round.** Devices with the same core answer alike and keep the same core; after a round in which they move they
are equal. -/
theorem next_core {d e d' : Device F} {tick : F} {rnd : NextRnd F} {b : Bool} (hc : CoreAlike d e)
    (h : d.next tick rnd = .ok (d', b)) :
    ∃ e', e.next tick rnd = .ok (e', b) ∧ CoreAlike d' e' ∧ (b = true → e' = d') := by
  obtain ⟨s, hs, rfl⟩ := hc
  have hphase : ∀ x, ({ d with state := s } : Device F).phase x = d.phase x := fun x => by
    unfold phase; simp only [hs.duration]
  cases next_outcome h with
  | idle hr => exact ⟨_, next_of (.idle hr), ⟨s, hs, rfl⟩, nofun⟩
  | halted hr n1 n2 speed h1 h2 h3 h4 =>
    refine ⟨_, next_of (.halted (d := { d with state := s }) hr n1 n2 speed h1 ((hphase _).symm ▸ h2) h3 h4), ?_, nofun⟩
    refine ⟨_, ?_, rfl⟩
    exact ⟨hs.id, hs.userId, rfl, congrArg (· +. d.seconds tick) hs.duration, hs.model, rfl, hs.routes,
      hs.description, hs.color, hs.names⟩
  | lap hr n1 n2 speed d' h1 h2 h3 h4 h5 =>
    have hs' : SameCore ((d.advanced (d.seconds tick) speed n2).lapped n2.isFinish.1 rnd).state
        ((({ d with state := s } : Device F).advanced (d.seconds tick) speed n2).lapped n2.isFinish.1 rnd).state :=
      ⟨hs.id, hs.userId, rfl, rfl, hs.model, rfl, hs.routes, hs.description, hs.color, hs.names⟩
    obtain ⟨s', k1, k2, -⟩ := updateState_core hs' h5
    exact ⟨_, next_of (.lap (d := { d with state := s }) hr n1 n2 speed _ h1 ((hphase _).symm ▸ h2) h3 h4 k2),
      ⟨s', k1, rfl⟩, nofun⟩
  | moved hr n1 n2 n3 speed sensors d2 d' h1 h2 h3 h4 h5 hd2 h6 =>
    obtain ⟨c1, c2⟩ := landed_current h3
    obtain ⟨q1, q2, -⟩ := elevation_current h4
    rw [← q1] at c1
    rw [← q2] at c2
    subst hd2
    have hs2 : SameCore ({ d.advanced (d.seconds tick) speed n3 with sensors := sensors } : Device F).state
        ({ ({ d with state := s } : Device F).advanced (d.seconds tick) speed n3 with sensors := sensors } : Device F).state :=
      ⟨hs.id, hs.userId, rfl, congrArg (· +. d.seconds tick) hs.duration, hs.model, rfl, hs.routes,
        hs.description, hs.color, hs.names⟩
    have key := refresh_core hs2 rfl c1 c2 h6
    exact ⟨_, next_of (.moved (d := { d with state := s }) hr n1 n2 n3 speed sensors _ d' h1 ((hphase _).symm ▸ h2) h3
      ((hphase _).symm ▸ h4) ((hphase _).symm ▸ h5) rfl key), .refl _, fun _ => rfl⟩

end

/-! ## Devices whose derived state is up to date -/

/-- Nothing is left for `updateRoutes` to do, and the published sensors are those of the device. -/
structure Tidy [GoFloat F] (d : Device F) : Prop where
  routes : d.updateRoutes = d
  names : sensorNames d.state = d.sensors.map fun s => (s.id, s.name)

section
variable [GoMath F]

theorem updateRoutes_idem (d : Device F) : d.updateRoutes.updateRoutes = d.updateRoutes := by
  have w1 : (d.navigator.routes.map touchRoute).map pubRoute = d.navigator.routes.map pubRoute := by
    rw [List.map_map]
    exact List.map_congr_left (fun r _ => pubRoute_touch r)
  have w2 := touched_idem d.navigator
  unfold updateRoutes calcAvgT
  simp only [Device.mk.injEq, DevState.mk.injEq, true_and, and_true]
  exact ⟨w2, w1, (congrArg Navigator.sum w2 :)⟩

theorem tidy_routes {d : Device F} (h : d.updateRoutes = d) :
    d.state.routes = d.navigator.routes.map pubRoute ∧ d.navigator.routes.map touchRoute = d.navigator.routes ∧
    d.avgT = d.navigator.distance /. ((d.speed.min +. d.speed.max) /. lit 2) ∧ d.ns = d.navigator.sum := by
  have e1 := congrArg (fun x => x.state.routes) h
  have e2 := congrArg (fun x => x.navigator.routes) h
  have e3 := congrArg Device.avgT h
  have e4 := congrArg Device.ns h
  refine ⟨e1.symm, e2, e3.symm, ?_⟩
  rw [← C20.touch_sum d.navigator]
  exact e4.symm

theorem routes_tidy {d : Device F} (h1 : d.state.routes = d.navigator.routes.map pubRoute)
    (h2 : d.navigator.routes.map touchRoute = d.navigator.routes)
    (h3 : d.avgT = d.navigator.distance /. ((d.speed.min +. d.speed.max) /. lit 2)) (h4 : d.ns = d.navigator.sum) :
    d.updateRoutes = d := by
  unfold updateRoutes calcAvgT
  simp only [h2, ← h1, ← h3, ← h4]

theorem updateRoutes_of_same {d d' : Device F} (h : d.updateRoutes = d) (h1 : d'.navigator.routes = d.navigator.routes)
    (h2 : d'.navigator.distance = d.navigator.distance) (h3 : d'.navigator.version = d.navigator.version)
    (h4 : d'.speed.min = d.speed.min ∧ d'.speed.max = d.speed.max) (h5 : d'.state.routes = d.state.routes)
    (h6 : d'.avgT = d.avgT) (h7 : d'.ns = d.ns) : d'.updateRoutes = d' := by
  obtain ⟨t1, t2, t3, t4⟩ := tidy_routes h
  refine routes_tidy (by rw [h5, h1, t1]) (by rw [h1, t2]) (by rw [h6, h2, h4.1, h4.2, t3]) ?_
  rw [h7, t4, C73.sum_of_routes h1 h3]

theorem speed_next_bounds {s s' : Speed F} {x : F} (h : s.next x = .ok s') : s'.min = s.min ∧ s'.max = s.max := by
  unfold Speed.next at h
  split at h
  · cases h; exact ⟨rfl, rfl⟩
  · obtain ⟨y, _, h⟩ := bind_eq_ok h
    cases h; exact ⟨rfl, rfl⟩

theorem powered_same {d : Device F} {s : F} {x : UInt32} {n : Navigator F} (h : d.powered s x = .ok n) :
    n.routes = d.navigator.routes ∧ n.distance = d.navigator.distance ∧ n.version = d.navigator.version := by
  rcases powered_step h with rfl | h
  · exact ⟨rfl, rfl, rfl⟩
  · rcases toOffline_cases h with ⟨-, rfl⟩ | ⟨-, _, -, rfl⟩ <;> exact ⟨rfl, rfl, rfl⟩

omit [GoMath F] in
theorem pubSensors_named (old : List (SensorPub F)) (ss : List (Sensor F))
    (h : old.map (fun p => (p.id, p.name)) = ss.map fun s => (s.id, s.name)) :
    (pubSensors old ss).map (fun p => (p.id, p.name)) = ss.map fun s => (s.id, s.name) := by
  unfold pubSensors
  split
  · rw [List.map_map]; rfl
  · clear * - h
    induction ss generalizing old with
    | nil =>
      cases old with
      | nil => rfl
      | cons _ _ => cases h
    | cons s ss ih =>
      cases old with
      | nil => cases h
      | cons p old =>
        simp only [List.map_cons, List.cons.injEq] at h
        simp only [List.zipWith_cons_cons, List.map_cons, ih old h.2, List.cons.injEq, and_true]
        exact h.1

theorem sensor_next_names {ss ss' : List (Sensor F)} {x : F} (h : ss.mapM (fun s => s.next x) = .ok ss') :
    (ss'.map fun s => (s.id, s.name)) = ss.map fun s => (s.id, s.name) := by
  induction ss generalizing ss' with
  | nil => cases h; rfl
  | cons s ss ih =>
    rw [List.mapM_cons] at h
    obtain ⟨a, h1, h⟩ := bind_eq_ok h
    obtain ⟨l, h2, h⟩ := bind_eq_ok h
    cases h
    rw [List.map_cons, List.map_cons, ih h2]
    have : a.id = s.id ∧ a.name = s.name := by
      unfold Sensor.next at h1
      obtain ⟨_, _, h1⟩ := bind_eq_ok h1
      cases h1
      exact ⟨rfl, rfl⟩
    rw [this.1, this.2]

theorem shuffle_names (ss : List (Sensor F)) (draws : Nat → Nat → F) :
    ((shuffleSensors ss draws).map fun s => (s.id, s.name)) = ss.map fun s => (s.id, s.name) := by
  unfold shuffleSensors
  apply List.ext_getElem?
  intro i
  simp only [List.getElem?_map, List.getElem?_mapIdx, Option.map_map]
  cases ss[i]? <;> rfl

/-- `Next` keeps devices up to date. -/
theorem next_tidy {d d' : Device F} {tick : F} {rnd : NextRnd F} {b : Bool} (ht : Tidy d)
    (h : d.next tick rnd = .ok (d', b)) : Tidy d' := by
  cases next_outcome h with
  | idle hr => exact ht
  | halted hr n1 n2 speed h1 h2 h3 h4 =>
    obtain ⟨a1, a2, a3⟩ := powered_same h1
    obtain ⟨b1, b2, b3, -⟩ := nextLocation_routes h3
    have hf : n2.isFinish.1.routes = n2.routes ∧ n2.isFinish.1.distance = n2.distance ∧
        n2.isFinish.1.version = n2.version := by unfold isFinish; split <;> exact ⟨rfl, rfl, rfl⟩
    exact ⟨updateRoutes_of_same ht.routes (hf.1.trans (b1.trans a1)) (hf.2.1.trans (b2.trans a2))
      (hf.2.2.trans (b3.trans a3)) (speed_next_bounds h2) rfl rfl rfl, ht.names⟩
  | lap hr n1 n2 speed d' h1 h2 h3 h4 h5 =>
    obtain ⟨a1, a2, a3⟩ := powered_same h1
    obtain ⟨b1, b2, b3, -⟩ := nextLocation_routes h3
    have hf : n2.isFinish.1.routes = n2.routes ∧ n2.isFinish.1.distance = n2.distance ∧
        n2.isFinish.1.version = n2.version := by unfold isFinish; split <;> exact ⟨rfl, rfl, rfl⟩
    have hsh : (speed.shuffle rnd.speed).min = d.speed.min ∧ (speed.shuffle rnd.speed).max = d.speed.max :=
      (speed_next_bounds h2 :)
    obtain ⟨st, h6, rfl⟩ := updateState_eq h5
    obtain ⟨-, -, -, -, -, -, f7, f8, -, -⟩ := nav_update_frame h6
    refine ⟨updateRoutes_of_same ht.routes (hf.1.trans (b1.trans a1)) (hf.2.1.trans (b2.trans a2))
      (hf.2.2.trans (b3.trans a3)) hsh f7 rfl rfl, ?_⟩
    refine pubSensors_named _ _ ?_
    rw [f8]
    exact ht.names.trans (shuffle_names d.sensors rnd.sensor).symm
  | moved hr n1 n2 n3 speed sensors d2 d' h1 h2 h3 h4 h5 hd2 h6 =>
    obtain ⟨a1, a2, a3⟩ := powered_same h1
    obtain ⟨b1, b2, b3, -⟩ := nextLocation_routes h3
    obtain ⟨-, -, c1, c2, c3⟩ := elevation_current h4
    obtain ⟨-, -, -, t4⟩ := tidy_routes ht.routes
    have hsum : ¬ (d2.navigator.sum ≠ d2.ns) := by
      rw [hd2]
      show ¬ (n3.sum ≠ d.ns)
      rw [t4, not_not]
      exact C73.sum_of_routes (c1.trans (b1.trans a1)) (c3.trans (b3.trans a3))
    rw [if_neg hsum] at h6
    subst hd2
    obtain ⟨st, h7, rfl⟩ := updateState_eq h6
    obtain ⟨-, -, -, -, -, -, f7, f8, -, -⟩ := nav_update_frame h7
    refine ⟨updateRoutes_of_same ht.routes (c1.trans (b1.trans a1)) (c2.trans (b2.trans a2))
      (c3.trans (b3.trans a3)) (speed_next_bounds h2) f7 rfl rfl, ?_⟩
    refine pubSensors_named _ _ ?_
    rw [f8]
    exact ht.names.trans (sensor_next_names h5).symm

/-- `Update` on an up-to-date device changes only what `Next` overwrites. -/
theorem update_core {d e : Device F} (ht : Tidy d) (h : d.update = .ok e) : CoreAlike d e := by
  obtain ⟨st, h1, rfl⟩ := update_eq h
  obtain ⟨f1, f2, f3, f4, f5, f6, f7, f8, f9, f10⟩ := nav_update_frame h1
  obtain ⟨t1, t2, t3, t4⟩ := tidy_routes ht.routes
  have hnav : touched d.navigator = d.navigator := by unfold touched; rw [t2]
  refine ⟨((d.refreshed st).updateRoutes.updateSensors).state, ?_, ?_⟩
  · refine ⟨f1, f2, f3, f4, f5, f6, t1.symm, f9, f10, ?_⟩
    rw [ht.names]
    show ((d.sensors.map _).map _) = _
    rw [List.map_map]; rfl
  · show ({ d with
      navigator := touched d.navigator
      state := ((d.refreshed st).updateRoutes.updateSensors).state
      avgT := d.navigator.distance /. ((d.speed.min +. d.speed.max) /. lit 2)
      ns := (touched d.navigator).sum } : Device F) = _
    rw [hnav, ← t3, ← t4]

end
end Overlay
end GpsGen
