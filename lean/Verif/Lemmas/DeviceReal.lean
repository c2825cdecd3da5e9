import Verif.Lemmas.SensorReal
import Verif.Lemmas.WellFormed
import Verif.Lemmas.RoundTrip
import Verif.Theorems.C03
/-!
# Helper lemmas: an invariant of devices in exact arithmetic

`Reach d`: the device was created by `NewDevice` and driven through any public operations, with
routes and sensors built through the API, non-negative ticks, random draws in the unit interval and
routes of positive length. Restoring the snapshot of such a device is included.
-/

namespace GpsGen
open Navigator

namespace Navigator

theorem step_elevation {F : Type} [GoMath F] {n n' : Navigator F} {op : NavOp F} (h : n.step op = .ok n') :
    n'.elevation = n.elevation ∨ (∃ t, op = .nextElevation t) ∨ (∃ f, op = .shuffleElevation f) := by
  cases op with
  | addRoute rs =>
    cases h
    left
    unfold addRoute
    split
    · rfl
    · simp only; split <;> rfl
  | removeRoute id =>
    cases h
    left
    unfold removeRoute
    split
    · rfl
    · simp only; split <;> rfl
  | removeTrack rid tid =>
    cases h
    left
    unfold removeTrack
    split
    · rfl
    · split
      · rfl
      · simp only; split <;> rfl
  | resetRoutes =>
    cases h
    left
    unfold resetRoutes
    split <;> rfl
  | reset => cases h; exact Or.inl rfl
  | moveToSegment _ _ _ | moveToRoute _ | moveToTrack _ _ | moveToRouteByID _ | moveToTrackByID _ _
  | toNextRoute | toPrevRoute =>
    left
    rcases move_cases h trivial with rfl | ⟨_, _, _, _, h⟩
    · rfl
    · rcases moveToSegment_cases h with ⟨rfl, -⟩ | ⟨s, -, -, rfl, -⟩ <;> rfl
  | destinationTo m =>
    cases h
    obtain ⟨-, -, -, -, -, -, h1⟩ := destinationTo_offline n m
    exact Or.inl h1
  | toOffline x =>
    left
    rcases toOffline_cases h with ⟨-, rfl⟩ | ⟨_, _, _, rfl⟩ <;> rfl
  | nextLocation tick speed x =>
    obtain ⟨b, h⟩ := map_fst_ok h
    exact Or.inl (nextLocation_routes h).2.2.2
  | isFinish =>
    cases h
    left
    unfold isFinish
    split <;> rfl
  | nextElevation t => exact Or.inr (Or.inl ⟨t, rfl⟩)
  | shuffleElevation draws => exact Or.inr (Or.inr ⟨draws, rfl⟩)
  | onRoute i op => cases h; exact Or.inl rfl

end Navigator

/-- The navigator part of the invariant. -/
structure NavGood (n : Navigator ℝ) : Prop where
  wf : ∀ r ∈ n.routes, WFRoute r
  dist0 : 0 ≤ n.distance
  dist : n.routes ≠ [] → 0 < n.distance
  elev : GoodSensor n.elevation

/-- Every held route has positive length. -/
def Long (n : Navigator ℝ) : Prop := ∀ r ∈ n.routes, 0 < r.dist

/-- Which navigator operations are covered. -/
def SaneNav : NavOp ℝ → Prop
  | .addRoute rs => ∀ r, some r ∈ rs → WFRoute r
  | .onRoute _ (.addTrack (some t)) => WFTrack t
  | .shuffleElevation draws => UnitDraws draws
  | _ => True

theorem addLoop_wf (l : List (Route ℝ)) (k : Nat) (rs : List (Option (Route ℝ)))
    (hl : ∀ r ∈ l, WFRoute r) (hr : ∀ r, some r ∈ rs → WFRoute r) :
    ∀ r ∈ (addLoop l k rs).1, WFRoute r := by
  induction rs generalizing l k with
  | nil => exact hl
  | cons o rs ih =>
    have hr' : ∀ r, some r ∈ rs → WFRoute r := fun r h => hr r (List.mem_cons_of_mem _ h)
    cases o with
    | none => exact ih l k hl hr'
    | some q =>
      unfold addLoop
      split
      · exact ih _ _ hl hr'
      · refine ih _ _ ?_ hr'
        intro r h
        rcases List.mem_append.mp h with h | h
        · exact hl r h
        · rw [List.mem_singleton.mp h]; exact hr q List.mem_cons_self

theorem foldl_dist (l : List (Route ℝ)) (a : ℝ) :
    l.foldl (fun d r => d +. r.dist) a = a + (l.map (·.dist)).sum := by
  induction l generalizing a with
  | nil => simp
  | cons r l ih =>
    rw [List.foldl_cons, ih, List.map_cons, List.sum_cons, real_add]
    ring

theorem reset_good {n : Navigator ℝ} (hw : ∀ r ∈ n.routes, WFRoute r) (he : GoodSensor n.elevation)
    (hl : Long n) : NavGood n.reset := by
  have hd : n.reset.distance = (n.routes.map (·.dist)).sum := by
    show n.routes.foldl (fun d r => d +. r.dist) (lit 0) = _
    rw [foldl_dist]
    simp
  have hpos : ∀ l : List (Route ℝ), (∀ r ∈ l, 0 < r.dist) →
      0 ≤ (l.map (·.dist)).sum ∧ (l ≠ [] → 0 < (l.map (·.dist)).sum) := by
    intro l
    induction l with
    | nil => intro _; simp
    | cons a l ih =>
      intro h
      have h1 := (ih (fun r hr => h r (List.mem_cons_of_mem _ hr))).1
      have h2 := h a List.mem_cons_self
      simp only [List.map_cons, List.sum_cons]
      exact ⟨by linarith, fun _ => by linarith⟩
  obtain ⟨p1, p2⟩ := hpos n.routes hl
  exact ⟨hw, by rw [hd]; exact p1, fun hne => by rw [hd]; exact p2 hne, he⟩

theorem eraseP_ne_nil_of {α : Type} {p : α → Bool} {l : List α} (h : l.eraseP p ≠ []) : l ≠ [] := by
  intro hc; rw [hc] at h; exact h rfl

theorem nav_step_good {n n' : Navigator ℝ} {op : NavOp ℝ} (hg : NavGood n) (hs : SaneNav op)
    (hl : Long n') (h : n.step op = .ok n') : NavGood n' := by
  have moving : Moving op → NavGood n' := by
    intro hm
    obtain ⟨h1, h2, -⟩ := step_routes_frame hm h
    have he : GoodSensor n'.elevation := by
      rcases step_elevation h with h3 | ⟨t, rfl⟩ | ⟨f, rfl⟩
      · rw [h3]; exact hg.elev
      · simp only [step, nextElevation] at h
        obtain ⟨s, hs1, h⟩ := bind_eq_ok h
        cases h
        exact (sensor_next_good hg.elev hs1).1
      · cases h
        exact sensor_shuffle_good hg.elev hs
    exact ⟨by rw [h1]; exact hg.wf, by rw [h2]; exact hg.dist0, by rw [h1, h2]; exact hg.dist, he⟩
  cases op with
  | addRoute rs =>
    cases h
    unfold addRoute at hl ⊢
    split
    · exact hg
    · rename_i hne
      rw [if_neg hne] at hl
      have hw := addLoop_wf n.routes 0 rs hg.wf hs
      have hc := (C03.addLoop_count n.routes 0 rs).2
      revert hl hw hc
      cases addLoop n.routes 0 rs with
      | mk held ok =>
        intro hl hw hc
        simp only at hl hw hc ⊢
        split
        · rename_i hok
          rw [if_pos hok] at hl
          have := reset_good (n := { n with routes := held }) hw hg.elev hl
          exact ⟨this.wf, this.dist0, this.dist, this.elev⟩
        · rw [hc (by omega)]
          exact hg
  | removeRoute id =>
    cases h
    unfold removeRoute at hl ⊢
    split
    · exact hg
    · rename_i hne
      rw [if_neg hne] at hl
      simp only [removeFirst_eq] at hl ⊢
      split
      · rename_i hok
        rw [if_pos hok] at hl
        exact reset_good (n := ({ n with routes := n.routes.eraseP _ } : Navigator ℝ).nextVersion)
          (fun r hr => hg.wf r (List.mem_of_mem_eraseP hr)) hg.elev hl
      · exact hg
  | removeTrack rid tid =>
    cases h
    unfold removeTrack
    split
    · exact hg
    · split
      · exact hg
      · have hw : ∀ r ∈ updateFirst (fun r : Route ℝ => r.id == rid)
            (fun r => (r.removeTrack tid).1) n.routes, WFRoute r := by
          intro r hr
          have : ∀ l : List (Route ℝ), r ∈ updateFirst (fun r : Route ℝ => r.id == rid)
              (fun r => (r.removeTrack tid).1) l → r ∈ l ∨ ∃ a ∈ l, r = (a.removeTrack tid).1 := by
            intro l
            induction l with
            | nil => intro h; cases h
            | cons a l ih =>
              intro h
              unfold updateFirst at h
              split at h
              · rcases List.mem_cons.mp h with h | h
                · exact Or.inr ⟨a, List.mem_cons_self, h⟩
                · exact Or.inl (List.mem_cons_of_mem _ h)
              · rcases List.mem_cons.mp h with h | h
                · exact Or.inl (h ▸ List.mem_cons_self)
                · rcases ih h with h | ⟨b, hb, h⟩
                  · exact Or.inl (List.mem_cons_of_mem _ h)
                  · exact Or.inr ⟨b, List.mem_cons_of_mem _ hb, h⟩
          rcases this _ hr with hr | ⟨a, ha, rfl⟩
          · exact hg.wf r hr
          · exact route_apply_wf a (.removeTrack tid) (fun t ht => by cases ht) (hg.wf a ha)
        have hne : updateFirst (fun r : Route ℝ => r.id == rid)
            (fun r => (r.removeTrack tid).1) n.routes ≠ [] → n.routes ≠ [] := by
          intro h hc; rw [hc] at h; exact h rfl
        simp only
        split
        · exact ⟨hw, hg.dist0, fun h => hg.dist (hne h), hg.elev⟩
        · exact ⟨hw, hg.dist0, fun h => hg.dist (hne h), hg.elev⟩
  | resetRoutes =>
    cases h
    unfold resetRoutes
    split
    · exact hg
    · have := reset_good (n := { n with routes := [] }) (fun r hr => by cases hr) hg.elev
        (fun r hr => by cases hr)
      exact ⟨this.wf, this.dist0, this.dist, this.elev⟩
  | reset => cases h; exact reset_good hg.wf hg.elev hl
  | onRoute i rop =>
    cases h
    refine ⟨?_, hg.dist0, ?_, hg.elev⟩
    · intro r hr
      rcases mem_modify hr with hr | ⟨a, ha, rfl⟩
      · exact hg.wf r hr
      · refine route_apply_wf a rop ?_ (hg.wf a ha)
        intro t ht
        subst ht
        exact hs
    · intro hne
      apply hg.dist
      intro hc
      rw [hc] at hne
      simp at hne
  | moveToSegment _ _ _ | moveToRoute _ | moveToTrack _ _ | moveToRouteByID _ | moveToTrackByID _ _
  | toNextRoute | toPrevRoute | destinationTo _ | toOffline _ | nextLocation _ _ _ | isFinish
  | nextElevation _ | shuffleElevation _ => exact moving trivial

/-! ## Devices -/

namespace Device

/-- The invariant except for `avgT`. -/
structure Core (d : Device ℝ) : Prop where
  nav : NavGood d.navigator
  speed : GoodSpeed d.speed
  sensors : ∀ s ∈ d.sensors, GoodSensor s
  dur : 0 ≤ d.state.duration

/-- The invariant. -/
structure Inv (d : Device ℝ) : Prop extends Core d where
  avg : d.navigator.routes ≠ [] → 0 < d.avgT

/-- Which device operations are covered. -/
def SaneOp : DevOp ℝ → Prop
  | .addRoute rs => ∀ r, some r ∈ rs → WFRoute r
  | .onRoute _ (.addTrack (some t)) => WFTrack t
  | .addSensor ss => ∀ s, some s ∈ ss → GoodSensor s
  | .sensorShuffle _ draws => UnitDraws draws
  | .next tick rnd => 0 ≤ tick ∧ UnitDraws rnd.speed ∧ UnitDraws rnd.elevation ∧
      ∀ i, UnitDraws (rnd.sensor i)
  | .fromSnapshot _ => False
  | _ => True

theorem touch_wf {r : Route ℝ} (h : WFRoute r) : WFRoute (touchRoute r) := by
  have h1 : (touchRoute r).tracks = r.tracks.map (fun t => t.propsOf.1) := by
    unfold touchRoute Route.propsOf; cases r.props <;> rfl
  have h2 : (touchRoute r).dist = r.dist := by
    unfold touchRoute Route.propsOf; cases r.props <;> rfl
  have h3 : ∀ t : Track ℝ, t.propsOf.1.dist = t.dist ∧ t.propsOf.1.segments = t.segments := by
    intro t; unfold Track.propsOf; cases t.props <;> exact ⟨rfl, rfl⟩
  constructor
  · intro t ht
    rw [h1] at ht
    obtain ⟨a, ha, rfl⟩ := List.mem_map.mp ht
    have := h.1 a ha
    unfold WFTrack at this ⊢
    rw [(h3 a).1, (h3 a).2]
    exact this
  · rw [h2, h1, List.map_map, h.2]
    congr 1
    apply List.map_congr_left
    intro t _
    exact (h3 t).1.symm

theorem updateRoutes_inv {d : Device ℝ} (h : Core d) : Inv d.updateRoutes := by
  have hne : d.updateRoutes.navigator.routes ≠ [] → d.navigator.routes ≠ [] := by
    intro h hc
    apply h
    show d.navigator.routes.map touchRoute = []
    rw [hc]; rfl
  refine ⟨⟨⟨?_, h.nav.dist0, fun hn => h.nav.dist (hne hn), h.nav.elev⟩, h.speed, h.sensors, h.dur⟩, ?_⟩
  · intro r hr
    obtain ⟨a, ha, rfl⟩ := List.mem_map.mp (show r ∈ d.navigator.routes.map touchRoute from hr)
    exact touch_wf (h.nav.wf a ha)
  · intro hn
    have h1 := h.nav.dist (hne hn)
    have h2 := h.speed.2.2.2
    show 0 < d.navigator.distance /. ((d.speed.min +. d.speed.max) /. lit 2)
    simp only [real_div, real_add, real_lit]
    apply div_pos h1
    have : 0 < d.speed.min + d.speed.max := by linarith [h2.1, h2.2.2]
    push_cast
    linarith

theorem updateState_inv {d d' : Device ℝ} (h : Inv d) (hu : d.updateState = .ok d') : Inv d' := by
  obtain ⟨st, hst, rfl⟩ := updateState_eq hu
  have hf := nav_update_frame hst
  refine ⟨⟨h.nav, h.speed, h.sensors, ?_⟩, h.avg⟩
  show 0 ≤ st.duration
  rw [hf.2.2.2.1]
  exact h.dur

theorem updateState_core {d d' : Device ℝ} (h : Core d) (hu : d.updateState = .ok d') : Core d' := by
  obtain ⟨st, hst, rfl⟩ := updateState_eq hu
  have hf := nav_update_frame hst
  refine ⟨h.nav, h.speed, h.sensors, ?_⟩
  show 0 ≤ st.duration
  rw [hf.2.2.2.1]
  exact h.dur

theorem addSensors_good (held : List (Sensor ℝ)) (k : Nat) (ss : List (Option (Sensor ℝ)))
    (hl : ∀ s ∈ held, GoodSensor s) (hs : ∀ s, some s ∈ ss → GoodSensor s) :
    ∀ s ∈ (addSensors held k ss).1, GoodSensor s := by
  induction ss generalizing held k with
  | nil => exact hl
  | cons o ss ih =>
    have hs' : ∀ r, some r ∈ ss → GoodSensor r := fun r h => hs r (List.mem_cons_of_mem _ h)
    cases o with
    | none => exact ih held k hl hs'
    | some q =>
      unfold addSensors
      split
      · exact ih _ _ hl hs'
      · refine ih _ _ ?_ hs'
        intro r h
        rcases List.mem_append.mp h with h | h
        · exact hl r h
        · rw [List.mem_singleton.mp h]; exact hs q List.mem_cons_self

theorem mapM_next_good {ss ss' : List (Sensor ℝ)} {t : ℝ} (h : ∀ s ∈ ss, GoodSensor s)
    (hm : ss.mapM (fun s => s.next t) = .ok ss') :
    ∀ s' ∈ ss', GoodSensor s' ∧
      (0 ≤ t → t ≤ 1 → min s'.min s'.max ≤ s'.valY ∧ s'.valY ≤ max s'.min s'.max) := by
  induction ss generalizing ss' with
  | nil => cases hm; intro s hs; cases hs
  | cons a ss ih =>
    rw [List.mapM_cons] at hm
    obtain ⟨b, hb, hm⟩ := bind_eq_ok hm
    obtain ⟨bs, hbs, hm⟩ := bind_eq_ok hm
    cases hm
    intro s hs
    rcases List.mem_cons.mp hs with rfl | hs
    · obtain ⟨p1, p2, p3, p4⟩ := sensor_next_good (h a List.mem_cons_self) hb
      refine ⟨p1, fun h0 h1 => ?_⟩
      rw [p2, p3]
      exact p4 h0 h1
    · exact ih (fun s hs => h s (List.mem_cons_of_mem _ hs)) hbs s hs

theorem seconds_nonneg (d : Device ℝ) {tick : ℝ} (h : 0 ≤ tick) : 0 ≤ d.seconds tick := by
  unfold seconds
  simp only [real_add, real_lit]
  push_cast
  positivity

/-- The curve parameter lies in the unit interval. -/
theorem phase_unit {d : Device ℝ} (h : Inv d) (hr : d.navigator.routes ≠ []) {s : ℝ} (hs : 0 ≤ s) :
    0 ≤ d.phase s ∧ d.phase s ≤ 1 := by
  have ha := h.avg hr
  have hd := h.dur
  unfold phase
  simp only [real_add, real_div, real_lit, real_fmin, Rat.cast_one]
  exact ⟨le_min (by positivity) zero_le_one, min_le_right _ _⟩

theorem powered_good {d : Device ℝ} (h : Inv d) {s : ℝ} {x : UInt32} {n : Navigator ℝ}
    (hp : d.powered s x = .ok n) : NavGood n ∧ n.routes = d.navigator.routes := by
  rcases powered_step hp with rfl | hp
  · exact ⟨h.nav, rfl⟩
  · rcases toOffline_cases hp with ⟨-, rfl⟩ | ⟨_, _, _, rfl⟩ <;>
      exact ⟨⟨h.nav.wf, h.nav.dist0, h.nav.dist, h.nav.elev⟩, rfl⟩

theorem loc_good {n n' : Navigator ℝ} (h : NavGood n) {tick speed : ℝ} {x : UInt32} {b : Bool}
    (hl : n.nextLocation tick speed x = .ok (n', b)) : NavGood n' ∧ n'.routes = n.routes := by
  obtain ⟨h1, h2, -, h4⟩ := nextLocation_routes hl
  exact ⟨⟨by rw [h1]; exact h.wf, by rw [h2]; exact h.dist0, by rw [h1, h2]; exact h.dist,
    by rw [h4]; exact h.elev⟩, h1⟩

theorem finish_good {n : Navigator ℝ} (h : NavGood n) :
    NavGood n.isFinish.1 ∧ n.isFinish.1.routes = n.routes := by
  unfold isFinish
  split <;> exact ⟨⟨h.wf, h.dist0, h.dist, h.elev⟩, rfl⟩

theorem next_inv {d d' : Device ℝ} {tick : ℝ} {rnd : NextRnd ℝ} {b : Bool} (h : Inv d)
    (hs : SaneOp (.next tick rnd)) (hn : d.next tick rnd = .ok (d', b)) : Inv d' := by
  obtain ⟨ht, hd1, hd2, hd3⟩ := hs
  have hsec := seconds_nonneg d ht
  have hdur : 0 ≤ d.state.duration +. d.seconds tick := by
    simp only [real_add]; linarith [h.dur]
  cases next_outcome hn with
  | idle _ => exact h
  | halted hr n1 n2 speed h1 h2 h3 h4 =>
    obtain ⟨g1, r1⟩ := powered_good h h1
    obtain ⟨g2, r2⟩ := loc_good g1 h3
    obtain ⟨g3, r3⟩ := finish_good g2
    exact ⟨⟨g3, (speed_next_good h.speed h2).1, h.sensors, hdur⟩, fun _ => h.avg hr⟩
  | lap hr n1 n2 speed _ h1 h2 h3 h4 h5 =>
    obtain ⟨g1, r1⟩ := powered_good h h1
    obtain ⟨g2, r2⟩ := loc_good g1 h3
    obtain ⟨g3, r3⟩ := finish_good g2
    refine updateState_inv (d := (d.advanced (d.seconds tick) speed n2).lapped n2.isFinish.1 rnd)
      ⟨⟨⟨g3.wf, g3.dist0, g3.dist, sensor_shuffle_good g3.elev hd2⟩,
      speed_shuffle_good (speed_next_good h.speed h2).1 hd1, ?_, ?_⟩, fun _ => h.avg hr⟩ h5
    · intro s hs
      obtain ⟨i, hi, rfl⟩ := List.mem_mapIdx.mp hs
      exact sensor_shuffle_good (h.sensors _ (List.getElem_mem _)) (hd3 i)
    · show (0 : ℝ) ≤ lit 0
      simp
  | moved hr n1 n2 n3 speed ss d2 _ h1 h2 h3 h4 h5 hd2' h6 =>
    obtain ⟨g1, r1⟩ := powered_good h h1
    obtain ⟨g2, r2⟩ := loc_good g1 h3
    have g3 : NavGood n3 := by
      unfold nextElevation at h4
      obtain ⟨e, he, h4⟩ := bind_eq_ok h4
      cases h4
      exact ⟨g2.wf, g2.dist0, g2.dist, (sensor_next_good g2.elev he).1⟩
    have hi : Inv d2 := by
      rw [hd2']
      exact ⟨⟨g3, (speed_next_good h.speed h2).1,
        fun s hs => (mapM_next_good h.sensors h5 s hs).1, hdur⟩, fun _ => h.avg hr⟩
    refine updateState_inv ?_ h6
    split
    · exact updateRoutes_inv hi.toCore
    · exact hi

theorem step_inv {d d' : Device ℝ} {op : DevOp ℝ} (h : Inv d) (ho : SaneOp op)
    (hl : Long d'.navigator) (hs : d.step op = .ok d') : Inv d' := by
  have same : ∀ {e : Device ℝ}, e.navigator = d.navigator → e.speed = d.speed →
      (∀ s ∈ e.sensors, GoodSensor s) → e.state.duration = d.state.duration → e.avgT = d.avgT →
      Inv e := by
    intro e e1 e2 e3 e4 e5
    exact ⟨⟨by rw [e1]; exact h.nav, by rw [e2]; exact h.speed, e3, by rw [e4]; exact h.dur⟩,
      by rw [e1, e5]; exact h.avg⟩
  have touchLong : ∀ {n : Navigator ℝ}, Long ({ n with routes := n.routes.map touchRoute }) → Long n := by
    intro n hl r hr
    have := hl (touchRoute r) (List.mem_map_of_mem hr)
    have h2 : (touchRoute r).dist = r.dist := by
      unfold touchRoute Route.propsOf; cases r.props <;> rfl
    rwa [h2] at this
  have nav : ∀ {op : NavOp ℝ} {n : Navigator ℝ}, SaneNav op → d.navigator.step op = .ok n → Long n →
      Core { d with navigator := n } := fun ho hn hl =>
    ⟨nav_step_good h.nav ho hl hn, h.speed, h.sensors, h.dur⟩
  cases op with
  | addRoute rs =>
    cases hs
    unfold addRoute at hl ⊢
    have hn : d.navigator.step (.addRoute rs) = .ok (d.navigator.addRoute rs).1 := rfl
    have hk : (d.navigator.addRoute rs).2 ≠ none → (d.navigator.addRoute rs).1 = d.navigator := by
      unfold Navigator.addRoute
      split
      · intro _; rfl
      · simp only; split <;> exact fun h => absurd rfl h
    revert hn hl hk
    cases d.navigator.addRoute rs with
    | mk n err =>
      intro hl hn hk
      cases err with
      | none => exact updateRoutes_inv (nav (op := .addRoute rs) ho hn (touchLong hl))
      | some e => exact same (hk (by simp)) rfl h.sensors rfl rfl
  | removeRoute id =>
    cases hs
    unfold removeRoute at hl ⊢
    have hn : d.navigator.step (.removeRoute id) = .ok (d.navigator.removeRoute id).1 := rfl
    have hk : (d.navigator.removeRoute id).2 = false → (d.navigator.removeRoute id).1 = d.navigator := by
      unfold Navigator.removeRoute
      split
      · intro _; rfl
      · simp only
        split
        · intro h; cases h
        · intro _; rfl
    revert hn hl hk
    cases d.navigator.removeRoute id with
    | mk n ok =>
      intro hl hn hk
      cases ok with
      | true => exact updateRoutes_inv (nav (op := .removeRoute id) trivial hn (touchLong hl))
      | false => exact same (hk rfl) rfl h.sensors rfl rfl
  | removeTrack rid tid =>
    cases hs
    unfold removeTrack at hl ⊢
    have hn : d.navigator.step (.removeTrack rid tid) = .ok (d.navigator.removeTrack rid tid).1 := rfl
    have hk : (d.navigator.removeTrack rid tid).1.routes ≠ [] → d.navigator.routes ≠ [] := by
      intro h hc
      apply h
      unfold Navigator.removeTrack
      split
      · exact hc
      · split
        · exact hc
        · simp only
          split <;> (simp only [nextVersion, hc]; rfl)
    revert hn hl hk
    cases d.navigator.removeTrack rid tid with
    | mk n ok =>
      intro hl hn hk
      cases ok with
      | true => exact updateRoutes_inv (nav (op := .removeTrack rid tid) trivial hn (touchLong hl))
      | false => exact ⟨nav (op := .removeTrack rid tid) trivial hn hl, fun hne => h.avg (hk hne)⟩
  | resetRoutes =>
    cases hs
    unfold resetRoutes at hl ⊢
    have hn : d.navigator.step .resetRoutes = .ok d.navigator.resetRoutes.1 := rfl
    have hk : d.navigator.resetRoutes.2 = false → d.navigator.resetRoutes.1 = d.navigator := by
      unfold Navigator.resetRoutes
      split
      · intro _; rfl
      · intro h; cases h
    revert hn hl hk
    cases d.navigator.resetRoutes with
    | mk n ok =>
      intro hl hn hk
      cases ok with
      | true => exact updateRoutes_inv (nav (op := .resetRoutes) trivial hn (touchLong hl))
      | false => exact same (hk rfl) rfl h.sensors rfl rfl
  | move m =>
    obtain ⟨n, hn, rfl⟩ := map_eq_ok hs
    have hsane : SaneNav (m.navOp : NavOp ℝ) := by cases m <;> trivial
    refine ⟨nav hsane hn hl, fun hne => h.avg ?_⟩
    have hr : n.routes = d.navigator.routes := by
      cases m with
      | resetNavigator => cases hn; rfl
      | destinationTo _ | moveToSegment _ _ _ | moveToTrack _ _ | moveToRoute _ | moveToTrackByID _ _
      | moveToRouteByID _ | toPrevRoute | toNextRoute | toOffline _ | isFinish =>
        exact (step_routes_frame (by trivial) hn).1
    exact fun hc => hne (hr.trans hc)
  | onRoute i rop =>
    cases hs
    refine ⟨nav (op := .onRoute i rop) ?_ rfl hl, fun hne => h.avg ?_⟩
    · cases rop with
      | addTrack o =>
        cases o with
        | none => trivial
        | some t => exact ho
      | _ => trivial
    · intro hc
      apply hne
      show d.navigator.routes.modify i _ = []
      rw [hc]
      cases i <;> rfl
  | addSensor ss =>
    cases hs
    unfold addSensor
    split
    · exact h
    · simp only
      have := addSensors_good d.sensors 0 ss h.sensors ho
      split <;> exact same rfl rfl this rfl rfl
  | removeSensor id =>
    cases hs
    unfold removeSensor
    split
    · exact h
    · simp only [removeFirst_eq]
      have : ∀ s ∈ d.sensors.eraseP (fun s : Sensor ℝ => s.id == id), GoodSensor s :=
        fun s hs => h.sensors s (List.mem_of_mem_eraseP hs)
      split <;> exact same rfl rfl this rfl rfl
  | resetSensors =>
    cases hs
    exact same rfl rfl (fun s hs => by cases hs) rfl rfl
  | sensorNext i t =>
    simp only [step, onSensorNext] at hs
    split at hs
    · cases hs; exact h
    · rename_i s0 hi
      obtain ⟨s, h1, hs⟩ := bind_eq_ok hs
      cases hs
      refine same rfl rfl ?_ rfl rfl
      intro s' hs'
      rcases List.mem_or_eq_of_mem_set hs' with h2 | rfl
      · exact h.sensors s' h2
      · exact (sensor_next_good (h.sensors s0 (List.mem_of_getElem? hi)) h1).1
  | sensorShuffle i draws =>
    cases hs
    refine same rfl rfl ?_ rfl rfl
    intro s hs
    rcases mem_modify hs with hs | ⟨a, ha, rfl⟩
    · exact h.sensors s hs
    · exact sensor_shuffle_good (h.sensors a ha) ho
  | next tick rnd =>
    obtain ⟨⟨e, b⟩, he, rfl⟩ := map_eq_ok hs
    exact next_inv h ho he
  | skipTick => cases hs; exact same rfl rfl h.sensors rfl rfl
  | update =>
    obtain ⟨st, hst, rfl⟩ := update_eq hs
    have : Core (d.refreshed st) := by
      refine ⟨h.nav, h.speed, h.sensors, ?_⟩
      show 0 ≤ st.duration
      rw [(nav_update_frame hst).2.2.2.1]
      exact h.dur
    have := updateRoutes_inv this
    exact ⟨⟨this.nav, this.speed, this.sensors, this.dur⟩, this.avg⟩
  | setModel s =>
    cases hs
    unfold setModel
    split <;> exact same rfl rfl h.sensors rfl rfl
  | setUserID s => cases hs; exact same rfl rfl h.sensors rfl rfl
  | setDescription s => cases hs; exact same rfl rfl h.sensors rfl rfl
  | setColor c => cases hs; cases c <;> exact same rfl rfl h.sensors rfl rfl
  | fromSnapshot m => exact ho.elim

/-! ### Restoring the snapshot of a good device -/

theorem track_reload_wf {t t' : Track ℝ} (h : WFTrack t) (ht : Track.fromSnapshot t.snapshot = .ok t') :
    WFTrack t' ∧ t'.dist = t.dist := by
  have hseg : (t.segments.map Segment.snapshot).mapM Segment.fromSnapshot = .ok (t.segments.map id) :=
    mapM_map_ok _ _ _ _ (fun _ _ => rfl)
  simp only [Track.fromSnapshot, Track.snapshot, hseg, ok_bind, pure_eq_ok, List.map_id] at ht
  cases ht
  exact ⟨h, rfl⟩

theorem mapM_mem {ε α β : Type} {f : α → Except ε β} {l : List α} {l' : List β}
    (h : l.mapM f = .ok l') : (∀ b ∈ l', ∃ a ∈ l, f a = .ok b) ∧ l'.length = l.length := by
  induction l generalizing l' with
  | nil => cases h; exact ⟨fun b hb => by (cases hb), rfl⟩
  | cons a l ih =>
    rw [List.mapM_cons] at h
    obtain ⟨b, hb, h⟩ := bind_eq_ok h
    obtain ⟨bs, hbs, h⟩ := bind_eq_ok h
    cases h
    refine ⟨?_, by simp [(ih hbs).2]⟩
    intro c hc
    rcases List.mem_cons.mp hc with rfl | hc
    · exact ⟨a, List.mem_cons_self, hb⟩
    · obtain ⟨x, hx, hf⟩ := (ih hbs).1 c hc
      exact ⟨x, List.mem_cons_of_mem _ hx, hf⟩

theorem tracks_reload {ts ts' : List (Track ℝ)} (h : ∀ t ∈ ts, WFTrack t)
    (hm : (ts.map Track.snapshot).mapM Track.fromSnapshot = .ok ts') :
    (∀ t ∈ ts', WFTrack t) ∧ ts'.map (·.dist) = ts.map (·.dist) := by
  induction ts generalizing ts' with
  | nil => cases hm; exact ⟨fun t ht => by (cases ht), rfl⟩
  | cons a ts ih =>
    rw [List.map_cons, List.mapM_cons] at hm
    obtain ⟨b, hb, hm⟩ := bind_eq_ok hm
    obtain ⟨bs, hbs, hm⟩ := bind_eq_ok hm
    cases hm
    obtain ⟨h1, h2⟩ := ih (fun t ht => h t (List.mem_cons_of_mem _ ht)) hbs
    obtain ⟨h3, h4⟩ := track_reload_wf (h a List.mem_cons_self) hb
    refine ⟨?_, by simp [h2, h4]⟩
    intro t ht
    rcases List.mem_cons.mp ht with rfl | ht
    · exact h3
    · exact h1 t ht

theorem route_reload_wf {r r' : Route ℝ} {e : Option Err} (h : WFRoute r)
    (hr : Route.fromSnapshot r.snapshot = .ok (r', e)) : WFRoute r' := by
  have hz : WFRoute (Route.zero : Route ℝ) := ⟨fun t ht => by (cases ht), by simp [Route.zero]⟩
  unfold Route.fromSnapshot at hr
  obtain ⟨ts, hts, hr⟩ := bind_eq_ok hr
  obtain ⟨h1, h2⟩ := tracks_reload h.1 hts
  revert hr
  cases r.snapshot.props.load with
  | mk props ok =>
    intro hr
    cases ok with
    | false => cases hr; exact hz
    | true =>
      simp only [Bool.not_true, Bool.false_eq_true, if_false] at hr
      split at hr
      · split at hr
        · cases hr; exact hz
        · cases hr; exact ⟨h1, by rw [h2]; exact h.2⟩
      · cases hr; exact ⟨h1, by rw [h2]; exact h.2⟩

theorem restore_inv {d e d' : Device ℝ} (hd : Inv d) (he : Inv e)
    (hr : d.fromSnapshot e.snapshot = .ok d') : Inv d' := by
  obtain ⟨n, speed, battery, sensors, d1, h1, h2, h3, h4, h5, rfl⟩ := fromSnapshotOnto_eq hr
  apply updateRoutes_inv
  refine updateState_core ?_ h5
  have hspeed : speed = e.speed := by
    have := speed_round_trip e.speed
    rw [show Speed.fromSnapshot e.snapshot.speed = Speed.fromSnapshot (some e.speed.snapshot) from rfl,
      this] at h2
    cases h2; rfl
  have hsens : ∀ s ∈ sensors, GoodSensor s := by
    split at h4
    · have : e.snapshot.sensors.mapM (fun s => Sensor.fromSnapshot (some s)) = .ok (e.sensors.map id) :=
        mapM_map_ok _ _ _ _ (fun s _ => sensor_round_trip s)
      rw [this] at h4
      cases h4
      rw [List.map_id]
      exact he.sensors
    · cases h4; exact hd.sensors
  have hnav : NavGood n := by
    simp only [Navigator.fromSnapshot, snapshot] at h1
    unfold Navigator.fromSnapshotOnto at h1
    obtain ⟨rs, hrs, h1⟩ := bind_eq_ok h1
    obtain ⟨pt, -, h1⟩ := bind_eq_ok h1
    obtain ⟨el, hel, h1⟩ := bind_eq_ok h1
    have hel' : el = e.navigator.elevation := by
      rw [show Sensor.fromSnapshot e.navigator.snapshot.elevation =
        Sensor.fromSnapshot (some e.navigator.elevation.snapshot) from rfl, sensor_round_trip] at hel
      cases hel; rfl
    obtain ⟨hm, hlen⟩ := mapM_mem hrs
    have hlen' : rs.length = e.navigator.routes.length := by
      rw [hlen]; exact List.length_map ..
    cases h1
    refine ⟨?_, he.nav.dist0, ?_, by rw [hel']; exact he.nav.elev⟩
    · intro r hr
      obtain ⟨m, hm', hf⟩ := hm r hr
      obtain ⟨a, ha, rfl⟩ := List.mem_map.mp hm'
      obtain ⟨⟨r', err⟩, hf1, hf⟩ := bind_eq_ok hf
      cases hf
      exact route_reload_wf (he.nav.wf a ha) hf1
    · intro hne
      apply he.nav.dist
      intro hc
      apply hne
      show rs = []
      rw [← List.length_eq_zero_iff, hlen', hc]
      rfl
  refine ⟨hnav, by rw [hspeed]; exact he.speed, hsens, ?_⟩
  exact he.dur

theorem new_inv {rnd : DeviceRnd ℝ} {o : Option (DeviceOptions ℝ)} {d : Device ℝ}
    (h1 : UnitDraws rnd.elevationDraws) (h2 : UnitDraws rnd.speedDraws)
    (h : Device.new rnd o = .ok d) : Inv d := by
  obtain ⟨n, speed, battery, state, e1, e2, -, e4, rfl⟩ := new_eq h
  obtain ⟨o1, o2, s, -, -, hs, rfl⟩ := new_cases e1
  obtain ⟨_, _, rfl, -⟩ := applyFor_eq e4
  refine ⟨⟨⟨fun r hr => by (cases hr), ?_, fun h => absurd rfl h, sensor_new_good h1 hs⟩,
    speed_new_good h2 e2, fun s hs => by (cases hs), ?_⟩, fun h => absurd rfl h⟩
  · show (0 : ℝ) ≤ lit 0
    simp
  · show (0 : ℝ) ≤ lit 0
    simp

/-- What an operation other than `Next` and `FromSnapshot` leaves alone. -/
theorem step_speed_frame {F : Type} [GoMath F] {d d' : Device F} {op : DevOp F} (hs : d.step op = .ok d')
    (h1 : ∀ t r, op ≠ .next t r) (h2 : ∀ m, op ≠ .fromSnapshot m) :
    d'.speed = d.speed ∧ d'.state.speed = d.state.speed := by
  cases op with
  | addRoute rs =>
    cases hs
    unfold addRoute
    cases d.navigator.addRoute rs with
    | mk n err => cases err <;> exact ⟨rfl, rfl⟩
  | removeRoute id =>
    cases hs
    unfold removeRoute
    cases d.navigator.removeRoute id with
    | mk n ok => cases ok <;> exact ⟨rfl, rfl⟩
  | removeTrack rid tid =>
    cases hs
    unfold removeTrack
    cases d.navigator.removeTrack rid tid with
    | mk n ok => cases ok <;> exact ⟨rfl, rfl⟩
  | resetRoutes =>
    cases hs
    unfold resetRoutes
    cases d.navigator.resetRoutes with
    | mk n ok => cases ok <;> exact ⟨rfl, rfl⟩
  | move m =>
    obtain ⟨n, hn, rfl⟩ := map_eq_ok hs
    exact ⟨rfl, rfl⟩
  | onRoute i rop => cases hs; exact ⟨rfl, rfl⟩
  | addSensor ss =>
    cases hs
    unfold addSensor
    split
    · exact ⟨rfl, rfl⟩
    · simp only
      split <;> exact ⟨rfl, rfl⟩
  | removeSensor id =>
    cases hs
    unfold removeSensor
    split
    · exact ⟨rfl, rfl⟩
    · simp only
      split <;> exact ⟨rfl, rfl⟩
  | resetSensors => cases hs; exact ⟨rfl, rfl⟩
  | sensorNext i t =>
    simp only [step, onSensorNext] at hs
    split at hs
    · cases hs; exact ⟨rfl, rfl⟩
    · obtain ⟨s, h1, hs⟩ := bind_eq_ok hs
      cases hs
      exact ⟨rfl, rfl⟩
  | sensorShuffle i draws => cases hs; exact ⟨rfl, rfl⟩
  | next tick rnd => exact absurd rfl (h1 tick rnd)
  | skipTick => cases hs; exact ⟨rfl, rfl⟩
  | update =>
    obtain ⟨st, hst, rfl⟩ := update_eq hs
    exact ⟨rfl, (nav_update_frame hst).2.2.2.2.2.1⟩
  | setModel s =>
    cases hs
    unfold setModel
    split <;> exact ⟨rfl, rfl⟩
  | setUserID s => cases hs; exact ⟨rfl, rfl⟩
  | setDescription s => cases hs; exact ⟨rfl, rfl⟩
  | setColor c => cases hs; cases c <;> exact ⟨rfl, rfl⟩
  | fromSnapshot m => exact absurd rfl (h2 m)

/-- Devices with routes of positive length. -/
inductive Reach : Device ℝ → Prop
  | init {rnd o d} (h1 : UnitDraws rnd.elevationDraws) (h2 : UnitDraws rnd.speedDraws)
      (h : Device.new rnd o = .ok d) : Reach d
  | step {d op d'} (hr : Reach d) (ho : SaneOp op) (h : d.step op = .ok d')
      (hl : ∀ r ∈ d'.navigator.routes, 0 < r.dist) : Reach d'
  | restore {d e d'} (hd : Reach d) (he : Reach e) (h : d.fromSnapshot e.snapshot = .ok d')
      (hl : ∀ r ∈ d'.navigator.routes, 0 < r.dist) : Reach d'

theorem reach_inv {d : Device ℝ} (h : Reach d) : Inv d := by
  induction h with
  | init h1 h2 h => exact new_inv h1 h2 h
  | step _ ho h hl ih => exact step_inv ih ho hl h
  | restore _ _ h _ ih1 ih2 => exact restore_inv ih1 ih2 h

end Device
end GpsGen
