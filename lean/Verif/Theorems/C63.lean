import Verif.Theorems.C16
import Verif.Theorems.C29
import Verif.Theorems.C62
/-!
# C63: a device starts a new lap with new curves and reports the finished one

Claim: the `Next` that completes a lap puts the device at the start with its duration and odometer at zero, redraws
the curves of speed, elevation and all sensors within their bounds, and publishes this; no other `Next` redraws a
curve or restarts the duration; after it `IsFinish` answers that the lap was finished.

Everything holds except the last part: `Next` itself asks the navigator and thereby uses up the answer, so `IsFinish`
of the device answers `false` after every completed lap (`lap_unreported`), and never answers `true` in a history
whose steps are longer than 0.1 m (`never_reported`).
-/

namespace GpsGen
variable {F : Type}

namespace C63
open Device

/-! ## Specification -/

/-- The curve is the one that a new curve with the same parameters would have for these draws. -/
def Redrawn [GoFloat F] (c c' : Curve F) (draws : Nat → F) : Prop :=
  c.points ≠ [] → c' = Curve.new c.min c.max c.points.length c.mode draws

/-- The curve is the same. -/
def Kept (c c' : Curve F) : Prop :=
  C29.control c' = C29.control c ∧ c'.min = c.min ∧ c'.max = c.max ∧ c'.mode = c.mode

/-- The length of a tick: the tick and one second for each call that found the device locked. -/
def length [GoFloat F] (d : Device F) (tick : F) : F := lit d.tick.toNat +. tick

/-- The cursor. -/
def cursor (n : Navigator F) : Int × Int × Int := (n.routeIndex, n.trackIndex, n.segmentIndex)

/-- The device has started a new lap. -/
structure NewLap [GoMath F] (d d' : Device F) (rnd : NextRnd F) : Prop where
  duration : d'.state.duration = lit 0
  odometer : d'.navigator.currentDistance = lit 0
  cursor : cursor d'.navigator = (0, 0, 0)
  speed : Redrawn d.speed.gen d'.speed.gen rnd.speed
  speedBounds : d'.speed.min = d.speed.min ∧ d'.speed.max = d.speed.max
  elevation : Redrawn d.navigator.elevation.gen d'.navigator.elevation.gen rnd.elevation
  elevationRest : { d'.navigator.elevation with gen := d.navigator.elevation.gen } = d.navigator.elevation
  sensors : d'.sensors.length = d.sensors.length
  sensor : ∀ (i : Nat) (s s' : Sensor F), d.sensors[i]? = some s → d'.sensors[i]? = some s' →
    Redrawn s.gen s'.gen (rnd.sensor i) ∧ { s' with gen := s.gen } = s
  published : Fresh d'

/-- The device goes on with its lap. -/
structure SameLap [GoMath F] (d d' : Device F) (tick : F) : Prop where
  duration : d'.state.duration = d.state.duration +. length d tick
  speed : Kept d.speed.gen d'.speed.gen
  elevation : Kept d.navigator.elevation.gen d'.navigator.elevation.gen
  sensors : d'.sensors.length = d.sensors.length
  sensor : ∀ (i : Nat) (s s' : Sensor F), d.sensors[i]? = some s → d'.sensors[i]? = some s' → Kept s.gen s'.gen

/-- A device that is created and driven by any operations except restoring, all steps longer than 0.1 m. -/
inductive LongSteps : Device ℝ → Prop
  | init {rnd o d} (h : Device.new rnd o = .ok d) : LongSteps d
  | step {d op d'} (hr : LongSteps d) (h : d.step op = .ok d') (hf : ∀ m, op ≠ .fromSnapshot m)
      (hl : ∀ tick rnd, op = .next tick rnd → 1 / 10 < length d tick * d'.state.speed) : LongSteps d'

/-! ## Proof -/

theorem redrawn_shuffle [GoFloat F] {c e : Curve F} {draws : Nat → F} (h : Kept c e) :
    Redrawn c (e.shuffle draws) draws := by
  obtain ⟨h1, h2, h3, h4⟩ := h
  intro hne
  have hl : e.points.length = c.points.length := by
    have := congrArg List.length h1
    unfold C29.control at this
    simpa using this
  have hpos : ¬ ((c.points.length : Int) ≤ 0) := by
    have := List.length_pos_iff.mpr hne
    omega
  unfold Curve.shuffle Curve.new
  simp only [if_neg hpos, h2, h3, h4, hl, Int.toNat_natCast]

theorem kept_refl (c : Curve F) : Kept c c := ⟨rfl, rfl, rfl, rfl⟩

theorem kept_point [GoFloat F] {c c' : Curve F} {t : F} {p : Pt F} (h : c.point t = .ok (c', p)) : Kept c c' := by
  obtain ⟨h1, h2, h3, h4, -⟩ := C29.point_preserves c c' t p h
  exact ⟨h1, h2, h3, h4⟩

theorem speed_next_kept [GoFloat F] {s s' : Speed F} {t : F} (h : s.next t = .ok s') :
    Kept s.gen s'.gen ∧ s'.min = s.min ∧ s'.max = s.max := by
  unfold Speed.next at h
  split at h
  · cases h; exact ⟨kept_refl _, rfl, rfl⟩
  · obtain ⟨⟨g, p⟩, h1, h⟩ := bind_eq_ok h
    cases h
    exact ⟨kept_point h1, rfl, rfl⟩

theorem sensor_next_kept [GoFloat F] {s s' : Sensor F} {t : F} (h : s.next t = .ok s') : Kept s.gen s'.gen := by
  obtain ⟨g, p, h1, rfl⟩ := sensor_next_eq h
  exact kept_point h1

theorem mapM_get {α β : Type} {f : α → Go β} : ∀ {l : List α} {l' : List β}, l.mapM f = .ok l' →
    l'.length = l.length ∧ ∀ (i : Nat) (a : α) (b : β), l[i]? = some a → l'[i]? = some b → f a = .ok b := by
  intro l
  induction l with
  | nil => intro l' h; cases h; exact ⟨rfl, fun i a b h => by simp at h⟩
  | cons x l ih =>
    intro l' h
    rw [List.mapM_cons] at h
    obtain ⟨y, hy, h⟩ := bind_eq_ok h
    obtain ⟨ys, hys, h⟩ := bind_eq_ok h
    cases h
    obtain ⟨i1, i2⟩ := ih hys
    refine ⟨by simp [i1], fun i a b ha hb => ?_⟩
    cases i with
    | zero =>
      simp only [List.getElem?_cons_zero, Option.some.injEq] at ha hb
      rw [← ha, ← hb]; exact hy
    | succ i =>
      simp only [List.getElem?_cons_succ] at ha hb
      exact i2 i a b ha hb

theorem powered_elevation [GoMath F] {d : Device F} {s : F} {x : UInt32} {n : Navigator F}
    (h : d.powered s x = .ok n) : n.elevation = d.navigator.elevation := by
  rcases powered_step h with rfl | h
  · rfl
  · rcases Navigator.toOffline_cases h with ⟨-, rfl⟩ | ⟨_, _, _, rfl⟩ <;> rfl

theorem isFinish_frame [GoFloat F] (n : Navigator F) : n.isFinish.1.elevation = n.elevation ∧
    cursor n.isFinish.1 = cursor n ∧ (n.isFinish.2 = true → cursor n = (0, 0, 0) ∧ n.isFinish.1.currentDistance = lit 0) ∧
    (n.isFinish.2 = false → n.isFinish.1 = n) := by
  unfold Navigator.isFinish
  split
  · rename_i h
    simp only [Bool.and_eq_true, beq_iff_eq] at h
    obtain ⟨⟨⟨h1, h2⟩, h3⟩, -⟩ := h
    refine ⟨rfl, rfl, fun _ => ⟨?_, rfl⟩, fun h => by (cases h)⟩
    unfold cursor
    rw [h1, h2, h3]
  · exact ⟨rfl, rfl, fun h => by (cases h), fun _ => rfl⟩

/-- What `Next` does, by what the navigator answers (any number type). -/
theorem next_cases [GoMath F] {d d' : Device F} {tick : F} {rnd : NextRnd F} {b : Bool}
    (hr : d.navigator.routes ≠ []) (hn : d.next tick rnd = .ok (d', b)) :
    ∃ n1 n2, d.powered (d.seconds tick) rnd.low = .ok n1 ∧
      n1.nextLocation (d.seconds tick) d'.state.speed rnd.loc = .ok (n2, b) ∧ cursor d'.navigator = cursor n2 ∧
      ((b = false ∧ n2.isFinish.2 = true ∧ NewLap d d' rnd) ∨
       ((b = false → n2.isFinish.2 = false) ∧ d'.navigator.currentDistance = n2.currentDistance ∧
        SameLap d d' tick)) := by
  have same : ∀ (i : Nat) (s s' : Sensor F), d.sensors[i]? = some s → d.sensors[i]? = some s' → Kept s.gen s'.gen := by
    intro i s s' h1 h2
    rw [h1] at h2
    cases h2
    exact kept_refl _
  cases next_outcome hn with
  | idle h => exact absurd h hr
  | halted _ n1 n2 speed h1 h2 h3 h4 =>
    refine ⟨n1, n2, h1, h3, (isFinish_frame n2).2.1, Or.inr ⟨fun _ => h4, ?_, rfl, (speed_next_kept h2).1, ?_, rfl, same⟩⟩
    · show n2.isFinish.1.currentDistance = _
      rw [(isFinish_frame n2).2.2.2 h4]
    · show Kept _ n2.isFinish.1.elevation.gen
      rw [(isFinish_frame n2).1, (Navigator.nextLocation_routes h3).2.2.2, powered_elevation h1]
      exact kept_refl _
  | lap _ n1 n2 speed _ h1 h2 h3 h4 h5 =>
    obtain ⟨hf, f1, -, f2, f3, f4, f5, -⟩ := updateState_fresh h5
    obtain ⟨g1, g2, g3, -⟩ := isFinish_frame n2
    obtain ⟨g4, g5⟩ := g3 h4
    have he : n2.isFinish.1.elevation = d.navigator.elevation := by
      rw [g1, (Navigator.nextLocation_routes h3).2.2.2, powered_elevation h1]
    obtain ⟨k1, k2, k3⟩ := speed_next_kept h2
    have hs : d'.sensors = shuffleSensors d.sensors rnd.sensor := f3
    refine ⟨n1, n2, h1, by rw [f4]; exact h3, by rw [f1]; exact g2,
      Or.inl ⟨rfl, h4, f5, by rw [f1]; exact g5, by rw [f1]; exact g2.trans g4, ?_, ?_, ?_, ?_, ?_, ?_, hf⟩⟩
    · rw [f2]; exact redrawn_shuffle k1
    · rw [f2]; exact ⟨k2, k3⟩
    · rw [f1]
      show Redrawn _ (n2.isFinish.1.elevation.gen.shuffle rnd.elevation) _
      rw [he]
      exact redrawn_shuffle (kept_refl _)
    · rw [f1]
      show ({ n2.isFinish.1.elevation.shuffle rnd.elevation with gen := _ } : Sensor F) = _
      rw [he]
      rfl
    · rw [hs]; unfold shuffleSensors; simp
    · intro i s s' hi hi'
      rw [hs] at hi'
      unfold shuffleSensors at hi'
      rw [List.getElem?_mapIdx, hi] at hi'
      cases hi'
      exact ⟨redrawn_shuffle (kept_refl _), rfl⟩
  | moved _ n1 n2 n3 speed ss d2 _ h1 h2 h3 h4 h5 hd2 h6 =>
    obtain ⟨-, f1, -, f2, f3, f4, f5, -⟩ := updateState_fresh h6
    have e : (if d2.navigator.sum ≠ d2.ns then d2.updateRoutes else d2).state.duration =
          d.state.duration +. d.seconds tick ∧
        (if d2.navigator.sum ≠ d2.ns then d2.updateRoutes else d2).navigator.elevation = n3.elevation ∧
        (if d2.navigator.sum ≠ d2.ns then d2.updateRoutes else d2).navigator.currentDistance = n3.currentDistance ∧
        cursor (if d2.navigator.sum ≠ d2.ns then d2.updateRoutes else d2).navigator = cursor n3 ∧
        (if d2.navigator.sum ≠ d2.ns then d2.updateRoutes else d2).speed = speed ∧
        (if d2.navigator.sum ≠ d2.ns then d2.updateRoutes else d2).sensors = ss ∧
        (if d2.navigator.sum ≠ d2.ns then d2.updateRoutes else d2).state.speed = speed.value := by
      split <;> (subst hd2; exact ⟨rfl, rfl, rfl, rfl, rfl, rfl, rfl⟩)
    obtain ⟨e1, e2, e6, e7, e3, e4, e5⟩ := e
    obtain ⟨m1, m2⟩ := mapM_get h5
    unfold Navigator.nextElevation at h4
    obtain ⟨el, h4e, h4⟩ := bind_eq_ok h4
    cases h4
    rw [(Navigator.nextLocation_routes h3).2.2.2, powered_elevation h1] at h4e
    refine ⟨n1, n2, h1, by rw [f4, e5]; exact h3, by rw [f1, e7]; rfl,
      Or.inr ⟨fun h => by (cases h), by rw [f1, e6], f5.trans e1, ?_, ?_, ?_, ?_⟩⟩
    · rw [f2, e3]; exact (speed_next_kept h2).1
    · rw [f1, e2]; exact sensor_next_kept h4e
    · rw [f3, e4]; exact m1
    · intro i s s' hi hi'
      rw [f3, e4] at hi'
      exact sensor_next_kept (m2 i s s' hi hi')

/-- **C63, the two outcomes** (any number type). Every `Next` with routes either starts a new lap, and then reports
that the device did not move, or goes on with the lap. -/
theorem next_lap [GoMath F] (d d' : Device F) (tick : F) (rnd : NextRnd F) (b : Bool)
    (hr : d.navigator.routes ≠ []) (hn : d.next tick rnd = .ok (d', b)) :
    (NewLap d d' rnd ∧ b = false) ∨ SameLap d d' tick := by
  obtain ⟨_, _, -, -, -, ⟨h1, -, h2⟩ | ⟨-, -, h⟩⟩ := next_cases hr hn
  · exact Or.inl ⟨h2, h1⟩
  · exact Or.inr h

theorem isFinish_iff (n : Navigator ℝ) :
    n.isFinish.2 = true ↔ C16.atStart n = true ∧ n.currentDistance = 1 / 10 := by
  unfold Navigator.isFinish C16.atStart
  simp only [real_eq, real_lit]
  split
  · rename_i h
    simp only [Bool.and_eq_true, decide_eq_true_eq] at h ⊢
    push_cast at h
    exact ⟨fun _ => h, fun _ => trivial⟩
  · rename_i h
    simp only [Bool.and_eq_true, decide_eq_true_eq] at h ⊢
    push_cast at h
    exact ⟨fun hc => by (cases hc), fun hc => absurd hc h⟩

theorem atStart_cursor (n m : Navigator ℝ) (h : cursor n = cursor m) : C16.atStart n = C16.atStart m := by
  unfold cursor at h
  simp only [Prod.mk.injEq] at h
  unfold C16.atStart
  rw [h.1, h.2.1, h.2.2]

/-- **C63, laps.** If the battery does not become low (then the device goes offline instead, C62) and no lap mark is
left over, a new lap starts exactly when `Next` completes one: the device was online in the last track of its last
route and is back at the start. -/
theorem lap_iff (d d' : Device ℝ) (tick : ℝ) (rnd : NextRnd ℝ) (b : Bool)
    (hn : d.next tick rnd = .ok (d', b)) (hl : ¬ C62.Low d tick)
    (hk : d.navigator.skipOffline = true → d.navigator.offlineIndex ≤ 0)
    (hm : d.navigator.currentDistance ≠ 1 / 10) (hr : d.navigator.routes ≠ []) :
    (C16.CompletesLap d.navigator d'.navigator b → NewLap d d' rnd) ∧
    (¬ C16.CompletesLap d.navigator d'.navigator b → SameLap d d' tick) := by
  have hlow : (d.battery.next (d.seconds tick)).isLow ≠ true := fun hc => hl ((C62.low_iff d tick).mp hc)
  have hpow : ∀ {n1}, d.powered (d.seconds tick) rnd.low = .ok n1 → n1 = d.navigator := by
    intro n1 h1
    unfold powered at h1
    rw [if_neg hlow] at h1
    cases h1; rfl
  obtain ⟨n1, n2, h1, h3, hc, hcase⟩ := next_cases hr hn
  have := hpow h1
  subst this
  have comp : C16.CompletesLap d.navigator d'.navigator b ↔ C16.CompletesLap d.navigator n2 b := by
    unfold C16.CompletesLap
    rw [atStart_cursor _ _ hc]
  rw [comp]
  have mark := C16.nextLocation_marker _ _ _ _ _ _ hk h3
  rcases hcase with ⟨rfl, hf, hlap⟩ | ⟨hf, -, hlap⟩
  · refine ⟨fun _ => hlap, fun hnc => ?_⟩
    rcases mark with ⟨h, -⟩ | ⟨-, h, -⟩ | ⟨-, -, h⟩
    · cases h
    · exact absurd h hnc
    · exact absurd (h ▸ ((isFinish_iff n2).mp hf).2) hm
  · refine ⟨fun hyes => ?_, fun _ => hlap⟩
    obtain rfl : b = false := hyes.2.1
    rcases mark with ⟨h, -⟩ | ⟨-, h1, h⟩ | ⟨-, h, -⟩
    · cases h
    · have := hf rfl
      rw [(isFinish_iff n2).mpr ⟨h1.2.2.2.2.2, h⟩] at this
      cases this
    · exact absurd hyes h

/-! ## What `IsFinish` answers -/

/-- **The last part of the claim fails.** For every device: after a `Next` that starts a new lap, indeed after every
`Next` that does not move the device, `IsFinish` answers `false`. -/
theorem lap_unreported (d d' : Device ℝ) (tick : ℝ) (rnd : NextRnd ℝ) (hr : d.navigator.routes ≠ [])
    (hn : d.next tick rnd = .ok (d', false)) : d'.navigator.isFinish.2 = false := by
  obtain ⟨n1, n2, h1, h3, hc, ⟨-, -, hlap⟩ | ⟨hf, hcd, -⟩⟩ := next_cases hr hn
  · rw [← Bool.not_eq_true, isFinish_iff]
    rintro ⟨-, h⟩
    rw [hlap.odometer] at h
    norm_num at h
  · have := hf rfl
    rw [← Bool.not_eq_true, isFinish_iff] at this ⊢
    rwa [atStart_cursor _ _ hc, hcd]

/-- **When it answers `true`.** After a `Next` that moves the device, `IsFinish` answers `true` exactly when the device
is in the first segment and has covered 0.1 m, which is no finished lap. -/
theorem reported_iff (d d' : Device ℝ) (tick : ℝ) (rnd : NextRnd ℝ) (hr : d.navigator.routes ≠ [])
    (hk : d.navigator.skipOffline = true → d.navigator.offlineIndex ≤ 0)
    (hn : d.next tick rnd = .ok (d', true)) :
    d'.navigator.isFinish.2 = true ↔
      C16.atStart d'.navigator = true ∧ d.navigator.currentDistance + length d tick * d'.state.speed = 1 / 10 := by
  obtain ⟨n1, n2, h1, h3, hc, ⟨h, -⟩ | ⟨-, hcd, -⟩⟩ := next_cases hr hn
  · cases h
  have hk1 : (n1.skipOffline = true → n1.offlineIndex ≤ 0) ∧ n1.currentDistance = d.navigator.currentDistance := by
    rcases powered_step h1 with rfl | h1
    · exact ⟨hk, rfl⟩
    · rcases Navigator.toOffline_cases h1 with ⟨-, rfl⟩ | ⟨h0, _, _, rfl⟩
      · exact ⟨hk, rfl⟩
      · refine ⟨fun h => ?_, rfl⟩
        have h : d.navigator.skipOffline = true := h
        rw [h] at h0
        cases h0
  rcases C16.nextLocation_marker _ _ _ _ _ _ hk1.1 h3 with ⟨-, h⟩ | ⟨h, -⟩ | ⟨h, -⟩
  · rw [isFinish_iff, hcd, h, hk1.2]
    rfl
  · cases h
  · cases h

theorem nav_marked {n n' : Navigator ℝ} {op : NavOp ℝ} (h : n.step op = .ok n') (hm : C16.Marked n false)
    (ho : ∀ t s x, op ≠ .nextLocation t s x) : C16.Marked n' false := by
  have go : ∀ {n' p ans}, C16.Step n false op n' p ans → p = false → C16.Marked n' false := by
    intro n' p ans hs hp
    have := C16.step_marked hm (by cases op <;> first | trivial | exact absurd rfl (ho _ _ _)) hs
    rwa [hp] at this
  cases op with
  | nextLocation t s x => exact absurd rfl (ho t s x)
  | isFinish => cases h; exact go .isFinish rfl
  | destinationTo m => cases h; exact go .jump rfl
  | reset => cases h; exact go .reset rfl
  | addRoute rs => cases h; exact go .addRoute rfl
  | removeRoute id => cases h; exact go .removeRoute rfl
  | resetRoutes => cases h; exact go .resetRoutes rfl
  | _ => exact go (.other h trivial) rfl

theorem marked_congr {n m : Navigator ℝ} (h1 : m.currentDistance = n.currentDistance)
    (h2 : m.skipOffline = n.skipOffline) (h3 : m.offlineIndex = n.offlineIndex) (h : C16.Marked n false) :
    C16.Marked m false := by
  unfold C16.Marked at h ⊢
  rwa [h1, h2, h3]

theorem step_marked {d d' : Device ℝ} {op : DevOp ℝ} (hs : d.step op = .ok d') (hm : C16.Marked d.navigator false)
    (h1 : ∀ t r, op ≠ .next t r) (h2 : ∀ m, op ≠ .fromSnapshot m) : C16.Marked d'.navigator false := by
  cases op with
  | addRoute rs =>
    cases hs
    have hn : d.navigator.step (.addRoute rs) = .ok (d.navigator.addRoute rs).1 := rfl
    replace hn := nav_marked hn hm (by simp)
    unfold Device.addRoute
    revert hn
    rcases d.navigator.addRoute rs with ⟨n, _ | e⟩ <;> exact fun hn => marked_congr rfl rfl rfl hn
  | removeRoute id =>
    cases hs
    have hn : d.navigator.step (.removeRoute id) = .ok (d.navigator.removeRoute id).1 := rfl
    replace hn := nav_marked hn hm (by simp)
    unfold Device.removeRoute
    revert hn
    rcases d.navigator.removeRoute id with ⟨n, _ | _⟩ <;> exact fun hn => marked_congr rfl rfl rfl hn
  | removeTrack r t =>
    cases hs
    have hn : d.navigator.step (.removeTrack r t) = .ok (d.navigator.removeTrack r t).1 := rfl
    replace hn := nav_marked hn hm (by simp)
    unfold Device.removeTrack
    revert hn
    rcases d.navigator.removeTrack r t with ⟨n, _ | _⟩ <;> exact fun hn => marked_congr rfl rfl rfl hn
  | resetRoutes =>
    cases hs
    have hn : d.navigator.step .resetRoutes = .ok d.navigator.resetRoutes.1 := rfl
    replace hn := nav_marked hn hm (by simp)
    unfold Device.resetRoutes
    revert hn
    rcases d.navigator.resetRoutes with ⟨n, _ | _⟩ <;> exact fun hn => marked_congr rfl rfl rfl hn
  | move m =>
    obtain ⟨n, hn, rfl⟩ := map_eq_ok hs
    exact nav_marked hn hm (by cases m <;> simp [DevMove.navOp])
  | onRoute i op =>
    replace hs : (d.navigator.step (.onRoute i op)).map (fun n => { d with navigator := n }) = .ok d' := hs
    obtain ⟨n, hn, rfl⟩ := map_eq_ok hs
    exact nav_marked hn hm (by simp)
  | addSensor ss =>
    cases hs
    unfold Device.addSensor
    split
    · exact hm
    · simp only
      split <;> exact hm
  | removeSensor id =>
    cases hs
    unfold Device.removeSensor
    split
    · exact hm
    · simp only
      split <;> exact hm
  | resetSensors => cases hs; exact hm
  | sensorNext i t =>
    replace hs : d.onSensorNext i t = .ok d' := hs
    unfold Device.onSensorNext at hs
    split at hs
    · cases hs; exact hm
    · obtain ⟨s, -, hs⟩ := bind_eq_ok hs
      cases hs; exact hm
  | sensorShuffle i draws => cases hs; exact hm
  | next tick rnd => exact absurd rfl (h1 tick rnd)
  | skipTick => cases hs; exact hm
  | update =>
    obtain ⟨st, hst, rfl⟩ := update_eq hs
    exact marked_congr rfl rfl rfl hm
  | setModel s =>
    cases hs
    unfold Device.setModel
    split <;> exact hm
  | setUserID s => cases hs; exact hm
  | setDescription s => cases hs; exact hm
  | setColor c => cases hs; cases c <;> exact hm
  | fromSnapshot m => exact absurd rfl (h2 m)

theorem longSteps_marked {d : Device ℝ} (h : LongSteps d) : C16.Marked d.navigator false := by
  induction h with
  | @init rnd o d h =>
    obtain ⟨n, s, b, st, hnav, -, -, -, rfl⟩ := Device.new_eq h
    exact C16.reach_marked n false (.init hnav)
  | @step d op d' hr h hf hl ih =>
    by_cases hn : ∀ t r, op ≠ .next t r
    · exact step_marked h ih hn hf
    push Not at hn
    obtain ⟨tick, rnd, rfl⟩ := hn
    obtain ⟨⟨x, b⟩, h1, rfl⟩ := map_eq_ok h
    have hlen := hl tick rnd rfl
    by_cases hrt : d.navigator.routes = []
    · cases next_outcome h1 with
      | idle => exact ih
      | halted hc => exact absurd hrt hc
      | lap hc => exact absurd hrt hc
      | moved hc => exact absurd hrt hc
    obtain ⟨p1, -, -⟩ := step_parts h hf
    have hoff : x.navigator.skipOffline = true → x.navigator.offlineIndex ≤ 0 := by
      refine p1.induct (P := fun m => m.skipOffline = true → m.offlineIndex ≤ 0) ?_ ?_ ih.2.2
      · intro m m' op hm hs hsk
        have fr := Navigator.step_offline_frame hs
        rw [fr.skip] at hsk
        cases fr.change with
        | keep h => rw [h]; exact hm hsk
        | zero h => rw [h]
        | dec h1 _ _ => rw [hsk] at h1; cases h1
        | draw h1 _ _ _ _ => rw [hsk] at h1; cases h1
      · intro m hm; exact hm
    obtain ⟨n1, n2, hp, h3, hc, hcase⟩ := next_cases hrt h1
    have hk1 : (n1.skipOffline = true → n1.offlineIndex ≤ 0) ∧ n1.currentDistance = d.navigator.currentDistance := by
      rcases powered_step hp with rfl | hp
      · exact ⟨ih.2.2, rfl⟩
      · rcases Navigator.toOffline_cases hp with ⟨-, rfl⟩ | ⟨h0, _, _, rfl⟩
        · exact ⟨ih.2.2, rfl⟩
        · refine ⟨fun h => ?_, rfl⟩
          have h : d.navigator.skipOffline = true := h
          rw [h] at h0
          cases h0
    have i1 := ih.1
    have i2 : d.navigator.currentDistance ≠ 1 / 10 := fun hc => by have := ih.2.1.mp hc; cases this
    have key : 0 ≤ x.navigator.currentDistance ∧ x.navigator.currentDistance ≠ 1 / 10 := by
      rcases hcase with ⟨-, -, hlap⟩ | ⟨hf, hcd, -⟩
      · rw [hlap.odometer]; norm_num
      · rw [hcd]
        rcases C16.nextLocation_marker _ _ _ _ _ _ hk1.1 h3 with ⟨-, h⟩ | ⟨hb, hlap, h⟩ | ⟨-, -, h⟩
        · rw [h, hk1.2]
          have hlen : 1 / 10 < d.seconds tick * x.state.speed := hlen
          exact ⟨by linarith, by intro hc; linarith⟩
        · have := hf hb
          rw [(isFinish_iff n2).mpr ⟨hlap.2.2.2.2.2, h⟩] at this
          cases this
        · rw [h, hk1.2]; exact ⟨i1, i2⟩
    exact ⟨key.1, ⟨fun h => absurd h key.2, fun h => by cases h⟩, hoff⟩

/-- **C63, `IsFinish` of a device is never `true`.** In every history whose steps are longer than 0.1 m. -/
theorem never_reported (d : Device ℝ) (h : LongSteps d) : d.navigator.isFinish.2 = false := by
  rw [← Bool.not_eq_true, isFinish_iff]
  rintro ⟨-, hc⟩
  have := (longSteps_marked h).2.1.mp hc
  cases this

/-- **C63, laps of a history (partial).** In every history whose steps are longer than 0.1 m a new lap starts exactly
when one is completed. Missing for the full claim: `IsFinish` (`lap_unreported`) and, as in C16, shorter steps. -/
theorem laps_partial (d d' : Device ℝ) (tick : ℝ) (rnd : NextRnd ℝ) (b : Bool) (h : LongSteps d)
    (hn : d.next tick rnd = .ok (d', b)) (hl : ¬ C62.Low d tick) (hr : d.navigator.routes ≠ []) :
    (C16.CompletesLap d.navigator d'.navigator b → NewLap d d' rnd) ∧
    (¬ C16.CompletesLap d.navigator d'.navigator b → SameLap d d' tick) :=
  have hm := longSteps_marked h
  lap_iff d d' tick rnd b hn hl hm.2.2 (fun hc => by have := hm.2.1.mp hc; cases this) hr

/-! ## Concrete cases -/

/-- Duration, odometer, cursor and answer of `IsFinish` of a device on rationals. -/
def look (d : Device Toy) : Rat × Rat × (Int × Int × Int) × Bool :=
  (d.state.duration.val, d.navigator.currentDistance.val, cursor d.navigator, d.navigator.isFinish.2)

/-- A tick. -/
def tick (s : Rat) : DevOp Toy := .next (Toy.of s) Toy.nextRnd

/-- A device with a route, after some ticks. -/
def driven (ticks : List Rat) : Option (Device Toy) := Toy.dev (.addRoute [some Toy.route] :: ticks.map tick)

-- On the way; a step longer than the lap starts a new one, which `IsFinish` does not report; a first step of 0.1 m
-- is reported although no lap was finished.
example : (driven [1, 3]).map look = some (4, 8, (0, 0, 0), false) := by decide +kernel
example : (driven [1, 3, 4000000]).map look = some (0, 0, (0, 0, 0), false) := by decide +kernel
example : (driven [1 / 20]).map look = some (1 / 20, 1 / 10, (0, 0, 0), true) := by decide +kernel

end C63
end GpsGen
