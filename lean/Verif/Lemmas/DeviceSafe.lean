import Verif.Lemmas.Safety
import Verif.Theorems.C24
/-!
# Helper lemmas: the invariant behind C54
-/

namespace GpsGen
variable {F : Type}

namespace C54
open Device Navigator C24 C07

/-- The curve of a speed that is not constant has points. -/
def SpeedSafe [GoFloat F] (s : Speed F) : Prop := s.isStatic = true ∨ s.gen.points ≠ []

/-- The inductive invariant: the navigator is safe and no curve that is evaluated is empty. -/
structure DSafe [GoFloat F] (d : Device F) : Prop where
  nav : Safe d.navigator
  speed : SpeedSafe d.speed
  sensors : ∀ s ∈ d.sensors, s.gen.points ≠ []

/-- The call returns and the result is safe. -/
def OkSafe [GoFloat F] (g : Go (Device F)) : Prop := ∃ d, g = .ok d ∧ DSafe d

theorem ne_nil_of_length {α β : Type} {l : List α} {m : List β} (h : l.length = m.length) (hm : m ≠ []) :
    l ≠ [] := by
  rintro rfl
  exact hm (List.length_eq_zero_iff.mp h.symm)

theorem curve_new [GoFloat F] (a b : F) (k m : Int) (draws : Nat → F) (hk : 0 < k) :
    (Curve.new a b k m draws).points ≠ [] := by
  intro h
  have := congrArg List.length h
  simp only [Curve.new, makePoints_length, List.length_nil] at this
  split at this <;> omega

theorem curve_shuffle [GoFloat F] (c : Curve F) (draws : Nat → F) (h : c.points ≠ []) :
    (c.shuffle draws).points ≠ [] :=
  ne_nil_of_length (makePoints_length _ _ _ _ _) h

theorem validate_pos {k : Int} {u : Unit} (h : validateAmplitude k = .ok u) : 0 < k := by
  unfold validateAmplitude at h
  by_cases ha : k < 4
  · simp [ha] at h
  · omega

theorem sensor_new [GoFloat F] {uid : String} {draws : Nat → F} {name : String} {a b : F} {k : Int}
    {m : UInt16} {s : Sensor F} (h : Sensor.new uid draws name a b k m = .ok s) : s.gen.points ≠ [] := by
  unfold Sensor.new at h
  obtain ⟨u, h1, h⟩ := bind_eq_ok h
  split at h
  · cases h
  · cases h; exact curve_new _ _ _ _ _ (validate_pos h1)

theorem sensor_restore [GoFloat F] {p : Option String} {draws : Nat → F} {name : String} {a b : F}
    {k : Int} {m : UInt16} {s : Sensor F} (h : Sensor.restore p draws name a b k m = .ok s) :
    s.gen.points ≠ [] := by
  unfold Sensor.restore at h
  split at h
  · cases h
  · split at h
    · cases h
    · obtain ⟨u, h1, h⟩ := bind_eq_ok h
      cases h; exact curve_new _ _ _ _ _ (validate_pos h1)

theorem speed_new [GoFloat F] {draws : Nat → F} {a b : F} {k : Int} {s : Speed F}
    (h : Speed.new draws a b k = .ok s) : s.gen.points ≠ [] := by
  unfold Speed.new at h
  simp only at h
  generalize (if b <=. lit 0 then a else b) = c at h
  split at h
  · cases h
  split at h
  · cases h
  split at h
  · cases h
  obtain ⟨u, h1, h⟩ := bind_eq_ok h
  cases h
  exact curve_new _ _ _ _ _ (validate_pos h1)

theorem sensor_next [GoFloat F] (s : Sensor F) (t : F) (h : s.gen.points ≠ []) :
    ∃ s', s.next t = .ok s' ∧ s'.gen.points ≠ [] := by
  obtain ⟨c', p, hp, hl⟩ := point_ok s.gen h t
  refine ⟨_, by simp only [Sensor.next, hp, ok_bind, pure_eq_ok]; rfl, ?_⟩
  exact ne_nil_of_length hl h

theorem speed_next [GoFloat F] (s : Speed F) (t : F) (h : SpeedSafe s) :
    ∃ s', s.next t = .ok s' ∧ SpeedSafe s' := by
  unfold Speed.next
  split
  · exact ⟨s, rfl, h⟩
  · rename_i hs
    have h := h.resolve_left hs
    obtain ⟨c', p, hp, hl⟩ := point_ok s.gen h t
    refine ⟨_, by simp only [hp, ok_bind, pure_eq_ok]; rfl, ?_⟩
    exact Or.inr (ne_nil_of_length hl h)

theorem speed_shuffle [GoFloat F] (s : Speed F) (draws : Nat → F) (h : SpeedSafe s) : SpeedSafe (s.shuffle draws) :=
  h.imp id fun h => curve_shuffle _ _ h

theorem sensors_next [GoFloat F] (ss : List (Sensor F)) (t : F) (h : ∀ s ∈ ss, s.gen.points ≠ []) :
    ∃ ss', ss.mapM (fun s => s.next t) = .ok ss' ∧ ∀ s ∈ ss', s.gen.points ≠ [] := by
  induction ss with
  | nil => exact ⟨[], rfl, by simp⟩
  | cons a l ih =>
    obtain ⟨a', h1, h2⟩ := sensor_next a t (h a (by simp))
    obtain ⟨l', h3, h4⟩ := ih (fun s hs => h s (by simp [hs]))
    refine ⟨a' :: l', by rw [List.mapM_cons, h1, ok_bind, h3]; rfl, ?_⟩
    intro s hs
    rcases List.mem_cons.mp hs with rfl | hs
    · exact h2
    · exact h4 s hs

theorem touched_index [GoFloat F] {n : Navigator F} (h : Safe n) :
    Safe { n with routes := n.routes.map touchRoute } := by
  refine ⟨?_, h.offline, h.elevation⟩
  have := h.index
  unfold IndexOk at this ⊢
  simpa using this

theorem updateRoutes_safe [GoFloat F] {d : Device F} (h : DSafe d) : DSafe d.updateRoutes :=
  ⟨touched_index h.nav, h.speed, h.sensors⟩

theorem updateState_safe [GoMath F] {d : Device F} (h : DSafe d) : OkSafe d.updateState := by
  obtain ⟨d', hd⟩ := (updateState_iff d).mpr h.nav.index
  obtain ⟨st, -, rfl⟩ := updateState_eq hd
  exact ⟨_, hd, ⟨h.nav, h.speed, h.sensors⟩⟩

theorem update_safe [GoMath F] {d : Device F} (h : DSafe d) : OkSafe d.update := by
  obtain ⟨d', h1, h2⟩ := updateState_safe h
  refine ⟨_, by simp only [Device.update, h1, ok_bind, pure_eq_ok]; rfl, ?_⟩
  have := updateRoutes_safe h2
  exact ⟨this.nav, this.speed, this.sensors⟩

theorem move_safe [GoMath F] {d : Device F} (h : DSafe d) (op : NavOp F)
    (ho : (∃ m, op = .destinationTo m) → d.navigator.routes.length ≤ 2) :
    OkSafe ((d.navigator.step op).map (fun n => { d with navigator := n })) := by
  obtain ⟨n, h1, h2⟩ := step_safe d.navigator h.nav op ho
  exact ⟨{ d with navigator := n }, by rw [h1]; rfl, ⟨h2, h.speed, h.sensors⟩⟩

/-- Routes added, removed or reset: the navigator makes a step and perhaps the state is published. -/
theorem nav_safe [GoMath F] {d : Device F} (h : DSafe d) (op : NavOp F) {n : Navigator F}
    (ho : ∀ m, op ≠ .destinationTo m) (hn : d.navigator.step op = .ok n) :
    DSafe { d with navigator := n } ∧ DSafe ({ d with navigator := n } : Device F).updateRoutes := by
  obtain ⟨n', h1, h2⟩ := step_safe d.navigator h.nav op (fun ⟨m, e⟩ => absurd e (ho m))
  rw [hn] at h1
  cases h1
  have : DSafe { d with navigator := n } := ⟨h2, h.speed, h.sensors⟩
  exact ⟨this, updateRoutes_safe this⟩

theorem addSensors_mem {P : Sensor F → Prop} {held : List (Sensor F)} {k : Nat}
    {l : List (Option (Sensor F))} (h : ∀ s ∈ held, P s) (hl : ∀ s, some s ∈ l → P s) :
    ∀ s ∈ (addSensors held k l).1, P s := by
  induction l generalizing held k with
  | nil => exact h
  | cons a l ih =>
    cases a with
    | none => exact ih h (fun s hs => hl s (by simp [hs]))
    | some b =>
      simp only [addSensors]
      split
      · exact ih h (fun s hs => hl s (by simp [hs]))
      · refine ih ?_ (fun s hs => hl s (by simp [hs]))
        intro s hs
        rcases List.mem_append.mp hs with hs | hs
        · exact h s hs
        · rw [List.mem_singleton.mp hs]; exact hl b (by simp)

theorem mem_removeFirst {α : Type} {p : α → Bool} {l : List α} {a : α} (h : a ∈ (removeFirst p l).1) :
    a ∈ l := by
  induction l with
  | nil => exact h
  | cons b l ih =>
    unfold removeFirst at h
    split at h
    · exact List.mem_cons_of_mem _ h
    · simp only [List.mem_cons] at h ⊢
      rcases h with h | h
      · exact Or.inl h
      · exact Or.inr (ih h)

theorem shuffle_safe [GoFloat F] {ss : List (Sensor F)} {draws : Nat → Nat → F}
    (h : ∀ s ∈ ss, s.gen.points ≠ []) : ∀ s ∈ shuffleSensors ss draws, s.gen.points ≠ [] := by
  intro s hs
  unfold shuffleSensors at hs
  obtain ⟨i, hi, rfl⟩ := List.mem_mapIdx.mp hs
  exact curve_shuffle _ _ (h _ (List.getElem_mem hi))

theorem drain_safe [GoMath F] {d : Device F} (h : DSafe d) (s : F) (x : UInt32) :
    OkSafe (d.drain s x) := by
  unfold drain
  simp only
  split
  · obtain ⟨n, h1, h2⟩ := toOffline_ok d.navigator h.nav x
    rw [h1]
    exact ⟨_, rfl, ⟨h2, h.speed, h.sensors⟩⟩
  · exact ⟨_, rfl, ⟨h.nav, h.speed, h.sensors⟩⟩

theorem isFinish_safe [GoFloat F] {n : Navigator F} (h : Safe n) : Safe n.isFinish.1 := by
  unfold isFinish
  split
  · exact ⟨h.index, h.offline, h.elevation⟩
  · exact h

theorem halt_safe [GoMath F] {d : Device F} (h : DSafe d) (rnd : NextRnd F) : OkSafe (d.halt rnd) := by
  unfold halt
  have hf : Safe d.updateOfflineState.navigator.isFinish.1 := isFinish_safe h.nav
  simp only
  split
  · apply updateState_safe
    exact ⟨⟨hf.index, hf.offline, curve_shuffle _ _ hf.elevation⟩, speed_shuffle _ _ h.speed,
      shuffle_safe h.sensors⟩
  · exact ⟨_, rfl, ⟨hf, h.speed, h.sensors⟩⟩

theorem proceed_safe [GoMath F] {d : Device F} (h : DSafe d) (t : F) : OkSafe (d.proceed t) := by
  unfold proceed
  obtain ⟨n, h1, h2⟩ := step_safe d.navigator h.nav (.nextElevation t) (by rintro ⟨m, e⟩; cases e)
  obtain ⟨ss, h3, h4⟩ := sensors_next d.sensors t h.sensors
  have h1 : d.navigator.nextElevation t = .ok n := h1
  rw [h1, ok_bind, h3, ok_bind]
  have hd : DSafe { d with navigator := n, sensors := ss } := ⟨h2, h.speed, h4⟩
  simp only
  split
  · exact updateState_safe (updateRoutes_safe hd)
  · exact updateState_safe hd

theorem next_safe [GoMath F] {d : Device F} (h : DSafe d) (tick : F) (rnd : NextRnd F) :
    ∃ d' b, d.next tick rnd = .ok (d', b) ∧ DSafe d' := by
  unfold next
  split
  · exact ⟨d, false, rfl, h⟩
  · simp only
    have h0 : DSafe ({ d with tick := 0, state := { d.state with
        duration := d.state.duration +. (lit d.tick.toNat +. tick)
        tick := lit d.tick.toNat +. tick } } : Device F) := ⟨h.nav, h.speed, h.sensors⟩
    obtain ⟨d1, h1, k1⟩ := drain_safe h0 (lit d.tick.toNat +. tick) rnd.low
    rw [h1, ok_bind]
    obtain ⟨sp, h2, k2⟩ := speed_next d1.speed (d1.nextT (lit d.tick.toNat +. tick)) k1.speed
    rw [h2, ok_bind]
    obtain ⟨n, b, h3, k3⟩ := nextLocation_ok d1.navigator k1.nav (lit d.tick.toNat +. tick) sp.value rnd.loc
    rw [h3, ok_bind]
    simp only
    have hd : DSafe ({ d1 with
        speed := sp, state := { d1.state with speed := sp.value }, navigator := n } : Device F) :=
      ⟨k3, k2, k1.sensors⟩
    cases b with
    | true =>
      obtain ⟨d2, h4, k4⟩ := proceed_safe hd (d1.nextT (lit d.tick.toNat +. tick))
      refine ⟨d2, true, ?_, k4⟩
      simp only [if_true]
      rw [h4]; rfl
    | false =>
      obtain ⟨d2, h4, k4⟩ := halt_safe hd rnd
      refine ⟨d2, false, ?_, k4⟩
      simp only [Bool.false_eq_true, if_false]
      rw [h4]; rfl

theorem restore_safe [GoMath F] {ss : List (Sensor F)} {tk : UInt32} {e : Device F}
    (hss : ∀ s ∈ ss, s.gen.points ≠ []) (h : DSafe e) :
    OkSafe (Device.fromSnapshotOnto ss tk e.snapshot) := by
  obtain ⟨d', hd⟩ := (fromSnapshot_iff_partial ss tk _).mpr (snapshot_complete e h.nav.index)
  refine ⟨d', hd, ?_⟩
  obtain ⟨n, speed, battery, sensors, d1, h1, h2, h3, h4, h5, rfl⟩ := fromSnapshotOnto_eq hd
  obtain ⟨st, -, rfl⟩ := updateState_eq h5
  apply updateRoutes_safe
  have hsp : speed = e.speed := by
    rw [show e.snapshot.speed = some e.speed.snapshot from rfl, speed_round_trip] at h2
    cases h2; rfl
  refine ⟨?_, by rw [show (refreshed _ st).speed = speed from rfl, hsp]; exact h.speed, ?_⟩
  · show Safe n
    rw [show e.snapshot.navigator = some e.navigator.snapshot from rfl] at h1
    obtain ⟨k1, k2⟩ := nav_restored h1
    simp only [Navigator.fromSnapshot, Navigator.fromSnapshotOnto] at h1
    obtain ⟨rs, g1, h1⟩ := bind_eq_ok h1
    obtain ⟨pt, g2, h1⟩ := bind_eq_ok h1
    obtain ⟨el, g3, h1⟩ := bind_eq_ok h1
    have hel : el = e.navigator.elevation := by
      rw [show e.navigator.snapshot.elevation = some e.navigator.elevation.snapshot from rfl,
        sensor_round_trip] at g3
      cases g3; rfl
    refine ⟨?_, ?_, ?_⟩
    · have := h.nav.index
      unfold IndexOk at this ⊢
      rw [k2, k1]
      rcases this with h' | h'
      · left
        apply List.length_eq_zero_iff.mp
        rw [k1]; simp [Navigator.snapshot, h']
      · right; simpa [Navigator.snapshot] using h'
    · cases h1; intro _; rfl
    · cases h1; rw [hel]; exact h.nav.elevation
  · show ∀ s ∈ sensors, s.gen.points ≠ []
    rw [show e.snapshot.sensors = e.sensors.map Sensor.snapshot from rfl] at h4
    split at h4
    · have := mapM_map_ok (fun s : SensorMsg F => Sensor.fromSnapshot (some s)) Sensor.snapshot id
        e.sensors (fun s _ => sensor_round_trip s)
      rw [List.map_id] at this
      rw [this] at h4
      cases h4
      exact h.sensors
    · cases h4; exact hss

theorem onSensorNext_safe [GoMath F] {d : Device F} (h : DSafe d) (i : Nat) (t : F) :
    OkSafe (d.onSensorNext i t) := by
  unfold onSensorNext
  cases hi : d.sensors[i]? with
  | none => exact ⟨d, rfl, h⟩
  | some s =>
    obtain ⟨s', h1, h2⟩ := sensor_next s t (h.sensors s (List.mem_of_getElem? hi))
    simp only
    rw [h1]
    refine ⟨_, rfl, ⟨h.nav, h.speed, ?_⟩⟩
    intro x hx
    rcases List.mem_or_eq_of_mem_set hx with hx | rfl
    · exact h.sensors x hx
    · exact h2

theorem new_safe [GoFloat F] {rnd : DeviceRnd F} {o : Option (DeviceOptions F)} {d : Device F}
    (h : Device.new rnd o = .ok d) : DSafe d := by
  obtain ⟨n, speed, battery, state, h1, h2, h3, h4, rfl⟩ := Device.new_eq h
  exact ⟨safe_new _ _ _ _ h1, Or.inr (speed_new h2), by simp⟩

end C54
end GpsGen
