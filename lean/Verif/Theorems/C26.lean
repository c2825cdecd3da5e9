import Verif.Lemmas.DeviceNext
import Verif.Lemmas.Lists
import Verif.Lemmas.Toy
/-!
# C26: sensors behave as an insertion-ordered set keyed by ID and are mirrored

Any number type, any device, any history of device operations: sensor operations, ticks, moves,
mutation of held sensors and routes. The ordered set is specified below on pairs (id, name) without
reference to the model. Restoring a snapshot (C25) is covered by `sensors_mirrored` only.
-/

namespace GpsGen
variable {F : Type}

namespace C26
open Device

/-! ## Specification -/

/-- An insertion-ordered set of named things. -/
abbrev Keys := List (String × String)

/-- Insert unless the id is present. -/
def insertNew (l : Keys) (k : String × String) : Keys := if k.1 ∈ l.map (·.1) then l else l ++ [k]

/-- What an operation does to the set. -/
def spec (l : Keys) : DevOp F → Keys
  | .addSensor ss => (ss.filterMap id).foldl (fun l s => insertNew l (s.id, s.name)) l
  | .removeSensor id => if id = "" then l else l.filter (fun k => k.1 ≠ id)
  | .resetSensors => []
  | _ => l

/-- The keys of a device's sensors. -/
def held (d : Device F) : Keys := d.sensors.map (fun s => (s.id, s.name))

/-- The keys of the published sensors. -/
def published (d : Device F) : Keys := d.state.sensors.map (fun s => (s.id, s.name))

/-- The published sensors with their values are exactly the sensors. -/
def Mirrored (d : Device F) : Prop :=
  d.state.sensors.map (fun p => (p.id, p.name, p.valX, p.valY)) =
    d.sensors.map (fun s => (s.id, s.name, s.valX, s.valY))

/-- The ids are pairwise different. -/
def Distinct (l : Keys) : Prop := (l.map (·.1)).Nodup

/-- Everything but restoring a snapshot. -/
def NoRestore : DevOp F → Prop
  | .fromSnapshot _ => False
  | _ => True

/-- Everything but evaluating a held sensor behind the device's back. -/
def NoSensorNext : DevOp F → Prop
  | .sensorNext _ _ => False
  | _ => True

/-! ## Proofs -/

theorem insertNew_distinct {l : Keys} (h : Distinct l) (k : String × String) :
    Distinct (insertNew l k) := by
  unfold insertNew
  split
  · exact h
  · rename_i hk
    unfold Distinct at h ⊢
    simp only [List.map_append, List.map_cons, List.map_nil]
    rw [List.nodup_append]
    refine ⟨h, by simp, ?_⟩
    intro a ha b hb
    simp only [List.mem_singleton] at hb
    rintro rfl
    exact hk (hb ▸ ha)

theorem spec_distinct {l : Keys} (h : Distinct l) (op : DevOp F) : Distinct (spec l op) := by
  cases op with
  | addSensor ss =>
    simp only [spec]
    generalize ss.filterMap id = rs
    induction rs generalizing l with
    | nil => exact h
    | cons s rs ih => exact ih (insertNew_distinct h _)
  | removeSensor id =>
    simp only [spec]
    split
    · exact h
    · exact List.Nodup.sublist (List.Sublist.map _ List.filter_sublist) h
  | resetSensors => exact List.nodup_nil
  | _ => exact h

theorem addSensors_keys (l : List (Sensor F)) (k : Nat) (ss : List (Option (Sensor F))) :
    (addSensors l k ss).1.map (fun s => (s.id, s.name)) =
      (ss.filterMap id).foldl (fun l s => insertNew l (s.id, s.name)) (l.map (fun s => (s.id, s.name))) := by
  induction ss generalizing l k with
  | nil => rfl
  | cons o ss ih =>
    cases o with
    | none => exact ih l k
    | some s =>
      simp only [addSensors, List.filterMap_cons, id, List.foldl_cons]
      have : hasSensor l s.id = true ↔ s.id ∈ (l.map (fun s => (s.id, s.name))).map (·.1) := by
        simp only [hasSensor, List.any_eq_true, beq_iff_eq, List.map_map, List.mem_map, Function.comp]
      by_cases h : hasSensor l s.id = true
      · rw [if_pos h, insertNew, if_pos (this.mp h)]; exact ih l k
      · rw [if_neg h, insertNew, if_neg (mt this.mpr h), ih]; simp

theorem addSensors_count (l : List (Sensor F)) (k : Nat) (ss : List (Option (Sensor F))) :
    k ≤ (addSensors l k ss).2 ∧ ((addSensors l k ss).2 = k → (addSensors l k ss).1 = l) := by
  induction ss generalizing l k with
  | nil => exact ⟨Nat.le_refl _, fun _ => rfl⟩
  | cons o ss ih =>
    cases o with
    | none => exact ih l k
    | some s =>
      unfold addSensors
      split
      · exact ih l k
      · have := ih (l ++ [s]) (k + 1)
        exact ⟨by omega, fun h => by omega⟩

theorem eraseP_keys {l : List (Sensor F)} (h : Distinct (l.map (fun s => (s.id, s.name)))) (id : String) :
    (l.eraseP (fun s => s.id == id)).map (fun s => (s.id, s.name)) =
      (l.map (fun s => (s.id, s.name))).filter (fun k => k.1 ≠ id) := by
  induction l with
  | nil => rfl
  | cons a l ih =>
    unfold Distinct at h
    simp only [List.map_cons, List.nodup_cons] at h
    by_cases ha : a.id = id
    · subst ha
      rw [List.eraseP_cons_of_pos (by simp), List.map_cons,
        List.filter_cons_of_neg (by simp), eq_comm, List.filter_eq_self]
      intro b hb
      simp only [ne_eq, decide_eq_true_eq]
      intro hc
      exact h.1 (List.mem_map.mpr ⟨b, hb, hc⟩)
    · rw [List.eraseP_cons_of_neg (by simpa using ha), List.map_cons, List.map_cons, ih h.2,
        List.filter_cons_of_pos (by simpa using ha)]

theorem mirrored_keys {d : Device F} (h : Mirrored d) : published d = held d := by
  have := congrArg (List.map (fun p : String × String × F × F => (p.1, p.2.1))) h
  simpa [published, held, Function.comp_def] using this

theorem updateSensors_mirrored (d : Device F) : Mirrored d.updateSensors := by
  simp [Mirrored, updateSensors, Function.comp_def]

/-- `zipWith` with aligned keys gives a full mirror. -/
theorem zipWith_mirror (ps : List (SensorPub F)) (ss : List (Sensor F))
    (h : ps.map (fun p => (p.id, p.name)) = ss.map (fun s => (s.id, s.name))) :
    (List.zipWith (fun (p : SensorPub F) (s : Sensor F) => { p with valX := s.valX, valY := s.valY })
      ps ss).map (fun p => (p.id, p.name, p.valX, p.valY)) =
    ss.map (fun s => (s.id, s.name, s.valX, s.valY)) := by
  induction ps generalizing ss with
  | nil => cases ss <;> simp_all
  | cons p ps ih =>
    cases ss with
    | nil => simp at h
    | cons s ss =>
      simp only [List.map_cons, List.cons.injEq, Prod.mk.injEq] at h
      simp only [List.zipWith_cons_cons, List.map_cons, ih ss h.2, h.1.1, h.1.2]

theorem updateState_mirrored [GoMath F] {d d' : Device F} (h : published d = held d)
    (hu : d.updateState = .ok d') : Mirrored d' ∧ held d' = held d := by
  obtain ⟨st, hst, rfl⟩ := updateState_eq hu
  have hs : st.sensors = d.state.sensors := (nav_update_frame hst).2.2.2.2.2.2.2.1
  have hl : ¬ d.sensors.length ≠ st.sensors.length := by
    have := congrArg List.length h
    simp only [published, held, List.length_map] at this
    rw [hs]; omega
  refine ⟨?_, rfl⟩
  simp only [Mirrored, refreshed, pubSensors, if_neg hl]
  exact zipWith_mirror _ _ (by rw [hs]; exact h)

theorem sensor_next_keys [GoFloat F] {s s' : Sensor F} {t : F} (h : s.next t = .ok s') :
    (s'.id, s'.name) = (s.id, s.name) := by
  obtain ⟨⟨g, p⟩, -, h⟩ := bind_eq_ok h
  cases h; rfl

theorem mapM_next_keys [GoFloat F] {ss ss' : List (Sensor F)} {t : F}
    (h : ss.mapM (fun s => s.next t) = .ok ss') :
    ss'.map (fun s => (s.id, s.name)) = ss.map (fun s => (s.id, s.name)) := by
  induction ss generalizing ss' with
  | nil => cases h; rfl
  | cons s ss ih =>
    rw [List.mapM_cons] at h
    obtain ⟨s1, h1, h⟩ := bind_eq_ok h
    obtain ⟨ss1, h2, h⟩ := bind_eq_ok h
    cases h
    simp only [List.map_cons, ih h2, sensor_next_keys h1]

theorem shuffle_map {α : Type} [GoFloat F] (ss : List (Sensor F)) (draws : Nat → Nat → F)
    (f : Sensor F → α) (hf : ∀ (s : Sensor F) dr, f (s.shuffle dr) = f s) :
    (shuffleSensors ss draws).map f = ss.map f := by
  apply List.ext_getElem?
  intro i
  simp only [shuffleSensors, List.getElem?_map, List.getElem?_mapIdx]
  cases ss[i]? <;> simp [hf]

theorem shuffle_keys [GoFloat F] (ss : List (Sensor F)) (draws : Nat → Nat → F) :
    (shuffleSensors ss draws).map (fun s => (s.id, s.name)) = ss.map (fun s => (s.id, s.name)) :=
  shuffle_map ss draws _ (fun _ _ => rfl)

/-- What one operation does to the keys, and that the published keys stay aligned. -/
theorem step_keys [GoMath F] {d d' : Device F} {op : DevOp F} (hn : NoRestore op)
    (hd : Distinct (held d)) (hp : published d = held d) (h : d.step op = .ok d') :
    held d' = spec (held d) op ∧ published d' = held d' := by
  have same : ∀ {e : Device F}, held e = held d → published e = published d →
      held e = held d ∧ published e = held e := fun h1 h2 => ⟨h1, by rw [h2, hp, h1]⟩
  cases op with
  | addRoute rs =>
    cases h
    unfold addRoute
    cases d.navigator.addRoute rs with
    | mk n err => cases err <;> exact same rfl rfl
  | removeRoute id =>
    cases h
    unfold removeRoute
    cases d.navigator.removeRoute id with
    | mk n ok => cases ok <;> exact same rfl rfl
  | removeTrack rid tid =>
    cases h
    unfold removeTrack
    cases d.navigator.removeTrack rid tid with
    | mk n ok => cases ok <;> exact same rfl rfl
  | resetRoutes =>
    cases h
    unfold resetRoutes
    cases d.navigator.resetRoutes with
    | mk n ok => cases ok <;> exact same rfl rfl
  | move m => obtain ⟨n, -, rfl⟩ := map_eq_ok h; exact same rfl rfl
  | onRoute i op => cases h; exact same rfl rfl
  | addSensor ss =>
    cases h
    have hk := addSensors_keys d.sensors 0 ss
    have hc := addSensors_count d.sensors 0 ss
    unfold addSensor
    split
    · rename_i hl
      rw [List.length_eq_zero_iff.mp hl]
      exact same rfl rfl
    · simp only
      split
      · exact ⟨hk, mirrored_keys (updateSensors_mirrored _)⟩
      · rename_i h0
        refine ⟨hk, ?_⟩
        have : (addSensors d.sensors 0 ss).1 = d.sensors := hc.2 (by omega)
        simp only [this]
        exact hp
  | removeSensor id =>
    cases h
    unfold removeSensor
    split
    · rename_i hl
      have : id = "" := by
        apply Classical.byContradiction
        intro hne
        have : goLen id > 0 := by
          unfold goLen
          rcases Nat.eq_zero_or_pos id.utf8ByteSize with h | h
          · exact absurd (String.utf8ByteSize_eq_zero_iff.mp h) hne
          · exact h
        omega
      rw [show spec (held d) (.removeSensor id : DevOp F) = held d from if_pos this]
      exact same rfl rfl
    · rename_i hl
      have hne : id ≠ "" := by rintro rfl; exact hl rfl
      simp only [removeFirst_eq, spec, if_neg hne]
      have hk := eraseP_keys hd id
      split
      · exact ⟨hk, mirrored_keys (updateSensors_mirrored _)⟩
      · rename_i hany
        have : d.sensors.eraseP (fun s => s.id == id) = d.sensors := by
          apply List.eraseP_of_forall_not
          intro a ha hc
          exact hany (List.any_eq_true.mpr ⟨a, ha, hc⟩)
        refine ⟨hk, ?_⟩
        simp only [this]
        exact hp
  | resetSensors => cases h; exact ⟨rfl, rfl⟩
  | sensorNext i t =>
    simp only [step, onSensorNext] at h
    split at h
    · cases h; exact same rfl rfl
    · rename_i s hs
      obtain ⟨s', h1, h⟩ := bind_eq_ok h
      cases h
      refine same ?_ rfl
      apply List.ext_getElem?
      intro j
      simp only [held, List.getElem?_map, List.getElem?_set]
      split
      · rename_i hj
        subst hj
        split
        · simp only [hs, Option.map_some, sensor_next_keys h1]
        · rename_i hlt
          rw [List.getElem?_eq_none (by omega)] at hs; cases hs
      · rfl
  | sensorShuffle i draws =>
    cases h
    refine same ?_ rfl
    exact map_modify_of_eq (fun s : Sensor F => (s.id, s.name)) (fun s => s.shuffle draws)
      (fun _ => rfl) _ _
  | next tick rnd =>
    obtain ⟨⟨e, b⟩, he, rfl⟩ := map_eq_ok h
    generalize hres : (e, b).1 = e'
    cases hres
    cases next_outcome he with
    | idle _ => exact same rfl rfl
    | halted _ n1 n2 speed h1 h2 h3 h4 => exact same rfl rfl
    | lap _ n1 n2 speed _ h1 h2 h3 h4 h5 =>
      have hk : held ((d.advanced (d.seconds tick) speed n2).lapped n2.isFinish.1 rnd) = held d :=
        shuffle_keys _ _
      obtain ⟨hm, hh⟩ := updateState_mirrored (by rw [hk]; exact hp) h5
      exact ⟨hh.trans hk, mirrored_keys hm⟩
    | moved _ n1 n2 n3 speed ss d2 _ h1 h2 h3 h4 h5 hd2 h6 =>
      have hk : held d2 = held d := by rw [hd2]; exact mapM_next_keys h5
      have hp2 : published d2 = published d := by rw [hd2]; rfl
      have hh : ∀ e : Device F, held e = held d2 → published e = published d2 →
          ∀ e', e.updateState = .ok e' → held e' = held d ∧ published e' = held e' := by
        intro e a1 a2 e' a3
        obtain ⟨hm, hh⟩ := updateState_mirrored (by rw [a1, a2, hp2, hk]; exact hp) a3
        exact ⟨hh.trans (a1.trans hk), mirrored_keys hm⟩
      split at h6
      · exact hh d2.updateRoutes rfl rfl _ h6
      · exact hh d2 rfl rfl _ h6
  | skipTick => cases h; exact same rfl rfl
  | update =>
    obtain ⟨st, hst, rfl⟩ := update_eq h
    exact ⟨rfl, mirrored_keys (updateSensors_mirrored _)⟩
  | setModel s => cases h; unfold setModel; split <;> exact same rfl rfl
  | setUserID s => cases h; exact same rfl rfl
  | setDescription s => cases h; exact same rfl rfl
  | setColor c => cases h; unfold setColor; split <;> exact same rfl rfl
  | fromSnapshot m => exact hn.elim

theorem new_keys [GoFloat F] {rnd : DeviceRnd F} {o : Option (DeviceOptions F)} {d : Device F}
    (h : Device.new rnd o = .ok d) : held d = [] ∧ published d = [] ∧ Mirrored d := by
  obtain ⟨n, speed, bat, st, hn, -, -, hst, rfl⟩ := Device.new_eq h
  obtain ⟨_, _, rfl, -, -⟩ := applyFor_eq hst
  exact ⟨rfl, rfl, rfl⟩

theorem run_keys [GoMath F] {d d' : Device F} {ops : List (DevOp F)} (hn : ∀ op ∈ ops, NoRestore op)
    (hd : Distinct (held d)) (hp : published d = held d) (h : d.run ops = .ok d') :
    held d' = ops.foldl spec (held d) ∧ published d' = held d' ∧ Distinct (held d') := by
  induction ops generalizing d with
  | nil => cases h; exact ⟨rfl, hp, hd⟩
  | cons op ops ih =>
    obtain ⟨d1, h1, h2⟩ := bind_eq_ok h
    obtain ⟨a1, a2⟩ := step_keys (hn op (by simp)) hd hp h1
    have := ih (fun o ho => hn o (by simp [ho])) (by rw [a1]; exact spec_distinct hd op) a2 h2
    rw [a1] at this
    exact this

/-- **C26.** After any history a device's sensors are the insertion-ordered set that the operations
describe, their ids are pairwise different, and the published sensors have the same ids and names in
the same order. -/
theorem sensors_refine [GoMath F] (rnd : DeviceRnd F) (o : Option (DeviceOptions F))
    (d0 d : Device F) (ops : List (DevOp F)) (hn : ∀ op ∈ ops, NoRestore op)
    (h0 : Device.new rnd o = .ok d0) (h : d0.run ops = .ok d) :
    held d = ops.foldl spec [] ∧ Distinct (held d) ∧ published d = held d := by
  obtain ⟨e1, e2, -⟩ := new_keys h0
  obtain ⟨a1, a2, a3⟩ := run_keys hn (by rw [e1]; exact List.nodup_nil) (by rw [e1, e2]) h
  rw [e1] at a1
  exact ⟨a1, a3, a2⟩

theorem step_mirrored [GoMath F] {d d' : Device F} {op : DevOp F} (hs : NoSensorNext op)
    (hm : Mirrored d) (h : d.step op = .ok d') : Mirrored d' := by
  have hp := mirrored_keys hm
  cases op with
  | addRoute rs =>
    cases h
    unfold addRoute
    cases d.navigator.addRoute rs with
    | mk n err => cases err <;> exact hm
  | removeRoute id =>
    cases h
    unfold removeRoute
    cases d.navigator.removeRoute id with
    | mk n ok => cases ok <;> exact hm
  | removeTrack rid tid =>
    cases h
    unfold removeTrack
    cases d.navigator.removeTrack rid tid with
    | mk n ok => cases ok <;> exact hm
  | resetRoutes =>
    cases h
    unfold resetRoutes
    cases d.navigator.resetRoutes with
    | mk n ok => cases ok <;> exact hm
  | move m => obtain ⟨n, -, rfl⟩ := map_eq_ok h; exact hm
  | onRoute i op => cases h; exact hm
  | addSensor ss =>
    cases h
    have hc := addSensors_count d.sensors 0 ss
    unfold addSensor
    split
    · exact hm
    · simp only
      split
      · exact updateSensors_mirrored _
      · have : (addSensors d.sensors 0 ss).1 = d.sensors := hc.2 (by omega)
        simp only [this]
        exact hm
  | removeSensor id =>
    cases h
    unfold removeSensor
    split
    · exact hm
    · simp only [removeFirst_eq]
      split
      · exact updateSensors_mirrored _
      · rename_i hany
        have : d.sensors.eraseP (fun s => s.id == id) = d.sensors := by
          apply List.eraseP_of_forall_not
          intro a ha hc
          exact hany (List.any_eq_true.mpr ⟨a, ha, hc⟩)
        simp only [this]
        exact hm
  | resetSensors => cases h; exact updateSensors_mirrored _
  | sensorNext i t => exact hs.elim
  | sensorShuffle i draws =>
    cases h
    unfold Mirrored at hm ⊢
    rw [hm]
    exact (map_modify_of_eq (fun s : Sensor F => (s.id, s.name, s.valX, s.valY))
      (fun s => s.shuffle draws) (fun _ => rfl) _ _).symm
  | next tick rnd =>
    obtain ⟨⟨e, b⟩, he, rfl⟩ := map_eq_ok h
    generalize hres : (e, b).1 = e'
    cases hres
    cases next_outcome he with
    | idle _ => exact hm
    | halted _ n1 n2 speed h1 h2 h3 h4 => exact hm
    | lap _ n1 n2 speed _ h1 h2 h3 h4 h5 =>
      have hk : held ((d.advanced (d.seconds tick) speed n2).lapped n2.isFinish.1 rnd) = held d :=
        shuffle_keys _ _
      exact (updateState_mirrored (by rw [hk]; exact hp) h5).1
    | moved _ n1 n2 n3 speed ss d2 _ h1 h2 h3 h4 h5 hd2 h6 =>
      have hk : held d2 = held d := by rw [hd2]; exact mapM_next_keys h5
      have hp2 : published d2 = published d := by rw [hd2]; rfl
      have hh : published d2 = held d2 := by rw [hp2, hk, hp]
      split at h6
      · exact (updateState_mirrored (d := d2.updateRoutes) hh h6).1
      · exact (updateState_mirrored hh h6).1
  | skipTick => cases h; exact hm
  | update =>
    obtain ⟨st, hst, rfl⟩ := update_eq h
    exact updateSensors_mirrored _
  | setModel s => cases h; unfold setModel; split <;> exact hm
  | setUserID s => cases h; exact hm
  | setDescription s => cases h; exact hm
  | setColor c => cases h; unfold setColor; split <;> exact hm
  | fromSnapshot m =>
    obtain ⟨n, speed, battery, sensors, d1, -, -, -, -, hu, rfl⟩ := fromSnapshotOnto_eq h
    exact (updateState_mirrored (mirrored_keys (updateSensors_mirrored _)) hu).1

/-- **C26, the mirror.** After every operation of any history (also after restoring any snapshot) the
published sensors are the device's sensors with their ids, names and values, as long as the client
does not evaluate a held sensor itself. -/
theorem sensors_mirrored [GoMath F] (rnd : DeviceRnd F) (o : Option (DeviceOptions F))
    (d0 d : Device F) (ops : List (DevOp F)) (hn : ∀ op ∈ ops, NoSensorNext op)
    (h0 : Device.new rnd o = .ok d0) (h : d0.run ops = .ok d) : Mirrored d := by
  have key : ∀ {e : Device F}, Mirrored e → e.run ops = .ok d → Mirrored d := by
    clear h h0
    induction ops with
    | nil => intro e he h; cases h; exact he
    | cons op ops ih =>
      intro e he h
      obtain ⟨d1, h1, h2⟩ := bind_eq_ok h
      exact ih (fun o ho => hn o (by simp [ho])) (step_mirrored (hn op (by simp)) he h1) h2
  exact key (new_keys h0).2.2 h

/-- Even if the client evaluates held sensors itself, an effective sensor operation, a successful
`Next` and `Update` publish the current values. -/
theorem refreshing_ops_mirror [GoMath F] (d : Device F) (hp : published d = held d) :
    (∀ ss, held (d.addSensor ss) ≠ held d → Mirrored (d.addSensor ss)) ∧
    (∀ id, (d.removeSensor id).2 = true → Mirrored (d.removeSensor id).1) ∧
    Mirrored d.resetSensors ∧
    (∀ d', d.update = .ok d' → Mirrored d') ∧
    (∀ d' tick rnd, d.next tick rnd = .ok (d', true) → Mirrored d') := by
  refine ⟨fun ss h => ?_, fun id h => ?_, updateSensors_mirrored _, fun d' h => ?_,
    fun d' tick rnd h => ?_⟩
  · have hc := addSensors_count d.sensors 0 ss
    unfold addSensor at h ⊢
    split
    · rename_i hl
      rw [if_pos hl] at h
      exact absurd rfl h
    · rename_i hl
      simp only [if_neg hl] at h ⊢
      split
      · exact updateSensors_mirrored _
      · rename_i h0
        rw [if_neg h0] at h
        have : (addSensors d.sensors 0 ss).1 = d.sensors := hc.2 (by omega)
        simp only [this] at h
        exact absurd rfl h
  · unfold removeSensor at h ⊢
    split
    · rename_i hl
      rw [if_pos hl] at h; cases h
    · rename_i hl
      simp only [if_neg hl] at h ⊢
      split
      · exact updateSensors_mirrored _
      · rename_i h0
        rw [if_neg h0] at h; cases h
  · obtain ⟨st, hst, rfl⟩ := update_eq h
    exact updateSensors_mirrored _
  · cases next_outcome h with
    | moved _ n1 n2 n3 speed ss d2 _ h1 h2 h3 h4 h5 hd2 h6 =>
      have hk : held d2 = held d := by rw [hd2]; exact mapM_next_keys h5
      have hp2 : published d2 = published d := by rw [hd2]; rfl
      have hh : published d2 = held d2 := by rw [hp2, hk, hp]
      split at h6
      · exact (updateState_mirrored (d := d2.updateRoutes) hh h6).1
      · exact (updateState_mirrored hh h6).1

/-- The getters read the list of sensors. -/
theorem lookups_agree (d : Device F) (hd : Distinct (held d)) :
    d.numSensors = d.sensors.length ∧
    (∀ s ∈ d.sensors, d.sensorByID s.id = some s) ∧
    (∀ id, (d.sensorByID id).isSome ↔ ∃ s ∈ d.sensors, s.id = id) ∧
    (∀ i : Nat, d.sensorAt i = d.sensors[i]?) ∧ (∀ i : Int, i < 0 → d.sensorAt i = none) := by
  refine ⟨rfl, ?_, ?_, ?_, ?_⟩
  · unfold Distinct held at hd
    unfold sensorByID
    generalize d.sensors = l at hd
    intro s hs
    induction l with
    | nil => cases hs
    | cons a l ih =>
      simp only [List.map_cons, List.nodup_cons] at hd
      rw [List.find?_cons]
      rcases List.mem_cons.mp hs with rfl | hs
      · simp
      · have : (a.id == s.id) = false := by
          apply Bool.eq_false_iff.mpr
          intro hc
          refine hd.1 (List.mem_map.mpr ⟨(s.id, s.name), List.mem_map.mpr ⟨s, hs, rfl⟩, ?_⟩)
          simpa using (beq_iff_eq.mp hc).symm
        rw [this]
        exact ih hd.2 hs
  · intro id
    unfold sensorByID
    rw [List.find?_isSome]
    simp [beq_iff_eq]
  · intro i
    unfold sensorAt goAt?
    rw [if_pos (by omega)]
    rfl
  · intro i hi
    unfold sensorAt goAt?
    rw [if_neg (by omega)]

/-- Removing a held sensor reports success and removes it; removing an unknown one reports failure
and changes nothing. -/
theorem removeSensor_spec (d : Device F) (id : String) (hid : id ≠ "") (hd : Distinct (held d)) :
    ((d.removeSensor id).2 = true ↔ ∃ s ∈ d.sensors, s.id = id) ∧
    ((d.removeSensor id).1.sensorByID id = none) ∧
    ((d.removeSensor id).2 = false → (d.removeSensor id).1.sensors = d.sensors) := by
  have hl : ¬ goLen id = 0 := fun h => hid (String.utf8ByteSize_eq_zero_iff.mp h)
  have hk := eraseP_keys hd id
  have hnone : ∀ e : Device F, e.sensors = d.sensors.eraseP (fun s => s.id == id) →
      e.sensorByID id = none := by
    intro e he
    unfold sensorByID
    rw [he, List.find?_eq_none]
    intro s hs hc
    have : (s.id, s.name) ∈ (d.sensors.eraseP (fun s => s.id == id)).map (fun s => (s.id, s.name)) :=
      List.mem_map.mpr ⟨s, hs, rfl⟩
    rw [hk] at this
    have := (List.mem_filter.mp this).2
    simp only [ne_eq, decide_eq_true_eq] at this
    exact this (by simpa using hc)
  unfold removeSensor
  simp only [if_neg hl, removeFirst_eq]
  by_cases ha : d.sensors.any (fun s => s.id == id) = true
  · rw [if_pos ha]
    refine ⟨⟨fun _ => by simpa using ha, fun _ => rfl⟩, hnone _ rfl, fun h => (by cases h)⟩
  · rw [if_neg ha]
    refine ⟨⟨fun h => (by cases h), fun h => absurd (by simpa using h) ha⟩, hnone _ rfl, fun _ => ?_⟩
    apply List.eraseP_of_forall_not
    intro a hm hc
    exact ha (List.any_eq_true.mpr ⟨a, hm, hc⟩)

/-! ## Non-vacuity -/

/-- A sensor. -/
def sensor (id name : String) : Sensor Toy :=
  match Sensor.new id (fun _ => Toy.of 0) name (Toy.of 0) (Toy.of 10) 4 0 with
  | .ok s => s
  | .error _ => ⟨"", "", Toy.of 0, Toy.of 0, Toy.of 0, Toy.of 0, ⟨[], 0, Toy.of 0, Toy.of 0⟩⟩

/-- Three additions (one a duplicate, one nil), a tick, a removal. -/
def history : List (DevOp Toy) :=
  [.addSensor [some (sensor "a" "x"), none, some (sensor "b" "y")],
   .addSensor [some (sensor "a" "z"), some (sensor "c" "w")],
   .addRoute [some Toy.route], .next (Toy.of 1) Toy.nextRnd, .removeSensor "b"]

example : (Toy.dev history).map (fun d => (held d, published d, d.numSensors)) =
    some ([("a", "x"), ("c", "w")], [("a", "x"), ("c", "w")], 2) := by decide +kernel

example : (history.foldl spec [] : Keys) = [("a", "x"), ("c", "w")] := by decide +kernel

example : (Toy.dev history).map (fun d => d.state.sensors.map (fun s => decide (s.valX ≠ Toy.of 0)))
    = some [true, true] := by decide +kernel

end C26
end GpsGen
