import Verif.Model.SharedSensors
import Verif.Lemmas.DeviceNext
import Verif.Lemmas.DeviceSafe
import Verif.Theorems.C29
/-!
# Helper lemmas: devices that differ in their sensors only
-/

namespace GpsGen
variable {F κ : Type}

namespace Device

/-- The device without sensors. -/
def bare (d : Device F) : Device F := { d with sensors := [], state := { d.state with sensors := [] } }

/-- The device with other sensors, published and held. -/
def sub (d : Device F) (ss : List (Sensor F)) (ps : List (SensorPub F)) : Device F :=
  { d with sensors := ss, state := { d.state with sensors := ps } }

/-- Two devices that differ only in their sensors, which agree in `key`; the published ones agree in id and name. -/
structure Kin (key : Sensor F → κ) (d e : Device F) : Prop where
  bare : d.bare = e.bare
  held : d.sensors.map key = e.sensors.map key
  shown : d.state.sensors.map (fun p => (p.id, p.name)) = e.state.sensors.map (fun p => (p.id, p.name))

/-- What `Next` and `Shuffle` of a sensor do can be told from `key`, as far as `key` tells. -/
structure Telling [GoFloat F] (key : Sensor F → κ) : Prop where
  id : ∀ {s s' : Sensor F}, key s = key s' → s.id = s'.id ∧ s.name = s'.name
  next : ∀ {s s' r : Sensor F} {t : F}, key s = key s' → s.next t = .ok r → ∃ r', s'.next t = .ok r' ∧ key r = key r'
  shuffle : ∀ {s s' : Sensor F} (d : Nat → F), key s = key s' → key (s.shuffle d) = key (s'.shuffle d)

theorem Kin.eq_sub {key : Sensor F → κ} {d e : Device F} (h : Kin key d e) : e = d.sub e.sensors e.state.sensors := by
  have hb := h.bare
  obtain ⟨⟩ := d
  obtain ⟨a, b, c, d, st, g⟩ := e
  rename_i st' _ _ _ _
  cases st
  cases st'
  simp only [Device.bare, Device.mk.injEq, DevState.mk.injEq] at hb
  simp only [sub, Device.mk.injEq, DevState.mk.injEq]
  simp_all

theorem kin_sub {key : Sensor F → κ} {d : Device F} {ss : List (Sensor F)} {ps : List (SensorPub F)}
    (h1 : d.sensors.map key = ss.map key)
    (h2 : d.state.sensors.map (fun p => (p.id, p.name)) = ps.map (fun p => (p.id, p.name))) : Kin key d (d.sub ss ps) :=
  ⟨rfl, h1, h2⟩

theorem Kin.refl (key : Sensor F → κ) (d : Device F) : Kin key d d := ⟨rfl, rfl, rfl⟩

theorem Kin.trans {key : Sensor F → κ} {d e f : Device F} (h : Kin key d e) (h' : Kin key e f) : Kin key d f :=
  ⟨h.bare.trans h'.bare, h.held.trans h'.held, h.shown.trans h'.shown⟩

theorem Kin.symm {key : Sensor F → κ} {d e : Device F} (h : Kin key d e) : Kin key e d :=
  ⟨h.bare.symm, h.held.symm, h.shown.symm⟩

theorem map_ids [GoFloat F] {key : Sensor F → κ} (hk : Telling key) {l l' : List (Sensor F)} (h : l.map key = l'.map key) :
    l.map (fun s => (s.id, s.name)) = l'.map (fun s => (s.id, s.name)) := by
  induction l generalizing l' with
  | nil => cases l' with
    | nil => rfl
    | cons => cases h
  | cons a l ih => cases l' with
    | nil => cases h
    | cons b l' =>
      simp only [List.map_cons, List.cons.injEq] at h ⊢
      obtain ⟨h1, h2⟩ := hk.id h.1
      exact ⟨by rw [h1, h2], ih h.2⟩

theorem mapM_next [GoFloat F] {key : Sensor F → κ} (hk : Telling key) {l l' r : List (Sensor F)} {t : F}
    (h : l.map key = l'.map key) (hr : l.mapM (fun s => s.next t) = .ok r) :
    ∃ r', l'.mapM (fun s => s.next t) = .ok r' ∧ r.map key = r'.map key := by
  induction l generalizing l' r with
  | nil =>
    cases l' with
    | nil => exact ⟨r, hr, rfl⟩
    | cons => cases h
  | cons a l ih => cases l' with
    | nil => cases h
    | cons b l' =>
      simp only [List.map_cons, List.cons.injEq] at h
      rw [List.mapM_cons] at hr
      obtain ⟨a1, ha, hr⟩ := bind_eq_ok hr
      obtain ⟨l1, hl, hr⟩ := bind_eq_ok hr
      cases hr
      obtain ⟨b1, hb, hb'⟩ := hk.next h.1 ha
      obtain ⟨l2, h2, h2'⟩ := ih h.2 hl
      refine ⟨b1 :: l2, ?_, by simp [hb', h2']⟩
      rw [List.mapM_cons, hb, h2]
      rfl

theorem map_shuffle [GoFloat F] {key : Sensor F → κ} (hk : Telling key) {l l' : List (Sensor F)}
    (draws : Nat → Nat → F) (h : l.map key = l'.map key) :
    (shuffleSensors l draws).map key = (shuffleSensors l' draws).map key := by
  unfold shuffleSensors
  induction l generalizing l' draws with
  | nil => cases l' with
    | nil => rfl
    | cons => cases h
  | cons a l ih => cases l' with
    | nil => cases h
    | cons b l' =>
      simp only [List.map_cons, List.cons.injEq] at h
      simp only [List.mapIdx_cons, List.map_cons, List.cons.injEq]
      exact ⟨hk.shuffle _ h.1, ih (fun i => draws (i + 1)) h.2⟩

theorem shown_pub [GoMath F] {key : Sensor F → κ} (hk : Telling key) {l l' : List (Sensor F)} {o o' : List (SensorPub F)}
    (h : l.map key = l'.map key) (ho : o.map (fun p => (p.id, p.name)) = o'.map (fun p => (p.id, p.name))) :
    (pubSensors o l).map (fun p => (p.id, p.name)) = (pubSensors o' l').map (fun p => (p.id, p.name)) := by
  have e1 : l.length = l'.length := by simpa using congrArg List.length h
  have e2 : o.length = o'.length := by simpa using congrArg List.length ho
  unfold pubSensors
  rw [← e1, ← e2]
  split
  · simpa [List.map_map, Function.comp_def] using map_ids hk h
  · rename_i hl
    have key : ∀ (o : List (SensorPub F)) (l : List (Sensor F)), l.length = o.length →
        (List.zipWith (fun (p : SensorPub F) (s : Sensor F) => { p with valX := s.valX, valY := s.valY }) o l).map
          (fun p => (p.id, p.name)) = o.map (fun p => (p.id, p.name)) := by
      intro o
      induction o with
      | nil => intro l _; cases l <;> rfl
      | cons p o ih =>
        intro l hl
        cases l with
        | nil => cases hl
        | cons s l => simp only [List.zipWith_cons_cons, List.map_cons]; rw [ih l (by simpa using hl)]
    have hl' : l.length = o.length := Decidable.not_not.mp hl
    rw [key o l hl', key o' l' (by omega), ho]

section
variable [GoMath F]

theorem update_sensors (n : Navigator F) (st : DevState F) (ps : List (SensorPub F)) :
    n.update { st with sensors := ps } = (n.update st).map fun st => { st with sensors := ps } := by
  unfold Navigator.update
  cases n.routeDistance <;> try rfl
  cases n.trackDistance <;> try rfl
  cases n.segmentDistance <;> try rfl
  cases n.currentRoute <;> try rfl
  cases n.currentTrack <;> try rfl
  cases n.currentBearing <;> rfl

theorem update_keeps (n : Navigator F) {st st' : DevState F} (h : n.update st = .ok st') : st'.sensors = st.sensors := by
  have := update_sensors n st st.sensors
  rw [show ({ st with sensors := st.sensors } : DevState F) = st from rfl, h] at this
  have := Except.ok.inj this
  rw [this]

theorem updateState_kin {key : Sensor F → κ} (hk : Telling key) {d e d' : Device F} (h : Kin key d e)
    (hd : d.updateState = .ok d') : ∃ e', e.updateState = .ok e' ∧ Kin key d' e' := by
  obtain ⟨st, h1, rfl⟩ := updateState_eq hd
  have hp := update_keeps _ h1
  rw [h.eq_sub]
  refine ⟨(d.sub e.sensors e.state.sensors).refreshed { st with sensors := e.state.sensors }, ?_, ?_⟩
  · have h2 : d.navigator.update { d.state with sensors := e.state.sensors } = .ok { st with sensors := e.state.sensors } := by
      rw [update_sensors, h1]; rfl
    unfold updateState
    rw [show (d.sub e.sensors e.state.sensors).navigator.update (d.sub e.sensors e.state.sensors).state = _ from h2]
    simp only [ok_bind, pure_eq_ok]
    unfold refreshed pubSensors
    by_cases hl : e.sensors.length = e.state.sensors.length <;> simp [sub, updateSensors, hl]
  · refine ⟨rfl, h.held, ?_⟩
    exact shown_pub hk h.held (by rw [hp]; exact h.shown)

theorem updateRoutes_kin {key : Sensor F → κ} {d e : Device F} (h : Kin key d e) :
    Kin key d.updateRoutes e.updateRoutes := by
  rw [h.eq_sub]
  exact ⟨rfl, h.held, h.shown⟩

theorem updateSensors_kin {key : Sensor F → κ} (hk : Telling key) {d e : Device F} (h : Kin key d e) :
    Kin key d.updateSensors e.updateSensors := by
  refine ⟨?_, h.held, ?_⟩
  · rw [h.eq_sub]; rfl
  · simpa [updateSensors, List.map_map, Function.comp_def] using map_ids hk h.held

theorem drain_kin {key : Sensor F → κ} {d e d' : Device F} (h : Kin key d e) {s : F} {x : UInt32}
    (hd : d.drain s x = .ok d') : ∃ e', e.drain s x = .ok e' ∧ Kin key d' e' := by
  rw [h.eq_sub]
  unfold drain at hd ⊢
  dsimp only at hd ⊢
  rw [show (d.sub e.sensors e.state.sensors).battery = d.battery from rfl,
    show (d.sub e.sensors e.state.sensors).navigator = d.navigator from rfl]
  split at hd
  · rename_i hl
    rw [if_pos hl]
    obtain ⟨n, hn, hd⟩ := bind_eq_ok hd
    cases hd
    rw [hn]
    exact ⟨_, rfl, rfl, h.held, h.shown⟩
  · rename_i hl
    rw [if_neg hl]
    cases hd
    exact ⟨_, rfl, rfl, h.held, h.shown⟩

theorem halt_kin {key : Sensor F → κ} (hk : Telling key) {d e d' : Device F} (h : Kin key d e) {rnd : NextRnd F}
    (hd : d.halt rnd = .ok d') : ∃ e', e.halt rnd = .ok e' ∧ Kin key d' e' := by
  rw [h.eq_sub]
  unfold halt at hd ⊢
  dsimp only at hd ⊢
  rw [show (d.sub e.sensors e.state.sensors).updateOfflineState.navigator = d.updateOfflineState.navigator from rfl]
  split at hd
  · rename_i hf
    rw [if_pos hf]
    refine updateState_kin hk ?_ hd
    exact ⟨rfl, map_shuffle hk _ h.held, h.shown⟩
  · rename_i hf
    rw [if_neg hf]
    cases hd
    exact ⟨_, rfl, rfl, h.held, h.shown⟩

theorem bind_of_ok {ε α β : Type} {g : Except ε α} {f : α → Except ε β} {a : α} {r : Except ε β} (h : g = .ok a)
    (h' : f a = r) : g >>= f = r := by
  rw [h]; exact h'

theorem proceed_kin {key : Sensor F → κ} (hk : Telling key) {d e d' : Device F} (h : Kin key d e) {t : F}
    (hd : d.proceed t = .ok d') : ∃ e', e.proceed t = .ok e' ∧ Kin key d' e' := by
  have hh := h.held
  have hp := h.shown
  rw [h.eq_sub]
  generalize e.sensors = ss at hh
  generalize e.state.sensors = ps at hp
  unfold proceed at hd
  obtain ⟨n, hn, hd⟩ := bind_eq_ok hd
  obtain ⟨r, hs, hd⟩ := bind_eq_ok hd
  obtain ⟨r', hs', hkk⟩ := mapM_next hk hh hs
  have h1 : Kin key { d with navigator := n, sensors := r } { d.sub ss ps with navigator := n, sensors := r' } :=
    ⟨rfl, hkk, hp⟩
  dsimp only at hd
  split at hd
  · rename_i hc
    obtain ⟨e', he, k⟩ := updateState_kin hk (updateRoutes_kin h1) hd
    refine ⟨e', ?_, k⟩
    refine bind_of_ok hn (bind_of_ok hs' ?_)
    dsimp only
    exact (congrArg updateState (if_pos hc)).trans he
  · rename_i hc
    obtain ⟨e', he, k⟩ := updateState_kin hk h1 hd
    refine ⟨e', ?_, k⟩
    refine bind_of_ok hn (bind_of_ok hs' ?_)
    dsimp only
    exact (congrArg updateState (if_neg hc)).trans he

theorem next_kin {key : Sensor F → κ} (hk : Telling key) {d e d' : Device F} (h : Kin key d e) {tick : F} {rnd : NextRnd F}
    {b : Bool} (hd : d.next tick rnd = .ok (d', b)) : ∃ e', e.next tick rnd = .ok (e', b) ∧ Kin key d' e' := by
  have hh := h.held
  have hp := h.shown
  rw [h.eq_sub]
  generalize e.sensors = ss at hh
  generalize e.state.sensors = ps at hp
  unfold next at hd
  split at hd
  · rename_i h0
    cases hd
    exact ⟨_, if_pos h0, rfl, hh, hp⟩
  · rename_i h0
    obtain ⟨d1, h1, hd⟩ := bind_eq_ok hd
    have k0 : Kin key { d with tick := 0, state := { d.state with
        duration := d.state.duration +. (lit d.tick.toNat +. tick), tick := lit d.tick.toNat +. tick } }
        { d.sub ss ps with tick := 0, state := { (d.sub ss ps).state with
          duration := d.state.duration +. (lit d.tick.toNat +. tick), tick := lit d.tick.toNat +. tick } } :=
      ⟨rfl, hh, hp⟩
    obtain ⟨e1, he1, k1⟩ := drain_kin k0 h1
    obtain ⟨sp, h2, hd⟩ := bind_eq_ok hd
    have h2' : e1.speed.next (e1.nextT (lit d.tick.toNat +. tick)) = .ok sp := by rw [k1.eq_sub]; exact h2
    obtain ⟨⟨n, ok⟩, h3, hd⟩ := bind_eq_ok hd
    have h3' : e1.navigator.nextLocation (lit d.tick.toNat +. tick) sp.value rnd.loc = .ok (n, ok) := by
      rw [k1.eq_sub]; exact h3
    obtain ⟨d2, h4, hd⟩ := bind_eq_ok hd
    cases hd
    have k2 : Kin key { d1 with speed := sp, state := { d1.state with speed := sp.value }, navigator := n }
        { e1 with speed := sp, state := { e1.state with speed := sp.value }, navigator := n } := by
      refine ⟨?_, k1.held, k1.shown⟩
      rw [k1.eq_sub]; rfl
    cases b with
    | true =>
      have ht : d1.nextT (lit d.tick.toNat +. tick) = e1.nextT (lit d.tick.toNat +. tick) := by rw [k1.eq_sub]; rfl
      obtain ⟨e2, h5, k3⟩ := proceed_kin hk k2 h4
      rw [ht] at h5
      refine ⟨e2, (if_neg h0).trans ?_, k3⟩
      exact bind_of_ok he1 (bind_of_ok h2' (bind_of_ok h3' (bind_of_ok h5 rfl)))
    | false =>
      obtain ⟨e2, h5, k3⟩ := halt_kin hk k2 h4
      refine ⟨e2, (if_neg h0).trans ?_, k3⟩
      exact bind_of_ok he1 (bind_of_ok h2' (bind_of_ok h3' (bind_of_ok h5 rfl)))

theorem any_key {key : Sensor F → κ} (hk : Telling key) {l l' : List (Sensor F)} (h : l.map key = l'.map key) (id : String) :
    hasSensor l id = hasSensor l' id := by
  have := map_ids hk h
  unfold hasSensor
  have e : ∀ l : List (Sensor F), l.any (fun s => s.id == id) = (l.map fun s => (s.id, s.name)).any fun p => p.1 == id := by
    intro l; rw [List.any_map]; rfl
  rw [e, e, this]

theorem addSensors_kin {key : Sensor F → κ} (hk : Telling key) (ss : List (Option (Sensor F))) {l l' : List (Sensor F)} (n : Nat)
    (h : l.map key = l'.map key) :
    (addSensors l n ss).1.map key = (addSensors l' n ss).1.map key ∧ (addSensors l n ss).2 = (addSensors l' n ss).2 := by
  induction ss generalizing l l' n with
  | nil => exact ⟨h, rfl⟩
  | cons s ss ih =>
    cases s with
    | none => exact ih n h
    | some s =>
      simp only [addSensors]
      rw [any_key hk h]
      split
      · exact ih n h
      · exact ih (n + 1) (by simp [h])

theorem addSensor_kin {key : Sensor F → κ} (hk : Telling key) {d e : Device F} (h : Kin key d e) (ss : List (Option (Sensor F))) :
    Kin key (d.addSensor ss) (e.addSensor ss) := by
  unfold addSensor
  split
  · exact h
  · obtain ⟨h1, h2⟩ := addSensors_kin hk ss 0 h.held
    have k1 : Kin key { d with sensors := (addSensors d.sensors 0 ss).1 } { e with sensors := (addSensors e.sensors 0 ss).1 } := by
      refine ⟨?_, h1, h.shown⟩
      rw [h.eq_sub]; rfl
    dsimp only
    rw [← h2]
    split
    · exact updateSensors_kin hk k1
    · exact k1

theorem removeFirst_kin {key : Sensor F → κ} (hk : Telling key) (id : String) {l l' : List (Sensor F)} (h : l.map key = l'.map key) :
    (removeFirst (fun s : Sensor F => s.id == id) l).1.map key = (removeFirst (fun s : Sensor F => s.id == id) l').1.map key ∧
    (removeFirst (fun s : Sensor F => s.id == id) l).2 = (removeFirst (fun s : Sensor F => s.id == id) l').2 := by
  induction l generalizing l' with
  | nil => cases l' with
    | nil => exact ⟨rfl, rfl⟩
    | cons => cases h
  | cons a l ih => cases l' with
    | nil => cases h
    | cons b l' =>
      simp only [List.map_cons, List.cons.injEq] at h
      simp only [removeFirst, (hk.id h.1).1]
      split
      · exact ⟨h.2, rfl⟩
      · obtain ⟨h1, h2⟩ := ih h.2
        exact ⟨by simp [h.1, h1], h2⟩

theorem removeSensor_kin {key : Sensor F → κ} (hk : Telling key) {d e : Device F} (h : Kin key d e) (id : String) :
    Kin key (d.removeSensor id).1 (e.removeSensor id).1 := by
  unfold removeSensor
  split
  · exact h
  · obtain ⟨h1, h2⟩ := removeFirst_kin hk id h.held
    have k1 : Kin key { d with sensors := (removeFirst (fun s : Sensor F => s.id == id) d.sensors).1 }
        { e with sensors := (removeFirst (fun s : Sensor F => s.id == id) e.sensors).1 } := by
      refine ⟨?_, h1, h.shown⟩
      rw [h.eq_sub]; rfl
    dsimp only
    rw [← h2]
    split
    · exact updateSensors_kin hk k1
    · exact k1

theorem fromSnapshot_kin {key : Sensor F → κ} (hk : Telling key) {d e d' : Device F} (h : Kin key d e) {m : SnapMsg F}
    (hd : d.fromSnapshot m = .ok d') : ∃ e', e.fromSnapshot m = .ok e' ∧ Kin key d' e' := by
  have ht : e.tick = d.tick := by rw [h.eq_sub]; rfl
  unfold Device.fromSnapshot fromSnapshotOnto at hd ⊢
  rw [ht]
  obtain ⟨n, h1, hd⟩ := bind_eq_ok hd
  obtain ⟨sp, h2, hd⟩ := bind_eq_ok hd
  obtain ⟨ba, h3, hd⟩ := bind_eq_ok hd
  obtain ⟨ss, h4, hd⟩ := bind_eq_ok hd
  obtain ⟨d1, h5, hd⟩ := bind_eq_ok hd
  cases hd
  obtain ⟨ss', h4', hss⟩ : ∃ ss', (if m.sensors.length > 0 then m.sensors.mapM (fun s => Sensor.fromSnapshot (some s))
      else .ok e.sensors) = .ok ss' ∧ ss.map key = ss'.map key := by
    split at h4
    · rename_i hl
      rw [if_pos hl]
      exact ⟨ss, h4, rfl⟩
    · rename_i hl
      rw [if_neg hl]
      cases h4
      exact ⟨_, rfl, h.held⟩
  let mk : List (Sensor F) → Device F := fun ss => {
      status := m.status % 256, navigator := n, speed := sp, battery := ba
      state := { DevState.init with
        id := m.id, userId := m.userId, tick := m.tick, model := m.model, color := m.color
        description := m.descr, duration := m.duration, speed := sp.value }
      sensors := ss, avgT := lit 0, tick := d.tick, ns := (0, 0, 0) }
  have k0 : Kin key (mk ss) (mk ss') := ⟨rfl, hss, rfl⟩
  obtain ⟨e1, h5', k⟩ := updateState_kin hk (updateSensors_kin hk k0) h5
  exact ⟨e1.updateRoutes, bind_of_ok h1 (bind_of_ok h2 (bind_of_ok h3 (bind_of_ok h4' (bind_of_ok h5' rfl)))),
    updateRoutes_kin k⟩

/-- Calls of the sensors of a device. -/
def direct : DevOp F → Bool
  | .sensorNext .. | .sensorShuffle .. => true
  | _ => false

theorem step_kin {key : Sensor F → κ} (hk : Telling key) {d e d' : Device F} (h : Kin key d e) {op : DevOp F}
    (ho : direct op = false) (hd : d.step op = .ok d') : ∃ e', e.step op = .ok e' ∧ Kin key d' e' := by
  have hh := h.held
  have hp := h.shown
  have hs := h.eq_sub
  cases op with
  | addSensor ss => cases hd; exact ⟨_, rfl, addSensor_kin hk h ss⟩
  | removeSensor id => cases hd; exact ⟨_, rfl, removeSensor_kin hk h id⟩
  | resetSensors =>
    cases hd
    refine ⟨_, rfl, updateSensors_kin hk ⟨?_, rfl, hp⟩⟩
    rw [hs]; rfl
  | sensorNext => cases ho
  | sensorShuffle => cases ho
  | fromSnapshot m => exact fromSnapshot_kin hk h hd
  | next tick rnd =>
    obtain ⟨⟨d1, b⟩, h1, rfl⟩ := map_eq_ok hd
    obtain ⟨e1, h2, k⟩ := next_kin hk h h1
    refine ⟨e1, ?_, k⟩
    show (e.next tick rnd).map _ = _
    rw [h2]; rfl
  | update =>
    obtain ⟨d1, h1, hd⟩ := bind_eq_ok (show (d.updateState >>= fun d => pure d.updateRoutes.updateSensors) = .ok d' from hd)
    cases hd
    obtain ⟨e1, h2, k⟩ := updateState_kin hk h h1
    exact ⟨_, bind_of_ok h2 rfl, updateSensors_kin hk (updateRoutes_kin k)⟩
  | move m =>
    obtain ⟨n, h1, rfl⟩ := map_eq_ok hd
    refine ⟨{ e with navigator := n }, ?_, ⟨?_, hh, hp⟩⟩
    · have : e.navigator = d.navigator := by rw [hs]; rfl
      show (e.navigator.step m.navOp).map _ = _
      rw [this, h1]; rfl
    · rw [hs]; rfl
  | onRoute i o =>
    obtain ⟨n, h1, rfl⟩ := map_eq_ok
      (show (d.navigator.step (.onRoute i o)).map (fun n => { d with navigator := n }) = .ok d' from hd)
    refine ⟨{ e with navigator := n }, ?_, ⟨?_, hh, hp⟩⟩
    · have : e.navigator = d.navigator := by rw [hs]; rfl
      show (e.navigator.step (.onRoute i o)).map (fun n => ({ e with navigator := n } : Device F)) = _
      rw [this, h1]; rfl
    · rw [hs]; rfl
  | skipTick => cases hd; refine ⟨_, rfl, ⟨?_, hh, hp⟩⟩; rw [hs]; rfl
  | setUserID s => cases hd; refine ⟨_, rfl, ?_⟩; rw [hs]; unfold setUserID; first | exact ⟨rfl, hh, hp⟩ | (split <;> exact ⟨rfl, hh, hp⟩)
  | setDescription s => cases hd; refine ⟨_, rfl, ?_⟩; rw [hs]; unfold setDescription; first | exact ⟨rfl, hh, hp⟩ | (split <;> exact ⟨rfl, hh, hp⟩)
  | setModel s => cases hd; refine ⟨_, rfl, ?_⟩; rw [hs]; unfold setModel; split <;> exact ⟨rfl, hh, hp⟩
  | setColor c => cases hd; refine ⟨_, rfl, ?_⟩; rw [hs]; cases c <;> exact ⟨rfl, hh, hp⟩
  | addRoute rs =>
    cases hd
    refine ⟨_, rfl, ?_⟩
    rw [hs]
    unfold addRoute
    rw [show (d.sub e.sensors e.state.sensors).navigator = d.navigator from rfl]
    obtain ⟨n, err⟩ := d.navigator.addRoute rs
    cases err <;> exact ⟨rfl, hh, hp⟩
  | removeRoute id =>
    cases hd
    refine ⟨_, rfl, ?_⟩
    rw [hs]
    unfold removeRoute
    rw [show (d.sub e.sensors e.state.sensors).navigator = d.navigator from rfl]
    dsimp only
    split <;> exact ⟨rfl, hh, hp⟩
  | removeTrack rid tid =>
    cases hd
    refine ⟨_, rfl, ?_⟩
    rw [hs]
    unfold removeTrack
    rw [show (d.sub e.sensors e.state.sensors).navigator = d.navigator from rfl]
    dsimp only
    split <;> exact ⟨rfl, hh, hp⟩
  | resetRoutes =>
    cases hd
    refine ⟨_, rfl, ?_⟩
    rw [hs]
    unfold resetRoutes
    rw [show (d.sub e.sensors e.state.sensors).navigator = d.navigator from rfl]
    dsimp only
    split <;> exact ⟨rfl, hh, hp⟩

/-! ## What of a sensor matters -/

/-- What no call changes, and whether calls panic. -/
def fixedPart (s : Sensor F) : String × String × Nat := (s.id, s.name, s.gen.points.length)

/-- Everything but the current value and scratch storage. -/
def curvePart (s : Sensor F) : String × String × List (Pt F) × Int × F × F :=
  (s.id, s.name, C29.control s.gen, s.gen.mode, s.gen.min, s.gen.max)

theorem point_length {c c' : Curve F} {t : F} {p : Pt F} (h : c.point t = .ok (c', p)) :
    c'.points.length = c.points.length := by
  have := congrArg List.length (C29.point_preserves c c' t p h).1
  simpa [C29.control] using this

theorem sensor_parts {s r : Sensor F} {t : F} (h : s.next t = .ok r) :
    curvePart r = curvePart s ∧ fixedPart r = fixedPart s ∧ C29.eval s.gen t = .ok ⟨r.valX, r.valY⟩ := by
  unfold Sensor.next at h
  obtain ⟨⟨g, p⟩, h1, h⟩ := bind_eq_ok h
  cases h
  obtain ⟨e1, e2, e3, e4, e5⟩ := C29.point_preserves _ _ _ _ h1
  refine ⟨?_, ?_, e5⟩
  · simp only [curvePart, e1, e2, e3, e4]
  · simp only [fixedPart, point_length h1]

theorem next_of_points {s : Sensor F} (t : F) (h : s.gen.points ≠ []) : ∃ r, s.next t = .ok r := by
  obtain ⟨r, h, -⟩ := C54.sensor_next s t h
  exact ⟨r, h⟩

theorem points_of_next {s r : Sensor F} {t : F} (h : s.next t = .ok r) : s.gen.points ≠ [] := by
  intro h0
  unfold Sensor.next at h
  obtain ⟨a, h1, -⟩ := bind_eq_ok h
  unfold Curve.point at h1
  rw [h0] at h1
  cases h1

theorem telling_fixed : Telling (fixedPart (F := F)) where
  id h := by simp only [fixedPart, Prod.mk.injEq] at h; exact ⟨h.1, h.2.1⟩
  next {s s' r t} h hr := by
    have hl : s.gen.points.length = s'.gen.points.length := congrArg (·.2.2) h
    have h0 := points_of_next hr
    obtain ⟨r', h'⟩ := next_of_points (s := s') t (fun hc => h0 (by rw [hc] at hl; exact List.length_eq_zero_iff.mp hl))
    exact ⟨r', h', by rw [(sensor_parts hr).2.1, (sensor_parts h').2.1, h]⟩
  shuffle d h := by
    simp only [fixedPart, Prod.mk.injEq] at h ⊢
    refine ⟨h.1, h.2.1, ?_⟩
    simp only [Sensor.shuffle, Curve.shuffle, C07.makePoints_length]
    exact h.2.2

theorem telling_curve : Telling (curvePart (F := F)) where
  id h := by simp only [curvePart, Prod.mk.injEq] at h; exact ⟨h.1, h.2.1⟩
  next {s s' r t} h hr := by
    have hc : C29.control s.gen = C29.control s'.gen := congrArg (·.2.2.1) h
    have hl : s.gen.points.length = s'.gen.points.length := by
      have := congrArg List.length hc
      simpa [C29.control] using this
    have h0 := points_of_next hr
    obtain ⟨r', h'⟩ := next_of_points (s := s') t (fun hc => h0 (by rw [hc] at hl; exact List.length_eq_zero_iff.mp hl))
    exact ⟨r', h', by rw [(sensor_parts hr).1, (sensor_parts h').1, h]⟩
  shuffle {s s'} d h := by
    have hl : s.gen.points.length = s'.gen.points.length := by
      have := congrArg (fun x => List.length x.2.2.1) h
      simpa [curvePart, C29.control] using this
    simp only [curvePart, Prod.mk.injEq] at h
    obtain ⟨h1, h2, h3, h4, h5, h6⟩ := h
    simp only [curvePart, Sensor.shuffle, Curve.shuffle, C29.control, h1, h2, h4, h5, h6, hl]


end
end Device
end GpsGen
