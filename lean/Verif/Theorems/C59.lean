import Verif.Lemmas.DeviceNext
import Verif.Lemmas.Toy
/-!
# C59: device attributes change only through their setters

Any number type, any history. The attributes of a device are its id, user id, model, description and colour. A new
device has those of its options (with generated ones for an empty id, model or colour); `SetModel`, `SetUserID`,
`SetDescription` and `SetColor` change exactly one; restoring a snapshot sets all five; nothing else changes any.
-/

namespace GpsGen
variable {F : Type}

namespace C59
open Device

/-! ## Specification -/

/-- The attributes of a device. -/
structure Attrs where
  id : String
  userID : String
  model : String
  description : String
  color : String
  deriving DecidableEq, Repr

/-- The attributes that the getters `ID`, `UserID`, `Model`, `Descr` and `Color` return and that are published. -/
def attrs (d : Device F) : Attrs := ⟨d.state.id, d.state.userId, d.state.model, d.state.description, d.state.color⟩

/-- Bytes of a string. -/
def bytes (s : String) : Nat := s.utf8ByteSize

/-- What one operation does to the attributes. Models have 3 to 64 bytes; other models and invalid colours are
refused. -/
def change (a : Attrs) : DevOp F → Attrs
  | .setModel m => if 3 ≤ bytes m ∧ bytes m ≤ 64 then { a with model := m } else a
  | .setUserID u => { a with userID := u }
  | .setDescription s => { a with description := s }
  | .setColor (some c) => { a with color := c }
  | .fromSnapshot m => ⟨m.id, m.userId, m.model, m.descr, m.color⟩
  | _ => a

/-! ## Proof -/

theorem refreshed_attrs [GoMath F] {d : Device F} {st : DevState F} (h : d.navigator.update d.state = .ok st) :
    attrs (d.refreshed st) = attrs d := by
  obtain ⟨h1, h2, -, -, h3, -, -, -, h4, h5⟩ := nav_update_frame h
  simp only [attrs, refreshed, h1, h2, h3, h4, h5]

theorem updateState_attrs [GoMath F] {d d' : Device F} (h : d.updateState = .ok d') : attrs d' = attrs d := by
  obtain ⟨st, h1, rfl⟩ := updateState_eq h
  exact refreshed_attrs h1

theorem next_attrs [GoMath F] {d d' : Device F} {tick : F} {rnd : NextRnd F} {b : Bool}
    (h : d.next tick rnd = .ok (d', b)) : attrs d' = attrs d := by
  cases next_outcome h with
  | idle h => rfl
  | halted hr n1 n2 speed h1 h2 h3 h4 => rfl
  | lap hr n1 n2 speed d' h1 h2 h3 h4 h5 => exact (updateState_attrs h5).trans rfl
  | moved hr n1 n2 n3 speed sensors d2 d' h1 h2 h3 h4 h5 hd2 h6 =>
    refine (updateState_attrs h6).trans ?_
    subst hd2
    split <;> rfl

theorem newModel_iff (m : String) (x : String) : newModel m = .ok x ↔ x = m ∧ 3 ≤ bytes m ∧ bytes m ≤ 64 := by
  unfold newModel bytes goLen
  split
  · rename_i h; exact ⟨fun h => by (cases h), fun h2 => by omega⟩
  · split
    · rename_i h; exact ⟨fun h => by (cases h), fun h2 => by omega⟩
    · rename_i h1 h2
      exact ⟨fun h => ⟨(Except.ok.inj h).symm, by omega, by omega⟩, fun h => by rw [h.1]⟩

theorem setModel_attrs (d : Device F) (m : String) :
    attrs (d.setModel m).1 = if 3 ≤ bytes m ∧ bytes m ≤ 64 then { attrs d with model := m } else attrs d := by
  unfold setModel
  cases h : newModel m with
  | error e =>
    rw [if_neg]
    intro hc
    rw [(newModel_iff m m).mpr ⟨rfl, hc⟩] at h
    cases h
  | ok x =>
    obtain ⟨rfl, h1⟩ := (newModel_iff m x).mp h
    rw [if_pos h1]
    rfl

/-- **C59, one operation.** -/
theorem step_attrs [GoMath F] {d d' : Device F} {op : DevOp F} (h : d.step op = .ok d') :
    attrs d' = change (attrs d) op := by
  cases op with
  | addRoute rs =>
    cases h
    show attrs (d.addRoute rs).1 = attrs d
    unfold Device.addRoute
    rcases d.navigator.addRoute rs with ⟨n, _ | e⟩ <;> rfl
  | removeRoute id =>
    cases h
    show attrs (d.removeRoute id).1 = attrs d
    unfold Device.removeRoute
    rcases d.navigator.removeRoute id with ⟨n, _ | _⟩ <;> rfl
  | removeTrack r t =>
    cases h
    show attrs (d.removeTrack r t).1 = attrs d
    unfold Device.removeTrack
    rcases d.navigator.removeTrack r t with ⟨n, _ | _⟩ <;> rfl
  | resetRoutes =>
    cases h
    show attrs d.resetRoutes.1 = attrs d
    unfold Device.resetRoutes
    rcases d.navigator.resetRoutes with ⟨n, _ | _⟩ <;> rfl
  | move m => obtain ⟨n, -, rfl⟩ := map_eq_ok h; rfl
  | onRoute i op =>
    replace h : (d.navigator.step (.onRoute i op)).map (fun n => { d with navigator := n }) = .ok d' := h
    obtain ⟨n, -, rfl⟩ := map_eq_ok h; rfl
  | addSensor ss =>
    cases h
    show attrs (d.addSensor ss) = attrs d
    unfold Device.addSensor
    split
    · rfl
    · simp only; split <;> rfl
  | removeSensor id =>
    cases h
    show attrs (d.removeSensor id).1 = attrs d
    unfold Device.removeSensor
    split
    · rfl
    · simp only; split <;> rfl
  | resetSensors => cases h; rfl
  | sensorNext i t =>
    replace h : d.onSensorNext i t = .ok d' := h
    unfold Device.onSensorNext at h
    split at h
    · cases h; rfl
    · obtain ⟨s, -, h⟩ := bind_eq_ok h; cases h; rfl
  | sensorShuffle i draws => cases h; rfl
  | next tick rnd =>
    obtain ⟨⟨x, b⟩, h1, rfl⟩ := map_eq_ok h
    exact next_attrs h1
  | skipTick => cases h; rfl
  | update =>
    obtain ⟨st, h1, rfl⟩ := update_eq h
    exact (refreshed_attrs h1 : attrs (d.refreshed st) = attrs d)
  | setModel s => cases h; exact setModel_attrs d s
  | setUserID s => cases h; rfl
  | setDescription s => cases h; rfl
  | setColor c => cases h; cases c <;> rfl
  | fromSnapshot m =>
    obtain ⟨n, speed, battery, sensors, d1, -, -, -, -, h5, rfl⟩ := fromSnapshotOnto_eq h
    show attrs d1 = _
    rw [updateState_attrs h5]
    rfl

/-- **C59, histories.** The attributes of a device are those that the setters called and snapshots restored in its
history leave; everything else in the history has no effect on them. -/
theorem run_attrs [GoMath F] (d d' : Device F) (ops : List (DevOp F)) (h : d.run ops = .ok d') :
    attrs d' = ops.foldl change (attrs d) := by
  induction ops generalizing d with
  | nil => cases h; rfl
  | cons op ops ih =>
    obtain ⟨d1, h1, h2⟩ := bind_eq_ok h
    rw [ih d1 h2, step_attrs h1, List.foldl_cons]

/-- **C59, identity.** Unless a snapshot is restored, the id never changes. -/
theorem id_constant [GoMath F] (d d' : Device F) (ops : List (DevOp F)) (h : d.run ops = .ok d')
    (hs : ∀ m, .fromSnapshot m ∉ ops) : d'.state.id = d.state.id := by
  have key : ∀ (a : Attrs) (op : DevOp F), (∀ m, op ≠ .fromSnapshot m) → (change a op).id = a.id := by
    intro a op hop
    cases op with
    | fromSnapshot m => exact absurd rfl (hop m)
    | setModel m => show (if _ then _ else _ : Attrs).id = _; split <;> rfl
    | setColor c => cases c <;> rfl
    | _ => rfl
  have e : (attrs d').id = (ops.foldl change (attrs d)).id := by rw [run_attrs d d' ops h]
  refine (e : d'.state.id = _).trans ?_
  have : (attrs d).id = d.state.id := rfl
  rw [← this]
  generalize attrs d = a
  clear h e this
  induction ops generalizing a with
  | nil => rfl
  | cons op ops ih =>
    rw [List.foldl_cons, ih (fun m hm => hs m (List.mem_cons_of_mem _ hm)),
      key a op (fun m hm => hs m (hm ▸ List.mem_cons_self))]

/-- **C59, refusals.** `SetModel` and `SetColor` report an error exactly when they change nothing. -/
theorem setModel_refuses (d : Device F) (m : String) :
    ((d.setModel m).2 = none ↔ 3 ≤ bytes m ∧ bytes m ≤ 64) ∧ ((d.setModel m).2 ≠ none → (d.setModel m).1 = d) := by
  unfold setModel
  cases h : newModel m with
  | error e =>
    refine ⟨⟨fun h => by (cases h), fun hc => ?_⟩, fun _ => rfl⟩
    rw [(newModel_iff m m).mpr ⟨rfl, hc⟩] at h
    cases h
  | ok x => exact ⟨⟨fun _ => ((newModel_iff m x).mp h).2, fun _ => rfl⟩, fun hc => absurd rfl hc⟩

@[inherit_doc setModel_refuses]
theorem setColor_refuses (d : Device F) (c : Option String) :
    ((d.setColor c).2 = none ↔ c.isSome) ∧ ((d.setColor c).2 ≠ none → (d.setColor c).1 = d) := by
  cases c with
  | none => exact ⟨⟨fun h => by (cases h), fun h => by (cases h)⟩, fun _ => rfl⟩
  | some x => exact ⟨⟨fun _ => rfl, fun _ => rfl⟩, fun hc => absurd rfl hc⟩

/-! ## New devices -/

/-- **C59, creation.** A new device has the attributes given in its options; an empty id, model or colour is
generated. It is stopped and has no routes and no sensors. -/
theorem new_attrs [GoFloat F] (rnd : DeviceRnd F) (o : DeviceOptions F) (d : Device F)
    (h : Device.new rnd (some o) = .ok d) :
    (attrs d).id = (if o.id = "" then rnd.uid else o.id) ∧ (attrs d).userID = o.userID ∧
    (attrs d).description = o.descr ∧
    (attrs d).model = (if o.model = "" then "Device-" ++ rnd.suffix else o.model) ∧
    some (attrs d).color = (if o.color = "" then some rnd.color else rnd.hex o.color) ∧
    d.status = 2 ∧ d.navigator.routes = [] ∧ d.sensors = [] := by
  have h0 : ∀ s : String, goLen s = 0 ↔ s = "" := fun s => by
    unfold goLen; exact_mod_cast String.utf8ByteSize_eq_zero_iff
  have hp : ∀ s : String, goLen s > 0 ↔ s ≠ "" := fun s => by
    rw [Ne, ← h0]; unfold goLen; omega
  obtain ⟨n, speed, battery, state, h1, -, -, h4, rfl⟩ := Device.new_eq h
  obtain ⟨model, color, rfl, hm, hc⟩ := applyFor_eq h4
  refine ⟨?_, rfl, rfl, ?_, ?_, rfl, ?_, rfl⟩
  · show (if goLen o.id = 0 then _ else _) = _
    simp only [h0]
    rfl
  · show model = _
    have hm : (if goLen o.model > 0 then newModel o.model else .ok ("Device-" ++ rnd.suffix)) = .ok model := hm
    by_cases hz : o.model = ""
    · rw [if_pos hz]
      rw [if_neg (by rw [hp]; exact fun hn => hn hz)] at hm
      exact (Except.ok.inj hm).symm
    · rw [if_neg hz]
      rw [if_pos ((hp _).mpr hz)] at hm
      exact ((newModel_iff _ _).mp hm).1
  · show some color = _
    have hc : (if goLen o.color > 0 then rnd.hex o.color else some rnd.color) = some color := hc
    by_cases hz : o.color = ""
    · rw [if_pos hz]
      rw [if_neg (by rw [hp]; exact fun hn => hn hz)] at hc
      exact hc.symm
    · rw [if_neg hz]
      rw [if_pos ((hp _).mpr hz)] at hc
      exact hc.symm
  · obtain ⟨o1, o2, s, -, -, -, rfl⟩ := new_cases h1
    rfl

/-! ## Concrete cases -/

/-- A history with setters, a refused model and other operations. -/
def demo : Option Attrs :=
  (Toy.dev [.setModel "AB", .setModel "Tracker-9", .addRoute [some Toy.route], .setUserID "u1",
    .next (Toy.of 1) Toy.nextRnd, .setColor none, .setColor (some "#00ff00"), .setDescription "d", .update]).map attrs

example : demo.map (fun a => (a.model, a.userID, a.color, a.description)) =
    some ("Tracker-9", "u1", "#00ff00", "d") := by decide +kernel

example : (Toy.dev []).map (fun d => (attrs d).id) = demo.map (·.id) := by decide +kernel

end C59
end GpsGen
