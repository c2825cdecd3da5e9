import Verif.Lemmas.SharedSensors
import Verif.Lemmas.ToyF64
import Mathlib.Data.List.Forall2
import Mathlib.Data.List.Nodup
/-!
# C92: devices that share sensors do not influence each other

Sensors are held by pointer, so devices may share them. The full claim is that a device publishes what it would publish if
its sensors were its own. It fails: a sensor shows the value of whichever device called it last (`claim_fails`), and a device
that ends a lap gives the sensors it shares a new curve.

What does hold: the sensors are all that others can change (`rest_alone`), and as long as others do not give its sensors new
curves, whatever a device publishes by a `Next` that moves it is what it would publish alone (`moving_alone_partial`), since a
sensor computes its value from the tick of its caller only. `simulated` shows what a device sees of the rest of the program: a
history of its own operations and of calls of its sensors, as in `DevHistory`.
-/

namespace GpsGen.C92

open GpsGen GpsGen.Device

variable {F : Type}

/-! ## Specification -/

/-- The device a call belongs to; none for calls of a sensor. -/
def actor : SensorOp F → Option Nat
  | .addSensor a _ | .removeSensor a _ | .resetSensors a | .restore a _ _ | .drive a _ => some a
  | _ => none

/-- New sensors are made at addresses that no device holds. -/
def Fresh (m : SensorMem F) : SensorOp F → Prop
  | .restore _ msg ps => 0 < msg.sensors.length →
      ps.length = msg.sensors.length ∧ ps.Nodup ∧ ∀ b, ∀ p ∈ ps, p ∉ (m.devs b).refs
  | _ => True

/-- New sensors are made at such addresses throughout a program. -/
def FreshAll [GoMath F] (m : SensorMem F) : List (SensorOp F) → Prop
  | [] => True
  | op :: ops => Fresh m op ∧ ∀ m', m.step op = .ok m' → FreshAll m' ops

/-- No device holds an address twice. -/
def Once (m : SensorMem F) : Prop := ∀ a, (m.devs a).refs.Nodup

/-- What the device `b` is asked to do, with the sensors as they are in `m`. -/
def own (m : SensorMem F) (b : Nat) : SensorOp F → List (DevOp F)
  | .addSensor a ps => if a = b then [.addSensor (ps.map (·.map m.sensors))] else []
  | .removeSensor a id => if a = b then [.removeSensor id] else []
  | .resetSensors a => if a = b then [.resetSensors] else []
  | .restore a msg _ => if a = b then [.fromSnapshot msg] else []
  | .drive a op => if a = b ∧ op.onSensors = false then [op] else []
  | _ => []

/-- What the device `b` is asked to do throughout a program. -/
def ownAll [GoMath F] (m : SensorMem F) (b : Nat) : List (SensorOp F) → List (DevOp F)
  | [] => []
  | op :: ops => own m b op ++ match m.step op with
    | .ok m' => ownAll m' b ops
    | .error _ => []

/-- The full claim: a device publishes what it would publish if nobody else had its sensors. -/
def Claim (F : Type) [GoMath F] : Prop :=
  ∀ (m m' : SensorMem F) (ops : List (SensorOp F)) (b : Nat), Once m → FreshAll m ops → m.run ops = .ok m' →
    ∃ d, (m.view b).run (ownAll m b ops) = .ok d ∧ d.state = (m'.view b).state

/-- The calls of others leave the curves of the sensors of `b` as they are. -/
def Quiet [GoMath F] (m : SensorMem F) (b : Nat) : List (SensorOp F) → Prop
  | [] => True
  | op :: ops => ∀ m', m.step op = .ok m' →
      (actor op ≠ some b → ∀ p ∈ (m.devs b).refs, C29.control (m'.sensors p).gen = C29.control (m.sensors p).gen) ∧
      Quiet m' b ops

/-! ## Memory -/

theorem cell_same {α : Type} (f : Nat → α) (p : Nat) (v : α) : cellSet f p v p = v := by simp [cellSet]

theorem cell_ne {α : Type} (f : Nat → α) {p q : Nat} (v : α) (h : q ≠ p) : cellSet f p v q = f q := by simp [cellSet, h]

theorem store_not (f : Nat → Sensor F) (refs : List Nat) (ss : List (Sensor F)) {p : Nat} (h : p ∉ refs) :
    SensorMem.store f refs ss p = f p := by
  induction refs generalizing f ss with
  | nil => cases ss <;> rfl
  | cons q refs ih =>
    cases ss with
    | nil => rfl
    | cons s ss =>
      simp only [List.mem_cons, not_or] at h
      simp only [SensorMem.store]
      rw [ih _ _ h.2, cell_ne _ _ h.1]

theorem store_same (f : Nat → Sensor F) (refs : List Nat) (ss : List (Sensor F)) (hn : refs.Nodup)
    (hl : ss.length = refs.length) : refs.map (SensorMem.store f refs ss) = ss := by
  induction refs generalizing f ss with
  | nil => cases ss with
    | nil => rfl
    | cons => cases hl
  | cons q refs ih =>
    cases ss with
    | nil => cases hl
    | cons s ss =>
      obtain ⟨h1, h2⟩ := List.nodup_cons.mp hn
      simp only [SensorMem.store, List.map_cons]
      rw [store_not _ _ _ h1, cell_same, ih _ _ h2 (by simpa using hl)]

/-- A sensor after at most one call. -/
def Called [GoFloat F] (s s' : Sensor F) : Prop := s' = s ∨ (∃ t, s.next t = .ok s') ∨ ∃ draws, s' = s.shuffle draws

theorem store_rel {R : Sensor F → Sensor F → Prop} (hr : ∀ s, R s s) (f : Nat → Sensor F) (refs : List Nat)
    (ss : List (Sensor F)) (hn : refs.Nodup) (h : List.Forall₂ R (refs.map f) ss) (p : Nat) :
    R (f p) (SensorMem.store f refs ss p) := by
  induction refs generalizing f ss with
  | nil => cases h; exact hr _
  | cons q refs ih =>
    cases h with
    | cons h1 h2 =>
      obtain ⟨n1, n2⟩ := List.nodup_cons.mp hn
      rename_i s ss
      simp only [SensorMem.store]
      by_cases hp : p = q
      · subst hp
        rw [store_not _ _ _ n1, cell_same]
        exact h1
      · have e : refs.map (cellSet f q s) = refs.map f := by
          apply List.map_congr_left
          intro x hx
          exact cell_ne _ _ (fun hc => n1 (hc ▸ hx))
        have := ih (cellSet f q s) ss n2 (by rw [e]; exact h2)
        rwa [cell_ne _ _ hp] at this

/-! ## What a device does to its sensors -/

theorem forall₂_self [GoFloat F] (l : List (Sensor F)) : List.Forall₂ Called l l := by
  induction l with
  | nil => exact .nil
  | cons a l ih => exact .cons (.inl rfl) ih

theorem called_next [GoFloat F] {l r : List (Sensor F)} {t : F} (h : l.mapM (fun s => s.next t) = .ok r) :
    List.Forall₂ Called l r := by
  induction l generalizing r with
  | nil => cases h; exact .nil
  | cons a l ih =>
    rw [List.mapM_cons] at h
    obtain ⟨a1, h1, h⟩ := bind_eq_ok h
    obtain ⟨l1, h2, h⟩ := bind_eq_ok h
    cases h
    exact .cons (.inr (.inl ⟨t, h1⟩)) (ih h2)

theorem called_shuffle [GoFloat F] (l : List (Sensor F)) (draws : Nat → Nat → F) :
    List.Forall₂ Called l (shuffleSensors l draws) := by
  unfold shuffleSensors
  induction l generalizing draws with
  | nil => exact .nil
  | cons a l ih =>
    rw [List.mapIdx_cons]
    exact .cons (.inr (.inr ⟨_, rfl⟩)) (ih fun i => draws (i + 1))

theorem updateState_keeps [GoMath F] {d d' : Device F} (h : d.updateState = .ok d') : d'.sensors = d.sensors := by
  obtain ⟨st, -, rfl⟩ := updateState_eq h
  rfl

/-- The methods other than those on sensors and `Next` do not call the sensors. -/
theorem step_keeps [GoMath F] {d d' : Device F} {op : DevOp F} (ho : op.onSensors = false)
    (hn : ∀ tick rnd, op ≠ .next tick rnd) (h : d.step op = .ok d') : d'.sensors = d.sensors := by
  cases op with
  | addSensor => cases ho
  | removeSensor => cases ho
  | resetSensors => cases ho
  | sensorNext => cases ho
  | sensorShuffle => cases ho
  | fromSnapshot => cases ho
  | next tick rnd => exact absurd rfl (hn tick rnd)
  | update =>
    obtain ⟨d1, h1, h⟩ := bind_eq_ok (show (d.updateState >>= fun d => pure d.updateRoutes.updateSensors) = .ok d' from h)
    cases h
    exact (show d1.updateRoutes.updateSensors.sensors = d1.sensors from rfl).trans (updateState_keeps h1)
  | move m => obtain ⟨n, -, rfl⟩ := map_eq_ok h; rfl
  | onRoute i o =>
    obtain ⟨n, -, rfl⟩ := map_eq_ok
      (show (d.navigator.step (.onRoute i o)).map (fun n => { d with navigator := n }) = .ok d' from h)
    rfl
  | addRoute rs =>
    cases h
    unfold addRoute
    obtain ⟨n, err⟩ := d.navigator.addRoute rs
    cases err <;> rfl
  | removeRoute id => cases h; unfold removeRoute; dsimp only; split <;> rfl
  | removeTrack rid tid => cases h; unfold removeTrack; dsimp only; split <;> rfl
  | resetRoutes => cases h; unfold resetRoutes; dsimp only; split <;> rfl
  | skipTick => cases h; rfl
  | setModel s => cases h; unfold setModel; split <;> rfl
  | setUserID s => cases h; rfl
  | setDescription s => cases h; rfl
  | setColor c => cases h; cases c <;> rfl

/-- A `Next` that moves the device calls `Next` of its sensors. -/
theorem moved_sensors [GoMath F] {d d' : Device F} {tick : F} {rnd : NextRnd F} (h : d.next tick rnd = .ok (d', true)) :
    d.sensors.mapM (fun s => s.next (d.phase (d.seconds tick))) = .ok d'.sensors := by
  cases next_outcome h with
  | moved hr n1 n2 n3 speed sensors d2 _ h1 h2 h3 h4 h5 hd2 h6 =>
    rw [updateState_keeps h6]
    have : (if d2.navigator.sum ≠ d2.ns then d2.updateRoutes else d2).sensors = sensors := by
      subst hd2; split <;> rfl
    rw [this]
    exact h5

/-- The methods other than those on sensors call each sensor at most once. -/
theorem step_called [GoMath F] {d d' : Device F} {op : DevOp F} (ho : op.onSensors = false) (h : d.step op = .ok d') :
    List.Forall₂ Called d.sensors d'.sensors := by
  by_cases hn : ∀ tick rnd, op ≠ .next tick rnd
  · rw [step_keeps ho hn h]; exact forall₂_self _
  · simp only [not_forall, not_not] at hn
    obtain ⟨tick, rnd, rfl⟩ := hn
    obtain ⟨⟨d1, b⟩, h1, rfl⟩ := map_eq_ok h
    cases b with
    | true => exact called_next (moved_sensors h1)
    | false =>
      cases next_outcome h1 with
      | idle => exact forall₂_self _
      | halted => exact forall₂_self _
      | lap hr n1 n2 speed _ h1 h2 h3 h4 h5 =>
        rw [updateState_keeps h5]
        exact called_shuffle _ _

theorem restored_length [GoMath F] {d d' : Device F} {m : SnapMsg F} (h : d.fromSnapshot m = .ok d') :
    (0 < m.sensors.length → d'.sensors.length = m.sensors.length) ∧ (¬ 0 < m.sensors.length → d'.sensors = d.sensors) := by
  unfold Device.fromSnapshot fromSnapshotOnto at h
  obtain ⟨n, h1, h⟩ := bind_eq_ok h
  obtain ⟨sp, h2, h⟩ := bind_eq_ok h
  obtain ⟨ba, h3, h⟩ := bind_eq_ok h
  obtain ⟨ss, h4, h⟩ := bind_eq_ok h
  obtain ⟨d1, h5, h⟩ := bind_eq_ok h
  cases h
  have e : d1.updateRoutes.sensors = ss := updateState_keeps h5
  rw [e]
  constructor
  · intro hl
    rw [if_pos hl] at h4
    have key : ∀ (l : List (SensorMsg F)) (r : List (Sensor F)),
        l.mapM (fun s => Sensor.fromSnapshot (some s)) = .ok r → r.length = l.length := by
      intro l
      induction l with
      | nil => intro r hr; cases hr; rfl
      | cons a l ih =>
        intro r hr
        rw [List.mapM_cons] at hr
        obtain ⟨a1, -, hr⟩ := bind_eq_ok hr
        obtain ⟨l1, hl1, hr⟩ := bind_eq_ok hr
        cases hr
        simp [ih _ hl1]
    exact key _ _ h4
  · intro hl
    rw [if_neg hl] at h4
    cases h4
    rfl

/-! ## One step -/

theorem addLoop_view (m : SensorMem F) (held : List Nat) (k : Nat) (ps : List (Option Nat)) :
    addSensors (held.map m.sensors) k (ps.map (·.map m.sensors)) =
      ((m.addLoop held k ps).1.map m.sensors, (m.addLoop held k ps).2) := by
  induction ps generalizing held k with
  | nil => rfl
  | cons p ps ih =>
    cases p with
    | none => simpa [SensorMem.addLoop, addSensors] using ih held k
    | some p =>
      simp only [List.map_cons, Option.map_some, addSensors, SensorMem.addLoop, hasSensor, List.any_map]
      have hc : (held.any ((fun s : Sensor F => s.id == (m.sensors p).id) ∘ m.sensors)) =
          held.any fun q => (m.sensors q).id == (m.sensors p).id := rfl
      rw [hc]
      split
      · exact ih held k
      · have := ih (held ++ [p]) (k + 1)
        rwa [List.map_append] at this

theorem addLoop_nodup (m : SensorMem F) (held : List Nat) (k : Nat) (ps : List (Option Nat)) (h : held.Nodup) :
    (m.addLoop held k ps).1.Nodup := by
  induction ps generalizing held k with
  | nil => exact h
  | cons p ps ih =>
    cases p with
    | none => exact ih held k h
    | some p =>
      simp only [SensorMem.addLoop]
      split
      · exact ih held k h
      · rename_i hc
        refine ih _ _ (List.Nodup.append h (List.nodup_singleton p) ?_)
        intro q hq hqp
        obtain rfl : q = p := by simpa using hqp
        exact hc (List.any_eq_true.mpr ⟨q, hq, by simp⟩)

theorem removeFirst_map {α β : Type} (f : α → β) (P : β → Bool) (l : List α) :
    removeFirst P (l.map f) = ((removeFirst (fun a => P (f a)) l).1.map f, (removeFirst (fun a => P (f a)) l).2) := by
  induction l with
  | nil => rfl
  | cons a l ih =>
    simp only [List.map_cons, removeFirst]
    split
    · rfl
    · rw [ih]; rfl

theorem removeFirst_sublist {α : Type} (P : α → Bool) (l : List α) : (removeFirst P l).1.Sublist l := by
  induction l with
  | nil => exact .slnil
  | cons a l ih =>
    simp only [removeFirst]
    split
    · exact List.sublist_cons_self a l
    · exact ih.cons_cons a

/-- Putting a device back shows that device. -/
theorem view_put (m : SensorMem F) (f : Nat → Sensor F) (a : Nat) (d : Device F) (refs : List Nat)
    (h : refs.map f = d.sensors) : SensorMem.view ⟨f, cellSet m.devs a ⟨d, refs⟩⟩ a = d := by
  unfold SensorMem.view SensorMem.holding
  simp only [cell_same, h]

/-- No call touches the fields and the list of sensors of a device but its own. -/
theorem devs_after [GoMath F] {m m' : SensorMem F} {op : SensorOp F} (h : m.step op = .ok m') {b : Nat}
    (hb : actor op ≠ some b) : m'.devs b = m.devs b := by
  have ne : ∀ {a : Nat}, actor op = some a → b ≠ a := fun e hc => hb (by rw [e, hc])
  cases op with
  | addSensor a ps =>
    have hab := ne rfl
    simp only [SensorMem.step] at h
    split at h
    · cases h; rfl
    · cases h; exact cell_ne _ _ hab
  | removeSensor a id =>
    have hab := ne rfl
    simp only [SensorMem.step] at h
    split at h
    · cases h; rfl
    · cases h; exact cell_ne _ _ hab
  | resetSensors a => have hab := ne rfl; cases h; exact cell_ne _ _ hab
  | restore a msg ps =>
    have hab := ne rfl
    obtain ⟨d, -, h⟩ := bind_eq_ok h
    cases h
    split <;> exact cell_ne _ _ hab
  | drive a op =>
    have hab := ne rfl
    simp only [SensorMem.step] at h
    split at h
    · cases h; rfl
    · obtain ⟨d, -, h⟩ := bind_eq_ok h
      cases h
      exact cell_ne _ _ hab
  | sensorNext p t => obtain ⟨s, -, h⟩ := bind_eq_ok h; cases h; rfl
  | sensorShuffle p draws => cases h; rfl

/-- A call of another device or of a sensor calls every sensor of `b` at most once. -/
theorem sensors_after [GoMath F] {m m' : SensorMem F} {op : SensorOp F} (hi : Once m) (hf : Fresh m op)
    (h : m.step op = .ok m') {b p : Nat} (hp : p ∈ (m.devs b).refs) : Called (m.sensors p) (m'.sensors p) := by
  cases op with
  | addSensor a ps =>
    simp only [SensorMem.step] at h
    split at h <;> cases h <;> exact .inl rfl
  | removeSensor a id =>
    simp only [SensorMem.step] at h
    split at h <;> cases h <;> exact .inl rfl
  | resetSensors a => cases h; exact .inl rfl
  | restore a msg ps =>
    obtain ⟨d, -, h⟩ := bind_eq_ok h
    cases h
    split
    · rename_i hl
      refine .inl ?_
      exact store_not _ _ _ fun hc => (hf hl).2.2 b p hc hp
    · exact .inl rfl
  | drive a op =>
    simp only [SensorMem.step] at h
    split at h
    · cases h; exact .inl rfl
    · rename_i ho
      obtain ⟨d, hd, h⟩ := bind_eq_ok h
      cases h
      exact store_rel (fun _ => .inl rfl) _ _ _ (hi a) (step_called (by simpa using ho) hd) p
  | sensorNext q t =>
    obtain ⟨s, hs, h⟩ := bind_eq_ok h
    cases h
    by_cases hq : p = q
    · subst hq; exact .inr (.inl ⟨t, by dsimp only; rw [cell_same]; exact hs⟩)
    · exact .inl (cell_ne _ _ hq)
  | sensorShuffle q draws =>
    cases h
    by_cases hq : p = q
    · subst hq; exact .inr (.inr ⟨draws, cell_same _ _ _⟩)
    · exact .inl (cell_ne _ _ hq)

/-- No device comes to hold an address twice. -/
theorem once_after [GoMath F] {m m' : SensorMem F} {op : SensorOp F} (hi : Once m) (hf : Fresh m op)
    (h : m.step op = .ok m') : Once m' := by
  intro b
  by_cases hb : actor op = some b
  · cases op with
    | addSensor a ps =>
      obtain rfl : a = b := Option.some.inj hb
      simp only [SensorMem.step] at h
      split at h
      · cases h; exact hi a
      · cases h
        simp only [SensorMem.put, cell_same]
        exact addLoop_nodup m _ _ _ (hi a)
    | removeSensor a id =>
      obtain rfl : a = b := Option.some.inj hb
      simp only [SensorMem.step] at h
      split at h
      · cases h; exact hi a
      · cases h
        simp only [SensorMem.put, cell_same]
        exact (hi a).sublist (removeFirst_sublist _ _)
    | resetSensors a =>
      obtain rfl : a = b := Option.some.inj hb
      cases h
      simp [SensorMem.put, cell_same]
    | restore a msg ps =>
      obtain rfl : a = b := Option.some.inj hb
      obtain ⟨d, -, h⟩ := bind_eq_ok h
      cases h
      split
      · rename_i hl
        simp only [SensorMem.put, cell_same]
        exact (hf hl).2.1
      · simp only [SensorMem.put, cell_same]
        exact hi a
    | drive a op =>
      obtain rfl : a = b := Option.some.inj hb
      simp only [SensorMem.step] at h
      split at h
      · cases h; exact hi a
      · obtain ⟨d, -, h⟩ := bind_eq_ok h
        cases h
        simp only [SensorMem.put, cell_same]
        exact hi a
    | sensorNext => cases hb
    | sensorShuffle => cases hb
  · rw [devs_after h hb]; exact hi b

/-- **What a device does itself**, on values. -/
theorem seen_own [GoMath F] {m m' : SensorMem F} {op : SensorOp F} (hi : Once m) (hf : Fresh m op) (h : m.step op = .ok m')
    {b : Nat} (hb : actor op = some b) : (m.view b).run (own m b op) = .ok (m'.view b) := by
  have one : ∀ (d : Device F) (o : DevOp F), d.run [o] = d.step o := by
    intro d o
    show (d.step o >>= fun d' => Except.ok d') = _
    cases d.step o <;> rfl
  cases op with
  | addSensor a ps =>
    obtain rfl : a = b := Option.some.inj hb
    simp only [own, if_true, one, Device.step]
    congr 1
    simp only [SensorMem.step] at h
    simp only [Device.addSensor, List.length_map]
    split at h
    case isTrue h0 => cases h; rw [if_pos h0]
    case isFalse h0 =>
      rw [if_neg h0]
      have := addLoop_view m (m.devs a).refs 0 ps
      rw [show (m.view a).sensors = (m.devs a).refs.map m.sensors from rfl, this]
      cases h
      dsimp only
      refine Eq.trans ?_ (view_put m m.sensors a _ _ ?_).symm
      · split <;> rfl
      · split <;> rfl
  | removeSensor a id =>
    obtain rfl : a = b := Option.some.inj hb
    simp only [own, if_true, one, Device.step]
    congr 1
    simp only [SensorMem.step] at h
    simp only [Device.removeSensor]
    split at h
    case isTrue h0 => cases h; rw [if_pos h0]
    case isFalse h0 =>
      rw [if_neg h0]
      have := removeFirst_map m.sensors (fun s : Sensor F => s.id == id) (m.devs a).refs
      rw [show (m.view a).sensors = (m.devs a).refs.map m.sensors from rfl, this]
      cases h
      dsimp only
      refine Eq.trans ?_ (view_put m m.sensors a _ _ ?_).symm
      · split <;> rfl
      · split <;> rfl
  | resetSensors a =>
    obtain rfl : a = b := Option.some.inj hb
    simp only [own, if_true, one, Device.step]
    cases h
    exact congrArg _ (view_put m m.sensors a _ _ rfl).symm
  | restore a msg ps =>
    obtain rfl : a = b := Option.some.inj hb
    simp only [own, if_true, one, Device.step]
    obtain ⟨d, hd, h⟩ := bind_eq_ok h
    cases h
    rw [hd]
    obtain ⟨r1, r2⟩ := restored_length hd
    split
    · rename_i hl
      obtain ⟨f1, f2, -⟩ := hf hl
      exact congrArg _ (view_put m _ a _ _ (store_same _ _ _ f2 (by rw [r1 hl, f1]))).symm
    · rename_i hl
      exact congrArg _ (view_put m _ a _ _ (by rw [r2 hl]; rfl)).symm
  | drive a op =>
    obtain rfl : a = b := Option.some.inj hb
    simp only [SensorMem.step] at h
    simp only [own, true_and]
    split at h
    case isTrue h0 =>
      cases h
      rw [if_neg (by simp [h0])]
      rfl
    case isFalse h0 =>
      have h0' : op.onSensors = false := by simpa using h0
      rw [if_pos h0', one]
      obtain ⟨d, hd, h⟩ := bind_eq_ok h
      cases h
      rw [hd]
      have hl := (step_called h0' hd).length_eq
      exact congrArg _ (view_put m _ a _ _ (store_same _ _ _ (hi a) (by rw [← hl]; simp [SensorMem.view, SensorMem.holding]))).symm
  | sensorNext => cases hb
  | sensorShuffle => cases hb

theorem modify_middle {α : Type} (f : α → α) (pre post : List α) (a : α) :
    (pre ++ a :: post).modify pre.length f = pre ++ f a :: post := by
  induction pre with
  | nil => rfl
  | cons b pre ih => simp [ih]

theorem run_called [GoMath F] (d : Device F) (pre l l' : List (Sensor F)) (h : List.Forall₂ Called l l')
    (hd : d.sensors = pre ++ l) :
    ∃ ops : List (DevOp F), (∀ o ∈ ops, direct o = true) ∧ d.run ops = .ok { d with sensors := pre ++ l' } := by
  induction h generalizing d pre with
  | nil => exact ⟨[], by simp, by rw [← hd]; rfl⟩
  | @cons s s' l l' h1 _ ih =>
    have get : d.sensors[pre.length]? = some s := by rw [hd]; simp
    have set : d.sensors.set pre.length s' = pre ++ s' :: l := by rw [hd]; simp
    obtain ⟨ops, h2, h3⟩ := ih { d with sensors := pre ++ s' :: l } (pre ++ [s']) (by simp)
    have e : (pre ++ [s'] ++ l') = pre ++ s' :: l' := by simp
    rw [e] at h3
    rcases h1 with rfl | ⟨t, ht⟩ | ⟨draws, rfl⟩
    · refine ⟨ops, h2, ?_⟩
      rw [← h3, ← hd]
    · refine ⟨.sensorNext pre.length t :: ops, by simpa [direct] using h2, ?_⟩
      refine bind_of_ok (a := { d with sensors := pre ++ s' :: l }) ?_ h3
      show d.onSensorNext pre.length t = _
      unfold Device.onSensorNext
      rw [get]
      simp only [ht, ok_bind, pure_eq_ok, set]
    · refine ⟨.sensorShuffle pre.length draws :: ops, by simpa [direct] using h2, ?_⟩
      refine bind_of_ok (a := { d with sensors := pre ++ s.shuffle draws :: l }) ?_ h3
      show Except.ok _ = _
      congr 2
      rw [hd]
      exact modify_middle _ pre l s

theorem refs_called [GoMath F] {m m' : SensorMem F} {op : SensorOp F} (hi : Once m) (hf : Fresh m op)
    (h : m.step op = .ok m') (b : Nat) : ∀ l : List Nat, (∀ p ∈ l, p ∈ (m.devs b).refs) →
      List.Forall₂ Called (l.map m.sensors) (l.map m'.sensors) := by
  intro l
  induction l with
  | nil => intro _; exact .nil
  | cons p l ih => intro hl; exact .cons (sensors_after hi hf h (hl p (by simp))) (ih fun q hq => hl q (by simp [hq]))

/-- **What others do, seen by a device**: calls of its sensors. -/
theorem seen_foreign [GoMath F] {m m' : SensorMem F} {op : SensorOp F} (hi : Once m) (hf : Fresh m op) (h : m.step op = .ok m')
    {b : Nat} (hb : actor op ≠ some b) :
    ∃ ops : List (DevOp F), (∀ o ∈ ops, direct o = true) ∧ (m.view b).run ops = .ok (m'.view b) := by
  obtain ⟨ops, h1, h2⟩ := run_called (m.view b) [] _ _ (refs_called hi hf h b _ fun p hp => hp) rfl
  refine ⟨ops, h1, h2.trans ?_⟩
  unfold SensorMem.view SensorMem.holding
  rw [devs_after h hb]
  rfl

/-! ## Programs -/

theorem run_append [GoMath F] (d : Device F) (l l' : List (DevOp F)) : d.run (l ++ l') = d.run l >>= fun d' => d'.run l' := by
  induction l generalizing d with
  | nil => rfl
  | cons o l ih =>
    show (d.step o >>= fun d' => d'.run (l ++ l')) = (d.step o >>= fun d' => d'.run l) >>= _
    cases d.step o with
    | error e => rfl
    | ok d' => exact ih d'

theorem ownAll_cons [GoMath F] {m m' : SensorMem F} {op : SensorOp F} (h : m.step op = .ok m') (b : Nat)
    (ops : List (SensorOp F)) : ownAll m b (op :: ops) = own m b op ++ ownAll m' b ops := by
  simp only [ownAll, h]

theorem own_foreign (m : SensorMem F) {b : Nat} {op : SensorOp F} (hb : actor op ≠ some b) : own m b op = [] := by
  have ne : ∀ {a : Nat}, actor op = some a → a ≠ b := fun e hc => hb (by rw [e, hc])
  cases op <;> first | rfl | simp [own, ne rfl]

theorem own_direct (m : SensorMem F) (b : Nat) (op : SensorOp F) : ∀ o ∈ own m b op, direct o = false := by
  intro o ho
  cases op with
  | drive a op =>
    simp only [own] at ho
    split at ho
    · rename_i hc
      rw [List.mem_singleton] at ho
      subst ho
      cases o <;> first | rfl | cases hc.2
    · cases ho
  | sensorNext => cases ho
  | sensorShuffle => cases ho
  | _ =>
    simp only [own] at ho
    split at ho
    · rw [List.mem_singleton] at ho; subst ho; rfl
    · cases ho

/-- **C92, what sharing amounts to.** Whatever devices share, each device goes through a history of its own calls and of
calls of its sensors. -/
theorem simulated [GoMath F] (m m' : SensorMem F) (ops : List (SensorOp F)) (b : Nat) (hi : Once m) (hf : FreshAll m ops)
    (h : m.run ops = .ok m') :
    ∃ hist : List (DevOp F), (m.view b).run hist = .ok (m'.view b) ∧
      hist.filter (fun o => !direct o) = ownAll m b ops := by
  induction ops generalizing m with
  | nil => cases h; exact ⟨[], rfl, rfl⟩
  | cons op ops ih =>
    obtain ⟨m1, h1, h2⟩ := bind_eq_ok h
    obtain ⟨hist, r1, r2⟩ := ih m1 (once_after hi hf.1 h1) (hf.2 m1 h1) h2
    rw [ownAll_cons h1]
    by_cases hb : actor op = some b
    · refine ⟨own m b op ++ hist, ?_, ?_⟩
      · rw [run_append, seen_own hi hf.1 h1 hb]; exact r1
      · rw [List.filter_append, r2]
        congr 1
        exact List.filter_eq_self.mpr fun o ho => by simp [own_direct m b op o ho]
    · obtain ⟨es, e1, e2⟩ := seen_foreign hi hf.1 h1 hb
      refine ⟨es ++ hist, ?_, ?_⟩
      · rw [run_append, e2]; exact r1
      · rw [List.filter_append, r2, own_foreign m hb]
        have : es.filter (fun o => !direct o) = [] := List.filter_eq_nil_iff.mpr fun o ho => by simp [e1 o ho]
        rw [this]

theorem called_fixed [GoMath F] {s s' : Sensor F} (h : Called s s') : fixedPart s = fixedPart s' := by
  rcases h with rfl | ⟨t, h⟩ | ⟨draws, rfl⟩
  · rfl
  · exact (sensor_parts h).2.1.symm
  · simp [fixedPart, Sensor.shuffle, Curve.shuffle, C07.makePoints_length]

theorem called_curve [GoMath F] {s s' : Sensor F} (h : Called s s') (hc : C29.control s'.gen = C29.control s.gen) :
    curvePart s = curvePart s' := by
  rcases h with rfl | ⟨t, h⟩ | ⟨draws, rfl⟩
  · rfl
  · exact (sensor_parts h).1.symm
  · simp only [curvePart, hc]
    rfl

theorem run_kin [GoMath F] {κ : Type} {key : Sensor F → κ} (hk : Telling key) {l : List (DevOp F)}
    (hl : ∀ o ∈ l, direct o = false) {d e d' : Device F} (h : Kin key d e) (hd : d.run l = .ok d') :
    ∃ e', e.run l = .ok e' ∧ Kin key d' e' := by
  induction l generalizing d e with
  | nil => cases hd; exact ⟨e, rfl, h⟩
  | cons o l ih =>
    obtain ⟨d1, h1, hd⟩ := bind_eq_ok hd
    obtain ⟨e1, h2, k⟩ := step_kin hk h (hl o (by simp)) h1
    obtain ⟨e', h3, k'⟩ := ih (fun o ho => hl o (by simp [ho])) k hd
    exact ⟨e', bind_of_ok h2 h3, k'⟩

/-- A device and the same device alone stay alike, if the calls of others preserve `key`. -/
theorem alone_kin [GoMath F] {κ : Type} {key : Sensor F → κ} (hk : Telling key) (P : SensorMem F → List (SensorOp F) → Prop)
    (b : Nat)
    (hP : ∀ m op ops m', Once m → Fresh m op → P m (op :: ops) → m.step op = .ok m' → P m' ops ∧
      (actor op ≠ some b → ∀ p ∈ (m.devs b).refs, key (m.sensors p) = key (m'.sensors p)))
    (m m' : SensorMem F) (ops : List (SensorOp F)) (hi : Once m) (hf : FreshAll m ops) (hq : P m ops) (h : m.run ops = .ok m')
    {e : Device F} (he : Kin key (m.view b) e) :
    ∃ e', e.run (ownAll m b ops) = .ok e' ∧ Kin key (m'.view b) e' := by
  induction ops generalizing m e with
  | nil => cases h; exact ⟨e, rfl, he⟩
  | cons op ops ih =>
    obtain ⟨m1, h1, h2⟩ := bind_eq_ok h
    obtain ⟨q1, q2⟩ := hP m op ops m1 hi hf.1 hq h1
    rw [ownAll_cons h1]
    have key1 : ∃ e1, e.run (own m b op) = .ok e1 ∧ Kin key (m1.view b) e1 := by
      by_cases hb : actor op = some b
      · exact run_kin hk (own_direct m b op) he (seen_own hi hf.1 h1 hb)
      · rw [own_foreign m hb]
        refine ⟨e, rfl, Kin.trans (Kin.symm ?_) he⟩
        have hv : m1.view b = { m.view b with sensors := (m.devs b).refs.map m1.sensors } := by
          unfold SensorMem.view SensorMem.holding
          rw [devs_after h1 hb]
        rw [hv]
        refine ⟨rfl, ?_, rfl⟩
        show ((m.devs b).refs.map m.sensors).map key = ((m.devs b).refs.map m1.sensors).map key
        rw [List.map_map, List.map_map]
        exact List.map_congr_left fun p hp => q2 hb p hp
    obtain ⟨e1, r1, k1⟩ := key1
    obtain ⟨e', r2, k2⟩ := ih m1 (once_after hi hf.1 h1) (hf.2 m1 h1) q1 h2 k1
    exact ⟨e', by rw [run_append, r1]; exact r2, k2⟩

/-- **C92, the rest of the device.** Whatever others do, a device alone gets through the same calls, and everything about it
except its sensors is the same. -/
theorem rest_alone [GoMath F] (m m' : SensorMem F) (ops : List (SensorOp F)) (b : Nat) (hi : Once m) (hf : FreshAll m ops)
    (h : m.run ops = .ok m') :
    ∃ d, (m.view b).run (ownAll m b ops) = .ok d ∧ d.bare = (m'.view b).bare ∧
      d.sensors.map (fun s => (s.id, s.name)) = (m'.view b).sensors.map (fun s => (s.id, s.name)) := by
  obtain ⟨d, h1, k⟩ := alone_kin telling_fixed (fun _ _ => True) b
    (fun m op ops m' hi hf _ h => ⟨trivial, fun _ p hp => called_fixed (sensors_after hi hf h hp)⟩)
    m m' ops hi hf trivial h (Kin.refl fixedPart (m.view b))
  exact ⟨d, h1, k.bare.symm, (map_ids telling_fixed k.held).symm⟩

/-- As long as the curves of its sensors are left alone, they are those of the device alone. -/
theorem curves_alone [GoMath F] (m m' : SensorMem F) (ops : List (SensorOp F)) (b : Nat) (hi : Once m) (hf : FreshAll m ops)
    (hq : Quiet m b ops) (h : m.run ops = .ok m') :
    ∃ d, (m.view b).run (ownAll m b ops) = .ok d ∧ Kin curvePart (m'.view b) d :=
  alone_kin telling_curve (fun m ops => Quiet m b ops) b
    (fun _ _ _ m' hi hf hq h => ⟨(hq m' h).2, fun hb p hp => called_curve (sensors_after hi hf h hp) ((hq m' h).1 hb p hp)⟩)
    m m' ops hi hf hq h (Kin.refl curvePart (m.view b))

/-- A `Next` that moves the device publishes values that depend on the curves only. -/
theorem moved_same [GoMath F] {d e d' : Device F} (h : Kin curvePart d e) {tick : F} {rnd : NextRnd F}
    (hd : d.next tick rnd = .ok (d', true)) : ∃ e', e.next tick rnd = .ok (e', true) ∧ e'.state = d'.state := by
  obtain ⟨e', he, k⟩ := next_kin telling_curve h hd
  refine ⟨e', he, ?_⟩
  -- the published sensors, from a `Next` that moved the device
  have shape : ∀ {d d' : Device F}, d.next tick rnd = .ok (d', true) → ∃ ss,
      d.sensors.mapM (fun s => s.next (d.phase (d.seconds tick))) = .ok ss ∧ d'.state.sensors = pubSensors d.state.sensors ss := by
    intro d d' hd
    cases next_outcome hd with
    | moved hr n1 n2 n3 speed sensors d2 _ h1 h2 h3 h4 h5 hd2 h6 =>
      refine ⟨sensors, h5, ?_⟩
      obtain ⟨st, hs, rfl⟩ := updateState_eq h6
      have e1 := update_keeps _ hs
      have e2 : (if d2.navigator.sum ≠ d2.ns then d2.updateRoutes else d2).sensors = sensors := by
        subst hd2; split <;> rfl
      have e3 : (if d2.navigator.sum ≠ d2.ns then d2.updateRoutes else d2).state.sensors = d.state.sensors := by
        subst hd2; split <;> rfl
      show pubSensors st.sensors _ = _
      rw [e1, e2, e3]
  obtain ⟨ss, s1, s2⟩ := shape hd
  obtain ⟨ss', s1', s2'⟩ := shape he
  have hph : e.phase (e.seconds tick) = d.phase (d.seconds tick) := by rw [h.eq_sub]; rfl
  rw [hph] at s1'
  have vals : ∀ (l l' r r' : List (Sensor F)) (t : F), l.map curvePart = l'.map curvePart →
      l.mapM (fun s => s.next t) = .ok r → l'.mapM (fun s => s.next t) = .ok r' →
      r.map (fun s => (s.id, s.name, s.valX, s.valY)) = r'.map (fun s => (s.id, s.name, s.valX, s.valY)) := by
    intro l
    induction l with
    | nil =>
      intro l' r r' t hl h1 h2
      cases l' with
      | nil => cases h1; cases h2; rfl
      | cons => cases hl
    | cons a l ih =>
      intro l' r r' t hl h1 h2
      cases l' with
      | nil => cases hl
      | cons b l' =>
        simp only [List.map_cons, List.cons.injEq] at hl
        rw [List.mapM_cons] at h1 h2
        obtain ⟨a1, ha, h1⟩ := bind_eq_ok h1
        obtain ⟨l1, hl1, h1⟩ := bind_eq_ok h1
        obtain ⟨b1, hb, h2⟩ := bind_eq_ok h2
        obtain ⟨l2, hl2, h2⟩ := bind_eq_ok h2
        cases h1
        cases h2
        simp only [List.map_cons, List.cons.injEq]
        refine ⟨?_, ih l' l1 l2 t hl.2 hl1 hl2⟩
        have hc : C29.control a.gen = C29.control b.gen := congrArg (·.2.2.1) hl.1
        have hv := C29.eval_depends_on_control _ _ hc t
        obtain ⟨pa, -, va⟩ := sensor_parts ha
        obtain ⟨pb, -, vb⟩ := sensor_parts hb
        rw [va, vb] at hv
        simp only [Except.ok.injEq, Pt.mk.injEq] at hv
        have hid := telling_curve.id (show curvePart a1 = curvePart b1 by rw [pa, pb, hl.1])
        rw [hid.1, hid.2, hv.1, hv.2]
  have hv := vals _ _ _ _ _ h.held s1 s1'
  have hpub : pubSensors d.state.sensors ss = pubSensors e.state.sensors ss' := by
    have l1 : ss.length = ss'.length := by simpa using congrArg List.length hv
    have l2 : d.state.sensors.length = e.state.sensors.length := by simpa using congrArg List.length h.shown
    unfold pubSensors
    rw [← l1, ← l2]
    split
    · have := congrArg (List.map fun q : String × String × F × F => (⟨q.1, q.2.1, q.2.2.1, q.2.2.2⟩ : SensorPub F)) hv
      simpa [List.map_map, Function.comp_def] using this
    · have key : ∀ (o o' : List (SensorPub F)) (r r' : List (Sensor F)),
          o.map (fun p => (p.id, p.name)) = o'.map (fun p => (p.id, p.name)) →
          r.map (fun s => (s.id, s.name, s.valX, s.valY)) = r'.map (fun s => (s.id, s.name, s.valX, s.valY)) →
          List.zipWith (fun (p : SensorPub F) (s : Sensor F) => { p with valX := s.valX, valY := s.valY }) o r =
          List.zipWith (fun (p : SensorPub F) (s : Sensor F) => { p with valX := s.valX, valY := s.valY }) o' r' := by
        intro o
        induction o with
        | nil =>
          intro o' r r' ho _
          cases o' with
          | nil => rfl
          | cons => cases ho
        | cons p o ih =>
          intro o' r r' ho hr
          cases o' with
          | nil => cases ho
          | cons p' o' =>
            cases r with
            | nil => cases r' with
              | nil => rfl
              | cons => cases hr
            | cons s r => cases r' with
              | nil => cases hr
              | cons s' r' =>
                simp only [List.map_cons, List.cons.injEq, Prod.mk.injEq] at ho hr
                simp only [List.zipWith_cons_cons, ho.1.1, ho.1.2, hr.1.2.2.1, hr.1.2.2.2, ih o' r r' ho.2 hr.2]
      exact key _ _ _ _ h.shown hv
  have hsens : e'.state.sensors = d'.state.sensors := by rw [s2, s2', hpub]
  have hb := congrArg Device.state k.bare
  have : ∀ st st' : DevState F, ({ st with sensors := [] } : DevState F) = { st' with sensors := [] } →
      st'.sensors = st.sensors → st' = st := by
    rintro ⟨⟩ ⟨⟩ h1 h2
    simp only [DevState.mk.injEq] at h1 h2 ⊢
    simp_all
  exact this _ _ hb hsens

/-- **C92, as far as it holds.** If others do not give its sensors new curves, then whatever a device publishes by a `Next`
that moves it is what it would publish alone: after any program, and any sharing. Missing: the values published by `Update`
and at the end of a lap, which may be those of another device, and other devices that end a lap (`claim_fails`,
`lapFirst`). -/
theorem moving_alone_partial [GoMath F] (m m' : SensorMem F) (ops : List (SensorOp F)) (b : Nat) (hi : Once m)
    (hf : FreshAll m ops) (hq : Quiet m b ops) (h : m.run ops = .ok m') (tick : F) (rnd : NextRnd F) (d : Device F)
    (hn : (m'.view b).next tick rnd = .ok (d, true)) :
    ∃ e e', (m.view b).run (ownAll m b ops) = .ok e ∧ e.next tick rnd = .ok (e', true) ∧ e'.state = d.state := by
  obtain ⟨e, h1, k⟩ := curves_alone m m' ops b hi hf hq h
  obtain ⟨e', h2, h3⟩ := moved_same k hn
  exact ⟨e, e', h1, h2, h3⟩

/-- Only the end of a lap and `Shuffle` give a sensor a new curve: every other call of another device is quiet. -/
theorem quiet_unless_lap [GoMath F] {m m' : SensorMem F} {a : Nat} {op : DevOp F} (hi : Once m)
    (h : m.step (.drive a op) = .ok m')
    (hl : ∀ tick rnd, op = .next tick rnd → ∃ d, (m.view a).next tick rnd = .ok (d, true)) (p : Nat) :
    C29.control (m'.sensors p).gen = C29.control (m.sensors p).gen := by
  simp only [SensorMem.step] at h
  split at h
  · cases h; rfl
  · rename_i ho
    have ho' : op.onSensors = false := by simpa using ho
    obtain ⟨d, hd, h⟩ := bind_eq_ok h
    cases h
    refine store_rel (R := fun s s' => C29.control s'.gen = C29.control s.gen) (fun _ => rfl) _ _ _ (hi a) ?_ p
    have self : ∀ l : List (Sensor F), List.Forall₂ (fun s s' => C29.control s'.gen = C29.control s.gen) l l := by
      intro l
      induction l with
      | nil => exact .nil
      | cons a l ih => exact .cons rfl ih
    by_cases hn : ∀ tick rnd, op ≠ .next tick rnd
    · rw [step_keeps ho' hn hd]; exact self _
    · simp only [not_forall, not_not] at hn
      obtain ⟨tick, rnd, rfl⟩ := hn
      obtain ⟨d1, h1⟩ := hl tick rnd rfl
      have hd' : (Except.ok d1 : Go (Device F)) = .ok d := by
        rw [← hd]; show _ = ((m.view a).next tick rnd).map _; rw [h1]; rfl
      rw [← Except.ok.inj hd']
      have hs := moved_sensors h1
      show List.Forall₂ _ (m.view a).sensors d1.sensors
      generalize d1.sensors = r at hs
      generalize (m.view a).sensors = l at hs
      generalize (m.view a).phase _ = t at hs
      clear h1 hd hd' hl ho ho'
      induction l generalizing r with
      | nil => cases hs; exact .nil
      | cons s l ih =>
        rw [List.mapM_cons] at hs
        obtain ⟨s1, e1, hs⟩ := bind_eq_ok hs
        obtain ⟨l1, e2, hs⟩ := bind_eq_ok hs
        cases hs
        exact .cons (congrArg (·.2.2.1) (sensor_parts e1).1) (ih _ e2)

/-! ## Counterexamples and cases -/

theorem fresh_of_drive [GoMath F] (ops : List (SensorOp F)) (h : ∀ op ∈ ops, ∀ a msg ps, op ≠ .restore a msg ps)
    (m : SensorMem F) : FreshAll m ops := by
  induction ops generalizing m with
  | nil => trivial
  | cons op ops ih =>
    refine ⟨?_, fun m' _ => ih (fun o ho => h o (by simp [ho])) m'⟩
    cases op with
    | restore a msg ps => exact absurd rfl (h _ (by simp) a msg ps)
    | _ => trivial

/-- A sensor whose value grows along the way. -/
def thermo : Sensor Toy :=
  match Sensor.new "s" (fun i => Toy.of i) "temperature" (Toy.of 0) (Toy.of 10) 4 0 with
  | .ok s => s
  | .error _ => ⟨"", "", Toy.of 0, Toy.of 0, Toy.of 0, Toy.of 0, ⟨[], 0, Toy.of 0, Toy.of 0⟩⟩

/-- Two devices on the same kind of route, and a sensor at address 0. -/
def demo : Option (SensorMem Toy) :=
  (Toy.dev [.addRoute [some Toy.route]]).map fun d => ⟨fun _ => thermo, fun _ => ⟨d, []⟩⟩

/-- The values a device publishes for its sensors. -/
def shows (d : Device Toy) : List Toy := d.state.sensors.map (·.valY)

/-- The memory after a program. -/
def shared (ops : List (SensorOp Toy)) : Option (SensorMem Toy) := demo.bind fun m => (m.run ops).toOption

/-- The first device after its own calls. -/
def alone (ops : List (SensorOp Toy)) : Option (Device Toy) :=
  demo.bind fun m => ((m.view 0).run (ownAll m 0 ops)).toOption

/-- Both devices hold the sensor and drive, then the first is brought up to date. -/
def refresh : List (SensorOp Toy) :=
  [.addSensor 0 [some 0], .addSensor 1 [some 0], .drive 0 (.next (Toy.of (1/2)) Toy.nextRnd),
   .drive 1 (.next (Toy.of (1/4)) Toy.nextRnd), .drive 0 .update]

/-- The first device shows the value of the second one. -/
theorem shows_other : (shared refresh).map (fun m => (shows (m.view 0), shows (m.view 1))) =
    some ([Toy.of (3 / 637100)], [Toy.of (3 / 637100)]) := by decide +kernel

theorem shows_own : (alone refresh).map shows = some [Toy.of (3 / 318550)] := by decide +kernel

/-- The same sensor, in doubles. -/
def thermoD : Sensor F64 :=
  match Sensor.new "s" (fun i => lit (i / 10)) "temperature" (lit 0) (lit 10) 4 0 with
  | .ok s => s
  | .error _ => ⟨"", "", lit 0, lit 0, lit 0, lit 0, ⟨[], 0, lit 0, lit 0⟩⟩

/-- Two devices with a speed of 1 m/s. -/
def demoD : Option (SensorMem F64) :=
  (ToyF64.dev (lit 1) (lit 1) (lit 0) [.addRoute [some ToyF64.route]]).map fun d => ⟨fun _ => thermoD, fun _ => ⟨d, []⟩⟩

/-- Both devices hold the sensor and drive, one for 100 seconds and the other for 50; then the first is brought up to
date. -/
def refreshD : List (SensorOp F64) :=
  [.addSensor 0 [some 0], .addSensor 1 [some 0], .drive 0 (.next (lit 100) ToyF64.nextRnd),
   .drive 1 (.next (lit 50) ToyF64.nextRnd), .drive 0 .update]

/-- The first device publishes other values than it does alone. -/
def differs (m : SensorMem F64) (ops : List (SensorOp F64)) : Bool :=
  match m.run ops, (m.view 0).run (ownAll m 0 ops) with
  | .ok m', .ok d => decide (d.state.sensors.map (·.valY) ≠ (m'.view 0).state.sensors.map (·.valY))
  | _, _ => false

/-- **Negation**, in doubles. `Update` publishes the value of whichever device called the sensor last. -/
theorem claim_fails : ¬ Claim F64 := by
  intro hc
  have key : demoD.any (fun m => differs m refreshD) = true := by decide +kernel
  obtain ⟨m, hm, hd⟩ : ∃ m, demoD = some m ∧ differs m refreshD = true := by
    cases hd : demoD with
    | none => rw [hd] at key; cases key
    | some m => rw [hd] at key; exact ⟨m, rfl, key⟩
  have ho : Once m := by
    unfold demoD at hm
    obtain ⟨d, -, rfl⟩ := Option.map_eq_some_iff.mp hm
    intro a
    exact List.nodup_nil
  have hf : FreshAll m refreshD := fresh_of_drive _ (by intro op ho a msg ps; simp [refreshD] at ho; rcases ho with h | h | h | h | h <;> simp [h]) m
  unfold differs at hd
  split at hd
  · rename_i m' d h1 h2
    obtain ⟨d', h3, h4⟩ := hc m m' refreshD 0 ho hf h1
    rw [h2] at h3
    cases h3
    exact of_decide_eq_true hd (by rw [h4])
  · cases hd

/-- Both devices hold the sensor; the second drives to the end of its lap, then the first drives. -/
def lapFirst : List (SensorOp Toy) :=
  [.addSensor 0 [some 0], .addSensor 1 [some 0], .drive 1 (.next (Toy.of 3000000) Toy.nextRnd),
   .drive 0 (.next (Toy.of (1/2)) Toy.nextRnd)]

/-- The end of a lap of another device changes what a moving device shows. -/
example : (shared lapFirst).map (fun m => shows (m.view 0)) = some [Toy.of 0] := by decide +kernel
example : (alone lapFirst).map shows = some [Toy.of (3 / 318550)] := by decide +kernel

/-- Both devices drive in turn, without the end of a lap: the first shows what it would show alone. -/
def turns : List (SensorOp Toy) :=
  [.addSensor 0 [some 0], .addSensor 1 [some 0], .drive 0 (.next (Toy.of (1/2)) Toy.nextRnd),
   .drive 1 (.next (Toy.of (1/4)) Toy.nextRnd), .drive 0 (.next (Toy.of (1/3)) Toy.nextRnd)]

example : (shared turns).map (fun m => decide (shows (m.view 0) = shows (m.view 1))) = some false := by decide +kernel
example : (shared turns).map (fun m => some (shows (m.view 0))) = some ((alone turns).map shows) := by decide +kernel

/-- A sensor with the same id is not added twice, whether it is the same object or not. -/
example : (shared [.addSensor 0 [some 0, none, some 0, some 1], .addSensor 0 [some 1]]).map (fun m => (m.devs 0).refs) =
    some [0] := by decide +kernel

end GpsGen.C92
