import Verif.Theorems.C26
import Verif.Theorems.C58
/-!
# C68: looking up a sensor by index is safe while others change the sensors

Any number type. `SensorAt` compares the index with the number of sensors before it takes the lock. The claim is
therefore false: a sensor removed in between makes it panic (`removed_panics`, on every device with a sensor).
`returns_iff` says exactly when it panics; whenever it returns, it returns what it would have returned at one moment
(`one_moment`), and it returns if nothing is removed or restored meanwhile (`safe_partial`).
-/

namespace GpsGen
variable {F : Type}

namespace C68
open C24 (Returns)
open C58 (History)

/-! ## Specification -/

/-- The moments belong to these states, in order. -/
def During (hist : List (Device F)) (a b c : Device F) : Prop :=
  ∃ i j k : Nat, i ≤ j ∧ j ≤ k ∧ hist[i]? = some a ∧ hist[j]? = some b ∧ hist[k]? = some c

/-- The answer a device nobody uses gives: the element of that index, if there is one. -/
def Answer (d : Device F) (i : Int) (r : Option (Sensor F)) : Prop :=
  ∀ s, r = some s ↔ ∃ n : Nat, (n : Int) = i ∧ d.sensors[n]? = some s

/-- The operation may make the list of sensors shorter. -/
def Shrinks : DevOp F → Prop
  | .removeSensor _ | .resetSensors | .fromSnapshot _ => True
  | _ => False

/-- The states of a device while others use it, none of their operations of the kind that removes sensors. -/
def Growing [GoMath F] : List (Device F) → Prop
  | [] => False
  | [_] => True
  | d :: d' :: ds => (∃ op, d.step op = .ok d' ∧ ¬ Shrinks op) ∧ Growing (d' :: ds)

/-! ## What is returned -/

theorem answer_none {d : Device F} {i : Int} (h : (d.sensors.length : Int) ≤ i ∨ i < 0) : Answer d i none := by
  intro s
  constructor
  · nofun
  · rintro ⟨n, rfl, hs⟩
    have := (List.getElem?_eq_some_iff.mp hs).1
    omega

theorem answer_some {d : Device F} {n : Nat} {s : Sensor F} (h : d.sensors[n]? = some s) : Answer d n (some s) := by
  intro t
  constructor
  · rintro ⟨⟩
    exact ⟨n, rfl, h⟩
  · rintro ⟨m, hm, ht⟩
    rw [show m = n by omega, h] at ht
    exact ht

/-- A device nobody uses answers as it should. -/
theorem sensorAt_answer (d : Device F) (i : Int) : Answer d i (d.sensorAt i) := by
  unfold Device.sensorAt goAt?
  split
  · rename_i h
    cases hs : d.sensors[i.toNat]? with
    | none => exact answer_none (Or.inl (by have := List.getElem?_eq_none_iff.mp hs; omega))
    | some s =>
      have := answer_some hs
      rwa [Int.toNat_of_nonneg h] at this
  · exact answer_none (Or.inr (by omega))

/-- **C68, exact panic condition.** -/
theorem returns_iff (a b c : Device F) (i : Int) :
    Returns (Device.sensorAtMoments a b c i) ↔
      ¬ (a.sensors ≠ [] ∧ 0 ≤ i ∧ i < b.sensors.length ∧ (c.sensors.length : Int) ≤ i) := by
  unfold Device.sensorAtMoments
  split
  · rename_i h
    refine ⟨fun _ => ?_, fun _ => ⟨_, rfl⟩⟩
    rintro ⟨h1, h2, h3, -⟩
    rcases h with h | h | h
    · exact h1 (List.eq_nil_of_length_eq_zero h)
    · omega
    · omega
  · rename_i h
    have h1 : a.sensors ≠ [] := fun e => h (Or.inl (by rw [e]; rfl))
    have h2 : 0 ≤ i := by
      apply Classical.byContradiction
      exact fun e => h (Or.inr (Or.inr (by omega)))
    have h3 : i < b.sensors.length := by
      apply Classical.byContradiction
      exact fun e => h (Or.inr (Or.inl (by omega)))
    unfold goIndex
    rw [if_pos h2]
    cases hs : c.sensors[i.toNat]? with
    | none =>
      have := List.getElem?_eq_none_iff.mp hs
      constructor
      · rintro ⟨_, h⟩; cases h
      · intro hn; exact absurd ⟨h1, h2, h3, by omega⟩ hn
    | some s =>
      have := (List.getElem?_eq_some_iff.mp hs).1
      exact ⟨fun _ hn => by omega, fun _ => ⟨_, rfl⟩⟩

/-- **C68, one moment.** What is returned is right for one of the three moments. -/
theorem one_moment (a b c : Device F) (i : Int) (r : Option (Sensor F))
    (h : Device.sensorAtMoments a b c i = .ok r) : Answer a i r ∨ Answer b i r ∨ Answer c i r := by
  unfold Device.sensorAtMoments at h
  split at h
  · rename_i hc
    cases h
    rcases hc with hc | hc | hc
    · exact Or.inl (answer_none (by omega))
    · exact Or.inr (Or.inl (answer_none (by omega)))
    · exact Or.inl (answer_none (by omega))
  · obtain ⟨s, hs, rfl⟩ := map_eq_ok h
    refine Or.inr (Or.inr ?_)
    unfold goIndex at hs
    split at hs
    · rename_i h0
      split at hs
      · rename_i x hx
        cases hs
        have := answer_some hx
        rwa [Int.toNat_of_nonneg h0] at this
      · cases hs
    · cases hs

/-! ## No removal meanwhile -/

theorem addSensors_length (l : List (Sensor F)) (n : Nat) (ss : List (Option (Sensor F))) :
    l.length ≤ (Device.addSensors l n ss).1.length := by
  induction ss generalizing l n with
  | nil => exact Nat.le_refl _
  | cons s ss ih =>
    cases s with
    | none => exact ih l n
    | some s =>
      unfold Device.addSensors
      split
      · exact ih l n
      · exact Nat.le_trans (by simp) (ih _ _)

theorem step_length [GoMath F] {d d' : Device F} {op : DevOp F} (hn : ¬ Shrinks op) (h : d.step op = .ok d') :
    d.sensors.length ≤ d'.sensors.length := by
  cases op with
  | addRoute rs =>
    cases h
    unfold Device.addRoute
    cases d.navigator.addRoute rs with
    | mk n err => cases err <;> exact Nat.le_refl _
  | removeRoute id =>
    cases h
    unfold Device.removeRoute
    cases d.navigator.removeRoute id with
    | mk n ok => cases ok <;> exact Nat.le_refl _
  | removeTrack rid tid =>
    cases h
    unfold Device.removeTrack
    cases d.navigator.removeTrack rid tid with
    | mk n ok => cases ok <;> exact Nat.le_refl _
  | resetRoutes =>
    cases h
    unfold Device.resetRoutes
    cases d.navigator.resetRoutes with
    | mk n ok => cases ok <;> exact Nat.le_refl _
  | move m => obtain ⟨n, -, rfl⟩ := map_eq_ok h; exact Nat.le_refl _
  | onRoute i op => cases h; exact Nat.le_refl _
  | addSensor ss =>
    cases h
    unfold Device.addSensor
    split
    · exact Nat.le_refl _
    · simp only
      split <;> exact addSensors_length _ _ _
  | removeSensor id => exact absurd trivial hn
  | resetSensors => exact absurd trivial hn
  | sensorNext i t =>
    simp only [Device.step, Device.onSensorNext] at h
    split at h
    · cases h; exact Nat.le_refl _
    · obtain ⟨s', h1, h⟩ := bind_eq_ok h
      cases h
      simp
  | sensorShuffle i draws => cases h; simp
  | next tick rnd =>
    obtain ⟨⟨e, b⟩, he, rfl⟩ := map_eq_ok h
    generalize hres : (e, b).1 = e'
    cases hres
    have hu : ∀ {x y : Device F}, x.updateState = .ok y → y.sensors = x.sensors := by
      intro x y hxy
      obtain ⟨st, -, rfl⟩ := Device.updateState_eq hxy
      rfl
    cases Device.next_outcome he with
    | idle _ => exact Nat.le_refl _
    | halted _ n1 n2 speed h1 h2 h3 h4 => exact Nat.le_refl _
    | lap _ n1 n2 speed _ h1 h2 h3 h4 h5 =>
      rw [hu h5]
      have := congrArg List.length (C26.shuffle_keys d.sensors rnd.sensor)
      simp only [List.length_map] at this
      exact Nat.le_of_eq this.symm
    | moved _ n1 n2 n3 speed ss d2 _ h1 h2 h3 h4 h5 hd2 h6 =>
      have hl := congrArg List.length (C26.mapM_next_keys h5)
      simp only [List.length_map] at hl
      have h2 : d2.sensors = ss := by rw [hd2]
      split at h6
      · rw [hu h6]; exact Nat.le_of_eq (by rw [show d2.updateRoutes.sensors = d2.sensors from rfl, h2, hl])
      · rw [hu h6]; exact Nat.le_of_eq (by rw [h2, hl])
  | skipTick => cases h; exact Nat.le_refl _
  | update =>
    obtain ⟨st, hst, rfl⟩ := Device.update_eq h
    exact Nat.le_refl _
  | setModel s => cases h; unfold Device.setModel; split <;> exact Nat.le_refl _
  | setUserID s => cases h; exact Nat.le_refl _
  | setDescription s => cases h; exact Nat.le_refl _
  | setColor c => cases h; unfold Device.setColor; split <;> exact Nat.le_refl _
  | fromSnapshot m => exact absurd trivial hn

theorem growing_length [GoMath F] {hist : List (Device F)} (hg : Growing hist) {i j : Nat} (hij : i ≤ j) {a b : Device F}
    (ha : hist[i]? = some a) (hb : hist[j]? = some b) : a.sensors.length ≤ b.sensors.length := by
  induction hist generalizing i j a with
  | nil => exact hg.elim
  | cons d ds ih =>
    cases ds with
    | nil =>
      cases i with
      | succ i => cases ha
      | zero =>
        cases j with
        | succ j => cases hb
        | zero => cases ha; cases hb; exact Nat.le_refl _
    | cons e es =>
      obtain ⟨⟨op, hop, hs⟩, hg⟩ := hg
      cases j with
      | zero =>
        rw [show i = 0 by omega] at ha
        cases ha; cases hb; exact Nat.le_refl _
      | succ j =>
        cases i with
        | zero =>
          cases ha
          exact Nat.le_trans (step_length hs hop) (ih hg (Nat.zero_le j) rfl hb)
        | succ i => exact ih hg (by omega) ha hb

/-- **C68, partial.** If the operations of others meanwhile do not remove sensors and do not restore the device,
`SensorAt` returns, and its result is right for one of the moments in between. Missing for the full property: false
otherwise. -/
theorem safe_partial [GoMath F] (hist : List (Device F)) (hg : Growing hist) (a b c : Device F) (hm : During hist a b c)
    (i : Int) : ∃ r, Device.sensorAtMoments a b c i = .ok r ∧ ∃ d ∈ hist, Answer d i r := by
  obtain ⟨x, y, z, hxy, hyz, ha, hb, hc⟩ := hm
  have hl := growing_length hg hyz hb hc
  obtain ⟨r, hr⟩ := (returns_iff a b c i).mpr (fun h => by omega)
  refine ⟨r, hr, ?_⟩
  rcases one_moment a b c i r hr with h | h | h
  · exact ⟨a, List.mem_of_getElem? ha, h⟩
  · exact ⟨b, List.mem_of_getElem? hb, h⟩
  · exact ⟨c, List.mem_of_getElem? hc, h⟩

/-! ## The full claim is false -/

/-- **C68, negation.** On every device with sensors and for every valid index: if the sensors are reset before the lock
is taken, `SensorAt` panics. -/
theorem removed_panics [GoMath F] (d : Device F) (i : Nat) (hi : i < d.sensors.length) :
    ∃ (hist : List (Device F)) (a b c : Device F), hist.head? = some d ∧ History hist ∧ During hist a b c ∧
      ¬ Returns (Device.sensorAtMoments a b c i) := by
  refine ⟨[d, d.resetSensors], d, d, d.resetSensors, rfl, ⟨⟨.resetSensors, rfl⟩, trivial⟩,
    ⟨0, 0, 1, by omega, by omega, rfl, rfl, rfl⟩, ?_⟩
  rw [returns_iff]
  refine fun h => h ⟨?_, by omega, by omega, ?_⟩
  · intro e; rw [e] at hi; cases hi
  · show ((0 : Nat) : Int) ≤ i
    omega

/-- The same by `RemoveSensor`: the last index, and the last sensor is removed. -/
theorem removed_one_panics [GoMath F] (d : Device F) (s : Sensor F) (l : List (Sensor F)) (hd : d.sensors = l ++ [s])
    (hs : s.id ≠ "") :
    ¬ Returns (Device.sensorAtMoments d d (d.removeSensor s.id).1 l.length) := by
  have h0 : ¬ goLen s.id = 0 := by
    intro h
    unfold goLen at h
    exact hs (String.utf8ByteSize_eq_zero_iff.mp (by omega))
  have hlen : (d.removeSensor s.id).1.sensors.length ≤ l.length := by
    have he := List.length_eraseP_of_mem (l := l ++ [s]) (p := fun a => a.id == s.id) (a := s) (by simp) (by simp)
    unfold Device.removeSensor
    rw [if_neg h0]
    simp only [removeFirst_eq]
    split
    · show (d.sensors.eraseP _).length ≤ _
      rw [hd, he]; simp
    · show (d.sensors.eraseP _).length ≤ _
      rw [hd, he]; simp
  rw [returns_iff]
  refine fun h => h ⟨by rw [hd]; simp, by omega, by rw [hd]; simp; omega, by omega⟩

/-! ## Concrete cases -/

/-- A device with two sensors. -/
def two : Option (Device Toy) := Toy.dev [.addSensor [C58.sensor "a", C58.sensor "b"]]

example : two.map (fun d => (Device.sensorAtMoments d d d 1).toOption.map (·.map (·.id))) = some (some (some "b")) := by
  decide +kernel

example : two.map (fun d => (Device.sensorAtMoments d d (d.removeSensor "a").1 1).toOption.map (·.map (·.id))) =
    some none := by decide +kernel

example : two.map (fun d => (Device.sensorAtMoments d d (d.removeSensor "a").1 0).toOption.map (·.map (·.id))) =
    some (some (some "b")) := by decide +kernel

end C68
end GpsGen
