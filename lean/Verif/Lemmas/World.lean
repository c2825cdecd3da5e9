import Verif.Lemmas.DeviceNext
import Verif.Lemmas.Lists
import Verif.Model.Generator
/-!
# Helper lemmas about the store of devices and generators
-/

namespace GpsGen
variable {F : Type}

theorem setAt_same {α : Type} (f : Nat → α) (i : Nat) (a : α) : setAt f i a i = a := by simp [setAt]
theorem setAt_other {α : Type} {f : Nat → α} {i j : Nat} {a : α} (h : j ≠ i) : setAt f i a j = f j := by
  simp [setAt, h]

namespace Device

/-- Restoring is the only operation that changes the status or the id of a device. -/
theorem step_identity [GoMath F] {d d' : Device F} {op : DevOp F} (h : d.step op = .ok d')
    (hr : ∀ m, op ≠ .fromSnapshot m) : d'.status = d.status ∧ d'.state.id = d.state.id := by
  cases op with
  | addRoute rs =>
    cases h
    unfold Device.addRoute
    cases d.navigator.addRoute rs with
    | mk n err => cases err <;> exact ⟨rfl, rfl⟩
  | removeRoute id =>
    cases h
    unfold Device.removeRoute
    cases d.navigator.removeRoute id with
    | mk n ok => cases ok <;> exact ⟨rfl, rfl⟩
  | removeTrack rid tid =>
    cases h
    unfold Device.removeTrack
    cases d.navigator.removeTrack rid tid with
    | mk n ok => cases ok <;> exact ⟨rfl, rfl⟩
  | resetRoutes =>
    cases h
    unfold Device.resetRoutes
    cases d.navigator.resetRoutes with
    | mk n ok => cases ok <;> exact ⟨rfl, rfl⟩
  | move m =>
    obtain ⟨n, hn, rfl⟩ := map_eq_ok h
    exact ⟨rfl, rfl⟩
  | onRoute i rop => cases h; exact ⟨rfl, rfl⟩
  | addSensor ss =>
    cases h
    unfold addSensor
    split
    · exact ⟨rfl, rfl⟩
    · simp only
      split <;> exact ⟨rfl, rfl⟩
  | removeSensor id =>
    cases h
    unfold removeSensor
    split
    · exact ⟨rfl, rfl⟩
    · simp only
      split <;> exact ⟨rfl, rfl⟩
  | resetSensors => cases h; exact ⟨rfl, rfl⟩
  | sensorNext i t =>
    simp only [Device.step, onSensorNext] at h
    split at h
    · cases h; exact ⟨rfl, rfl⟩
    · obtain ⟨y, _, hs⟩ := bind_eq_ok h
      cases hs
      exact ⟨rfl, rfl⟩
  | sensorShuffle i draws => cases h; exact ⟨rfl, rfl⟩
  | next t rnd =>
    obtain ⟨⟨x, b⟩, hn, hx⟩ := map_eq_ok h
    cases hx
    cases next_outcome hn with
    | idle _ => exact ⟨rfl, rfl⟩
    | halted _ n1 n2 speed h1 h2 h3 h4 => exact ⟨rfl, rfl⟩
    | lap _ n1 n2 speed _ h1 h2 h3 h4 h5 =>
      obtain ⟨st, h6, rfl⟩ := updateState_eq h5
      exact ⟨rfl, (nav_update_frame h6).1⟩
    | moved _ n1 n2 n3 speed sensors d2 _ h1 h2 h3 h4 h5 hd2 h6 =>
      obtain ⟨st, h7, rfl⟩ := updateState_eq h6
      have h8 := (nav_update_frame h7).1
      subst hd2
      constructor
      · simp only [refreshed]
        split <;> rfl
      · refine Eq.trans ?_ (h8.trans ?_)
        · rfl
        · split <;> rfl
  | skipTick => cases h; exact ⟨rfl, rfl⟩
  | update =>
    obtain ⟨st, h1, rfl⟩ := update_eq h
    exact ⟨rfl, (nav_update_frame h1).1⟩
  | setModel m =>
    cases h
    unfold setModel
    cases newModel m <;> exact ⟨rfl, rfl⟩
  | setUserID m => cases h; exact ⟨rfl, rfl⟩
  | setDescription m => cases h; exact ⟨rfl, rfl⟩
  | setColor c => cases h; cases c <;> exact ⟨rfl, rfl⟩
  | fromSnapshot m => exact absurd rfl (hr m)

end Device

namespace World

theorem findLoop_eq (devs : Nat → Device F) (id : String) (l : List Nat) :
    findLoop devs id l = l.find? (fun p => (devs p).state.id == id) := by
  induction l with
  | nil => rfl
  | cons p l ih =>
    simp only [findLoop, List.find?_cons]
    cases h : ((devs p).state.id == id) <;> simp [ih]

/-- The loop of `delete` splits the list at the first match. -/
theorem deleteLoop_some {devs : Nat → Device F} {id : String} {l rest : List Nat} {p : Nat}
    (h : deleteLoop devs id l = some (p, rest)) :
    ∃ a b, l = a ++ p :: b ∧ rest = a ++ b ∧ (devs p).state.id = id ∧ ∀ q ∈ a, (devs q).state.id ≠ id := by
  induction l generalizing rest with
  | nil => cases h
  | cons q l ih =>
    unfold deleteLoop at h
    split at h
    · rename_i hq
      cases h
      exact ⟨[], l, rfl, rfl, by simpa using hq, by simp⟩
    · rename_i hq
      obtain ⟨⟨p', r'⟩, h1, h2⟩ := Option.map_eq_some_iff.mp h
      cases h2
      obtain ⟨a, b, rfl, e, hp, ha⟩ := ih h1
      refine ⟨q :: a, b, rfl, by simp [e], hp, ?_⟩
      intro x hx
      rcases List.mem_cons.mp hx with rfl | hx
      · simpa using hq
      · exact ha x hx

theorem deleteLoop_none {devs : Nat → Device F} {id : String} {l : List Nat}
    (h : deleteLoop devs id l = none) : ∀ q ∈ l, (devs q).state.id ≠ id := by
  induction l with
  | nil => simp
  | cons q l ih =>
    unfold deleteLoop at h
    split at h
    · cases h
    · rename_i hq
      have := Option.map_eq_none_iff.mp h
      intro x hx
      rcases List.mem_cons.mp hx with rfl | hx
      · simpa using hq
      · exact ih this x hx

end World
end GpsGen
