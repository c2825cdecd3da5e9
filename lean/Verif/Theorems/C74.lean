import Verif.Model.Pointers
import Verif.Theorems.C54
/-!
# C74: the encoders never panic

The full property fails: an entry that is nil makes four encoders panic, a sensor or device that no constructor made
makes two of them panic. The theorems say exactly when, and that otherwise the encoders act as the other model files
say. A nil device is encoded to data that no decoder accepts.
-/

namespace GpsGen
variable {F : Type}

namespace C74

/-- The call panics. -/
def Panics {α : Type} (x : Go α) : Prop := ∃ p, x = .error p

/-- The full property: whatever is passed, the encoders return. -/
def Claim (F : Type) [GoMath F] [WireFloat F] : Prop :=
  (∀ ss : List (SensorPtr F), ¬ Panics (encodeSensorsPtr ss)) ∧
  (∀ (print : RawProps F → Bytes) (rs : List (Option (Route F))), ¬ Panics (encodeRoutesPtr print rs)) ∧
  (∀ rs : List (Option (Route F)), ¬ Panics (geoEncodePtr rs)) ∧
  (∀ (T : GpxText F) (rs : List (Option (Route F))), ¬ Panics (gpxEncodePtr T rs)) ∧
  (∀ (print : RawProps F → Bytes) (d : DevicePtr F), ¬ Panics (encodeTrackerPtr print d))

theorem ok_not_panics {α : Type} (a : α) : ¬ Panics (.ok a : Go α) := by
  rintro ⟨p, h⟩; cases h

/-! ## Sensors -/

theorem sensors_made (ss : List (Sensor F)) :
    snapshotSensors (ss.map SensorPtr.made) = .ok (ss.map Sensor.snapshot) := by
  induction ss with
  | nil => rfl
  | cons s ss ih => simp only [List.map_cons, snapshotSensors, SensorPtr.snapshot, ih]; rfl

theorem sensors_not_made (ss : List (SensorPtr F)) (h : ∀ l : List (Sensor F), ss ≠ l.map SensorPtr.made) :
    Panics (snapshotSensors ss) := by
  induction ss with
  | nil => exact absurd rfl (h [])
  | cons s ss ih =>
    cases s with
    | nil => exact ⟨_, rfl⟩
    | blank => exact ⟨_, rfl⟩
    | made s =>
      obtain ⟨p, hp⟩ := ih (fun l e => h (s :: l) (by rw [e]; rfl))
      exact ⟨p, by simp only [snapshotSensors, SensorPtr.snapshot, hp]; rfl⟩

/-- **C74, sensors.** `EncodeSensors` returns what `encodeSensorsBytes` says for sensors that were made, and panics
for every other argument. -/
theorem sensors_partial [WireFloat F] (ss : List (SensorPtr F)) :
    (∀ l, ss = l.map SensorPtr.made → encodeSensorsPtr ss = .ok (encodeSensorsBytes l)) ∧
    (Panics (encodeSensorsPtr ss) ↔ .nil ∈ ss ∨ .blank ∈ ss) := by
  have h1 : ∀ l, ss = l.map SensorPtr.made → encodeSensorsPtr ss = .ok (encodeSensorsBytes l) := by
    rintro l rfl
    unfold encodeSensorsPtr encodeSensorsBytes encodeSensors
    rw [List.length_map, sensors_made]
    split <;> rfl
  have hm : (∃ l : List (Sensor F), ss = l.map SensorPtr.made) ↔ ¬ (.nil ∈ ss ∨ .blank ∈ ss) := by
    clear h1
    induction ss with
    | nil => exact ⟨fun _ => by simp, fun _ => ⟨[], rfl⟩⟩
    | cons s ss ih =>
      cases s with
      | nil => simp; rintro (_ | _) h <;> cases h
      | blank => simp; rintro (_ | _) h <;> cases h
      | made s =>
        have : (¬ ((.nil : SensorPtr F) ∈ SensorPtr.made s :: ss ∨ .blank ∈ SensorPtr.made s :: ss)) ↔
            ¬ (.nil ∈ ss ∨ .blank ∈ ss) := by simp
        rw [this, ← ih]
        constructor
        · rintro ⟨l, h⟩
          cases l with
          | nil => cases h
          | cons a l => exact ⟨l, (List.cons.inj h).2⟩
        · rintro ⟨l, rfl⟩; exact ⟨s :: l, rfl⟩
  refine ⟨h1, ?_⟩
  constructor
  · intro hp
    by_contra hn
    obtain ⟨l, hl⟩ := hm.mpr hn
    rw [h1 l hl] at hp
    exact ok_not_panics _ hp
  · intro hn
    obtain ⟨p, hp⟩ := sensors_not_made ss (fun l hl => hm.mp ⟨l, hl⟩ hn)
    refine ⟨p, ?_⟩
    unfold encodeSensorsPtr
    have hl : ss.length ≠ 0 := by
      intro e
      rw [List.eq_nil_of_length_eq_zero e] at hn
      simp at hn
    rw [if_neg hl, hp]
    rfl

/-! ## Routes -/

theorem all_some (rs : List (Option (Route F))) : (∃ l : List (Route F), rs = l.map some) ↔ none ∉ rs := by
  induction rs with
  | nil => exact ⟨fun _ => by simp, fun _ => ⟨[], rfl⟩⟩
  | cons r rs ih =>
    cases r with
    | none => simp; rintro (_ | _) h <;> cases h
    | some r =>
      have : none ∉ some r :: rs ↔ none ∉ rs := by simp
      rw [this, ← ih]
      constructor
      · rintro ⟨l, h⟩
        cases l with
        | nil => cases h
        | cons a l => exact ⟨l, (List.cons.inj h).2⟩
      · rintro ⟨l, rfl⟩; exact ⟨r :: l, rfl⟩

theorem routes_made [GoFloat F] (rs : List (Route F)) :
    snapshotRoutes (rs.map some) = .ok (rs.map Route.snapshot) := by
  induction rs with
  | nil => rfl
  | cons s ss ih => simp only [List.map_cons, snapshotRoutes, snapshotRoutePtr, ih]; rfl

theorem features_made (rs : List (Route F)) : featureRoutes (rs.map some) = .ok rs := by
  induction rs with
  | nil => rfl
  | cons s ss ih => simp only [List.map_cons, featureRoutes, ih]; rfl

theorem nodes_made (T : GpxText F) (rs : List (Route F)) :
    gpxNodes T (rs.map some) = .ok (rs.map fun r => r.tracks.map (gpxPoints T), rs.map (gpxRouteNode T)) := by
  induction rs with
  | nil => rfl
  | cons s ss ih => simp only [List.map_cons, gpxNodes, ih]; rfl

theorem routes_nil [GoFloat F] (rs : List (Option (Route F))) (h : none ∈ rs) : Panics (snapshotRoutes rs) := by
  induction rs with
  | nil => cases h
  | cons r rs ih =>
    cases r with
    | none => exact ⟨_, rfl⟩
    | some r =>
      obtain ⟨p, hp⟩ := ih (by simpa using h)
      exact ⟨p, by simp only [snapshotRoutes, snapshotRoutePtr, hp]; rfl⟩

theorem features_nil (rs : List (Option (Route F))) (h : none ∈ rs) : Panics (featureRoutes rs) := by
  induction rs with
  | nil => cases h
  | cons r rs ih =>
    cases r with
    | none => exact ⟨_, rfl⟩
    | some r =>
      obtain ⟨p, hp⟩ := ih (by simpa using h)
      exact ⟨p, by simp only [featureRoutes, hp]; rfl⟩

theorem nodes_nil (T : GpxText F) (rs : List (Option (Route F))) (h : none ∈ rs) : Panics (gpxNodes T rs) := by
  induction rs with
  | nil => cases h
  | cons r rs ih =>
    cases r with
    | none => exact ⟨_, rfl⟩
    | some r =>
      obtain ⟨p, hp⟩ := ih (by simpa using h)
      exact ⟨p, by simp only [gpxNodes, hp]; rfl⟩

theorem length_of_mem (rs : List (Option (Route F))) (h : none ∈ rs) : rs.length ≠ 0 := by
  intro e
  rw [List.eq_nil_of_length_eq_zero e] at h
  cases h

/-- **C74, routes.** The three encoders of routes return what the other model files say for routes that exist, and
panic exactly if an entry is nil. -/
theorem routes_partial [GoMath F] [WireFloat F] (print : RawProps F → Bytes) (T : GpxText F)
    (rs : List (Option (Route F))) :
    (∀ l, rs = l.map some → encodeRoutesPtr print rs = .ok (encodeRoutesBytes print l) ∧
      geoEncodePtr rs = .ok (geoEncode l) ∧ gpxEncodePtr T rs = .ok (gpxEncode T l)) ∧
    (Panics (encodeRoutesPtr print rs) ↔ none ∈ rs) ∧ (Panics (geoEncodePtr rs) ↔ none ∈ rs) ∧
    (Panics (gpxEncodePtr T rs) ↔ none ∈ rs) := by
  have h1 : ∀ l, rs = l.map some → encodeRoutesPtr print rs = .ok (encodeRoutesBytes print l) ∧
      geoEncodePtr rs = .ok (geoEncode l) ∧ gpxEncodePtr T rs = .ok (gpxEncode T l) := by
    rintro l rfl
    refine ⟨?_, ?_, ?_⟩
    · unfold encodeRoutesPtr encodeRoutesBytes encodeRoutes
      rw [List.length_map, routes_made]
      split <;> rfl
    · unfold geoEncodePtr geoEncode
      rw [List.length_map, features_made]
      split
      · rfl
      · show (match toFeatures l with | none => _ | some fs => _ : Go _) = _
        cases toFeatures l <;> rfl
    · unfold gpxEncodePtr gpxEncode
      rw [List.length_map, nodes_made]
      split <;> rfl
  have h2 : none ∉ rs → ¬ Panics (encodeRoutesPtr print rs) ∧ ¬ Panics (geoEncodePtr rs) ∧
      ¬ Panics (gpxEncodePtr T rs) := by
    intro hn
    obtain ⟨l, hl⟩ := (all_some rs).mpr hn
    obtain ⟨a, b, c⟩ := h1 l hl
    rw [a, b, c]
    exact ⟨ok_not_panics _, ok_not_panics _, ok_not_panics _⟩
  refine ⟨h1, ⟨fun h => ?_, fun h => ?_⟩, ⟨fun h => ?_, fun h => ?_⟩, ⟨fun h => ?_, fun h => ?_⟩⟩
  · by_contra hn; exact (h2 hn).1 h
  · obtain ⟨p, hp⟩ := routes_nil rs h
    exact ⟨p, by unfold encodeRoutesPtr; rw [if_neg (length_of_mem rs h), hp]; rfl⟩
  · by_contra hn; exact (h2 hn).2.1 h
  · obtain ⟨p, hp⟩ := features_nil rs h
    exact ⟨p, by unfold geoEncodePtr; rw [if_neg (length_of_mem rs h), hp]; rfl⟩
  · by_contra hn; exact (h2 hn).2.2 h
  · obtain ⟨p, hp⟩ := nodes_nil T rs h
    exact ⟨p, by unfold gpxEncodePtr; rw [if_neg (length_of_mem rs h), hp]; rfl⟩

/-! ## Devices -/

/-- **C74, devices.** `EncodeTracker` returns for nil and for every device obtained through the public interface; it
panics for a device that no constructor made. -/
theorem tracker_partial [GoMath F] [WireFloat F] (print : RawProps F → Bytes) :
    ¬ Panics (encodeTrackerPtr print (.nil : DevicePtr F)) ∧
    (∀ d : Device F, C54.Live d → ¬ Panics (encodeTrackerPtr print (.made d))) ∧
    Panics (encodeTrackerPtr print (.blank : DevicePtr F)) := by
  refine ⟨ok_not_panics _, fun d hd => ?_, ⟨_, rfl⟩⟩
  obtain ⟨x, hx⟩ := (C54.device_never_panics_partial d hd).2.2.2.2.1
  unfold encodeTracker at hx
  cases hu : d.update with
  | error e => rw [hu] at hx; cases hx
  | ok d' =>
    have : encodeTrackerPtr print (.made d) = .ok (.made d', d'.marshalBinary print) := by
      simp only [encodeTrackerPtr, encodeTrackerBytes, hu]; rfl
    rw [this]
    exact ok_not_panics _

/-- What `EncodeTracker` returns for a nil device without an error, `DecodeTracker` refuses. -/
theorem nil_not_decodable [GoMath F] [WireFloat F] (print : RawProps F → Bytes) (read : Bytes → RawProps F) :
    ∃ data, encodeTrackerPtr print (.nil : DevicePtr F) = .ok (.nil, data) ∧
      decodeTrackerBytes (F := F) read data = .ok none :=
  ⟨[], rfl, rfl⟩

/-- **The full property fails** for every number type: a slice that holds one nil route. -/
theorem claim_fails [GoMath F] [WireFloat F] : ¬ Claim F := by
  rintro ⟨-, -, h, -⟩
  exact h [none] ⟨_, rfl⟩

/-! Non-vacuity: a nil entry behind a route makes `EncodeGeoJSONRoutes` panic; the route alone is encoded. -/

example : Panics (geoEncodePtr [some (C54.demoRoute "r"), none]) ∧ ¬ Panics (geoEncodePtr [some (C54.demoRoute "r")]) :=
  ⟨⟨_, rfl⟩, by
    have : geoEncodePtr [some (C54.demoRoute "r")] = .ok (geoEncode [C54.demoRoute "r"]) := rfl
    rw [this]; exact ok_not_panics _⟩

end C74
end GpsGen
