import Verif.Lemmas.Basic
/-!
# Helper lemmas: what `navigator.New` returns
-/

namespace GpsGen
variable {F : Type}

/-- The state returned by `navigator.New` for validated options and a given elevation sensor. -/
def newState [GoFloat F] (o : NavOptions F) (s : Sensor F) : Navigator F where
  routes := []
  routeIndex := 0
  trackIndex := 0
  segmentIndex := 0
  currentSegmentDistance := lit 0
  currentRouteDistance := lit 0
  currentTrackDistance := lit 0
  currentDistance := lit 0
  offlineIndex := 0
  point := ⟨lit 0, lit 0⟩
  elevation := s
  offline := if o.skipOffline then none else some (Random.new o.minOffline o.maxOffline)
  distance := lit 0
  skipOffline := o.skipOffline
  version := 0

theorem new_cases [GoFloat F] {uid : String} {draws : Nat → F} {opts : List (NavOption F)}
    {n : Navigator F} (h : Navigator.new uid draws opts = .ok n) :
    ∃ o1 o2 s, (opts.foldl NavOptions.apply NavOptions.default).validateOffline = .ok o1 ∧
      o1.validateElevation = .ok o2 ∧
      Sensor.new uid draws "elevation" o2.elevationMin o2.elevationMax
          o2.elevationAmplitude o2.elevationMode = .ok s ∧ n = newState o2 s := by
  unfold Navigator.new at h
  simp only at h
  cases h1 : (opts.foldl NavOptions.apply NavOptions.default).validateOffline with
  | error e => rw [h1] at h; cases h
  | ok o1 =>
    rw [h1] at h
    simp only [ok_bind] at h
    cases h2 : o1.validateElevation with
    | error e => rw [h2] at h; cases h
    | ok o2 =>
      rw [h2] at h
      simp only [ok_bind] at h
      cases h3 : Sensor.new uid draws "elevation" o2.elevationMin o2.elevationMax
          o2.elevationAmplitude o2.elevationMode with
      | error e => rw [h3] at h; cases h
      | ok s => rw [h3] at h; cases h; exact ⟨o1, o2, s, rfl, h2, h3, rfl⟩

theorem validateOffline_frame {o o1 : NavOptions F} (h : o.validateOffline = .ok o1) :
    o1.skipOffline = o.skipOffline ∧ o1.elevationMin = o.elevationMin ∧
    o1.elevationMax = o.elevationMax ∧ o1.elevationAmplitude = o.elevationAmplitude ∧
    o1.elevationMode = o.elevationMode := by
  unfold NavOptions.validateOffline at h
  split at h
  · cases h
  split at h
  · cases h
  cases h
  repeat' split
  all_goals exact ⟨rfl, rfl, rfl, rfl, rfl⟩

theorem validateElevation_frame [GoFloat F] {o o1 : NavOptions F}
    (h : o.validateElevation = .ok o1) :
    o1.skipOffline = o.skipOffline ∧ o1.minOffline = o.minOffline ∧
    o1.maxOffline = o.maxOffline ∧ o1.elevationAmplitude = o.elevationAmplitude ∧
    o1.elevationMode = o.elevationMode := by
  unfold NavOptions.validateElevation at h
  split at h
  · cases h
  split at h
  · cases h
  cases h
  repeat' split
  all_goals exact ⟨rfl, rfl, rfl, rfl, rfl⟩

end GpsGen
