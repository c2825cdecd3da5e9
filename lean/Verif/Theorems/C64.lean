import Verif.Theorems.C63
import Verif.Model.NumX
/-!
# C64: the published time estimate is the time to the end of the lap

Claim: after every refresh the published time estimate is the time that the rest of the lap takes at the published
speed, `(total distance - distance covered) / speed`, and a finite number.

It is the time that the whole lap takes (`estimate_partial`), whatever was covered: the claim holds only at the very
start (`estimate_iff`), the estimate is too long after every step (`estimate_fails`) and does not decrease
(`estimate_constant`). Before the first step the published speed is 0 and `Update` publishes infinity, or NaN
without routes (`zero_speed`, `update_infinite`).
-/

namespace GpsGen
variable {F : Type}

namespace C64
open Device

/-! ## Specification -/

/-- The time that the rest of the lap takes at the published speed. -/
noncomputable def remaining (d : Device ℝ) : ℝ := (d.navigator.distance - d.navigator.currentDistance) / d.state.speed

/-- The time that the whole lap takes at the published speed. -/
def whole [GoFloat F] (d : Device F) : F := d.navigator.distance /. d.state.speed

/-! ## Proof -/

theorem fresh_next [GoMath F] {d d' : Device F} {tick : F} {rnd : NextRnd F} (hn : d.next tick rnd = .ok (d', true)) :
    Fresh d' := by
  cases next_outcome hn with
  | moved _ _ _ _ _ _ _ _ _ _ _ _ _ _ h6 => exact (updateState_fresh h6).1

/-- **C64 (partial).** After every refresh (a `Next` that moves the device or starts a new lap, `Update`, restoring)
the estimate is the time for the whole lap. Missing for the full claim: the distance covered is not subtracted
(`estimate_fails`). Any number type. -/
theorem estimate_partial [GoMath F] (d d' : Device F) :
    (∀ tick rnd, d.next tick rnd = .ok (d', true) → d'.state.timeEstimate = whole d') ∧
    (∀ rnd, C63.NewLap d d' rnd → d'.state.timeEstimate = whole d') ∧
    (d.update = .ok d' → d'.state.timeEstimate = whole d') ∧
    (∀ m, d.fromSnapshot m = .ok d' → d'.state.timeEstimate = whole d') := by
  refine ⟨fun tick rnd h => (fresh_next h).estimate, fun rnd h => h.published.estimate, fun h => ?_, fun m h => ?_⟩
  · obtain ⟨st, h1, rfl⟩ := update_eq h
    exact (fresh_updateSensors (fresh_updateRoutes (refreshed_fresh h1))).estimate
  · obtain ⟨n, speed, battery, sensors, d1, -, -, -, -, h5, rfl⟩ := fromSnapshotOnto_eq h
    exact (fresh_updateRoutes (updateState_fresh h5).1).estimate

/-- **C64, otherwise unchanged.** Any other operation leaves the estimate or makes it the time for the whole lap. -/
theorem estimate_frame [GoMath F] (d d' : Device F) (op : DevOp F) (h : d.step op = .ok d')
    (hf : ∀ m, op ≠ .fromSnapshot m) :
    d'.state.timeEstimate = d.state.timeEstimate ∨ d'.state.timeEstimate = whole d' := by
  rcases (step_parts h hf).2.2 with hs | hs
  · exact Or.inl hs.estimate
  · exact Or.inr hs.estimate

/-- **C64, exactly when it is right.** At positive speed: exactly when nothing was covered. -/
theorem estimate_iff (d d' : Device ℝ) (tick : ℝ) (rnd : NextRnd ℝ) (hn : d.next tick rnd = .ok (d', true))
    (hv : 0 < d'.state.speed) : d'.state.timeEstimate = remaining d' ↔ d'.navigator.currentDistance = 0 := by
  rw [(fresh_next hn).estimate]
  unfold remaining
  rw [real_div, div_left_inj' hv.ne']
  constructor <;> intro h <;> linarith

/-- **The claim fails.** Every step with positive tick and speed publishes an estimate that is too long, by the time
already driven at this speed. -/
theorem estimate_fails (d d' : Device ℝ) (tick : ℝ) (rnd : NextRnd ℝ) (hr : d.navigator.routes ≠ [])
    (hk : d.navigator.skipOffline = true → d.navigator.offlineIndex ≤ 0) (hc : 0 ≤ d.navigator.currentDistance)
    (hn : d.next tick rnd = .ok (d', true)) (ht : 0 < tick) (hv : 0 < d'.state.speed) :
    remaining d' < d'.state.timeEstimate ∧
    d'.state.timeEstimate - remaining d' = d'.navigator.currentDistance / d'.state.speed := by
  have hd : d'.state.timeEstimate - remaining d' = d'.navigator.currentDistance / d'.state.speed := by
    rw [(fresh_next hn).estimate]
    unfold remaining
    rw [real_div]
    ring
  refine ⟨?_, hd⟩
  have hpos : 0 < d'.navigator.currentDistance := by
    obtain ⟨n1, n2, h1, h3, -, ⟨h, -⟩ | ⟨-, hcd, -⟩⟩ := C63.next_cases hr hn
    · cases h
    have hk1 : (n1.skipOffline = true → n1.offlineIndex ≤ 0) ∧ n1.currentDistance = d.navigator.currentDistance := by
      rcases powered_step h1 with rfl | h1
      · exact ⟨hk, rfl⟩
      · rcases Navigator.toOffline_cases h1 with ⟨-, rfl⟩ | ⟨h0, _, _, rfl⟩
        · exact ⟨hk, rfl⟩
        · refine ⟨fun h => ?_, rfl⟩
          have h : d.navigator.skipOffline = true := h
          rw [h] at h0
          cases h0
    rcases C16.nextLocation_marker _ _ _ _ _ _ hk1.1 h3 with ⟨-, h⟩ | ⟨h, -⟩ | ⟨h, -⟩
    · rw [hcd, h, hk1.2]
      have hs : 0 < d.seconds tick := by
        have : (0 : ℝ) < d.tick.toNat + tick := by positivity
        unfold seconds
        simpa using this
      have := mul_pos hs hv
      linarith
    · cases h
    · cases h
  have := div_pos hpos hv
  linarith

/-- **The estimate does not decrease.** Two moves at the same speed on unchanged routes publish the same estimate.
Any number type. -/
theorem estimate_constant [GoMath F] (d d1 d2 : Device F) (t1 t2 : F) (r1 r2 : NextRnd F)
    (h1 : d.next t1 r1 = .ok (d1, true)) (h2 : d1.next t2 r2 = .ok (d2, true))
    (hv : d2.state.speed = d1.state.speed) (hd : d2.navigator.distance = d1.navigator.distance) :
    d2.state.timeEstimate = d1.state.timeEstimate := by
  rw [(fresh_next h1).estimate, (fresh_next h2).estimate, hv, hd]

/-- **Before the first step** the published speed is zero, and `Update` divides by it. Any number type. -/
theorem zero_speed [GoMath F] (rnd : DeviceRnd F) (o : Option (DeviceOptions F)) (d d1 d2 : Device F)
    (rs : List (Option (Route F))) (h : Device.new rnd o = .ok d) (h1 : (d.addRoute rs).1 = d1)
    (h2 : d1.update = .ok d2) : d2.state.timeEstimate = d2.navigator.distance /. lit 0 := by
  have e := (estimate_partial d1 d2).2.2.1 h2
  have hs : d1.state.speed = lit 0 := by
    obtain ⟨n, s, b, st, -, -, -, h4, rfl⟩ := Device.new_eq h
    obtain ⟨_, _, rfl, -⟩ := applyFor_eq h4
    subst h1
    unfold Device.addRoute
    generalize Navigator.addRoute _ rs = x
    rcases x with ⟨m, _ | e⟩ <;> rfl
  have hs2 : d2.state.speed = d1.state.speed := by
    unfold Device.update at h2
    obtain ⟨x, hx, h2⟩ := bind_eq_ok h2
    cases h2
    obtain ⟨-, -, -, -, -, hx, -⟩ := updateState_fresh hx
    exact hx
  rw [e, whole, hs2, hs]

/-- **The estimate can be infinite or NaN.** On the extended real numbers `Update` of a device that has not moved
publishes infinity if its routes have positive length, and NaN if it has none. -/
theorem update_infinite (rnd : DeviceRnd (XNum ℝ)) (o : Option (DeviceOptions (XNum ℝ))) (d d1 d2 : Device (XNum ℝ))
    (rs : List (Option (Route (XNum ℝ)))) (h : Device.new rnd o = .ok d) (h1 : (d.addRoute rs).1 = d1)
    (h2 : d1.update = .ok d2) :
    (∀ x : ℝ, 0 < x → d2.navigator.distance = .fin x → d2.state.timeEstimate = .inf false) ∧
    (d2.navigator.distance = .fin 0 → d2.state.timeEstimate = .nan) := by
  have e := zero_speed rnd o d d1 d2 rs h h1 h2
  refine ⟨fun x hx hd => ?_, fun hd => ?_⟩
  · rw [e, hd, XNum.lit_eq, XNum.fin_div]
    simp [hx.le, hx.ne']
  · rw [e, hd, XNum.lit_eq, XNum.fin_div]
    simp

/-! ## Concrete cases -/

/-- Total distance, distance covered, speed and estimate of a device on rationals that moves at speed 2. -/
def look (d : Device Toy) : Rat × Rat × Rat × Rat :=
  (d.navigator.distance.val, d.navigator.currentDistance.val, d.state.speed.val, d.state.timeEstimate.val)

-- One second and a million seconds into the lap the estimate is that for the whole lap.
example : (C63.driven [1]).map look = some (6371000, 2, 2, 3185500) := by decide +kernel
example : (C63.driven [1, 1000000]).map look = some (6371000, 2000002, 2, 3185500) := by decide +kernel

end C64
end GpsGen
