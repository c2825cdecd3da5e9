import Verif.Lemmas.DeviceReal
import Verif.Lemmas.Toy
/-!
# C27 Speed stays within its bounds

Exact arithmetic. A device is created with any accepted speed options and driven through any public
operations with non-negative ticks while its routes have positive length; it may be restored from
snapshots of other such devices. Once it was ticked while holding a route, the published speed is
within the configured bounds. Before the first such tick the published speed is zero.
-/

namespace GpsGen
namespace C27
open Device

/-! ## Specification -/

/-- The bounds documented for the options `min`, `max`: a non-positive maximum means constant speed,
and constant speed zero is replaced by one. -/
noncomputable def bounds (mn mx : ℝ) : ℝ × ℝ :=
  if mx ≤ 0 then (if mn = 0 then (1, 1) else (mn, mn)) else (mn, mx)

/-- The operation is a tick of a device that has somewhere to go. -/
def Ticks (d : Device ℝ) (op : DevOp ℝ) : Prop := (∃ t r, op = .next t r) ∧ d.navigator.routes ≠ []

/-- `Driven mn mx ticked d`: `d` was created with speed options `mn`, `mx` and then operated;
`ticked` implies that a tick took effect. -/
inductive Driven (mn mx : ℝ) : Prop → Device ℝ → Prop
  | init {rnd o d} (h1 : UnitDraws rnd.elevationDraws) (h2 : UnitDraws rnd.speedDraws)
      (hmn : o.speedMin = mn) (hmx : o.speedMax = mx) (h : Device.new rnd (some o) = .ok d) :
      Driven mn mx False d
  | step {p d op d'} (hr : Driven mn mx p d) (ho : SaneOp op) (h : d.step op = .ok d')
      (hl : ∀ r ∈ d'.navigator.routes, 0 < r.dist) : Driven mn mx (p ∨ Ticks d op) d'
  | restore {p q d e d'} (hd : Driven mn mx p d) (he : Driven mn mx q e)
      (h : d.fromSnapshot e.snapshot = .ok d')
      (hl : ∀ r ∈ d'.navigator.routes, 0 < r.dist) : Driven mn mx q d'

/-! ## Proof -/

theorem driven_reach {mn mx : ℝ} {p : Prop} {d : Device ℝ} (h : Driven mn mx p d) : Reach d := by
  induction h with
  | init h1 h2 _ _ h => exact .init h1 h2 h
  | step _ ho h hl ih => exact .step ih ho h hl
  | restore _ _ h hl ih1 ih2 => exact .restore ih1 ih2 h hl

theorem new_bounds {draws : ℕ → ℝ} {mn mx : ℝ} {amp : Int} {s : Speed ℝ}
    (h : Speed.new draws mn mx amp = .ok s) : (s.min, s.max) = bounds mn mx := by
  unfold Speed.new at h
  split at h
  · cases h
  rename_i h1
  split at h
  · cases h
  unfold bounds
  simp only [real_lt, real_le, real_eq, real_lit, Rat.cast_zero, Rat.cast_one, decide_eq_true_eq,
    Bool.and_eq_true, not_lt] at h h1
  by_cases hm : mx ≤ 0
  · simp only [if_pos hm] at h ⊢
    split at h
    · cases h
    by_cases hz : mn = 0
    · simp only [hz, and_self, if_true] at h ⊢
      obtain ⟨_, -, h⟩ := bind_eq_ok h
      cases h
      rfl
    · simp only [hz, false_and, if_false] at h ⊢
      obtain ⟨_, -, h⟩ := bind_eq_ok h
      cases h
      rfl
  · simp only [if_neg hm] at h ⊢
    split at h
    · cases h
    have hz : ¬ (mn = 0 ∧ mx = 0) := fun hc => hm hc.2.le
    simp only [if_neg hz] at h
    obtain ⟨_, -, h⟩ := bind_eq_ok h
    cases h
    rfl

/-- Within the bounds of the speed. -/
def Within (s : Speed ℝ) (v : ℝ) : Prop := s.min ≤ v ∧ v ≤ s.max

theorem next_speed {d d' : Device ℝ} {tick : ℝ} {rnd : NextRnd ℝ} {b : Bool} (h : Inv d) (ht : 0 ≤ tick)
    (hn : d.next tick rnd = .ok (d', b)) :
    d'.speed.min = d.speed.min ∧ d'.speed.max = d.speed.max ∧
    (d.navigator.routes ≠ [] → Within d.speed d'.state.speed ∧ Within d.speed d'.speed.value) ∧
    (d.navigator.routes = [] → d' = d) := by
  have hsec := seconds_nonneg d ht
  cases next_outcome hn with
  | idle hr => exact ⟨rfl, rfl, fun h => absurd hr h, fun _ => rfl⟩
  | halted hr n1 n2 speed h1 h2 h3 h4 =>
    obtain ⟨-, a, b, c⟩ := speed_next_good h.speed h2
    obtain ⟨p0, p1⟩ := phase_unit h hr hsec
    exact ⟨a, b, fun _ => ⟨c p0 p1, c p0 p1⟩, fun h => absurd h hr⟩
  | lap hr n1 n2 speed _ h1 h2 h3 h4 h5 =>
    obtain ⟨-, a, b, c⟩ := speed_next_good h.speed h2
    obtain ⟨p0, p1⟩ := phase_unit h hr hsec
    obtain ⟨st, hst, rfl⟩ := updateState_eq h5
    refine ⟨a, b, fun _ => ⟨?_, c p0 p1⟩, fun h => absurd h hr⟩
    show Within d.speed st.speed
    rw [(nav_update_frame hst).2.2.2.2.2.1]
    exact c p0 p1
  | moved hr n1 n2 n3 speed ss d2 _ h1 h2 h3 h4 h5 hd2 h6 =>
    obtain ⟨-, a, b, c⟩ := speed_next_good h.speed h2
    obtain ⟨p0, p1⟩ := phase_unit h hr hsec
    obtain ⟨st, hst, rfl⟩ := updateState_eq h6
    have hs : (if d2.navigator.sum ≠ d2.ns then d2.updateRoutes else d2).speed = speed := by
      split <;> (subst hd2; rfl)
    have hv : (if d2.navigator.sum ≠ d2.ns then d2.updateRoutes else d2).state.speed = speed.value := by
      split <;> (subst hd2; rfl)
    refine ⟨?_, ?_, fun _ => ⟨?_, ?_⟩, fun h => absurd h hr⟩
    · exact (congrArg Speed.min hs).trans a
    · exact (congrArg Speed.max hs).trans b
    · show Within d.speed st.speed
      rw [(nav_update_frame hst).2.2.2.2.2.1, hv]
      exact c p0 p1
    · rw [show (refreshed (if d2.navigator.sum ≠ d2.ns then d2.updateRoutes else d2) st).speed = speed
        from hs]
      exact c p0 p1

theorem restore_speed {F : Type} [GoMath F] {d e d' : Device F} (h : d.fromSnapshot e.snapshot = .ok d') :
    d'.speed = e.speed ∧ d'.state.speed = e.speed.value := by
  obtain ⟨n, speed, battery, sensors, d1, h1, h2, h3, h4, h5, rfl⟩ := fromSnapshotOnto_eq h
  have hspeed : speed = e.speed := by
    rw [show Speed.fromSnapshot e.snapshot.speed = Speed.fromSnapshot (some e.speed.snapshot) from rfl,
      speed_round_trip e.speed] at h2
    cases h2; rfl
  obtain ⟨st, hst, rfl⟩ := updateState_eq h5
  subst hspeed
  exact ⟨rfl, (nav_update_frame hst).2.2.2.2.2.1⟩

/-- The invariant behind the theorems below. -/
theorem driven_speed {mn mx : ℝ} {p : Prop} {d : Device ℝ} (h : Driven mn mx p d) :
    (d.speed.min, d.speed.max) = bounds mn mx ∧
    (p → Within d.speed d.state.speed ∧ Within d.speed d.speed.value) := by
  induction h with
  | init h1 h2 hmn hmx h =>
    obtain ⟨n, s, b, st, -, hs, -, -, rfl⟩ := Device.new_eq h
    refine ⟨?_, fun h => h.elim⟩
    rw [← hmn, ← hmx]
    exact new_bounds hs
  | @step p d op d' hr ho h hl ih =>
    obtain ⟨ih1, ih2⟩ := ih
    by_cases hn : ∃ t r, op = .next t r
    · obtain ⟨t, r, rfl⟩ := hn
      obtain ⟨⟨d'', b⟩, hn, hd⟩ := map_eq_ok h
      cases hd
      obtain ⟨a1, a2, a3, a4⟩ := next_speed (reach_inv (driven_reach hr)) ho.1 hn
      refine ⟨by rw [a1, a2]; exact ih1, ?_⟩
      by_cases hne : d.navigator.routes = []
      · rw [a4 hne]
        rintro (hp | hp)
        · exact ih2 hp
        · exact absurd hne hp.2
      · intro _
        unfold Within
        rw [a1, a2]
        exact a3 hne
    · have hfs : ∀ m, op ≠ .fromSnapshot m := by
        rintro m rfl; exact ho
      obtain ⟨e1, e2⟩ := step_speed_frame h (fun t r hc => hn ⟨t, r, hc⟩) hfs
      rw [e1, e2]
      refine ⟨ih1, ?_⟩
      rintro (hp | hp)
      · exact ih2 hp
      · exact absurd hp.1 hn
  | restore _ _ h hl _ ih2 =>
    obtain ⟨e1, e2⟩ := restore_speed h
    rw [e1, e2]
    exact ⟨ih2.1, fun hq => ⟨(ih2.2 hq).2, (ih2.2 hq).2⟩⟩

/-- After the first effective tick the published speed and the current value of the speed generator
are within the configured bounds. -/
theorem speed_within (mn mx : ℝ) (d : Device ℝ) (h : Driven mn mx True d) :
    (bounds mn mx).1 ≤ d.state.speed ∧ d.state.speed ≤ (bounds mn mx).2 ∧
    (bounds mn mx).1 ≤ d.speed.value ∧ d.speed.value ≤ (bounds mn mx).2 := by
  obtain ⟨h1, h2⟩ := driven_speed h
  obtain ⟨⟨a, b⟩, c, e⟩ := h2 trivial
  rw [← h1]
  exact ⟨a, b, c, e⟩

/-- The tick itself establishes the bounds, whether the device moved, waits offline or finished a
lap. -/
theorem tick_within (mn mx : ℝ) (p : Prop) (d d' : Device ℝ) (tick : ℝ) (rnd : NextRnd ℝ) (b : Bool)
    (h : Driven mn mx p d) (ht : 0 ≤ tick) (hr : d.navigator.routes ≠ [])
    (hn : d.next tick rnd = .ok (d', b)) :
    (bounds mn mx).1 ≤ d'.state.speed ∧ d'.state.speed ≤ (bounds mn mx).2 := by
  obtain ⟨-, -, a, -⟩ := next_speed (reach_inv (driven_reach h)) ht hn
  have h1 := (driven_speed h).1
  rw [← h1]
  exact (a hr).1

/-- A constant-speed device reports exactly that speed after the first effective tick. -/
theorem constant_speed (mn : ℝ) (d : Device ℝ) (hp : 0 < mn) (h : Driven mn mn True d ∨ Driven mn 0 True d) :
    d.state.speed = mn := by
  rcases h with h | h
  · have := speed_within _ _ _ h
    simp only [bounds, if_neg (not_le.mpr hp)] at this
    exact le_antisymm this.2.1 this.1
  · have := speed_within _ _ _ h
    simp only [bounds, le_refl, if_true, if_neg hp.ne'] at this
    exact le_antisymm this.2.1 this.1

/-- The generator of a constant-speed device has that value at all times, even before any tick. -/
theorem constant_value (mn : ℝ) (p : Prop) (d : Device ℝ) (hp : 0 < mn) (h : Driven mn mn p d) :
    d.speed.value = mn := by
  have h1 := (driven_speed h).1
  simp only [bounds, if_neg (not_le.mpr hp), Prod.mk.injEq] at h1
  unfold Speed.value Speed.isStatic
  rw [h1.1, h1.2]
  simp

/-! Non-vacuity: on rationals, a device with speeds 1..9 publishes zero before and a speed strictly
inside its bounds after the first tick; a device with constant speed 2 publishes 2. -/

def Varied : DeviceOptions Toy := { Toy.opts with speedMin := Toy.of 1, speedMax := Toy.of 9 }

def varied (ops : List (DevOp Toy)) : Option (Device Toy) :=
  (Device.new { Toy.rnd with speedDraws := fun _ => Toy.of (1/2) } (some Varied)).toOption.bind fun d => (d.run ops).toOption

def moving : List (DevOp Toy) := [.addRoute [some Toy.route], .next (Toy.of (1/100)) Toy.nextRnd]

example : (varied [.addRoute [some Toy.route]]).map (fun d => d.state.speed.val) = some 0 := by
  decide +kernel
example : (varied moving).map (fun d => decide (1 < d.state.speed.val ∧ d.state.speed.val < 9)) =
    some true := by decide +kernel
example : (Toy.dev moving).map (fun d => d.state.speed.val) = some 2 := by decide +kernel

end C27
end GpsGen
