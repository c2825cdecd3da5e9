import Verif.Lemmas.Frame
import Verif.Lemmas.New
import Verif.Lemmas.GeoReal
/-!
# C15: offline durations respect the configured bounds

The stated property fails for `WithOffline(0, 0)`, which is silently replaced by 0..10
(`bounds_zero_fails`). All other bounds are respected (`bounds_partial`), and durations are always in
0..3600 (`duration_range`).
-/

namespace GpsGen
variable {F : Type}

namespace C15
open Navigator

/-- The bounds in force: those of the last `WithOffline` option, 1..10 if there is none. -/
def configured : List (NavOption F) → Int × Int → Int × Int
  | [], b => b
  | .offline min max :: rest, _ => configured rest (min, max)
  | _ :: rest, b => configured rest b

theorem configured_eq (opts : List (NavOption F)) (o : NavOptions F) :
    configured opts (o.minOffline, o.maxOffline) =
      ((opts.foldl NavOptions.apply o).minOffline, (opts.foldl NavOptions.apply o).maxOffline) := by
  induction opts generalizing o with
  | nil => rfl
  | cons a opts ih =>
    rw [List.foldl_cons, ← ih]
    cases a <;> rfl

theorem uint32n_le (x : UInt32) (m : Nat) : uint32n x m ≤ m := by
  unfold uint32n
  have : x.toNat < 2 ^ 32 := x.toNat_lt
  apply Nat.div_le_of_le_mul
  exact Nat.mul_le_mul_right m (by omega)

theorem uint32n_lt (x : UInt32) (m : Nat) (h : 0 < m) : uint32n x m < m := by
  unfold uint32n
  have : x.toNat < 2 ^ 32 := x.toNat_lt
  apply Nat.div_lt_of_lt_mul
  rw [Nat.mul_comm (2 ^ 32), Nat.mul_comm]
  exact Nat.mul_lt_mul_of_pos_left this h

/-- Values drawn from an interval of sane size: at least `min`, and less than `max` unless both
coincide. -/
theorem value_bounds (r : Random) (x : UInt32) (h : r.min ≤ r.max) (hs : r.max - r.min < 2 ^ 32) :
    r.min ≤ r.value x ∧ r.value x ≤ r.max ∧ (r.min < r.max → r.value x < r.max) := by
  unfold Random.value
  have e : (r.max - r.min) % 2 ^ 32 = r.max - r.min := Int.emod_eq_of_lt (by omega) hs
  rw [e]
  have h1 := uint32n_le x (r.max - r.min).toNat
  refine ⟨by omega, by omega, fun hlt => ?_⟩
  have h2 := uint32n_lt x (r.max - r.min).toNat (by omega)
  omega

/-- The random source created by `New`, as a function of the configured bounds. -/
theorem new_random [GoFloat F] {uid : String} {draws : Nat → F} {opts : List (NavOption F)}
    {n : Navigator F} (hn : Navigator.new uid draws opts = .ok n) (hs : n.skipOffline = false) :
    ∃ r, n.offline = some r ∧ 0 ≤ r.min ∧ r.min ≤ r.max ∧ r.max ≤ 3600 ∧
      let b := configured opts (1, 10)
      0 ≤ b.1 ∧ b.2 ≤ 3600 ∧
      (b.1 ≤ b.2 → ¬ (b.1 = 0 ∧ b.2 = 0) → r.min = b.1 ∧ r.max = b.2) ∧
      (b.1 = 0 ∧ b.2 = 0 → r.min = 0 ∧ r.max = 10) := by
  obtain ⟨o1, o2, s, h1, h2, -, rfl⟩ := new_cases hn
  have hb := configured_eq opts (NavOptions.default : NavOptions F)
  have hb' : configured opts (1, 10) =
      ((opts.foldl NavOptions.apply (NavOptions.default : NavOptions F)).minOffline,
       (opts.foldl NavOptions.apply (NavOptions.default : NavOptions F)).maxOffline) := hb
  obtain ⟨-, e1, e2, -, -⟩ := validateElevation_frame h2
  have hs' : o2.skipOffline = false := hs
  refine ⟨Random.new o1.minOffline o1.maxOffline, ?_, ?_⟩
  · simp [newState, hs', e1, e2]
  · rw [hb']
    generalize opts.foldl NavOptions.apply (NavOptions.default : NavOptions F) = o at *
    unfold NavOptions.validateOffline at h1
    split at h1
    · cases h1
    split at h1
    · cases h1
    rename_i c1 c2
    simp only [Except.ok.injEq] at h1
    subst h1
    simp only [Random.new]
    by_cases a1 : o.minOffline > o.maxOffline
    · have a2 : ¬ (o.maxOffline < o.maxOffline - 1) := by omega
      simp only [a1, if_true, a2, if_false]
      have a3 : ¬ (o.maxOffline - 1 = 0 ∧ o.maxOffline = 0) := by omega
      simp only [a3, if_false]
      by_cases a4 : o.maxOffline < 0
      · simp [a4]; omega
      · by_cases a5 : o.maxOffline - 1 < 0
        · have : o.maxOffline = 0 := by omega
          simp [this]; omega
        · have a6 : ¬ (o.maxOffline - 1 = 0 ∧ o.maxOffline = 0) := by omega
          simp only [a4, a5, if_false, a6]
          omega
    · simp only [a1, if_false]
      by_cases a3 : o.minOffline = 0 ∧ o.maxOffline = 0
      · simp [a3]
      · simp only [a3, if_false]
        have a4 : ¬ o.maxOffline < 0 := by omega
        have a5 : ¬ o.minOffline < 0 := by omega
        simp only [a4, a5, if_false, a3]
        exact ⟨by omega, by omega, by omega, by omega, by omega, fun _ _ => ⟨trivial, trivial⟩, False.elim⟩

/-- **C15 (partial).** If `New` accepts bounds `0 ≤ min ≤ max`, not both zero, then after any history
every new offline period (drawn by `ToOffline`, also at the end of a track) lasts `d` with
`min ≤ d ≤ max`, even `d < max` unless `min = max`. Missing for the full property: the bounds 0..0,
for which it is false (`bounds_zero_fails`). -/
theorem bounds_partial [GoMath F] (uid : String) (draws : Nat → F) (opts : List (NavOption F))
    (min max : Int) (hb : configured opts (1, 10) = (min, max)) (hle : min ≤ max)
    (hz : ¬ (min = 0 ∧ max = 0))
    (n : Navigator F) (hn : Navigator.new uid draws opts = .ok n)
    (ops : List (NavOp F)) (n1 n2 : Navigator F) (h1 : n.run ops = .ok n1)
    (hs : n.skipOffline = false) (x : UInt32) (h2 : n1.toOffline x = .ok n2) :
    min ≤ n2.offlineIndex ∧ n2.offlineIndex ≤ max ∧ (min < max → n2.offlineIndex < max) := by
  obtain ⟨r, hr, hp⟩ := new_random hn hs
  rw [hb] at hp
  simp only at hp
  obtain ⟨p1, p2, p3, p4, p5, p6, -⟩ := hp
  obtain ⟨q1, q2⟩ := p6 hle hz
  have hinv := run_induction (fun m : Navigator F => m.offline = some r ∧ m.skipOffline = false)
    (fun m m' op hP hst => by
      have hf := step_offline_frame hst
      exact ⟨hf.offline.trans hP.1, hf.skip.trans hP.2⟩) n n1 ops ⟨hr, hs⟩ h1
  rcases toOffline_cases h2 with ⟨h, -⟩ | ⟨-, r', hr', rfl⟩
  · rw [hinv.2] at h; cases h
  · rw [hinv.1] at hr'
    cases hr'
    have := value_bounds r x p2 (by omega)
    rw [q1, q2] at this
    exact this

/-- **C15, absolute range.** After any history of any accepted navigator the offline duration is in
0..3600. -/
theorem duration_range [GoMath F] (uid : String) (draws : Nat → F) (opts : List (NavOption F))
    (n : Navigator F) (hn : Navigator.new uid draws opts = .ok n)
    (ops : List (NavOp F)) (n' : Navigator F) (h : n.run ops = .ok n') :
    0 ≤ n'.offlineIndex ∧ n'.offlineIndex ≤ 3600 := by
  have h0 : n.offlineIndex = 0 := by obtain ⟨_, _, _, -, -, -, rfl⟩ := new_cases hn; rfl
  have := run_induction (fun m : Navigator F => m.offline = n.offline ∧
      m.skipOffline = n.skipOffline ∧ 0 ≤ m.offlineIndex ∧ m.offlineIndex ≤ 3600)
    (fun m m' op hP hst => by
      have hf := step_offline_frame hst
      refine ⟨hf.offline.trans hP.1, hf.skip.trans hP.2.1, ?_⟩
      cases hf.change with
      | keep h => omega
      | zero h => omega
      | dec _ h2 h3 => omega
      | draw h1 r x h2 h3 =>
        rw [hP.2.1] at h1
        obtain ⟨r', hr', p1, p2, p3, -⟩ := new_random hn h1
        rw [hP.1, hr'] at h2
        cases h2
        have := value_bounds r x p2 (by omega)
        omega) n n' ops ⟨rfl, rfl, by omega, by omega⟩ h
  exact this.2.2

/-- **The stated property fails for bounds 0..0.** A navigator created with `WithOffline(0, 0)` can
go offline for 9 ticks. -/
theorem bounds_zero_fails :
    ∃ n n' : Navigator ℝ, Navigator.new "" (fun _ => (0 : ℝ)) [.offline 0 0] = .ok n ∧
      n.toOffline 4294967295 = .ok n' ∧ n'.offlineIndex = 9 := by
  have h : ¬ goLen "elevation" = 0 := by decide
  have h9 : (Random.new 0 10).value 4294967295 = 9 := by decide
  refine ⟨newState { (NavOptions.default : NavOptions ℝ) with minOffline := 0 }
    ⟨"", "elevation", 1, 500, 0, 0, Curve.new 1 500 4 (normSensorMode 0) (fun _ => 0)⟩,
    { newState { (NavOptions.default : NavOptions ℝ) with minOffline := 0 }
      ⟨"", "elevation", 1, 500, 0, 0, Curve.new 1 500 4 (normSensorMode 0) (fun _ => 0)⟩ with
      offlineIndex := 9 }, ?_, ?_, rfl⟩
  · norm_num [Navigator.new, NavOptions.apply, NavOptions.default, NavOptions.validateOffline,
      NavOptions.validateElevation, Sensor.new, validateAmplitude, newState, h]
  · simp [toOffline, newState, NavOptions.default, h9]

/-- Non-vacuity: the default navigator has bounds 1..10 and can draw 1 and 9. -/
example : configured ([] : List (NavOption ℝ)) (1, 10) = (1, 10) ∧
    (∃ n : Navigator ℝ, (freshNav false).toOffline 0 = .ok n ∧ n.offlineIndex = 1) ∧
    (∃ n : Navigator ℝ, (freshNav false).toOffline 4294967295 = .ok n ∧ n.offlineIndex = 9) :=
  ⟨rfl, ⟨_, rfl, by decide⟩, ⟨_, rfl, by decide⟩⟩

end C15
end GpsGen
