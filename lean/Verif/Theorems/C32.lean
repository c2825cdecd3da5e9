import Verif.Model.NumX
import Verif.Lemmas.DeviceNext
import Verif.Lemmas.SensorReal
import Verif.Theorems.C15
/-!
# C32 Constructors accept exactly the documented parameter ranges

Numbers are `XNum ℝ`: exact numbers with infinities and NaN; string lengths are bytes. The property
fails in several places, each with a witness below:

* `NewSpeed` accepts NaN, and with `max ≤ 0` any minimum, also beyond 1000.
* `NewBattery` accepts NaN, keeps a charge time of zero although the documentation promises the
  default, and accepts a negative maximum.
* `navigator.New` accepts NaN and a negative maximal elevation, and lowers the minimum below zero
  when it exceeds a maximum below one.

`NewSensor`, `NewModel` and `ParseName` are exactly as documented, for every number type. For
numbers other than NaN the theorems below give an exact condition.
-/

namespace GpsGen
namespace C32

abbrev X := XNum ℝ

/-- A number that is not NaN. -/
def Num (x : X) : Prop := x ≠ .nan
/-- `a ≤ x` and `x ≤ b` for a real bound, false for NaN. -/
def atLeast (a : ℝ) : X → Prop
  | .fin k => a ≤ k
  | .inf neg => neg = false
  | .nan => False
@[inherit_doc atLeast] def atMost (b : ℝ) : X → Prop
  | .fin k => k ≤ b
  | .inf neg => neg = true
  | .nan => False
/-- The order of extended numbers, false for NaN. -/
def below : X → X → Prop
  | .fin a, .fin b => a ≤ b
  | .inf s, .inf t => s = true ∨ t = false
  | .inf s, .fin _ => s = true
  | .fin _, .inf t => t = false
  | _, _ => False

def Amplitude (a : Int) : Prop := 4 ≤ a ∧ a ≤ 512

/-! ## Helper lemmas -/

theorem lt_lit_iff {x : X} (h : Num x) (q : ℚ) : (x <. lit q) = true ↔ ¬ atLeast q x := by
  cases x with
  | fin k => simp [atLeast]
  | inf s => cases s <;> simp [atLeast]
  | nan => exact absurd rfl h

theorem lit_lt_iff {x : X} (h : Num x) (q : ℚ) : (lit q <. x) = true ↔ ¬ atMost q x := by
  cases x with
  | fin k => simp [atMost]
  | inf s => cases s <;> simp [atMost]
  | nan => exact absurd rfl h

theorem le_lit_iff {x : X} (q : ℚ) : (x <=. lit q) = true ↔ atMost q x := by
  cases x with
  | fin k => simp [atMost]
  | inf s => cases s <;> simp [atMost]
  | nan => simp [atMost]

theorem lt_iff {x y : X} (hx : Num x) (hy : Num y) : (y <. x) = true ↔ ¬ below x y := by
  cases x with
  | nan => exact absurd rfl hx
  | fin a => cases y with
    | nan => exact absurd rfl hy
    | fin b => simp [below]
    | inf t => cases t <;> simp [below]
  | inf s => cases y with
    | nan => exact absurd rfl hy
    | fin b => cases s <;> simp [below]
    | inf t => cases s <;> cases t <;> simp [below]

theorem amplitude_iff (a : Int) : validateAmplitude a = .ok () ↔ Amplitude a := by
  unfold validateAmplitude Amplitude
  split
  · constructor
    · intro h; cases h
    · intro h; omega
  · split
    · constructor
      · intro h; cases h
      · intro h; omega
    · exact ⟨fun _ => by omega, fun _ => rfl⟩

theorem zero_cast : ((0 : ℚ) : ℝ) = 0 := Rat.cast_zero

/-! ## NewModel, ParseName, NewSensor: any number type -/

/-- `NewModel` accepts exactly 3 to 64 bytes and keeps the value. -/
theorem model_iff (s m : String) : newModel s = .ok m ↔ m = s ∧ 3 ≤ goLen s ∧ goLen s ≤ 64 := by
  unfold newModel
  split
  · constructor
    · intro h; cases h
    · intro h; omega
  · split
    · constructor
      · intro h; cases h
      · intro h; omega
    · constructor
      · intro h; cases h; exact ⟨rfl, by omega, by omega⟩
      · rintro ⟨rfl, -⟩; rfl

/-- `ParseName` accepts exactly 3 to 256 bytes and keeps the value. -/
theorem name_iff (s m : String) : parseName s = .ok m ↔ m = s ∧ 3 ≤ goLen s ∧ goLen s ≤ 256 := by
  unfold parseName
  split
  · constructor
    · intro h; cases h
    · intro h; omega
  · split
    · constructor
      · intro h; cases h
      · intro h; omega
    · constructor
      · intro h; cases h; exact ⟨rfl, by omega, by omega⟩
      · rintro ⟨rfl, -⟩; rfl

/-- `NewSensor` accepts exactly non-empty names and amplitudes from 4 to 512; bounds are free. -/
theorem sensor_iff {F : Type} [GoFloat F] (uid : String) (draws : ℕ → F) (name : String) (mn mx : F)
    (amp : Int) (mode : UInt16) :
    (∃ s, Sensor.new uid draws name mn mx amp mode = .ok s) ↔ Amplitude amp ∧ 0 < goLen name := by
  constructor
  · rintro ⟨s, h⟩
    unfold Sensor.new at h
    obtain ⟨_, ha, h⟩ := bind_eq_ok h
    refine ⟨(amplitude_iff amp).mp ha, ?_⟩
    split at h
    · cases h
    · omega
  · rintro ⟨ha, hn⟩
    unfold Sensor.new
    rw [(amplitude_iff amp).mpr ha]
    show ∃ s, (if goLen name = 0 then _ else Except.ok _) = Except.ok s
    rw [if_neg (by omega)]
    exact ⟨_, rfl⟩

/-- An accepted sensor has the given name and bounds. -/
theorem sensor_keeps {F : Type} [GoFloat F] (uid : String) (draws : ℕ → F) (name : String) (mn mx : F)
    (amp : Int) (mode : UInt16) (s : Sensor F) (h : Sensor.new uid draws name mn mx amp mode = .ok s) :
    s.name = name ∧ s.min = mn ∧ s.max = mx ∧ s.id = uid := by
  obtain ⟨-, -, rfl⟩ := sensor_new_eq h
  exact ⟨rfl, rfl, rfl, rfl⟩

/-- What a sensor restored from these parameters is, or which error is returned: the id is checked first, then the
name, then the amplitude. -/
inductive Restored {F : Type} [GoFloat F] (parsed : Option String) (draws : ℕ → F) (name : String) (mn mx : F)
    (amp : Int) (mode : UInt16) : Except Err (Sensor F) → Prop where
  | badId : parsed = none → Restored parsed draws name mn mx amp mode (.error .invalidUUID)
  | noName (sid : String) : parsed = some sid → goLen name = 0 →
      Restored parsed draws name mn mx amp mode (.error .emptySensorName)
  | low (sid : String) : parsed = some sid → 0 < goLen name → amp < 4 →
      Restored parsed draws name mn mx amp mode (.error .minAmplitude)
  | high (sid : String) : parsed = some sid → 0 < goLen name → 512 < amp →
      Restored parsed draws name mn mx amp mode (.error .maxAmplitude)
  | ok (s : Sensor F) : parsed = some s.id → 0 < goLen name → Amplitude amp → s.name = name → s.min = mn →
      s.max = mx → s.valX = lit 0 → s.valY = lit 0 →
      Restored parsed draws name mn mx amp mode (.ok s)

/-- **`RestoreSensor`** accepts exactly ids that can be parsed, non-empty names and amplitudes from 4 to 512, keeps
the id, the name and the bounds, and otherwise returns the error of the first check that fails. -/
theorem restore_sensor {F : Type} [GoFloat F] (parsed : Option String) (draws : ℕ → F) (name : String) (mn mx : F)
    (amp : Int) (mode : UInt16) :
    Restored parsed draws name mn mx amp mode (Sensor.restore parsed draws name mn mx amp mode) := by
  cases parsed with
  | none => exact .badId rfl
  | some sid =>
    unfold Sensor.restore validateAmplitude
    by_cases hn : goLen name = 0
    · simp only [hn, if_true]; exact .noName sid rfl hn
    by_cases h4 : amp < 4
    · simp only [hn, h4, if_true, if_false]; exact .low sid rfl (by omega) h4
    by_cases h5 : amp > 512
    · simp only [hn, h4, h5, if_true, if_false]; exact .high sid rfl (by omega) h5
    simp only [hn, h4, h5, if_false]
    exact .ok _ rfl (by omega) ⟨by omega, by omega⟩ rfl rfl rfl rfl rfl

example : Restored none (fun _ => (XNum.nan : X)) "" .nan .nan 3 0 (.error .invalidUUID) := .badId rfl

/-! ## NewSpeed -/

/-- Full claim for `NewSpeed`: it succeeds exactly for `0 ≤ min ≤ max ≤ 1000` (a maximum `≤ 0`
stands for the minimum) and amplitudes from 4 to 512. -/
def SpeedClaim : Prop := ∀ (draws : ℕ → X) (mn mx : X) (amp : Int),
  (∃ s, Speed.new draws mn mx amp = .ok s) ↔
    atLeast 0 mn ∧ atMost 1000 (if mx <=. lit 0 then mn else mx) ∧
      below mn (if mx <=. lit 0 then mn else mx) ∧ Amplitude amp

/-- For a positive maximum (not NaN) the claim holds, and the accepted speed has these bounds. -/
theorem speed_iff_partial (draws : ℕ → X) (mn mx : X) (amp : Int) (h1 : Num mn) (h2 : Num mx)
    (h3 : ¬ atMost 0 mx) :
    ((∃ s, Speed.new draws mn mx amp = .ok s) ↔
      atLeast 0 mn ∧ atMost 1000 mx ∧ below mn mx ∧ Amplitude amp) ∧
    ∀ s, Speed.new draws mn mx amp = .ok s → s.min = mn ∧ s.max = mx := by
  classical
  have e1 := lt_lit_iff h1 0
  have e2 := lit_lt_iff h2 1000
  have e3 := lt_iff h1 h2
  have e4 : ¬ (mx <=. lit 0) = true := by
    intro hc; exact h3 (by have := (le_lit_iff 0).mp hc; rwa [zero_cast] at this)
  have e5 : ¬ ((mn ==. lit 0) && (mx ==. lit 0)) = true := by
    intro hc
    simp only [Bool.and_eq_true] at hc
    apply h3
    have := hc.2
    cases mx with
    | fin k => simp at this; simp [atMost, this]
    | inf s => simp at this
    | nan => exact absurd rfl h2
  rw [zero_cast] at e1
  rw [show ((1000 : ℚ) : ℝ) = 1000 by norm_num] at e2
  have key : Speed.new draws mn mx amp =
      if ¬ atLeast 0 mn then .error .minSpeed else if ¬ atMost 1000 mx then .error .maxSpeed else
      if ¬ below mn mx then .error .speedMinGreaterMax else
      (do validateAmplitude amp
          .ok ⟨mn, mx, lit 0, Curve.new mn mx amp modeDefault draws⟩) := by
    unfold Speed.new
    simp only [if_neg e4, if_neg e5]
    by_cases q1 : atLeast 0 mn
    · rw [if_neg (by rw [e1]; exact not_not.mpr q1), if_neg (not_not.mpr q1)]
      by_cases q2 : atMost 1000 mx
      · rw [if_neg (by rw [e2]; exact not_not.mpr q2), if_neg (not_not.mpr q2)]
        by_cases q3 : below mn mx
        · rw [if_neg (by rw [e3]; exact not_not.mpr q3), if_neg (not_not.mpr q3)]
        · rw [if_pos (e3.mpr q3), if_pos q3]
      · rw [if_pos (e2.mpr q2), if_pos q2]
    · rw [if_pos (e1.mpr q1), if_pos q1]
  rw [key]
  constructor
  · constructor
    · rintro ⟨s, h⟩
      split at h
      · cases h
      rename_i q1
      split at h
      · cases h
      rename_i q2
      split at h
      · cases h
      rename_i q3
      obtain ⟨_, ha, h⟩ := bind_eq_ok h
      exact ⟨not_not.mp q1, not_not.mp q2, not_not.mp q3, (amplitude_iff amp).mp ha⟩
    · rintro ⟨q1, q2, q3, q4⟩
      rw [if_neg (not_not.mpr q1), if_neg (not_not.mpr q2), if_neg (not_not.mpr q3),
        (amplitude_iff amp).mpr q4]
      exact ⟨_, rfl⟩
  · intro s h
    split at h
    · cases h
    split at h
    · cases h
    split at h
    · cases h
    obtain ⟨_, ha, h⟩ := bind_eq_ok h
    cases h
    exact ⟨rfl, rfl⟩

/-- `NewSpeed(5000, 0, 16)` succeeds with speed 5000. -/
theorem speed_beyond_limit (draws : ℕ → X) :
    ∃ s, Speed.new draws (.fin 5000) (.fin 0) 16 = .ok s ∧ s.min = .fin 5000 ∧ s.max = .fin 5000 := by
  suffices h : Speed.new draws (.fin 5000 : X) (.fin 0) 16 = .ok ⟨.fin 5000, .fin 5000, lit 0,
      Curve.new (.fin 5000) (.fin 5000) 16 modeDefault draws⟩ from
    ⟨_, h, rfl, rfl⟩
  unfold Speed.new
  rw [if_neg (by simp), if_neg (by simp)]
  have : ((.fin 0 : X) <=. lit 0) = true := by simp
  simp only [this, if_true]
  rw [if_neg (by simp), if_neg (by simp)]
  rfl

/-- `NewSpeed(NaN, NaN, 16)` succeeds. -/
theorem speed_nan (draws : ℕ → X) : ∃ s, Speed.new draws .nan .nan 16 = .ok s ∧ s.min = .nan := by
  suffices h : Speed.new draws (.nan : X) .nan 16 = .ok ⟨.nan, .nan, lit 0,
      Curve.new .nan .nan 16 modeDefault draws⟩ from ⟨_, h, rfl⟩
  unfold Speed.new
  rw [if_neg (by simp), if_neg (by simp)]
  have : ¬ ((.nan : X) <=. lit 0) = true := by simp
  simp only [if_neg this]
  rw [if_neg (by simp), if_neg (by simp)]
  rfl

/-- The full claim fails. -/
theorem speed_claim_fails : ¬ SpeedClaim := by
  intro h
  obtain ⟨s, hs, -⟩ := speed_beyond_limit (fun _ => .fin 0)
  have := (h _ _ _ _).mp ⟨s, hs⟩
  have hz : ((.fin 0 : X) <=. lit 0) = true := by simp
  rw [if_pos hz] at this
  have h2 : (5000 : ℝ) ≤ 1000 := this.2.1
  norm_num at h2

/-! ## NewBattery -/

/-- Full claim for `NewBattery`: error exactly if the minimum is below 0 or the maximum above 100; an
accepted battery has `0 ≤ min ≤ max ≤ 100` and a positive charge time, which is the given one if
positive and nine hours otherwise. -/
def BatteryClaim : Prop := ∀ (mn mx : X) (ct : Int),
  ((∃ b, Battery.new mn mx ct = .ok b) ↔ atLeast 0 mn ∧ atMost 100 mx) ∧
  ∀ b, Battery.new mn mx ct = .ok b →
    atLeast 0 b.min ∧ below b.min b.max ∧ atMost 100 b.max ∧
    b.chargeTime = if ct ≤ 0 then 9 * 3600 * 1000000000 else ct

theorem battery_iff_partial (mn mx : X) (ct : Int) (h1 : Num mn) (h2 : Num mx) :
    ((∃ b, Battery.new mn mx ct = .ok b) ↔ atLeast 0 mn ∧ atMost 100 mx) ∧
    ∀ b, Battery.new mn mx ct = .ok b →
      below b.min b.max ∧ atMost 100 b.max ∧ b.max = mx ∧ (below mn mx → b.min = mn) ∧
      (atLeast 0 mx → atLeast 0 b.min) ∧
      (ct ≠ 0 → b.chargeTime = if ct ≤ 0 then 9 * 3600 * 1000000000 else ct) := by
  classical
  have e1 := lt_lit_iff h1 0
  have e2 := lit_lt_iff h2 100
  have e3 := lt_iff h1 h2
  rw [zero_cast] at e1
  rw [show ((100 : ℚ) : ℝ) = 100 by norm_num] at e2
  have key : Battery.new mn mx ct =
      if ¬ atLeast 0 mn then .error .minBattery else if ¬ atMost 100 mx then .error .maxBattery else
      .ok ⟨if ¬ below mn mx then mx else mn, mx, lit 0,
        if ct < 0 then 9 * 3600 * 1000000000 else ct⟩ := by
    unfold Battery.new
    simp only [e1, e2, e3]
  have hself : below mx mx := by
    cases mx with
    | fin k => exact le_refl k
    | inf s => cases s <;> simp [below]
    | nan => exact absurd rfl h2
  rw [key]
  constructor
  · constructor
    · rintro ⟨s, h⟩
      split at h
      · cases h
      rename_i q1
      split at h
      · cases h
      rename_i q2
      exact ⟨not_not.mp q1, not_not.mp q2⟩
    · rintro ⟨q1, q2⟩
      rw [if_neg (not_not.mpr q1), if_neg (not_not.mpr q2)]
      exact ⟨_, rfl⟩
  · intro b h
    split at h
    · cases h
    rename_i q1
    split at h
    · cases h
    rename_i q2
    cases h
    refine ⟨?_, not_not.mp q2, rfl, ?_, ?_, ?_⟩
    · simp only
      split
      · exact hself
      · rename_i h; exact not_not.mp h
    · intro hb; simp only [hb, not_true_eq_false, if_false]
    · intro hb
      simp only
      split
      · exact hb
      · exact not_not.mp q1
    · intro hc
      simp only
      split
      · rw [if_pos (by omega)]
      · rw [if_neg (by omega)]

/-- A charge time of zero is kept although the documentation promises nine hours. -/
theorem battery_zero_chargeTime :
    ∃ b, Battery.new (.fin 0 : X) (.fin 100) 0 = .ok b ∧ b.chargeTime = 0 := by
  suffices h : Battery.new (.fin 0 : X) (.fin 100) 0 = .ok ⟨.fin 0, .fin 100, lit 0, 0⟩ from
    ⟨_, h, rfl⟩
  unfold Battery.new
  rw [if_neg (by simp), if_neg (by simp)]
  have : ¬ ((.fin 100 : X) <. .fin 0) = true := by simp
  simp only [if_neg this]
  rfl

/-- A negative maximum is accepted and drags the minimum below zero. -/
theorem battery_negative :
    ∃ b, Battery.new (.fin 0 : X) (.fin (-5)) 1 = .ok b ∧ b.min = .fin (-5) := by
  refine ⟨⟨.fin (-5), .fin (-5), .fin 0, 1⟩, ?_, rfl⟩
  unfold Battery.new
  rw [if_neg (by simp), if_neg (by simp; norm_num)]
  have : ((.fin (-5) : X) <. .fin 0) = true := by simp
  simp only [this, if_true]
  simp

theorem battery_nan : ∃ b, Battery.new (.nan : X) .nan 1 = .ok b := by
  unfold Battery.new
  rw [if_neg (by simp), if_neg (by simp)]
  exact ⟨_, rfl⟩

theorem battery_claim_fails : ¬ BatteryClaim := by
  intro h
  obtain ⟨b, hb, hc⟩ := battery_zero_chargeTime
  have := ((h _ _ _).2 b hb).2.2.2
  rw [hc] at this
  norm_num at this

/-! ## navigator.New -/

/-- The options after applying the given ones to the defaults. -/
noncomputable def effective (opts : List (NavOption X)) : NavOptions X := opts.foldl NavOptions.apply NavOptions.default

/-- Full claim for `navigator.New`. -/
def NavigatorClaim : Prop := ∀ (uid : String) (draws : ℕ → X) (opts : List (NavOption X)),
  ((∃ n, Navigator.new uid draws opts = .ok n) ↔
    0 ≤ (effective opts).minOffline ∧ (effective opts).maxOffline ≤ 3600 ∧
    atLeast 0 (effective opts).elevationMin ∧ atMost 50000 (effective opts).elevationMax ∧
    Amplitude (effective opts).elevationAmplitude) ∧
  ∀ n, Navigator.new uid draws opts = .ok n →
    atLeast 0 n.elevation.min ∧ below n.elevation.min n.elevation.max ∧ atMost 50000 n.elevation.max

theorem validateOffline_iff {F : Type} (o : NavOptions F) :
    (∃ o', o.validateOffline = .ok o') ↔ 0 ≤ o.minOffline ∧ o.maxOffline ≤ 3600 := by
  unfold NavOptions.validateOffline
  split
  · constructor
    · rintro ⟨_, h⟩; cases h
    · intro h; omega
  · split
    · constructor
      · rintro ⟨_, h⟩; cases h
      · intro h; omega
    · exact ⟨fun _ => by omega, fun _ => ⟨_, rfl⟩⟩

theorem validateElevation_iff (o : NavOptions X) (h1 : Num o.elevationMin) (h2 : Num o.elevationMax) :
    (∃ o', o.validateElevation = .ok o') ↔ atLeast 0 o.elevationMin ∧ atMost 50000 o.elevationMax := by
  have e1 := lt_lit_iff h1 0
  have e2 := lit_lt_iff h2 50000
  rw [zero_cast] at e1
  rw [show ((50000 : ℚ) : ℝ) = 50000 by norm_num] at e2
  unfold NavOptions.validateElevation
  by_cases q1 : atLeast 0 o.elevationMin
  · rw [if_neg (by rw [e1]; exact not_not.mpr q1)]
    by_cases q2 : atMost 50000 o.elevationMax
    · rw [if_neg (by rw [e2]; exact not_not.mpr q2)]
      exact ⟨fun _ => ⟨q1, q2⟩, fun _ => ⟨_, rfl⟩⟩
    · rw [if_pos (e2.mpr q2)]
      constructor
      · rintro ⟨_, h⟩; cases h
      · intro h; exact absurd h.2 q2
  · rw [if_pos (e1.mpr q1)]
    constructor
    · rintro ⟨_, h⟩; cases h
    · intro h; exact absurd h.1 q1

/-- For elevations other than NaN the constructor succeeds exactly in the documented ranges. For
ordered bounds the elevation sensor has these bounds, except that 0..0 becomes 0..100. -/
theorem navigator_iff_partial (uid : String) (draws : ℕ → X) (opts : List (NavOption X))
    (h1 : Num (effective opts).elevationMin) (h2 : Num (effective opts).elevationMax) :
    ((∃ n, Navigator.new uid draws opts = .ok n) ↔
      0 ≤ (effective opts).minOffline ∧ (effective opts).maxOffline ≤ 3600 ∧
      atLeast 0 (effective opts).elevationMin ∧ atMost 50000 (effective opts).elevationMax ∧
      Amplitude (effective opts).elevationAmplitude) ∧
    ∀ n, Navigator.new uid draws opts = .ok n →
      below (effective opts).elevationMin (effective opts).elevationMax →
      (n.elevation.min = (effective opts).elevationMin ∧ n.elevation.max = (effective opts).elevationMax) ∨
      (n.elevation.min = .fin 0 ∧ n.elevation.max = .fin 100 ∧
        (effective opts).elevationMin = .fin 0 ∧ (effective opts).elevationMax = .fin 0) := by
  constructor
  · constructor
    · rintro ⟨n, h⟩
      obtain ⟨o1, o2, s, a, b, c, -⟩ := new_cases h
      change (effective opts).validateOffline = .ok o1 at a
      obtain ⟨-, f1, f2, f3, -⟩ := validateOffline_frame a
      obtain ⟨-, -, -, g1, -⟩ := validateElevation_frame b
      have := (validateOffline_iff _).mp ⟨o1, a⟩
      have he := (validateElevation_iff o1 (by rw [f1]; exact h1) (by rw [f2]; exact h2)).mp ⟨o2, b⟩
      rw [f1, f2] at he
      have hs := ((sensor_iff _ _ _ _ _ _ _).mp ⟨s, c⟩).1
      rw [g1, f3] at hs
      exact ⟨this.1, this.2, he.1, he.2, hs⟩
    · rintro ⟨q1, q2, q3, q4, q5⟩
      obtain ⟨o1, a⟩ := (validateOffline_iff (effective opts)).mpr ⟨q1, q2⟩
      obtain ⟨-, f1, f2, f3, -⟩ := validateOffline_frame a
      obtain ⟨o2, b⟩ := (validateElevation_iff o1 (by rw [f1]; exact h1) (by rw [f2]; exact h2)).mpr
        (by rw [f1, f2]; exact ⟨q3, q4⟩)
      obtain ⟨-, -, -, g1, -⟩ := validateElevation_frame b
      obtain ⟨s, c⟩ := (sensor_iff uid draws "elevation" o2.elevationMin o2.elevationMax
        o2.elevationAmplitude o2.elevationMode).mpr ⟨by rw [g1, f3]; exact q5, by decide⟩
      unfold Navigator.new
      change ∃ n, ((effective opts).validateOffline >>= _) = _
      rw [a]
      change ∃ n, (o1.validateElevation >>= _) = _
      rw [b]
      change ∃ n, (Sensor.new _ _ _ _ _ _ _ >>= _) = _
      rw [c]
      exact ⟨_, rfl⟩
  · intro n h hb
    obtain ⟨o1, o2, s, a, b, c, rfl⟩ := new_cases h
    change (effective opts).validateOffline = .ok o1 at a
    obtain ⟨-, f1, f2, -⟩ := validateOffline_frame a
    obtain ⟨-, hs1, hs2, -⟩ := sensor_keeps _ _ _ _ _ _ _ _ c
    show (s.min = _ ∧ s.max = _) ∨ (s.min = _ ∧ s.max = _ ∧ _)
    rw [hs1, hs2]
    rw [← f1] at hb h1 ⊢
    rw [← f2] at hb h2 ⊢
    have hlt : ¬ (o1.elevationMax <. o1.elevationMin) = true := by
      rw [lt_iff h1 h2]; exact not_not.mpr hb
    unfold NavOptions.validateElevation at b
    split at b
    · cases b
    split at b
    · cases b
    simp only [if_neg hlt] at b
    split at b
    · rename_i hz
      right
      cases b
      simp only [Bool.and_eq_true] at hz
      have z : ∀ x : X, (x ==. lit 0) = true → x = .fin 0 := by
        intro x hx
        cases x with
        | fin k => simp at hx; rw [hx]
        | inf s => simp at hx
        | nan => simp at hx
      refine ⟨by simp, by simp, z _ hz.1, z _ hz.2⟩
    · cases b
      exact Or.inl ⟨rfl, rfl⟩

/-- `WithElevation(5, -10, ...)` is accepted and the elevation is then between -11 and -10. -/
theorem navigator_negative (uid : String) (draws : ℕ → X) :
    ∃ n, Navigator.new uid draws [.elevation (.fin 5) (.fin (-10)) 4 0] = .ok n ∧
      n.elevation.min = .fin (-11) ∧ n.elevation.max = .fin (-10) := by
  have he : NavOptions.validateElevation (⟨.fin 5, .fin (-10), 0, 1, 10, 4, false⟩ : NavOptions X) =
      .ok ⟨.fin (-11), .fin (-10), 0, 1, 10, 4, false⟩ := by
    unfold NavOptions.validateElevation
    rw [if_neg (by simp), if_neg (by simp; norm_num)]
    simp only [XNum.fin_lt, XNum.fin_sub, XNum.lit_eq]
    norm_num
  have hr : ∃ n, Navigator.new uid draws [.elevation (.fin 5) (.fin (-10)) 4 0] = .ok n ∧
      n.elevation = ⟨uid, "elevation", .fin (-11), .fin (-10), lit 0, lit 0,
        Curve.new (.fin (-11)) (.fin (-10)) 4 (normSensorMode 0) draws⟩ := by
    unfold Navigator.new
    change ∃ n, (NavOptions.validateElevation
      (⟨.fin 5, .fin (-10), 0, 1, 10, 4, false⟩ : NavOptions X) >>= _) = _ ∧ _
    rw [he]
    exact ⟨_, rfl, rfl⟩
  obtain ⟨n, h, hn⟩ := hr
  exact ⟨n, h, by rw [hn], by rw [hn]⟩

theorem navigator_claim_fails : ¬ NavigatorClaim := by
  intro h
  obtain ⟨n, hn, hm, -⟩ := navigator_negative "" (fun _ => .fin 0)
  have := ((h _ _ _).2 n hn).1
  rw [hm] at this
  have h2 : (0 : ℝ) ≤ -11 := this
  norm_num at h2

/-! ## NewDevice -/

/-- `NewDevice` succeeds exactly when the navigator, the speed and the battery accept their options,
the model is empty or accepted, and the colour is empty or parsable. Any number type. -/
theorem device_iff {F : Type} [GoFloat F] (rnd : DeviceRnd F) (o : DeviceOptions F) :
    (∃ d, Device.new rnd (some o) = .ok d) ↔
      (∃ n, Navigator.new rnd.sensorUid rnd.elevationDraws o.navOpts = .ok n) ∧
      (∃ s, Speed.new rnd.speedDraws o.speedMin o.speedMax o.speedAmplitude = .ok s) ∧
      (∃ b, Battery.new o.batteryMin o.batteryMax o.chargeTime = .ok b) ∧
      (o.model = "" ∨ (3 ≤ goLen o.model ∧ goLen o.model ≤ 64)) ∧
      (o.color = "" ∨ (rnd.hex o.color).isSome = true) := by
  have hemp : ∀ s : String, goLen s = 0 ↔ s = "" := fun s => String.utf8ByteSize_eq_zero_iff
  constructor
  · rintro ⟨d, h⟩
    obtain ⟨n, s, b, st, h1, h2, h3, h4, -⟩ := Device.new_eq h
    obtain ⟨m, c, -, h5, h6⟩ := applyFor_eq h4
    refine ⟨⟨n, h1⟩, ⟨s, h2⟩, ⟨b, h3⟩, ?_, ?_⟩
    · simp only [Option.getD_some] at h5
      split at h5
      · exact Or.inr ((model_iff _ _).mp h5).2
      · rename_i hz
        exact Or.inl ((hemp _).mp (by omega))
    · simp only [Option.getD_some] at h6
      split at h6
      · right; rw [h6]; rfl
      · rename_i hz
        exact Or.inl ((hemp _).mp (by omega))
  · rintro ⟨⟨n, h1⟩, ⟨s, h2⟩, ⟨b, h3⟩, h4, h5⟩
    have ha : ∃ st, o.applyFor rnd DevState.init = .ok st := by
      unfold DeviceOptions.applyFor
      have hm : ∃ m, (if goLen o.model > 0 then newModel o.model else .ok ("Device-" ++ rnd.suffix)) =
          .ok m := by
        rcases h4 with h4 | h4
        · rw [if_neg (by have := (hemp _).mpr h4; omega)]; exact ⟨_, rfl⟩
        · rw [if_pos (by omega)]; exact ⟨_, (model_iff _ _).mpr ⟨rfl, h4⟩⟩
      obtain ⟨m, hm⟩ := hm
      simp only [hm, ok_bind]
      rcases h5 with h5 | h5
      · rw [if_neg (by have := (hemp _).mpr h5; omega)]; exact ⟨_, rfl⟩
      · split
        · obtain ⟨c, hc⟩ := Option.isSome_iff_exists.mp h5
          rw [hc]
          exact ⟨_, rfl⟩
        · exact ⟨_, rfl⟩
    obtain ⟨st, h6⟩ := ha
    unfold Device.new
    simp only [Option.getD_some]
    rw [h1]
    change ∃ d, (Speed.new _ _ _ _ >>= _) = _
    rw [h2]
    change ∃ d, (Battery.new _ _ _ >>= _) = _
    rw [h3]
    change ∃ d, (DeviceOptions.applyFor _ _ _ >>= _) = _
    rw [h6]
    exact ⟨_, rfl⟩

/-! Non-vacuity: concrete accepted and rejected parameters. -/

example : (∃ s, Speed.new (fun _ => .fin 0) (.fin 2 : X) (.fin 8) 16 = .ok s) ∧
    ¬ (∃ s, Speed.new (fun _ => .fin 0) (.fin 9 : X) (.fin 8) 16 = .ok s) ∧
    ¬ (∃ s, Speed.new (fun _ => .fin 0) (.fin 2 : X) (.inf false) 16 = .ok s) := by
  refine ⟨((speed_iff_partial _ _ _ _ (by simp [Num]) (by simp [Num]) (by simp [atMost])).1).mpr ?_,
    fun h => ?_, fun h => ?_⟩
  · refine ⟨?_, ?_, ?_, ?_⟩ <;> norm_num [atLeast, atMost, below, Amplitude]
  · have := (((speed_iff_partial _ _ _ _ (by simp [Num]) (by simp [Num]) (by simp [atMost])).1).mp h)
    norm_num [below] at this
  · have := (((speed_iff_partial _ _ _ _ (by simp [Num]) (by simp [Num]) (by simp [atMost])).1).mp h)
    norm_num [atMost] at this

example : ∃ n, Navigator.new "u" (fun _ => .fin 0) ([.elevation (.fin 1) (.fin 2500) 8 0] :
    List (NavOption X)) = .ok n := by
  rw [(navigator_iff_partial _ _ _ (by simp [Num, effective, NavOptions.apply])
    (by simp [Num, effective, NavOptions.apply])).1]
  simp [effective, NavOptions.apply, NavOptions.default, atLeast, atMost, Amplitude]
  norm_num

end C32
end GpsGen
