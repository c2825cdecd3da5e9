import Verif.Theorems.C32
import Verif.Lemmas.Toy
/-!
# C33 Preset trackers are always created

For every number type in which the comparison of natural numbers up to 50000 is correct; this
includes the reals, the reals with infinities and NaN, and (outside this formalisation) float64. All
random choices are arbitrary.
-/

namespace GpsGen
namespace C33

/-- Small natural numbers are represented and compared correctly. -/
structure SmallNumbers (F : Type) [GoFloat F] : Prop where
  lt : ∀ m n : ℕ, m ≤ 50000 → n ≤ 50000 → ((lit (m : ℚ) : F) <. lit (n : ℚ)) = decide (m < n)
  le : ∀ m n : ℕ, m ≤ 50000 → n ≤ 50000 → ((lit (m : ℚ) : F) <=. lit (n : ℚ)) = decide (m ≤ n)
  eq : ∀ m n : ℕ, m ≤ 50000 → n ≤ 50000 → ((lit (m : ℚ) : F) ==. lit (n : ℚ)) = decide (m = n)

theorem smallNumbers_real : SmallNumbers ℝ where
  lt m n _ _ := by simp
  le m n _ _ := by simp
  eq m n _ _ := by simp

theorem smallNumbers_extended : SmallNumbers (XNum ℝ) where
  lt m n _ _ := by simp
  le m n _ _ := by simp
  eq m n _ _ := by simp

variable {F : Type} [GoFloat F]

theorem new_ok (L : SmallNumbers F) (rnd : DeviceRnd F) (o : DeviceOptions F) (a b c d e f : ℕ)
    (ha : o.elevationMin = lit (a : ℚ)) (hb : o.elevationMax = lit (b : ℚ)) (hb' : b ≤ 50000)
    (ha' : a ≤ 50000)
    (hc : o.speedMin = lit (c : ℚ)) (hd : o.speedMax = lit (d : ℚ)) (hcd : c ≤ d) (hd0 : 0 < d)
    (hd' : d ≤ 1000)
    (he : o.batteryMin = lit (e : ℚ)) (hf : o.batteryMax = lit (f : ℚ)) (he' : e ≤ 100) (hf' : f ≤ 100)
    (h1 : C32.Amplitude o.elevationAmplitude) (h2 : C32.Amplitude o.speedAmplitude)
    (h3 : 0 ≤ o.offlineMin) (h4 : o.offlineMax ≤ 3600) (h5 : o.model = "") (h6 : o.color = "") :
    ∃ x, Device.new rnd (some o) = .ok x := by
  have z : ∀ m : ℕ, m ≤ 50000 → ((lit (m : ℚ) : F) <. lit 0) = false := by
    intro m hm
    have := L.lt m 0 hm (by omega)
    simpa using this
  rw [C32.device_iff]
  refine ⟨?_, ?_, ?_, Or.inl h5, Or.inl h6⟩
  · have hE : ∀ p : NavOptions F, p.elevationMin = lit (a : ℚ) → p.elevationMax = lit (b : ℚ) →
        ∃ p', p.validateElevation = .ok p' := by
      intro p h1 h2
      have q := L.lt 50000 b (by omega) hb'
      simp only [Nat.cast_ofNat] at q
      unfold NavOptions.validateElevation
      rw [if_neg (by rw [h1, z a ha']; simp), if_neg (by rw [h2, q]; simp; omega)]
      exact ⟨_, rfl⟩
    have hopt : ∃ s : Bool, o.navOpts.foldl NavOptions.apply NavOptions.default =
        ⟨o.elevationMin, o.elevationMax, o.elevationMode, o.offlineMin, o.offlineMax,
          o.elevationAmplitude, s⟩ := by
      unfold DeviceOptions.navOpts
      cases o.skipOffline <;> exact ⟨_, rfl⟩
    obtain ⟨s, hopt⟩ := hopt
    obtain ⟨o1, q1⟩ := (C32.validateOffline_iff
      (o.navOpts.foldl NavOptions.apply NavOptions.default)).mpr (by rw [hopt]; exact ⟨h3, h4⟩)
    obtain ⟨-, f1, f2, f3, -⟩ := validateOffline_frame q1
    rw [hopt] at f1 f2 f3
    obtain ⟨o2, q2⟩ := hE o1 (f1.trans ha) (f2.trans hb)
    obtain ⟨-, -, -, g1, -⟩ := validateElevation_frame q2
    obtain ⟨el, q3⟩ := (C32.sensor_iff rnd.sensorUid rnd.elevationDraws "elevation" o2.elevationMin
      o2.elevationMax o2.elevationAmplitude o2.elevationMode).mpr
        ⟨by rw [g1, f3]; exact h1, by decide⟩
    unfold Navigator.new
    simp only
    rw [q1]
    change ∃ n, (o1.validateElevation >>= _) = _
    rw [q2]
    change ∃ n, (Sensor.new _ _ _ _ _ _ _ >>= _) = _
    rw [q3]
    exact ⟨_, rfl⟩
  · have q1 := L.lt 1000 d (by omega) (by omega)
    have q2 := L.le d 0 (by omega) (by omega)
    have q3 := L.lt d c (by omega) (by omega)
    have q4 := L.eq d 0 (by omega) (by omega)
    simp only [Nat.cast_ofNat, Nat.cast_zero] at q1 q2 q4
    rw [decide_eq_false (by omega)] at q1 q2 q3 q4
    unfold Speed.new
    rw [hc, hd]
    simp only [z c (by omega), q1, q2, q3, q4, Bool.and_false, Bool.false_eq_true, if_false]
    rw [(C32.amplitude_iff _).mpr h2]
    exact ⟨_, rfl⟩
  · have q1 := L.lt 100 f (by omega) (by omega)
    simp only [Nat.cast_ofNat] at q1
    rw [decide_eq_false (by omega)] at q1
    unfold Battery.new
    rw [he, hf, if_neg (by rw [z e (by omega)]; simp), if_neg (by rw [q1]; simp)]
    exact ⟨_, rfl⟩

theorem preset_some {rnd : DeviceRnd F} {o : DeviceOptions F} (h : ∃ x, Device.new rnd (some o) = .ok x) :
    (Device.preset rnd o).isSome = true := by
  obtain ⟨x, h⟩ := h
  unfold Device.preset
  rw [h]
  rfl

/-- The five preset constructors. -/
inductive Preset | tracker | kids | animal | bicycle | drone

def Preset.create (rnd : DeviceRnd F) : Preset → Option (Device F)
  | .tracker => Device.preset rnd DeviceOptions.tracker
  | .kids => Device.preset rnd DeviceOptions.kids
  | .animal => Device.preset rnd DeviceOptions.dog
  | .bicycle => Device.preset rnd DeviceOptions.bicycle
  | .drone => Device.preset rnd DeviceOptions.drone

/-- No preset constructor returns nil, whatever the random choices. -/
theorem presets_created (L : SmallNumbers F) (p : Preset) (rnd : DeviceRnd F) :
    (p.create rnd).isSome = true := by
  cases p with
  | tracker =>
    exact preset_some (new_ok L rnd _ 0 350 1 5 0 100 (by simp [DeviceOptions.tracker])
      (by simp [DeviceOptions.tracker]) (by omega) (by omega) (by simp [DeviceOptions.tracker])
      (by simp [DeviceOptions.tracker]) (by omega) (by omega) (by omega)
      (by simp [DeviceOptions.tracker, DeviceOptions.default])
      (by simp [DeviceOptions.tracker, DeviceOptions.default]) (by omega) (by omega)
      ⟨by simp [DeviceOptions.tracker, DeviceOptions.default], by simp [DeviceOptions.tracker, DeviceOptions.default]⟩
      ⟨by simp [DeviceOptions.tracker, DeviceOptions.default], by simp [DeviceOptions.tracker, DeviceOptions.default]⟩
      (by simp [DeviceOptions.tracker, DeviceOptions.default]) (by simp [DeviceOptions.tracker, DeviceOptions.default]) rfl rfl)
  | kids =>
    exact preset_some (new_ok L rnd _ 0 50 1 2 0 100 (by simp [DeviceOptions.kids])
      (by simp [DeviceOptions.kids]) (by omega) (by omega) (by simp [DeviceOptions.kids])
      (by simp [DeviceOptions.kids]) (by omega) (by omega) (by omega)
      (by simp [DeviceOptions.kids, DeviceOptions.default])
      (by simp [DeviceOptions.kids, DeviceOptions.default]) (by omega) (by omega)
      ⟨by simp [DeviceOptions.kids, DeviceOptions.default], by simp [DeviceOptions.kids, DeviceOptions.default]⟩
      ⟨by simp [DeviceOptions.kids, DeviceOptions.default], by simp [DeviceOptions.kids, DeviceOptions.default]⟩
      (by simp [DeviceOptions.kids, DeviceOptions.default]) (by simp [DeviceOptions.kids, DeviceOptions.default]) rfl rfl)
  | animal =>
    exact preset_some (new_ok L rnd _ 1 10 1 3 0 100 (by simp [DeviceOptions.dog])
      (by simp [DeviceOptions.dog]) (by omega) (by omega) (by simp [DeviceOptions.dog])
      (by simp [DeviceOptions.dog]) (by omega) (by omega) (by omega)
      (by simp [DeviceOptions.dog, DeviceOptions.default])
      (by simp [DeviceOptions.dog, DeviceOptions.default]) (by omega) (by omega)
      ⟨by simp [DeviceOptions.dog, DeviceOptions.default], by simp [DeviceOptions.dog, DeviceOptions.default]⟩
      ⟨by simp [DeviceOptions.dog, DeviceOptions.default], by simp [DeviceOptions.dog, DeviceOptions.default]⟩
      (by simp [DeviceOptions.dog, DeviceOptions.default]) (by simp [DeviceOptions.dog, DeviceOptions.default]) rfl rfl)
  | bicycle =>
    exact preset_some (new_ok L rnd _ 1 125 2 8 0 100 (by simp [DeviceOptions.bicycle])
      (by simp [DeviceOptions.bicycle]) (by omega) (by omega) (by simp [DeviceOptions.bicycle])
      (by simp [DeviceOptions.bicycle]) (by omega) (by omega) (by omega)
      (by simp [DeviceOptions.bicycle, DeviceOptions.default])
      (by simp [DeviceOptions.bicycle, DeviceOptions.default]) (by omega) (by omega)
      ⟨by simp [DeviceOptions.bicycle, DeviceOptions.default], by simp [DeviceOptions.bicycle, DeviceOptions.default]⟩
      ⟨by simp [DeviceOptions.bicycle, DeviceOptions.default], by simp [DeviceOptions.bicycle, DeviceOptions.default]⟩
      (by simp [DeviceOptions.bicycle, DeviceOptions.default]) (by simp [DeviceOptions.bicycle, DeviceOptions.default]) rfl rfl)
  | drone =>
    exact preset_some (new_ok L rnd _ 1 2500 5 150 0 100 (by simp [DeviceOptions.drone])
      (by simp [DeviceOptions.drone]) (by omega) (by omega) (by simp [DeviceOptions.drone])
      (by simp [DeviceOptions.drone]) (by omega) (by omega) (by omega)
      (by simp [DeviceOptions.drone, DeviceOptions.default])
      (by simp [DeviceOptions.drone, DeviceOptions.default]) (by omega) (by omega)
      ⟨by simp [DeviceOptions.drone, DeviceOptions.default], by simp [DeviceOptions.drone, DeviceOptions.default]⟩
      ⟨by simp [DeviceOptions.drone, DeviceOptions.default], by simp [DeviceOptions.drone, DeviceOptions.default]⟩
      (by simp [DeviceOptions.drone, DeviceOptions.default]) (by simp [DeviceOptions.drone, DeviceOptions.default]) rfl rfl)

/-- In particular with infinities and NaN among the numbers. -/
theorem presets_created_extended (p : Preset) (rnd : DeviceRnd (XNum ℝ)) :
    (p.create rnd).isSome = true := presets_created smallNumbers_extended p rnd

/-! Non-vacuity: a preset computed on rationals, and options that do fail. -/

example : (Preset.drone.create Toy.rnd).map (fun d => (d.speed.min.val, d.speed.max.val, d.state.description))
    = some (5, 150, "Drone tracker") := by decide +kernel
example : (Device.preset Toy.rnd { DeviceOptions.tracker with model := "x" }).isSome = false := by
  decide +kernel

end C33
end GpsGen
