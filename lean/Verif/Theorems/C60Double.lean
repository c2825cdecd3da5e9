import Verif.Theorems.C60
import Verif.Theorems.C27Double
import Verif.Theorems.C31Double
/-!
# C60 in IEEE doubles

With the rounding of `float64` the speed and the elevation leave their ranges by about one unit in the last place (see
`C27.Double.claim_fails` and `C28.Double.claim_fails`), so the claim of `C60` fails for them. What holds for every
device at every moment of its life, whatever the mathematical library computes: the published speed and elevation are
zero or finite numbers within the ranges of the options up to rounding; the published charge is zero or exactly between
the minimum and 100; the charge time, the offline ticks and the offline flag are exactly as in `C60`. Ticks are numbers
from zero on, also infinite ones; at every effective tick the average travel time must be positive and finite.
-/

namespace GpsGen
namespace C60
namespace Double
open F64 Device C28.Double C27.Double

attribute [local irreducible] Round64.rndQ Round64.pow2

/-! ## Specification -/

/-- The ranges of speed and elevation as rational numbers. -/
structure Ranges where
  speed : ℚ × ℚ
  elevation : ℚ × ℚ

/-- Options whose ranges are finite numbers that the constructors do not adjust. -/
structure Plain (g : Ranges) (o : DeviceOptions F64) : Prop where
  speedMin : Is o.speedMin g.speed.1
  speedMax : Is o.speedMax g.speed.2
  speed : 0 < g.speed.2
  elevationMin : Is o.elevationMin g.elevation.1
  elevationMax : Is o.elevationMax g.elevation.2
  elevation : g.elevation.1 ≤ g.elevation.2
  elevationPos : 0 < g.elevation.2
  battery : (o.batteryMin <=. o.batteryMax) = true
  chargeTime : 0 < o.chargeTime
  chargeFits : o.chargeTime < 2 ^ 63
  offline : o.offlineMin ≤ o.offlineMax
  offlineMax : 0 < o.offlineMax

/-- Ticks are numbers from zero on, random numbers lie in the unit interval. Restoring is a separate step. -/
def Legal : DevOp F64 → Prop
  | .next t r => ((lit 0 : F64) <=. t) = true ∧ (∀ i, Unit (r.speed i)) ∧ ∀ i, Unit (r.elevation i)
  | .fromSnapshot _ => False
  | _ => True

/-- The life of a device with options `o`. -/
inductive Life [MathLib] (o : DeviceOptions F64) : Device F64 → Prop
  | init {rnd d} (h1 : ∀ i, Unit (rnd.elevationDraws i)) (h2 : ∀ i, Unit (rnd.speedDraws i))
      (h : Device.new rnd (some o) = .ok d) : Life o d
  | step {d op d'} (hr : Life o d) (ho : Legal op) (h : d.step op = .ok d')
      (ha : C27.Double.Ticks d op → Positive d.avgT) : Life o d'
  | restore {d e d'} (hd : Life o d) (he : Life o e) (h : d.fromSnapshot e.snapshot = .ok d') : Life o d'

/-- Not yet published, or a finite number within a range up to rounding. -/
def ZeroOrNear (g : ℚ × ℚ) (f : F64) : Prop :=
  f = lit 0 ∨ ∃ v, Is f v ∧ g.1 - tol g.2 ≤ v ∧ v ≤ g.2 + tol g.2

/-- The published state is within the given ranges. -/
structure InRange (g : Ranges) (charge : F64) (chargeSeconds : Int) (offline : Int × Int) (skip : Bool)
    (st : DevState F64) : Prop where
  speed : ZeroOrNear g.speed st.speed
  elevation : ZeroOrNear g.elevation st.loc.elevation
  charge : st.charge = lit 0 ∨ (charge <=. st.charge) = true ∧ (st.charge <=. lit 100) = true
  chargeTime : st.chargeTime = 0 ∨ st.chargeTime = chargeSeconds
  offline : C60.Ticks skip offline.1 offline.2 st.offlineDuration
  isOffline : st.isOffline = true ↔ 0 < st.offlineDuration

/-- The claim of `C60` in doubles, for one mathematical library: the published speed leaves the range of the options at
no moment. -/
def Claim [MathLib] : Prop := ∀ (g : Ranges) (o : DeviceOptions F64) (d : Device F64), Plain g o → Life o d →
  d.state.speed = lit 0 ∨ (o.speedMin <=. d.state.speed) = true ∧ (d.state.speed <=. o.speedMax) = true

/-! ## Proof -/

/-- The invariant of the elevation sensor. -/
structure Elev (g : ℚ × ℚ) (s : Sensor F64) : Prop where
  curve : ∃ k, k ≤ 511 ∧ Good g.1 g.2 k s.gen
  val : ZeroOrNear g s.valY

/-- The invariant of the speed. -/
structure Spd (g : ℚ × ℚ) (s : Speed F64) : Prop where
  ok : Ok g.1 g.2 s
  val : ZeroOrNear g s.value

/-- The invariant of the battery. -/
structure Bat (o : DeviceOptions F64) (b : Battery F64) : Prop where
  ok : C31.Double.Ok b
  min : b.min = o.batteryMin
  time : b.chargeTime = o.chargeTime

/-- The invariant. -/
structure Held [MathLib] (g : Ranges) (o : DeviceOptions F64) (d : Device F64) : Prop where
  duration : ((lit 0 : F64) <=. d.state.duration) = true
  speed : Spd g.speed d.speed
  elev : Elev g.elevation d.navigator.elevation
  bat : Bat o d.battery
  off : Off o d.navigator
  shown : InRange g o.batteryMin (GoMath.toInt (durSeconds o.chargeTime : F64)) (o.offlineMin, o.offlineMax) o.skipOffline d.state

/-- What the constructors checked. -/
structure Checked (g : Ranges) (o : DeviceOptions F64) : Prop where
  speedMin : 0 ≤ g.speed.1
  elevationMin : 0 ≤ g.elevation.1
  elevationMax : g.elevation.2 ≤ 50000
  offlineMin : 0 ≤ o.offlineMin
  offlineMax : o.offlineMax ≤ 3600

variable {g : Ranges} {o : DeviceOptions F64}

theorem near_zeroOr {a b : ℚ} {f : F64} (h : Near a b f) : ZeroOrNear (a, b) f := by
  obtain ⟨v, h1, h2, h3, -⟩ := h
  exact Or.inr ⟨v, h1, h2, h3⟩

theorem elev_small (hp : Plain g o) (hc : Checked g o) :
    mag g.elevation.1 g.elevation.2 = g.elevation.2 ∧ mag g.elevation.1 g.elevation.2 ≤ 2 ^ (399 : ℤ) := by
  have e : mag g.elevation.1 g.elevation.2 = g.elevation.2 := by
    unfold mag
    rw [abs_of_nonneg hc.elevationMin, abs_of_nonneg hp.elevationPos.le]
    exact max_eq_right hp.elevation
  refine ⟨e, ?_⟩
  rw [e]
  have : (2 : ℚ) ^ (16 : ℤ) ≤ 2 ^ (399 : ℤ) := zpow_le_zpow_right₀ (by norm_num) (by norm_num)
  refine _root_.le_trans ?_ this
  have := hc.elevationMax
  norm_num
  linarith

theorem elev_next (hp : Plain g o) (hc : Checked g o) {s s' : Sensor F64} {t : F64} (h : Elev g.elevation s)
    (hn : s.next t = .ok s') (ht : Unit t) : Elev g.elevation s' := by
  obtain ⟨k, hk, hg⟩ := h.curve
  obtain ⟨e, hm⟩ := elev_small hp hc
  obtain ⟨τ, hτ, t0, t1⟩ := ht
  obtain ⟨c', hpt⟩ := CurveFold.point_eq s.gen k hg.len t
  obtain ⟨v, hv, v1, v2, -⟩ := good_value hg hk hm hτ t0 t1
  rw [e, min_eq_left hp.elevation] at v1
  rw [e, max_eq_right hp.elevation] at v2
  unfold Sensor.next at hn
  rw [hpt] at hn
  cases hn
  exact ⟨⟨k, hk, (C28.Double.good_point hg hpt).1⟩, Or.inr ⟨v, hv, v1, v2⟩⟩

theorem elev_shuffle (hp : Plain g o) (hc : Checked g o) {s : Sensor F64} (h : Elev g.elevation s) {draws : ℕ → F64}
    (hd : ∀ i, Unit (draws i)) : Elev g.elevation (s.shuffle draws) := by
  obtain ⟨k, hk, hg⟩ := h.curve
  exact ⟨⟨k, hk, C28.Double.good_shuffle hg (elev_small hp hc).2 hd⟩, h.val⟩

theorem next_elev [MathLib] (hp : Plain g o) (hc : Checked g o) {d d' : Device F64} {t : F64} {rnd : NextRnd F64} {b : Bool}
    (hd : ((lit 0 : F64) <=. d.state.duration) = true) (ht : ((lit 0 : F64) <=. t) = true)
    (hu : ∀ i, Unit (rnd.elevation i)) (ha : d.navigator.routes ≠ [] → Positive d.avgT)
    (h : Elev g.elevation d.navigator.elevation) (hn : d.next t rnd = .ok (d', b)) :
    Elev g.elevation d'.navigator.elevation := by
  have hsec := C27.Double.seconds_nonneg d ht
  have hpow : ∀ {s : F64} {x : UInt32} {n : Navigator F64}, d.powered s x = .ok n →
      n.elevation = d.navigator.elevation := by
    intro s x n hp
    rcases powered_step hp with rfl | hp
    · rfl
    · rcases Navigator.toOffline_cases hp with ⟨-, rfl⟩ | ⟨_, _, _, rfl⟩ <;> rfl
  have hfin : ∀ n : Navigator F64, n.isFinish.1.elevation = n.elevation := by
    intro n; unfold Navigator.isFinish; split <;> rfl
  cases next_outcome hn with
  | idle => exact h
  | halted _ n1 n2 speed h1 h2 h3 h4 =>
    have e : n2.isFinish.1.elevation = d.navigator.elevation :=
      (hfin n2).trans (((Navigator.nextLocation_routes h3).2.2.2).trans (hpow h1))
    show Elev g.elevation n2.isFinish.1.elevation
    rw [e]; exact h
  | lap _ n1 n2 speed _ h1 h2 h3 h4 h5 =>
    have e : n2.isFinish.1.elevation = d.navigator.elevation :=
      (hfin n2).trans (((Navigator.nextLocation_routes h3).2.2.2).trans (hpow h1))
    obtain ⟨-, e1, -⟩ := updateState_fresh h5
    rw [e1]
    show Elev g.elevation (n2.isFinish.1.elevation.shuffle _)
    rw [e]
    exact elev_shuffle hp hc h hu
  | moved hr n1 n2 n3 speed ss d2 _ h1 h2 h3 h4 h5 hd2 h6 =>
    obtain ⟨-, e1, -⟩ := updateState_fresh h6
    rw [e1]
    have e := (((Navigator.nextLocation_routes h3).2.2.2).trans (hpow h1))
    have hph := C27.Double.phase_unit hd hsec (ha hr)
    unfold Navigator.nextElevation at h4
    obtain ⟨el, h4e, h4⟩ := bind_eq_ok h4
    cases h4
    rw [e] at h4e
    have : Elev g.elevation el := elev_next hp hc h h4e hph
    subst hd2
    split <;> exact this

theorem bat_value {b : Battery F64} (h : Bat o b) :
    b.value = lit 0 ∨ (o.batteryMin <=. b.value) = true ∧ (b.value <=. lit 100) = true := by
  have := C31.Double.value_bounds h.ok
  rw [h.min] at this
  exact Or.inr this

theorem step_held [MathLib] {d d' : Device F64} {op : DevOp F64} (hp : Plain g o) (hc : Checked g o) (ho : Legal op)
    (h : Held g o d) (hs : d.step op = .ok d') (ha : C27.Double.Ticks d op → Positive d.avgT) : Held g o d' := by
  have hf : ∀ m, op ≠ .fromSnapshot m := by rintro m rfl; exact ho
  obtain ⟨hpath, hbat, hshow⟩ := step_parts hs hf
  have k4 : Off o d'.navigator := off_path hp.offline hp.offlineMax hc.offlineMin hc.offlineMax h.off hpath
  have k3 : Bat o d'.battery := by
    rcases hbat with e | ⟨tick, rnd, rfl, e⟩
    · rw [e]; exact h.bat
    · rw [e]
      have hsec := C27.Double.seconds_nonneg d ho.1
      unfold drained
      split
      · exact ⟨C31.Double.ok_reset (C31.Double.ok_next h.bat.ok hsec), h.bat.min, h.bat.time⟩
      · exact ⟨C31.Double.ok_next h.bat.ok hsec, h.bat.min, h.bat.time⟩
  have k1 : ((lit 0 : F64) <=. d'.state.duration) = true ∧ Spd g.speed d'.speed ∧ ZeroOrNear g.speed d'.state.speed ∧
      Elev g.elevation d'.navigator.elevation := by
    by_cases hn : ∃ t r, op = .next t r
    · obtain ⟨t, r, rfl⟩ := hn
      obtain ⟨⟨x, b⟩, hn, hd⟩ := map_eq_ok hs
      cases hd
      have ha' : d.navigator.routes ≠ [] → Positive d.avgT := fun hc => ha ⟨⟨t, r, rfl⟩, hc⟩
      obtain ⟨j1, j2, j3, j4⟩ := C27.Double.next_parts h.speed.ok hc.speedMin h.duration ho.1 ho.2.1 ha' hn
      have j5 := next_elev hp hc h.duration ho.1 ho.2.2 ha' h.elev hn
      by_cases hne : d.navigator.routes = []
      · have e := j3 hne
        show _ ∧ Spd _ x.speed ∧ ZeroOrNear _ x.state.speed ∧ _
        refine ⟨j2, ?_, ?_, j5⟩
        · rw [e]; exact h.speed
        · rw [e]; exact h.shown.speed
      · obtain ⟨b1, b2⟩ := j4 hne
        exact ⟨j2, ⟨j1, near_zeroOr b2⟩, near_zeroOr b1, j5⟩
    · have hn' : ∀ t r, op ≠ .next t r := fun t r e => hn ⟨t, r, e⟩
      obtain ⟨e1, e2⟩ := step_speed_frame hs hn' hf
      have e3 : d'.state.duration = d.state.duration := by
        by_cases hk : op = .skipTick
        · subst hk
          cases hs
          rfl
        · refine (C34.plain_frame ?_ hs).1
          cases op <;> first | trivial | exact hn ⟨_, _, rfl⟩
      rw [e1, e2, e3, step_elevation_frame hs hn' hf]
      exact ⟨h.duration, h.speed, h.shown.speed, h.elev⟩
  obtain ⟨k0, k1, k1', k2⟩ := k1
  refine ⟨k0, k1, k2, k3, k4, ?_⟩
  rcases hshow with hst | hfr
  · refine ⟨k1', by rw [hst.loc]; exact h.shown.elevation, by rw [hst.charge]; exact h.shown.charge,
      by rw [hst.chargeTime]; exact h.shown.chargeTime, ?_, ?_⟩
    · rcases hst.offline with ⟨e, -⟩ | ⟨e, -⟩
      · rw [e]; exact h.shown.offline
      · rw [e]; exact k4.index
    · rcases hst.offline with ⟨e1, e2⟩ | ⟨e1, e2⟩
      · rw [e1, e2]; exact h.shown.isOffline
      · rw [e1, e2]; simp
  · refine ⟨k1', by rw [hfr.elevation]; exact k2.val, by rw [hfr.charge]; exact bat_value k3,
      Or.inr (by rw [hfr.chargeTime, k3.time]), by rw [hfr.offlineDuration]; exact k4.index, ?_⟩
    rw [hfr.offlineDuration, hfr.isOffline]
    simp

theorem restore_held [MathLib] {d e d' : Device F64} (hp : Plain g o) (hc : Checked g o) (he : Held g o e)
    (h : d.fromSnapshot e.snapshot = .ok d') : Held g o d' := by
  obtain ⟨r1, r2⟩ := C27.restore_speed h
  have r3 := C27.Double.restore_duration h
  obtain ⟨n, speed, battery, sensors, d1, h1, h2, h3, h4, h5, rfl⟩ := fromSnapshotOnto_eq h
  obtain ⟨hf, e1, e2, -⟩ := updateState_fresh h5
  replace hf := fresh_updateRoutes hf
  have k3 : Bat o d1.updateRoutes.battery := by
    have : battery = e.battery := by
      rw [show Battery.fromSnapshot e.snapshot.battery = Battery.fromSnapshot (some e.battery.snapshot) from rfl,
        battery_round_trip] at h3
      cases h3; rfl
    have e2 : d1.updateRoutes.battery = battery := e2
    rw [e2, this]; exact he.bat
  simp only [Navigator.fromSnapshot, snapshot] at h1
  unfold Navigator.fromSnapshotOnto at h1
  obtain ⟨rs, hrs, h1⟩ := bind_eq_ok h1
  obtain ⟨pt, -, h1⟩ := bind_eq_ok h1
  obtain ⟨el, hel, h1⟩ := bind_eq_ok h1
  have hel' : el = e.navigator.elevation := by
    rw [show Sensor.fromSnapshot e.navigator.snapshot.elevation =
      Sensor.fromSnapshot (some e.navigator.elevation.snapshot) from rfl, sensor_round_trip] at hel
    cases hel; rfl
  have k2 : Elev g.elevation d1.updateRoutes.navigator.elevation := by
    show Elev g.elevation d1.navigator.elevation
    rw [e1]
    show Elev g.elevation n.elevation
    cases h1
    rw [hel']
    exact he.elev
  have k4 : Off o d1.updateRoutes.navigator := by
    have : Off o n := by
      cases h1
      refine ⟨he.off.skip, fun hk => ?_, he.off.index⟩
      have := he.off.rnd hk
      simp only [Navigator.snapshot, this, Bool.false_eq_true, if_false]
      rw [random_new hc.offlineMin hp.offlineMax]
    have e1 : d1.navigator = n := e1
    exact ⟨by rw [show d1.updateRoutes.navigator.skipOffline = d1.navigator.skipOffline from rfl, e1]; exact this.skip,
      by rw [show d1.updateRoutes.navigator.offline = d1.navigator.offline from rfl, e1]; exact this.rnd,
      by rw [show d1.updateRoutes.navigator.offlineIndex = d1.navigator.offlineIndex from rfl, e1]; exact this.index⟩
  refine ⟨by rw [r3]; exact he.duration, by rw [r1]; exact he.speed, k2, k3, k4, by rw [r2]; exact he.speed.val,
    by rw [hf.elevation]; exact k2.val, by rw [hf.charge]; exact bat_value k3,
    Or.inr (by rw [hf.chargeTime, k3.time]), by rw [hf.offlineDuration]; exact k4.index, ?_⟩
  rw [hf.offlineDuration, hf.isOffline]
  simp

theorem speed_start {draws : ℕ → F64} {amp : Int} {s : Speed F64} (hp : Plain g o) (hd : ∀ i, Unit (draws i))
    (h : Speed.new draws o.speedMin o.speedMax amp = .ok s) : Spd g.speed s ∧ 0 ≤ g.speed.1 := by
  have hb : C27.Double.bounds g.speed.1 g.speed.2 = (g.speed.1, g.speed.2) := by
    unfold C27.Double.bounds
    rw [if_neg (not_le.mpr hp.speed)]
  have hok := (C27.Double.ok_new hp.speedMin hp.speedMax hd h).1
  have h0 := C27.Double.bounds_nonneg (b := g.speed.2) hp.speedMin h
  rw [hb] at hok h0
  refine ⟨⟨hok, ?_⟩, h0⟩
  unfold Speed.value
  rw [is_static hok]
  by_cases he : g.speed.1 = g.speed.2
  · rw [if_pos (by simpa using he)]
    have := tol_nonneg hp.speed.le
    exact Or.inr ⟨g.speed.1, hok.lo, by linarith, by linarith⟩
  · rw [if_neg (by simpa using he)]
    left
    unfold Speed.new at h
    split at h
    · cases h
    split at h
    · cases h
    simp only at h
    generalize (if (o.speedMax <=. lit 0) = true then o.speedMin else o.speedMax) = mx at h
    split at h
    · cases h
    obtain ⟨_, -, h⟩ := bind_eq_ok h
    cases h
    rfl

theorem battery_start {b : Battery F64} (hp : Plain g o)
    (h : Battery.new o.batteryMin o.batteryMax o.chargeTime = .ok b) : Bat o b := by
  have hn := ne_nan_left hp.battery
  have hm := ne_nan_right hp.battery
  have hx : ((lit 0 : F64) <=. o.batteryMax) = true := by
    have h' := h
    unfold Battery.new at h'
    split at h'
    · cases h'
    rename_i hlo
    exact F64.le_trans (le_of_not_lt hn (round_ne_nan _ _) hlo) hp.battery
  have hct := hp.chargeTime
  obtain ⟨ok, -, -, -, e⟩ := C31.Double.ok_new hn hm hx h (by omega) hp.chargeFits
  refine ⟨ok, e hp.battery, ?_⟩
  unfold Battery.new at h
  split at h
  · cases h
  split at h
  · cases h
  cases h
  show (if o.chargeTime < 0 then _ else _) = _
  rw [if_neg (by omega)]

theorem navigator_start {uid : String} {draws : ℕ → F64} {n : Navigator F64} (hp : Plain g o) (hd : ∀ i, Unit (draws i))
    (h : Navigator.new uid draws o.navOpts = .ok n) (hs : 0 ≤ g.speed.1) :
    Elev g.elevation n.elevation ∧ Off o n ∧ Checked g o := by
  obtain ⟨o1, o2, s, h1, h2, h3, rfl⟩ := new_cases h
  have hopt : o.navOpts.foldl NavOptions.apply NavOptions.default =
      ⟨o.elevationMin, o.elevationMax, o.elevationMode, o.offlineMin, o.offlineMax,
        o.elevationAmplitude, o.skipOffline⟩ := by
    unfold DeviceOptions.navOpts
    cases o.skipOffline <;> rfl
  have p1 := hp.offline
  have p2 := hp.offlineMax
  rw [hopt] at h1
  unfold NavOptions.validateOffline at h1
  simp only [if_neg (by omega : ¬ o.offlineMin > o.offlineMax),
    if_neg (by omega : ¬ (o.offlineMin = 0 ∧ o.offlineMax = 0))] at h1
  split at h1
  · cases h1
  rename_i c1
  split at h1
  · cases h1
  rename_i c2
  cases h1
  obtain ⟨z0, w0, e0⟩ := lit_fin (q := 0) 0 (by norm_num) (by norm_num)
  obtain ⟨z1, w1, e1⟩ := lit_fin (q := 50000) 50000 (by norm_num) (by norm_num)
  obtain ⟨s1, r1, q1⟩ := hp.elevationMin
  obtain ⟨s2, r2, q2⟩ := hp.elevationMax
  unfold NavOptions.validateElevation at h2
  rw [e0, e1] at h2
  simp only [q1, q2, fin_lt] at h2
  split at h2
  · cases h2
  rename_i g1
  split at h2
  · cases h2
  rename_i g2
  simp only [decide_eq_true_eq, not_lt] at g1 g2
  have n1 : ¬ g.elevation.2 < g.elevation.1 := not_lt.mpr hp.elevation
  have n2 : ¬ g.elevation.2 = 0 := hp.elevationPos.ne'
  simp only [n1, n2, decide_false, Bool.and_false, Bool.false_eq_true, if_false, fin_lt, fin_eq] at h2
  cases h2
  have hc : Checked g o := ⟨hs, g1, g2, by omega, by omega⟩
  simp only at h3
  unfold Sensor.new at h3
  obtain ⟨_, hv, h3⟩ := bind_eq_ok h3
  rw [if_neg (by decide)] at h3
  cases h3
  have hv := validateAmplitude_ok hv
  refine ⟨⟨⟨o.elevationAmplitude.toNat - 1, by omega, ?_⟩, Or.inl rfl⟩, ⟨rfl, fun hk => ?_, ?_⟩, hc⟩
  · have := good_make hp.elevationMin hp.elevationMax (elev_small hp hc).2 hd
      (normSensorMode o.elevationMode) (o.elevationAmplitude.toNat - 1)
    rw [show o.elevationAmplitude.toNat - 1 + 1 = o.elevationAmplitude.toNat by omega] at this
    show Good _ _ _ (Curve.new _ _ o.elevationAmplitude (normSensorMode o.elevationMode) draws)
    unfold Curve.new
    rw [if_neg (by omega), ← q1, ← q2]
    exact this
  · simp only [newState, hk, Bool.false_eq_true, if_false]
    rw [random_new (by omega) p2]
  · exact ⟨le_rfl, fun _ => rfl, by show (0 : Int) ≤ _; omega, fun _ => p2⟩

/-- A new device has the ranges of its options; its published state is still empty. -/
theorem new_held [MathLib] {rnd : DeviceRnd F64} {d : Device F64} (hp : Plain g o) (hu1 : ∀ i, Unit (rnd.elevationDraws i))
    (hu2 : ∀ i, Unit (rnd.speedDraws i)) (h : Device.new rnd (some o) = .ok d) : Held g o d ∧ Checked g o := by
  have hdur := C27.Double.new_duration h
  obtain ⟨n, s, b, st, h1, h2, h3, h4, rfl⟩ := Device.new_eq h
  obtain ⟨_, _, rfl, -⟩ := applyFor_eq h4
  obtain ⟨k0, hs⟩ := speed_start hp hu2 h2
  obtain ⟨k1, k2, k3⟩ := navigator_start hp hu1 h1 hs
  have p2 := hp.offlineMax
  refine ⟨⟨?_, k0, k1, battery_start hp h3, k2, Or.inl rfl, Or.inl rfl, Or.inl rfl, Or.inl rfl,
    ⟨le_rfl, fun _ => rfl, by show (0 : Int) ≤ _; simp only; omega, fun _ => p2⟩, by
      show false = true ↔ (0 : Int) < 0
      simp⟩, k3⟩
  rw [hdur]
  exact F64.le_refl (round_ne_nan _ _)

theorem life_held [MathLib] {d : Device F64} (hp : Plain g o) (h : Life o d) : Held g o d ∧ Checked g o := by
  induction h with
  | init h1 h2 h => exact new_held hp h1 h2 h
  | step hr ho h ha ih => exact ⟨step_held hp ih.2 ho ih.1 h ha, ih.2⟩
  | restore hd he h _ ih2 => exact ⟨restore_held hp ih2.2 ih2.1 h, ih2.2⟩

/-! ## The claims -/

/-- **C60 in doubles.** Everything a device publishes lies within the ranges of its options: the charge and the offline
ticks exactly, the speed and the elevation up to rounding; the charge time `c` is exact if it is a number of whole
seconds, otherwise it is rounded to one of the two next to it. -/
theorem in_range_partial [MathLib] (g : Ranges) (o : DeviceOptions F64) (d : Device F64) (hp : Plain g o) (h : Life o d) :
    ∃ c, (c = o.chargeTime.tdiv 1000000000 ∨ c = o.chargeTime.tdiv 1000000000 + 1) ∧
      (o.chargeTime.tmod 1000000000 = 0 → c = o.chargeTime.tdiv 1000000000) ∧
      InRange g o.batteryMin c (o.offlineMin, o.offlineMax) o.skipOffline d.state :=
  ⟨_, (C31.Double.whole_seconds hp.chargeTime hp.chargeFits).1, (C31.Double.whole_seconds hp.chargeTime hp.chargeFits).2,
    (life_held hp h).1.shown⟩

/-- A charge time of 16777216 whole seconds and 999999999 nanoseconds is published as 16777217 seconds. -/
theorem rounded_up [MathLib] : GoMath.toInt (durSeconds 16777216999999999 : F64) = 16777217 := by
  have e : (durSeconds 16777216999999999 : F64) = lit 16777217 := by decide +kernel
  obtain ⟨r, e'⟩ := lit_int (q := 16777217) 16777217 (by norm_num) (by norm_num)
  rw [e, e']
  show (if |(16777217 : ℚ)| < Round64.pow2 63 then trunc 16777217 else _) = _
  rw [if_pos (by rw [Round64.pow2_eq]; norm_num)]
  norm_num [trunc]

/-! ### The exact claim fails -/

/-- A device in doubles on a route, ticked once: a life. -/
theorem ticked_life {mn mx r : ℚ} (h0 : 0 ≤ r) (h1 : r ≤ 1) {d0 d1 d2 : Device F64}
    (n0 : Device.new (ToyF64.rnd (lit r)) (some (ToyF64.opts (lit mn) (lit mx))) = .ok d0)
    (n1 : d0.step (.addRoute [some ToyF64.route]) = .ok d1)
    (n2 : d1.step (.next (lit 1) ToyF64.nextRnd) = .ok d2)
    (ha : Positive d1.avgT) : Life (ToyF64.opts (lit mn) (lit mx)) d2 := by
  have i0 : Life (ToyF64.opts (lit mn) (lit mx)) d0 :=
    .init (fun _ => unit_lit (q := 0) (by norm_num) (by norm_num)) (fun _ => unit_lit h0 h1) n0
  have i1 := Life.step i0 (op := .addRoute [some ToyF64.route]) trivial n1
    (fun hc => by obtain ⟨⟨_, _, hc⟩, -⟩ := hc; cases hc)
  exact Life.step i1 (op := .next (lit 1) ToyF64.nextRnd)
    ⟨by decide +kernel, fun _ => unit_lit (q := 0) (by norm_num) (by norm_num),
      fun _ => unit_lit (q := 0) (by norm_num) (by norm_num)⟩ n2 fun _ => ha

theorem witness_life : ∃ d, C27.Double.witness = some d ∧ Life (ToyF64.opts (lit (1 / 2)) (lit 1)) d ∧
    (d.state.speed <=. lit 1) = false ∧ d.state.speed ≠ lit 0 := by
  have h : ((Device.new (ToyF64.rnd (lit (1 - 1 / 2 ^ 53))) (some (ToyF64.opts (lit (1 / 2)) (lit 1)))).toOption.any
      fun d0 => (d0.step (.addRoute [some ToyF64.route])).toOption.any fun d1 =>
        (d1.step (.next (lit 1) ToyF64.nextRnd)).toOption.any fun d2 =>
          (lit 1 <=. d1.avgT) && decide (d1.avgT ≠ .inf false) && !(d2.state.speed <=. lit 1) &&
            decide (d2.state.speed ≠ lit 0)) = true := by decide +kernel
  unfold C27.Double.witness ToyF64.dev
  cases n0 : Device.new (ToyF64.rnd (lit (1 - 1 / 2 ^ 53))) (some (ToyF64.opts (lit (1 / 2)) (lit 1))) with
  | error _ => rw [n0] at h; cases h
  | ok d0 =>
    simp only [n0, Except.toOption, Option.any_some] at h
    cases n1 : d0.step (.addRoute [some ToyF64.route]) with
    | error _ => rw [n1] at h; cases h
    | ok d1 =>
      simp only [n1, Option.any_some] at h
      cases n2 : d1.step (.next (lit 1) ToyF64.nextRnd) with
      | error _ => rw [n2] at h; cases h
      | ok d2 =>
        simp only [n2, Option.any_some, Bool.and_eq_true, decide_eq_true_eq, Bool.not_eq_true'] at h
        refine ⟨d2, by simp only [Device.run, n1, n2, bind, Except.bind], ?_, h.1.2, h.2⟩
        refine ticked_life (r := 1 - 1 / 2 ^ 53) (by norm_num) (by norm_num) n0 n1 n2 ?_
        obtain ⟨r1, e1⟩ := lit_nat (q := 1) (1 : ℤ) (by norm_num) (by norm_num) (by norm_num)
        have h0 : ((lit 0 : F64) <=. d1.avgT) = true := F64.le_trans (by decide +kernel) h.1.1.1
        rcases nonneg_cases h0 with ⟨z, q, r, e, -⟩ | e
        · have hl := h.1.1.1
          rw [e, e1, fin_le, decide_eq_true_eq] at hl
          exact ⟨q, ⟨z, r, e⟩, by linarith⟩
        · exact absurd e h.1.1.2

theorem witness_plain : Plain ⟨(1 / 2, 1), (10, 300)⟩ (ToyF64.opts (lit (1 / 2)) (lit 1)) := by
  have half : Is (lit (1 / 2)) (1 / 2) := by
    have hq : |(1 / 2 : ℚ)| ≤ (1 : ℤ) := by norm_num
    obtain ⟨r, e⟩ := round_small false (by norm_num) hq
    have he : Round64.rndQ (1 / 2) = 1 / 2 := by
      exact Round64.rndQ_rep 1 (-1) (by norm_num) (by norm_num) (by norm_num)
    exact ⟨_, he ▸ r, by rw [show (lit (1 / 2) : F64) = _ from e]; congr⟩
  exact ⟨half, lit_fin 1 (by norm_num) (by norm_num), by norm_num, lit_fin 10 (by norm_num) (by norm_num),
    lit_fin 300 (by norm_num) (by norm_num), by norm_num, by norm_num, by decide +kernel, by decide, by decide, by decide,
    by decide⟩

/-- The exact claim fails: speeds between 0.5 and 1, one tick of one second. -/
theorem claim_fails : ∃ _ : MathLib, ¬ Claim := by
  refine ⟨ToyF64.crude, fun h => ?_⟩
  obtain ⟨d, -, h1, h2, h3⟩ := witness_life
  rcases h _ _ d witness_plain h1 with h4 | ⟨-, h4⟩
  · exact h3 h4
  · rw [show (d.state.speed <=. lit 1) = true from h4] at h2
    cases h2

/-! ### The presets -/

/-- A preset tracker: its options and its documented ranges. -/
structure Preset where
  options : DeviceOptions F64
  ranges : Ranges
  chargeHours : Int
  skip : Bool

/-- The five presets and the options used when none are given. -/
def presets : List Preset :=
  [⟨.default, ⟨(1, 2), (10, 300)⟩, 7, false⟩, ⟨.tracker, ⟨(1, 5), (0, 350)⟩, 8, false⟩,
   ⟨.kids, ⟨(1, 2), (0, 50)⟩, 6, false⟩, ⟨.dog, ⟨(1, 3), (1, 10)⟩, 2, false⟩,
   ⟨.bicycle, ⟨(2, 8), (1, 125)⟩, 12, false⟩, ⟨.drone, ⟨(5, 150), (1, 2500)⟩, 3, true⟩]

/-- Whatever a preset tracker publishes, at any moment of its life, lies within its documented ranges up to rounding. A
drone is never offline, the others for at most 59 ticks. -/
theorem presets_in_range_partial [MathLib] (p : Preset) (hp : p ∈ presets) (d : Device F64) (h : Life p.options d) :
    InRange p.ranges (lit 0) (p.chargeHours * 3600) (2, 60) p.skip d.state := by
  have key : ∀ o : DeviceOptions F64, Life o d → Plain p.ranges o → o.batteryMin = lit 0 →
      o.chargeTime.tdiv 1000000000 = p.chargeHours * 3600 → o.chargeTime.tmod 1000000000 = 0 →
      (o.offlineMin, o.offlineMax) = (2, 60) →
      o.skipOffline = p.skip → InRange p.ranges (lit 0) (p.chargeHours * 3600) (2, 60) p.skip d.state := by
    intro o h hpl e3 e4 e4' e5 e6
    obtain ⟨c, -, hc, this⟩ := in_range_partial _ o d hpl h
    rw [hc e4', e3, e4, e5, e6] at this
    exact this
  simp only [presets, List.mem_cons, List.not_mem_nil, or_false] at hp
  rcases hp with rfl | rfl | rfl | rfl | rfl | rfl <;>
  · refine key _ h ⟨lit_fin _ (by rfl) (by norm_num), lit_fin _ (by rfl) (by norm_num), ?_,
      lit_fin _ (by rfl) (by norm_num), lit_fin _ (by rfl) (by norm_num), ?_, ?_,
      (by decide +kernel), (by decide), (by decide), (by decide), (by decide)⟩ rfl rfl rfl rfl rfl <;>
      norm_num

end Double
end C60
end GpsGen
