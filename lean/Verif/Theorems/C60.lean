import Verif.Lemmas.DevicePub
import Verif.Lemmas.Seconds
import Verif.Theorems.C14
import Verif.Theorems.C15
import Verif.Theorems.C27
import Verif.Theorems.C28Device
/-!
# C60: a device stays within the ranges of its options for its whole life

Exact arithmetic. A device is created with given options and driven through any public operations with non-negative
ticks while its routes have positive length; it may be restored from snapshots of such devices. Whatever it
publishes, at any moment, lies within the ranges of the options. The preset trackers are listed with their
documented ranges.
-/

namespace GpsGen
namespace C60
open Device

/-! ## Specification -/

/-- Options whose ranges are not adjusted by the constructors: ordered, non-negative, not zero. -/
structure Plain (o : DeviceOptions ℝ) : Prop where
  speedMin : 0 ≤ o.speedMin
  speed : o.speedMin ≤ o.speedMax
  speedMax : 0 < o.speedMax
  elevation : o.elevationMin ≤ o.elevationMax
  elevationMax : 0 < o.elevationMax
  battery : o.batteryMin ≤ o.batteryMax
  chargeTime : 0 < o.chargeTime
  offline : o.offlineMin ≤ o.offlineMax
  offlineMax : 0 < o.offlineMax

/-- The life of a device with options `o`. -/
inductive Life (o : DeviceOptions ℝ) : Device ℝ → Prop
  | init {rnd d} (h1 : UnitDraws rnd.elevationDraws) (h2 : UnitDraws rnd.speedDraws)
      (h : Device.new rnd (some o) = .ok d) : Life o d
  | step {d op d'} (hr : Life o d) (ho : SaneOp op) (h : d.step op = .ok d')
      (hl : ∀ r ∈ d'.navigator.routes, 0 < r.dist) : Life o d'
  | restore {d e d'} (hd : Life o d) (he : Life o e) (h : d.fromSnapshot e.snapshot = .ok d')
      (hl : ∀ r ∈ d'.navigator.routes, 0 < r.dist) : Life o d'

/-- Not yet published, or within a range. -/
def ZeroOr (a b v : ℝ) : Prop := v = 0 ∨ a ≤ v ∧ v ≤ b

/-- A number of ticks that a device may still be offline: none for devices that skip offline periods, otherwise
less than the upper bound (which is reached only when both bounds coincide). -/
def Ticks (skip : Bool) (a b v : Int) : Prop :=
  0 ≤ v ∧ (skip = true → v = 0) ∧ v ≤ b ∧ (a < b → v < b)

/-- The published state is within the given ranges. -/
structure InRange (speed elevation : ℝ × ℝ) (charge : ℝ) (chargeSeconds : Int) (offline : Int × Int) (skip : Bool)
    (st : DevState ℝ) : Prop where
  speed : ZeroOr speed.1 speed.2 st.speed
  elevation : ZeroOr elevation.1 elevation.2 st.loc.elevation
  charge : ZeroOr charge 100 st.charge
  chargeTime : st.chargeTime = 0 ∨ st.chargeTime = chargeSeconds
  offline : Ticks skip offline.1 offline.2 st.offlineDuration
  isOffline : st.isOffline = true ↔ 0 < st.offlineDuration

/-! ## Proof -/

theorem life_reach {o : DeviceOptions ℝ} {d : Device ℝ} (h : Life o d) : Reach d := by
  induction h with
  | init h1 h2 h => exact .init h1 h2 h
  | step _ ho h hl ih => exact .step ih ho h hl
  | restore _ _ h hl ih1 ih2 => exact .restore ih1 ih2 h hl

/-- The invariant of the elevation sensor. -/
structure Elev (o : DeviceOptions ℝ) (s : Sensor ℝ) : Prop where
  min : s.min = o.elevationMin
  max : s.max = o.elevationMax
  val : ZeroOr o.elevationMin o.elevationMax s.valY

/-- The invariant of the speed. -/
structure Spd (o : DeviceOptions ℝ) (s : Speed ℝ) : Prop where
  min : s.min = o.speedMin
  max : s.max = o.speedMax
  val : ZeroOr o.speedMin o.speedMax s.value

/-- The invariant of the battery. -/
structure Bat (o : DeviceOptions ℝ) (b : Battery ℝ) : Prop where
  min : b.min = o.batteryMin
  time : b.chargeTime = o.chargeTime
  val : 0 ≤ b.val

/-- The invariant of the offline settings. -/
structure Off {F : Type} (o : DeviceOptions F) (n : Navigator F) : Prop where
  skip : n.skipOffline = o.skipOffline
  rnd : o.skipOffline = false → n.offline = some ⟨o.offlineMin, o.offlineMax⟩
  index : Ticks o.skipOffline o.offlineMin o.offlineMax n.offlineIndex

/-- The invariant. -/
structure Held (o : DeviceOptions ℝ) (d : Device ℝ) : Prop where
  speed : Spd o d.speed
  elev : Elev o d.navigator.elevation
  bat : Bat o d.battery
  off : Off o d.navigator
  shown : InRange (o.speedMin, o.speedMax) (o.elevationMin, o.elevationMax) o.batteryMin
    (o.chargeTime.tdiv 1000000000) (o.offlineMin, o.offlineMax) o.skipOffline d.state

variable {o : DeviceOptions ℝ}

theorem bat_value (hp : Plain o) (h100 : o.batteryMax ≤ 100) {b : Battery ℝ} (h : Bat o b) :
    ZeroOr o.batteryMin 100 b.value := by
  right
  unfold Battery.value
  rw [durSeconds_real]
  simp only [real_lt, real_sub, real_div, real_mul, real_lit, h.min, h.time, decide_eq_true_eq]
  have hc : (0 : ℝ) < (o.chargeTime : ℝ) / 1000000000 := by
    have := hp.chargeTime
    have : (0 : ℝ) < o.chargeTime := by exact_mod_cast this
    positivity
  have hv := h.val
  have hq : 0 ≤ b.val / ((o.chargeTime : ℝ) / 1000000000) := by positivity
  push_cast
  have := hp.battery
  split
  · exact ⟨le_rfl, by linarith⟩
  · rename_i hn
    exact ⟨by linarith, by linarith⟩

theorem off_step {F : Type} [GoMath F] {o : DeviceOptions F} {n n' : Navigator F} {op : NavOp F}
    (hp1 : o.offlineMin ≤ o.offlineMax) (hp2 : 0 < o.offlineMax) (h0 : 0 ≤ o.offlineMin) (h3600 : o.offlineMax ≤ 3600) (h : Off o n) (hs : n.step op = .ok n') : Off o n' := by
  have hf := Navigator.step_offline_frame hs
  have hi := h.index
  unfold Ticks at hi
  refine ⟨hf.skip.trans h.skip, fun hk => hf.offline.trans (h.rnd hk), ?_⟩
  unfold Ticks
  cases hf.change with
  | keep e => rw [e]; exact h.index
  | zero e => rw [e]; exact ⟨le_rfl, fun _ => rfl, by omega, fun _ => by omega⟩
  | dec h1 h2 h3 =>
    rw [h3]
    have hk : o.skipOffline = false := h.skip.symm.trans h1
    exact ⟨by omega, fun hc => by rw [hk] at hc; (cases hc), by omega, fun hc => by have := hi.2.2.2 hc; omega⟩
  | draw h1 r x h2 h3 =>
    have hk : o.skipOffline = false := h.skip.symm.trans h1
    rw [h.rnd hk] at h2
    cases h2
    have := C15.value_bounds ⟨o.offlineMin, o.offlineMax⟩ x hp1 (by simp only; omega)
    simp only at this
    rw [h3]
    exact ⟨by omega, fun hc => by rw [hk] at hc; (cases hc), this.2.1, this.2.2⟩

theorem off_path {F : Type} [GoMath F] {o : DeviceOptions F} {n n' : Navigator F}
    (hp1 : o.offlineMin ≤ o.offlineMax) (hp2 : 0 < o.offlineMax) (h0 : 0 ≤ o.offlineMin) (h3600 : o.offlineMax ≤ 3600) (h : Off o n) (p : NavPath n n') : Off o n' :=
  p.induct (P := Off o) (fun _ _ _ hn hs => off_step hp1 hp2 h0 h3600 hn hs) (fun _ hn => ⟨hn.1, hn.2, hn.3⟩) h

/-- Operations other than `Next` and `FromSnapshot` leave the elevation sensor alone. -/
theorem step_elevation_frame {F : Type} [GoMath F] {d d' : Device F} {op : DevOp F} (hs : d.step op = .ok d')
    (h1 : ∀ t r, op ≠ .next t r) (h2 : ∀ m, op ≠ .fromSnapshot m) :
    d'.navigator.elevation = d.navigator.elevation := by
  have nav : ∀ {op : NavOp F} {n : Navigator F}, d.navigator.step op = .ok n → (∀ t, op ≠ .nextElevation t) →
      (∀ f, op ≠ .shuffleElevation f) → n.elevation = d.navigator.elevation := by
    intro op n h g1 g2
    rcases Navigator.step_elevation h with h | ⟨t, rfl⟩ | ⟨f, rfl⟩
    · exact h
    · exact absurd rfl (g1 t)
    · exact absurd rfl (g2 f)
  cases op with
  | addRoute rs =>
    cases hs
    have hn : d.navigator.step (.addRoute rs) = .ok (d.navigator.addRoute rs).1 := rfl
    replace hn := nav hn (by simp) (by simp)
    unfold Device.addRoute
    revert hn
    rcases d.navigator.addRoute rs with ⟨n, _ | e⟩ <;> exact fun hn => hn
  | removeRoute id =>
    cases hs
    have hn : d.navigator.step (.removeRoute id) = .ok (d.navigator.removeRoute id).1 := rfl
    replace hn := nav hn (by simp) (by simp)
    unfold Device.removeRoute
    revert hn
    rcases d.navigator.removeRoute id with ⟨n, _ | _⟩ <;> exact fun hn => hn
  | removeTrack r t =>
    cases hs
    have hn : d.navigator.step (.removeTrack r t) = .ok (d.navigator.removeTrack r t).1 := rfl
    replace hn := nav hn (by simp) (by simp)
    unfold Device.removeTrack
    revert hn
    rcases d.navigator.removeTrack r t with ⟨n, _ | _⟩ <;> exact fun hn => hn
  | resetRoutes =>
    cases hs
    have hn : d.navigator.step .resetRoutes = .ok d.navigator.resetRoutes.1 := rfl
    replace hn := nav hn (by simp) (by simp)
    unfold Device.resetRoutes
    revert hn
    rcases d.navigator.resetRoutes with ⟨n, _ | _⟩ <;> exact fun hn => hn
  | move m =>
    obtain ⟨n, hn, rfl⟩ := map_eq_ok hs
    exact nav hn (by cases m <;> simp [DevMove.navOp]) (by cases m <;> simp [DevMove.navOp])
  | onRoute i op =>
    replace hs : (d.navigator.step (.onRoute i op)).map (fun n => { d with navigator := n }) = .ok d' := hs
    obtain ⟨n, hn, rfl⟩ := map_eq_ok hs
    exact nav hn (by simp) (by simp)
  | addSensor ss =>
    cases hs
    unfold Device.addSensor
    split
    · rfl
    · simp only
      split <;> rfl
  | removeSensor id =>
    cases hs
    unfold Device.removeSensor
    split
    · rfl
    · simp only
      split <;> rfl
  | resetSensors => cases hs; rfl
  | sensorNext i t =>
    replace hs : d.onSensorNext i t = .ok d' := hs
    unfold Device.onSensorNext at hs
    split at hs
    · cases hs; rfl
    · obtain ⟨s, -, hs⟩ := bind_eq_ok hs
      cases hs; rfl
  | sensorShuffle i draws => cases hs; rfl
  | next tick rnd => exact absurd rfl (h1 tick rnd)
  | skipTick => cases hs; rfl
  | update =>
    obtain ⟨st, hst, rfl⟩ := update_eq hs
    rfl
  | setModel s =>
    cases hs
    unfold Device.setModel
    split <;> rfl
  | setUserID s => cases hs; rfl
  | setDescription s => cases hs; rfl
  | setColor c => cases hs; cases c <;> rfl
  | fromSnapshot m => exact absurd rfl (h2 m)

theorem zeroOr_within (hle : o.elevationMin ≤ o.elevationMax) {s s' : Sensor ℝ} {t : ℝ} (hg : GoodSensor s)
    (h : Elev o s) (hn : s.next t = .ok s') (h0 : 0 ≤ t) (h1 : t ≤ 1) : Elev o s' := by
  obtain ⟨-, p2, p3, p4⟩ := sensor_next_good hg hn
  have := p4 h0 h1
  rw [h.min, h.max, min_eq_left hle, max_eq_right hle] at this
  exact ⟨p2.trans h.min, p3.trans h.max, Or.inr this⟩

theorem next_elev {d d' : Device ℝ} {tick : ℝ} {rnd : NextRnd ℝ} {b : Bool} (hle : o.elevationMin ≤ o.elevationMax)
    (hi : Inv d) (ht : 0 ≤ tick) (h : Elev o d.navigator.elevation) (hn : d.next tick rnd = .ok (d', b)) :
    Elev o d'.navigator.elevation := by
  have hsec := seconds_nonneg d ht
  have hpow : ∀ {s : ℝ} {x : UInt32} {n : Navigator ℝ}, d.powered s x = .ok n →
      n.elevation = d.navigator.elevation := by
    intro s x n hp
    rcases powered_step hp with rfl | hp
    · rfl
    · rcases Navigator.toOffline_cases hp with ⟨-, rfl⟩ | ⟨_, _, _, rfl⟩ <;> rfl
  have hfin : ∀ n : Navigator ℝ, n.isFinish.1.elevation = n.elevation := by
    intro n; unfold Navigator.isFinish; split <;> rfl
  cases next_outcome hn with
  | idle => exact h
  | halted _ n1 n2 speed h1 h2 h3 h4 =>
    have e : n2.isFinish.1.elevation = d.navigator.elevation :=
      (hfin n2).trans (((Navigator.nextLocation_routes h3).2.2.2).trans (hpow h1))
    show Elev o n2.isFinish.1.elevation
    rw [e]; exact h
  | lap _ n1 n2 speed _ h1 h2 h3 h4 h5 =>
    have e : n2.isFinish.1.elevation = d.navigator.elevation :=
      (hfin n2).trans (((Navigator.nextLocation_routes h3).2.2.2).trans (hpow h1))
    obtain ⟨-, e1, -⟩ := updateState_fresh h5
    rw [e1]
    show Elev o (n2.isFinish.1.elevation.shuffle _)
    rw [e]
    exact ⟨h.min, h.max, h.val⟩
  | moved hr n1 n2 n3 speed ss d2 _ h1 h2 h3 h4 h5 hd2 h6 =>
    obtain ⟨-, e1, -⟩ := updateState_fresh h6
    rw [e1]
    have e := (((Navigator.nextLocation_routes h3).2.2.2).trans (hpow h1))
    obtain ⟨p0, p1⟩ := phase_unit hi hr hsec
    unfold Navigator.nextElevation at h4
    obtain ⟨el, h4e, h4⟩ := bind_eq_ok h4
    cases h4
    rw [e] at h4e
    have : Elev o el := zeroOr_within hle hi.nav.elev h h4e p0 p1
    subst hd2
    split <;> exact this

theorem shown_step {d d' : Device ℝ} {op : DevOp ℝ} (hp : Plain o) (h100 : o.batteryMax ≤ 100)
    (h : InRange (o.speedMin, o.speedMax) (o.elevationMin, o.elevationMax) o.batteryMin
      (o.chargeTime.tdiv 1000000000) (o.offlineMin, o.offlineMax) o.skipOffline d.state)
    (hs : d.step op = .ok d') (hf : ∀ m, op ≠ .fromSnapshot m)
    (h1 : ZeroOr o.speedMin o.speedMax d'.state.speed) (h2 : Elev o d'.navigator.elevation)
    (h3 : Bat o d'.battery) (h4 : Off o d'.navigator) :
    InRange (o.speedMin, o.speedMax) (o.elevationMin, o.elevationMax) o.batteryMin
      (o.chargeTime.tdiv 1000000000) (o.offlineMin, o.offlineMax) o.skipOffline d'.state := by
  obtain ⟨-, -, hst | hfr⟩ := step_parts hs hf
  · refine ⟨h1, by rw [hst.loc]; exact h.elevation, by rw [hst.charge]; exact h.charge,
      by rw [hst.chargeTime]; exact h.chargeTime, ?_, ?_⟩
    · rcases hst.offline with ⟨e, -⟩ | ⟨e, -⟩
      · rw [e]; exact h.offline
      · rw [e]; exact h4.index
    · rcases hst.offline with ⟨e1, e2⟩ | ⟨e1, e2⟩
      · rw [e1, e2]; exact h.isOffline
      · rw [e1, e2]; simp
  · refine ⟨h1, by rw [hfr.elevation]; exact h2.val, by rw [hfr.charge]; exact bat_value hp h100 h3,
      Or.inr (by rw [hfr.chargeTime, h3.time, wholeSeconds_real]), by rw [hfr.offlineDuration]; exact h4.index, ?_⟩
    rw [hfr.offlineDuration, hfr.isOffline]
    simp

theorem next_held {d d' : Device ℝ} {op : DevOp ℝ} (hp : Plain o) (h100 : o.batteryMax ≤ 100)
    (h0 : 0 ≤ o.offlineMin) (h3600 : o.offlineMax ≤ 3600) (hi : Inv d) (ho : SaneOp op) (h : Held o d)
    (hs : d.step op = .ok d') : Held o d' := by
  have hf : ∀ m, op ≠ .fromSnapshot m := by rintro m rfl; exact ho
  obtain ⟨hpath, hbat, -⟩ := step_parts hs hf
  have k4 : Off o d'.navigator := off_path hp.offline hp.offlineMax h0 h3600 h.off hpath
  have k3 : Bat o d'.battery := by
    rcases hbat with e | ⟨tick, rnd, rfl, e⟩
    · rw [e]; exact h.bat
    · rw [e]
      have hsec := seconds_nonneg d ho.1
      have hv := h.bat.val
      unfold drained
      split
      · exact ⟨h.bat.min, h.bat.time, by show (0 : ℝ) ≤ lit 0; simp⟩
      · refine ⟨h.bat.min, h.bat.time, ?_⟩
        show (0 : ℝ) ≤ d.battery.val +. d.seconds tick
        simp only [real_add]
        linarith
  have k2 : Elev o d'.navigator.elevation := by
    by_cases hn : ∃ t r, op = .next t r
    · obtain ⟨t, r, rfl⟩ := hn
      obtain ⟨⟨x, b⟩, hn, hd⟩ := map_eq_ok hs
      cases hd
      exact next_elev hp.elevation hi ho.1 h.elev hn
    · rw [step_elevation_frame hs (fun t r e => hn ⟨t, r, e⟩) hf]
      exact h.elev
  have k1 : Spd o d'.speed ∧ ZeroOr o.speedMin o.speedMax d'.state.speed := by
    by_cases hn : ∃ t r, op = .next t r
    · obtain ⟨t, r, rfl⟩ := hn
      obtain ⟨⟨x, b⟩, hn, hd⟩ := map_eq_ok hs
      cases hd
      obtain ⟨a1, a2, a3, a4⟩ := C27.next_speed hi ho.1 hn
      by_cases hne : d.navigator.routes = []
      · show Spd o x.speed ∧ ZeroOr _ _ x.state.speed
        rw [a4 hne]; exact ⟨h.speed, h.shown.speed⟩
      · obtain ⟨b1, b2⟩ := a3 hne
        unfold C27.Within at b1 b2
        rw [h.speed.min, h.speed.max] at b1 b2
        exact ⟨⟨a1.trans h.speed.min, a2.trans h.speed.max, Or.inr b2⟩, Or.inr b1⟩
    · obtain ⟨e1, e2⟩ := step_speed_frame hs (fun t r e => hn ⟨t, r, e⟩) hf
      rw [e1, e2]
      exact ⟨h.speed, h.shown.speed⟩
  exact ⟨k1.1, k2, k3, k4, shown_step hp h100 h.shown hs hf k1.2 k2 k3 k4⟩

theorem random_new {a b : Int} (h0 : 0 ≤ a) (h1 : 0 < b) : Random.new a b = ⟨a, b⟩ := by
  unfold Random.new
  rw [if_neg (by omega : ¬ a < 0)]
  simp only [if_neg (by omega : ¬ b < 0)]
  rw [if_neg (by omega : ¬ (a = 0 ∧ b = 0))]

theorem restore_held {d e d' : Device ℝ} (hp : Plain o) (h100 : o.batteryMax ≤ 100)
    (h0 : 0 ≤ o.offlineMin) (he : Held o e) (h : d.fromSnapshot e.snapshot = .ok d') : Held o d' := by
  obtain ⟨r1, r2⟩ := C27.restore_speed h
  obtain ⟨n, speed, battery, sensors, d1, h1, h2, h3, h4, h5, rfl⟩ := fromSnapshotOnto_eq h
  obtain ⟨hf, e1, e2, -⟩ := updateState_fresh h5
  replace hf := fresh_updateRoutes hf
  have k3 : Bat o d1.updateRoutes.battery := by
    have : battery = e.battery := by
      rw [show Battery.fromSnapshot e.snapshot.battery = Battery.fromSnapshot (some e.battery.snapshot) from rfl,
        battery_round_trip] at h3
      cases h3; rfl
    have e2 : d1.updateRoutes.battery = battery := e2
    rw [e2, this]; exact he.bat
  simp only [Navigator.fromSnapshot, snapshot] at h1
  unfold Navigator.fromSnapshotOnto at h1
  obtain ⟨rs, hrs, h1⟩ := bind_eq_ok h1
  obtain ⟨pt, -, h1⟩ := bind_eq_ok h1
  obtain ⟨el, hel, h1⟩ := bind_eq_ok h1
  have hel' : el = e.navigator.elevation := by
    rw [show Sensor.fromSnapshot e.navigator.snapshot.elevation =
      Sensor.fromSnapshot (some e.navigator.elevation.snapshot) from rfl, sensor_round_trip] at hel
    cases hel; rfl
  have k2 : Elev o d1.updateRoutes.navigator.elevation := by
    show Elev o d1.navigator.elevation
    rw [e1]
    show Elev o n.elevation
    cases h1
    rw [hel']
    exact he.elev
  have k4 : Off o d1.updateRoutes.navigator := by
    have : Off o n := by
      cases h1
      refine ⟨he.off.skip, fun hk => ?_, he.off.index⟩
      have := he.off.rnd hk
      simp only [Navigator.snapshot, this, Bool.false_eq_true, if_false]
      rw [random_new h0 hp.offlineMax]
    have e1 : d1.navigator = n := e1
    exact ⟨by rw [show d1.updateRoutes.navigator.skipOffline = d1.navigator.skipOffline from rfl, e1]; exact this.skip,
      by rw [show d1.updateRoutes.navigator.offline = d1.navigator.offline from rfl, e1]; exact this.rnd,
      by rw [show d1.updateRoutes.navigator.offlineIndex = d1.navigator.offlineIndex from rfl, e1]; exact this.index⟩
  refine ⟨by rw [r1]; exact he.speed, k2, k3, k4, by rw [r2]; exact he.speed.val, by rw [hf.elevation]; exact k2.val,
    by rw [hf.charge]; exact bat_value hp h100 k3, Or.inr (by rw [hf.chargeTime, k3.time, wholeSeconds_real]),
    by rw [hf.offlineDuration]; exact k4.index, ?_⟩
  rw [hf.offlineDuration, hf.isOffline]
  simp

theorem speed_start {draws : ℕ → ℝ} {amp : Int} {s : Speed ℝ} (hp : Plain o)
    (h : Speed.new draws o.speedMin o.speedMax amp = .ok s) : Spd o s := by
  have hs := C27.new_bounds h
  unfold C27.bounds at hs
  rw [if_neg (not_le.mpr hp.speedMax), Prod.mk.injEq] at hs
  refine ⟨hs.1, hs.2, ?_⟩
  unfold Speed.value
  split
  · right
    rw [hs.1]
    exact ⟨le_rfl, hp.speed⟩
  · left
    unfold Speed.new at h
    split at h
    · cases h
    split at h
    · cases h
    simp only at h
    generalize (if (o.speedMax <=. lit 0) = true then o.speedMin else o.speedMax) = mx at h
    split at h
    · cases h
    obtain ⟨_, -, h⟩ := bind_eq_ok h
    cases h
    show (lit 0 : ℝ) = 0
    simp

theorem battery_start {b : Battery ℝ} (hp : Plain o) (h : Battery.new o.batteryMin o.batteryMax o.chargeTime = .ok b) :
    Bat o b ∧ o.batteryMax ≤ 100 := by
  unfold Battery.new at h
  split at h
  · cases h
  split at h
  · cases h
  rename_i h2
  simp only [real_lt, real_lit, decide_eq_true_eq, not_lt] at h h2
  cases h
  refine ⟨⟨?_, ?_, by show (0 : ℝ) ≤ lit 0; simp⟩, by push_cast at h2; exact h2⟩
  · rw [if_neg (not_lt.mpr hp.battery)]
  · have := hp.chargeTime
    show (if o.chargeTime < 0 then _ else _) = _
    rw [if_neg (by omega)]

theorem navigator_start {uid : String} {draws : ℕ → ℝ} {n : Navigator ℝ} (hp : Plain o)
    (h : Navigator.new uid draws o.navOpts = .ok n) :
    Elev o n.elevation ∧ Off o n ∧ 0 ≤ o.offlineMin ∧ o.offlineMax ≤ 3600 := by
  obtain ⟨o1, o2, s, h1, h2, h3, rfl⟩ := new_cases h
  have hopt : o.navOpts.foldl NavOptions.apply NavOptions.default =
      ⟨o.elevationMin, o.elevationMax, o.elevationMode, o.offlineMin, o.offlineMax,
        o.elevationAmplitude, o.skipOffline⟩ := by
    unfold DeviceOptions.navOpts
    cases o.skipOffline <;> rfl
  have p1 := hp.offline
  have p2 := hp.offlineMax
  rw [hopt] at h1
  unfold NavOptions.validateOffline at h1
  simp only [if_neg (by omega : ¬ o.offlineMin > o.offlineMax),
    if_neg (by omega : ¬ (o.offlineMin = 0 ∧ o.offlineMax = 0))] at h1
  split at h1
  · cases h1
  rename_i c1
  split at h1
  · cases h1
  rename_i c2
  cases h1
  unfold NavOptions.validateElevation at h2
  split at h2
  · cases h2
  split at h2
  · cases h2
  have q1 : ¬ o.elevationMax < o.elevationMin := not_lt.mpr hp.elevation
  have q2 : ¬ (o.elevationMin = 0 ∧ o.elevationMax = 0) := fun hc => hp.elevationMax.ne' hc.2
  simp only [real_lt, real_eq, real_lit, Rat.cast_zero, decide_eq_true_eq, Bool.and_eq_true, if_neg q1, if_neg q2] at h2
  cases h2
  obtain ⟨-, -, rfl⟩ := sensor_new_eq h3
  refine ⟨⟨rfl, rfl, Or.inl (by show (lit 0 : ℝ) = 0; simp)⟩, ⟨rfl, fun hk => ?_, ?_⟩, by omega, by omega⟩
  · simp only [newState, hk, Bool.false_eq_true, if_false]
    rw [random_new (by omega) p2]
  · exact ⟨le_rfl, fun _ => rfl, by show (0 : Int) ≤ _; omega, fun _ => p2⟩

/-- **C60, creation.** A new device has the ranges of its options; its published state is still empty. -/
theorem new_ranges {rnd : DeviceRnd ℝ} {d : Device ℝ} (hp : Plain o) (h : Device.new rnd (some o) = .ok d) :
    Held o d ∧ o.batteryMax ≤ 100 ∧ 0 ≤ o.offlineMin ∧ o.offlineMax ≤ 3600 := by
  obtain ⟨n, s, b, st, h1, h2, h3, h4, rfl⟩ := Device.new_eq h
  obtain ⟨_, _, rfl, -⟩ := applyFor_eq h4
  obtain ⟨k1, k2, k3⟩ := navigator_start hp h1
  obtain ⟨k4, k5⟩ := battery_start hp h3
  have p2 := hp.offlineMax
  have z : (lit 0 : ℝ) = 0 := by simp
  exact ⟨⟨speed_start hp h2, k1, k4, k2, Or.inl z, Or.inl z, Or.inl z, Or.inl rfl,
    ⟨le_rfl, fun _ => rfl, by show (0 : Int) ≤ _; simp only; omega, fun _ => p2⟩, by
      show false = true ↔ (0 : Int) < 0
      simp⟩, k5, k3⟩

/-- The invariant of the life of a device. -/
theorem life_held {d : Device ℝ} (hp : Plain o) (h : Life o d) :
    Held o d ∧ o.batteryMax ≤ 100 ∧ 0 ≤ o.offlineMin ∧ o.offlineMax ≤ 3600 := by
  induction h with
  | init h1 h2 h => exact new_ranges hp h
  | step hr ho h hl ih =>
    exact ⟨next_held hp ih.2.1 ih.2.2.1 ih.2.2.2 (reach_inv (life_reach hr)) ho ih.1 h, ih.2⟩
  | restore hd he h hl _ ih2 => exact ⟨restore_held hp ih2.2.1 ih2.2.2.1 ih2.1 h, ih2.2⟩

/-- **C60.** Everything a device publishes lies within the ranges of its options. -/
theorem in_range (o : DeviceOptions ℝ) (d : Device ℝ) (hp : Plain o) (h : Life o d) :
    InRange (o.speedMin, o.speedMax) (o.elevationMin, o.elevationMax) o.batteryMin
      (o.chargeTime.tdiv 1000000000) (o.offlineMin, o.offlineMax) o.skipOffline d.state :=
  (life_held hp h).1.shown

/-! ## The presets -/

/-- A preset tracker: its options and its documented ranges. -/
structure Preset where
  options : DeviceOptions ℝ
  speed : ℝ × ℝ
  elevation : ℝ × ℝ
  chargeHours : Int
  skip : Bool

/-- The five presets and the options used when none are given. -/
noncomputable def presets : List Preset :=
  [⟨.default, (1, 2), (10, 300), 7, false⟩, ⟨.tracker, (1, 5), (0, 350), 8, false⟩,
   ⟨.kids, (1, 2), (0, 50), 6, false⟩, ⟨.dog, (1, 3), (1, 10), 2, false⟩,
   ⟨.bicycle, (2, 8), (1, 125), 12, false⟩, ⟨.drone, (5, 150), (1, 2500), 3, true⟩]

/-- **C60, presets.** Whatever a preset tracker publishes, at any moment of its life, lies within its documented
ranges. A drone is never offline, the others for at most 59 ticks. -/
theorem presets_in_range (p : Preset) (hp : p ∈ presets) (d : Device ℝ) (h : Life p.options d) :
    InRange p.speed p.elevation 0 (p.chargeHours * 3600) (2, 60) p.skip d.state := by
  have key : ∀ o : DeviceOptions ℝ, Life o d → Plain o → (o.speedMin, o.speedMax) = p.speed →
      (o.elevationMin, o.elevationMax) = p.elevation → o.batteryMin = 0 →
      o.chargeTime.tdiv 1000000000 = p.chargeHours * 3600 → (o.offlineMin, o.offlineMax) = (2, 60) →
      o.skipOffline = p.skip →
      InRange p.speed p.elevation 0 (p.chargeHours * 3600) (2, 60) p.skip d.state := by
    intro o h hpl e1 e2 e3 e4 e5 e6
    have := in_range o d hpl h
    rw [e1, e2, e3, e4, e5, e6] at this
    exact this
  simp only [presets, List.mem_cons, List.not_mem_nil, or_false] at hp
  rcases hp with rfl | rfl | rfl | rfl | rfl | rfl <;>
  · refine key _ h ⟨?_, ?_, ?_, ?_, ?_, ?_, ?_, ?_, ?_⟩ ?_ ?_ ?_ (by rfl) ?_ ?_ <;>
      norm_num [DeviceOptions.default, DeviceOptions.tracker, DeviceOptions.kids, DeviceOptions.dog,
        DeviceOptions.bicycle, DeviceOptions.drone, hourNs]

/-! ## Concrete cases -/

/-- A dog tracker on rationals that moved along a route and came back from its snapshot. -/
def dog : Option (Device Toy) :=
  (Device.preset { Toy.rnd with elevationDraws := fun _ => Toy.of (1/2), speedDraws := fun _ => Toy.of (1/2) } .dog).bind
    fun d => (d.run [.addRoute [some Toy.route], .next (Toy.of (1/100)) Toy.nextRnd]).toOption.bind
    fun d => (d.fromSnapshot d.snapshot).toOption

example : dog.map (fun d => decide (1 < d.state.speed.val ∧ d.state.speed.val < 3 ∧ 1 < d.state.loc.elevation.val ∧
    d.state.loc.elevation.val < 10 ∧ 99 < d.state.charge.val ∧ d.state.charge.val < 100 ∧
    d.state.chargeTime = 7200)) = some true := by decide +kernel

/-- Every preset has a life. -/
example : ∀ o ∈ presets.map (·.options), ∀ rnd : DeviceRnd ℝ, UnitDraws rnd.elevationDraws → UnitDraws rnd.speedDraws →
    ∀ d, Device.preset rnd o = some d → Life o d := by
  intro o _ rnd h1 h2 d h
  unfold Device.preset at h
  cases hn : Device.new rnd (some o) with
  | error e => rw [hn] at h; cases h
  | ok x => rw [hn] at h; cases h; exact .init h1 h2 hn

end C60
end GpsGen
