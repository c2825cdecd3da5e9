import Verif.Theorems.C60
/-!
# C62: a device recharges when its battery is low, and publishes the charge

Claim: the battery loses charge in proportion to simulated time; when it is low the device recharges it and goes
offline for a period of the configured length, during which it does not move; the published charge is the charge of
the battery after every `Next`.

Everything holds except the last part: an offline device goes on using its battery but does not publish the charge
(`stale_charge`). It is current after every `Next` that moves the device or ends a lap, and after `Update`
(`published_partial`).
-/

namespace GpsGen
variable {F : Type}

namespace C62
open Device

/-! ## Specification -/

/-- The charge after using the battery for `used` seconds. -/
noncomputable def charge (mn used seconds : ℝ) : ℝ := max mn (100 - used / seconds * 100)

/-- The charge of a battery. -/
noncomputable def chargeOf (b : Battery ℝ) : ℝ := charge b.min b.val ((b.chargeTime : ℝ) / 1000000000)

/-- The length of a tick: the tick and one second for each call that found the device locked. -/
def length [GoFloat F] (d : Device F) (tick : F) : F := lit d.tick.toNat +. tick

/-- The battery would be low after this tick: its charge is the minimal one. -/
def Low (d : Device ℝ) (tick : ℝ) : Prop :=
  100 - (d.battery.val + length d tick) / ((d.battery.chargeTime : ℝ) / 1000000000) * 100 ≤ d.battery.min

/-! ## Proof -/

theorem value_eq (b : Battery ℝ) : b.value = chargeOf b := by
  unfold Battery.value chargeOf charge
  rw [durSeconds_real]
  simp only [real_lt, real_sub, real_div, real_mul, real_lit, decide_eq_true_eq]
  push_cast
  split
  · rename_i h; exact (max_eq_left h.le).symm
  · rename_i h; exact (max_eq_right (not_lt.mp h)).symm

theorem low_iff (d : Device ℝ) (tick : ℝ) : (d.battery.next (d.seconds tick)).isLow = true ↔ Low d tick := by
  unfold Battery.isLow
  rw [value_eq]
  unfold chargeOf charge Low Battery.next
  simp only [real_eq, real_add, decide_eq_true_eq, max_eq_left_iff]
  rfl

/-- **C62, no other use.** Operations other than `Next` and restoring leave the battery as it is, and so does `Next`
without routes. -/
theorem battery_frame [GoMath F] (d d' : Device F) (op : DevOp F) (h : d.step op = .ok d')
    (hf : ∀ m, op ≠ .fromSnapshot m) (hn : d.navigator.routes = [] ∨ ∀ t r, op ≠ .next t r) :
    d'.battery = d.battery := by
  rcases (step_parts h hf).2.1 with e | ⟨tick, rnd, rfl, -⟩
  · exact e
  · rcases hn with hn | hn
    · obtain ⟨⟨x, b⟩, h1, rfl⟩ := map_eq_ok h
      have := (next_parts h1).2.1
      rwa [if_pos hn] at this
    · exact absurd rfl (hn tick rnd)

/-- **C62, discharge.** A tick that does not make the battery low adds to the time it was used. -/
theorem drains (d d' : Device ℝ) (tick : ℝ) (rnd : NextRnd ℝ) (b : Bool) (hr : d.navigator.routes ≠ [])
    (hn : d.next tick rnd = .ok (d', b)) (hl : ¬ Low d tick) :
    d'.battery = { d.battery with val := d.battery.val + length d tick } := by
  have := (next_parts hn).2.1
  rw [if_neg hr] at this
  rw [this]
  unfold drained
  rw [if_neg (fun hc => hl ((low_iff d tick).mp hc))]
  rfl

theorem offline_stops {n n' : Navigator ℝ} {t v : ℝ} {x : UInt32} {b : Bool} (hr : n.routes ≠ [])
    (hs : n.skipOffline = false) (ho : 0 < n.offlineIndex) (h : n.nextLocation t v x = .ok (n', b)) :
    b = false ∧ n' = { n with offlineIndex := n.offlineIndex - 1 } := by
  unfold Navigator.nextLocation at h
  rw [if_neg (fun hc => hr (List.length_eq_zero_iff.mp hc))] at h
  have : n.nextOffline = ({ n with offlineIndex := n.offlineIndex - 1 }, true) := by
    unfold Navigator.nextOffline
    rw [hs]
    simp only [Bool.false_eq_true, if_false]
    rw [if_pos ho]
  rw [this] at h
  simp only [if_true] at h
  cases h
  exact ⟨rfl, rfl⟩

/-- **C62, recharge.** A tick that makes the battery low recharges it fully. A device that does not skip offline
periods goes offline for a number of ticks drawn from its range: if that is positive, this `Next` is the first of
them, reports that the device does not move, and leaves position and odometers alone. -/
theorem recharges (d d' : Device ℝ) (tick : ℝ) (rnd : NextRnd ℝ) (b : Bool) (hr : d.navigator.routes ≠ [])
    (hn : d.next tick rnd = .ok (d', b)) (hl : Low d tick) :
    d'.battery = { d.battery with val := 0 } ∧
    (d.navigator.skipOffline = false → ∃ r, d.navigator.offline = some r ∧
      (0 < r.value rnd.low → b = false ∧ d'.navigator.offlineIndex = r.value rnd.low - 1 ∧
        d'.navigator.point = d.navigator.point ∧
        d'.navigator.currentSegmentDistance = d.navigator.currentSegmentDistance ∧
        (d'.navigator.routeIndex, d'.navigator.trackIndex, d'.navigator.segmentIndex) =
          (d.navigator.routeIndex, d.navigator.trackIndex, d.navigator.segmentIndex))) := by
  have hlow := (low_iff d tick).mpr hl
  constructor
  · have := (next_parts hn).2.1
    rw [if_neg hr] at this
    rw [this]
    unfold drained
    rw [if_pos hlow]
    unfold Battery.reset Battery.next
    simp
  · intro hs
    have hpow : ∀ {n1}, d.powered (d.seconds tick) rnd.low = .ok n1 →
        ∃ r, d.navigator.offline = some r ∧ n1 = { d.navigator with offlineIndex := r.value rnd.low } := by
      intro n1 h1
      unfold powered at h1
      rw [if_pos hlow] at h1
      rcases Navigator.toOffline_cases h1 with ⟨hc, -⟩ | ⟨-, r, h2, h3⟩
      · rw [hs] at hc; cases hc
      · exact ⟨r, h2, h3⟩
    have fin : ∀ m : Navigator ℝ, m.isFinish.1.offlineIndex = m.offlineIndex ∧ m.isFinish.1.point = m.point ∧
        m.isFinish.1.currentSegmentDistance = m.currentSegmentDistance ∧
        (m.isFinish.1.routeIndex, m.isFinish.1.trackIndex, m.isFinish.1.segmentIndex) =
          (m.routeIndex, m.trackIndex, m.segmentIndex) := by
      intro m; unfold Navigator.isFinish; split <;> exact ⟨rfl, rfl, rfl, rfl⟩
    cases next_outcome hn with
    | idle h => exact absurd h hr
    | halted _ n1 n2 speed h1 h2 h3 h4 =>
      obtain ⟨r, hr1, rfl⟩ := hpow h1
      refine ⟨r, hr1, fun hp => ?_⟩
      obtain ⟨-, rfl⟩ := offline_stops (n := { d.navigator with offlineIndex := r.value rnd.low }) hr hs hp h3
      exact ⟨rfl, fin _⟩
    | lap _ n1 n2 speed _ h1 h2 h3 h4 h5 =>
      obtain ⟨r, hr1, rfl⟩ := hpow h1
      refine ⟨r, hr1, fun hp => ?_⟩
      obtain ⟨-, rfl⟩ := offline_stops (n := { d.navigator with offlineIndex := r.value rnd.low }) hr hs hp h3
      obtain ⟨-, f1, -⟩ := updateState_fresh h5
      rw [f1]
      exact ⟨rfl, fin _⟩
    | moved _ n1 n2 n3 speed ss d2 _ h1 h2 h3 h4 h5 hd2 h6 =>
      obtain ⟨r, hr1, rfl⟩ := hpow h1
      refine ⟨r, hr1, fun hp => ?_⟩
      obtain ⟨hc, -⟩ := offline_stops (n := { d.navigator with offlineIndex := r.value rnd.low }) hr hs hp h3
      cases hc

/-- The published charge is the charge of the battery, and the published charge time its charge time in whole
seconds. -/
def Published (d : Device ℝ) : Prop :=
  d.state.charge = chargeOf d.battery ∧ d.state.chargeTime = d.battery.chargeTime.tdiv 1000000000

theorem fresh_published {d : Device ℝ} (h : Fresh d) : Published d := ⟨h.charge.trans (value_eq _), h.chargeTime.trans (wholeSeconds_real _)⟩

/-- **C62, publication (partial).** After every `Next` that moves the device, after every `Next` that ends a lap
(it then restarts the duration), and after `Update`, the charge is published. Missing for the full claim: the other
calls of `Next`, for which it is false (`stale_charge`). -/
theorem published_partial (d d' : Device ℝ) :
    (∀ tick rnd, d.next tick rnd = .ok (d', true) → Published d') ∧
    (∀ tick rnd, d.next tick rnd = .ok (d', false) → d.navigator.routes ≠ [] → d'.state.duration = 0 →
      0 < d.state.duration + length d tick → Published d') ∧
    (d.update = .ok d' → Published d') := by
  refine ⟨?_, ?_, ?_⟩
  · intro tick rnd h
    cases next_outcome h with
    | moved _ _ _ _ _ _ _ _ _ _ _ _ _ _ h6 => exact fresh_published (updateState_fresh h6).1
  · intro tick rnd h hr hd hp
    cases next_outcome h with
    | idle hc => exact absurd hc hr
    | halted _ n1 n2 speed h1 h2 h3 h4 =>
      have hd : d.state.duration +. d.seconds tick = 0 := hd
      rw [real_add] at hd
      exact absurd hd hp.ne'
    | lap _ _ _ _ _ _ _ _ _ h5 => exact fresh_published (updateState_fresh h5).1
  · intro h
    obtain ⟨st, h1, rfl⟩ := update_eq h
    exact fresh_published (fresh_updateSensors (fresh_updateRoutes (refreshed_fresh h1)))

/-- **The published charge goes stale while the device is offline.** For every device whose published charge is
current: if it is offline, a positive tick that leaves the battery above low discharges the battery but leaves the
published charge. -/
theorem stale_charge (d d' : Device ℝ) (tick : ℝ) (rnd : NextRnd ℝ) (b : Bool) (hr : d.navigator.routes ≠ [])
    (hs : d.navigator.skipOffline = false) (ho : 0 < d.navigator.offlineIndex) (ht : 0 < tick)
    (hc : 0 < d.battery.chargeTime) (hp : Published d) (hl : ¬ Low d tick)
    (hm : d.navigator.isFinish.2 = false) (hn : d.next tick rnd = .ok (d', b)) :
    b = false ∧ d'.state.charge = d.state.charge ∧ chargeOf d'.battery < d'.state.charge ∧ ¬ Published d' := by
  have hlow : (d.battery.next (d.seconds tick)).isLow ≠ true := fun hc => hl ((low_iff d tick).mp hc)
  have hpow : ∀ {n1}, d.powered (d.seconds tick) rnd.low = .ok n1 → n1 = d.navigator := by
    intro n1 h1
    unfold powered at h1
    rw [if_neg hlow] at h1
    cases h1; rfl
  have hfin : ({ d.navigator with offlineIndex := d.navigator.offlineIndex - 1 } : Navigator ℝ).isFinish.2 =
      d.navigator.isFinish.2 := by unfold Navigator.isFinish; split <;> rfl
  have hb := drains d d' tick rnd b hr hn hl
  have hpos : (0 : ℝ) < length d tick := by
    have : (0 : ℝ) < d.tick.toNat + tick := by positivity
    unfold length
    simpa using this
  have hlt : chargeOf d'.battery < chargeOf d.battery := by
    rw [hb]
    unfold chargeOf charge
    unfold Low at hl
    have hsec : (0 : ℝ) < (d.battery.chargeTime : ℝ) / 1000000000 := by
      have : (0 : ℝ) < d.battery.chargeTime := by exact_mod_cast hc
      positivity
    have hd : d.battery.val / ((d.battery.chargeTime : ℝ) / 1000000000) <
        (d.battery.val + length d tick) / ((d.battery.chargeTime : ℝ) / 1000000000) :=
      div_lt_div_of_pos_right (by linarith) hsec
    simp only
    rw [max_eq_right (not_le.mp hl).le]
    exact lt_of_lt_of_le (by linarith) (le_max_right _ _)
  have hcharge : b = false ∧ d'.state.charge = d.state.charge := by
    cases next_outcome hn with
    | idle h => exact ⟨rfl, rfl⟩
    | halted _ n1 n2 speed h1 h2 h3 h4 => exact ⟨rfl, rfl⟩
    | lap _ n1 n2 speed _ h1 h2 h3 h4 h5 =>
      have := hpow h1
      subst this
      obtain ⟨-, rfl⟩ := offline_stops hr hs ho h3
      rw [hfin, hm] at h4
      cases h4
    | moved _ n1 n2 n3 speed ss d2 _ h1 h2 h3 h4 h5 hd2 h6 =>
      have := hpow h1
      subst this
      obtain ⟨hc, -⟩ := offline_stops hr hs ho h3
      cases hc
  refine ⟨hcharge.1, hcharge.2, ?_, fun hc => ?_⟩
  · rw [hcharge.2, hp.1]; exact hlt
  · have := hc.1
    rw [hcharge.2, hp.1] at this
    exact absurd this hlt.ne'

/-! ## The whole life -/

/-- **C62, never low.** During its whole life (see C60) the battery of a device, when its minimum is below 100, is
never low between two operations, and the published charge is never the minimal one after a `Next`: it was
recharged. -/
theorem never_low (o : DeviceOptions ℝ) (d : Device ℝ) (hp : C60.Plain o) (hm : o.batteryMin < 100) (h : C60.Life o d) :
    o.batteryMin < chargeOf d.battery ∧ (d.state.charge = 0 ∨ o.batteryMin < d.state.charge) := by
  have full : ∀ b : Battery ℝ, b.min = o.batteryMin → b.val = 0 → o.batteryMin < chargeOf b := by
    intro b h1 h2
    unfold chargeOf charge
    rw [h1, h2, zero_div, zero_mul, sub_zero]
    exact lt_of_lt_of_le hm (le_max_right _ _)
  induction h with
  | @init rnd d h1 h2 h =>
    obtain ⟨n, s, b, st, -, -, h3, h4, rfl⟩ := Device.new_eq h
    obtain ⟨hb, -⟩ := C60.battery_start hp h3
    obtain ⟨_, _, rfl, -⟩ := applyFor_eq h4
    refine ⟨full b hb.min ?_, Or.inl (by show (lit 0 : ℝ) = 0; simp)⟩
    unfold Battery.new at h3
    split at h3
    · cases h3
    split at h3
    · cases h3
    cases h3
    show (lit 0 : ℝ) = 0
    simp
  | @step d op d' hr ho h hl ih =>
    have hf : ∀ m, op ≠ .fromSnapshot m := by rintro m rfl; exact ho
    obtain ⟨-, hb, hs⟩ := step_parts h hf
    have held := (C60.life_held hp hr).1
    have key : o.batteryMin < chargeOf d'.battery := by
      rcases hb with e | ⟨tick, rnd, -, e⟩
      · rw [e]; exact ih.1
      · rw [e]
        unfold drained
        split
        · exact full _ held.bat.min (by show (lit 0 : ℝ) = 0; simp)
        · rename_i hn
          have hn : ¬ (d.battery.next (d.seconds tick)).isLow = true := hn
          unfold Battery.isLow at hn
          rw [value_eq] at hn
          simp only [real_eq, decide_eq_true_eq] at hn
          have e1 : (d.battery.next (d.seconds tick)).min = o.batteryMin := held.bat.min
          rw [e1] at hn
          refine lt_of_le_of_ne ?_ (Ne.symm hn)
          unfold chargeOf charge
          rw [e1]
          exact le_max_left _ _
    refine ⟨key, ?_⟩
    rcases hs with hs | hs
    · rw [hs.charge]; exact ih.2
    · rw [hs.charge, value_eq]; exact Or.inr key
  | @restore d e d' hd he h hl _ ih2 =>
    obtain ⟨n, speed, battery, sensors, d1, h1, h2, h3, h4, h5, rfl⟩ := fromSnapshotOnto_eq h
    obtain ⟨hf, -, e2, -⟩ := updateState_fresh h5
    have : battery = e.battery := by
      rw [show Battery.fromSnapshot e.snapshot.battery = Battery.fromSnapshot (some e.battery.snapshot) from rfl,
        battery_round_trip] at h3
      cases h3; rfl
    have e2 : d1.battery = battery := e2
    have key : o.batteryMin < chargeOf d1.battery := by rw [e2, this]; exact ih2.1
    refine ⟨key, Or.inr ?_⟩
    show o.batteryMin < d1.state.charge
    rw [hf.charge, value_eq]
    exact key

/-! ## Concrete cases -/

/-- A device on rationals whose battery lasts 100 s. -/
def dev (ops : List (DevOp Toy)) : Option (Device Toy) :=
  (Device.new Toy.rnd (some { Toy.opts with skipOffline := false, chargeTime := 100 * 1000000000 })).toOption.bind
    fun d => (d.run (.addRoute [some Toy.route] :: ops)).toOption

/-- The charge published and held, and the offline ticks left. -/
def look (d : Device Toy) : Rat × Rat × Int := (d.state.charge.val, d.battery.value.val, d.navigator.offlineIndex)

/-- A tick. -/
def tick (s : Rat) : DevOp Toy := .next (Toy.of s) Toy.nextRnd

-- Moving publishes the charge, an offline tick does not, a low battery is recharged and sends the device offline.
example : (dev [tick 10]).map look = some (90, 90, 0) := by decide +kernel
example : (dev [tick 10, .move (.toOffline 0), tick 10]).map look = some (90, 80, 1) := by decide +kernel
example : (dev [tick 10, tick 90]).map look = some (90, 100, 1) := by decide +kernel

end C62
end GpsGen
