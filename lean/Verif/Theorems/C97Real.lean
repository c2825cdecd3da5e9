import Verif.Theorems.C97
import Verif.Theorems.C12
import Verif.Theorems.C15
import Verif.Theorems.C95Real
/-!
# C97 in exact arithmetic

A device with a positive least speed completes laps for ever, whatever its ticker and its draws, if offline mode is
disabled or the battery outlasts the longest offline period. Otherwise it may never move at all.
-/

namespace GpsGen
namespace C97
open Device Navigator Trip

/-! ## Specification -/

/-- The full claim: a new device with routes drawn and a positive least speed completes laps for ever. -/
def Claim : Prop := ∀ (rnd : DeviceRnd ℝ) (o : DeviceOptions ℝ) (d0 : Device ℝ) (rs : List (Option (Route ℝ)))
  (start : Int) (t : ℕ → Int) (x : ℕ → NextRnd ℝ),
  Device.new rnd (some o) = .ok d0 → UnitDraws rnd.speedDraws → UnitDraws rnd.elevationDraws →
  (∀ r, some r ∈ rs → WFRoute r ∧ 0 < r.dist) → (d0.addRoute rs).1.navigator.routes ≠ [] → 0 < d0.speed.min →
  (∀ k, C95.UnitRnd (x k)) → Forever (d0.addRoute rs).1 start t x

/-- The seconds the battery lasts. -/
noncomputable def lasts (b : Battery ℝ) : ℝ := durSeconds b.chargeTime * (100 - b.min) / 100

/-! ## Steps -/

/-- What is known about the device after any number of rounds. -/
def Known (m : ℝ) (d : Device ℝ) : Prop := Inv d ∧ d.speed.min = m

theorem known_next {m : ℝ} {d d' : Device ℝ} (h : Known m d) {last t : Int} {r : NextRnd ℝ} {b : Bool}
    (hu : C95.UnitRnd r) (hx : d.next (tickOf last t) r = .ok (d', b)) : Known m d' := by
  have ht := C95.tick_ge last t
  have hs : SaneOp (.next (tickOf last t) r) := ⟨by linarith, hu.1, hu.2, hu.3⟩
  exact ⟨next_inv h.1 hs hx, (C27.next_speed h.1 (show (0 : ℝ) ≤ tickOf last t by linarith) hx).1.trans h.2⟩

theorem known_step {m : ℝ} {d : Device ℝ} (h : Known m d) (hm : 0 < m) {last t : Int} {v : Speed ℝ}
    (hne : d.navigator.routes ≠ []) (hv : d.speed.next (d.phase (d.seconds (tickOf last t))) = .ok v) :
    m ≤ d.seconds (tickOf last t) *. v.value := by
  have ht := C95.tick_ge last t
  have h1 : 1 ≤ d.seconds (tickOf last t : ℝ) := by
    unfold seconds
    simp only [real_add, real_lit]
    have : (0 : ℝ) ≤ ((d.tick.toNat : ℚ) : ℝ) := by positivity
    linarith
  obtain ⟨-, -, -, c⟩ := speed_next_good h.1.speed hv
  obtain ⟨p0, p1⟩ := phase_unit h.1 hne (seconds_nonneg d (show (0 : ℝ) ≤ tickOf last t by linarith))
  have h2 : m ≤ v.value := by rw [← h.2]; exact (c p0 p1).1
  rw [real_mul]
  nlinarith

theorem good_of {d : Device ℝ} (h : C54.DSafe d) (hr : d.navigator.routes ≠ []) :
    Good (fun _ => True) (fun _ => True) d.navigator :=
  ⟨hr, h.nav.index, by
    cases hs : d.navigator.skipOffline with
    | true => exact Or.inl rfl
    | false => exact Or.inr (h.nav.offline hs), trivial, fun _ _ _ _ _ _ => trivial⟩

/-- **C97, offline mode disabled.** A device of any history with a positive least speed, in any ticker's rounds,
completes laps for ever. -/
theorem no_offline_partial (mn mx : ℝ) (p : Prop) (d : Device ℝ) (h : C27.Driven mn mx p d) (hl : C54.Live d)
    (hr : d.navigator.routes ≠ []) (hm : 0 < d.speed.min) (hk : d.navigator.skipOffline = true) (start : Int)
    (t : ℕ → Int) (x : ℕ → NextRnd ℝ) (hu : ∀ k, C95.UnitRnd (x k)) : Forever d start t x :=
  laps_skip (C12.real_counts d.speed.min hm) (by simp) d start t x (fun _ e => Known d.speed.min e)
    ⟨reach_inv (C27.driven_reach h), rfl⟩ (good_of (C54.live_safe hl) hr) (C54.live_safe hl) hk
    (fun k _ _ _ hi _ hx => known_next hi (hu k) hx) (fun _ _ _ hi hne hv => known_step hi hm hne hv)

/-! ## Offline periods -/

theorem isLow_iff (b : Battery ℝ) (hc : 0 < (durSeconds b.chargeTime : ℝ)) : b.isLow = true ↔ lasts b ≤ b.val := by
  unfold Battery.isLow Battery.value lasts
  simp only [real_sub, real_div, real_mul, real_lit, real_lt, real_eq, decide_eq_true_eq]
  push_cast
  have e : b.val / durSeconds b.chargeTime * 100 = b.val * 100 / durSeconds b.chargeTime := by ring
  rw [e]
  have key : (100 - b.val * 100 / durSeconds b.chargeTime ≤ b.min) ↔
      durSeconds b.chargeTime * (100 - b.min) / 100 ≤ b.val := by
    rw [sub_le_comm, le_div_iff₀ hc, div_le_iff₀ (by norm_num : (0 : ℝ) < 100), mul_comm]
  rw [← key]
  split
  · rename_i h1
    simp only [true_iff]
    exact h1.le
  · rename_i h1
    constructor
    · intro h; exact h.le
    · intro h; exact le_antisymm h (not_lt.mp h1)

open Classical in
/-- The rank of the offline rounds to come. A full battery outlasts the period; another may run low once more. -/
noncomputable def rank (T : ℝ) (hi : ℕ) (e : Device ℝ) : ℕ :=
  if (e.navigator.offlineIndex.toNat + 1) * T + e.battery.val < lasts e.battery then e.navigator.offlineIndex.toNat
  else e.navigator.offlineIndex.toNat + hi + 1

theorem drained_parts (d : Device ℝ) (s : ℝ) : (d.drained s).chargeTime = d.battery.chargeTime ∧
    (d.drained s).min = d.battery.min := by
  unfold drained
  split <;> exact ⟨rfl, rfl⟩

theorem rank_less {T : ℝ} {hi : ℕ} {d d' : Device ℝ} {tick : ℝ} {rnd : NextRnd ℝ} {n1 : Navigator ℝ} {r : Random}
    (hc : 0 < (durSeconds d.battery.chargeTime : ℝ)) (ht : d.seconds tick ≤ T) (hT : 0 ≤ T)
    (hcap : hi * T < lasts d.battery) (hr : d.navigator.offline = some r) (hhi : ∀ x, r.value x ≤ hi)
    (hb : d'.battery = d.drained (d.seconds tick)) (h1 : d.powered (d.seconds tick) rnd.low = .ok n1)
    (ho : n1.nextOffline.2 = true) (hd : d'.navigator.offlineIndex = n1.offlineIndex - 1) :
    rank T hi d' < rank T hi d := by
  have hlast : lasts d'.battery = lasts d.battery := by
    unfold lasts; rw [hb, (drained_parts d _).1, (drained_parts d _).2]
  rw [nextOffline_eq] at ho
  simp only [Bool.and_eq_true, Bool.not_eq_true', decide_eq_true_eq] at ho
  have hlow := isLow_iff (d.battery.next (d.seconds tick)) hc
  have hl2 : lasts (d.battery.next (d.seconds tick)) = lasts d.battery := rfl
  have hv : (d.battery.next (d.seconds tick)).val = d.battery.val + d.seconds tick := rfl
  rw [hl2, hv] at hlow
  unfold powered at h1
  unfold drained at hb
  have hoi : (0 : ℝ) ≤ d.navigator.offlineIndex.toNat := Nat.cast_nonneg _
  by_cases hlw : (d.battery.next (d.seconds tick)).isLow = true
  · rw [if_pos hlw] at h1 hb
    have hge := hlow.mp hlw
    have hw : ¬ (((d.navigator.offlineIndex.toNat : ℝ) + 1) * T + d.battery.val < lasts d.battery) := by
      nlinarith
    have hs : d.navigator.skipOffline = false := by
      rw [← (toOffline_same h1).skip]; exact ho.1
    unfold toOffline at h1
    rw [hs, hr] at h1
    simp only [Bool.false_eq_true, if_false, Except.ok.injEq] at h1
    subst h1
    simp only at hd ho
    have hx := hhi rnd.low
    have hn : (d'.navigator.offlineIndex.toNat : ℝ) + 1 ≤ hi := by
      rw [hd]
      have : ((r.value rnd.low - 1).toNat : ℤ) + 1 ≤ hi := by omega
      exact_mod_cast this
    have hw' : (d'.navigator.offlineIndex.toNat + 1 : ℝ) * T + d'.battery.val < lasts d'.battery := by
      rw [hlast, hb]
      have : (d.battery.next (d.seconds tick)).reset.val = 0 := by simp [Battery.reset]
      rw [this]
      nlinarith
    unfold rank
    rw [if_pos hw', if_neg hw]
    have : d'.navigator.offlineIndex.toNat + 1 ≤ hi := by exact_mod_cast hn
    omega
  · rw [if_neg hlw] at h1 hb
    cases h1
    have hn : d'.navigator.offlineIndex.toNat + 1 = d.navigator.offlineIndex.toNat := by omega
    unfold rank
    by_cases hw : (d.navigator.offlineIndex.toNat + 1 : ℝ) * T + d.battery.val < lasts d.battery
    · have hw' : (d'.navigator.offlineIndex.toNat + 1 : ℝ) * T + d'.battery.val < lasts d'.battery := by
        rw [hlast, hb, hv]
        have : (d'.navigator.offlineIndex.toNat : ℝ) + 1 = d.navigator.offlineIndex.toNat := by exact_mod_cast hn
        rw [this]
        nlinarith
      rw [if_pos hw', if_pos hw]
      omega
    · rw [if_neg hw]
      split <;> omega

/-- **C97 (partial).** A device of any history with a positive least speed. Its ticker never lets more than `T` seconds
pass, offline periods are at most `hi` rounds long, and the battery lasts longer than that: it completes laps for ever.

Missing for the full property: batteries that do not outlast the longest offline period (false, `claim_fails`). -/
theorem forever_partial (mn mx : ℝ) (p : Prop) (d : Device ℝ) (h : C27.Driven mn mx p d) (hl : C54.Live d)
    (hr : d.navigator.routes ≠ []) (hm : 0 < d.speed.min) (r : Random) (hoff : d.navigator.offline = some r)
    (start : Int) (t : ℕ → Int) (x : ℕ → NextRnd ℝ) (hu : ∀ k, C95.UnitRnd (x k)) (T : ℝ) (hi : ℕ)
    (hT : ∀ k, tickOf (before start t k) (t k) ≤ T) (hhi : ∀ u, r.value u ≤ hi)
    (hc : 0 < (durSeconds d.battery.chargeTime : ℝ)) (hcap : hi * T < lasts d.battery) : Forever d start t x := by
  have hT0 : 0 ≤ T := by
    have := hT 0
    have := C95.tick_ge (before start t 0) (t 0)
    linarith
  refine laps (C12.real_counts d.speed.min hm) (by simp) d start t x (rank T hi)
    (fun k e => Known d.speed.min e ∧ e.battery.chargeTime = d.battery.chargeTime ∧ e.battery.min = d.battery.min ∧
      e.navigator.offline = some r ∧ (1 ≤ k → e.tick = 0))
    ⟨⟨reach_inv (C27.driven_reach h), rfl⟩, rfl, rfl, hoff, nofun⟩ (good_of (C54.live_safe hl) hr) (C54.live_safe hl)
    ?_ (fun _ _ _ hi hne hv => known_step hi.1 hm hne hv) ?_
  · intro k e e' b ⟨i1, i2, i3, i4, i5⟩ hg hx
    obtain ⟨n1, n2, v, h1, h2, h3, ⟨m, hm, -, hd⟩, hb, htk, -⟩ := round_parts hg.routes hx
    refine ⟨known_next i1 (hu k) hx, ?_, ?_, ?_, fun _ => htk⟩
    · rw [hb, (drained_parts e _).1, i2]
    · rw [hb, (drained_parts e _).2, i3]
    · have : m.offline = some r := by rw [hm.offline, (location_settings h3).2, (powered_same h1).offline]; exact i4
      rcases hd with e | e <;> rw [e] <;> exact this
  · intro k e e' b n1 hk ⟨i1, i2, i3, i4, i5⟩ hg hx h1 ho hd
    obtain ⟨-, -, -, -, -, -, -, hb, -, -⟩ := round_parts hg.routes hx
    refine rank_less (by rw [i2]; exact hc) ?_ hT0 ?_ i4 hhi hb h1 ho hd
    · unfold seconds
      rw [i5 hk]
      simpa using hT k
    · unfold lasts; rw [i2, i3]; exact hcap

/-! ## New devices -/

theorem addLoop_mem {r : Route ℝ} : ∀ (rs : List (Option (Route ℝ))) (held : List (Route ℝ)) (k : Nat),
    r ∈ (addLoop held k rs).1 → r ∈ held ∨ some r ∈ rs := by
  intro rs
  induction rs with
  | nil => intro held k h; exact Or.inl h
  | cons a rs ih =>
    intro held k h
    cases a with
    | none =>
      unfold addLoop at h
      exact (ih _ _ h).imp id (List.mem_cons_of_mem _)
    | some q =>
      unfold addLoop at h
      split at h
      · exact (ih _ _ h).imp id (List.mem_cons_of_mem _)
      · rcases ih _ _ h with h | h
        · rcases List.mem_append.mp h with h | h
          · exact Or.inl h
          · cases List.mem_singleton.mp h
            exact Or.inr List.mem_cons_self
        · exact Or.inr (List.mem_cons_of_mem _ h)

theorem nav_added (n : Navigator ℝ) (rs : List (Option (Route ℝ))) :
    (n.addRoute rs).1.offline = n.offline ∧ (n.addRoute rs).1.skipOffline = n.skipOffline ∧
    ∀ r ∈ (n.addRoute rs).1.routes, r ∈ n.routes ∨ some r ∈ rs := by
  unfold Navigator.addRoute
  split
  · exact ⟨rfl, rfl, fun r hr => Or.inl hr⟩
  · simp only
    split <;> exact ⟨rfl, rfl, fun r hr => addLoop_mem _ _ _ hr⟩

theorem touch_dist (r : Route ℝ) : (touchRoute r).dist = r.dist := by
  unfold touchRoute Route.propsOf; cases r.props <;> rfl

theorem new_parts {rnd : DeviceRnd ℝ} {o : DeviceOptions ℝ} {d0 : Device ℝ} {rs : List (Option (Route ℝ))}
    (u1 : UnitDraws rnd.elevationDraws) (u2 : UnitDraws rnd.speedDraws) (h : Device.new rnd (some o) = .ok d0)
    (hw : ∀ r, some r ∈ rs → WFRoute r ∧ 0 < r.dist) :
    (∃ q, C27.Driven o.speedMin o.speedMax q (d0.addRoute rs).1) ∧ C54.Live (d0.addRoute rs).1 ∧
    (d0.addRoute rs).1.speed = d0.speed ∧ (d0.addRoute rs).1.battery = d0.battery ∧
    (d0.addRoute rs).1.navigator.offline = d0.navigator.offline ∧
    (d0.addRoute rs).1.navigator.skipOffline = d0.navigator.skipOffline := by
  have hfr : ∀ r ∈ (d0.addRoute rs).1.navigator.routes, 0 < r.dist := by
    intro r hr
    have hn : d0.navigator.routes = [] := by
      obtain ⟨n, s, b, st, k1, -, -, -, rfl⟩ := Device.new_eq h
      obtain ⟨_, _, _, -, -, -, rfl⟩ := new_cases k1
      rfl
    have hmem : ∃ q, some q ∈ rs ∧ r.dist = q.dist := by
      have hadd := (nav_added d0.navigator rs).2.2
      rw [hn] at hadd
      unfold Device.addRoute at hr
      generalize d0.navigator.addRoute rs = q at *
      obtain ⟨n, _ | _⟩ := q
      · obtain ⟨u, hu, rfl⟩ := List.mem_map.mp (show r ∈ n.routes.map touchRoute from hr)
        exact ⟨u, (hadd u hu).resolve_left (List.not_mem_nil), touch_dist u⟩
      · exact ⟨r, (hadd r hr).resolve_left (List.not_mem_nil), rfl⟩
    obtain ⟨q, hq, e⟩ := hmem
    rw [e]
    exact (hw q hq).2
  refine ⟨⟨_, .step (.init u1 u2 rfl rfl h) (op := .addRoute rs) (fun r hr => (hw r hr).1) rfl hfr⟩,
    .step (.new h) (op := .addRoute rs) trivial rfl, ?_⟩
  unfold Device.addRoute
  have := nav_added d0.navigator rs
  generalize d0.navigator.addRoute rs = q at *
  obtain ⟨n, _ | _⟩ := q
  · exact ⟨rfl, rfl, this.1, this.2.1⟩
  · exact ⟨rfl, rfl, this.1, this.2.1⟩

/-- **C97, new devices (partial).** A new device with any options and routes drawn, and a positive least speed, in a
generator whose ticker never lets more than `T` seconds pass: it completes laps for ever, if offline mode is disabled or
the battery lasts longer than the longest offline period, which is at most 3600 rounds.

Missing for the full property: see `forever_partial`. -/
theorem new_forever_partial (rnd : DeviceRnd ℝ) (o : DeviceOptions ℝ) (d0 : Device ℝ) (rs : List (Option (Route ℝ)))
    (start : Int) (t : ℕ → Int) (x : ℕ → NextRnd ℝ) (h : Device.new rnd (some o) = .ok d0)
    (u1 : UnitDraws rnd.speedDraws) (u2 : UnitDraws rnd.elevationDraws)
    (hw : ∀ r, some r ∈ rs → WFRoute r ∧ 0 < r.dist) (hr : (d0.addRoute rs).1.navigator.routes ≠ [])
    (hm : 0 < d0.speed.min) (hu : ∀ k, C95.UnitRnd (x k))
    (hb : d0.navigator.skipOffline = true ∨ ∃ T hi : ℝ, (∀ k, tickOf (before start t k) (t k) ≤ T) ∧
      (∀ r, d0.navigator.offline = some r → (r.max : ℝ) ≤ hi) ∧ 0 < (durSeconds d0.battery.chargeTime : ℝ) ∧
      hi * T < lasts d0.battery) : Forever (d0.addRoute rs).1 start t x := by
  obtain ⟨⟨q, hd⟩, hl, e1, e2, e3, e4⟩ := new_parts u2 u1 h hw
  obtain ⟨n, s, b, st, k1, -, -, -, hd0⟩ := Device.new_eq h
  have hn : d0.navigator = n := by rw [hd0]
  by_cases hs : n.skipOffline = true
  · exact no_offline_partial _ _ _ _ hd hl hr (by rw [e1]; exact hm) (by rw [e4, hn]; exact hs) start t x hu
  · obtain ⟨r, r1, r2, r3, r4, -⟩ := C15.new_random k1 (by simpa using hs)
    rcases hb with hb | ⟨T, hi, b1, b2, b3, b4⟩
    · exact absurd (hn ▸ hb) hs
    refine forever_partial _ _ _ _ hd hl hr (by rw [e1]; exact hm) r (by rw [e3, hn]; exact r1) start t x hu T r.max.toNat
      b1 ?_ (by rw [e2]; exact b3) ?_
    · intro u
      have := (C15.value_bounds r u r3 (by omega)).2.1
      omega
    · rw [e2]
      have h1 := b2 r (by rw [hn]; exact r1)
      have h2 : ((r.max.toNat : ℕ) : ℝ) = (r.max : ℝ) := by
        have : ((r.max.toNat : ℕ) : ℤ) = r.max := by omega
        exact_mod_cast congrArg (fun z : ℤ => (z : ℝ)) this
      have h3 : 0 ≤ T := by
        have := b1 0
        have := C95.tick_ge (before start t 0) (t 0)
        linarith
      rw [h2]
      nlinarith

/-- **C97, the bicycle tracker of the package.** With any routes drawn, in a generator whose ticker never lets twelve
minutes pass, it completes laps for ever: offline periods are at most 60 rounds, and its battery lasts twelve hours. -/
theorem bicycle_forever (rnd : DeviceRnd ℝ) (u1 : UnitDraws rnd.speedDraws) (u2 : UnitDraws rnd.elevationDraws)
    (rs : List (Option (Route ℝ))) (hw : ∀ r, some r ∈ rs → WFRoute r ∧ 0 < r.dist) (start : Int) (t : ℕ → Int)
    (x : ℕ → NextRnd ℝ) (hu : ∀ k, C95.UnitRnd (x k)) (hT : ∀ k, (tickOf (before start t k) (t k) : ℝ) ≤ 719) :
    ∃ d0, Device.new rnd (some DeviceOptions.bicycle) = .ok d0 ∧
      ((d0.addRoute rs).1.navigator.routes ≠ [] → Forever (d0.addRoute rs).1 start t x) := by
  obtain ⟨d0, e⟩ := C33.new_ok C33.smallNumbers_real rnd (DeviceOptions.bicycle (F := ℝ)) 1 125 2 8 0 100
    (by simp [DeviceOptions.bicycle])
    (by simp [DeviceOptions.bicycle]) (by omega) (by omega) (by simp [DeviceOptions.bicycle])
    (by simp [DeviceOptions.bicycle]) (by omega) (by omega) (by omega)
    (by simp [DeviceOptions.bicycle, DeviceOptions.default])
    (by simp [DeviceOptions.bicycle, DeviceOptions.default]) (by omega) (by omega)
    ⟨by simp [DeviceOptions.bicycle, DeviceOptions.default], by simp [DeviceOptions.bicycle, DeviceOptions.default]⟩
    ⟨by simp [DeviceOptions.bicycle, DeviceOptions.default], by simp [DeviceOptions.bicycle, DeviceOptions.default]⟩
    (by simp [DeviceOptions.bicycle, DeviceOptions.default]) (by simp [DeviceOptions.bicycle, DeviceOptions.default]) rfl rfl
  refine ⟨d0, e, fun hr => new_forever_partial rnd _ d0 rs start t x e u1 u2 hw hr ?_ hu
    (Or.inr ⟨719, 60, hT, ?_, ?_⟩)⟩
  · obtain ⟨n, s, b, st, k1, k2, k3, k4, rfl⟩ := Device.new_eq e
    show 0 < s.min
    unfold Speed.new validateAmplitude at k2
    simp only [DeviceOptions.bicycle, DeviceOptions.default, Option.getD_some] at k2
    norm_num at k2
    subst k2
    norm_num
  · intro r hr
    obtain ⟨n, s, b, st, k1, k2, k3, k4, rfl⟩ := Device.new_eq e
    have hsk : n.skipOffline = false := by
      obtain ⟨o1, o2, _, c1, c2, -, rfl⟩ := new_cases k1
      show o2.skipOffline = false
      rw [(validateElevation_frame c2).1, (validateOffline_frame c1).1]
      rfl
    obtain ⟨r', r1, -, -, -, hb⟩ := C15.new_random k1 hsk
    cases r1.symm.trans hr
    have : r.max = 60 := (hb.2.2.1 (by decide) (by decide)).2
    rw [this]
    norm_num
  · obtain ⟨n, s, b, st, k1, k2, k3, k4, rfl⟩ := Device.new_eq e
    have hbat : b.chargeTime = 12 * hourNs ∧ b.min = 0 := by
      unfold Battery.new at k3
      simp only [DeviceOptions.bicycle, DeviceOptions.default, Option.getD_some] at k3
      norm_num [hourNs] at k3
      subst k3
      exact ⟨by norm_num [hourNs], rfl⟩
    have hsec : (durSeconds b.chargeTime : ℝ) = 43200 := by
      rw [hbat.1]
      unfold durSeconds
      rw [show (12 * hourNs).tdiv 1000000000 = 43200 by decide, show (12 * hourNs).tmod 1000000000 = 0 by decide]
      norm_num
    refine ⟨?_, ?_⟩
    · show 0 < (durSeconds b.chargeTime : ℝ)
      rw [hsec]; norm_num
    · show 60 * 719 < lasts b
      unfold lasts
      rw [hsec, hbat.2]; norm_num

/-! ## Devices that never move -/

/-- A battery that is low after a second, and offline periods of at least a round. -/
structure Stuck (r : Random) (d : Device ℝ) : Prop where
  routes : d.navigator.routes ≠ []
  skip : d.navigator.skipOffline = false
  offline : d.navigator.offline = some r
  draws : ∀ u, 1 ≤ r.value u
  charge : 0 < (durSeconds d.battery.chargeTime : ℝ)
  lasts : lasts d.battery ≤ 1
  val : 0 ≤ d.battery.val
  distance : d.navigator.currentDistance = 0

theorem stuck_round {r : Random} {d d' : Device ℝ} (h : Stuck r d) {last t : Int} {rnd : NextRnd ℝ} {b : Bool}
    (hx : d.next (tickOf last t) rnd = .ok (d', b)) :
    Stuck r d' ∧ b = false ∧ Same d'.navigator d.navigator ∧ d.state.duration + 1 ≤ d'.state.duration := by
  have ht := C95.tick_ge last t
  have hs : 1 ≤ d.seconds (tickOf last t : ℝ) := by
    unfold seconds
    simp only [real_add, real_lit]
    have : (0 : ℝ) ≤ ((d.tick.toNat : ℚ) : ℝ) := by positivity
    linarith
  have hlow : (d.battery.next (d.seconds (tickOf last t))).isLow = true := by
    refine (isLow_iff (d.battery.next (d.seconds (tickOf last t))) h.charge).mpr ?_
    have h1 : C97.lasts (d.battery.next (d.seconds (tickOf last t))) = C97.lasts d.battery := rfl
    have h2 : (d.battery.next (d.seconds (tickOf last t))).val = d.battery.val + d.seconds (tickOf last t) := rfl
    rw [h1, h2]
    linarith [h.lasts, h.val]
  have hpow : ∀ n1, d.powered (d.seconds (tickOf last t)) rnd.low = .ok n1 →
      n1 = { d.navigator with offlineIndex := r.value rnd.low } := by
    intro n1 h1
    unfold powered at h1
    rw [if_pos hlow] at h1
    rcases toOffline_cases h1 with ⟨hc, -⟩ | ⟨-, r', hr', rfl⟩
    · rw [h.skip] at hc
      cases hc
    · rw [h.offline] at hr'
      cases hr'
      rfl
  have hloc : ∀ n1 n2 v c, d.powered (d.seconds (tickOf last t)) rnd.low = .ok n1 →
      n1.nextLocation (d.seconds (tickOf last t)) v rnd.loc = .ok (n2, c) →
      c = false ∧ n2 = { d.navigator with offlineIndex := r.value rnd.low - 1 } := by
    intro n1 n2 v c h1 h2
    have e := hpow n1 h1
    have ho : n1.nextOffline.2 = true := by
      rw [nextOffline_eq, e]
      have := h.draws rnd.low
      simp only [h.skip, Bool.not_false, Bool.true_and, decide_eq_true_eq]
      omega
    rw [nextLocation_offline n1 _ _ _ (by rw [e]; exact h.routes) ho] at h2
    cases h2
    rw [e]
    exact ⟨rfl, rfl⟩
  have hfin : ∀ n2, n2 = { d.navigator with offlineIndex := r.value rnd.low - 1 } → n2.isFinish = (n2, false) := by
    intro n2 e
    unfold isFinish
    rw [if_neg]
    rw [e]
    simp [h.distance]
  cases next_outcome hx with
  | idle hr => exact absurd hr h.routes
  | halted _ n1 n2 v h1 h2 h3 h4 =>
    obtain ⟨-, e⟩ := hloc _ _ _ _ h1 h3
    have ef : n2.isFinish.1 = { d.navigator with offlineIndex := r.value rnd.low - 1 } := by rw [hfin n2 e]; exact e
    refine ⟨⟨?_, ?_, ?_, h.draws, ?_, ?_, ?_, ?_⟩, rfl, ?_, ?_⟩
    · show n2.isFinish.1.routes ≠ []
      rw [ef]; exact h.routes
    · show n2.isFinish.1.skipOffline = false
      rw [ef]; exact h.skip
    · show n2.isFinish.1.offline = some r
      rw [ef]; exact h.offline
    · show 0 < (durSeconds (d.drained _).chargeTime : ℝ)
      rw [(drained_parts d _).1]; exact h.charge
    · show C97.lasts (d.drained _) ≤ 1
      unfold C97.lasts; rw [(drained_parts d _).1, (drained_parts d _).2]; exact h.lasts
    · show 0 ≤ (d.drained _).val
      unfold drained; rw [if_pos hlow]; simp [Battery.reset]
    · show n2.isFinish.1.currentDistance = 0
      rw [ef]; exact h.distance
    · show Same n2.isFinish.1 d.navigator
      rw [ef]; exact ⟨rfl, rfl, rfl, rfl, rfl, rfl, rfl⟩
    · show d.state.duration + 1 ≤ d.state.duration +. d.seconds (tickOf last t)
      rw [real_add]; linarith
  | lap _ n1 n2 v d' h1 h2 h3 h4 h5 =>
    obtain ⟨-, e⟩ := hloc _ _ _ _ h1 h3
    rw [hfin n2 e] at h4
    cases h4
  | moved _ n1 n2 n3 v ss d2 d' h1 h2 h3 h4 h5 hd2 h6 =>
    obtain ⟨e, -⟩ := hloc _ _ _ _ h1 h3
    cases e

/-- **C97, weak batteries.** A device with offline mode whose battery does not last longer than a second stays where it
is, whatever the ticker and the draws. -/
theorem stuck (r : Random) (d d' : Device ℝ) (h : Stuck r d) (start : Int) (l : List (Int × NextRnd ℝ))
    (hd : driveDevice d start l = .ok d') :
    C95.movedOnce d start l = false ∧ Same d'.navigator d.navigator ∧
      d.state.duration + l.length ≤ d'.state.duration := by
  induction l generalizing d start with
  | nil =>
    cases hd
    exact ⟨rfl, ⟨rfl, rfl, rfl, rfl, rfl, rfl, rfl⟩, by simp⟩
  | cons y l ih =>
    obtain ⟨t, x⟩ := y
    obtain ⟨⟨d1, b⟩, hx, hd⟩ := bind_eq_ok hd
    obtain ⟨s1, s2, s3, s4⟩ := stuck_round h hx
    subst s2
    obtain ⟨i1, i2, i3⟩ := ih d1 s1 t hd
    refine ⟨?_, i2.trans s3, ?_⟩
    · unfold C95.movedOnce; rw [hx]; exact i1
    · push_cast [List.length_cons]; linarith

/-- The bicycle tracker of the package with a battery that lasts a second. -/
noncomputable def weak : DeviceOptions ℝ := { DeviceOptions.bicycle with chargeTime := 1000000000 }

/-- It never moves, though offline periods are at most 60 rounds and it is driven for ever. -/
theorem weak_stuck (rnd : DeviceRnd ℝ) :
    ∃ d0 r, Device.new rnd (some weak) = .ok d0 ∧ d0.speed.min = 2 ∧ r.max = 60 ∧
      Stuck r (d0.addRoute [some C95.shortRoute]).1 ∧
      (d0.addRoute [some C95.shortRoute]).1.state.duration = 0 := by
  obtain ⟨d0, e⟩ := C33.new_ok C33.smallNumbers_real rnd weak 1 125 2 8 0 100
    (by simp [weak, DeviceOptions.bicycle])
    (by simp [weak, DeviceOptions.bicycle]) (by omega) (by omega) (by simp [weak, DeviceOptions.bicycle])
    (by simp [weak, DeviceOptions.bicycle]) (by omega) (by omega) (by omega)
    (by simp [weak, DeviceOptions.bicycle, DeviceOptions.default])
    (by simp [weak, DeviceOptions.bicycle, DeviceOptions.default]) (by omega) (by omega)
    ⟨by simp [weak, DeviceOptions.bicycle, DeviceOptions.default], by simp [weak, DeviceOptions.bicycle, DeviceOptions.default]⟩
    ⟨by simp [weak, DeviceOptions.bicycle, DeviceOptions.default], by simp [weak, DeviceOptions.bicycle, DeviceOptions.default]⟩
    (by simp [weak, DeviceOptions.bicycle, DeviceOptions.default])
    (by simp [weak, DeviceOptions.bicycle, DeviceOptions.default]) rfl rfl
  obtain ⟨n, s, b, st, k1, k2, k3, k4, rfl⟩ := Device.new_eq e
  have hsk : n.skipOffline = false := by
    obtain ⟨o1, o2, _, c1, c2, -, rfl⟩ := new_cases k1
    show o2.skipOffline = false
    rw [(validateElevation_frame c2).1, (validateOffline_frame c1).1]
    rfl
  have hbat : b.chargeTime = 1000000000 ∧ b.min = 0 ∧ b.val = 0 := by
    unfold Battery.new at k3
    simp only [weak, DeviceOptions.bicycle, DeviceOptions.default, Option.getD_some] at k3
    norm_num at k3
    subst k3
    exact ⟨rfl, rfl, rfl⟩
  have hone : (durSeconds b.chargeTime : ℝ) = 1 := by
    rw [hbat.1]
    unfold durSeconds
    norm_num
  obtain ⟨r, r1, r2, r3, r4, hb⟩ := C15.new_random k1 hsk
  have hmm : r.min = 2 ∧ r.max = 60 :=
    hb.2.2.1 (by decide) (by decide)
  refine ⟨_, r, e, ?_, hmm.2, ⟨?_, ?_, ?_, ?_, ?_, ?_, ?_, ?_⟩, ?_⟩
  · show s.min = 2
    unfold Speed.new validateAmplitude at k2
    simp only [weak, DeviceOptions.bicycle, DeviceOptions.default, Option.getD_some] at k2
    norm_num at k2
    subst k2
    rfl
  · obtain ⟨_, _, _, -, -, -, rfl⟩ := new_cases k1
    exact List.cons_ne_nil _ _
  · obtain ⟨_, _, _, -, -, -, rfl⟩ := new_cases k1
    exact hsk
  · obtain ⟨_, _, _, -, -, -, rfl⟩ := new_cases k1
    exact r1
  · intro u
    have := (C15.value_bounds r u r3 (by omega)).1
    omega
  · obtain ⟨_, _, _, -, -, -, rfl⟩ := new_cases k1
    show 0 < (durSeconds b.chargeTime : ℝ)
    rw [hone]; norm_num
  · obtain ⟨_, _, _, -, -, -, rfl⟩ := new_cases k1
    show lasts b ≤ 1
    unfold lasts
    rw [hone, hbat.2.1]; norm_num
  · obtain ⟨_, _, _, -, -, -, rfl⟩ := new_cases k1
    show 0 ≤ b.val
    rw [hbat.2.2]
  · obtain ⟨_, _, _, -, -, -, rfl⟩ := new_cases k1
    show (lit 0 : ℝ) = 0
    simp
  · obtain ⟨_, _, rfl, -⟩ := applyFor_eq k4
    obtain ⟨_, _, _, -, -, -, rfl⟩ := new_cases k1
    show (lit 0 : ℝ) = 0
    simp

/-- The full claim is false: the bicycle tracker with a battery that lasts a second never completes a lap. -/
theorem claim_fails : ¬ Claim := by
  intro h
  have hz : UnitDraws (fun _ => (0 : ℝ)) := fun _ => by norm_num
  obtain ⟨d0, r, e, hm, -, hs, hdur⟩ := weak_stuck ⟨"u", "s", "c", some, "x", fun _ => 0, fun _ => 0⟩
  obtain ⟨k, -, d1, d2, h1, h2, -, -, hl⟩ := h _ _ d0 [some C95.shortRoute] 0 (fun k => 1000 * k)
    (fun _ => ⟨0, 0, fun _ => 0, fun _ => 0, fun _ _ => 0⟩) e hz hz
    (fun r hr => by
      cases List.mem_singleton.mp hr
      refine ⟨C95.short_wf, ?_⟩
      show 0 < degLen * (1 / 100000)
      linarith [degLen_gt])
    hs.routes (by rw [hm]; norm_num) (fun _ => ⟨hz, hz, fun _ => hz⟩) 0
  have := (stuck r _ d2 hs _ _ h2).2.2
  rw [hl, hdur] at this
  unfold rounds at this
  simp at this
  have hk : (0 : ℝ) ≤ k := Nat.cast_nonneg k
  linarith

end C97
end GpsGen
