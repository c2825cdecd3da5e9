import Verif.Theorems.C99
import Verif.Theorems.C97Double
import Verif.Theorems.C97Real
/-!
# C99, step by step, and at the end of a lap

Two calls of `Next` in a row with ticks of the same length: the values change by at most `k * (max - min)` times the tick divided by
the trip time (`steps_partial`). At the end of a lap the curves are drawn anew and the values jump: the bicycle tracker of the
package, on a track of more than 111 km and in a generator that ticks every second, goes from 2 m/s to 8 m/s within one second
(`bicycle_jumps`, `claim_fails`).
-/

namespace GpsGen
namespace C99
open Device Finset

/-! ## Specification -/

/-- The full claim: two calls of `Next` in a row with the same tick. -/
def Claim : Prop := ∀ (d d1 e : Device ℝ) (tick : ℝ) (rnd rnd' : NextRnd ℝ) (b b' : Bool), Reach d → d.navigator.routes ≠ [] →
  d.tick = 0 → d.avgT = C61.tripTime d → SaneOp (.next tick rnd) → SaneOp (.next tick rnd') →
  d.next tick rnd = .ok (d1, b) → d1.next tick rnd' = .ok (e, b') →
  |e.state.speed - d1.state.speed| ≤ steepness d.speed.gen * (tick / C61.tripTime d)

/-! ## Step by step -/

theorem next_tick {d d' : Device ℝ} {tick : ℝ} {rnd : NextRnd ℝ} {b : Bool} (ht : d.tick = 0)
    (h : d.next tick rnd = .ok (d', b)) : d'.tick = 0 := by
  cases next_outcome h with
  | idle _ => exact ht
  | halted _ n1 n2 v h1 h2 h3 h4 => rfl
  | lap _ n1 n2 v d' h1 h2 h3 h4 h5 =>
    obtain ⟨st, -, rfl⟩ := updateState_eq h5
    rfl
  | moved _ n1 n2 n3 v ss d2 d' h1 h2 h3 h4 h5 hd2 h6 =>
    obtain ⟨st, -, rfl⟩ := updateState_eq h6
    subst hd2
    split <;> rfl

theorem length_now {d : Device ℝ} (h : d.tick = 0) (tick : ℝ) : C61.length d tick = tick := by
  unfold C61.length
  rw [h]
  simp

/-- **C99, step by step (partial).** Two calls of `Next` in a row with the same tick, of which the first moves the device: speed,
elevation and sensor values change by at most the steepness of their curve times the tick divided by the trip time.

Missing for the full claim: the end of a lap (`claim_fails`). -/
theorem steps_partial (d d1 e : Device ℝ) (tick : ℝ) (rnd rnd' : NextRnd ℝ) (b : Bool) (h : Reach d)
    (hr : d.navigator.routes ≠ []) (ht : d.tick = 0) (hT : d.avgT = C61.tripTime d) (ho : SaneOp (.next tick rnd))
    (hn : d.next tick rnd = .ok (d1, true)) (hn' : d1.next tick rnd' = .ok (e, b)) :
    |e.state.speed - d1.state.speed| ≤ steepness d.speed.gen * (tick / C61.tripTime d) ∧
    (b = true →
      |e.navigator.elevation.valY - d1.navigator.elevation.valY| ≤
        steepness d.navigator.elevation.gen * (tick / C61.tripTime d) ∧
      e.sensors.length = d.sensors.length ∧ d1.sensors.length = d.sensors.length ∧
      ∀ (i : Nat) (s s1 s2 : Sensor ℝ), d.sensors[i]? = some s → d1.sensors[i]? = some s1 → e.sensors[i]? = some s2 →
        |s2.valY - s1.valY| ≤ steepness s.gen * (tick / C61.tripTime d)) := by
  have hi := reach_inv h
  have g := gradual_partial d d1 d1 e tick tick rnd rnd' b h hr ho hn (.refl _) ho.1 hn'
  have hd : d1.state.duration = d.state.duration + tick := by
    rcases C63.next_lap d d1 tick rnd true hr hn with ⟨-, hc⟩ | hs
    · cases hc
    · rw [hs.duration]
      show _ + C61.length d tick = _
      rw [length_now ht]
  have hA : d1.avgT = d.avgT := (C97.settled_next (d := d) hT hn).2
  have hp : |param d1 tick - param d tick| ≤ tick / C61.tripTime d := by
    have ha := hi.avg hr
    unfold param
    rw [length_now ht, length_now (next_tick ht hn), hd, hA]
    refine (abs_min_sub_min_le_max _ _ _ _).trans ?_
    rw [sub_self, abs_zero, ← sub_div, ← hT]
    have : d.state.duration + tick + tick + tick - (d.state.duration + tick + tick) = tick := by ring
    rw [this, abs_of_nonneg (div_nonneg ho.1 ha.le)]
    exact max_le le_rfl (div_nonneg ho.1 ha.le)
  have st : ∀ {c : Curve ℝ} {k : ℕ}, GoodCurve c k → 0 ≤ steepness c := by
    rintro c k ⟨y, hy, -⟩
    unfold steepness
    rw [hy.len]
    push_cast
    have := Nat.cast_nonneg (α := ℝ) k
    exact mul_nonneg (by linarith) (abs_nonneg _)
  refine ⟨g.1.trans ?_, fun hb => ?_⟩
  · obtain ⟨⟨k, hk⟩, -⟩ := hi.speed
    exact mul_le_mul_of_nonneg_left hp (st hk)
  · obtain ⟨g1, g2, g3, g4⟩ := g.2 hb
    refine ⟨g1.trans ?_, g2, g3, fun i s s1 s2 h1 h2 h3 => (g4 i s s1 s2 h1 h2 h3).trans ?_⟩
    · obtain ⟨⟨k, hk⟩, -⟩ := hi.nav.elev
      exact mul_le_mul_of_nonneg_left hp (st hk)
    · obtain ⟨⟨k, hk⟩, -⟩ := hi.sensors _ (List.mem_of_getElem? h1)
      exact mul_le_mul_of_nonneg_left hp (st hk)

/-! ## The end of a lap -/

/-- A track of one degree along the equator. -/
noncomputable def longTrack : Track ℝ := eqTrack "t" "c" 1 2

/-- A route with this track. -/
noncomputable def longRoute : Route ℝ := ⟨"r", degLen, "c", "", [longTrack], none, 0⟩

theorem long_wf : WFRoute longRoute := by
  have e : degLen * |(2 : ℝ) - 1| = degLen := by norm_num
  refine ⟨?_, ?_⟩
  · intro t ht
    cases List.mem_singleton.mp ht
    refine ⟨?_, ?_⟩
    · intro s hs
      cases List.mem_singleton.mp hs
      exact mul_nonneg (by linarith [degLen_gt]) (abs_nonneg _)
    · show degLen * |(2 : ℝ) - 1| = _
      simp [longTrack, eqTrack, eqSeg]
  · show degLen = _
    simp [longRoute, longTrack, eqTrack, e]

/-- What is known about the bicycle tracker whose curve has the height `v` everywhere. -/
structure Flat (v : ℝ) (d : Device ℝ) : Prop where
  reach : Reach d
  routes : d.navigator.routes ≠ []
  dist : ∀ r ∈ d.navigator.routes, 0 < r.dist
  tick : d.tick = 0
  settled : C97.Settled d
  avgT : d.avgT = degLen / 5
  bounds : d.speed.min = 2 ∧ d.speed.max = 8
  gen : d.speed.gen.min = 2 ∧ d.speed.gen.max = 8 ∧ d.speed.gen.mode = modeDefault
  shape : Shaped d.speed.gen 7 (fun _ => v)

theorem flat_value {v : ℝ} {s s' : Speed ℝ} {t : ℝ} (hb : s.min = 2 ∧ s.max = 8) (hs : Shaped s.gen 7 (fun _ => v))
    (h : s.next t = .ok s') : s'.value = v := by
  have hst : ¬ s.isStatic = true := by
    unfold Speed.isStatic
    rw [hb.1, hb.2]
    simp
  unfold Speed.next at h
  rw [if_neg hst] at h
  obtain ⟨⟨g, p⟩, hp, h⟩ := bind_eq_ok h
  cases h
  have e1 : Speed.value { s with val := p.y, gen := g } = p.y := if_neg hst
  rw [e1]
  obtain ⟨c', hc⟩ := shaped_point hs t
  cases hc.symm.trans hp
  show ∑ i ∈ range (7 + 1), v * bern 7 i t = v
  rw [← mul_sum, bern_sum, mul_one]

/-- A round: the speed published is that of the old curve. -/
theorem flat_next {v : ℝ} {d d' : Device ℝ} (h : Flat v d) {tick : ℝ} {rnd : NextRnd ℝ} {b : Bool} (h1 : 1 ≤ tick)
    (hu : C95.UnitRnd rnd) (h8 : rnd.speed = fun _ => 1) (hn : d.next tick rnd = .ok (d', b)) :
    d'.state.speed = v ∧ (Flat v d' ∧ 0 < d'.state.duration ∨ Flat 8 d') := by
  have ho : SaneOp (.next tick rnd) := ⟨by linarith, hu.1, hu.2, hu.3⟩
  obtain ⟨sp, v1, v2, -⟩ := evaluated h.routes hn
  have hdist : ∀ r ∈ d'.navigator.routes, 0 < r.dist := by
    intro r hr
    rcases next_routes hn with e | e <;> rw [e] at hr
    · exact h.dist r hr
    · obtain ⟨q, hq, rfl⟩ := List.mem_map.mp hr
      rw [C97.touch_dist]
      exact h.dist q hq
  have hR : Reach d' := .step h.reach (op := .next tick rnd) ho (by simp only [Device.step, hn]; rfl) hdist
  have hS := C97.settled_next h.settled hn
  have hb := (C27.next_speed (reach_inv h.reach) (by linarith) hn)
  refine ⟨v2.trans (flat_value h.bounds h.shape v1), ?_⟩
  have mk : ∀ w, (d'.speed.gen.min = 2 ∧ d'.speed.gen.max = 8 ∧ d'.speed.gen.mode = modeDefault) →
      Shaped d'.speed.gen 7 (fun _ => w) → Flat w d' := fun w g1 g2 =>
    ⟨hR, next_nonempty h.routes hn, hdist, next_tick h.tick hn, hS.1, hS.2.trans h.avgT,
      ⟨hb.1.trans h.bounds.1, hb.2.1.trans h.bounds.2⟩, g1, g2⟩
  rcases C63.next_lap d d' tick rnd b h.routes hn with ⟨hl, -⟩ | hs
  · right
    have hlen : d.speed.gen.points.length = 8 := h.shape.len
    have hg := hl.speed (by intro hc; rw [hc] at hlen; cases hlen)
    rw [hlen, h.gen.1, h.gen.2.1, h.gen.2.2, h8] at hg
    refine mk 8 (by rw [hg]; exact ⟨rfl, rfl, rfl⟩) ?_
    have := shaped_new 2 8 8 modeDefault (fun _ => 1) (by omega)
    rw [hg]
    refine ⟨this.len, fun i hi => (this.get i hi).trans ?_⟩
    have e : heightAt 2 8 modeDefault (8 : Int).toNat (fun _ => 1) i = 8 := by
      unfold heightAt
      rw [if_neg (fun hc => absurd hc.1 (by decide)), if_neg (fun hc => absurd hc.1 (by decide))]
      norm_num
    rw [e]
    rfl
  · left
    obtain ⟨k1, k2, k3, k4⟩ := hs.speed
    refine ⟨mk v ⟨k2.trans h.gen.1, k3.trans h.gen.2.1, k4.trans h.gen.2.2⟩ (shaped_congr h.shape k1), ?_⟩
    rw [hs.duration]
    show 0 < d.state.duration + C61.length d tick
    rw [length_now h.tick]
    linarith [(reach_inv h.reach).dur]

theorem drive_prefix {d e : Device ℝ} {last : Int} {l : List (Int × NextRnd ℝ)} {y : Int × NextRnd ℝ}
    (h : driveDevice d last (l ++ [y]) = .ok e) : ∃ d1, driveDevice d last l = .ok d1 := by
  induction l generalizing d last with
  | nil => exact ⟨d, rfl⟩
  | cons z l ih =>
    obtain ⟨t, r⟩ := z
    obtain ⟨⟨d2, b⟩, h1, h2⟩ := bind_eq_ok h
    obtain ⟨d1, h3⟩ := ih h2
    exact ⟨d1, by simp only [driveDevice, h1]; exact h3⟩

theorem drive_before {d e : Device ℝ} {start : Int} {t : ℕ → Int} {x : ℕ → NextRnd ℝ} {k j : ℕ} (hj : j ≤ k)
    (h : driveDevice d start (C97.rounds t x k) = .ok e) : ∃ d1, driveDevice d start (C97.rounds t x j) = .ok d1 := by
  induction k generalizing e with
  | zero => cases Nat.le_zero.mp hj; exact ⟨e, h⟩
  | succ k ih =>
    rcases Nat.lt_or_ge k j with hk | hk
    · cases (by omega : j = k + 1); exact ⟨e, h⟩
    · rw [C97.rounds_succ] at h
      obtain ⟨d1, h1⟩ := drive_prefix h
      exact ih hk h1

theorem drive_next {d a b : Device ℝ} {start : Int} {t : ℕ → Int} {x : ℕ → NextRnd ℝ} {k : ℕ}
    (h1 : driveDevice d start (C97.rounds t x k) = .ok a) (h2 : driveDevice d start (C97.rounds t x (k + 1)) = .ok b) :
    ∃ m, a.next (tickOf (C97.before start t k) (t k)) (x k) = .ok (b, m) := by
  rw [C97.drive_succ h1] at h2
  obtain ⟨⟨b', m⟩, h3, h4⟩ := map_eq_ok h2
  cases h4
  exact ⟨m, h3⟩

/-- As long as no lap ends the curve is the old one. -/
theorem first_lap {d : Device ℝ} (h : Flat 2 d) {start : Int} {t : ℕ → Int} {x : ℕ → NextRnd ℝ}
    (hu : ∀ k, C95.UnitRnd (x k)) (h8 : ∀ k, (x k).speed = fun _ => 1) (k : ℕ) {e : Device ℝ}
    (he : driveDevice d start (C97.rounds t x k) = .ok e) :
    Flat 2 e ∨ ∃ j a b, j < k ∧ driveDevice d start (C97.rounds t x j) = .ok a ∧
      driveDevice d start (C97.rounds t x (j + 1)) = .ok b ∧ Flat 2 a ∧ Flat 8 b ∧ b.state.speed = 2 := by
  induction k generalizing e with
  | zero => cases he; exact Or.inl h
  | succ k ih =>
    obtain ⟨a, ha⟩ := drive_before (Nat.le_succ k) he
    rcases ih ha with hf | ⟨j, a', b', hj, r⟩
    · obtain ⟨m, hn⟩ := drive_next ha he
      obtain ⟨p, q | q⟩ := flat_next hf (C95.tick_ge _ _) (hu k) (h8 k) hn
      · exact Or.inl q.1
      · exact Or.inr ⟨k, a, e, Nat.lt_succ_self k, ha, he, hf, q, p⟩
    · exact Or.inr ⟨j, a', b', Nat.lt_succ_of_lt hj, r⟩

/-- The random numbers of the device: all 0. -/
noncomputable def zeros : DeviceRnd ℝ := ⟨"u", "s", "c", some, "x", fun _ => 0, fun _ => 0⟩

/-- The random numbers of all rounds: 1. -/
noncomputable def ones : NextRnd ℝ := ⟨0, 0, fun _ => 1, fun _ => 1, fun _ _ => 1⟩

theorem tick_one (k : ℕ) : (tickOf (C97.before 0 (fun k => 1000000000 * (k + 1)) k) (1000000000 * (k + 1)) : ℝ) = 1 := by
  have e : C97.before 0 (fun k => 1000000000 * ((k : Int) + 1)) k - 1000000000 * ((k : Int) + 1) = -1000000000 := by
    cases k with
    | zero => rfl
    | succ k =>
      show 1000000000 * ((k : Int) + 1) - 1000000000 * (((k + 1 : ℕ) : Int) + 1) = _
      push_cast
      ring
  have hd : (durSeconds (-1000000000) : ℝ) = -1 := by
    unfold durSeconds
    rw [show (-1000000000 : Int).tdiv 1000000000 = -1 by decide, show (-1000000000 : Int).tmod 1000000000 = 0 by decide]
    simp
  unfold tickOf
  simp only
  rw [e, hd]
  simp

theorem bicycle_flat (d0 : Device ℝ) (e : Device.new zeros (some DeviceOptions.bicycle) = .ok d0) :
    Flat 2 (d0.addRoute [some longRoute]).1 := by
  have hz : UnitDraws (fun _ => (0 : ℝ)) := fun _ => by norm_num
  have hR : Reach d0 := .init hz hz e
  have hpos : 0 < degLen := by linarith [degLen_gt]
  have hr : (d0.addRoute [some longRoute]).1.navigator.routes = [touchRoute longRoute] := by
    obtain ⟨n, s, b, st, k1, -, -, -, rfl⟩ := Device.new_eq e
    obtain ⟨_, _, _, -, -, -, rfl⟩ := new_cases k1
    rfl
  have hdist : ∀ r ∈ (d0.addRoute [some longRoute]).1.navigator.routes, 0 < r.dist := by
    intro r hm
    rw [hr] at hm
    cases List.mem_singleton.mp hm
    exact hpos
  have hsp : ∃ g, (d0.addRoute [some longRoute]).1.speed = ⟨2, 8, 0, g⟩ ∧ g = Curve.new 2 8 8 modeDefault (fun _ => 0) := by
    obtain ⟨n, s, b, st, k1, k2, k3, k4, rfl⟩ := Device.new_eq e
    obtain ⟨_, _, _, -, -, -, rfl⟩ := new_cases k1
    refine ⟨_, ?_, rfl⟩
    show s = _
    unfold Speed.new validateAmplitude at k2
    simp only [DeviceOptions.bicycle, DeviceOptions.default, Option.getD_some] at k2
    norm_num at k2
    subst k2
    simp [zeros]
  obtain ⟨g, h1, h2⟩ := hsp
  have hset : C97.Settled (d0.addRoute [some longRoute]).1 := by
    refine (C61.trip_time d0).1 _ ?_
    obtain ⟨n, s, b, st, k1, -, -, -, rfl⟩ := Device.new_eq e
    obtain ⟨_, _, _, -, -, -, rfl⟩ := new_cases k1
    rfl
  have hlen : (d0.addRoute [some longRoute]).1.navigator.distance = degLen := by
    obtain ⟨n, s, b, st, k1, -, -, -, rfl⟩ := Device.new_eq e
    obtain ⟨_, _, _, -, -, -, rfl⟩ := new_cases k1
    show (lit 0 : ℝ) +. degLen = degLen
    simp
  have hs := shaped_new 2 8 8 modeDefault (fun _ => 0) (by omega)
  refine ⟨.step hR (op := .addRoute [some longRoute]) (fun r hm => ?_) rfl hdist, by rw [hr]; simp, hdist, ?_, hset, ?_, ?_, ?_, ?_⟩
  · cases List.mem_singleton.mp hm
    exact long_wf
  · obtain ⟨n, s, b, st, k1, -, -, -, rfl⟩ := Device.new_eq e
    obtain ⟨_, _, _, -, -, -, rfl⟩ := new_cases k1
    rfl
  · rw [hset, hlen, h1]
    norm_num
  · rw [h1]
    exact ⟨rfl, rfl⟩
  · rw [h1, h2]
    exact ⟨rfl, rfl, rfl⟩
  · rw [h1, h2]
    refine ⟨hs.len, fun i hi => (hs.get i hi).trans ?_⟩
    have e : heightAt 2 8 modeDefault (8 : Int).toNat (fun _ => 0) i = 2 := by
      unfold heightAt
      rw [if_neg (fun hc => absurd hc.1 (by decide)), if_neg (fun hc => absurd hc.1 (by decide))]
      norm_num
    rw [e]
    rfl

/-- **At the end of a lap the speed jumps.** The bicycle tracker of the package on a track of one degree, in a generator that ticks
every second: within one second it goes from 2 m/s to 8 m/s, the trip takes more than five hours. -/
theorem bicycle_jumps : ∃ (d0 a b c : Device ℝ) (j : ℕ), Device.new zeros (some DeviceOptions.bicycle) = .ok d0 ∧
    driveDevice (d0.addRoute [some longRoute]).1 0 (C97.rounds (fun k => 1000000000 * (k + 1)) (fun _ => ones) j) = .ok a ∧
    driveDevice (d0.addRoute [some longRoute]).1 0 (C97.rounds (fun k => 1000000000 * (k + 1)) (fun _ => ones) (j + 1)) = .ok b ∧
    driveDevice (d0.addRoute [some longRoute]).1 0 (C97.rounds (fun k => 1000000000 * (k + 1)) (fun _ => ones) (j + 2)) = .ok c ∧
    Flat 2 a ∧ Flat 8 b ∧ b.state.speed = 2 ∧ c.state.speed = 8 := by
  have hz : UnitDraws (fun _ => (0 : ℝ)) := fun _ => by norm_num
  have ho : UnitDraws (fun _ => (1 : ℝ)) := fun _ => by norm_num
  have hu : C95.UnitRnd ones := ⟨ho, ho, fun _ => ho⟩
  obtain ⟨d0, e, hf⟩ := C97.bicycle_forever zeros hz hz [some longRoute]
    (fun r hr => by
      cases List.mem_singleton.mp hr
      exact ⟨long_wf, show 0 < degLen by linarith [degLen_gt]⟩)
    0 (fun k => 1000000000 * (k + 1)) (fun _ => ones) (fun _ => hu) (fun k => by rw [tick_one]; norm_num)
  have hfl := bicycle_flat d0 e
  have hf := hf hfl.routes
  have hex : ∃ j a b, driveDevice (d0.addRoute [some longRoute]).1 0 (C97.rounds (fun k => 1000000000 * (k + 1)) (fun _ => ones) j) = .ok a ∧
      driveDevice (d0.addRoute [some longRoute]).1 0 (C97.rounds (fun k => 1000000000 * (k + 1)) (fun _ => ones) (j + 1)) = .ok b ∧
      Flat 2 a ∧ Flat 8 b ∧ b.state.speed = 2 := by
    obtain ⟨k, -, d1, d2, h1, h2, -, -, hl⟩ := hf 0
    rcases first_lap hfl (fun _ => hu) (fun _ => rfl) k h1 with g | ⟨j, a, b, -, r⟩
    · obtain ⟨m, hn⟩ := drive_next h1 h2
      obtain ⟨p, q | q⟩ := flat_next g (C95.tick_ge _ _) hu rfl hn
      · rw [hl] at q
        exact absurd q.2 (by simp)
      · exact ⟨k, d1, d2, h1, h2, g, q, p⟩
    · exact ⟨j, a, b, r⟩
  obtain ⟨j, a, b, ha, hb, h1, h2, h3⟩ := hex
  obtain ⟨k, hk, -, d2, -, hd2, -⟩ := hf (j + 2)
  obtain ⟨c, hc⟩ := drive_before (show j + 2 ≤ k + 1 by omega) hd2
  obtain ⟨m, hn⟩ := drive_next hb hc
  exact ⟨d0, a, b, c, j, e, ha, hb, hc, h1, h2, h3, (flat_next h2 (C95.tick_ge _ _) hu rfl hn).1⟩

/-- The full claim is false. -/
theorem claim_fails : ¬ Claim := by
  intro h
  obtain ⟨d0, a, b, c, j, -, ha, hb, hc, h1, h2, h3, h4⟩ := bicycle_jumps
  have ho : UnitDraws (fun _ => (1 : ℝ)) := fun _ => by norm_num
  obtain ⟨m, hn⟩ := drive_next ha hb
  obtain ⟨m', hn'⟩ := drive_next hb hc
  rw [tick_one] at hn hn'
  have hs : SaneOp (.next 1 ones) := ⟨by norm_num, ho, ho, fun _ => ho⟩
  have hT : C61.tripTime a = degLen / 5 := (show a.avgT = C61.tripTime a from h1.settled).symm.trans h1.avgT
  have := h a b c 1 ones ones m m' h1.reach h1.routes h1.tick h1.settled hs hs hn hn'
  rw [h3, h4, hT] at this
  unfold steepness at this
  rw [h1.shape.len, h1.gen.1, h1.gen.2.1] at this
  have hd := degLen_gt
  have hd5 : 0 < degLen / 5 := by linarith
  rw [← mul_div_assoc, le_div_iff₀ hd5] at this
  norm_num at this
  linarith

/-! ## Concrete cases -/

/-- The bound is sharp: a curve with the control points 0 and 1 takes the value `t` at `t`, so it changes by exactly the steepness
times the difference of the parameters. -/
theorem sharp (t u : ℝ) : ∃ c c' p q, Curve.point (Curve.new 0 1 2 modeDefault (fun i => (i : ℝ))) t = .ok (c, p) ∧
    c.point u = .ok (c', q) ∧ |q.y - p.y| = steepness c * |u - t| ∧ steepness c = 1 := by
  have hs : Shaped (Curve.new 0 1 2 modeDefault (fun i => (i : ℝ))) 1 (fun i => (i : ℝ)) := by
    have := shaped_new 0 1 2 modeDefault (fun i => (i : ℝ)) (by omega)
    refine ⟨this.len, fun i hi => (this.get i hi).trans ?_⟩
    have e : heightAt 0 1 modeDefault (2 : Int).toNat (fun i => (i : ℝ)) i = i := by
      unfold heightAt
      rw [if_neg (fun hc => absurd hc.1 (by decide)), if_neg (fun hc => absurd hc.1 (by decide))]
      norm_num
    rw [e]
    rfl
  obtain ⟨c, hc⟩ := shaped_point hs t
  obtain ⟨k1, k2, k3, -⟩ := C63.kept_point hc
  have hs' := shaped_congr hs k1
  obtain ⟨c', hc'⟩ := shaped_point hs' u
  have hst : steepness c = 1 := by
    unfold steepness
    rw [hs'.len, k2, k3]
    norm_num [Curve.new]
  refine ⟨c, c', _, _, hc, hc', ?_, hst⟩
  rw [hst]
  simp [sum_range_succ, bern]

/-- The hypotheses of `steps_partial` are met: the first call moves the bicycle tracker on its track of one degree. -/
theorem bicycle_moves (d0 : Device ℝ) (e : Device.new zeros (some DeviceOptions.bicycle) = .ok d0) :
    ∃ d1 e1 b, (d0.addRoute [some longRoute]).1.next 1 ones = .ok (d1, true) ∧ d1.next 1 ones = .ok (e1, b) := by
  have hne : Segment.isEmpty (eqSeg 1 2 0 (-1)) = false := by
    have := degLen_gt
    have e : degLen * |(2 : ℝ) - 1| ≠ 0 := by norm_num; linarith
    unfold Segment.isEmpty eqSeg
    simp only [real_eq, real_lit, decide_eq_false_iff_not]
    simpa using e
  have hfl := bicycle_flat d0 e
  have hsafe : C54.DSafe (d0.addRoute [some longRoute]).1 := by
    obtain ⟨k1, k2⟩ := C54.nav_safe (C54.new_safe e) (.addRoute [some longRoute]) (fun _ => by simp) rfl
    unfold Device.addRoute
    generalize d0.navigator.addRoute [some longRoute] = q at *
    obtain ⟨n, _ | _⟩ := q
    · exact k2
    · exact k1
  obtain ⟨d1, b, h1, hs1⟩ := C54.next_safe hsafe 1 ones
  obtain ⟨e1, b', h2, -⟩ := C54.next_safe hs1 1 ones
  have hnav : ∃ r, (d0.addRoute [some longRoute]).1.navigator.route? = some r ∧
      (d0.addRoute [some longRoute]).1.navigator.nextOffline.2 = false ∧
      (d0.addRoute [some longRoute]).1.navigator.currentSegmentDistance = 0 ∧
      (d0.addRoute [some longRoute]).1.navigator.curSeg = eqSeg 1 2 0 (-1) := by
    obtain ⟨n, s, b, st, k1, -, -, -, rfl⟩ := Device.new_eq e
    obtain ⟨_, _, _, -, -, -, rfl⟩ := new_cases k1
    refine ⟨_, rfl, ?_, ?_, ?_⟩
    · rw [Navigator.nextOffline_eq]
      have : ∀ q : Bool, (!q && decide ((0 : Int) > 0)) = false := by decide
      exact this _
    · show (lit 0 : ℝ) = 0
      simp
    · exact if_neg (by rw [hne]; simp)
  have hbat : ((d0.addRoute [some longRoute]).1.battery.next (seconds (d0.addRoute [some longRoute]).1 1)).isLow = false := by
    obtain ⟨n, s, b, st, k1, k2, k3, k4, rfl⟩ := Device.new_eq e
    obtain ⟨_, _, _, -, -, -, rfl⟩ := new_cases k1
    unfold Battery.new at k3
    simp only [DeviceOptions.bicycle, DeviceOptions.default, Option.getD_some] at k3
    norm_num [hourNs] at k3
    subst k3
    have hsec : (durSeconds 43200000000000 : ℝ) = 43200 := by
      unfold durSeconds
      rw [show (43200000000000 : Int).tdiv 1000000000 = 43200 by decide, show (43200000000000 : Int).tmod 1000000000 = 0 by decide]
      norm_num
    rw [Bool.eq_false_iff]
    intro hc
    rw [show seconds _ (1 : ℝ) = 1 from length_now hfl.tick 1] at hc
    have hv := (C97.isLow_iff _ (by
      show 0 < (durSeconds 43200000000000 : ℝ)
      rw [hsec]; norm_num)).mp hc
    replace hv : (durSeconds 43200000000000 : ℝ) * (100 - 0) / 100 ≤ 0 + 1 := hv
    rw [hsec] at hv
    norm_num at hv
  obtain ⟨r, r1, r2, r3, r4⟩ := hnav
  have hp : ∀ n1, powered (d0.addRoute [some longRoute]).1 (seconds (d0.addRoute [some longRoute]).1 1) ones.low = .ok n1 →
      n1 = (d0.addRoute [some longRoute]).1.navigator := by
    intro n1 hn1
    unfold powered at hn1
    rw [hbat] at hn1
    cases hn1
    rfl
  have hsec : seconds (d0.addRoute [some longRoute]).1 (1 : ℝ) = 1 := length_now hfl.tick 1
  have hland : ∀ n2 x (v : Speed ℝ), (d0.addRoute [some longRoute]).1.speed.next (phase (d0.addRoute [some longRoute]).1 (seconds (d0.addRoute [some longRoute]).1 1)) = .ok v →
      (d0.addRoute [some longRoute]).1.navigator.nextLocation (seconds (d0.addRoute [some longRoute]).1 1) v.value x ≠ .ok (n2, false) := by
    intro n2 x v hv hc
    rw [hsec, flat_value hfl.bounds hfl.shape hv, Navigator.nextLocation_land _ _ _ _ r r1 r2 ?_] at hc
    · cases hc
    · refine ⟨?_, ?_⟩
      · rw [r4]
        exact hne
      · rw [r3, r4]
        have := degLen_gt
        have e : degLen * |(2 : ℝ) - 1| = degLen := by norm_num
        simp only [eqSeg, e, real_add, real_mul, real_le, decide_eq_true_eq]
        linarith
  refine ⟨d1, e1, b', ?_, h2⟩
  rw [h1]
  cases b with
  | true => rfl
  | false =>
    cases next_outcome h1 with
    | idle hr => exact absurd hr hfl.routes
    | halted _ n1 n2 v g1 g2 g3 _ => rw [hp n1 g1] at g3; exact absurd g3 (hland _ _ _ g2)
    | lap _ n1 n2 v _ g1 g2 g3 _ _ => rw [hp n1 g1] at g3; exact absurd g3 (hland _ _ _ g2)

end C99
end GpsGen
