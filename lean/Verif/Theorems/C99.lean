import Verif.Theorems.C61
import Verif.Theorems.C63
/-!
# C99: speed, elevation and sensors change gradually

Claim: from one step to the next, the speed, the elevation and the sensor values of a device change by at most `k * (max - min)` times
the part of the trip time that passes, where `k` is the number of control points of the curve less one.

Exact arithmetic. It holds within a lap (`gradual_partial`, `steps_partial`), over any number of steps, offline periods and missed
ticks. It fails at the end of a lap, where the curves are drawn anew (`C99Jump`).
-/

namespace GpsGen
namespace C99
open Device Finset

/-! ## Specification -/

/-- The most a curve changes per unit of its parameter: the number of control points less one, times the distance of the bounds. -/
noncomputable def steepness (c : Curve ℝ) : ℝ := ((c.points.length : ℝ) - 1) * |c.max - c.min|

/-- The part of the trip time at which a call of `Next` evaluates the curves (C61). -/
noncomputable def param (d : Device ℝ) (tick : ℝ) : ℝ :=
  min ((d.state.duration + C61.length d tick + C61.length d tick) / d.avgT) 1

/-- Calls of `Next` that go on with a lap, and calls that find the device locked. The clock of the lap tells that the lap goes on. -/
inductive Stretch : Device ℝ → Device ℝ → Prop
  | refl (d) : Stretch d d
  | next {d e e' tick rnd b} (h : Stretch d e) (ho : SaneOp (.next tick rnd)) (hn : e.next tick rnd = .ok (e', b))
      (hl : e'.state.duration ≠ 0) : Stretch d e'
  | skip {d e} (h : Stretch d e) : Stretch d e.skipTick

/-! ## Curves -/

/-- The value of a curve with heights `y`. -/
noncomputable def curveAt (k : ℕ) (y : ℕ → ℝ) (t : ℝ) : ℝ := ∑ i ∈ range (k + 1), y i * bern k i t

theorem bern_above (k : ℕ) (t : ℝ) : bern k (k + 1) t = 0 := by
  unfold bern; rw [Nat.choose_succ_self]; simp

/-- De Casteljau: a curve is the mean of the curves without the last and without the first point. -/
theorem curveAt_succ (k : ℕ) (y : ℕ → ℝ) (t : ℝ) :
    curveAt (k + 1) y t = (1 - t) * curveAt k y t + t * curveAt k (fun i => y (i + 1)) t := by
  have h1 : ∀ i ∈ range (k + 1), y (i + 1) * bern (k + 1) (i + 1) t =
      t * (y (i + 1) * bern k i t) + (1 - t) * (y (i + 1) * bern k (i + 1) t) := by
    intro i hi
    have hi : i ≤ k := by simp at hi; omega
    unfold bern
    rw [Nat.choose_succ_succ, show k + 1 - (i + 1) = k - i by omega]
    push_cast
    rcases Nat.lt_or_ge i k with h | h
    · rw [show k - i = (k - (i + 1)) + 1 by omega]; ring
    · have : i = k := by omega
      subst this
      rw [Nat.choose_succ_self]; simp; ring
  have h2 : curveAt k y t = ∑ i ∈ range (k + 1), y (i + 1) * bern k (i + 1) t + y 0 * bern k 0 t := by
    rw [← sum_range_succ' (fun i => y i * bern k i t)]
    unfold curveAt
    rw [sum_range_succ _ (k + 1), bern_above, mul_zero, add_zero]
  unfold curveAt at h2 ⊢
  rw [sum_range_succ', sum_congr rfl h1, sum_add_distrib, ← mul_sum, ← mul_sum, h2]
  have h3 : bern (k + 1) 0 t = (1 - t) * bern k 0 t := by
    unfold bern; simp [pow_succ]; ring
  rw [h3]; ring

theorem curveAt_gap (k : ℕ) (y : ℕ → ℝ) (a b s t : ℝ) (hy : ∀ i, i ≤ k → a ≤ y i ∧ y i ≤ b) (hs : 0 ≤ s ∧ s ≤ 1)
    (ht : 0 ≤ t ∧ t ≤ 1) : |curveAt k y t - curveAt k y s| ≤ k * (b - a) * |t - s| := by
  induction k generalizing y with
  | zero => simp [curveAt, bern]
  | succ k ih =>
    have h1 := ih y (fun i hi => hy i (by omega))
    have h2 := ih (fun i => y (i + 1)) (fun i hi => hy (i + 1) (by omega))
    have b1 := bern_bounds k s a b hs.1 hs.2 y (fun i hi => hy i (by omega))
    have b2 := bern_bounds k s a b hs.1 hs.2 (fun i => y (i + 1)) (fun i hi => hy (i + 1) (by omega))
    have h3 : |curveAt k (fun i => y (i + 1)) s - curveAt k y s| ≤ b - a := by
      unfold curveAt
      rw [abs_le]
      constructor <;> linarith [b1.1, b1.2, b2.1, b2.2]
    have e : curveAt (k + 1) y t - curveAt (k + 1) y s = (1 - t) * (curveAt k y t - curveAt k y s) +
        t * (curveAt k (fun i => y (i + 1)) t - curveAt k (fun i => y (i + 1)) s) +
        (t - s) * (curveAt k (fun i => y (i + 1)) s - curveAt k y s) := by
      rw [curveAt_succ, curveAt_succ]; ring
    rw [e]
    refine (abs_add_le _ _).trans ?_
    refine (add_le_add_left (abs_add_le _ _) _).trans ?_
    rw [abs_mul, abs_mul, abs_mul, abs_of_nonneg ht.1, abs_of_nonneg (by linarith [ht.2] : 0 ≤ 1 - t)]
    have h4 := mul_le_mul_of_nonneg_left h3 (abs_nonneg (t - s))
    have h5 := mul_le_mul_of_nonneg_left h1 (by linarith [ht.2] : 0 ≤ 1 - t)
    have h6 := mul_le_mul_of_nonneg_left h2 ht.1
    push_cast
    nlinarith

/-- Two evaluations of a curve. -/
theorem point_gap {c c1 e e1 : Curve ℝ} {k : ℕ} {s t : ℝ} {p q : Pt ℝ} (h : GoodCurve c k) (hp : c.point s = .ok (c1, p))
    (he : C63.Kept c e) (hq : e.point t = .ok (e1, q)) (hs : 0 ≤ s ∧ s ≤ 1) (ht : 0 ≤ t ∧ t ≤ 1) :
    |q.y - p.y| ≤ steepness c * |t - s| := by
  obtain ⟨y, hy, hb, -⟩ := h
  have hy' : Shaped e k y := shaped_congr hy he.1
  obtain ⟨_, v1⟩ := shaped_point hy s
  obtain ⟨_, v2⟩ := shaped_point hy' t
  rw [hp] at v1
  rw [hq] at v2
  cases v1
  cases v2
  have := curveAt_gap k y _ _ s t hb hs ht
  unfold steepness
  rw [hy.len]
  have e1 : max c.min c.max - min c.min c.max = |c.max - c.min| := by
    rw [max_sub_min_eq_abs, abs_sub_comm]
    try rw [abs_sub_comm]
  rw [← e1]
  push_cast
  rw [add_sub_cancel_right]
  exact this

/-! ## Devices -/

/-- The curves of two devices are the same. -/
structure Kin (d e : Device ℝ) : Prop where
  speed : C63.Kept d.speed.gen e.speed.gen
  bounds : e.speed.min = d.speed.min ∧ e.speed.max = d.speed.max
  elevation : C63.Kept d.navigator.elevation.gen e.navigator.elevation.gen
  number : e.sensors.length = d.sensors.length
  sensor : ∀ (i : Nat) (s s' : Sensor ℝ), d.sensors[i]? = some s → e.sensors[i]? = some s' → C63.Kept s.gen s'.gen

theorem kept_trans {a b c : Curve ℝ} (h : C63.Kept a b) (g : C63.Kept b c) : C63.Kept a c :=
  ⟨g.1.trans h.1, g.2.1.trans h.2.1, g.2.2.1.trans h.2.2.1, g.2.2.2.trans h.2.2.2⟩

theorem Kin.refl (d : Device ℝ) : Kin d d := by
  refine ⟨C63.kept_refl _, ⟨rfl, rfl⟩, C63.kept_refl _, rfl, fun i s s' h h' => ?_⟩
  cases h.symm.trans h'
  exact C63.kept_refl _

theorem Kin.trans {d e f : Device ℝ} (h : Kin d e) (g : Kin e f) : Kin d f := by
  refine ⟨kept_trans h.speed g.speed, ⟨g.bounds.1.trans h.bounds.1, g.bounds.2.trans h.bounds.2⟩, kept_trans h.elevation g.elevation,
    g.number.trans h.number, fun i s s' h1 h2 => ?_⟩
  have hi : i < e.sensors.length := by
    rw [h.number]
    exact (List.getElem?_eq_some_iff.mp h1).1
  exact kept_trans (h.sensor i s _ h1 (List.getElem?_eq_getElem hi)) (g.sensor i _ s' (List.getElem?_eq_getElem hi) h2)

/-- A step within a lap keeps the curves and, if it moved the device, the sensors' and the elevation's values are theirs. -/
theorem next_kin {d d' : Device ℝ} {tick : ℝ} {rnd : NextRnd ℝ} {b : Bool} (hr : d.navigator.routes ≠ [])
    (hn : d.next tick rnd = .ok (d', b)) (hl : b = true ∨ d'.state.duration ≠ 0) : Kin d d' := by
  have hs : C63.SameLap d d' tick := by
    rcases C63.next_lap d d' tick rnd b hr hn with ⟨h, hb⟩ | h
    · rcases hl with rfl | hl
      · cases hb
      · exact absurd (h.duration.trans (by simp)) hl
    · exact h
  have hst : d'.speed.min = d.speed.min ∧ d'.speed.max = d.speed.max := by
    cases next_outcome hn with
    | idle h => exact absurd h hr
    | halted _ n1 n2 speed h1 h2 h3 h4 => exact (C63.speed_next_kept h2).2
    | lap _ n1 n2 speed _ h1 h2 h3 h4 h5 =>
      obtain ⟨-, -, -, f2, -⟩ := updateState_fresh h5
      rw [f2]
      exact (C63.speed_next_kept h2).2
    | moved _ n1 n2 n3 speed ss d2 _ h1 h2 h3 h4 h5 hd2 h6 =>
      obtain ⟨-, -, -, f2, -⟩ := updateState_fresh h6
      have e : (if d2.navigator.sum ≠ d2.ns then d2.updateRoutes else d2).speed = speed := by
        split <;> (subst hd2; rfl)
      rw [f2, e]
      exact (C63.speed_next_kept h2).2
  exact ⟨hs.speed, hst, hs.elevation, hs.sensors, hs.sensor⟩

theorem next_routes {d d' : Device ℝ} {tick : ℝ} {rnd : NextRnd ℝ} {b : Bool} (hn : d.next tick rnd = .ok (d', b)) :
    d'.navigator.routes = d.navigator.routes ∨ d'.navigator.routes = d.navigator.routes.map touchRoute := by
  have pw : ∀ {s : ℝ} {x : UInt32} {n : Navigator ℝ}, d.powered s x = .ok n → n.routes = d.navigator.routes := by
    intro s x n h
    rcases powered_step h with rfl | h
    · rfl
    · rcases Navigator.toOffline_cases h with ⟨-, rfl⟩ | ⟨-, _, -, rfl⟩ <;> rfl
  have fin : ∀ n : Navigator ℝ, n.isFinish.1.routes = n.routes := by
    intro n
    unfold Navigator.isFinish
    split <;> rfl
  cases next_outcome hn with
  | idle h => exact Or.inl rfl
  | halted _ n1 n2 speed h1 h2 h3 h4 =>
    left
    show n2.isFinish.1.routes = _
    rw [fin, (Navigator.nextLocation_routes h3).1, pw h1]
  | lap _ n1 n2 speed _ h1 h2 h3 h4 h5 =>
    left
    obtain ⟨-, e1, -⟩ := updateState_fresh h5
    rw [e1]
    show n2.isFinish.1.routes = _
    rw [fin, (Navigator.nextLocation_routes h3).1, pw h1]
  | moved _ n1 n2 n3 speed ss d2 _ h1 h2 h3 h4 h5 hd2 h6 =>
    obtain ⟨-, e1, -⟩ := updateState_fresh h6
    have h3' : n3.routes = n2.routes := by
      unfold Navigator.nextElevation at h4
      obtain ⟨_, _, h4⟩ := bind_eq_ok h4
      cases h4
      rfl
    have h0 : n3.routes = d.navigator.routes := by
      rw [h3', (Navigator.nextLocation_routes h3).1, pw h1]
    rw [e1, ← h0]
    subst hd2
    split
    · exact Or.inr rfl
    · exact Or.inl rfl

theorem next_nonempty {d d' : Device ℝ} {tick : ℝ} {rnd : NextRnd ℝ} {b : Bool} (hr : d.navigator.routes ≠ [])
    (hn : d.next tick rnd = .ok (d', b)) : d'.navigator.routes ≠ [] := by
  rcases next_routes hn with e | e <;> rw [e]
  · exact hr
  · exact fun hc => hr (List.map_eq_nil_iff.mp hc)

theorem stretch_kin {d e : Device ℝ} (h : Stretch d e) (hi : Inv d) (hr : d.navigator.routes ≠ []) :
    Kin d e ∧ Inv e ∧ e.navigator.routes ≠ [] := by
  induction h with
  | refl => exact ⟨.refl d, hi, hr⟩
  | next _ ho hn hl ih =>
    obtain ⟨a, b, c⟩ := ih
    exact ⟨a.trans (next_kin c hn (Or.inr hl)), next_inv b ho hn, next_nonempty c hn⟩
  | skip _ ih =>
    obtain ⟨a, b, c⟩ := ih
    exact ⟨⟨a.speed, a.bounds, a.elevation, a.number, a.sensor⟩, ⟨⟨b.nav, b.speed, b.sensors, b.dur⟩, b.avg⟩, c⟩

theorem param_unit {d : Device ℝ} (h : Inv d) (hr : d.navigator.routes ≠ []) {tick : ℝ} (ht : 0 ≤ tick) :
    0 ≤ param d tick ∧ param d tick ≤ 1 := by
  have ha := h.avg hr
  have hd := h.dur
  have hs : 0 ≤ C61.length d tick := seconds_nonneg d ht
  exact ⟨le_min (by positivity) zero_le_one, min_le_right _ _⟩

theorem evaluated {d d' : Device ℝ} {tick : ℝ} {rnd : NextRnd ℝ} {b : Bool} (hr : d.navigator.routes ≠ [])
    (hn : d.next tick rnd = .ok (d', b)) : C61.EvaluatedAt d d' b (param d tick) := by
  have h1 := C61.one_parameter d d' tick rnd b hr hn
  rw [C61.param_real] at h1
  exact h1

theorem speed_gap {s s1 e e1 : Speed ℝ} {t u : ℝ} (h : GoodSpeed s) (h1 : s.next t = .ok s1) (hk : C63.Kept s.gen e.gen)
    (hb : e.min = s.min ∧ e.max = s.max) (h2 : e.next u = .ok e1) (ht : 0 ≤ t ∧ t ≤ 1) (hu : 0 ≤ u ∧ u ≤ 1) :
    |e1.value - s1.value| ≤ steepness s.gen * |u - t| := by
  obtain ⟨⟨k, hg⟩, -⟩ := h
  have hlen : (1 : ℝ) ≤ s.gen.points.length := by
    obtain ⟨y, hy, -⟩ := hg
    rw [hy.len]; push_cast; linarith [Nat.cast_nonneg (α := ℝ) k]
  have hst : e.isStatic = s.isStatic := by
    unfold Speed.isStatic
    rw [hb.1, hb.2]
  unfold Speed.next at h1 h2
  rw [hst] at h2
  split at h1
  · rename_i hs
    rw [if_pos hs] at h2
    cases h1
    cases h2
    unfold Speed.value
    rw [hst, hs, if_pos rfl, if_pos rfl, hb.1, sub_self, abs_zero]
    unfold steepness
    exact mul_nonneg (mul_nonneg (by linarith) (abs_nonneg _)) (abs_nonneg _)
  · rename_i hs
    rw [if_neg hs] at h2
    obtain ⟨⟨g, p⟩, hp, h1⟩ := bind_eq_ok h1
    obtain ⟨⟨g', q⟩, hq, h2⟩ := bind_eq_ok h2
    cases h1
    cases h2
    have e1 : Speed.value { s with val := p.y, gen := g } = p.y := if_neg hs
    have e2 : Speed.value { e with val := q.y, gen := g' } = q.y := if_neg (show ¬ e.isStatic = true by rw [hst]; exact hs)
    rw [e1, e2]
    exact point_gap hg hp hk hq ht hu

theorem sensor_gap {s s1 e e1 : Sensor ℝ} {t u : ℝ} (h : GoodSensor s) (h1 : s.next t = .ok s1) (hk : C63.Kept s.gen e.gen)
    (h2 : e.next u = .ok e1) (ht : 0 ≤ t ∧ t ≤ 1) (hu : 0 ≤ u ∧ u ≤ 1) :
    |e1.valY - s1.valY| ≤ steepness s.gen * |u - t| := by
  obtain ⟨⟨k, hg⟩, -⟩ := h
  obtain ⟨g, p, hp, rfl⟩ := sensor_next_eq h1
  obtain ⟨g', q, hq, rfl⟩ := sensor_next_eq h2
  exact point_gap hg hp hk hq ht hu

/-- **C99 (partial).** Two steps of a lap with any steps, offline periods and missed ticks between them: speed, elevation and
sensor values differ by at most the steepness of their curve times the part of the trip time between them.

Missing for the full claim: the end of a lap (`C99.claim_fails`). -/
theorem gradual_partial (d d1 e e1 : Device ℝ) (tick tick' : ℝ) (rnd rnd' : NextRnd ℝ) (b : Bool) (h : Reach d)
    (hr : d.navigator.routes ≠ []) (ho : SaneOp (.next tick rnd)) (hn : d.next tick rnd = .ok (d1, true))
    (hs : Stretch d1 e) (ht : 0 ≤ tick') (hn' : e.next tick' rnd' = .ok (e1, b)) :
    |e1.state.speed - d1.state.speed| ≤ steepness d.speed.gen * |param e tick' - param d tick| ∧
    (b = true →
      |e1.navigator.elevation.valY - d1.navigator.elevation.valY| ≤
        steepness d.navigator.elevation.gen * |param e tick' - param d tick| ∧
      e1.sensors.length = d.sensors.length ∧ d1.sensors.length = d.sensors.length ∧
      ∀ (i : Nat) (s s1 s2 : Sensor ℝ), d.sensors[i]? = some s → d1.sensors[i]? = some s1 → e1.sensors[i]? = some s2 →
        |s2.valY - s1.valY| ≤ steepness s.gen * |param e tick' - param d tick|) := by
  have hi := reach_inv h
  have hk1 := next_kin hr hn (Or.inl rfl)
  obtain ⟨hk2, hie, hre⟩ := stretch_kin hs (next_inv hi ho hn) (next_nonempty hr hn)
  have hk := hk1.trans hk2
  obtain ⟨sp, v1, v2, v3⟩ := evaluated hr hn
  obtain ⟨sp', w1, w2, w3⟩ := evaluated hre hn'
  have u1 := param_unit hi hr ho.1
  have u2 := param_unit hie hre ht
  refine ⟨?_, fun hb => ?_⟩
  · rw [v2, w2]
    exact speed_gap hi.speed v1 hk.speed hk.bounds w1 u1 u2
  · obtain ⟨-, x1, x2⟩ := v3 rfl
    obtain ⟨-, y1, y2⟩ := w3 hb
    obtain ⟨m1, m2⟩ := C63.mapM_get x2
    obtain ⟨m3, m4⟩ := C63.mapM_get y2
    refine ⟨sensor_gap hi.nav.elev x1 hk.elevation y1 u1 u2, m3.trans hk.number, m1, fun i s s1 s2 h1 h2 h3 => ?_⟩
    have hlt : i < e.sensors.length := by
      rw [hk.number]
      exact (List.getElem?_eq_some_iff.mp h1).1
    have h4 := List.getElem?_eq_getElem hlt
    exact sensor_gap (hi.sensors _ (List.mem_of_getElem? h1)) (m2 i s s1 h1 h2) (hk.sensor i s _ h1 h4) (m4 i _ s2 h4 h3) u1 u2

end C99
end GpsGen
