import Verif.Theorems.C27
import Verif.Theorems.C34
import Verif.Theorems.C28Double
import Verif.Lemmas.ToyF64
/-!
# C27 in IEEE doubles

With the rounding of `float64` the speed leaves its bounds by about one unit in the last place: bounds 0.5 and 1 give
1.0000000000000002. What holds for all devices and histories, whatever the mathematical library computes: after the first
effective tick the published speed is a finite number that leaves the bounds by at most `2 ^ -40` times the maximum (plus
`2 ^ -500`), and a constant speed is published exactly. Ticks are numbers from zero on, also infinite ones; at every
effective tick the average travel time must be positive and finite.
-/

namespace GpsGen
namespace C27
namespace Double
open F64 Device C28.Double

attribute [local irreducible] Round64.rndQ Round64.pow2

/-! ## Specification -/

/-- The bounds documented for the options `a`, `b`. -/
def bounds (a b : ℚ) : ℚ × ℚ :=
  if b ≤ 0 then (if a = 0 then (1, 1) else (a, a)) else (a, b)

/-- The operation is a tick of a device that has somewhere to go. -/
def Ticks (d : Device F64) (op : DevOp F64) : Prop := (∃ t r, op = .next t r) ∧ d.navigator.routes ≠ []

/-- Ticks are numbers from zero on, random numbers lie in the unit interval. Restoring is a separate step. -/
def Legal : DevOp F64 → Prop
  | .next t r => ((lit 0 : F64) <=. t) = true ∧ ∀ i, Unit (r.speed i)
  | .fromSnapshot _ => False
  | _ => True

/-- A positive finite number. -/
def Positive (f : F64) : Prop := ∃ q, Is f q ∧ 0 < q

/-- `d` was created with speed options `mn`, `mx` and then operated; the first argument implies that a tick took
effect. -/
inductive Driven [MathLib] (mn mx : F64) : Prop → Device F64 → Prop
  | init {rnd o d} (h1 : ∀ i, Unit (rnd.speedDraws i))
      (hmn : o.speedMin = mn) (hmx : o.speedMax = mx) (h : Device.new rnd (some o) = .ok d) :
      Driven mn mx False d
  | step {p d op d'} (hr : Driven mn mx p d) (ho : Legal op) (h : d.step op = .ok d')
      (ha : Ticks d op → Positive d.avgT) : Driven mn mx (p ∨ Ticks d op) d'
  | restore {p q d e d'} (hd : Driven mn mx p d) (he : Driven mn mx q e)
      (h : d.fromSnapshot e.snapshot = .ok d') : Driven mn mx q d'

/-- The full claim in doubles, for one mathematical library. -/
def Claim [MathLib] : Prop := ∀ (mn mx : F64) (d : Device F64), mn ≠ .nan → mx ≠ .nan → (lit 0 <. mx) = true →
  Driven mn mx True d → (mn <=. d.state.speed) = true ∧ (d.state.speed <=. mx) = true

/-- The value of a new generator with constant draws after one step. -/
def valueAt (mn mx r : F64) (amp : Int) (t : F64) : Option F64 :=
  (Speed.new (fun _ => r) mn mx amp).toOption.bind fun s => (s.next t).toOption.map (·.value)

/-! ## The claim fails -/

/-- Bounds 0.5 and 1, amplitude 4, draws just below 1, parameter 0.1: the speed is 1.0000000000000002. -/
theorem above_maximum : valueAt (lit (1 / 2)) (lit 1) (lit (1 - 1 / 2 ^ 53)) 4 (lit (1 / 10)) =
    some (lit (1 + 1 / 2 ^ 52)) := by decide +kernel

/-- Draws 0, parameter 0.05: the speed is 0.49999999999999994. -/
theorem below_minimum : valueAt (lit (1 / 2)) (lit 1) (lit 0) 4 (lit (1 / 20)) =
    some (lit (1 / 2 - 1 / 2 ^ 54)) := by decide +kernel

/-- A device with these bounds on a route, ticked once by one second. -/
def witness : Option (Device F64) :=
  ToyF64.dev (lit (1 / 2)) (lit 1) (lit (1 - 1 / 2 ^ 53)) [.addRoute [some ToyF64.route], .next (lit 1) ToyF64.nextRnd]

theorem witness_exists : ∃ d, witness = some d ∧ (d.state.speed <=. lit 1) = false ∧ Driven (lit (1 / 2)) (lit 1) True d := by
  have key : ∃ d0 d1 d2, Device.new (ToyF64.rnd (lit (1 - 1 / 2 ^ 53))) (some (ToyF64.opts (lit (1 / 2)) (lit 1))) = .ok d0 ∧
      d0.step (.addRoute [some ToyF64.route]) = .ok d1 ∧ d1.step (.next (lit 1) ToyF64.nextRnd) = .ok d2 ∧
      d1.avgT = lit (5690244125455515 / 2199023255552) ∧ d1.navigator.routes ≠ [] ∧
      (d2.state.speed <=. lit 1) = false := by
    have h : ((Device.new (ToyF64.rnd (lit (1 - 1 / 2 ^ 53))) (some (ToyF64.opts (lit (1 / 2)) (lit 1)))).toOption.any
        fun d0 => (d0.step (.addRoute [some ToyF64.route])).toOption.any fun d1 =>
          (d1.step (.next (lit 1) ToyF64.nextRnd)).toOption.any fun d2 =>
            decide (d1.avgT = lit (5690244125455515 / 2199023255552)) && decide (d1.navigator.routes.length ≠ 0) &&
              !(d2.state.speed <=. lit 1)) = true := by decide +kernel
    generalize Device.new (ToyF64.rnd (lit (1 - 1 / 2 ^ 53))) (some (ToyF64.opts (lit (1 / 2)) (lit 1))) = n at h ⊢
    cases n with
    | error _ => cases h
    | ok d0 =>
      simp only [Except.toOption, Option.any_some] at h
      cases h1 : d0.step (.addRoute [some ToyF64.route]) with
      | error _ => rw [h1] at h; cases h
      | ok d1 =>
        simp only [h1, Option.any_some] at h
        cases h2 : d1.step (.next (lit 1) ToyF64.nextRnd) with
        | error _ => rw [h2] at h; cases h
        | ok d2 =>
          simp only [h2, Option.any_some, Bool.and_eq_true, decide_eq_true_eq, Bool.not_eq_true'] at h
          exact ⟨d0, d1, d2, rfl, h1, h2, h.1.1, fun hc => h.1.2 (by rw [hc]; rfl), h.2⟩
  obtain ⟨d0, d1, d2, h0, h1, h2, h3, h4, h5⟩ := key
  refine ⟨d2, ?_, h5, ?_⟩
  · unfold witness ToyF64.dev
    simp only [h0, Device.run, h1, h2, bind, Except.bind]
  · have t : (False ∨ Ticks d0 (.addRoute [some ToyF64.route])) ∨ Ticks d1 (.next (lit 1) ToyF64.nextRnd) :=
      Or.inr ⟨⟨_, _, rfl⟩, h4⟩
    have i0 : Driven (lit (1 / 2)) (lit 1) False d0 :=
      .init (fun _ => unit_lit (q := 1 - 1 / 2 ^ 53) (by norm_num) (by norm_num)) rfl rfl h0
    have i1 := Driven.step i0 (op := .addRoute [some ToyF64.route]) trivial h1 (fun hc => by obtain ⟨⟨_, _, hc⟩, -⟩ := hc; cases hc)
    have i2 := Driven.step i1 (op := .next (lit 1) ToyF64.nextRnd)
      ⟨by decide +kernel, fun _ => unit_lit (q := 0) (by norm_num) (by norm_num)⟩ h2 (fun _ => by
        obtain ⟨z, q, r, e, hq⟩ : ∃ z q r, (lit (5690244125455515 / 2199023255552) : F64) = .fin z q r ∧ 0 < q := by
          have hl : ((lit 1 : F64) <=. lit (5690244125455515 / 2199023255552)) = true := by decide +kernel
          have hi : (lit (5690244125455515 / 2199023255552) : F64) ≠ .inf false := by decide +kernel
          have h0 : ((lit 0 : F64) <=. lit (5690244125455515 / 2199023255552)) = true := by decide +kernel
          obtain ⟨r1, e1⟩ := lit_nat (q := 1) (1 : ℤ) (by norm_num) (by norm_num) (by norm_num)
          rcases nonneg_cases h0 with ⟨z, q, r, e, -⟩ | e
          · rw [e, e1, fin_le, decide_eq_true_eq] at hl
            exact ⟨z, q, r, e, by linarith⟩
          · exact absurd e hi
        exact ⟨q, ⟨z, r, h3.trans e⟩, hq⟩)
    rwa [eq_true t] at i2

/-- The claim fails for a device: bounds 0.5 and 1, one tick of one second. -/
theorem claim_fails : ∃ _ : MathLib, ¬ Claim := by
  refine ⟨ToyF64.crude, fun h => ?_⟩
  obtain ⟨d, -, h1, h2⟩ := witness_exists
  rw [(h _ _ d (by decide +kernel) (by decide +kernel) (by decide +kernel) h2).2] at h1
  cases h1

/-! ## Proof of the claim up to rounding -/

/-- What the proof uses of a generator with bounds `a`, `b`. -/
structure Ok (a b : ℚ) (s : Speed F64) : Prop where
  lo : Is s.min a
  hi : Is s.max b
  curve : a ≠ b → 0 ≤ a ∧ a ≤ b ∧ b ≤ 1000 ∧ ∃ k, k ≤ 511 ∧ Good a b k s.gen

/-- `v` is between the bounds up to rounding, and exactly the speed if it is constant. -/
def Near (a b : ℚ) (f : F64) : Prop :=
  ∃ v, Is f v ∧ a - tol b ≤ v ∧ v ≤ b + tol b ∧ (a = b → v = a)

theorem mag_small {a b : ℚ} (h0 : 0 ≤ a) (h1 : a ≤ b) (h2 : b ≤ 1000) : mag a b = b ∧ mag a b ≤ 2 ^ (399 : ℤ) := by
  have e : mag a b = b := by
    unfold mag
    rw [abs_of_nonneg h0, abs_of_nonneg (h0.trans h1)]
    exact max_eq_right h1
  refine ⟨e, ?_⟩
  rw [e]
  have : (2 : ℚ) ^ (10 : ℤ) ≤ 2 ^ (399 : ℤ) := zpow_le_zpow_right₀ (by norm_num) (by norm_num)
  refine _root_.le_trans ?_ this
  norm_num
  linarith

theorem tol_nonneg {m : ℚ} (h : 0 ≤ m) : 0 ≤ tol m := by
  unfold tol
  exact add_nonneg (mul_nonneg h (by positivity)) (zpow_nonneg (by norm_num) _)

theorem is_static {a b : ℚ} {s : Speed F64} (h : Ok a b s) : s.isStatic = decide (a = b) := by
  obtain ⟨s1, r1, e1⟩ := h.lo
  obtain ⟨s2, r2, e2⟩ := h.hi
  unfold Speed.isStatic
  rw [e1, e2, fin_eq]

theorem lit_fin {q : ℚ} (n : ℤ) (hq : q = n) (h : |n| ≤ 2 ^ 53) : Is (lit q) q := by
  obtain ⟨r, e⟩ := lit_int n hq h
  exact ⟨_, r, e⟩

theorem ok_new {draws : ℕ → F64} {mn mx : F64} {a b : ℚ} {amp : Int} {s : Speed F64} (ha : Is mn a) (hb : Is mx b)
    (hd : ∀ i, Unit (draws i)) (h : Speed.new draws mn mx amp = .ok s) :
    Ok (bounds a b).1 (bounds a b).2 s ∧ s.min = (if a = 0 ∧ b ≤ 0 then lit 1 else mn) := by
  obtain ⟨z0, w0, e0⟩ := lit_fin (q := 0) 0 (by norm_num) (by norm_num)
  obtain ⟨z1, w1, e1⟩ := lit_fin (q := 1000) 1000 (by norm_num) (by norm_num)
  have h11 := lit_fin (q := 1) 1 (by norm_num) (by norm_num)
  have ha' := ha
  have hb' := hb
  obtain ⟨s1, r1, rfl⟩ := ha
  obtain ⟨s2, r2, rfl⟩ := hb
  unfold Speed.new at h
  rw [e0, e1, fin_lt, fin_lt] at h
  split at h
  · cases h
  rename_i h1
  split at h
  · cases h
  rename_i h2
  rw [fin_le] at h
  simp only [decide_eq_true_eq, not_lt] at h1 h2
  unfold bounds
  by_cases hz : b ≤ 0
  · simp only [hz, decide_true, if_true] at h
    rw [fin_lt, if_neg (by simp)] at h
    simp only [fin_eq, Bool.and_self, decide_eq_true_eq] at h
    by_cases hz0 : a = 0
    · simp only [hz0, hz, and_self, if_true] at h ⊢
      obtain ⟨_, -, h⟩ := bind_eq_ok h
      cases h
      exact ⟨⟨h11, h11, fun hc => absurd rfl hc⟩, rfl⟩
    · simp only [hz0, hz, false_and, if_true, if_false] at h ⊢
      obtain ⟨_, -, h⟩ := bind_eq_ok h
      cases h
      exact ⟨⟨ha', ha', fun hc => absurd rfl hc⟩, rfl⟩
  · simp only [hz, decide_false, Bool.false_eq_true, if_false] at h
    rw [fin_lt] at h
    split at h
    · cases h
    rename_i h3
    simp only [decide_eq_true_eq, not_lt] at h3
    have hne : ¬ b = 0 := by rintro rfl; exact hz le_rfl
    simp only [fin_eq, hne, decide_false, Bool.and_false, Bool.false_eq_true, if_false] at h
    obtain ⟨_, hv, h⟩ := bind_eq_ok h
    cases h
    have hv := validateAmplitude_ok hv
    simp only [hz, and_false, if_false]
    refine ⟨⟨ha', hb', fun _ => ⟨h1, h3, h2, amp.toNat - 1, by omega, ?_⟩⟩, trivial⟩
    have := good_make ha' hb' (mag_small h1 h3 h2).2 hd modeDefault (amp.toNat - 1)
    rw [show amp.toNat - 1 + 1 = amp.toNat by omega] at this
    show Good a b _ (Curve.new _ _ amp modeDefault draws)
    unfold Curve.new
    rw [if_neg (by omega)]
    exact this

theorem ok_next {a b : ℚ} {s s' : Speed F64} {t : F64} (h : Ok a b s) (hn : s.next t = .ok s') :
    Ok a b s' ∧ s'.min = s.min ∧ s'.max = s.max := by
  unfold Speed.next at hn
  split at hn
  · cases hn
    exact ⟨h, rfl, rfl⟩
  · obtain ⟨⟨g, p⟩, hp, hn⟩ := bind_eq_ok hn
    cases hn
    refine ⟨⟨h.lo, h.hi, fun hne => ?_⟩, rfl, rfl⟩
    obtain ⟨h1, h2, h3, k, hk, hg⟩ := h.curve hne
    exact ⟨h1, h2, h3, k, hk, (C28.Double.good_point hg hp).1⟩

theorem ok_shuffle {a b : ℚ} {s : Speed F64} (h : Ok a b s) {draws : ℕ → F64} (hd : ∀ i, Unit (draws i)) :
    Ok a b (s.shuffle draws) := by
  refine ⟨h.lo, h.hi, fun hne => ?_⟩
  obtain ⟨h1, h2, h3, k, hk, hg⟩ := h.curve hne
  exact ⟨h1, h2, h3, k, hk, C28.Double.good_shuffle hg (mag_small h1 h2 h3).2 hd⟩

theorem near_const {a : ℚ} {f : F64} (h : Is f a) (h0 : 0 ≤ a) : Near a a f := by
  have := tol_nonneg h0
  exact ⟨a, h, by linarith, by linarith, fun _ => rfl⟩

/-- One step in the unit interval. -/
theorem ok_value {a b : ℚ} {s s' : Speed F64} {t : F64} (h : Ok a b s) (h0 : 0 ≤ a) (ht : Unit t) (hn : s.next t = .ok s') :
    Near a b s'.value := by
  have hst := is_static h
  have hst' := is_static (ok_next h hn).1
  unfold Speed.value
  rw [hst']
  by_cases hab : a = b
  · subst hab
    rw [if_pos (by simp), (ok_next h hn).2.1]
    exact near_const h.lo h0
  · rw [if_neg (by simp [hab])]
    obtain ⟨h1, h2, h3, k, hk, hg⟩ := h.curve hab
    obtain ⟨e, hm⟩ := mag_small h1 h2 h3
    obtain ⟨τ, hτ, t0, t1⟩ := ht
    obtain ⟨c', hp⟩ := CurveFold.point_eq s.gen k hg.len t
    obtain ⟨v, hv, v1, v2, -⟩ := good_value hg hk hm hτ t0 t1
    unfold Speed.next at hn
    rw [hst, if_neg (by simp [hab]), hp] at hn
    cases hn
    rw [e, min_eq_left h2] at v1
    rw [e, max_eq_right h2] at v2
    exact ⟨v, hv, v1, v2, fun hc => absurd hc hab⟩

theorem seconds_nonneg [MathLib] (d : Device F64) {t : F64} (ht : ((lit 0 : F64) <=. t) = true) :
    ((lit 0 : F64) <=. d.seconds t) = true := by
  have h1 : ((lit 0 : F64) <=. lit (d.tick.toNat : ℚ)) = true := lit_nonneg (by positivity)
  exact F64.le_trans h1 (le_add_nonneg h1 ht)

theorem add_nonneg' {x y : F64} (hx : ((lit 0 : F64) <=. x) = true) (hy : ((lit 0 : F64) <=. y) = true) :
    ((lit 0 : F64) <=. x +. y) = true := F64.le_trans hx (le_add_nonneg hx hy)

/-- `math.Min` of a number from zero on and 1. -/
theorem fmin_one {x : F64} (h : ((lit 0 : F64) <=. x) = true) : Unit (fmin x (lit 1)) := by
  obtain ⟨z, w, e⟩ := lit_fin (q := 1) 1 (by norm_num) (by norm_num)
  rcases nonneg_cases h with ⟨s, q, r, rfl, h0⟩ | rfl
  · rw [e]
    unfold fmin
    simp only
    rw [if_neg (by rintro ⟨-, h⟩; exact absurd h one_ne_zero)]
    split
    · rename_i hq
      exact ⟨q, ⟨_, _, rfl⟩, h0, hq.le⟩
    · exact ⟨1, ⟨_, _, rfl⟩, by norm_num, le_rfl⟩
  · rw [e]
    exact ⟨1, ⟨_, _, rfl⟩, by norm_num, le_rfl⟩

/-- The curve parameter of a tick is in the unit interval. -/
theorem phase_unit [MathLib] {d : Device F64} {s : F64} (hd : ((lit 0 : F64) <=. d.state.duration) = true)
    (hs : ((lit 0 : F64) <=. s) = true) (ha : Positive d.avgT) : Unit (d.phase s) := by
  obtain ⟨q, ⟨z, r, e⟩, hq⟩ := ha
  have h1 := add_nonneg' (add_nonneg' hd hs) hs
  refine fmin_one ?_
  rw [e]
  obtain ⟨z0, w0, e0⟩ := lit_fin (q := 0) 0 (by norm_num) (by norm_num)
  have h2 := div_mono (hc := r) h1 hq
  refine F64.le_trans ?_ h2
  rw [e0, fin_div, if_neg hq.ne']
  exact fin_le_round _ (by simp)

theorem new_duration {rnd : DeviceRnd F64} {o : DeviceOptions F64} {d : Device F64} (h : Device.new rnd (some o) = .ok d) :
    d.state.duration = lit 0 := by
  obtain ⟨n, s, b, st, -, -, -, hst, rfl⟩ := Device.new_eq h
  obtain ⟨_, _, rfl, -⟩ := applyFor_eq hst
  rfl

/-- What `Next` does to the speed and the elapsed time. -/
theorem next_parts [MathLib] {a b : ℚ} {d d' : Device F64} {t : F64} {rnd : NextRnd F64} {m : Bool}
    (h : Ok a b d.speed) (h0 : 0 ≤ a) (hd : ((lit 0 : F64) <=. d.state.duration) = true)
    (ht : ((lit 0 : F64) <=. t) = true) (hu : ∀ i, Unit (rnd.speed i)) (ha : d.navigator.routes ≠ [] → Positive d.avgT)
    (hn : d.next t rnd = .ok (d', m)) :
    Ok a b d'.speed ∧ ((lit 0 : F64) <=. d'.state.duration) = true ∧
      (d.navigator.routes = [] → d' = d) ∧
      (d.navigator.routes ≠ [] → Near a b d'.state.speed ∧ Near a b d'.speed.value) := by
  have hsec := seconds_nonneg d ht
  have hdur := add_nonneg' hd hsec
  cases next_outcome hn with
  | idle hr => exact ⟨h, hd, fun _ => rfl, fun hc => absurd hr hc⟩
  | halted hr n1 n2 speed h1 h2 h3 h4 =>
    have hv := ok_value h h0 (phase_unit hd hsec (ha hr)) h2
    exact ⟨(ok_next h h2).1, hdur, fun hc => absurd hc hr, fun _ => ⟨hv, hv⟩⟩
  | lap hr n1 n2 speed _ h1 h2 h3 h4 h5 =>
    have hv := ok_value h h0 (phase_unit hd hsec (ha hr)) h2
    obtain ⟨st, hst, rfl⟩ := updateState_eq h5
    have fr := nav_update_frame hst
    refine ⟨ok_shuffle (ok_next h h2).1 hu, ?_, fun hc => absurd hc hr, fun _ => ⟨?_, hv⟩⟩
    · show (_ <=. st.duration) = true
      rw [fr.2.2.2.1]
      exact F64.le_refl (by decide +kernel)
    · show Near a b st.speed
      rw [fr.2.2.2.2.2.1]
      exact hv
  | moved hr n1 n2 n3 speed ss d2 _ h1 h2 h3 h4 h5 hd2 h6 =>
    have hv := ok_value h h0 (phase_unit hd hsec (ha hr)) h2
    obtain ⟨st, hst, rfl⟩ := updateState_eq h6
    have fr := nav_update_frame hst
    have hs : (if d2.navigator.sum ≠ d2.ns then d2.updateRoutes else d2).speed = speed := by
      split <;> (subst hd2; rfl)
    have hv' : (if d2.navigator.sum ≠ d2.ns then d2.updateRoutes else d2).state.speed = speed.value := by
      split <;> (subst hd2; rfl)
    have hd' : (if d2.navigator.sum ≠ d2.ns then d2.updateRoutes else d2).state.duration =
        d.state.duration +. d.seconds t := by
      split <;> (subst hd2; rfl)
    have hs' : (refreshed (if d2.navigator.sum ≠ d2.ns then d2.updateRoutes else d2) st).speed = speed := hs
    refine ⟨?_, ?_, fun hc => absurd hc hr, fun _ => ⟨?_, ?_⟩⟩
    · rw [hs']
      exact (ok_next h h2).1
    · show (_ <=. st.duration) = true
      rw [fr.2.2.2.1, hd']
      exact hdur
    · show Near a b st.speed
      rw [fr.2.2.2.2.2.1, hv']
      exact hv
    · rw [hs']
      exact hv

theorem bounds_nonneg {draws : ℕ → F64} {mn mx : F64} {a b : ℚ} {amp : Int} {s : Speed F64} (ha : Is mn a)
    (h : Speed.new draws mn mx amp = .ok s) : 0 ≤ (bounds a b).1 := by
  obtain ⟨z0, w0, e0⟩ := lit_fin (q := 0) 0 (by norm_num) (by norm_num)
  obtain ⟨s1, r1, rfl⟩ := ha
  unfold Speed.new at h
  rw [e0, fin_lt] at h
  split at h
  · cases h
  rename_i h1
  simp only [decide_eq_true_eq, not_lt] at h1
  unfold bounds
  split
  · split
    · norm_num
    · exact h1
  · exact h1

theorem restore_duration [MathLib] {d e d' : Device F64} (h : d.fromSnapshot e.snapshot = .ok d') :
    d'.state.duration = e.state.duration := by
  obtain ⟨n, speed, battery, sensors, d1, h1, h2, h3, h4, h5, rfl⟩ := fromSnapshotOnto_eq h
  obtain ⟨st, hst, rfl⟩ := updateState_eq h5
  exact (nav_update_frame hst).2.2.2.1

/-- The invariant behind the theorems below. -/
theorem driven_inv [MathLib] {mn mx : F64} {a b : ℚ} (ha : Is mn a) (hb : Is mx b) {p : Prop} {d : Device F64}
    (h : Driven mn mx p d) :
    Ok (bounds a b).1 (bounds a b).2 d.speed ∧ 0 ≤ (bounds a b).1 ∧ ((lit 0 : F64) <=. d.state.duration) = true ∧
    (p → Near (bounds a b).1 (bounds a b).2 d.state.speed ∧ Near (bounds a b).1 (bounds a b).2 d.speed.value) := by
  induction h with
  | init h1 hmn hmx h =>
    have hdur := new_duration h
    obtain ⟨n, s, bt, st, -, hs, -, -, rfl⟩ := Device.new_eq h
    subst hmn hmx
    refine ⟨(ok_new ha hb h1 hs).1, bounds_nonneg ha hs, ?_, fun h => h.elim⟩
    rw [hdur]
    exact F64.le_refl (by decide +kernel)
  | @step p d op d' hr ho h hav ih =>
    obtain ⟨i1, i2, i3, i4⟩ := ih
    by_cases hn : ∃ t r, op = .next t r
    · obtain ⟨t, r, rfl⟩ := hn
      obtain ⟨⟨d'', m⟩, hn, rfl⟩ := map_eq_ok h
      obtain ⟨j1, j2, j3, j4⟩ := next_parts i1 i2 i3 ho.1 ho.2 (fun hc => hav ⟨⟨t, r, rfl⟩, hc⟩) hn
      refine ⟨j1, i2, j2, ?_⟩
      by_cases he : d.navigator.routes = []
      · rintro (hp | hp)
        · show Near _ _ d''.state.speed ∧ _
          rw [j3 he]
          exact i4 hp
        · exact absurd he hp.2
      · exact fun _ => j4 he
    · have hfs : ∀ m, op ≠ .fromSnapshot m := by
        rintro m rfl
        exact ho
      obtain ⟨e1, e2⟩ := step_speed_frame h (fun t r hc => hn ⟨t, r, hc⟩) hfs
      have e3 : d'.state.duration = d.state.duration := by
        by_cases hk : op = .skipTick
        · subst hk
          cases h
          rfl
        · refine (C34.plain_frame ?_ h).1
          cases op <;> first | trivial | exact hn ⟨_, _, rfl⟩
      rw [e1, e2, e3]
      refine ⟨i1, i2, i3, ?_⟩
      rintro (hp | hp)
      · exact i4 hp
      · exact absurd hp.1 hn
  | restore _ _ h _ ih2 =>
    obtain ⟨e1, e2⟩ := restore_speed h
    rw [e1, e2, restore_duration h]
    exact ⟨ih2.1, ih2.2.1, ih2.2.2.1, fun hq => ⟨(ih2.2.2.2 hq).2, (ih2.2.2.2 hq).2⟩⟩

/-! ## The claim up to rounding -/

/-- After the first effective tick the published speed and the current value of the generator are finite numbers within
the configured bounds up to rounding. If the speed is constant they are exactly that speed. -/
theorem speed_within_partial [MathLib] (mn mx : F64) (a b : ℚ) (ha : Is mn a) (hb : Is mx b) (d : Device F64)
    (h : Driven mn mx True d) :
    (∃ v, Is d.state.speed v ∧ (bounds a b).1 - tol (bounds a b).2 ≤ v ∧ v ≤ (bounds a b).2 + tol (bounds a b).2 ∧
      ((bounds a b).1 = (bounds a b).2 → v = (bounds a b).1)) ∧
    ∃ v, Is d.speed.value v ∧ (bounds a b).1 - tol (bounds a b).2 ≤ v ∧ v ≤ (bounds a b).2 + tol (bounds a b).2 ∧
      ((bounds a b).1 = (bounds a b).2 → v = (bounds a b).1) :=
  (driven_inv ha hb h).2.2.2 trivial

/-- The same for the tick itself. -/
theorem tick_within_partial [MathLib] (mn mx : F64) (a b : ℚ) (ha : Is mn a) (hb : Is mx b) (p : Prop) (d d' : Device F64)
    (t : F64) (rnd : NextRnd F64) (m : Bool) (h : Driven mn mx p d) (ht : ((lit 0 : F64) <=. t) = true)
    (hu : ∀ i, Unit (rnd.speed i)) (hr : d.navigator.routes ≠ []) (hp : Positive d.avgT)
    (hn : d.next t rnd = .ok (d', m)) :
    ∃ v, Is d'.state.speed v ∧ (bounds a b).1 - tol (bounds a b).2 ≤ v ∧ v ≤ (bounds a b).2 + tol (bounds a b).2 ∧
      ((bounds a b).1 = (bounds a b).2 → v = (bounds a b).1) := by
  obtain ⟨i1, i2, i3, -⟩ := driven_inv ha hb h
  exact ((next_parts i1 i2 i3 ht hu (fun _ => hp) hn).2.2.2 hr).1

/-- The curve parameter of an effective tick is a number in the unit interval: C30 in doubles. -/
theorem parameter_unit [MathLib] (mn mx : F64) (a b : ℚ) (ha : Is mn a) (hb : Is mx b) (p : Prop) (d : Device F64)
    (t : F64) (h : Driven mn mx p d) (ht : ((lit 0 : F64) <=. t) = true) (hp : Positive d.avgT) :
    Unit (d.phase (d.seconds t)) := by
  obtain ⟨-, -, i3, -⟩ := driven_inv ha hb h
  exact phase_unit i3 (seconds_nonneg d ht) hp

/-! Without the condition on the average time the parameter can be NaN: a device whose average time is zero that is
ticked by zero. -/
example : fmin (((lit 0 : F64) +. lit 0 +. lit 0) /. lit 0) (lit 1) = .nan := by decide +kernel

end Double
end C27
end GpsGen
