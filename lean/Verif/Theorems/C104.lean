import Verif.Theorems.C15
import Verif.Theorems.C28
import Verif.Theorems.C50
import Mathlib.Order.Interval.Finset.Nat
/-!
# C104 Everything the limits allow can occur

The range properties (C15, C27, C28, C50) say that nothing outside the configured limits occurs; a
generator that always returned the minimum would meet them. Here is the other half: which values are
results of some random draws. The claim that every value within the limits occurs is false at the upper
limit, which is never reached (`max_offline_never`, `max_speed_never`, `max_sensor_never`). Every other
value is reached. For offline periods and strings the draws are spread evenly over the values. Curves
and coordinates are in exact arithmetic.
-/

namespace GpsGen
namespace C104
open Finset

/-! ## Offline periods -/

/-- A draw of the library `fastrand`. Zero is left out, since its xorshift generator should not return it;
so what can occur here occurs without that word. -/
def Draw (x : UInt32) : Prop := x ≠ 0

/-- `min ≤ d < max`, or the only value when both limits coincide. -/
def Allowed (min max d : Int) : Prop := min ≤ d ∧ (d < max ∨ min = max ∧ d = max)

theorem uint32n_reach (m k : Nat) (hm : m < 2 ^ 32) (hk : k < m) : ∃ x : UInt32, x ≠ 0 ∧ uint32n x m = k := by
  rcases Nat.eq_zero_or_pos k with rfl | hpos
  · refine ⟨1, by decide, ?_⟩
    unfold uint32n
    simpa using Nat.div_eq_of_lt hm
  · have hm0 : 0 < m := by omega
    let y := (k * 2 ^ 32 + (m - 1)) / m
    have h1 : y * m ≤ k * 2 ^ 32 + (m - 1) := Nat.div_mul_le_self _ _
    have h2 : k * 2 ^ 32 + (m - 1) < (y + 1) * m := by
      have := Nat.lt_div_mul_add (a := k * 2 ^ 32 + (m - 1)) hm0
      rw [Nat.add_mul, Nat.one_mul]; exact this
    have h2' : k * 2 ^ 32 ≤ y * m := by rw [Nat.add_mul, Nat.one_mul] at h2; omega
    have hy : y < 2 ^ 32 := by
      by_contra hc
      have h3 : 2 ^ 32 * m ≤ y * m := Nat.mul_le_mul_right m (by omega)
      have h4 : (k + 1) * 2 ^ 32 ≤ m * 2 ^ 32 := Nat.mul_le_mul_right _ hk
      omega
    have hy0 : 0 < y := by
      rcases Nat.eq_zero_or_pos y with h | h
      · rw [h] at h2'; omega
      · exact h
    refine ⟨UInt32.ofNat y, ?_, ?_⟩
    · intro h
      have := congrArg UInt32.toNat h
      rw [UInt32.toNat_ofNat_of_lt' hy] at this
      simp at this
      omega
    · unfold uint32n
      rw [UInt32.toNat_ofNat_of_lt' hy]
      have : m - 1 < 2 ^ 32 := by omega
      apply Nat.div_eq_of_lt_le <;> omega

theorem value_reach (r : Random) (h0 : r.min ≤ r.max) (hs : r.max - r.min < 2 ^ 32) (d : Int) :
    (∃ x, Draw x ∧ r.value x = d) ↔ Allowed r.min r.max d := by
  have e : (r.max - r.min) % 2 ^ 32 = r.max - r.min := Int.emod_eq_of_lt (by omega) hs
  constructor
  · rintro ⟨x, -, rfl⟩
    obtain ⟨a, b, c⟩ := C15.value_bounds r x h0 hs
    refine ⟨a, ?_⟩
    rcases lt_or_eq_of_le h0 with h | h
    · exact Or.inl (c h)
    · exact Or.inr ⟨h, by omega⟩
  · rintro ⟨a, b⟩
    unfold Random.value
    rw [e]
    rcases b with b | ⟨b, rfl⟩
    · obtain ⟨x, hx, hv⟩ := uint32n_reach (r.max - r.min).toNat (d - r.min).toNat (by omega) (by omega)
      exact ⟨x, hx, by rw [hv]; omega⟩
    · refine ⟨1, show (1 : UInt32) ≠ 0 by decide, ?_⟩
      have := C15.uint32n_le 1 (r.max - r.min).toNat
      omega

/-- **C104 (partial), offline periods.** After any history of a navigator created with limits
`0 ≤ min ≤ max`, not both 0, a call of `ToOffline` can start an offline period of `d` exactly if
`min ≤ d < max`, or `d = min = max`. Missing for the full claim: `d = max` when `min < max`, which never
occurs (`max_offline_never`). -/
theorem offline_reach_partial {F : Type} [GoMath F] (uid : String) (draws : Nat → F) (opts : List (NavOption F))
    (min max : Int) (hb : C15.configured opts (1, 10) = (min, max)) (hle : min ≤ max)
    (hz : ¬ (min = 0 ∧ max = 0)) (n : Navigator F) (hn : Navigator.new uid draws opts = .ok n)
    (ops : List (NavOp F)) (n1 : Navigator F) (h1 : n.run ops = .ok n1) (hs : n.skipOffline = false) (d : Int) :
    (∃ x n2, Draw x ∧ n1.toOffline x = .ok n2 ∧ n2.offlineIndex = d) ↔ Allowed min max d := by
  obtain ⟨r, hr, hp⟩ := C15.new_random hn hs
  rw [hb] at hp
  simp only at hp
  obtain ⟨p1, p2, p3, p4, p5, p6, -⟩ := hp
  obtain ⟨q1, q2⟩ := p6 hle hz
  have hinv := Navigator.run_induction (fun m : Navigator F => m.offline = some r ∧ m.skipOffline = false)
    (fun m m' op hP hst => by
      have hf := Navigator.step_offline_frame hst
      exact ⟨hf.offline.trans hP.1, hf.skip.trans hP.2⟩) n n1 ops ⟨hr, hs⟩ h1
  have hto : ∀ x, n1.toOffline x = .ok { n1 with offlineIndex := r.value x } := by
    intro x
    simp [Navigator.toOffline, hinv.1, hinv.2]
  rw [← q1, ← q2, ← value_reach r p2 (by omega) d]
  constructor
  · rintro ⟨x, n2, hx, h2, h3⟩
    rw [hto] at h2
    cases h2
    exact ⟨x, hx, h3⟩
  · rintro ⟨x, hx, h3⟩
    exact ⟨x, _, hx, hto x, h3⟩

/-- The negation: the configured maximum never occurs. -/
theorem max_offline_never {F : Type} [GoMath F] (uid : String) (draws : Nat → F) (opts : List (NavOption F))
    (min max : Int) (hb : C15.configured opts (1, 10) = (min, max)) (hlt : min < max)
    (n : Navigator F) (hn : Navigator.new uid draws opts = .ok n)
    (ops : List (NavOp F)) (n1 : Navigator F) (h1 : n.run ops = .ok n1) (hs : n.skipOffline = false) :
    ¬ ∃ x n2, n1.toOffline x = .ok n2 ∧ n2.offlineIndex = max := by
  rintro ⟨x, n2, h2, h3⟩
  have h0 : 0 ≤ min := by
    obtain ⟨r, -, -, -, -, p4, -⟩ := C15.new_random hn hs
    rw [hb] at p4
    exact p4
  have := (C15.bounds_partial uid draws opts min max hb (by omega) (by omega) n hn ops n1 n2 h1 hs x h2).2.2 hlt
  omega

/-- The draws (of all `2 ^ 32` words) for which the value is `d`. -/
def drawsOf (r : Random) (d : Int) : Finset ℕ := (range (2 ^ 32)).filter (fun x => r.value (UInt32.ofNat x) = d)

theorem ceil_le (a m x : Nat) (hm : 0 < m) : (a + (m - 1)) / m ≤ x ↔ a ≤ x * m := by
  rw [Nat.div_le_iff_le_mul_add_pred hm]
  rw [Nat.mul_comm]
  omega

theorem even_words (m k : Nat) (hm : m ≤ 2 ^ 32) (hk : k < m) :
    2 ^ 32 / m ≤ ((range (2 ^ 32)).filter (fun x => x * m / 2 ^ 32 = k)).card ∧
      ((range (2 ^ 32)).filter (fun x => x * m / 2 ^ 32 = k)).card ≤ 2 ^ 32 / m + 1 := by
  have hm0 : 0 < m := by omega
  let lo := (k * 2 ^ 32 + (m - 1)) / m
  let hi := ((k + 1) * 2 ^ 32 + (m - 1)) / m
  have he : (range (2 ^ 32)).filter (fun x => x * m / 2 ^ 32 = k) = Ico lo hi := by
    ext x
    simp only [mem_filter, mem_range, mem_Ico]
    have c1 := ceil_le (k * 2 ^ 32) m x hm0
    have c2 := ceil_le ((k + 1) * 2 ^ 32) m x hm0
    rw [show lo ≤ x ↔ k * 2 ^ 32 ≤ x * m from c1, ← not_le (a := hi),
      show hi ≤ x ↔ (k + 1) * 2 ^ 32 ≤ x * m from c2]
    have h4 : (k + 1) * 2 ^ 32 ≤ m * 2 ^ 32 := Nat.mul_le_mul_right _ hk
    constructor
    · rintro ⟨-, h⟩
      rw [Nat.div_eq_iff (by norm_num)] at h
      omega
    · rintro ⟨h5, h6⟩
      refine ⟨by_contra fun hc => ?_, ?_⟩
      · have := Nat.mul_le_mul_right m (not_lt.mp hc)
        rw [Nat.mul_comm m] at h4
        omega
      · rw [Nat.div_eq_iff (by norm_num)]
        omega
  rw [he, Nat.card_Ico]
  have a1 : lo * m ≤ k * 2 ^ 32 + (m - 1) := Nat.div_mul_le_self _ _
  have a2 : k * 2 ^ 32 + (m - 1) < lo * m + m := Nat.lt_div_mul_add hm0
  have b1 : hi * m ≤ (k + 1) * 2 ^ 32 + (m - 1) := Nat.div_mul_le_self _ _
  have b2 : (k + 1) * 2 ^ 32 + (m - 1) < hi * m + m := Nat.lt_div_mul_add hm0
  have hlh : lo ≤ hi := Nat.div_le_div_right (by omega)
  obtain ⟨w, hw⟩ := Nat.exists_eq_add_of_le hlh
  rw [hw, Nat.add_sub_cancel_left]
  have hi2 : hi * m = lo * m + w * m := by rw [hw, Nat.add_mul]
  rw [hi2] at b1 b2
  constructor
  · rw [← Nat.lt_succ_iff, Nat.div_lt_iff_lt_mul hm0, Nat.succ_mul]
    omega
  · have : w * m < 2 ^ 32 + m := by omega
    by_contra hc
    have h7 : 2 ^ 32 / m + 2 ≤ w := by omega
    have h8 := Nat.mul_le_mul_right m h7
    have h9 : 2 ^ 32 < 2 ^ 32 / m * m + m := Nat.lt_div_mul_add hm0
    rw [Nat.add_mul] at h8
    omega

/-- **C104, evenness.** Each of the `max - min` values is drawn by `2 ^ 32 / (max - min)` words, rounded
down or up. -/
theorem even_draws (r : Random) (hs : r.max - r.min < 2 ^ 32) (d : Int) (hd : r.min ≤ d) (hd' : d < r.max) :
    2 ^ 32 / (r.max - r.min).toNat ≤ (drawsOf r d).card ∧
      (drawsOf r d).card ≤ 2 ^ 32 / (r.max - r.min).toNat + 1 := by
  have e : (r.max - r.min) % 2 ^ 32 = r.max - r.min := Int.emod_eq_of_lt (by omega) hs
  have he : drawsOf r d =
      (range (2 ^ 32)).filter (fun x => x * (r.max - r.min).toNat / 2 ^ 32 = (d - r.min).toNat) := by
    unfold drawsOf
    apply filter_congr
    intro x hx
    rw [mem_range] at hx
    unfold Random.value uint32n
    rw [e, UInt32.toNat_ofNat_of_lt' hx]
    omega
  rw [he]
  exact even_words _ _ (by omega) (by omega)

/-! ## Curves: speed, sensors and elevation -/

/-- Random numbers of `Float64`: `0 ≤ u < 1`. -/
def Draws (f : ℕ → ℝ) : Prop := ∀ i, 0 ≤ f i ∧ f i < 1

/-- The part of the range that is free at parameter `t`: the mode bits 14 and 13 pin the first and the
last of the `k + 1` control points at the minimum. -/
noncomputable def freedom (s e : Prop) [Decidable s] [Decidable e] (k : ℕ) (t : ℝ) : ℝ :=
  1 - (if s then (1 - t) ^ k else 0) - (if e then t ^ k else 0)

/-- The values the curve can have: the minimum, and everything above it and below
`min + (max - min) * w`. -/
def Span (mn mx w v : ℝ) : Prop := v = mn ∨ (mn < v ∧ v < mn + (mx - mn) * w)

/-- Whether control point `i` is free. -/
def Free (mode : Int) (n i : ℕ) : Prop := ¬ (hasBit mode 14 = true ∧ i = 0) ∧ ¬ (hasBit mode 13 = true ∧ i = n - 1)

instance (mode : Int) (n i : ℕ) : Decidable (Free mode n i) := by unfold Free; infer_instance

theorem height_eq (mn mx : ℝ) (mode : Int) (n : ℕ) (draws : ℕ → ℝ) (i : ℕ) :
    heightAt mn mx mode n draws i = mn + (mx - mn) * ((if Free mode n i then 1 else 0) * draws i) := by
  unfold heightAt
  split
  · rename_i h
    rw [if_neg (fun hf : Free mode n i => hf.1 h)]; ring
  · split
    · rename_i h
      rw [if_neg (fun hf : Free mode n i => hf.2 h)]; ring
    · rename_i h1 h2
      rw [if_pos (show Free mode n i from ⟨h1, h2⟩)]; ring

theorem curve_value (mn mx : ℝ) (mode : Int) (k : ℕ) (draws : ℕ → ℝ) (t : ℝ) :
    ∑ i ∈ range (k + 1), heightAt mn mx mode (k + 1) draws i * bern k i t =
      mn + (mx - mn) * ∑ i ∈ range (k + 1), (if Free mode (k + 1) i then 1 else 0) * draws i * bern k i t := by
  have h1 := bern_sum k t
  calc _ = ∑ i ∈ range (k + 1), (mn * bern k i t +
        (mx - mn) * ((if Free mode (k + 1) i then 1 else 0) * draws i * bern k i t)) := by
        apply sum_congr rfl
        intro i _
        rw [height_eq]; ring
    _ = _ := by rw [sum_add_distrib, ← mul_sum, ← mul_sum, h1, mul_one]

theorem free_sum (mode : Int) (k : ℕ) (hk : 0 < k) (t : ℝ) :
    ∑ i ∈ range (k + 1), (if Free mode (k + 1) i then 1 else 0) * bern k i t =
      freedom (hasBit mode 14 = true) (hasBit mode 13 = true) k t := by
  have h1 := bern_sum k t
  have e : ∀ i ∈ range (k + 1), (if Free mode (k + 1) i then (1 : ℝ) else 0) * bern k i t =
      bern k i t - (if i = 0 then (if hasBit mode 14 = true then (1 - t) ^ k else 0) else 0) -
        (if i = k then (if hasBit mode 13 = true then t ^ k else 0) else 0) := by
    intro i hi
    rw [mem_range] at hi
    unfold Free
    have b0 : bern k 0 t = (1 - t) ^ k := by simp [bern]
    have bk : bern k k t = t ^ k := by simp [bern]
    by_cases i0 : i = 0
    · subst i0
      have : ¬ (0 = k) := by omega
      have h' : ¬ (0 = k + 1 - 1) := by omega
      by_cases hb : hasBit mode 14 = true <;> simp [hb, b0, this]
    · by_cases ik : i = k
      · subst ik
        by_cases hb : hasBit mode 13 = true <;> simp [hb, bk, i0]
      · simp [i0, ik]
  rw [sum_congr rfl e, sum_sub_distrib, sum_sub_distrib, h1]
  unfold freedom
  simp

/-- Heart of the matter. -/
theorem span_iff (mn mx : ℝ) (hlt : mn < mx) (mode : Int) (k : ℕ) (hk : 0 < k) (t : ℝ) (h0 : 0 ≤ t) (h1 : t ≤ 1)
    (v : ℝ) :
    (∃ draws, Draws draws ∧ ∑ i ∈ range (k + 1), heightAt mn mx mode (k + 1) draws i * bern k i t = v) ↔
      Span mn mx (freedom (hasBit mode 14 = true) (hasBit mode 13 = true) k t) v := by
  rw [← free_sum mode k hk t]
  have hb : ∀ i, 0 ≤ (if Free mode (k + 1) i then (1 : ℝ) else 0) * bern k i t := by
    intro i
    have := bern_nonneg k i h0 h1
    split <;> simp [this]
  have hd : 0 < mx - mn := by linarith
  constructor
  · rintro ⟨draws, hu, rfl⟩
    rw [curve_value]
    set W := ∑ i ∈ range (k + 1), (if Free mode (k + 1) i then (1 : ℝ) else 0) * bern k i t with hW
    set X := ∑ i ∈ range (k + 1), (if Free mode (k + 1) i then (1 : ℝ) else 0) * draws i * bern k i t with hX
    have hX0 : 0 ≤ X := sum_nonneg (fun i _ => by
      have := mul_nonneg (hb i) (hu i).1
      linarith [show (if Free mode (k + 1) i then (1 : ℝ) else 0) * draws i * bern k i t =
        (if Free mode (k + 1) i then (1 : ℝ) else 0) * bern k i t * draws i by ring])
    rcases eq_or_lt_of_le hX0 with hz | hpos
    · left; rw [← hz]; ring
    · right
      have hlt' : X < W := by
        apply sum_lt_sum
        · intro i _
          have := mul_nonneg (hb i) (sub_nonneg.mpr (hu i).2.le)
          linarith [show (if Free mode (k + 1) i then (1 : ℝ) else 0) * bern k i t * (1 - draws i) =
            (if Free mode (k + 1) i then (1 : ℝ) else 0) * bern k i t -
            (if Free mode (k + 1) i then (1 : ℝ) else 0) * draws i * bern k i t by ring]
        · by_contra hc
          push Not at hc
          have : X = 0 := sum_eq_zero (fun i hi => by
            have h2 := hc i hi
            have h3 : (if Free mode (k + 1) i then (1 : ℝ) else 0) * bern k i t = 0 := by
              have h4 := hb i
              have h5 := (hu i).2
              by_contra h6
              have h7 := lt_of_le_of_ne h4 (Ne.symm h6)
              have h8 := mul_lt_mul_of_pos_left h5 h7
              linarith [show (if Free mode (k + 1) i then (1 : ℝ) else 0) * bern k i t * draws i =
                (if Free mode (k + 1) i then (1 : ℝ) else 0) * draws i * bern k i t by ring]
            calc _ = ((if Free mode (k + 1) i then (1 : ℝ) else 0) * bern k i t) * draws i := by ring
              _ = 0 := by rw [h3, zero_mul])
          linarith
      have := mul_pos hd hpos
      have := mul_lt_mul_of_pos_left hlt' hd
      exact ⟨by linarith, by linarith⟩
  · intro hv
    set W := ∑ i ∈ range (k + 1), (if Free mode (k + 1) i then (1 : ℝ) else 0) * bern k i t with hW
    have hconst : ∀ u : ℝ, ∑ i ∈ range (k + 1), heightAt mn mx mode (k + 1) (fun _ => u) i * bern k i t =
        mn + (mx - mn) * (u * W) := by
      intro u
      have : ∑ i ∈ range (k + 1), (if Free mode (k + 1) i then (1 : ℝ) else 0) * u * bern k i t = u * W := by
        rw [hW, mul_sum]
        exact sum_congr rfl (fun i _ => by ring)
      rw [curve_value, this]
    rcases hv with rfl | ⟨a, b⟩
    · exact ⟨fun _ => 0, fun _ => ⟨le_rfl, one_pos⟩, by rw [hconst]; ring⟩
    · have hw : 0 < (mx - mn) * W := by linarith
      refine ⟨fun _ => (v - mn) / ((mx - mn) * W), fun _ => ⟨by apply div_nonneg <;> linarith,
        by rw [div_lt_one hw]; linarith⟩, ?_⟩
      rw [hconst]
      have : (mx - mn) * ((v - mn) / ((mx - mn) * W) * W) = v - mn := by
        rw [show (mx - mn) * ((v - mn) / ((mx - mn) * W) * W) = (v - mn) / ((mx - mn) * W) * ((mx - mn) * W) by ring,
          div_mul_cancel₀ _ hw.ne']
      linarith

theorem norm_bit_iff (mode : UInt16) (k : ℕ) (hk : k < 15) :
    hasBit (normSensorMode mode) k = true ↔ mode.toNat.testBit k = true := by
  refine ⟨fun h => ?_, C28.norm_bit⟩
  unfold normSensorMode at h
  split at h
  · unfold hasBit at h
    rw [Nat.testBit_eq_decide_div_mod_eq, decide_eq_true_eq]
    rw [beq_iff_eq] at h
    exact_mod_cast h
  · exfalso
    revert h
    have : ∀ j < 15, ¬ hasBit modeDefault j = true := by decide
    exact this k hk

instance (mode : UInt16) : Decidable (C28.startAtMin mode) := by unfold C28.startAtMin; infer_instance
instance (mode : UInt16) : Decidable (C28.endAtMin mode) := by unfold C28.endAtMin; infer_instance

theorem freedom_congr {s e s' e' : Prop} [Decidable s] [Decidable e] [Decidable s'] [Decidable e'] (hs : s ↔ s')
    (he : e ↔ e') (k : ℕ) (t : ℝ) : freedom s e k t = freedom s' e' k t := by
  unfold freedom
  simp only [hs, he]

theorem next_value {s : Sensor ℝ} {k : ℕ} {y : ℕ → ℝ} (h : Shaped s.gen k y) (t v : ℝ) :
    (∃ s', s.next t = .ok s' ∧ s'.valY = v) ↔ ∑ i ∈ range (k + 1), y i * bern k i t = v := by
  obtain ⟨c', hc⟩ := shaped_point h t
  unfold Sensor.next
  rw [hc]
  constructor
  · rintro ⟨s', h1, h2⟩
    cases h1
    exact h2
  · intro h
    exact ⟨_, rfl, h⟩

/-- **C104 (partial), sensors.** The values a new sensor with `min < max` can have at `t`: its minimum, and
everything above it and below the share of the range that the mode leaves free there. Missing for the
full claim: the upper limit, which never occurs. -/
theorem sensor_reach_partial (uid name : String) (hname : goLen name ≠ 0) (mn mx : ℝ) (hlt : mn < mx) (amp : Int)
    (ha : 4 ≤ amp) (ha' : amp ≤ 512) (mode : UInt16) (t : ℝ) (h0 : 0 ≤ t) (h1 : t ≤ 1) (v : ℝ) :
    (∃ draws s s', Draws draws ∧ Sensor.new uid draws name mn mx amp mode = .ok s ∧ s.next t = .ok s' ∧
      s'.valY = v) ↔
    Span mn mx (freedom (C28.startAtMin mode) (C28.endAtMin mode) (amp.toNat - 1) t) v := by
  rw [← freedom_congr (s' := C28.startAtMin mode) (e' := C28.endAtMin mode)
      (norm_bit_iff mode 14 (by norm_num)) (norm_bit_iff mode 13 (by norm_num)),
    ← span_iff mn mx hlt (normSensorMode mode) (amp.toNat - 1) (by omega) t h0 h1 v]
  have hn : ∀ draws : ℕ → ℝ, Sensor.new uid draws name mn mx amp mode =
      .ok ⟨uid, name, mn, mx, lit 0, lit 0, Curve.new mn mx amp (normSensorMode mode) draws⟩ := by
    intro draws
    unfold Sensor.new validateAmplitude
    rw [if_neg (by omega), if_neg (by omega), if_neg hname]
    rfl
  have hk : amp.toNat - 1 + 1 = amp.toNat := by omega
  have hsh : ∀ draws : ℕ → ℝ, Shaped (Curve.new mn mx amp (normSensorMode mode) draws) (amp.toNat - 1)
      (heightAt mn mx (normSensorMode mode) (amp.toNat - 1 + 1) draws) := by
    intro draws
    rw [hk]
    exact shaped_new _ _ _ _ _ (by omega)
  constructor
  · rintro ⟨draws, s, s', hd, h2, h3, h4⟩
    rw [hn] at h2
    cases h2
    exact ⟨draws, hd, (next_value (hsh draws) t v).mp ⟨s', h3, h4⟩⟩
  · rintro ⟨draws, hd, h2⟩
    obtain ⟨s', h3, h4⟩ := (next_value (s := ⟨uid, name, mn, mx, lit 0, lit 0, _⟩) (hsh draws) t v).mpr h2
    exact ⟨draws, _, s', hd, hn draws, h3, h4⟩

/-- **C104 (partial), shuffled sensors.** The same after any history followed by `Shuffle`: a reshuffled
sensor is as free as a new one. -/
theorem shuffle_reach_partial (mn mx : ℝ) (hlt : mn < mx) (amp : Int) (mode : UInt16) (s : Sensor ℝ)
    (hf : C28.From mn mx amp mode s) (t : ℝ) (h0 : 0 ≤ t) (h1 : t ≤ 1) (v : ℝ) :
    (∃ draws s', Draws draws ∧ (s.shuffle draws).next t = .ok s' ∧ s'.valY = v) ↔
    Span mn mx (freedom (C28.startAtMin mode) (C28.endAtMin mode) (amp.toNat - 1) t) v := by
  obtain ⟨ha, ⟨y, hsh, -⟩, -, -, e1, e2, e3⟩ := C28.from_inv hf
  rw [← freedom_congr (s' := C28.startAtMin mode) (e' := C28.endAtMin mode)
      (norm_bit_iff mode 14 (by norm_num)) (norm_bit_iff mode 13 (by norm_num)),
    ← span_iff mn mx hlt (normSensorMode mode) (amp.toNat - 1) (by omega) t h0 h1 v]
  have hs : ∀ draws, Shaped (s.shuffle draws).gen (amp.toNat - 1)
      (heightAt mn mx (normSensorMode mode) (amp.toNat - 1 + 1) draws) := by
    intro draws
    rw [← e1, ← e2, ← e3]
    exact shaped_shuffle hsh draws
  constructor
  · rintro ⟨draws, s', hd, h3, h4⟩
    exact ⟨draws, hd, (next_value (hs draws) t v).mp ⟨s', h3, h4⟩⟩
  · rintro ⟨draws, hd, h2⟩
    obtain ⟨s', h3, h4⟩ := (next_value (hs draws) t v).mpr h2
    exact ⟨draws, s', hd, h3, h4⟩

theorem freedom_le (s e : Prop) [Decidable s] [Decidable e] (k : ℕ) (t : ℝ) (h0 : 0 ≤ t) (h1 : t ≤ 1) :
    freedom s e k t ≤ 1 := by
  unfold freedom
  have a : 0 ≤ (1 - t) ^ k := pow_nonneg (by linarith) _
  have b : 0 ≤ t ^ k := pow_nonneg h0 _
  split <;> split <;> linarith

/-- Strictly between the ends of the curve some freedom is left in every mode; so the whole range is
reached in the default mode and part of it in the others. -/
theorem freedom_pos (s e : Prop) [Decidable s] [Decidable e] (k : ℕ) (hk : 2 ≤ k) (t : ℝ) (h0 : 0 < t) (h1 : t < 1) :
    0 < freedom s e k t ∧ (¬ s → ¬ e → freedom s e k t = 1) := by
  have a : (1 - t) ^ k < 1 - t := by
    have := pow_lt_pow_right_of_lt_one₀ (a := 1 - t) (by linarith) (by linarith) (show 1 < k by omega)
    simpa using this
  have b : t ^ k < t := by
    have := pow_lt_pow_right_of_lt_one₀ (a := t) h0 h1 (show 1 < k by omega)
    simpa using this
  unfold freedom
  refine ⟨?_, fun hs he => by simp [hs, he]⟩
  split <;> split <;> linarith

/-- The negation for sensors: the maximum never occurs, in any mode. -/
theorem max_sensor_never (uid name : String) (mn mx : ℝ) (hlt : mn < mx) (amp : Int) (mode : UInt16) (t : ℝ)
    (h0 : 0 ≤ t) (h1 : t ≤ 1) :
    ¬ ∃ draws s s', Draws draws ∧ Sensor.new uid draws name mn mx amp mode = .ok s ∧ s.next t = .ok s' ∧
      s'.valY = mx := by
  rintro ⟨draws, s, s', hd, h2, h3, h4⟩
  have hname : goLen name ≠ 0 := by
    intro hc
    unfold Sensor.new at h2
    obtain ⟨_, -, h2⟩ := bind_eq_ok h2
    rw [if_pos hc] at h2
    cases h2
  obtain ⟨ha, ha', -⟩ := sensor_new_eq h2
  have := (sensor_reach_partial uid name hname mn mx hlt amp ha ha' mode t h0 h1 mx).mp ⟨draws, s, s', hd, h2, h3, h4⟩
  have hf := freedom_le (C28.startAtMin mode) (C28.endAtMin mode) (amp.toNat - 1) t h0 h1
  rcases this with h | ⟨-, h⟩
  · linarith
  · nlinarith

/-- **C104 (partial), speed.** With accepted limits `0 ≤ min < max ≤ 1000` a new speed generator can
have, at every `t`, exactly the values `min ≤ v < max`. Missing for the full claim: `max`. -/
theorem speed_reach_partial (mn mx : ℝ) (hm : 0 ≤ mn) (hlt : mn < mx) (hx : mx ≤ 1000) (amp : Int) (ha : 4 ≤ amp)
    (ha' : amp ≤ 512) (t : ℝ) (h0 : 0 ≤ t) (h1 : t ≤ 1) (v : ℝ) :
    (∃ draws s s', Draws draws ∧ Speed.new draws mn mx amp = .ok s ∧ s.next t = .ok s' ∧ s'.value = v) ↔
      mn ≤ v ∧ v < mx := by
  have hspan : Span mn mx (freedom (hasBit modeDefault 14 = true) (hasBit modeDefault 13 = true) (amp.toNat - 1) t) v ↔
      mn ≤ v ∧ v < mx := by
    have : freedom (hasBit modeDefault 14 = true) (hasBit modeDefault 13 = true) (amp.toNat - 1) t = 1 := by
      unfold freedom
      rw [if_neg (by decide), if_neg (by decide)]; ring
    rw [this]
    unfold Span
    constructor
    · rintro (rfl | ⟨a, b⟩)
      · exact ⟨le_rfl, hlt⟩
      · exact ⟨a.le, by linarith⟩
    · rintro ⟨a, b⟩
      rcases eq_or_lt_of_le a with h | h
      · exact Or.inl h.symm
      · exact Or.inr ⟨h, by linarith⟩
  rw [← hspan, ← span_iff mn mx hlt modeDefault (amp.toNat - 1) (by omega) t h0 h1 v]
  have hn : ∀ draws : ℕ → ℝ, Speed.new draws mn mx amp =
      .ok ⟨mn, mx, lit 0, Curve.new mn mx amp modeDefault draws⟩ := by
    intro draws
    unfold Speed.new validateAmplitude
    simp only [real_lt, real_le, real_eq, real_lit, decide_eq_true_eq, Bool.and_eq_true]
    push_cast
    have e1 : (if mx ≤ 0 then mn else mx) = mx := if_neg (by linarith)
    rw [e1, if_neg (by linarith), if_neg (by linarith), if_neg (by linarith), if_neg (show ¬ amp < 4 by omega),
      if_neg (show ¬ amp > 512 by omega), if_neg (by rintro ⟨-, h⟩; linarith)]
    rfl
  have hk : amp.toNat - 1 + 1 = amp.toNat := by omega
  have hsh : ∀ draws : ℕ → ℝ, Shaped (Curve.new mn mx amp modeDefault draws) (amp.toNat - 1)
      (heightAt mn mx modeDefault (amp.toNat - 1 + 1) draws) := by
    intro draws
    rw [hk]
    exact shaped_new _ _ _ _ _ (by omega)
  have hnx : ∀ draws : ℕ → ℝ, (∃ s', Speed.next ⟨mn, mx, lit 0, Curve.new mn mx amp modeDefault draws⟩ t = .ok s' ∧
      s'.value = v) ↔ ∑ i ∈ range (amp.toNat - 1 + 1), heightAt mn mx modeDefault (amp.toNat - 1 + 1) draws i *
        bern (amp.toNat - 1) i t = v := by
    intro draws
    obtain ⟨c', hc⟩ := shaped_point (hsh draws) t
    have hst : ∀ (w : ℝ) (c : Curve ℝ), Speed.isStatic ⟨mn, mx, w, c⟩ = false := by
      intro w c
      simp only [Speed.isStatic, real_eq, decide_eq_false_iff_not]
      exact hlt.ne
    simp only [Speed.next, hst, Bool.false_eq_true, if_false, hc]
    constructor
    · rintro ⟨s', h2, h3⟩
      cases h2
      simp only [Speed.value, hst, Bool.false_eq_true, if_false] at h3
      exact h3
    · intro h
      refine ⟨_, rfl, ?_⟩
      simp only [Speed.value, hst, Bool.false_eq_true, if_false]
      exact h
  constructor
  · rintro ⟨draws, s, s', hd, h2, h3, h4⟩
    rw [hn] at h2
    cases h2
    exact ⟨draws, hd, (hnx draws).mp ⟨s', h3, h4⟩⟩
  · rintro ⟨draws, hd, h2⟩
    obtain ⟨s', h3, h4⟩ := (hnx draws).mpr h2
    exact ⟨draws, _, s', hd, hn draws, h3, h4⟩

/-- The negation for speeds. -/
theorem max_speed_never (mn mx : ℝ) (hm : 0 ≤ mn) (hlt : mn < mx) (hx : mx ≤ 1000) (amp : Int) (ha : 4 ≤ amp)
    (ha' : amp ≤ 512) (t : ℝ) (h0 : 0 ≤ t) (h1 : t ≤ 1) :
    ¬ ∃ draws s s', Draws draws ∧ Speed.new draws mn mx amp = .ok s ∧ s.next t = .ok s' ∧ s'.value = mx := fun h =>
  absurd ((speed_reach_partial mn mx hm hlt hx amp ha ha' t h0 h1 mx).mp h).2 (lt_irrefl _)

/-! ## Coordinates -/

/-- Values of an affine function of a draw. -/
theorem affine_iff (a b x : ℝ) (h : a < b) : (∃ u, C50.Unit01 u ∧ u * (b - a) + a = x) ↔ a ≤ x ∧ x < b := by
  constructor
  · rintro ⟨u, ⟨h0, h1⟩, rfl⟩
    constructor <;> nlinarith
  · rintro ⟨h0, h1⟩
    have hp : 0 < b - a := by linarith
    refine ⟨(x - a) / (b - a), ⟨by apply div_nonneg <;> linarith, by rw [div_lt_one hp]; linarith⟩, ?_⟩
    rw [div_mul_cancel₀ _ hp.ne']; ring

/-- **C104 (partial), anywhere.** `LatLon` can return exactly the points with `-90 ≤ lat < 90` and
`-180 ≤ lon < 180`. Missing for the full claim: the north pole and longitude 180. -/
theorem latLon_reach_partial (p : LatLon ℝ) :
    (∃ u v, C50.Unit01 u ∧ C50.Unit01 v ∧ latLon u v = p) ↔
      (-90 ≤ p.lat ∧ p.lat < 90) ∧ (-180 ≤ p.lon ∧ p.lon < 180) := by
  obtain ⟨la, lo⟩ := p
  have e : ∀ u v : ℝ, latLon u v = ⟨u * (90 - (-90)) + (-90), v * (180 - (-180)) + (-180)⟩ := by
    intro u v
    simp only [latLon, real_sub, real_mul, real_lit]
    push_cast
    rw [LatLon.mk.injEq]
    constructor <;> ring
  rw [← affine_iff (-90) 90 la (by norm_num), ← affine_iff (-180) 180 lo (by norm_num)]
  constructor
  · rintro ⟨u, v, hu, hv, h⟩
    rw [e, LatLon.mk.injEq] at h
    exact ⟨⟨u, hu, h.1⟩, v, hv, h.2⟩
  · rintro ⟨⟨u, hu, h1⟩, v, hv, h2⟩
    exact ⟨u, v, hu, hv, by rw [e, h1, h2]⟩

/-- **C104 (partial), countries.** For each country code, in any letter case, `LatLonByCountry` can return
exactly the points of the bounding box without its northern and eastern edge. -/
theorem country_reach_partial (c name : String) (hc : (c, name) ∈ countries) (s : String) (hs : C50.SameCode s c)
    (p : LatLon ℝ) :
    (∃ u v, C50.Unit01 u ∧ C50.Unit01 v ∧ latLonByCountry s u v = some p) ↔
      ∃ b, boundingBox s = some b ∧ (b.minLat ≤ p.lat ∧ p.lat < b.maxLat) ∧ (b.minLon ≤ p.lon ∧ p.lon < b.maxLon) := by
  obtain ⟨la, lo⟩ := p
  have hm : c ∈ boxes.map (·.1) := by
    rw [← C50.tables_match]; exact List.mem_map_of_mem (f := (·.1)) hc
  have hok := List.all_eq_true.mp C50.codes_ok c hm
  obtain ⟨hl, hu'⟩ := C50.code_upper hok hs
  obtain ⟨hl2, hu2⟩ := C50.upper_upper hok
  obtain ⟨x, hx, -⟩ := C50.lookup_mem hm
  have hb1 : ∃ b : BBox ℝ, boundingBox s = some b ∧ boundingBox (upper s) = some b := by
    unfold boundingBox
    rw [if_neg (by simp [hl]), hu', if_neg (by simp [hl2]), hu2, hx]
    exact ⟨_, rfl, rfl⟩
  obtain ⟨b, hb, hbu⟩ := hb1
  obtain ⟨⟨-, a2, -⟩, -, b2, -⟩ := C50.box_of hb
  have e : ∀ u v : ℝ, latLonByCountry s u v =
      some ⟨v * (b.maxLat - b.minLat) + b.minLat, u * (b.maxLon - b.minLon) + b.minLon⟩ := by
    intro u v
    unfold latLonByCountry
    rw [if_neg (by simp [hl]), hbu]
    rfl
  rw [hb]
  constructor
  · rintro ⟨u, v, hu, hv, h⟩
    rw [e, Option.some.injEq, LatLon.mk.injEq] at h
    exact ⟨b, rfl, (affine_iff _ _ _ a2).mp ⟨v, hv, h.1⟩, (affine_iff _ _ _ b2).mp ⟨u, hu, h.2⟩⟩
  · rintro ⟨b', hb', h1, h2⟩
    cases hb'
    obtain ⟨v, hv, e1⟩ := (affine_iff _ _ _ a2).mpr h1
    obtain ⟨u, hu, e2⟩ := (affine_iff _ _ _ b2).mpr h2
    exact ⟨u, v, hu, hv, by rw [e, e1, e2]⟩

/-! ## Strings -/

/-- **C104, strings.** `String(n)` for `0 ≤ n` can return exactly the strings of `n` characters over the
charset, and different draws give different strings: all are equally likely. -/
theorem string_reach (n : Nat) (s : String) :
    (∃ draws : ℕ → ℕ, (∀ i, draws i < 62) ∧ randomString n draws = .ok s) ↔
      s.toList.length = n ∧ ∀ ch ∈ s.toList, ch ∈ charset.toList := by
  have h62 : charset.toList.length = 62 := by decide +kernel
  constructor
  · rintro ⟨draws, hd, h⟩
    obtain ⟨s', h1, h2, h3⟩ := C50.string_over_charset n charset draws (by rw [h62]; exact hd)
    unfold randomString at h
    rw [h1] at h
    cases h
    exact ⟨by simpa using h2, h3⟩
  · rintro ⟨hl, hc⟩
    have : ∀ i : ℕ, ∃ j : ℕ, j < 62 ∧ (∀ ch, s.toList[i]? = some ch → charset.toList[j]? = some ch) := by
      intro i
      cases hi : s.toList[i]? with
      | none => exact ⟨0, by norm_num, by simp⟩
      | some ch =>
        obtain ⟨j, hj⟩ := List.mem_iff_getElem?.mp (hc ch (List.mem_of_getElem? hi))
        refine ⟨j, ?_, fun ch' h => by cases h; exact hj⟩
        have := (List.getElem?_eq_some_iff.mp hj).1
        omega
    choose draws hd hg using this
    refine ⟨draws, hd, ?_⟩
    unfold randomString stringWithCharset
    split
    · rename_i h0
      have : s.toList = [] := List.length_eq_zero_iff.mp (by omega)
      rw [show s = "" from String.toList_inj.mp (by rw [this]; rfl)]
    · rw [C50.mapM_ok (g := fun i => charset.toList[draws i]'(by rw [h62]; exact hd i))]
      · simp only [ok_bind]
        congr 1
        apply String.toList_inj.mp
        rw [String.toList_ofList]
        apply List.ext_getElem?
        intro i
        rw [List.getElem?_map]
        by_cases hi : i < n
        · have hi' : i < s.toList.length := by omega
          rw [List.getElem?_range (by simpa using hi), List.getElem?_eq_getElem hi', Option.map_some]
          have := hg i _ (List.getElem?_eq_getElem hi')
          rw [List.getElem?_eq_getElem (by rw [h62]; exact hd i)] at this
          exact this
        · rw [List.getElem?_eq_none (by simp; omega), List.getElem?_eq_none (by omega)]; rfl
      · intro i _
        unfold goIndex
        rw [if_pos (by omega)]
        simp only [Int.toNat_natCast]
        rw [List.getElem?_eq_getElem (by rw [h62]; exact hd i)]

/-- Different draws, different strings. -/
theorem string_injective (n : Nat) (d d' : ℕ → ℕ) (h : ∀ i, d i < 62) (h' : ∀ i, d' i < 62)
    (he : randomString n d = randomString n d') : ∀ i < n, d i = d' i := by
  have h62 : charset.toList.length = 62 := by decide +kernel
  have hnd : charset.toList.Nodup := by decide +kernel
  intro i hi
  have key : ∀ f : ℕ → ℕ, (hf : ∀ i, f i < 62) → randomString n f =
      .ok (String.ofList ((List.range n).map (fun i => charset.toList[f i]'(by rw [h62]; exact hf i)))) := by
    intro f hf
    unfold randomString stringWithCharset
    rw [if_neg (by omega), C50.mapM_ok (g := fun i => charset.toList[f i]'(by rw [h62]; exact hf i))]
    · rfl
    · intro i _
      unfold goIndex
      rw [if_pos (by omega)]
      simp only [Int.toNat_natCast]
      rw [List.getElem?_eq_getElem (by rw [h62]; exact hf i)]
  rw [key d h, key d' h', Except.ok.injEq] at he
  have hl := congrArg String.toList he
  rw [String.toList_ofList, String.toList_ofList] at hl
  have hg := congrArg (fun l => l[i]?) hl
  simp only [List.getElem?_map, List.getElem?_range hi, Option.map_some, Option.some.injEq] at hg
  exact (List.Nodup.getElem_inj_iff hnd).mp hg

/-! ## Examples -/

/-- With the default limits 1..10 a period of 9 can start, one of 10 cannot. -/
example : (∃ x, Draw x ∧ (Random.new 1 10).value x = 9) ∧ ¬ ∃ x, Draw x ∧ (Random.new 1 10).value x = 10 := by
  have e : Random.new 1 10 = ⟨1, 10⟩ := by decide
  rw [e, value_reach ⟨1, 10⟩ (by decide) (by decide), value_reach ⟨1, 10⟩ (by decide) (by decide)]
  unfold Allowed
  decide

/-- The nine periods 1..9 are drawn by 477218588 or 477218589 words each. -/
example : 477218588 ≤ (drawsOf ⟨1, 10⟩ 4).card ∧ (drawsOf ⟨1, 10⟩ 4).card ≤ 477218589 :=
  even_draws ⟨1, 10⟩ (by decide) 4 (by decide) (by decide)

/-- Speeds from 1 to 3 m/s: 2.999 occurs half way along the track. -/
example : ∃ draws s s', Draws draws ∧ Speed.new draws 1 3 8 = .ok s ∧ s.next (1 / 2) = .ok s' ∧ s'.value = 2.999 :=
  (speed_reach_partial 1 3 (by norm_num) (by norm_num) (by norm_num) 8 (by norm_num) (by norm_num) (1 / 2)
    (by norm_num) (by norm_num) 2.999).mpr (by norm_num)

/-- A sensor 0..8 with four points whose start is pinned: at `t = 1/2` values up to `7` occur, 7 does not. -/
example : (∃ draws s s', Draws draws ∧ Sensor.new "u" draws "fuel" 0 8 4 16384 = .ok s ∧
      s.next (1 / 2) = .ok s' ∧ s'.valY = 6.999) ∧
    ¬ ∃ draws s s', Draws draws ∧ Sensor.new "u" draws "fuel" 0 8 4 16384 = .ok s ∧
      s.next (1 / 2) = .ok s' ∧ s'.valY = 7 := by
  have hf : freedom (C28.startAtMin 16384) (C28.endAtMin 16384) ((4 : Int).toNat - 1) (1 / 2 : ℝ) = 7 / 8 := by
    unfold freedom
    rw [if_pos (by decide), if_neg (by decide), show (4 : Int).toNat - 1 = 3 from rfl]
    norm_num
  rw [sensor_reach_partial "u" "fuel" (by decide) 0 8 (by norm_num) 4 (by norm_num) (by norm_num) 16384 (1 / 2)
    (by norm_num) (by norm_num), sensor_reach_partial "u" "fuel" (by decide) 0 8 (by norm_num) 4 (by norm_num)
    (by norm_num) 16384 (1 / 2) (by norm_num) (by norm_num), hf]
  unfold Span
  norm_num

example : ∃ u v, C50.Unit01 u ∧ C50.Unit01 v ∧ latLon u v = ⟨-90, 179.5⟩ :=
  (latLon_reach_partial ⟨-90, 179.5⟩).mpr (by norm_num)

example : ∃ draws : ℕ → ℕ, (∀ i, draws i < 62) ∧ randomString 5 draws = .ok "Zz0a9" :=
  (string_reach 5 "Zz0a9").mpr ⟨by decide +kernel, by
    intro ch hch
    have : ("Zz0a9".toList.all (fun c => charset.toList.contains c)) = true := by decide +kernel
    simpa using List.all_eq_true.mp this ch hch⟩

end C104
end GpsGen
