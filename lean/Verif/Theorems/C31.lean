import Verif.Lemmas.Seconds
import Verif.Theorems.C32
/-!
# C31 Battery charge is bounded and monotone between recharges

Numbers are `XNum ℝ` (exact, with infinities and NaN). The full claim fails: the maximum is ignored,
so the value exceeds a maximum below 100, and with charge time zero (which the constructor accepts)
the value is NaN. It is proved for maximum 100 and any other accepted charge time.
-/

namespace GpsGen
namespace C31
open C32 (X Num atLeast atMost below)

/-! ## Specification -/

inductive Op where
  | next (seconds : ℝ)
  | reset

def Legal : Op → Prop
  | .next s => 0 ≤ s
  | .reset => True

noncomputable def run (b : Battery X) : List Op → Battery X
  | [] => b
  | .next s :: ops => run (b.next (.fin s)) ops
  | .reset :: ops => run b.reset ops

/-- Seconds of use since the last recharge, starting from `u`. -/
noncomputable def used (u : ℝ) : List Op → ℝ
  | [] => u
  | .next s :: ops => used (u + s) ops
  | .reset :: ops => used 0 ops

/-- The charge after `u` seconds of use. -/
noncomputable def charge (mn : ℝ) (chargeTime : Int) (u : ℝ) : ℝ :=
  max mn (100 - 100 * (u / (chargeTime / 1000000000)))

/-- The full claim. -/
def Claim : Prop := ∀ (mn mx : X) (ct : Int) (b : Battery X) (ops : List Op),
  Battery.new mn mx ct = .ok b → (∀ op ∈ ops, Legal op) →
    below b.min (run b ops).value ∧ below (run b ops).value b.max

/-! ## Proof -/

theorem run_val {b : Battery X} {u : ℝ} (h : b.val = .fin u) (ops : List Op) :
    (run b ops).val = .fin (used u ops) ∧ (run b ops).min = b.min ∧ (run b ops).max = b.max ∧
    (run b ops).chargeTime = b.chargeTime := by
  induction ops generalizing b u with
  | nil => exact ⟨h, rfl, rfl, rfl⟩
  | cons op ops ih =>
    cases op with
    | next s =>
      have := @ih (b.next (.fin s)) (u + s) (by show b.val +. _ = _; rw [h]; simp)
      exact this
    | reset =>
      have := @ih b.reset 0 (by show lit 0 = _; simp)
      exact this

theorem used_nonneg {u : ℝ} (hu : 0 ≤ u) {ops : List Op} (h : ∀ op ∈ ops, Legal op) : 0 ≤ used u ops := by
  induction ops generalizing u with
  | nil => exact hu
  | cons op ops ih =>
    have h' : ∀ op ∈ ops, Legal op := fun o ho => h o (List.mem_cons_of_mem _ ho)
    cases op with
    | next s =>
      have hs : 0 ≤ s := h (.next s) List.mem_cons_self
      exact ih (by linarith) h'
    | reset => exact ih le_rfl h'

theorem value_eq {b : Battery X} {u mn : ℝ} (h : b.val = .fin u) (hm : b.min = .fin mn)
    (hc : b.chargeTime ≠ 0) : b.value = .fin (charge mn b.chargeTime u) := by
  unfold Battery.value
  rw [durSeconds_x]
  have hc' : ((b.chargeTime : ℝ) / 1000000000) ≠ 0 := by
    apply div_ne_zero
    · exact_mod_cast hc
    · norm_num
  rw [h, hm]
  simp only [XNum.lit_eq, Rat.cast_ofNat, XNum.fin_div, if_neg hc',
    XNum.fin_mul, XNum.fin_sub, XNum.fin_lt, decide_eq_true_eq]
  unfold charge
  split
  · rename_i hlt
    rw [max_eq_left (by linarith)]
  · rename_i hlt
    rw [max_eq_right (by linarith)]
    congr 1
    ring

/-- What an accepted battery looks like. -/
theorem accepted {mn mx : X} {ct : Int} {b : Battery X} (hn : Num mn) (hm : Num mx) (hx : atLeast 0 mx)
    (hc : ct ≠ 0) (h : Battery.new mn mx ct = .ok b) :
    b.val = .fin 0 ∧ b.max = mx ∧ 0 < b.chargeTime ∧
    ∃ m x : ℝ, b.min = .fin m ∧ mx = .fin x ∧ 0 ≤ m ∧ m ≤ x ∧ x ≤ 100 := by
  obtain ⟨h1, h2, h3, -, h4, h5⟩ := (C32.battery_iff_partial mn mx ct hn hm).2 b h
  have h0 := h4 hx
  have hct := h5 hc
  refine ⟨?_, h3, ?_, ?_⟩
  · unfold Battery.new at h
    split at h
    · cases h
    split at h
    · cases h
    cases h
    simp
  · rw [hct]; split <;> omega
  · rw [h3] at h1 h2
    cases hb : b.min with
    | nan => rw [hb] at h0; exact h0.elim
    | inf s =>
      rw [hb] at h0 h1
      cases mx with
      | nan => exact absurd rfl hm
      | inf t => rw [show t = true from h2] at hx; cases hx
      | fin x =>
        have h1 : s = true := h1
        have h0 : s = false := h0
        rw [h1] at h0; cases h0
    | fin m =>
      rw [hb] at h0 h1
      cases mx with
      | nan => exact absurd rfl hm
      | inf t => rw [show t = true from h2] at hx; cases hx
      | fin x => exact ⟨m, x, rfl, rfl, h0, h1, h2⟩

theorem charge_bounds {mn u : ℝ} {ct : Int} (hm : mn ≤ 100) (hu : 0 ≤ u) (hc : 0 < ct) :
    mn ≤ charge mn ct u ∧ charge mn ct u ≤ 100 := by
  refine ⟨le_max_left _ _, max_le hm ?_⟩
  have : (0 : ℝ) < ct := by exact_mod_cast hc
  have : 0 ≤ u / (ct / 1000000000 : ℝ) := by positivity
  linarith

/-- The value after any history is the documented linear discharge; it lies between the minimum and
100, hence between the bounds of a battery with maximum 100. Missing: a maximum below 100, which the
code ignores, and charge time zero. -/
theorem bounds_partial (mn mx : X) (ct : Int) (b : Battery X) (ops : List Op) (hn : Num mn) (hm : Num mx)
    (hx : atLeast 0 mx) (hc : ct ≠ 0) (h : Battery.new mn mx ct = .ok b) (hl : ∀ op ∈ ops, Legal op) :
    ∃ m x : ℝ, b.min = .fin m ∧ b.max = .fin x ∧
      (run b ops).value = .fin (charge m b.chargeTime (used 0 ops)) ∧
      m ≤ charge m b.chargeTime (used 0 ops) ∧ charge m b.chargeTime (used 0 ops) ≤ 100 ∧
      (x = 100 → below b.min (run b ops).value ∧ below (run b ops).value b.max) := by
  obtain ⟨h1, h2, h3, m, x, h4, rfl, h5, h6, h7⟩ := accepted hn hm hx hc h
  obtain ⟨e1, e2, e3, e4⟩ := run_val h1 ops
  have hv := value_eq e1 (e2.trans h4) (by rw [e4]; omega)
  rw [e4] at hv
  have hb := charge_bounds (h6.trans h7) (used_nonneg le_rfl hl) h3
  refine ⟨m, x, h4, h2, hv, hb.1, hb.2, ?_⟩
  rintro rfl
  rw [hv, h4, h2]
  exact hb

/-- The value never increases through `Next`. -/
theorem next_antitone_partial (mn mx : X) (ct : Int) (b : Battery X) (ops : List Op) (s : ℝ)
    (hn : Num mn) (hm : Num mx) (hx : atLeast 0 mx) (hc : ct ≠ 0) (h : Battery.new mn mx ct = .ok b)
    (hs : 0 ≤ s) :
    below ((run b ops).next (.fin s)).value (run b ops).value := by
  obtain ⟨h1, h2, h3, m, x, h4, rfl, h5, h6, h7⟩ := accepted hn hm hx hc h
  obtain ⟨e1, e2, e3, e4⟩ := run_val h1 ops
  rw [value_eq e1 (e2.trans h4) (by rw [e4]; omega),
    value_eq (u := used 0 ops + s) (mn := m) (b := (run b ops).next (.fin s))
      (by show (run b ops).val +. _ = _; rw [e1]; simp) (e2.trans h4)
      (by show (run b ops).chargeTime ≠ 0; rw [e4]; omega)]
  show charge m (run b ops).chargeTime _ ≤ charge m (run b ops).chargeTime _
  rw [e4]
  have : (0 : ℝ) < b.chargeTime := by exact_mod_cast h3
  unfold charge
  apply max_le_max le_rfl
  have : used 0 ops / (b.chargeTime / 1000000000 : ℝ) ≤ (used 0 ops + s) / (b.chargeTime / 1000000000 : ℝ) := by
    apply div_le_div_of_nonneg_right (by linarith) (by positivity)
  linarith

/-- The battery is low exactly when the use reached the share of the charge time above the minimum;
in particular after a full charge time. -/
theorem low_iff_partial (mn mx : X) (ct : Int) (b : Battery X) (ops : List Op)
    (hn : Num mn) (hm : Num mx) (hx : atLeast 0 mx) (hc : ct ≠ 0) (h : Battery.new mn mx ct = .ok b) :
    ∃ m : ℝ, b.min = .fin m ∧
      ((run b ops).isLow = true ↔ (1 - m / 100) * (b.chargeTime / 1000000000) ≤ used 0 ops) ∧
      ((b.chargeTime / 1000000000 : ℝ) ≤ used 0 ops → (run b ops).isLow = true) := by
  obtain ⟨h1, h2, h3, m, x, h4, rfl, h5, h6, h7⟩ := accepted hn hm hx hc h
  obtain ⟨e1, e2, e3, e4⟩ := run_val h1 ops
  have hct : (0 : ℝ) < b.chargeTime / 1000000000 := by
    have : (0 : ℝ) < b.chargeTime := by exact_mod_cast h3
    positivity
  have key : (run b ops).isLow = true ↔ (1 - m / 100) * (b.chargeTime / 1000000000) ≤ used 0 ops := by
    unfold Battery.isLow
    rw [value_eq e1 (e2.trans h4) (by rw [e4]; omega), e2, h4, e4]
    simp only [XNum.fin_eq, decide_eq_true_eq]
    unfold charge
    rw [max_eq_left_iff]
    rw [← le_div_iff₀ hct]
    constructor <;> intro h <;> linarith
  refine ⟨m, h4, key, fun hu => key.mpr (le_trans ?_ hu)⟩
  have : (1 - m / 100) * (b.chargeTime / 1000000000 : ℝ) ≤ 1 * (b.chargeTime / 1000000000 : ℝ) :=
    mul_le_mul_of_nonneg_right (by linarith) hct.le
  linarith

/-- After `Reset` the value is 100. -/
theorem reset_full_partial (mn mx : X) (ct : Int) (b : Battery X) (ops : List Op)
    (hn : Num mn) (hm : Num mx) (hx : atLeast 0 mx) (hc : ct ≠ 0) (h : Battery.new mn mx ct = .ok b) :
    (run b ops).reset.value = .fin 100 := by
  obtain ⟨h1, h2, h3, m, x, h4, rfl, h5, h6, h7⟩ := accepted hn hm hx hc h
  obtain ⟨e1, e2, e3, e4⟩ := run_val h1 ops
  rw [value_eq (u := 0) (mn := m) (b := (run b ops).reset) (by show lit 0 = _; simp) (e2.trans h4)
    (by show (run b ops).chargeTime ≠ 0; rw [e4]; omega)]
  unfold charge
  simp only [zero_div, mul_zero, sub_zero]
  rw [max_eq_right (by linarith)]

/-! ## Where the full claim fails -/

/-- A battery with maximum 80 reports 100 when full. -/
theorem maximum_ignored : ∃ b, Battery.new (.fin 0 : X) (.fin 80) 3600000000000 = .ok b ∧
    b.value = .fin 100 := by
  obtain ⟨b, hb⟩ := ((C32.battery_iff_partial (.fin 0) (.fin 80) 3600000000000 (by simp [Num])
    (by simp [Num])).1).mpr ⟨le_rfl, by norm_num [atMost]⟩
  refine ⟨b, hb, ?_⟩
  obtain ⟨h1, h2, h3, m, x, h4, -, h5, h6, h7⟩ := accepted (by simp [Num]) (by simp [Num])
    (by norm_num [atLeast]) (by decide) hb
  rw [value_eq h1 h4 (by omega)]
  unfold charge
  simp only [zero_div, mul_zero, sub_zero]
  rw [max_eq_right (by linarith)]

/-- A new battery with charge time zero has the value NaN, which is not low either. -/
theorem zero_chargeTime : ∃ b, Battery.new (.fin 0 : X) (.fin 100) 0 = .ok b ∧ b.value = .nan ∧
    b.isLow = false := by
  have h : Battery.new (.fin 0 : X) (.fin 100) 0 = .ok ⟨.fin 0, .fin 100, .fin 0, 0⟩ := by
    unfold Battery.new
    rw [if_neg (by simp), if_neg (by simp)]
    have : ¬ ((.fin 100 : X) <. .fin 0) = true := by simp
    simp only [if_neg this]
    simp
  have hv : (⟨.fin 0, .fin 100, .fin 0, 0⟩ : Battery X).value = .nan := by
    unfold Battery.value
    rw [durSeconds_x]
    simp only [XNum.lit_eq, Int.cast_zero, zero_div, XNum.fin_div, if_true]
    have : ((XNum.nan : X) *. .fin ((100 : ℚ) : ℝ)) = .nan := rfl
    rw [this]
    have : ((XNum.fin ((100 : ℚ) : ℝ) : X) -. .nan) = .nan := rfl
    rw [this]
    simp
  refine ⟨_, h, hv, ?_⟩
  unfold Battery.isLow
  rw [hv]
  simp

theorem claim_fails : ¬ Claim := by
  intro hc
  obtain ⟨b, hb, hv⟩ := maximum_ignored
  have := (hc _ _ _ b [] hb (fun _ h => by cases h)).2
  obtain ⟨-, h2, -⟩ := accepted (by simp [Num]) (by simp [Num]) (by norm_num [atLeast]) (by decide) hb
  rw [show run b [] = b from rfl, hv, h2] at this
  have h3 : (100 : ℝ) ≤ 80 := this
  norm_num at h3

/-! Non-vacuity: half an hour of a one-hour battery. -/

example : charge 10 3600000000000 (used 0 [.next 900, .reset, .next 600, .next 1200]) = 50 := by
  norm_num [charge, used]

end C31
end GpsGen
