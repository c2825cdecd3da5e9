import Verif.Lemmas.F64Order
import Verif.Model.Types

/-!
# C31 in IEEE doubles

The bounds of `C31` with the rounding, overflow, infinities and NaN of `float64`: for every accepted battery other than
those of charge time zero, after any ticks from zero on (including infinite ones), the charge is a number between the
minimum and 100, it never increases except by `Reset`, `Reset` gives exactly 100, and after the charge time the battery
is low.
-/

namespace GpsGen
namespace C31
namespace Double
open F64

attribute [local irreducible] Round64.rndQ Round64.pow2

/-- Use and recharge. -/
inductive Op where
  | next (seconds : F64)
  | reset

/-- Ticks are numbers from zero on. -/
def Legal : Op → Prop
  | .next s => ((lit 0 : F64) <=. s) = true
  | .reset => True

/-- A history of a battery. -/
def run (b : Battery F64) : List Op → Battery F64
  | [] => b
  | .next s :: ops => run (b.next s) ops
  | .reset :: ops => run b.reset ops

/-- What the proof uses of a battery: the charge time fits a `time.Duration` and is positive, the use is a number from
zero on and the minimum lies between 0 and 100. -/
structure Ok (b : Battery F64) : Prop where
  val : ((lit 0 : F64) <=. b.val) = true
  lo : ((lit 0 : F64) <=. b.min) = true
  hi : (b.min <=. lit 100) = true
  pos : 0 < b.chargeTime
  fits : b.chargeTime < 2 ^ 63

theorem seconds_bounds {ct : Int} (h0 : 0 < ct) (h1 : ct < 2 ^ 63) :
    ∃ s q r, (durSeconds ct : F64) = .fin s q r ∧ 0 < q ∧ ((ct.tdiv 1000000000 : ℤ) : ℚ) ≤ q ∧
      q ≤ ((ct.tdiv 1000000000 + 1 : ℤ) : ℚ) ∧ (ct.tmod 1000000000 = 0 → q = ((ct.tdiv 1000000000 : ℤ) : ℚ)) := by
  have hd0 : 0 ≤ ct.tdiv 1000000000 := Int.tdiv_nonneg h0.le (by norm_num)
  have hm0 : 0 ≤ ct.tmod 1000000000 := Int.tmod_nonneg _ h0.le
  have hm1 : ct.tmod 1000000000 < 1000000000 := Int.tmod_lt_of_pos _ (by norm_num)
  have hs : (1000000000 : ℤ) * ct.tdiv 1000000000 + ct.tmod 1000000000 = ct := Int.mul_tdiv_add_tmod ct 1000000000
  have hd1 : ct.tdiv 1000000000 < 2 ^ 53 := by omega
  obtain ⟨r1, e1⟩ := lit_int (ct.tdiv 1000000000) rfl (by rw [abs_of_nonneg hd0]; omega)
  obtain ⟨r2, e2⟩ := lit_int (ct.tmod 1000000000) rfl (by rw [abs_of_nonneg hm0]; omega)
  obtain ⟨r3, e3⟩ := lit_int (q := 1000000000) 1000000000 (by norm_num) (by norm_num)
  set d := ct.tdiv 1000000000
  set m := ct.tmod 1000000000
  have M0 : (0 : ℚ) ≤ m := by exact_mod_cast hm0
  have M1 : (m : ℚ) ≤ 1000000000 := by exact_mod_cast hm1.le
  have D0 : (0 : ℚ) ≤ d := by exact_mod_cast hd0
  have D1 : (d : ℚ) ≤ (2 ^ 53 - 1 : ℤ) := by exact_mod_cast (show d ≤ 2 ^ 53 - 1 by omega)
  have hq : |(m : ℚ) / 1000000000| ≤ (1 : ℤ) := by
    rw [abs_of_nonneg (by positivity), div_le_iff₀ (by norm_num)]
    simpa using M1
  have R0 : 0 ≤ Round64.rndQ ((m : ℚ) / 1000000000) := Round64.rndQ_nonneg (by positivity)
  have R1 := rndQ_abs_le (by norm_num) hq
  rw [abs_of_nonneg R0] at R1
  obtain ⟨r4, e4⟩ := round_small (decide ((m : ℚ) < 0) != decide ((1000000000 : ℚ) < 0)) (by norm_num) hq
  have hs2 : |(d : ℚ) + Round64.rndQ ((m : ℚ) / 1000000000)| ≤ (2 ^ 53 : ℤ) := by
    rw [abs_of_nonneg (by linarith)]
    push_cast at D1 R1 ⊢
    linarith
  have hp : (2 : ℚ) ^ (-30 : ℤ) ≤ (d : ℚ) + Round64.rndQ ((m : ℚ) / 1000000000) := by
    rcases lt_or_eq_of_le hd0 with h | h
    · have : (1 : ℚ) ≤ d := by exact_mod_cast h
      have : (2 : ℚ) ^ (-30 : ℤ) ≤ 1 := by norm_num
      linarith
    · have hm2 : 1 ≤ m := by omega
      have : (1 : ℚ) ≤ m := by exact_mod_cast hm2
      have h3 : (2 : ℚ) ^ (-30 : ℤ) ≤ (m : ℚ) / 1000000000 := by
        rw [le_div_iff₀ (by norm_num)]
        norm_num
        linarith
      have h4 := Round64.rndQ_mono h3
      rw [Round64.rndQ_rep 1 (-30) (by norm_num) (by norm_num) (by norm_num)] at h4
      linarith
  have hp' := Round64.rndQ_mono hp
  rw [Round64.rndQ_rep 1 (-30) (by norm_num) (by norm_num) (by norm_num)] at hp'
  have h30 : (0 : ℚ) < 2 ^ (-30 : ℤ) := by positivity
  have e5 : ∃ z, (durSeconds ct : F64) = round z ((d : ℚ) + Round64.rndQ ((m : ℚ) / 1000000000)) := by
    unfold durSeconds
    rw [e1, e2, e3]
    have : ((F64.fin (decide ((m : ℚ) < 0)) m r2) /. .fin (decide ((1000000000 : ℚ) < 0)) 1000000000 r3)
        = round (decide ((m : ℚ) < 0) != decide ((1000000000 : ℚ) < 0)) ((m : ℚ) / 1000000000) := by
      rw [fin_div, if_neg (by norm_num)]
    rw [this, e4]
    exact ⟨_, rfl⟩
  obtain ⟨z, e5⟩ := e5
  obtain ⟨r6, e6⟩ := round_small z le_rfl hs2
  have hd2 : |d| ≤ 2 ^ 53 := by rw [abs_of_nonneg hd0]; omega
  refine ⟨_, _, r6, e5.trans e6, lt_of_lt_of_le h30 hp', ?_, ?_, fun hz => ?_⟩
  · have := Round64.rndQ_mono (show (d : ℚ) ≤ (d : ℚ) + Round64.rndQ ((m : ℚ) / 1000000000) by linarith)
    rwa [Round64.rndQ_int d hd2] at this
  · have := Round64.rndQ_mono (show (d : ℚ) + Round64.rndQ ((m : ℚ) / 1000000000) ≤ ((d + 1 : ℤ) : ℚ) by
      push_cast at R1 ⊢; linarith)
    rwa [Round64.rndQ_int (d + 1) (by rw [abs_of_nonneg (by omega)]; omega)] at this
  · rw [hz, Int.cast_zero, zero_div, Round64.rndQ_zero, add_zero, Round64.rndQ_int d hd2]

theorem seconds_pos {ct : Int} (h0 : 0 < ct) (h1 : ct < 2 ^ 63) :
    ∃ s q r, (durSeconds ct : F64) = .fin s q r ∧ 0 < q := by
  obtain ⟨s, q, r, e, h, -⟩ := seconds_bounds h0 h1
  exact ⟨s, q, r, e, h⟩

/-- The published charge time is the charge time in whole seconds, possibly rounded up by a second. -/
theorem whole_seconds [MathLib] {ct : Int} (h0 : 0 < ct) (h1 : ct < 2 ^ 63) :
    (GoMath.toInt (durSeconds ct : F64) = ct.tdiv 1000000000 ∨
      GoMath.toInt (durSeconds ct : F64) = ct.tdiv 1000000000 + 1) ∧
    (ct.tmod 1000000000 = 0 → GoMath.toInt (durSeconds ct : F64) = ct.tdiv 1000000000) := by
  obtain ⟨s, q, r, e, hq, hlo, hhi, hz⟩ := seconds_bounds h0 h1
  have hd0 : 0 ≤ ct.tdiv 1000000000 := Int.tdiv_nonneg h0.le (by norm_num)
  have hs : (1000000000 : ℤ) * ct.tdiv 1000000000 + ct.tmod 1000000000 = ct := Int.mul_tdiv_add_tmod ct 1000000000
  have hm0 : 0 ≤ ct.tmod 1000000000 := Int.tmod_nonneg _ h0.le
  have hb : |q| < Round64.pow2 63 := by
    rw [abs_of_pos hq, Round64.pow2_eq]
    refine lt_of_le_of_lt hhi ?_
    have : ct.tdiv 1000000000 + 1 < 2 ^ 63 := by omega
    have : ((ct.tdiv 1000000000 + 1 : ℤ) : ℚ) < ((2 ^ 63 : ℤ) : ℚ) := by exact_mod_cast this
    refine this.trans_le (le_of_eq ?_)
    norm_num
  have et : GoMath.toInt (durSeconds ct : F64) = ⌊q⌋ := by
    rw [e]
    show (if |q| < Round64.pow2 63 then trunc q else _) = _
    rw [if_pos hb]
    unfold trunc
    rw [if_pos hq.le]
  rw [et]
  refine ⟨?_, fun h => ?_⟩
  · have l := Int.le_floor.mpr hlo
    have u : ⌊q⌋ ≤ ct.tdiv 1000000000 + 1 := by
      have := (Int.floor_le q).trans hhi
      exact_mod_cast this
    omega
  · rw [hz h, Int.floor_intCast]

theorem hundred : ∃ r, (lit 100 : F64) = .fin false 100 r := lit_nat 100 (by norm_num) (by norm_num) (by norm_num)

/-- The charge before it is bounded below. -/
def charge (ct : Int) (v : F64) : F64 := lit 100 -. (v /. durSeconds ct *. lit 100)

theorem charge_anti {ct : Int} (h0 : 0 < ct) (h1 : ct < 2 ^ 63) {v w : F64} (h : (v <=. w) = true) :
    (charge ct w <=. charge ct v) = true := by
  obtain ⟨s, q, r, e, hq⟩ := seconds_pos h0 h1
  obtain ⟨r', e'⟩ := hundred
  unfold charge
  rw [e, e']
  exact sub_anti (mul_mono (div_mono h hq) (by norm_num))

theorem charge_zero {ct : Int} (h0 : 0 < ct) (h1 : ct < 2 ^ 63) : charge ct (lit 0) = lit 100 := by
  obtain ⟨s, q, r, e, hq⟩ := seconds_pos h0 h1
  obtain ⟨r', e'⟩ := hundred
  obtain ⟨r0, e0⟩ := lit_nat (q := 0) 0 (by norm_num) (by norm_num) (by norm_num)
  have hz : ∀ z, ∃ r, round z 0 = .fin z 0 r := fun z =>
    ⟨⟨Round64.rndQ_zero, by rw [abs_zero]; exact Round64.pow2_pos _, fun h => absurd rfl h⟩, round_fin _⟩
  have h1 : ((F64.fin false 0 r0) /. .fin s q r) = round (false != s) 0 := by
    show (if q = 0 then _ else _) = _
    rw [if_neg hq.ne', zero_div]
  obtain ⟨r2, e2⟩ := hz (false != s)
  have h2 : ((F64.fin (false != s) 0 r2) *. .fin false 100 r') = round ((false != s) != false) 0 := by
    show round _ (0 * 100) = _
    rw [zero_mul]
  obtain ⟨r3, e3⟩ := hz ((false != s) != false)
  unfold charge
  rw [e0, e, e', h1, e2, h2, e3]
  show round _ (100 + -0) = _
  rw [neg_zero, add_zero, ← round_fin r']
  exact round_ne _ _ (by norm_num)

/-- A value that is at least `x` and a minimum between. -/
theorem value_cases (b : Battery F64) : b.value = if charge b.chargeTime b.val <. b.min then b.min
    else charge b.chargeTime b.val := rfl

theorem value_bounds {b : Battery F64} (h : Ok b) :
    (b.min <=. b.value) = true ∧ (b.value <=. lit 100) = true := by
  have h1 := charge_anti h.pos h.fits h.val
  rw [charge_zero h.pos h.fits] at h1
  rw [value_cases]
  split
  · exact ⟨F64.le_refl (ne_nan_left h.hi), h.hi⟩
  · rename_i hn
    exact ⟨le_of_not_lt (ne_nan_left h1) (ne_nan_left h.hi) hn, h1⟩

/-- Between the minimum and 100 the value falls with use. -/
theorem value_anti {b : Battery F64} (h : Ok b) {w : F64} (hw : (b.val <=. w) = true) :
    (({ b with val := w } : Battery F64).value <=. b.value) = true := by
  have h1 := charge_anti h.pos h.fits hw
  have hm := ne_nan_left h.hi
  rw [value_cases, value_cases]
  dsimp only
  split
  · split
    · exact F64.le_refl hm
    · rename_i hn
      exact le_of_not_lt (ne_nan_right h1) hm hn
  · split
    · rename_i hl
      exact F64.le_trans h1 (le_of_lt hl)
    · exact h1

theorem ok_next {b : Battery F64} (h : Ok b) {s : F64} (hs : ((lit 0 : F64) <=. s) = true) : Ok (b.next s) :=
  ⟨F64.le_trans h.val (le_add_nonneg h.val hs), h.lo, h.hi, h.pos, h.fits⟩

theorem ok_reset {b : Battery F64} (h : Ok b) : Ok b.reset :=
  ⟨F64.le_refl (ne_nan_left h.val), h.lo, h.hi, h.pos, h.fits⟩

theorem ok_run {b : Battery F64} (h : Ok b) {ops : List Op} (hl : ∀ op ∈ ops, Legal op) :
    Ok (run b ops) ∧ (run b ops).min = b.min ∧ (run b ops).chargeTime = b.chargeTime := by
  induction ops generalizing b with
  | nil => exact ⟨h, rfl, rfl⟩
  | cons op ops ih =>
    have hl' : ∀ op ∈ ops, Legal op := fun o ho => hl o (List.mem_cons_of_mem _ ho)
    cases op with
    | next s => exact ih (ok_next h (hl (.next s) List.mem_cons_self)) hl'
    | reset => exact ih (ok_reset h) hl'

/-- What `NewBattery` returns for numbers. -/
theorem ok_new {mn mx : F64} {ct : Int} {b : Battery F64} (hn : mn ≠ .nan) (hm : mx ≠ .nan)
    (hx : ((lit 0 : F64) <=. mx) = true) (h : Battery.new mn mx ct = .ok b) (h0 : ct ≠ 0) (h1 : ct < 2 ^ 63) :
    Ok b ∧ b.max = mx ∧ b.val = lit 0 ∧ (b.min <=. mx) = true ∧ ((mn <=. mx) = true → b.min = mn) := by
  have z : (lit 0 : F64) ≠ .nan := round_ne_nan _ _
  have c : (lit 100 : F64) ≠ .nan := round_ne_nan _ _
  unfold Battery.new at h
  split at h
  · cases h
  rename_i hlo
  split at h
  · cases h
  rename_i hhi
  have hlo := le_of_not_lt hn z hlo
  have hhi := le_of_not_lt c hm hhi
  cases h
  dsimp only
  have hct : 0 < (if ct < 0 then (9 * 3600 * 1000000000 : ℤ) else ct) ∧ (if ct < 0 then (9 * 3600 * 1000000000 : ℤ) else ct) < 2 ^ 63 := by
    split <;> omega
  split
  · rename_i hlt
    refine ⟨⟨F64.le_refl z, hx, hhi, hct.1, hct.2⟩, rfl, rfl, F64.le_refl hm, fun hle => ?_⟩
    exact absurd hlt (by rw [lt_false_of_le hle]; exact Bool.false_ne_true)
  · rename_i hnl
    have hle := le_of_not_lt hm hn hnl
    exact ⟨⟨F64.le_refl z, hlo, F64.le_trans hle hhi, hct.1, hct.2⟩, rfl, rfl, hle, fun _ => rfl⟩

/-! A battery of one hour with minimum 10 after a quarter of an hour in 900 ticks: 75 exactly. -/

def hour : Battery F64 := ⟨lit 10, lit 100, lit 0, 3600000000000⟩

example : Battery.new (lit 10 : F64) (lit 100) 3600000000000 = .ok hour := by decide +kernel

example : ((run hour (List.replicate 900 (.next (lit 1)))).value ==. lit 75) = true := by decide +kernel

/-! ## The claims -/

variable (mn mx : F64) (ct : Int) (b : Battery F64) (ops : List Op) (hn : mn ≠ .nan) (hm : mx ≠ .nan)
  (hx : ((lit 0 : F64) <=. mx) = true) (h : Battery.new mn mx ct = .ok b) (h0 : ct ≠ 0) (h1 : ct < 2 ^ 63)
  (hl : ∀ op ∈ ops, Legal op)
include hn hm hx h h0 h1 hl

/-- The charge is a number between the minimum and 100 at all times; with maximum 100 these are the bounds given to the
constructor. -/
theorem bounds_partial : (b.min <=. (run b ops).value) = true ∧ ((run b ops).value <=. lit 100) = true ∧
    ((mn <=. mx) = true → (mn <=. (run b ops).value) = true) := by
  obtain ⟨ok, -, -, -, hmin⟩ := ok_new hn hm hx h h0 h1
  obtain ⟨ok', e, -⟩ := ok_run ok hl
  obtain ⟨v1, v2⟩ := value_bounds ok'
  rw [e] at v1
  exact ⟨v1, v2, fun hle => by rw [← hmin hle]; exact v1⟩

/-- It never increases through `Next`. -/
theorem next_antitone (s : F64) (hs : ((lit 0 : F64) <=. s) = true) :
    (((run b ops).next s).value <=. (run b ops).value) = true := by
  obtain ⟨ok', -, -⟩ := ok_run (ok_new hn hm hx h h0 h1).1 hl
  exact value_anti ok' (le_add_nonneg ok'.val hs)

/-- A recharge gives exactly 100. -/
theorem reset_full : ((run b ops).reset.value ==. lit 100) = true := by
  obtain ⟨ok', -, -⟩ := ok_run (ok_new hn hm hx h h0 h1).1 hl
  have ok'' := ok_reset ok'
  obtain ⟨-, v2⟩ := value_bounds ok''
  refine eq_of_le_of_le v2 ?_
  rw [value_cases, show (run b ops).reset.val = lit 0 from rfl, charge_zero ok''.pos ok''.fits]
  split
  · rename_i hlt
    exact le_of_lt hlt
  · exact F64.le_refl (round_ne_nan _ _)

/-- The battery is low exactly when the charge is at most the minimum. -/
theorem low_iff : (run b ops).isLow = true ↔ ((run b ops).value <=. b.min) = true := by
  obtain ⟨ok', e, -⟩ := ok_run (ok_new hn hm hx h h0 h1).1 hl
  obtain ⟨v1, -⟩ := value_bounds ok'
  unfold Battery.isLow
  rw [e] at v1 ⊢
  refine ⟨fun hq => ?_, fun hle => eq_of_le_of_le hle v1⟩
  show (F64.lt _ _ || F64.eq _ _) = true
  rw [show F64.eq (run b ops).value b.min = true from hq, Bool.or_true]

/-- After the charge time the battery is low, whatever its minimum. -/
theorem low_after_chargeTime (hu : ((durSeconds b.chargeTime : F64) <=. (run b ops).val) = true) :
    (run b ops).isLow = true := by
  obtain ⟨ok', e, ec⟩ := ok_run (ok_new hn hm hx h h0 h1).1 hl
  rw [low_iff mn mx ct b ops hn hm hx h h0 h1 hl]
  rw [← ec] at hu
  have h2 := charge_anti ok'.pos ok'.fits hu
  have h3 : (charge (run b ops).chargeTime (durSeconds (run b ops).chargeTime) <=. lit 0) = true := by
    obtain ⟨s, q, r, eq, hq⟩ := seconds_pos ok'.pos ok'.fits
    obtain ⟨r', e'⟩ := hundred
    have hs : s = false := by
      rw [r.2.2 hq.ne']
      simpa using hq.le
    subst hs
    unfold charge
    rw [eq, e']
    have h4 : ((F64.fin false q r) /. .fin false q r) = round false 1 := by
      show (if q = 0 then _ else _) = _
      rw [if_neg hq.ne', div_self hq.ne']
      rfl
    obtain ⟨r1, e1⟩ := lit_nat (q := 1) 1 (by norm_num) (by norm_num) (by norm_num)
    rw [h4, show round false 1 = _ from e1]
    have h5 : ((F64.fin false 1 r1) *. .fin false 100 r') = .fin false 100 r' := by
      refine Eq.trans ?_ (round_fin r')
      show round _ (1 * 100) = _
      rw [one_mul]
      exact round_ne _ _ (by norm_num)
    rw [h5]
    show (round _ (100 + -100) <=. round _ 0) = true
    exact round_mono _ _ (by norm_num)
  have h6 := F64.le_trans (F64.le_trans h2 h3) ok'.lo
  rw [value_cases, ← e]
  split
  · exact F64.le_refl (ne_nan_left ok'.hi)
  · exact h6

end Double
end C31
end GpsGen
