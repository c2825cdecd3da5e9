import Verif.Lemmas.Round64

/-!
# The order of `float64`

Operations on doubles are monotone where the exact ones are, because rounding is.
-/

namespace GpsGen
namespace F64
open Round64

section basic
variable {s t : Bool} {a b : ℚ} {ha : Rep s a} {hb : Rep t b} {x y z : F64}

theorem fin_lt : ((F64.fin s a ha) <. .fin t b hb) = decide (a < b) := rfl
theorem fin_eq : ((F64.fin s a ha) ==. .fin t b hb) = decide (a = b) := rfl
theorem fin_le : ((F64.fin s a ha) <=. .fin t b hb) = decide (a ≤ b) := by
  show (decide (a < b) || decide (a = b)) = decide (a ≤ b)
  rw [← Bool.decide_or]
  exact decide_eq_decide.mpr le_iff_lt_or_eq.symm

section
attribute [local irreducible] F64.round
theorem fin_div : ((F64.fin s a ha) /. .fin t b hb) =
    if b = 0 then (if a = 0 then .nan else .inf (s != t)) else round (s != t) (a / b) := rfl
theorem fin_mul : ((F64.fin s a ha) *. .fin t b hb) = round (s != t) (a * b) := rfl
theorem fin_add : ((F64.fin s a ha) +. .fin t b hb) =
    round (decide (a = 0) && decide (b = 0) && s && t) (a + b) := rfl
theorem fin_sub : ((F64.fin s a ha) -. .fin t b hb) =
    round (decide (a = 0) && decide (-b = 0) && s && !t) (a + -b) := rfl
end

theorem nan_le : ((.nan : F64) <=. x) = false := by cases x <;> rfl
theorem le_nan : (x <=. (.nan : F64)) = false := by cases x <;> rfl
theorem le_top (h : x ≠ .nan) : (x <=. .inf false) = true := by
  cases x with
  | fin => rfl
  | inf s => cases s <;> rfl
  | nan => exact absurd rfl h
theorem bot_le (h : x ≠ .nan) : ((.inf true : F64) <=. x) = true := by
  cases x with
  | fin => rfl
  | inf s => cases s <;> rfl
  | nan => exact absurd rfl h

theorem ne_nan_left (h : (x <=. y) = true) : x ≠ .nan := by
  rintro rfl
  rw [nan_le] at h
  exact absurd (show false = true from h) Bool.false_ne_true
theorem ne_nan_right (h : (x <=. y) = true) : y ≠ .nan := by
  rintro rfl
  rw [le_nan] at h
  exact absurd (show false = true from h) Bool.false_ne_true

theorem top_le (h : ((.inf false : F64) <=. y) = true) : y = .inf false := by
  cases y with
  | fin => exact absurd (show false = true from h) Bool.false_ne_true
  | inf s => cases s <;> first | rfl | exact absurd (show false = true from h) Bool.false_ne_true
  | nan => exact absurd (show false = true from h) Bool.false_ne_true
theorem le_bot (h : (x <=. .inf true) = true) : x = .inf true := by
  cases x with
  | fin => exact absurd (show false = true from h) Bool.false_ne_true
  | inf s => cases s <;> first | rfl | exact absurd (show false = true from h) Bool.false_ne_true
  | nan => exact absurd (show false = true from h) Bool.false_ne_true

theorem le_refl (h : x ≠ .nan) : (x <=. x) = true := by
  cases x with
  | fin => rw [fin_le]; simp
  | inf s => cases s <;> rfl
  | nan => exact absurd rfl h

theorem le_trans (h1 : (x <=. y) = true) (h2 : (y <=. z) = true) : (x <=. z) = true := by
  cases hx : x with
  | nan => exact absurd hx (ne_nan_left h1)
  | inf s =>
    subst hx
    cases s with
    | false => rwa [top_le h1] at h2
    | true => exact bot_le (ne_nan_right h2)
  | fin s a ha =>
    subst hx
    cases hz : z with
    | nan => exact absurd hz (ne_nan_right h2)
    | inf t =>
      subst hz
      cases t with
      | false => rfl
      | true => rwa [le_bot h2] at h1
    | fin t b hb =>
      subst hz
      cases hy : y with
      | nan => exact absurd hy (ne_nan_left h2)
      | inf r =>
        subst hy
        cases r with
        | false => exact absurd (show false = true from h2) Bool.false_ne_true
        | true => exact absurd (show false = true from h1) Bool.false_ne_true
      | fin r c hc =>
        subst hy
        rw [fin_le, decide_eq_true_eq] at *
        linarith

theorem le_of_not_lt (hx : x ≠ .nan) (hy : y ≠ .nan) (h : (x <. y) ≠ true) : (y <=. x) = true := by
  cases hx' : x with
  | nan => exact absurd hx' hx
  | inf s =>
    subst hx'
    cases s with
    | false => exact le_top hy
    | true =>
      cases y with
      | nan => exact absurd rfl hy
      | inf t => cases t <;> first | rfl | exact absurd rfl h
      | fin t b hb => exact absurd rfl h
  | fin s a ha =>
    subst hx'
    cases hy' : y with
    | nan => exact absurd hy' hy
    | inf t =>
      subst hy'
      cases t with
      | false => exact absurd rfl h
      | true => rfl
    | fin t b hb =>
      subst hy'
      rw [fin_lt, ne_eq, decide_eq_true_eq] at h
      rw [fin_le, decide_eq_true_eq]
      linarith

theorem lt_false_of_le (h : (x <=. y) = true) : (y <. x) = false := by
  cases hx : x with
  | nan => exact absurd hx (ne_nan_left h)
  | inf s =>
    subst hx
    cases s with
    | false => rw [top_le h]; rfl
    | true => cases y <;> first | rfl | (rename_i t; cases t <;> rfl)
  | fin s a ha =>
    subst hx
    cases hy : y with
    | nan => rfl
    | inf r =>
      subst hy
      cases r with
      | false => rfl
      | true => exact absurd (show false = true from h) Bool.false_ne_true
    | fin r c hc =>
      subst hy
      rw [fin_le, decide_eq_true_eq] at h
      rw [fin_lt]
      simpa using h

theorem le_of_lt (h : (x <. y) = true) : (x <=. y) = true := by
  show (lt x y || eq x y) = true
  rw [show lt x y = true from h]
  rfl

theorem eq_of_le_of_le (h1 : (x <=. y) = true) (h2 : (y <=. x) = true) : (x ==. y) = true := by
  cases hx : x with
  | nan => exact absurd hx (ne_nan_left h1)
  | inf s =>
    subst hx
    cases s with
    | false => rw [top_le h1]; rfl
    | true => rw [le_bot h2]; rfl
  | fin s a ha =>
    subst hx
    cases hy : y with
    | nan => exact absurd hy (ne_nan_left h2)
    | inf r =>
      subst hy
      cases r with
      | false => exact absurd (show false = true from h2) Bool.false_ne_true
      | true => exact absurd (show false = true from h1) Bool.false_ne_true
    | fin r c hc =>
      subst hy
      rw [fin_le, decide_eq_true_eq] at h1 h2
      rw [fin_eq, decide_eq_true_eq]
      linarith

end basic

/-! ## Rounding -/

theorem round_ne_nan (z : Bool) (q : ℚ) : round z q ≠ .nan := by
  unfold round
  split <;> simp

theorem round_mono (z z' : Bool) {p q : ℚ} (h : p ≤ q) : (round z p <=. round z' q) = true := by
  have hm := rndQ_mono h
  have big : (0 : ℚ) < pow2 1024 := pow2_pos _
  unfold round
  split_ifs with hp hq hq
  · rw [fin_le, decide_eq_true_eq]
    exact hm
  · -- `q` overflows
    rcases le_or_gt 0 q with h0 | h0
    · have : sgn z' q = false := by
        unfold sgn
        split_ifs with e
        · rw [e, rndQ_zero] at hq
          exact absurd (by simpa using big) hq
        · simpa using h0
      rw [this]
      rfl
    · exfalso
      have h1 := rndQ_nonpos h0.le
      rw [abs_of_nonpos h1, not_lt] at hq
      have h2 : rndQ p ≤ 0 := hm.trans h1
      rw [abs_of_nonpos h2] at hp
      linarith
  · rcases lt_or_ge p 0 with h0 | h0
    · have : sgn z p = true := by
        unfold sgn
        rw [if_neg h0.ne]
        simpa using h0
      rw [this]
      rfl
    · exfalso
      have h1 := rndQ_nonneg h0
      rw [abs_of_nonneg h1, not_lt] at hp
      rw [abs_of_nonneg (h1.trans hm)] at hq
      linarith
  · rcases lt_or_ge p 0 with h0 | h0
    · have : sgn z p = true := by
        unfold sgn
        rw [if_neg h0.ne]
        simpa using h0
      rw [this]
      exact bot_le (by simp)
    · have h1 : sgn z' q = false := by
        unfold sgn
        split_ifs with e
        · rw [e, rndQ_zero] at hq
          exact absurd (by simpa using big) hq
        · simpa using h0.trans h
      rw [h1]
      exact le_top (by simp)

/-- A double is the rounding of itself. -/
theorem round_fin {s : Bool} {q : ℚ} (h : Rep s q) : round s q = .fin s q h := by
  have hs : sgn s q = s := by
    unfold sgn
    split_ifs with e
    · rfl
    · exact (h.2.2 e).symm
  unfold round
  rw [dif_pos (by rw [h.1]; exact h.2.1)]
  congr 1
  exact h.1

theorem fin_le_round {s : Bool} {p q : ℚ} {hp : Rep s p} (z : Bool) (h : p ≤ q) :
    (F64.fin s p hp <=. round z q) = true := by
  rw [← round_fin hp]
  exact round_mono _ _ h

theorem round_le_fin {s : Bool} {p q : ℚ} {hp : Rep s p} (z : Bool) (h : q ≤ p) :
    (round z q <=. F64.fin s p hp) = true := by
  rw [← round_fin hp]
  exact round_mono _ _ h

/-- A literal that is a double. -/
theorem lit_exact {q : ℚ} (h : rndQ q = q) (hb : |q| < pow2 1024) :
    ∃ r, (lit q : F64) = .fin (decide (q < 0)) q r := by
  have hr : Rep (decide (q < 0)) q := ⟨h, hb, fun _ => rfl⟩
  refine ⟨hr, ?_⟩
  rw [← round_fin hr]
  show round false q = _
  unfold round
  have hs : sgn false q = sgn (decide (q < 0)) q := by
    unfold sgn
    split_ifs with e
    · simp [e]
    · rfl
  simp only [hs]

/-- A literal that is an integer. -/
theorem lit_int {q : ℚ} (n : ℤ) (hq : q = n) (h : |n| ≤ 2 ^ 53) : ∃ r, (lit q : F64) = .fin (decide (q < 0)) q r := by
  subst hq
  apply lit_exact (rndQ_int n h)
  rw [pow2_eq]
  have h1 : ((|n| : ℤ) : ℚ) ≤ ((2 ^ 53 : ℤ) : ℚ) := by exact_mod_cast h
  rw [Int.cast_abs] at h1
  have h2 : ((2 ^ 53 : ℤ) : ℚ) = 2 ^ (53 : ℤ) := by norm_num
  have h3 : (2 : ℚ) ^ (53 : ℤ) < 2 ^ (1024 : ℤ) := zpow_lt_zpow_right₀ (by norm_num) (by norm_num)
  exact lt_of_le_of_lt (h1.trans h2.le) h3

/-- A literal that is a natural number. -/
theorem lit_nat {q : ℚ} (n : ℤ) (hq : q = n) (h : |n| ≤ 2 ^ 53) (h0 : 0 ≤ n) : ∃ r, (lit q : F64) = .fin false q r := by
  obtain ⟨r, e⟩ := lit_int n hq h
  have hd : decide (q < 0) = false := by
    have : (0 : ℚ) ≤ n := by exact_mod_cast h0
    rw [hq]
    simpa using this
  generalize decide (q < 0) = s at r e hd
  subst hd
  exact ⟨r, e⟩

/-- The sign of an exact zero matters for zeros only. -/
theorem round_ne (z z' : Bool) {q : ℚ} (h : q ≠ 0) : round z q = round z' q := by
  have hs : sgn z q = sgn z' q := by simp [sgn, h]
  unfold round
  simp only [hs]

theorem rndQ_abs_le {q : ℚ} {n : ℤ} (hn : n ≤ 2 ^ 53) (h : |q| ≤ n) : |rndQ q| ≤ n := by
  have h0 : (0 : ℚ) ≤ n := (abs_nonneg q).trans h
  have h0' : 0 ≤ n := by exact_mod_cast h0
  have e := rndQ_int n (by rw [abs_of_nonneg h0']; exact hn)
  rw [abs_le] at h ⊢
  have h1 := rndQ_mono h.1
  have h2 := rndQ_mono h.2
  rw [rndQ_neg] at h1
  rw [e] at h1 h2
  exact ⟨h1, h2⟩

/-- Results of moderate size are finite. -/
theorem round_small (z : Bool) {q : ℚ} {n : ℤ} (hn : n ≤ 2 ^ 53) (h : |q| ≤ n) :
    ∃ r, round z q = .fin (sgn z q) (rndQ q) r := by
  have h1 := rndQ_abs_le hn h
  have h2 : (n : ℚ) ≤ ((2 ^ 53 : ℤ) : ℚ) := by exact_mod_cast hn
  have h3 : ((2 ^ 53 : ℤ) : ℚ) = 2 ^ (53 : ℤ) := by norm_num
  have h4 : (2 : ℚ) ^ (53 : ℤ) < 2 ^ (1024 : ℤ) := zpow_lt_zpow_right₀ (by norm_num) (by norm_num)
  have h5 : |rndQ q| < pow2 1024 := by
    rw [pow2_eq]
    exact lt_of_le_of_lt ((h1.trans h2).trans h3.le) h4
  exact ⟨rep_round h5, by unfold round; rw [dif_pos h5]⟩

theorem lit_nonneg {q : ℚ} (h : 0 ≤ q) : ((lit 0 : F64) <=. lit q) = true := round_mono _ _ h

/-- Numbers from zero on. -/
theorem nonneg_cases {x : F64} (h : ((lit 0 : F64) <=. x) = true) :
    (∃ s q r, x = .fin s q r ∧ 0 ≤ q) ∨ x = .inf false := by
  obtain ⟨r0, e0⟩ := lit_exact (q := 0) rndQ_zero (by rw [abs_zero]; exact pow2_pos _)
  rw [e0] at h
  cases x with
  | nan => exact absurd (show false = true from h) Bool.false_ne_true
  | inf s =>
    cases s with
    | false => exact .inr rfl
    | true => exact absurd (show false = true from h) Bool.false_ne_true
  | fin s q r =>
    rw [fin_le, decide_eq_true_eq] at h
    exact .inl ⟨s, q, r, rfl, h⟩

/-- Adding a number from zero on does not decrease. -/
theorem le_add_nonneg {x y : F64} (hx : ((lit 0 : F64) <=. x) = true) (hy : ((lit 0 : F64) <=. y) = true) :
    (x <=. x +. y) = true := by
  rcases nonneg_cases hx with ⟨s, p, hp, rfl, h0⟩ | rfl
  · rcases nonneg_cases hy with ⟨t, q, hq, rfl, h1⟩ | rfl
    · exact fin_le_round _ (by linarith)
    · rfl
  · rcases nonneg_cases hy with ⟨t, q, hq, rfl, h1⟩ | rfl <;> rfl

/-- Dividing by a positive number keeps order. -/
theorem div_mono {x y : F64} {s : Bool} {c : ℚ} {hc : Rep s c} (h : (x <=. y) = true) (h0 : 0 < c) :
    (x /. .fin s c hc <=. y /. .fin s c hc) = true := by
  have hs : s = false := by
    rw [hc.2.2 h0.ne']
    simpa using h0.le
  subst hs
  have fin : ∀ t q r, ((F64.fin t q r) /. .fin false c hc) = round (t != false) (q / c) := by
    intro t q r
    show (if c = 0 then _ else _) = _
    rw [if_neg h0.ne']
  cases x with
  | nan => exact absurd rfl (ne_nan_left h)
  | inf t =>
    cases t with
    | false =>
      rw [top_le h]
      rfl
    | true =>
      refine bot_le ?_
      cases y with
      | nan => exact absurd rfl (ne_nan_right h)
      | inf u => exact fun e => nomatch e
      | fin u q r => rw [fin]; exact round_ne_nan _ _
  | fin t p r =>
    rw [fin]
    cases y with
    | nan => exact absurd rfl (ne_nan_right h)
    | inf u =>
      cases u with
      | false => exact le_top (round_ne_nan _ _)
      | true => exact absurd (show false = true from h) Bool.false_ne_true
    | fin u q r' =>
      rw [fin]
      rw [fin_le, decide_eq_true_eq] at h
      exact round_mono _ _ (div_le_div_of_nonneg_right h h0.le)

/-- Multiplying by a positive number keeps order. -/
theorem mul_mono {x y : F64} {s : Bool} {c : ℚ} {hc : Rep s c} (h : (x <=. y) = true) (h0 : 0 < c) :
    (x *. .fin s c hc <=. y *. .fin s c hc) = true := by
  have hs : s = false := by
    rw [hc.2.2 h0.ne']
    simpa using h0.le
  subst hs
  have inf : ∀ t, ((F64.inf t) *. .fin false c hc) = .inf t := by
    intro t
    show (if c = 0 then _ else _) = _
    rw [if_neg h0.ne']
    cases t <;> rfl
  have fin : ∀ t q r, ((F64.fin t q r) *. .fin false c hc) = round (t != false) (q * c) := fun _ _ _ => rfl
  cases x with
  | nan => exact absurd rfl (ne_nan_left h)
  | inf t =>
    rw [inf]
    cases t with
    | false =>
      rw [top_le h, inf]
      rfl
    | true =>
      refine bot_le ?_
      cases y with
      | nan => exact absurd rfl (ne_nan_right h)
      | inf u => rw [inf]; simp
      | fin u q r => rw [fin]; exact round_ne_nan _ _
  | fin t p r =>
    rw [fin]
    cases y with
    | nan => exact absurd rfl (ne_nan_right h)
    | inf u =>
      rw [inf]
      cases u with
      | false => exact le_top (round_ne_nan _ _)
      | true => exact absurd (show false = true from h) Bool.false_ne_true
    | fin u q r' =>
      rw [fin]
      rw [fin_le, decide_eq_true_eq] at h
      exact round_mono _ _ (mul_le_mul_of_nonneg_right h h0.le)

/-- Subtracting from a finite number turns order round. -/
theorem sub_anti {x y : F64} {s : Bool} {c : ℚ} {hc : Rep s c} (h : (x <=. y) = true) :
    ((F64.fin s c hc) -. y <=. (F64.fin s c hc) -. x) = true := by
  have inf : ∀ t, ((F64.fin s c hc) -. .inf t) = .inf (!t) := fun _ => rfl
  have fin : ∀ t q r, ∃ z, ((F64.fin s c hc) -. .fin t q r) = round z (c - q) := by
    intro t q r
    exact ⟨_, by rw [sub_eq_add_neg]; rfl⟩
  cases x with
  | nan => exact absurd rfl (ne_nan_left h)
  | inf t =>
    rw [inf]
    cases t with
    | false =>
      rw [top_le h, inf]
      rfl
    | true =>
      refine le_top ?_
      cases y with
      | nan => exact absurd rfl (ne_nan_right h)
      | inf u => rw [inf]; simp
      | fin u q r =>
        obtain ⟨z, e⟩ := fin u q r
        rw [e]
        exact round_ne_nan _ _
  | fin t p r =>
    obtain ⟨z, e⟩ := fin t p r
    rw [e]
    cases y with
    | nan => exact absurd rfl (ne_nan_right h)
    | inf u =>
      rw [inf]
      cases u with
      | false => exact bot_le (round_ne_nan _ _)
      | true => exact absurd (show false = true from h) Bool.false_ne_true
    | fin u q r' =>
      obtain ⟨z', e'⟩ := fin u q r'
      rw [e']
      rw [fin_le, decide_eq_true_eq] at h
      exact round_mono _ _ (by linarith)

end F64
end GpsGen
