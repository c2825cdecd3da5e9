import Verif.Model.GpxCoord
import Verif.Lemmas.JsonF64
import Verif.Lemmas.JsonText
import Verif.Lemmas.Nearest
import Verif.Theorems.C85
import Verif.Theorems.C88
/-!
# C88 in IEEE doubles: coordinates in GPX files

A coordinate moves by at most 10⁻¹⁰ degrees when it is written with ten decimals and read (5.01 · 10⁻¹¹ in the usual
ranges, 18 micrometres on the ground), in order and within the same bounds, and does not move when this is repeated.
So files settle; and a track changes its length by less than 39 micrometres per segment.
-/

namespace GpsGen
namespace C88
open Round64 F64 C28.Double

/-! ## Text -/

theorem digits_snoc (l : List (Fin 10)) (d : Fin 10) : digitsNat (l ++ [d]) = 10 * digitsNat l + d.val := by
  simp [digitsNat]

theorem lastDigits_spec (k n : ℕ) (h : n < 10 ^ k) : digitsNat (lastDigits k n) = n ∧ (lastDigits k n).length = k := by
  induction k generalizing n with
  | zero =>
    have : n = 0 := by simpa using h
    subst this
    exact ⟨rfl, rfl⟩
  | succ k ih =>
    obtain ⟨h1, h2⟩ := ih (n / 10) (by rw [Nat.div_lt_iff_lt_mul (by norm_num)]; rwa [pow_succ] at h)
    refine ⟨?_, by simp [lastDigits, h2]⟩
    rw [lastDigits, digits_snoc, h1]
    show 10 * (n / 10) + n % 10 = n
    omega

/-- The text stands for the number of units it was made from. -/
theorem coordLit_value {s : Bool} {q : ℚ} (h : Rep s q) : (coordLit s q).value = (units q : ℚ) / 10 ^ 10 := by
  obtain ⟨h1, h2⟩ := lastDigits_spec 10 ((units q).natAbs % 10 ^ 10) (Nat.mod_lt _ (by norm_num))
  unfold NumLit.value coordLit
  simp only [h1, h2, Option.getD_none, zpow_zero, mul_one]
  have e : (((units q).natAbs / 10 ^ 10 : ℕ) : ℚ) + (((units q).natAbs % 10 ^ 10 : ℕ) : ℚ) / 10 ^ 10 =
      ((units q).natAbs : ℚ) / 10 ^ 10 := by
    have := Nat.div_add_mod (units q).natAbs (10 ^ 10)
    have h3 : ((units q).natAbs : ℚ) = 10 ^ 10 * (((units q).natAbs / 10 ^ 10 : ℕ) : ℚ) + (((units q).natAbs % 10 ^ 10 : ℕ) : ℚ) := by
      exact_mod_cast this.symm
    rw [h3, add_div, mul_div_cancel_left₀ _ (by norm_num : (10 : ℚ) ^ 10 ≠ 0)]
  rw [e, ← mul_div_assoc]
  congr 1
  have sgn : (0 ≤ q → 0 ≤ units q) ∧ (q ≤ 0 → units q ≤ 0) := by
    constructor
    · intro h0
      have := rne_mono (x := ((0 : ℤ) : ℚ)) (y := q * 10 ^ 10) (by push_cast; positivity)
      rwa [rne_int] at this
    · intro h0
      have := rne_mono (x := q * 10 ^ 10) (y := ((0 : ℤ) : ℚ)) (by push_cast; exact mul_nonpos_of_nonpos_of_nonneg h0 (by positivity))
      rwa [rne_int] at this
  by_cases h0 : q = 0
  · have : units q = 0 := le_antisymm (sgn.2 h0.le) (sgn.1 h0.ge)
    rw [this]; simp
  · rw [h.2.2 h0]
    by_cases hn : q < 0
    · rw [decide_eq_true hn, if_pos rfl, Nat.cast_natAbs, abs_of_nonpos (sgn.2 hn.le)]
      push_cast; ring
    · rw [decide_eq_false hn, if_neg (by simp), Nat.cast_natAbs, abs_of_nonneg (sgn.1 (not_lt.mp hn))]
      simp

/-! ## Rounding to ten decimals -/

theorem units_error (q : ℚ) : |(units q : ℚ) / 10 ^ 10 - q| ≤ 1 / 2 / 10 ^ 10 := by
  have h := rne_error (q * 10 ^ 10)
  have e : (units q : ℚ) / 10 ^ 10 - q = ((units q : ℚ) - q * 10 ^ 10) / 10 ^ 10 := by
    rw [sub_div, mul_div_cancel_right₀ _ (by norm_num : (10 : ℚ) ^ 10 ≠ 0)]
  rw [e, abs_div, abs_of_pos (by norm_num : (0 : ℚ) < 10 ^ 10)]
  exact div_le_div_of_nonneg_right h (by norm_num)

theorem units_mono {p q : ℚ} (h : p ≤ q) : units p ≤ units q :=
  rne_mono (mul_le_mul_of_nonneg_right h (by norm_num))

theorem units_int (n : ℤ) : units (n : ℚ) = n * 10 ^ 10 := by
  have : (n : ℚ) * 10 ^ 10 = ((n * 10 ^ 10 : ℤ) : ℚ) := by push_cast; ring
  rw [units, this, rne_int]

/-- The value after writing and reading. -/
def moved (q : ℚ) : ℚ := rndQ ((units q : ℚ) / 10 ^ 10)

theorem moved_mono {p q : ℚ} (h : p ≤ q) : moved p ≤ moved q := by
  refine rndQ_mono (div_le_div_of_nonneg_right ?_ (by norm_num))
  exact_mod_cast units_mono h

theorem moved_int (n : ℤ) (h : |n| ≤ 2 ^ 53) : moved (n : ℚ) = n := by
  have e : ((units (n : ℚ) : ℤ) : ℚ) / 10 ^ 10 = n := by
    rw [units_int]; push_cast
    norm_num
  rw [moved, e, rndQ_int n h]

/-- Doubles move by at most a unit, towards a number of ten decimals that is no further away. -/
theorem moved_near {q : ℚ} (h : rndQ q = q) : |moved q - (units q : ℚ) / 10 ^ 10| ≤ |(units q : ℚ) / 10 ^ 10 - q| := by
  rw [abs_sub_comm ((units q : ℚ) / 10 ^ 10) q]
  exact rndQ_nearest _ h

/-- A number that is not further from `n` than `x`, which is rounded to `n`, is rounded to `n`. -/
theorem rne_closer {x y : ℚ} (h : |y - rne x| ≤ |(rne x : ℚ) - x|) : rne y = rne x := by
  have h1 := Int.floor_le x
  have h2 := Int.lt_floor_add_one x
  have hx := rne_error x
  -- a tie of `x` has an even result
  have tie : |(rne x : ℚ) - x| = 1 / 2 → rne x % 2 = 0 := by
    intro ht
    unfold rne at ht ⊢
    dsimp only at ht ⊢
    split_ifs at ht ⊢ with c1 c2 c3
    · rw [abs_of_nonpos (by linarith)] at ht; linarith
    · push_cast at ht
      rw [abs_of_nonneg (by linarith)] at ht; linarith
    · exact c3
    · omega
  have hy : |y - rne x| ≤ 1 / 2 := h.trans hx
  obtain ⟨l, u⟩ := abs_le.mp hy
  rcases lt_or_eq_of_le hy with hlt | heq
  · obtain ⟨l', u'⟩ := abs_lt.mp hlt
    rcases le_or_gt ((rne x : ℤ) : ℚ) y with hge | hlt'
    · have hf : ⌊y⌋ = rne x := by rw [Int.floor_eq_iff]; constructor <;> linarith
      generalize rne x = n at *
      unfold rne
      dsimp only
      rw [hf, if_pos (by linarith)]
    · have hf : ⌊y⌋ = rne x - 1 := by rw [Int.floor_eq_iff]; push_cast; constructor <;> linarith
      generalize rne x = n at *
      unfold rne
      dsimp only
      rw [hf]
      push_cast
      rw [if_neg (by linarith), if_pos (by linarith)]
      ring
  · have hev := tie (le_antisymm hx (by rw [← heq]; exact h))
    rcases le_or_gt ((rne x : ℤ) : ℚ) y with hge | hlt'
    · rw [abs_of_nonneg (by linarith)] at heq
      have hf : ⌊y⌋ = rne x := by rw [Int.floor_eq_iff]; constructor <;> linarith
      generalize rne x = n at *
      unfold rne
      dsimp only
      rw [hf, if_neg (by linarith), if_neg (by linarith), if_pos hev]
    · rw [abs_of_neg (by linarith)] at heq
      have hf : ⌊y⌋ = rne x - 1 := by rw [Int.floor_eq_iff]; push_cast; constructor <;> linarith
      generalize rne x = n at *
      unfold rne
      dsimp only
      rw [hf]
      push_cast
      rw [if_neg (by linarith), if_neg (by linarith), if_neg (by omega)]
      ring

theorem units_moved {q : ℚ} (h : rndQ q = q) : units (moved q) = units q := by
  refine rne_closer ?_
  have hm := moved_near h
  have p : (0 : ℚ) < 10 ^ 10 := by norm_num
  have e1 : moved q * 10 ^ 10 - (units q : ℚ) = (moved q - (units q : ℚ) / 10 ^ 10) * 10 ^ 10 := by
    rw [sub_mul, div_mul_cancel₀ _ p.ne']
  have e2 : (units q : ℚ) - q * 10 ^ 10 = ((units q : ℚ) / 10 ^ 10 - q) * 10 ^ 10 := by
    rw [sub_mul, div_mul_cancel₀ _ p.ne']
  show |moved q * 10 ^ 10 - (units q : ℚ)| ≤ |(units q : ℚ) - q * 10 ^ 10|
  rw [e1, e2, abs_mul, abs_mul]
  exact mul_le_mul_of_nonneg_right hm (abs_nonneg _)

/-- Large doubles are integers, so they do not move. -/
theorem moved_large {q : ℚ} (h : rndQ q = q) (hq : 2 ^ 53 ≤ |q|) : moved q = q := by
  have h0 : q ≠ 0 := by rintro rfl; norm_num at hq
  have hl : 53 ≤ ilog q := le_ilog_of_le h0 (by exact_mod_cast hq)
  obtain ⟨n, hn⟩ : ∃ n : ℤ, q = n := by
    rw [rndQ_of_ne h0, pow2_eq] at h
    have hu : 0 ≤ uexp q := by unfold uexp; omega
    refine ⟨rne (q / 2 ^ uexp q) * 2 ^ (uexp q).toNat, ?_⟩
    push_cast
    rw [← zpow_natCast, Int.toNat_of_nonneg hu]
    exact h.symm
  have e : ((units q : ℤ) : ℚ) / 10 ^ 10 = q := by
    rw [hn, units_int]; push_cast
    norm_num
  rw [moved, e, h]

/-- No overflow. -/
theorem moved_fin {s : Bool} {q : ℚ} (h : Rep s q) : |moved q| < pow2 1024 := by
  rcases le_or_gt (2 ^ 53) |q| with hq | hq
  · rw [moved_large h.1 hq]; exact h.2.1
  · have hb : |moved q| ≤ 2 ^ 53 := by
      have e1 := moved_int (2 ^ 53) (by norm_num)
      have e2 := moved_int (-2 ^ 53) (by norm_num)
      have a := abs_lt.mp hq
      have l1 := moved_mono (p := ((-2 ^ 53 : ℤ) : ℚ)) (q := q) (by push_cast; linarith)
      have l2 := moved_mono (p := q) (q := ((2 ^ 53 : ℤ) : ℚ)) (by push_cast; linarith)
      rw [e2] at l1
      rw [e1] at l2
      push_cast at l1 l2
      exact abs_le.mpr ⟨l1, l2⟩
    refine lt_of_le_of_lt hb ?_
    rw [pow2_eq, show (2 : ℚ) ^ 53 = 2 ^ (53 : ℤ) by norm_num]
    exact zpow_lt_zpow_right₀ (by norm_num) (by norm_num)

theorem coord_fin {s : Bool} {q : ℚ} (h : Rep s q) :
    gpxCoord (.fin s q h) = .fin (sgn s ((units q : ℚ) / 10 ^ 10)) (moved q) (rep_round (moved_fin h)) :=
  dif_pos (moved_fin h)

/-- **C88, text.** The text of a finite coordinate has ten decimals and is read as `gpxCoord`. -/
theorem coord_text {s : Bool} {q : ℚ} (h : Rep s q) : (coordLit s q).frac.length = 10 ∧
    ofLit (coordLit s q) = some (gpxCoord (.fin s q h)) := by
  refine ⟨(lastDigits_spec 10 _ (Nat.mod_lt _ (by norm_num))).2, ?_⟩
  unfold ofLit
  have e : F64.round (coordLit s q).neg (coordLit s q).value = gpxCoord (.fin s q h) := by
    rw [coordLit_value h]
    rfl
  rw [e, coord_fin h]

/-- A coordinate that is a number becomes a number. -/
theorem coord_is {x : F64} {q : ℚ} (h : Is x q) : Is (gpxCoord x) (moved q) := by
  obtain ⟨s, r, rfl⟩ := h
  rw [coord_fin r]
  exact ⟨_, _, rfl⟩

/-- **C88, repeated.** A coordinate that was written and read does not move any more. Any double, with its sign, infinities and
NaN included. -/
theorem coord_once (x : F64) : gpxCoord (gpxCoord x) = gpxCoord x := by
  cases x with
  | inf s => rfl
  | nan => rfl
  | fin s q h =>
    have e : gpxCoord (gpxCoord (.fin s q h)) =
        F64.round (sgn s ((units q : ℚ) / 10 ^ 10)) ((units (moved q) : ℚ) / 10 ^ 10) := by
      rw [coord_fin h]
      rfl
    rw [e, units_moved h.1]
    show _ = F64.round s ((units q : ℚ) / 10 ^ 10)
    by_cases h0 : (units q : ℚ) / 10 ^ 10 = 0
    · have : sgn s ((units q : ℚ) / 10 ^ 10) = s := by unfold sgn; rw [if_pos h0]
      rw [this]
    · exact round_ne _ s h0

/-- **C88, repeated, as text.** The text does not change any more. -/
theorem text_once (x : F64) : coordText (gpxCoord x) = coordText x := by
  cases x with
  | inf s => rfl
  | nan => rfl
  | fin s q h =>
    rw [coord_fin h]
    show (coordLit _ (moved q)).text = (coordLit s q).text
    have hs : sgn s ((units q : ℚ) / 10 ^ 10) = s := by
      unfold sgn
      split_ifs with h0
      · rfl
      · have hv := coordLit_value h
        have hq0 : q ≠ 0 := by
          rintro rfl
          apply h0
          have : units 0 = 0 := by simpa using units_int 0
          rw [this]; simp
        rw [h.2.2 hq0, decide_eq_decide]
        constructor
        · intro hl
          by_contra hc
          have : units 0 ≤ units q := units_mono (not_lt.mp hc)
          have h00 : units 0 = 0 := by simpa using units_int 0
          rw [h00] at this
          have : (0 : ℚ) ≤ (units q : ℚ) / 10 ^ 10 := div_nonneg (by exact_mod_cast this) (by norm_num)
          linarith
        · intro hl
          have : units q ≤ units 0 := units_mono hl.le
          have h00 : units 0 = 0 := by simpa using units_int 0
          rw [h00] at this
          have h1 : (units q : ℚ) / 10 ^ 10 ≤ 0 := div_nonpos_of_nonpos_of_nonneg (by exact_mod_cast this) (by norm_num)
          exact lt_of_le_of_ne h1 h0
    rw [hs, coordLit, coordLit, units_moved h.1]

/-- **C88, range.** Coordinates keep to integer bounds, so latitudes and longitudes stay in their ranges. -/
theorem coord_range {x : F64} {q : ℚ} (h : Is x q) (n : ℤ) (hn : n ≤ 2 ^ 53) (hq : |q| ≤ n) :
    ∃ q', Is (gpxCoord x) q' ∧ |q'| ≤ n := by
  refine ⟨_, coord_is h, ?_⟩
  have h0 : 0 ≤ n := by exact_mod_cast (abs_nonneg q).trans hq
  have e1 := moved_int n (by rw [abs_of_nonneg h0]; exact hn)
  have e2 := moved_int (-n) (by rw [abs_neg, abs_of_nonneg h0]; exact hn)
  have a := abs_le.mp hq
  have l1 := moved_mono (p := ((-n : ℤ) : ℚ)) (q := q) (by push_cast; linarith)
  have l2 := moved_mono (p := q) (q := (n : ℚ)) a.2
  rw [e2] at l1
  rw [e1] at l2
  push_cast at l1
  exact abs_le.mpr ⟨l1, l2⟩

/-- **C88, order.** Coordinates keep their order. -/
theorem coord_mono {x y : F64} (h : (x <=. y) = true) : (gpxCoord x <=. gpxCoord y) = true := by
  cases x with
  | nan => rw [nan_le] at h; cases h
  | inf s =>
    cases s with
    | true => exact bot_le (by
        cases y with
        | nan => rw [le_nan] at h; cases h
        | inf t => simp [gpxCoord]
        | fin t q hq => obtain ⟨s', r', e⟩ := coord_is (x := .fin t q hq) ⟨t, hq, rfl⟩; rw [e]; simp)
    | false => rw [top_le h]; exact le_refl (by simp [gpxCoord])
  | fin s p hp =>
    cases y with
    | nan => rw [le_nan] at h; cases h
    | inf t =>
      cases t with
      | false => exact le_top (by obtain ⟨s', r', e⟩ := coord_is (x := .fin s p hp) ⟨s, hp, rfl⟩; rw [e]; simp)
      | true => have := le_bot h; cases this
    | fin t q hq =>
      rw [fin_le] at h
      obtain ⟨s', r', e⟩ := coord_is (x := .fin s p hp) ⟨s, hp, rfl⟩
      obtain ⟨t', w', e'⟩ := coord_is (x := .fin t q hq) ⟨t, hq, rfl⟩
      rw [e, e', fin_le]
      simp only [decide_eq_true_eq] at h ⊢
      exact moved_mono h

/-- **C88, accuracy.** A coordinate moves by at most 10⁻¹⁰, within the usual ranges by at most 5.01 · 10⁻¹¹. -/
theorem coord_accurate {x : F64} {q : ℚ} (h : Is x q) :
    ∃ q', Is (gpxCoord x) q' ∧ |q' - q| ≤ 1 / 10 ^ 10 ∧ (|q| ≤ 360 → |q' - q| ≤ 501 / 10 ^ 13) := by
  refine ⟨_, coord_is h, ?_, ?_⟩
  · obtain ⟨s, r, -⟩ := h
    have h1 := moved_near r.1
    have h2 := units_error q
    have h3 := abs_sub_le (moved q) ((units q : ℚ) / 10 ^ 10) q
    norm_num at h2 ⊢
    linarith
  · intro hq
    have h2 := units_error q
    have h3 := abs_sub_le (moved q) ((units q : ℚ) / 10 ^ 10) q
    have h4 := rndQ_error ((units q : ℚ) / 10 ^ 10)
    have h5 : |(units q : ℚ) / 10 ^ 10| ≤ 361 := by
      have := abs_sub_abs_le_abs_sub ((units q : ℚ) / 10 ^ 10) q
      norm_num at h2 ⊢
      linarith
    have h6 : max (|(units q : ℚ) / 10 ^ 10| * 2 ^ (-53 : ℤ)) (2 ^ (-1075 : ℤ)) ≤ 1 / 10 ^ 13 := by
      refine max_le ?_ ?_
      · refine (mul_le_mul_of_nonneg_right h5 (by positivity)).trans ?_
        norm_num
      · have : (2 : ℚ) ^ (-1075 : ℤ) ≤ 2 ^ (-50 : ℤ) := zpow_le_zpow_right₀ (by norm_num) (by norm_num)
        refine this.trans ?_
        norm_num
    have h7 : |moved q - (units q : ℚ) / 10 ^ 10| ≤ 1 / 10 ^ 13 := h4.trans h6
    norm_num at h2 h7 ⊢
    linarith

/-! ## On the ground -/

open C46.Double HavErr C83 C84 C85 Near

/-- **C88, ground.** A point moves by less than 18 micrometres. -/
theorem point_moves {p : LatLon F64} {x : ℚ × ℚ} (h : At p x) :
    At ⟨gpxCoord p.lat, gpxCoord p.lon⟩ (moved x.1, moved x.2) ∧
      exact x.1 x.2 (moved x.1 : ℚ) (moved x.2 : ℚ) ≤ 18 / 10 ^ 6 := by
  obtain ⟨h1, h2, h3, h4⟩ := h
  have uniq : ∀ {f : F64} {p q : ℚ}, Is f p → Is f q → p = q := by
    rintro f p q ⟨s, r, rfl⟩ ⟨s', r', e⟩
    cases e
    rfl
  obtain ⟨a, a1, a2⟩ := coord_range h1 90 (by norm_num) (by exact_mod_cast h3)
  obtain ⟨b, b1, b2⟩ := coord_range h2 180 (by norm_num) (by exact_mod_cast h4)
  obtain ⟨a', a3, -, a4⟩ := coord_accurate h1
  obtain ⟨b', b3, -, b4⟩ := coord_accurate h2
  obtain rfl := uniq a1 (coord_is h1)
  obtain rfl := uniq b1 (coord_is h2)
  obtain rfl := uniq a3 (coord_is h1)
  obtain rfl := uniq b3 (coord_is h2)
  refine ⟨⟨a1, b1, by exact_mod_cast a2, by exact_mod_cast b2⟩, ?_⟩
  have close : ∀ {u v : ℚ}, |v - u| ≤ 501 / 10 ^ 13 → |rad (v : ℝ) - rad (u : ℝ)| ≤ 877 / 10 ^ 15 := by
    intro u v huv
    have h5 : |(v : ℝ) - u| ≤ 501 / 10 ^ 13 := by
      have := (Rat.cast_le (K := ℝ)).mpr huv
      push_cast at this
      exact this
    have hp := Real.pi_lt_d2
    have hp0 := Real.pi_pos
    have e : rad (v : ℝ) - rad (u : ℝ) = ((v : ℝ) - u) * (Real.pi / 180) := by unfold rad; ring
    rw [e, abs_mul, abs_of_pos (by positivity : 0 < Real.pi / 180)]
    have h6 : Real.pi / 180 ≤ 315 / 18000 := by norm_num at hp ⊢; linarith
    refine (mul_le_mul h5 h6 (by positivity) (by norm_num)).trans ?_
    norm_num
  have c1 := close (a4 (h3.trans (by norm_num)))
  have c2 := close (b4 (h4.trans (by norm_num)))
  refine (exact_close c1 (Turn.of_abs c2)).trans ?_
  norm_num

/-- Neighbours are less than 10 000 km apart, with a margin for moved points. -/
def ShortM (ps : List (ℚ × ℚ)) : Prop := ∀ i p q, ps[i]? = some p → ps[i + 1]? = some q → exact p.1 p.2 q.1 q.2 ≤ 9999999

/-- The points as numbers after they were written and read. -/
def movedPts (ps : List (ℚ × ℚ)) : List (ℚ × ℚ) := ps.map fun x => (moved x.1, moved x.2)

theorem shortM_tail {p : ℚ × ℚ} {ps : List (ℚ × ℚ)} (h : ShortM (p :: ps)) : ShortM ps := fun i x y hx hy =>
  h (i + 1) x y (by simpa using hx) (by simpa using hy)

theorem short_of {ps : List (ℚ × ℚ)} (h : ShortM ps) : C85.Short ps := by
  induction ps with
  | nil => trivial
  | cons p ps ih =>
    cases ps with
    | nil => trivial
    | cons q ps =>
      refine ⟨?_, ih (shortM_tail h)⟩
      have := h 0 p q rfl rfl
      linarith

/-- Moved points are closer to each other or further from each other by less than 36 micrometres. -/
theorem pair_moves {p q : LatLon F64} {x y : ℚ × ℚ} (hp : At p x) (hq : At q y) :
    |exact (moved x.1 : ℚ) (moved x.2 : ℚ) (moved y.1 : ℚ) (moved y.2 : ℚ) - exact x.1 x.2 y.1 y.2| ≤ 36 / 10 ^ 6 := by
  have h1 := (point_moves hp).2
  have h2 := (point_moves hq).2
  have s1 := exact_comm (x.1 : ℝ) x.2 (moved x.1 : ℚ) (moved x.2 : ℚ)
  have s2 := exact_comm (y.1 : ℝ) y.2 (moved y.1 : ℚ) (moved y.2 : ℚ)
  have t1 := exact_triangle (moved x.1 : ℚ) (moved x.2 : ℚ) (x.1 : ℝ) x.2 (moved y.1 : ℚ) (moved y.2 : ℚ)
  have t2 := exact_triangle (x.1 : ℝ) x.2 y.1 y.2 (moved y.1 : ℚ) (moved y.2 : ℚ)
  have t3 := exact_triangle (x.1 : ℝ) x.2 (moved x.1 : ℚ) (moved x.2 : ℚ) y.1 y.2
  have t4 := exact_triangle (moved x.1 : ℚ) (moved x.2 : ℚ) (moved y.1 : ℚ) (moved y.2 : ℚ) (y.1 : ℝ) y.2
  rw [abs_le]
  norm_num at h1 h2 ⊢
  constructor <;> linarith

theorem line_moves (pts : List (LatLon F64)) (ps : List (ℚ × ℚ)) (h : List.Forall₂ At pts ps) (hs : ShortM ps) :
    C85.Short (movedPts ps) ∧ |lineLength (movedPts ps) - lineLength ps| ≤ (ps.length - 1 : ℕ) * (36 / 10 ^ 6) := by
  induction h with
  | nil => exact ⟨trivial, by simp [movedPts, lineLength]⟩
  | @cons p x l l' hp hl ih =>
    cases hl with
    | nil => exact ⟨trivial, by simp [movedPts, lineLength]⟩
    | @cons q y m m' hq hm =>
      obtain ⟨i1, i2⟩ := ih (shortM_tail hs)
      have hk := pair_moves hp hq
      have h0 := hs 0 x y rfl rfl
      refine ⟨⟨?_, i1⟩, ?_⟩
      · have := (abs_le.mp hk).2
        norm_num at this ⊢
        linarith
      · show |exact (moved x.1 : ℚ) (moved x.2 : ℚ) (moved y.1 : ℚ) (moved y.2 : ℚ) + lineLength (movedPts (y :: m')) -
          (exact x.1 x.2 y.1 y.2 + lineLength (y :: m'))| ≤ _
        simp only [List.length_cons, Nat.add_sub_cancel] at i2 ⊢
        push_cast at i2 ⊢
        rw [abs_le] at i2 hk ⊢
        constructor <;> linarith [i2.1, i2.2, hk.1, hk.2]

/-- A track with the given segments and length. -/
theorem line_of_points [MathLib] (pts : List (LatLon F64)) (ps : List (ℚ × ℚ)) (segs : List (Segment F64)) (d : F64)
    (h : makeSegments pts = .ok (segs, d)) (hp : List.Forall₂ At pts ps) (hs : C85.Short ps) (t : Track F64) (h1 : t.segments = segs)
    (h2 : t.dist = d) : Line t ps := by
  have hr : Track.restore "x" "" pts = .ok ⟨"x", segs, "", "", none, d, isClosedPts pts, 0⟩ := by
    have : ¬ goLen "x" = 0 := by decide
    simp only [Track.restore, if_neg this, h]
    rfl
  obtain ⟨⟨pts', a, b⟩, c, e⟩ := new_line "x" "" pts ps _ (Or.inr hr) hp hs
  exact ⟨⟨pts', by rw [h1]; exact a, b⟩, c, by rw [h1, h2]; exact e⟩

/-- **C88, lengths.** A track that was saved and loaded has the same number of segments, and its length differs from the
original one by less than 39 micrometres per segment. -/
theorem length_kept [MathLib] (L : Library) (A : Accurate) (T : GpxText F64) (hT : T.coord = gpxCoord) (t t' : Track F64)
    (ht : C21.ApiTrack t) (h : C45.TrackBack T t t') (ps : List (ℚ × ℚ)) (hp : List.Forall₂ At (Track.points t.segments) ps)
    (hs : ShortM ps) (hS : lineLength ps ≤ 9 * 10 ^ 8) (hN : t.segments.length ≤ 10 ^ 12) :
    t'.segments.length = t.segments.length ∧
    ∃ q q' : ℚ, Is t.dist q ∧ Is t'.dist q' ∧ |(q' : ℝ) - q| ≤ t.segments.length * (39 / 10 ^ 6) := by
  obtain ⟨segs, dist, e1, e2⟩ := h
  have hf := api_from_points ht
  have hl := line_of_points _ ps _ _ hf.1 hp (short_of hs) t rfl rfl
  obtain ⟨m1, m2⟩ := line_moves _ ps hp hs
  have hp' : List.Forall₂ At ((Track.points t.segments).map fun p => ⟨T.coord p.lat, T.coord p.lon⟩) (movedPts ps) := by
    rw [hT]
    clear m1 m2 hl hf e1 hs hS
    generalize Track.points t.segments = pts at hp
    induction hp with
    | nil => exact .nil
    | cons h _ ih => exact .cons (point_moves h).1 ih
  have hl' := line_of_points _ _ _ _ e1 hp' m1 t' (by rw [e2]) (by rw [e2])
  have hlen : t.segments.length + 1 = ps.length := by
    obtain ⟨pts', a, b⟩ := hl.points
    rw [a.length, b.length_eq]
  have hlen' : t'.segments.length + 1 = ps.length := by
    obtain ⟨pts', a, b⟩ := hl'.points
    rw [a.length, b.length_eq]
    simp [movedPts]
  have hsame : t'.segments.length = t.segments.length := by omega
  have hk : ps.length - 1 = t.segments.length := by omega
  rw [hk] at m2
  have hN' : (t.segments.length : ℝ) ≤ 1000000000000 := by exact_mod_cast hN
  have n0 : (0 : ℝ) ≤ t.segments.length := by positivity
  have m3 := (abs_le.mp m2).2
  obtain ⟨q, q1, q2⟩ := track_length L A t ps hl (by norm_num at hS ⊢; linarith) hN
  obtain ⟨q', q3, q4⟩ := track_length L A t' _ hl' (by norm_num at hS m3 ⊢; linarith) (by rw [hsame]; exact hN)
  refine ⟨hsame, q, q', q1, q3, ?_⟩
  rw [hsame] at q4
  rw [abs_le] at q2 q4 m2 ⊢
  norm_num at q2 q4 m2 ⊢
  constructor <;> linarith [q2.1, q2.2, q4.1, q4.2, m2.1, m2.2]

/-! ## Closed tracks -/

theorem coord_eq {x y : F64} (h : (x ==. y) = true) : (gpxCoord x ==. gpxCoord y) = true := by
  cases x with
  | nan => cases y <;> cases h
  | inf s => cases y with
    | inf t => exact h
    | fin t q hq => cases h
    | nan => cases h
  | fin s p hp => cases y with
    | inf t => cases h
    | nan => cases h
    | fin t q hq =>
      rw [fin_eq] at h
      obtain rfl : p = q := by simpa using h
      rw [coord_fin hp, coord_fin hq]
      exact decide_eq_true rfl

/-- **C88, closed.** A closed track stays closed. -/
theorem closed_kept [MathLib] (T : GpxText F64) (hT : T.coord = gpxCoord) (t t' : Track F64) (ht : C21.ApiTrack t)
    (h : C45.TrackBack T t t') (hc : t.isClosed = true) : t'.isClosed = true := by
  obtain ⟨segs, dist, e1, e2⟩ := h
  rw [(api_from_points ht).2] at hc
  rw [e2, hT]
  show isClosedPts _ = true
  generalize Track.points t.segments = pts at hc
  unfold isClosedPts at hc ⊢
  rw [List.length_map]
  split at hc
  · cases hc
  · rename_i hl
    rw [if_neg hl, List.head?_map, List.getLast?_map]
    cases h1 : pts.head? with
    | none => rw [h1] at hc; cases hc
    | some a =>
      cases h2 : pts.getLast? with
      | none => rw [h1, h2] at hc; cases hc
      | some b =>
        rw [h1, h2] at hc
        simp only [Bool.and_eq_true] at hc
        simp only [Option.map_some, Bool.and_eq_true]
        exact ⟨coord_eq hc.1, coord_eq hc.2⟩

/-! ## Files -/

/-- The hypothesis of `files_settle` on coordinates holds for ten decimals. -/
theorem settling (T : GpxText F64) (hT : T.coord = gpxCoord) (h1 : ∀ x, T.parseFloat (T.showFloat x) = some x)
    (h2 : T.parseFloat "" = none) : Settling T := ⟨fun x => by rw [hT]; exact coord_once x, h1, h2⟩

/-- **C88, files of doubles.** With ten decimals, the third file and all later ones are equal. -/
theorem double_files_settle [MathLib] (T : GpxText F64) (hT : T.coord = gpxCoord)
    (h1 : ∀ x, T.parseFloat (T.showFloat x) = some x) (h2 : T.parseFloat "" = none) (gen : Nat → Nat → String × String)
    (rs : List (Route F64)) (hne : ∃ r ∈ rs, r.tracks ≠ []) (hr : ∀ r ∈ rs, C21.ApiRoute r ∧ C45.Plain T r) :
    ∃ d, ∀ n ≥ 2, file T gen rs n = some d :=
  files_settle T (settling T hT h1 h2) gen rs hne hr

/-! ## Examples -/

/-- The coordinate of gpx/encoding_test.go:16 in gpx/testdata/restore.gpx. -/
example : String.ofList (coordText (lit (29533628561797286 / 10 ^ 15))) = "29.5336285618" ∧
    String.ofList (coordText (lit (10645792276464522 / 10 ^ 14))) = "106.4579227646" ∧
    gpxCoord (lit (29533628561797286 / 10 ^ 15)) = lit (295336285618 / 10 ^ 10) ∧
    gpxCoord (lit (29533628561797286 / 10 ^ 15)) ≠ lit (29533628561797286 / 10 ^ 15) := by
  decide +kernel

/-- Ties, tiny numbers, signed zeros, large numbers. -/
example : String.ofList (coordText (lit (-1 / 2 ^ 40))) = "-0.0000000000" ∧ gpxCoord (lit (-1 / 2 ^ 40)) = .zero true ∧
    String.ofList (coordText (lit (1 / 2 ^ 11))) = "0.0004882812" ∧ String.ofList (coordText (lit (3 / 2 ^ 11))) = "0.0014648438" ∧
    String.ofList (coordText (lit (-180))) = "-180.0000000000" ∧ gpxCoord (lit (-180)) = lit (-180) ∧
    gpxCoord (lit (10 ^ 300)) = lit (10 ^ 300) ∧ String.ofList (coordText .nan) = "NaN" := by
  decide +kernel

/-- Two points that are 10⁻¹¹ degrees apart become one, and an open track becomes a closed one. -/
example : gpxCoord (lit (1 / 10 ^ 11)) = gpxCoord (lit 0) ∧
    isClosedPts [(⟨lit 0, lit 0⟩ : LatLon F64), ⟨lit 0, lit 1⟩, ⟨lit 0, lit (1 / 10 ^ 11)⟩] = false ∧
    isClosedPts ([(⟨lit 0, lit 0⟩ : LatLon F64), ⟨lit 0, lit 1⟩, ⟨lit 0, lit (1 / 10 ^ 11)⟩].map fun p =>
      ⟨gpxCoord p.lat, gpxCoord p.lon⟩) = true := by
  decide +kernel

end C88
end GpsGen
