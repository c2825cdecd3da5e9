import Verif.Theorems.C50
import Verif.Lemmas.F64Order

/-!
# C50 in IEEE doubles: random coordinates stay in range

Random coordinates are exactly in range, for every draw below 1: for the whole world, and for each of the countries of
the table. For the countries this depends on the table and on the draw being below 1: with a draw of 1 it would be false
(`one_leaves`).
-/

namespace GpsGen
namespace C50
namespace Double
open F64 Round64

/-- A draw of `Float64()`: a double from zero to below one. -/
def Draw (u : F64) : Prop := (lit 0 <=. u) = true ∧ (u <. lit 1) = true

/-- A valid coordinate. -/
def ValidPoint (p : LatLon F64) : Prop :=
  ((lit (-90) <=. p.lat) = true ∧ (p.lat <=. lit 90) = true) ∧
  ((lit (-180) <=. p.lon) = true ∧ (p.lon <=. lit 180) = true)

/-- The point lies in the box. -/
def Inside (b : BBox F64) (p : LatLon F64) : Prop :=
  ((b.minLat <=. p.lat) = true ∧ (p.lat <=. b.maxLat) = true) ∧
  ((b.minLon <=. p.lon) = true ∧ (p.lon <=. b.maxLon) = true)

/-! ## The largest draw -/

/-- The largest double below 1. -/
def top : ℚ := 1 - 1 / 2 ^ 53

theorem top_rep : rndQ top = top := by decide +kernel

/-- A number with 53 digits below 1 is at most `1 - 2⁻⁵³`. -/
theorem below_one {q : ℚ} (hq : rndQ q = q) (h : q < 1) : q ≤ top := by
  by_contra hc
  have hc : top < q := lt_of_not_ge hc
  have hh : (1 / 2 : ℚ) ≤ q := le_of_lt (lt_of_lt_of_le (by unfold top; norm_num) hc.le)
  have h0 : q ≠ 0 := by intro e; rw [e] at hh; norm_num at hh
  have ha : |q| = q := abs_of_nonneg (by linarith)
  have i1 : ilog q ≤ -1 := ilog_le_of_lt h0 (by rw [ha]; norm_num; exact h)
  have i2 : -1 ≤ ilog q := le_ilog_of_le h0 (by rw [ha]; norm_num; linarith)
  have iu : uexp q = -53 := by
    unfold uexp
    have : ilog q = -1 := le_antisymm i1 i2
    rw [this]; norm_num
  have e := rndQ_of_ne h0
  rw [hq, iu, pow2_eq] at e
  set n := rne (q / (2 : ℚ) ^ (-53 : ℤ))
  have e' : q * 2 ^ 53 = n := by
    rw [e]
    rw [mul_assoc]
    norm_num
  have h1 : (n : ℚ) < 2 ^ 53 := by rw [← e']; linarith
  have h2 : n < 2 ^ 53 := by exact_mod_cast h1
  have h3 : n ≤ 2 ^ 53 - 1 := by omega
  have h4 : (n : ℚ) ≤ 2 ^ 53 - 1 := by exact_mod_cast h3
  rw [← e'] at h4
  unfold top at hc
  linarith

/-- A draw is a number between 0 and `top`. -/
theorem draw_fin {u : F64} (h : Draw u) : ∃ s q r, u = .fin s q r ∧ 0 ≤ q ∧ q ≤ top := by
  obtain ⟨h0, h1⟩ := h
  obtain ⟨r0, e0⟩ := lit_nat (q := 0) 0 (by norm_num) (by norm_num) (by norm_num)
  obtain ⟨r1, e1⟩ := lit_nat (q := 1) 1 (by norm_num) (by norm_num) (by norm_num)
  rw [e0] at h0
  rw [e1] at h1
  cases u with
  | nan => cases h1
  | inf t =>
    cases t with
    | false => exact absurd (show false = true from h1) Bool.false_ne_true
    | true => exact absurd (show false = true from h0) Bool.false_ne_true
  | fin s q r =>
    rw [fin_le, decide_eq_true_eq] at h0
    rw [fin_lt, decide_eq_true_eq] at h1
    exact ⟨s, q, r, rfl, h0, below_one r.1 h1⟩

theorem add_mono {s t v : Bool} {x y c : ℚ} {hx : Rep s x} {hy : Rep t y} {hc : Rep v c} (h : x ≤ y) :
    ((F64.fin s x hx) +. .fin v c hc <=. (F64.fin t y hy) +. .fin v c hc) = true := by
  rw [fin_add, fin_add]
  exact round_mono _ _ (by linarith)

/-! ## Anywhere -/

theorem scaled {u : F64} (h : Draw u) (n : ℤ) (h0 : 0 < n) (hn : n ≤ 2 ^ 52) :
    ((lit (-n : ℤ) : F64) <=. (u -. lit (1 / 2)) *. lit (2 * n : ℤ)) = true ∧
      ((u -. lit (1 / 2)) *. lit (2 * n : ℤ) <=. (lit (n : ℤ) : F64)) = true := by
  obtain ⟨s, q, r, rfl, q0, q1⟩ := draw_fin h
  obtain ⟨rh, eh⟩ := lit_exact (q := 1 / 2) (by decide +kernel) (by decide +kernel)
  obtain ⟨rn, en⟩ := lit_nat (q := ((2 * n : ℤ) : ℚ)) (2 * n) rfl (by rw [abs_of_nonneg (by omega)]; omega) (by omega)
  have q1' : q ≤ 1 := q1.trans (by unfold top; norm_num)
  rw [eh, en, fin_sub]
  generalize (decide (q = 0) && decide (-(1 / 2 : ℚ) = 0) && s && !decide ((1 / 2 : ℚ) < 0)) = z
  have hd : |q + -(1 / 2)| ≤ (1 : ℤ) := by rw [abs_le]; constructor <;> push_cast <;> linarith
  have hb : ∃ s' d r', F64.round z (q + -(1 / 2)) = .fin s' d r' ∧ -(1 / 2) ≤ d ∧ d ≤ 1 / 2 := by
    obtain ⟨s', r', e⟩ : ∃ s' r', F64.round z (q + -(1 / 2)) = .fin s' (rndQ (q + -(1 / 2))) r' := by
      unfold F64.round
      have : |rndQ (q + -(1 / 2))| < pow2 1024 := by
        refine lt_of_le_of_lt (rndQ_abs_le (by norm_num) hd) ?_
        decide +kernel
      rw [dif_pos this]
      exact ⟨_, _, rfl⟩
    refine ⟨s', _, r', e, ?_, ?_⟩
    · have := rndQ_mono (show -(1 / 2 : ℚ) ≤ q + -(1 / 2) by linarith)
      rwa [show rndQ (-(1 / 2)) = -(1 / 2) by decide +kernel] at this
    · have := rndQ_mono (show q + -(1 / 2) ≤ (1 / 2 : ℚ) by linarith)
      rwa [show rndQ (1 / 2) = 1 / 2 by decide +kernel] at this
  obtain ⟨s', d, r', e, d0, d1⟩ := hb
  have hn' : (0 : ℚ) < n := by exact_mod_cast h0
  rw [e, fin_mul]
  refine ⟨round_mono _ _ ?_, round_mono _ _ ?_⟩ <;> push_cast <;> nlinarith

/-- **C50, anywhere, in doubles.** Every pair of draws gives a valid coordinate. -/
theorem latLon_valid (u v : F64) (hu : Draw u) (hv : Draw v) : ValidPoint (latLon u v) := by
  have h1 := scaled hu 90 (by norm_num) (by norm_num)
  have h2 := scaled hv 180 (by norm_num) (by norm_num)
  norm_num at h1 h2
  unfold ValidPoint latLon
  norm_num
  exact ⟨h1, h2⟩

/-! ## Countries -/

/-- What must hold of an interval of the table: the ends are finite numbers, the width is positive, and the largest draw
does not leave the interval. -/
def spanOk (lo hi : ℤ) : Bool :=
  match (cents lo : F64), ((cents hi : F64) -. cents lo) with
  | .fin s a ra, .fin _ w _ =>
    decide (0 < w) && decide (w ≤ 400) && ((F64.round false (top * w) +. F64.fin s a ra) <=. cents hi)
  | _, _ => false

theorem spans_ok : boxes.all (fun b => spanOk b.2.1 b.2.2.2.1 && spanOk b.2.2.1 b.2.2.2.2) = true := by
  decide +kernel

theorem in_span {lo hi : ℤ} (h : spanOk lo hi = true) {u : F64} (hu : Draw u) :
    ((cents lo : F64) <=. u *. (cents hi -. cents lo) +. cents lo) = true ∧
      (u *. (cents hi -. cents lo) +. cents lo <=. (cents hi : F64)) = true := by
  obtain ⟨s, q, r, rfl, q0, q1⟩ := draw_fin hu
  have q1' : q ≤ 1 := q1.trans (by unfold top; norm_num)
  unfold spanOk at h
  split at h
  · rename_i s1 a ra t w rw' ea ew
    rw [ew, ea]
    simp only [Bool.and_eq_true, decide_eq_true_eq] at h
    obtain ⟨⟨w0, w1⟩, ht⟩ := h
    have fin : ∀ (z : Bool) (p : ℚ), 0 ≤ p → p ≤ 1 →
        ∃ s' r', F64.round z (p * w) = .fin s' (rndQ (p * w)) r' := by
      intro z p p0 p1
      unfold F64.round
      have hb : |p * w| ≤ (400 : ℤ) := by
        rw [abs_of_nonneg (by positivity)]
        push_cast
        nlinarith
      have : |rndQ (p * w)| < pow2 1024 := by
        refine lt_of_le_of_lt (rndQ_abs_le (by norm_num) hb) ?_
        decide +kernel
      rw [dif_pos this]
      exact ⟨_, _, rfl⟩
    rw [fin_mul]
    obtain ⟨z1, r1, e1⟩ := fin (s != t) q q0 q1'
    obtain ⟨z2, r2, e2⟩ := fin false top (by unfold top; norm_num) (by unfold top; norm_num)
    rw [e1]
    rw [e2] at ht
    have hnn : 0 ≤ rndQ (q * w) := by
      have := rndQ_mono (show (0 : ℚ) ≤ q * w by positivity)
      rwa [show rndQ 0 = 0 from rfl] at this
    refine ⟨?_, le_trans (add_mono (rndQ_mono ?_)) ht⟩
    · rw [fin_add]
      exact fin_le_round _ (by linarith)
    · exact mul_le_mul_of_nonneg_right q1 w0.le
  · cases h

/-- Any number type: the point of a country is computed from an entry of the table. -/
theorem byCountry_entry {F : Type} [GoFloat F] (s : String) (u v : F) (p : LatLon F)
    (h : latLonByCountry s u v = some p) :
    ∃ e ∈ boxes, boundingBox s = some (⟨cents e.2.1, cents e.2.2.1, cents e.2.2.2.1, cents e.2.2.2.2⟩ : BBox F) ∧
      p = ⟨v *. (cents e.2.2.2.2 -. cents e.2.2.1) +. cents e.2.2.1,
        u *. (cents e.2.2.2.1 -. cents e.2.1) +. cents e.2.1⟩ := by
  unfold latLonByCountry at h
  split at h
  · cases h
  · rename_i hlen
    cases hb : (boundingBox (upper s) : Option (BBox F)) with
    | none => rw [hb] at h; cases h
    | some b =>
      rw [hb] at h
      cases h
      unfold boundingBox at hb
      split at hb
      · cases hb
      · rw [Option.map_eq_some_iff] at hb
        obtain ⟨x, hx, rfl⟩ := hb
        have hc' : upper (upper s) = upper s := by
          unfold upper
          rw [String.toList_ofList, List.map_map]
          congr 2
          funext ch
          exact toUpper_twice ch
        rw [hc'] at hx
        refine ⟨_, lookup_some hx, ?_, rfl⟩
        unfold boundingBox
        rw [if_neg hlen, hx]
        rfl

/-- **C50, countries, in doubles.** Whatever `LatLonByCountry` returns lies in the bounding box of the country, for
all draws. -/
theorem byCountry_box (s : String) (u v : F64) (p : LatLon F64) (hu : Draw u) (hv : Draw v)
    (h : latLonByCountry s u v = some p) : ∃ b, boundingBox s = some b ∧ Inside b p ∧ b.contains p = true := by
  obtain ⟨e, he, hb, rfl⟩ := byCountry_entry s u v p h
  have hok := List.all_eq_true.mp spans_ok e he
  rw [Bool.and_eq_true] at hok
  obtain ⟨i1, i2⟩ := in_span hok.1 hu
  obtain ⟨i3, i4⟩ := in_span hok.2 hv
  refine ⟨_, hb, ⟨⟨i3, i4⟩, i1, i2⟩, ?_⟩
  simp only [BBox.contains, Bool.and_eq_true]
  exact ⟨⟨⟨i1, i3⟩, i2⟩, i4⟩

/-- Every country has such points. -/
theorem country_point (c name : String) (hc : (c, name) ∈ countries) (s : String) (hs : SameCode s c) (u v : F64)
    (hu : Draw u) (hv : Draw v) : ∃ b p, boundingBox s = some b ∧ latLonByCountry s u v = some p ∧ Inside b p := by
  have hm : c ∈ boxes.map (·.1) := by
    rw [← tables_match]; exact List.mem_map_of_mem (f := (·.1)) hc
  have hok := List.all_eq_true.mp codes_ok c hm
  obtain ⟨hl, hu'⟩ := code_upper hok hs
  obtain ⟨hl2, hu2⟩ := upper_upper hok
  obtain ⟨x, hx, -⟩ := lookup_mem hm
  have hp : ∃ p, latLonByCountry s u v = some p := by
    unfold latLonByCountry boundingBox
    rw [if_neg (by simp [hl]), hu', if_neg (by simp [hl2]), hu2, hx]
    exact ⟨_, rfl⟩
  obtain ⟨p, hp⟩ := hp
  obtain ⟨b, h1, h2, -⟩ := byCountry_box s u v p hu hv hp
  exact ⟨b, p, h1, hp, h2⟩

/-! ## Examples -/

/-- With a draw of 1 the point would leave Ghana, by one unit in the last place. -/
theorem one_leaves : ((lit 1 : F64) *. (cents 106 -. cents (-324)) +. cents (-324) <=. cents 106) = false := by
  decide +kernel

example : Draw (lit (1 / 3)) := by constructor <;> decide +kernel
example : Draw (lit top) := by constructor <;> decide +kernel
example : ∃ b p, boundingBox "gh" = some b ∧ latLonByCountry "gh" (lit top) (lit 0 : F64) = some p ∧ Inside b p :=
  country_point "GH" "Ghana" (by decide +kernel) "gh" ⟨'g', 'h', 'G', 'H', rfl, rfl, .inr rfl, .inr rfl⟩ _ _
    (by constructor <;> decide +kernel) (by constructor <;> decide +kernel)

end Double
end C50
end GpsGen
