import Verif.Lemmas.NearLine
import Verif.Lemmas.Held
/-!
# C84: in doubles, devices stay close to their line

`Destination`, `Bearing` and the positions of moving devices in IEEE doubles, for any mathematical library whose sine, cosine,
inverse sine and arc tangent are accurate. Between the latitudes 85 S and 85 N a destination of up to 10 000 km is within
20 micrometres of the exact one. Devices on tracks between 80 S and 80 N whose segments are at most 500 km long are, after
every successful step of every history, within 34 micrometres of the point of their segment that is at the travelled distance
from its start. At the poles nothing can be said: with Go's sine and cosine there are walks to the north pole whose
destination is not a number (`pole_nan`).
-/

namespace GpsGen
namespace C84
open F64 C28.Double C46.Double HavErr C83 Navigator

attribute [local irreducible] Round64.rndQ Round64.pow2

/-! ## Specification

`C83.exact` is the great-circle distance. -/

/-- The point is given by numbers, away from the poles. -/
structure Placed (p : LatLon F64) (a o : ℚ) : Prop where
  lat : Is p.lat a
  lon : Is p.lon o
  lat_range : |a| ≤ 80
  lon_range : -180 ≤ o ∧ o < 180

/-- `p` is a point (of numbers) that is within 1/30000 m of a point (x, y) of the shortest line from `A` to `B` that is `m` metres
behind `A`, up to a micrometre. -/
def NearLine (A B p : LatLon F64) (m : ℚ) : Prop := ∃ a o c d u v : ℚ, Is A.lat a ∧ Is A.lon o ∧ Is B.lat c ∧ Is B.lon d ∧
  Is p.lat u ∧ Is p.lon v ∧ ∃ x y : ℝ, exact a o x y + exact x y c d = exact a o c d ∧ |exact a o x y - m| ≤ 1 / 10 ^ 6 ∧
    exact x y u v ≤ 1 / 30000

/-- The segments are those of a line of points away from the poles, neighbours being at most 500 km apart. -/
def Drawn [MathLib] (segs : List (Segment F64)) : Prop := ∃ pts : List (LatLon F64), C01.IsPolyline pts segs ∧
  (∀ p ∈ pts, ∃ a o, Placed p a o) ∧
  ∀ s ∈ segs, ∀ a o c d : ℚ, Placed s.pointA a o → Placed s.pointB c d → exact a o c d ≤ 500000

/-- A step does not go backwards. -/
def Forward [MathLib] (tick speed : F64) : Prop := ((tick *. speed) <. lit 0) = false

/-- The step puts the device on its track: nothing was travelled yet and the cursor stays on the first segment. -/
def First (n n' : Navigator F64) : Prop :=
  n.segmentIndex = 0 ∧ n'.segmentIndex = 0 ∧ (n.currentSegmentDistance ==. lit 0) = true

/-- The full claim: a destination of at most 10 000 km is a point (of numbers) within a metre of the exact destination.
(`destination` over the real numbers: C47, C80.) -/
def Claim [MathLib] : Prop := ∀ (lat lon meters b : F64) (a o m β : ℚ), Is lat a → Is lon o → Is meters m → Is b β →
  |a| ≤ 90 → |o| ≤ 180 → 0 ≤ m → m ≤ 10000000 → 0 ≤ β → β ≤ 360 →
  ∃ p q : ℚ, Is (destination lat lon meters b).lat p ∧ Is (destination lat lon meters b).lon q ∧
    exact (destination (a : ℝ) o m β).lat (destination (a : ℝ) o m β).lon p q ≤ 1

/-! ## Destinations -/

/-- **C84, destinations (partial).** Between the latitudes 85 S and 85 N the destination in doubles is within 20 micrometres of
the exact one.

Missing for the full property: the neighbourhood of the poles, where it is false, see `claim_fails`. -/
theorem destination_accurate_partial [MathLib] (L : Accurate) (T : Arctan) (lat lon meters b : F64) (a o m β : ℚ) (h1 : Is lat a)
    (h2 : Is lon o) (h3 : Is meters m) (h4 : Is b β) (ha : |a| ≤ 85) (ho : |o| ≤ 180) (hm : |m| ≤ 10000000)
    (hβ : |β| ≤ 360) (hd : |(destination (a : ℝ) o m β).lat| ≤ 85) :
    ∃ p q : ℚ, Is (destination lat lon meters b).lat p ∧ Is (destination lat lon meters b).lon q ∧ |p| ≤ 86 ∧ |q| ≤ 181 ∧
      exact (destination (a : ℝ) o m β).lat (destination (a : ℝ) o m β).lon p q ≤ 1 / 50000 :=
  destination_near L T h1 h2 h3 h4 ha (ho.trans (by norm_num)) hm (hβ.trans (by norm_num)) hd

/-- **C84, distance of the destination (partial).** From starts between 80 S and 80 N and for up to 500 km the distance
between the start and the destination is the requested one, up to 20 micrometres.

Missing for the full property: as for `destination_accurate_partial`. -/
theorem requested_distance_partial [MathLib] (L : Accurate) (T : Arctan) (lat lon meters b : F64) (a o m β : ℚ) (h1 : Is lat a)
    (h2 : Is lon o) (h3 : Is meters m) (h4 : Is b β) (ha : |a| ≤ 80) (ho : |o| ≤ 180) (hm : 0 ≤ m ∧ m ≤ 500000)
    (hβ : |β| ≤ 360) :
    ∃ p q : ℚ, Is (destination lat lon meters b).lat p ∧ Is (destination lat lon meters b).lon q ∧
      |exact a o p q - m| ≤ 1 / 50000 := by
  have m0 : (0 : ℝ) ≤ m := by exact_mod_cast hm.1
  have m1 : (m : ℝ) ≤ 500000 := by exact_mod_cast hm.2
  have ha80 : |(a : ℝ)| ≤ 80 := by exact_mod_cast ha
  have ha' := abs_le.mp ha80
  have pi1 : 314 / 100 < Real.pi := by have := Real.pi_gt_d2; norm_num at *; linarith
  set G := destination (a : ℝ) o m β with hG
  have eG : exact a o G.lat G.lon = m := by
    rw [exact_distance]
    exact C47.distance_requested _ _ _ _ ⟨by linarith [ha'.1], by linarith [ha'.2]⟩ m0 (by linarith)
  have latG : |G.lat| ≤ 85 := by
    have r := C47.lat_range (a : ℝ) o m β
    have hl := lat_le_exact (a : ℝ) o G.lat G.lon (ha80.trans (by norm_num)) (abs_le.mpr r)
    rw [eG] at hl
    have e : rad G.lat - rad a = (G.lat - a) * (Real.pi / 180) := by unfold rad; ring
    rw [e, abs_mul, abs_of_pos (by positivity : 0 < Real.pi / 180)] at hl
    have h8 : |G.lat - a| ≤ 5 := by
      by_contra hcon
      push Not at hcon
      have := mul_lt_mul_of_pos_right hcon (by positivity : 0 < Real.pi / 180)
      linarith
    have := abs_add_le (G.lat - a) a
    rw [sub_add_cancel] at this
    linarith
  obtain ⟨p, q, hp, hq, -, -, h⟩ := destination_accurate_partial L T lat lon meters b a o m β h1 h2 h3 h4 (ha.trans (by norm_num)) ho
    (by rw [abs_of_nonneg hm.1]; linarith [hm.2]) hβ latG
  refine ⟨p, q, hp, hq, ?_⟩
  have t1 := exact_triangle (a : ℝ) o G.lat G.lon p q
  have t2 := exact_triangle (a : ℝ) o p q G.lat G.lon
  rw [eG] at t1 t2
  rw [exact_comm G.lat G.lon p q] at t2
  rw [abs_le]
  constructor <;> linarith

/-! ## Moving devices -/

theorem lit_zero : Is (lit 0 : F64) 0 := by
  have := (rnd_fin false (q := 0) (by norm_num)).1
  rwa [Round64.rndQ_zero] at this

theorem not_neg {x : F64} {q : ℚ} (h : Is x q) : (x <. lit 0) = false ↔ 0 ≤ q := by
  obtain ⟨s, r, rfl⟩ := h
  obtain ⟨t, r', e⟩ := lit_zero
  rw [e, fin_lt]
  simp

/-- A sum of numbers that are not negative is not negative. -/
theorem add_not_neg {x y : F64} (hx : (x <. lit 0) = false) (hy : (y <. lit 0) = false) : ((x +. y) <. lit 0) = false := by
  obtain ⟨t, r', e⟩ := lit_zero
  cases x with
  | nan => cases y <;> (rw [e]; rfl)
  | inf s =>
    have hs : s = false := by rw [e] at hx; exact hx
    subst hs
    cases y with
    | nan => rw [e]; rfl
    | inf s' =>
      have hs : s' = false := by rw [e] at hy; exact hy
      subst hs
      rw [e]; rfl
    | fin s' q h' => rw [e]; rfl
  | fin s p h =>
    cases y with
    | nan => rw [e]; rfl
    | inf s' =>
      have hs : s' = false := by rw [e] at hy; exact hy
      subst hs
      rw [e]; rfl
    | fin s' q h' =>
      have p0 := (not_neg ⟨s, h, rfl⟩).mp hx
      have q0 := (not_neg ⟨s', h', rfl⟩).mp hy
      have un : ((F64.fin s p h : F64) +. .fin s' q h') = F64.round (decide (p = 0) && decide (q = 0) && s && s') (p + q) := rfl
      rw [un]
      unfold F64.round
      split_ifs with hr
      · exact (not_neg ⟨_, _, rfl⟩).mpr (Round64.rndQ_nonneg (by linarith))
      · have : sgn (decide (p = 0) && decide (q = 0) && s && s') (p + q) = false := by
          unfold sgn
          split_ifs with h0
          · exfalso
            rw [h0, Round64.rndQ_zero] at hr
            exact hr (by rw [abs_zero]; unfold Round64.pow2; positivity)
          · simp; linarith
        rw [this, e]
        rfl

theorem abs_not_neg (x : F64) : (GoFloat.abs x <. lit 0) = false := by
  obtain ⟨t, r', e⟩ := lit_zero
  cases x with
  | nan => rw [e]; rfl
  | inf s => rw [e]; rfl
  | fin s q h =>
    cases s with
    | true =>
      have : GoFloat.abs (F64.fin true q h) = F64.neg (.fin true q h) := rfl
      rw [this]
      refine (not_neg ⟨_, _, rfl⟩).mpr ?_
      by_contra hc
      have h0 : 0 < q := by linarith
      have := h.2.2 h0.ne'
      simp at this
      linarith
    | false =>
      have : GoFloat.abs (F64.fin false q h) = .fin false q h := rfl
      rw [this]
      refine (not_neg ⟨_, _, rfl⟩).mpr ?_
      by_contra hc
      have h0 : q ≠ 0 := by rintro rfl; exact hc le_rfl
      have := h.2.2 h0
      simp at this
      linarith

/-- A number that is at most a finite one and not negative is finite. -/
theorem finite_of_le {x y : F64} {D : ℚ} (hy : Is y D) (h : (x <=. y) = true) (h0 : (x <. lit 0) = false) :
    ∃ m : ℚ, Is x m ∧ 0 ≤ m ∧ m ≤ D := by
  obtain ⟨s, r, rfl⟩ := hy
  cases x with
  | nan => cases h
  | inf t =>
    obtain ⟨_, _, e⟩ := lit_zero
    have ht : t = false := by rw [e] at h0; exact h0
    subst ht
    cases h
  | fin t m r' =>
    refine ⟨m, ⟨t, r', rfl⟩, (not_neg ⟨t, r', rfl⟩).mp h0, ?_⟩
    have h' : (decide (m < D) || decide (m = D)) = true := h
    rcases Bool.or_eq_true _ _ |>.mp h' with h' | h'
    · exact (of_decide_eq_true h').le
    · exact (of_decide_eq_true h').le

/-- A summand that is not negative is at most the sum. -/
theorem summand_le {x d : F64} {m k : ℚ} (hx : Is x m) (m0 : 0 ≤ m) (hd : (d <. lit 0) = false) (h : Is (x +. d) k) :
    ∃ e : ℚ, Is d e ∧ 0 ≤ e ∧ e ≤ k := by
  obtain ⟨s, r, rfl⟩ := hx
  obtain ⟨t, r', h⟩ := h
  cases d with
  | nan => cases h
  | inf u => cases h
  | fin u e re =>
    refine ⟨e, ⟨u, re, rfl⟩, (not_neg ⟨u, re, rfl⟩).mp hd, ?_⟩
    rw [fin_add] at h
    unfold F64.round at h
    split_ifs at h with hr
    have hk : Round64.rndQ (m + e) = k := by injection h
    rw [← hk, ← re.1]
    conv_rhs => rw [re.1]
    exact Round64.rndQ_mono (by linarith)

/-- A product that is rounded to a small number is small. -/
theorem product_le {x y : F64} {p q e : ℚ} (hx : Is x p) (hy : Is y q) (h : Is (x *. y) e) (he : e < 2 ^ 30) : p * q ≤ 2 ^ 30 := by
  obtain ⟨s, r, rfl⟩ := hx
  obtain ⟨t, r', rfl⟩ := hy
  obtain ⟨u, r'', h⟩ := h
  by_contra hc
  push Not at hc
  rw [fin_mul] at h
  unfold F64.round at h
  split_ifs at h with hr
  have hk : Round64.rndQ (p * q) = e := by injection h
  have h30 : Round64.rndQ (2 ^ 30 : ℚ) = 2 ^ 30 := by decide +kernel
  have := Round64.rndQ_mono hc.le
  rw [h30, hk] at this
  linarith

/-- A segment of a drawn track. -/
theorem drawn_segment [MathLib] {segs : List (Segment F64)} (h : Drawn segs) {s : Segment F64} (hs : s ∈ segs) :
    (∃ a o c d : ℚ, Placed s.pointA a o ∧ Placed s.pointB c d ∧ exact a o c d ≤ 500000) ∧
    s.dist = distance s.pointA.lat s.pointA.lon s.pointB.lat s.pointB.lon ∧
    s.bearing = bearing s.pointA.lat s.pointA.lon s.pointB.lat s.pointB.lon := by
  obtain ⟨pts, hp, hpl, hle⟩ := h
  obtain ⟨i, hi⟩ := List.mem_iff_getElem?.mp hs
  obtain ⟨e1, e2, -⟩ := hp.edge i s hi
  obtain ⟨a, o, ha⟩ := hpl _ (List.mem_of_getElem? e1)
  obtain ⟨c, d, hc⟩ := hpl _ (List.mem_of_getElem? e2)
  exact ⟨⟨a, o, c, d, ha, hc, hle s hs a o c d ha hc⟩, hp.measure s hs⟩

/-- **C84, segments.** The point at `m` metres along a segment. -/
theorem along_segment [MathLib] (L : Library) (A : Accurate) (T : Arctan) (segs : List (Segment F64)) (h : Drawn segs)
    (s : Segment F64) (hs : s ∈ segs) (meters : F64) (m : ℚ) (hm : Is meters m) (m0 : 0 ≤ m)
    (hle : (meters <=. s.dist) = true) : NearLine s.pointA s.pointB (s.destinationTo meters) m := by
  obtain ⟨⟨a, o, c, d, pa, pb, hD⟩, e1, e2⟩ := drawn_segment h hs
  obtain ⟨D, hD', -⟩ := micrometre L A _ _ _ _ a o c d ⟨pa.lat, pa.lon, pb.lat, pb.lon,
    ⟨pa.lat_range.trans (by norm_num), abs_le.mpr ⟨pa.lon_range.1, pa.lon_range.2.le⟩⟩,
    ⟨pb.lat_range.trans (by norm_num), abs_le.mpr ⟨pb.lon_range.1, pb.lon_range.2.le⟩⟩⟩ (hD.trans (by norm_num))
  have hmD : m ≤ D := by
    rw [e1] at hle
    obtain ⟨m', h1, -, h3⟩ := finite_of_le hD' hle ((not_neg hm).mpr m0)
    rwa [is_unique hm h1]
  obtain ⟨p, q, hp, hq, -, -, k, P, -, -, -, k1, k2, k3, k4⟩ := segment_near L A T pa.lat pa.lon pb.lat pb.lon pa.lat_range pa.lon_range
    pb.lat_range pb.lon_range hD hm m0 hD' hmD
  rw [← e2] at hp hq
  exact ⟨a, o, c, d, p, q, pa.lat, pa.lon, pb.lat, pb.lon, hp, hq, P.lat, P.lon, by rw [k2, k3]; ring, by rw [k2]; exact k1, k4⟩

/-- **C84, two points of a segment.** Points at `m` and `m'` metres along a segment are `|m - m'|` metres apart, up to a tenth of a
millimetre. -/
theorem segment_apart [MathLib] (L : Library) (A : Accurate) (T : Arctan) (segs : List (Segment F64)) (h : Drawn segs)
    (s : Segment F64) (hs : s ∈ segs) (meters meters' : F64) (m m' : ℚ) (hm : Is meters m) (m0 : 0 ≤ m)
    (hle : (meters <=. s.dist) = true) (hm' : Is meters' m') (m0' : 0 ≤ m') (hle' : (meters' <=. s.dist) = true) :
    ∃ u v u' v' : ℚ, Is (s.destinationTo meters).lat u ∧ Is (s.destinationTo meters).lon v ∧
      Is (s.destinationTo meters').lat u' ∧ Is (s.destinationTo meters').lon v' ∧
      |exact u v u' v' - (|(m : ℝ) - m'|)| ≤ 7 / 10 ^ 5 := by
  obtain ⟨⟨a, o, c, d, pa, pb, hD⟩, e1, e2⟩ := drawn_segment h hs
  obtain ⟨D, hD', -⟩ := micrometre L A _ _ _ _ a o c d ⟨pa.lat, pa.lon, pb.lat, pb.lon,
    ⟨pa.lat_range.trans (by norm_num), abs_le.mpr ⟨pa.lon_range.1, pa.lon_range.2.le⟩⟩,
    ⟨pb.lat_range.trans (by norm_num), abs_le.mpr ⟨pb.lon_range.1, pb.lon_range.2.le⟩⟩⟩ (hD.trans (by norm_num))
  have hmD : ∀ (f : F64) (k : ℚ), Is f k → 0 ≤ k → (f <=. s.dist) = true → k ≤ D := by
    intro f k hk k0 hle
    rw [e1] at hle
    obtain ⟨m', h1, -, h3⟩ := finite_of_le hD' hle ((not_neg hk).mpr k0)
    rwa [is_unique hk h1]
  obtain ⟨p, q, hp, hq, -, -, k, P, hP, k0, kE, k1, k2, k3, k4⟩ := segment_near L A T pa.lat pa.lon pb.lat pb.lon pa.lat_range
    pa.lon_range pb.lat_range pb.lon_range hD hm m0 hD' (hmD _ _ hm m0 hle)
  obtain ⟨p', q', hp', hq', -, -, k', P', hP', k0', kE', k1', k2', k3', k4'⟩ := segment_near L A T pa.lat pa.lon pb.lat pb.lon
    pa.lat_range pa.lon_range pb.lat_range pb.lon_range hD hm' m0' hD' (hmD _ _ hm' m0' hle')
  rw [← e2] at hp hq hp' hq'
  refine ⟨p, q, p', q', hp, hq, hp', hq', ?_⟩
  have ap : exact P.lat P.lon P'.lat P'.lon = |k - k'| := by
    have ha := abs_le.mp (show |(a : ℝ)| ≤ 80 by exact_mod_cast pa.lat_range)
    have pi1 := Real.pi_gt_three
    rw [hP, hP', exact_distance]
    exact C80.destination_apart _ _ _ _ _ ⟨by linarith [ha.1], by linarith [ha.2]⟩ (by rw [abs_le]; constructor <;> linarith)
  have t1 := exact_triangle (p : ℝ) q P.lat P.lon p' q'
  have t2 := exact_triangle P.lat P.lon P'.lat P'.lon p' q'
  have t3 := exact_triangle P.lat P.lon p q P'.lat P'.lon
  have t4 := exact_triangle (p : ℝ) q p' q' P'.lat P'.lon
  rw [exact_comm P.lat P.lon p q] at t1
  rw [exact_comm P'.lat P'.lon p' q'] at t4
  have d1 := abs_abs_sub_abs_le_abs_sub (k - k') ((m : ℝ) - m')
  have d2 : |k - k' - ((m : ℝ) - m')| ≤ 2 / 10 ^ 6 := by
    have e : k - k' - ((m : ℝ) - m') = (k - m) - (k' - m') := by ring
    rw [e]
    exact (abs_sub _ _).trans (by linarith)
  have d3 := abs_le.mp (d1.trans d2)
  rw [ap] at t2 t3
  rw [abs_le]
  constructor <;> linarith [d3.1, d3.2]

/-- Any history of a navigator in doubles: moves, jumps, offline periods, changes of its routes and tracks; all tracks are drawn and
no step goes backwards. -/
abbrev Reach [MathLib] : Navigator F64 → Prop := Held.Reach Drawn Forward

/-- A successful step of a navigator whose tracks are drawn and that has not travelled backwards. -/
theorem step_near_line [MathLib] (L : Library) (A : Accurate) (T : Arctan) (n n' : Navigator F64) (hd : Held.Holds Drawn n)
    (h0 : (n.currentSegmentDistance <. lit 0) = false)
    (tick speed : F64) (x : UInt32) (hs : Forward tick speed) (hn : n.nextLocation tick speed x = .ok (n', true)) :
    ∃ s, C09.Addressed n' s ∧
      (First n n' → (lit 1 <=. s.dist) = true → NearLine s.pointA s.pointB n'.point 1) ∧
      (¬ First n n' → ∃ m : ℚ, Is n'.currentSegmentDistance m ∧ 0 ≤ m ∧ NearLine s.pointA s.pointB n'.point m) := by
  obtain ⟨s, ha, -, hle, hcs, hpt⟩ := C09.position_within_segment n n' tick speed x hn
  have hroutes : n'.routes = n.routes := (nextLocation_routes hn).1
  have hmem : ∃ segs, Drawn segs ∧ s ∈ segs := by
    obtain ⟨r, t, -, a2, -, a4, -, a6⟩ := ha
    rw [hroutes] at a2
    exact ⟨_, hd r (List.mem_of_getElem? a2) t (List.mem_of_getElem? a4), List.mem_of_getElem? a6⟩
  obtain ⟨segs, hdr, hm⟩ := hmem
  have h1 : (n'.currentSegmentDistance <. lit 0) = false := by
    rw [hcs]
    split
    · exact add_not_neg h0 hs
    · exact add_not_neg ((not_neg lit_zero).mpr le_rfl) hs
  have hone : Is (lit 1 : F64) 1 := one_is
  refine ⟨s, ha, ?_, ?_⟩
  · intro hf h1d
    rcases hpt with ⟨-, -, -, hpt⟩ | ⟨f, -⟩
    · rw [hpt]
      exact along_segment L A T segs hdr s hm _ 1 hone (by norm_num) h1d
    · exact absurd hf f
  · intro hf
    rcases hpt with ⟨f1, f2, f3, -⟩ | ⟨-, hpt⟩
    · exact absurd ⟨f1, f2, f3⟩ hf
    · obtain ⟨⟨a, o, c, d, pa, pb, hD⟩, e1, -⟩ := drawn_segment hdr hm
      obtain ⟨D, hD', -⟩ := micrometre L A _ _ _ _ a o c d ⟨pa.lat, pa.lon, pb.lat, pb.lon,
        ⟨pa.lat_range.trans (by norm_num), abs_le.mpr ⟨pa.lon_range.1, pa.lon_range.2.le⟩⟩,
        ⟨pb.lat_range.trans (by norm_num), abs_le.mpr ⟨pb.lon_range.1, pb.lon_range.2.le⟩⟩⟩ (hD.trans (by norm_num))
      rw [← e1] at hD'
      obtain ⟨m, hm1, hm0, -⟩ := finite_of_le hD' hle h1
      refine ⟨m, hm1, hm0, ?_⟩
      rw [hpt]
      exact along_segment L A T segs hdr s hm _ m hm1 hm0 hle

/-- **C84 (partial).** In every history: after every successful step the device is within 1/30000 m of the point of its current
segment that is at the travelled distance from its start; after the first step on a track the distance is 1 m.

Missing for the full property: tracks beyond 80 degrees latitude (false at the poles, `claim_fails`), segments of more than 500 km,
and the first step on a segment shorter than 1 m (false, `C80.claim_fails`). -/
theorem device_near_line_partial [MathLib] (L : Library) (A : Accurate) (T : Arctan) (n n' : Navigator F64) (h : Reach n)
    (tick speed : F64) (x : UInt32) (hs : Forward tick speed) (hn : n.nextLocation tick speed x = .ok (n', true)) :
    ∃ s, C09.Addressed n' s ∧
      (First n n' → (lit 1 <=. s.dist) = true → NearLine s.pointA s.pointB n'.point 1) ∧
      (¬ First n n' → ∃ m : ℚ, Is n'.currentSegmentDistance m ∧ 0 ≤ m ∧ NearLine s.pointA s.pointB n'.point m) := by
  obtain ⟨hd, h0⟩ := Held.reach_held (Q := fun d => (d <. lit 0) = false) ((not_neg lit_zero).mpr le_rfl) abs_not_neg
    (fun d t s hd hts => add_not_neg hd hts) h
  exact step_near_line L A T n n' hd h0 tick speed x hs hn

/-- **C84, consecutive positions (partial).** In every history: of two successful steps in a row on the same segment, none of which puts the
device on its track, the second moves the device by tick × speed metres, up to a tenth of a millimetre.

Missing for the full property: as for `device_near_line_partial`; steps across the end of a segment, which are longer (C55). -/
theorem steps_apart_partial [MathLib] (L : Library) (A : Accurate) (T : Arctan) (n n' n'' : Navigator F64) (h : Reach n)
    (t v t' v' : F64) (x x' : UInt32) (hs : Forward t v) (h1 : n.nextLocation t v x = .ok (n', true)) (hf : ¬ First n n')
    (p q : ℚ) (ht : Is t' p) (hv : Is v' q) (h0 : 0 ≤ p * q) (h2 : n'.nextLocation t' v' x' = .ok (n'', true)) (hf' : ¬ First n' n'')
    (hsame : n''.segmentIndex = n'.segmentIndex) :
    ∃ a b c d : ℚ, Is n'.point.lat a ∧ Is n'.point.lon b ∧ Is n''.point.lat c ∧ Is n''.point.lon d ∧
      |exact a b c d - p * q| ≤ 1 / 10 ^ 4 := by
  obtain ⟨hd, h00⟩ := Held.reach_held (Q := fun d => (d <. lit 0) = false) ((not_neg lit_zero).mpr le_rfl) abs_not_neg
    (fun d t s hd hts => add_not_neg hd hts) h
  obtain ⟨s, ha, -, hle, hcs, hpt⟩ := C09.position_within_segment n n' t v x h1
  obtain ⟨s2, ha2, -, hle2, -, hpt2⟩ := C09.position_within_segment n' n'' t' v' x' h2
  obtain ⟨k1, -, k2, k3, -, -, -, k4⟩ := C55.step_counts n' n'' t' v' x' h2
  have hroutes : n'.routes = n.routes := (nextLocation_routes h1).1
  have hc2 : n''.currentSegmentDistance = n'.currentSegmentDistance +. (t' *. v') := by
    rcases k4 with k4 | k4
    · exact k4.2
    · omega
  have hss : s2 = s := by
    obtain ⟨r, u, -, a2, -, a4, -, a6⟩ := ha
    obtain ⟨r', u', -, b2, -, b4, -, b6⟩ := ha2
    rw [k1, k2] at b2
    cases a2.symm.trans b2
    rw [k3] at b4
    cases a4.symm.trans b4
    rw [hsame] at b6
    cases a6.symm.trans b6
    rfl
  subst hss
  have hmem : ∃ segs, Drawn segs ∧ s2 ∈ segs := by
    obtain ⟨r, t, -, a2, -, a4, -, a6⟩ := ha
    rw [hroutes] at a2
    exact ⟨_, hd r (List.mem_of_getElem? a2) t (List.mem_of_getElem? a4), List.mem_of_getElem? a6⟩
  obtain ⟨segs, hdr, hm⟩ := hmem
  have n1 : (n'.currentSegmentDistance <. lit 0) = false := by
    rw [hcs]
    split
    · exact add_not_neg h00 hs
    · exact add_not_neg ((not_neg lit_zero).mpr le_rfl) hs
  obtain ⟨⟨a, o, c, d, pa, pb, hD⟩, e1, -⟩ := drawn_segment hdr hm
  obtain ⟨D, hD', -, hD2⟩ := micrometre L A _ _ _ _ a o c d ⟨pa.lat, pa.lon, pb.lat, pb.lon,
    ⟨pa.lat_range.trans (by norm_num), abs_le.mpr ⟨pa.lon_range.1, pa.lon_range.2.le⟩⟩,
    ⟨pb.lat_range.trans (by norm_num), abs_le.mpr ⟨pb.lon_range.1, pb.lon_range.2.le⟩⟩⟩ (hD.trans (by norm_num))
  rw [← e1] at hD'
  have hDle : (D : ℝ) ≤ 500001 := by have := (abs_lt.mp hD2).2; linarith
  obtain ⟨m, hm1, hm0, hmD⟩ := finite_of_le hD' hle n1
  have hmr : (m : ℝ) ≤ 500001 := le_trans (by exact_mod_cast hmD) hDle
  have hm0r : (0 : ℝ) ≤ m := by exact_mod_cast hm0
  have h0r : (0 : ℝ) ≤ p * q := by exact_mod_cast h0
  have hpoint' : n'.point = s2.destinationTo n'.currentSegmentDistance := by
    rcases hpt with ⟨f1, f2, f3, -⟩ | ⟨-, hpt⟩
    · exact absurd ⟨f1, f2, f3⟩ hf
    · exact hpt
  have hpoint'' : n''.point = s2.destinationTo n''.currentSegmentDistance := by
    rcases hpt2 with ⟨f1, f2, f3, -⟩ | ⟨-, hpt⟩
    · exact absurd ⟨f1, f2, f3⟩ hf'
    · exact hpt
  have hd2 : ((t' *. v') <. lit 0) = false := by
    obtain ⟨s, r, rfl⟩ := ht
    obtain ⟨u, r', rfl⟩ := hv
    rw [fin_mul]
    unfold F64.round
    split_ifs with hr
    · exact (not_neg ⟨_, _, rfl⟩).mpr (Round64.rndQ_nonneg h0)
    · obtain ⟨_, _, e⟩ := lit_zero
      have : sgn (s != u) (p * q) = false := by
        unfold sgn
        split_ifs with hz
        · exfalso
          rw [hz, Round64.rndQ_zero] at hr
          exact hr (by rw [abs_zero]; unfold Round64.pow2; positivity)
        · simp; linarith
      rw [this, e]
      rfl
  obtain ⟨m2, hm2, hm20, hm2D⟩ := finite_of_le hD' hle2 (by rw [hc2]; exact add_not_neg n1 hd2)
  have hm2r : (m2 : ℝ) ≤ 500001 := le_trans (by exact_mod_cast hm2D) hDle
  rw [hc2] at hm2
  obtain ⟨e, he, he0, hem⟩ := summand_le hm1 hm0 hd2 hm2
  have her : (e : ℝ) ≤ 500001 := le_trans (by exact_mod_cast hem) hm2r
  have heq : e ≤ 500001 := by exact_mod_cast her
  have hpq := product_le ht hv he (by linarith)
  obtain ⟨e', he', rnd1⟩ := mul_rnd ht hv (by rw [abs_of_nonneg h0]; exact hpq)
  obtain rfl := is_unique he he'
  obtain ⟨m2', hm2', rnd2⟩ := add_rnd hm1 he (by rw [abs_of_nonneg (by linarith)]; exact_mod_cast (show (m : ℝ) + e ≤ 2 ^ 30 by linarith))
  obtain rfl := is_unique hm2 hm2'
  have he0r : (0 : ℝ) ≤ e := by exact_mod_cast he0
  have g1 : |(e : ℝ) - p * q| ≤ 1 / 10 ^ 6 := by
    have := rnd_le rnd1 (X := 2 ^ 30) (by rw [abs_of_nonneg h0r]; exact_mod_cast hpq)
    refine this.trans ?_
    unfold uu et
    norm_num
  have g2 : |(m2 : ℝ) - (m + e)| ≤ 1 / 10 ^ 6 := by
    have := rnd_le rnd2 (X := 2 ^ 30) (by rw [abs_of_nonneg (by linarith)]; linarith)
    refine this.trans ?_
    unfold uu et
    norm_num
  rw [← hc2] at hm2
  obtain ⟨u, w, u', w', i1, i2, i3, i4, i5⟩ := segment_apart L A T segs hdr s2 hm _ _ m m2 hm1 hm0 hle hm2 hm20 hle2
  rw [hpoint', hpoint'']
  refine ⟨u, w, u', w', i1, i2, i3, i4, ?_⟩
  have g3 : |(|(m : ℝ) - m2|) - p * q| ≤ 2 / 10 ^ 6 := by
    have a1 := abs_abs_sub_abs_le_abs_sub ((m2 : ℝ) - m) (p * q)
    rw [abs_of_nonneg h0r, abs_sub_comm (m2 : ℝ) m] at a1
    refine a1.trans ?_
    have e1 : (m2 : ℝ) - m - p * q = (m2 - (m + e)) + (e - p * q) := by ring
    rw [e1]
    exact (abs_add_le _ _).trans (by linarith)
  obtain ⟨a1, a2⟩ := abs_le.mp i5
  obtain ⟨b1, b2⟩ := abs_le.mp g3
  rw [abs_le]
  constructor <;> linarith

/-! ## The north pole

1436.972 km to the north from 77.077 N: the sum that should be at most 1 is above it. -/

theorem go_sum : ((GoTrig.sin (lit (77077 / 1000) *. rr) *. GoTrig.cos (lit 1436972 /. lit 6371000) +.
    GoTrig.cos (lit (77077 / 1000) *. rr) *. GoTrig.sin (lit 1436972 /. lit 6371000) *. GoTrig.cos (lit 0 *. rr) : F64)) =
    lit (4503599627370497 / 4503599627370496) := by decide +kernel

/-- **C84, poles.** With Go's sine and cosine, the latitude of this destination is not a number. -/
theorem pole_nan [MathLib] (G : GoLibrary) (lon : F64) : (destination (lit (77077 / 1000) : F64) lon (lit 1436972) (lit 0)).lat = .nan := by
  obtain ⟨q1, i1, j1⟩ := small_is (x := lit (77077 / 1000) *. rr) (by decide +kernel)
  obtain ⟨q2, i2, j2⟩ := small_is (x := lit 1436972 /. lit 6371000) (by decide +kernel)
  obtain ⟨q3, i3, j3⟩ := small_is (x := lit 0 *. rr) (by decide +kernel)
  have e : (MathLib.sin (lit (77077 / 1000) *. rr) *. MathLib.cos (lit 1436972 /. lit 6371000) +.
      MathLib.cos (lit (77077 / 1000) *. rr) *. MathLib.sin (lit 1436972 /. lit 6371000) *. MathLib.cos (lit 0 *. rr) : F64) =
      lit (4503599627370497 / 4503599627370496) := by
    rw [← go_sum, G.sin_go _ _ i1 j1, G.cos_go _ _ i1 j1, G.sin_go _ _ i2 j2, G.cos_go _ _ i2 j2, G.cos_go _ _ i3 j3]
  have hr : Round64.rndQ (4503599627370497 / 4503599627370496) = 4503599627370497 / 4503599627370496 := by decide +kernel
  have hq : Is (lit (4503599627370497 / 4503599627370496) : F64) (4503599627370497 / 4503599627370496) := by
    have := (rnd_fin false (q := 4503599627370497 / 4503599627370496) (by norm_num)).1
    rw [hr] at this
    exact this
  show MathLib.asin (MathLib.sin (lit (77077 / 1000) *. rr) *. MathLib.cos (lit 1436972 /. lit 6371000) +.
      MathLib.cos (lit (77077 / 1000) *. rr) *. MathLib.sin (lit 1436972 /. lit 6371000) *. MathLib.cos (lit 0 *. rr)) *. degrees =
    (.nan : F64)
  rw [e, G.asin_nan _ _ hq (by norm_num)]
  rfl

/-- The full claim fails with Go's library. -/
theorem claim_fails [MathLib] (G : GoLibrary) : ¬ Claim := by
  intro h
  have hm : Is (lit 1436972 : F64) 1436972 := by
    obtain ⟨r, e⟩ := lit_nat (q := 1436972) 1436972 (by norm_num) (by norm_num) (by norm_num)
    exact ⟨_, r, e⟩
  obtain ⟨p, q, ⟨s, r, e⟩, -⟩ := h _ (lit 0) _ _ _ _ _ _ (lit_is (n := 77077) (d := 1000) (by norm_num)) lit_zero hm lit_zero
    (rndQ_abs_le (n := 90) (by norm_num) (by norm_num)) (by norm_num) (by norm_num) (by norm_num) (by norm_num) (by norm_num)
  rw [pole_nan G] at e
  cases e

/-! ## Examples -/

theorem ideal_arctan : @Arctan ideal := by
  refine @Arctan.mk ideal ?_
  rintro y x p q ⟨s, r, rfl⟩ ⟨t, r', rfl⟩
  have h1 : |Complex.arg ⟨q, p⟩| ≤ 4 := (Complex.abs_arg_le_pi _).trans Real.pi_le_four
  obtain ⟨v, a, b, -, c⟩ := round_app s (y := Complex.arg ⟨q, p⟩) (n := 4) (by exact_mod_cast h1) (by norm_num)
  refine ⟨v, a, by exact_mod_cast b, fun _ => Turn.of_abs (c.trans ?_)⟩
  have : |Complex.arg ⟨q, p⟩| * (1 / 2 ^ 53) ≤ 4 * (1 / 2 ^ 53) := mul_le_mul_of_nonneg_right h1 (by norm_num)
  refine (add_le_add_left this _).trans ?_
  norm_num

section
attribute [local instance] ideal

/-- The segment from (0, 0) to (0, 1), as `NewTrack` makes it. -/
noncomputable def side : Segment F64 := ⟨⟨lit 0, lit 0⟩, ⟨lit 0, lit 1⟩, distance (lit 0) (lit 0) (lit 0) (lit 1),
  bearing (lit 0) (lit 0) (lit 0) (lit 1), 0, -1⟩

/-- The track. -/
noncomputable def sideTrack : Track F64 := ⟨"t", [side], "#000000", "", none, lit 0 +. side.dist, false, 0⟩

/-- A route with this track. -/
noncomputable def sideRoute : Route F64 := ⟨"r", lit 0 +. sideTrack.dist, "#000000", "", [sideTrack], none, 1⟩

theorem sideTrack_new : Track.new "t" "#000000" [⟨lit 0, lit 0⟩, ⟨lit 0, lit 1⟩] = .ok sideTrack := rfl

theorem side_exact : exact ((0 : ℚ) : ℝ) (0 : ℚ) (0 : ℚ) (1 : ℚ) = 6371000 * (Real.pi / 180) := by
  unfold exact
  rw [← C46.distance_angle]
  push_cast
  rw [distance_equator _ _ (by norm_num)]
  simp [degLen]

theorem side_drawn : Drawn sideTrack.segments := by
  obtain ⟨t, h1, -, -, h2, -⟩ := (C01.newTrack_polyline (F := F64) "t" "#000000" [⟨lit 0, lit 0⟩, ⟨lit 0, lit 1⟩]).1 (by simp)
  rw [sideTrack_new] at h1
  cases h1
  refine ⟨_, h2, ?_, ?_⟩
  · intro p hp
    simp only [List.mem_cons, List.not_mem_nil, or_false] at hp
    rcases hp with rfl | rfl
    · exact ⟨0, 0, lit_zero, lit_zero, by norm_num, by norm_num⟩
    · exact ⟨0, 1, lit_zero, one_is, by norm_num, by norm_num⟩
  · intro s hs a o c d ha hc
    have hs : s = side := List.mem_singleton.mp hs
    subst hs
    rw [is_unique ha.lat lit_zero, is_unique ha.lon lit_zero, is_unique hc.lat lit_zero, is_unique hc.lon one_is, side_exact]
    have := Real.pi_le_four
    linarith

theorem side_dist : ∃ D : ℚ, Is side.dist D ∧ 110000 ≤ D := by
  obtain ⟨v, hv, -, hv2⟩ := micrometre ideal_library ideal_accurate (lit 0) (lit 0) (lit 0) (lit 1) 0 0 0 1
    ⟨lit_zero, lit_zero, lit_zero, one_is, by norm_num, by norm_num⟩ (by rw [side_exact]; have := Real.pi_le_four; linarith)
  rw [side_exact] at hv2
  refine ⟨v, hv, ?_⟩
  have h1 := (abs_lt.mp hv2).1
  have h2 := Real.pi_gt_d2
  have : (110000 : ℝ) ≤ v := by norm_num at h2 ⊢; linarith
  exact_mod_cast this

theorem le_of_is {x y : F64} {p q : ℚ} (hx : Is x p) (hy : Is y q) (h : p ≤ q) : (x <=. y) = true := by
  obtain ⟨s, r, rfl⟩ := hx
  obtain ⟨t, r', rfl⟩ := hy
  show (decide (p < q) || decide (p = q)) = true
  rcases h.lt_or_eq with h | h <;> simp [h]

theorem small_nat (k : ℕ) (h : k ≤ 2 ^ 53 := by norm_num) : Is (lit (k : ℚ) : F64) k := by
  obtain ⟨r, e⟩ := lit_nat (q := (k : ℚ)) k (by norm_num) (by exact_mod_cast h) (by positivity)
  exact ⟨_, r, e⟩

theorem c5 : (lit 0 +. (lit 5 *. lit 1) : F64) = lit 5 := by decide +kernel
theorem c23 : (lit 12 +. (lit 11 *. lit 1) : F64) = lit 23 := by decide +kernel
theorem c12 : (lit 5 +. (lit 7 *. lit 1) : F64) = lit 12 := by decide +kernel

/-- The point 1000 m along it. -/
example : NearLine ⟨lit 0, lit 0⟩ ⟨lit 0, lit 1⟩ (side.destinationTo (lit 1000)) 1000 := by
  obtain ⟨D, h, hD⟩ := side_dist
  have h1 : Is (lit 1000 : F64) 1000 := by exact_mod_cast small_nat 1000
  exact along_segment ideal_library ideal_accurate ideal_arctan _ side_drawn side List.mem_cons_self (lit 1000) 1000 h1 (by norm_num)
    (le_of_is h1 h (by linarith))

/-- 1000 m to the east of (0, 0). -/
example : ∃ p q : ℚ, Is (destination (lit 0) (lit 0) (lit 1000) (lit 90)).lat p ∧
    Is (destination (lit 0) (lit 0) (lit 1000) (lit 90)).lon q ∧ |exact 0 0 p q - 1000| ≤ 1 / 50000 := by
  have h1 : Is (lit 1000 : F64) 1000 := by exact_mod_cast small_nat 1000
  have h2 : Is (lit 90 : F64) 90 := by exact_mod_cast small_nat 90
  have := requested_distance_partial ideal_accurate ideal_arctan (lit 0) (lit 0) (lit 1000) (lit 90) 0 0 1000 90 lit_zero lit_zero h1 h2
    (by norm_num) (by norm_num) (by norm_num) (by norm_num)
  simpa using this

/-- A new navigator is given the route, then moves by 5 m, by 7 m and by 11 m. -/
theorem side_drive : ∃ n0 n1 n n' : Navigator F64, Navigator.new "" (fun _ => lit 0) [.skipOffline] = .ok n0 ∧
    n0.addRoute [some sideRoute] = (n1, none) ∧ n1.routes.length ≠ n0.routes.length ∧
    (n1.routes = [sideRoute] ∧ n1.routeIndex = 0 ∧ n1.trackIndex = 0 ∧ n1.segmentIndex = 0 ∧ n1.currentSegmentDistance = lit 0) ∧
    n1.nextLocation (lit 5) (lit 1) 0 = .ok (n, true) ∧ n.nextLocation (lit 7) (lit 1) 0 = .ok (n', true) ∧
    n = n1.land (lit 5 *. lit 1) ∧ n' = n.land (lit 7 *. lit 1) ∧
    n'.nextLocation (lit 11) (lit 1) 0 = .ok (n'.land (lit 11 *. lit 1), true) := by
  obtain ⟨D, hD, hD1⟩ := side_dist
  have hne : side.isEmpty = false := by
    obtain ⟨s, r, e⟩ := hD
    obtain ⟨t, r', e'⟩ := lit_zero
    show (side.dist ==. lit 0) = false
    rw [e, e', fin_eq]
    simp
    intro h; linarith
  obtain ⟨n0, h0⟩ : ∃ n0 : Navigator F64, Navigator.new "" (fun _ => lit 0) [.skipOffline] = .ok n0 := by
    have : (match Navigator.new (F := F64) "" (fun _ => lit 0) [.skipOffline] with | .ok _ => true | .error _ => false) = true := by
      decide +kernel
    split at this
    · exact ⟨_, by assumption⟩
    · cases this
  obtain ⟨o1, o2, s, k1, k2, -, e0⟩ := new_cases h0
  have hskip : o2.skipOffline = true := by rw [(validateElevation_frame k2).1, (validateOffline_frame k1).1]; rfl
  obtain ⟨n1, h1⟩ : ∃ n1, n0.addRoute [some sideRoute] = (n1, none) := by subst e0; exact ⟨_, rfl⟩
  have f1 : n1.routes = [sideRoute] ∧ n1.routeIndex = 0 ∧ n1.trackIndex = 0 ∧ n1.segmentIndex = 0 ∧ n1.skipOffline = true ∧
      n1.currentSegmentDistance = lit 0 ∧ n1.routes.length ≠ n0.routes.length := by
    subst e0
    cases h1
    exact ⟨rfl, rfl, rfl, rfl, hskip, rfl, by simp [newState, reset, resetIndexes, nextVersion, calcRouteDistance]⟩
  have more : ∀ (m : Navigator F64) (d : F64) (k : ℚ), m.routes = [sideRoute] → m.routeIndex = 0 → m.trackIndex = 0 →
      m.segmentIndex = 0 → m.skipOffline = true → Is (m.currentSegmentDistance +. (d *. lit 1)) k → k ≤ 100 →
      m.nextLocation d (lit 1) 0 = .ok (m.land (d *. lit 1), true) := by
    intro m d k e1 e2 e3 e4 e5 e6 e7
    have hseg : m.seg? = some side := by
      unfold seg? track? route?
      rw [e1, e2, e3, e4]
      rfl
    have hcur : m.curSeg = side := by simp [curSeg, hseg, hne]
    refine nextLocation_land _ _ _ _ sideRoute (by unfold route?; rw [e1, e2]; rfl) ?_ ⟨by rw [hcur]; exact hne, ?_⟩
    · simp [nextOffline, e5]
    · rw [hcur]
      exact le_of_is e6 hD (by linarith)
  have i5 : Is (lit 5 : F64) 5 := by exact_mod_cast small_nat 5
  have i12 : Is (lit 12 : F64) 12 := by exact_mod_cast small_nat 12
  obtain ⟨g1, g2, g3, g4, g5, g6, g7⟩ := f1
  have s1 := more n1 (lit 5) 5 g1 g2 g3 g4 g5 (by rw [g6, c5]; exact i5) (by norm_num)
  have cn : (n1.land (lit 5 *. lit 1)).currentSegmentDistance = lit 5 := by
    have : (n1.land (lit 5 *. lit 1)).currentSegmentDistance = n1.currentSegmentDistance +. (lit 5 *. lit 1) := rfl
    rw [this, g6, c5]
  have s2 := more (n1.land (lit 5 *. lit 1)) (lit 7) 12 g1 g2 g3 g4 g5 (by rw [cn, c12]; exact i12) (by norm_num)
  have cm : ((n1.land (lit 5 *. lit 1)).land (lit 7 *. lit 1)).currentSegmentDistance = lit 12 := by
    have : ((n1.land (lit 5 *. lit 1)).land (lit 7 *. lit 1)).currentSegmentDistance =
      (n1.land (lit 5 *. lit 1)).currentSegmentDistance +. (lit 7 *. lit 1) := rfl
    rw [this, cn, c12]
  have s3 := more ((n1.land (lit 5 *. lit 1)).land (lit 7 *. lit 1)) (lit 11) 23 g1 g2 g3 g4 g5
    (by rw [cm, c23]; exact_mod_cast small_nat 23) (by norm_num)
  exact ⟨n0, n1, _, _, h0, h1, g7, ⟨g1, g2, g3, g4, g6⟩, s1, s2, rfl, rfl, s3⟩

/-- It is then 12 m along the segment, and moves by 11 m. -/
example : ∃ n n' n'' : Navigator F64, Reach n ∧ n.nextLocation (lit 7) (lit 1) 0 = .ok (n', true) ∧
    n'.nextLocation (lit 11) (lit 1) 0 = .ok (n'', true) ∧ NearLine ⟨lit 0, lit 0⟩ ⟨lit 0, lit 1⟩ n'.point 12 ∧
    ∃ a b c d : ℚ, Is n'.point.lat a ∧ Is n'.point.lon b ∧ Is n''.point.lat c ∧ Is n''.point.lon d ∧
      |exact a b c d - 11| ≤ 1 / 10 ^ 4 := by
  obtain ⟨n0, n1, n, n', h0, h1, -, ⟨g1, g2, g3, g4, g6⟩, s1, s2, hn, hn', s3⟩ := side_drive
  have i12 : Is (lit 12 : F64) 12 := by exact_mod_cast small_nat 12
  have r1 : Reach n1 := .step (op := .addRoute [some sideRoute]) (.init h0) (by
    intro r hr t ht
    simp only [List.mem_singleton, Option.some.injEq] at hr
    subst hr
    have : t = sideTrack := List.mem_singleton.mp ht
    subst this
    exact side_drawn) (by simp [Navigator.step, h1])
  have w5 : Forward (lit 5) (lit 1) := by show ((lit 5 *. lit 1 : F64) <. lit 0) = false; decide +kernel
  have w7 : Forward (lit 7) (lit 1) := by show ((lit 7 *. lit 1 : F64) <. lit 0) = false; decide +kernel
  have r2 : Reach n := .step (op := .nextLocation (lit 5) (lit 1) 0) r1 w5 (by simp only [Navigator.step, s1]; rfl)
  refine ⟨n, n', _, r2, s2, s3, ?_⟩
  obtain ⟨s, ha, -, hm⟩ := device_near_line_partial ideal_library ideal_accurate ideal_arctan n n' r2 _ _ _ w7 s2
  have cn : n.currentSegmentDistance = lit 5 := by
    have : n.currentSegmentDistance = n1.currentSegmentDistance +. (lit 5 *. lit 1) := by rw [hn]; rfl
    rw [this, g6, c5]
  have nf : ¬ First n n' := by
    intro hf
    have : ((lit 5 : F64) ==. lit 0) = false := by decide +kernel
    rw [← cn, hf.2.2] at this
    cases this
  obtain ⟨m, hm1, -, hm2⟩ := hm nf
  have cm : n'.currentSegmentDistance = lit 12 := by
    have : n'.currentSegmentDistance = n.currentSegmentDistance +. (lit 7 *. lit 1) := by rw [hn']; rfl
    rw [this, cn, c12]
  rw [cm] at hm1
  rw [is_unique hm1 i12] at hm2
  have hs : s = side := by
    obtain ⟨r, t, -, a2, -, a4, -, a6⟩ := ha
    have b1 : n'.routes = [sideRoute] := by rw [hn', hn]; exact g1
    have b2 : n'.routeIndex = 0 := by rw [hn', hn]; exact g2
    have b3 : n'.trackIndex = 0 := by rw [hn', hn]; exact g3
    have b4 : n'.segmentIndex = 0 := by rw [hn', hn]; exact g4
    rw [b1, b2] at a2
    cases a2
    rw [b3] at a4
    cases a4
    rw [b4] at a6
    cases a6
    rfl
  subst hs
  refine ⟨hm2, ?_⟩
  have nf' : ¬ First n' (n'.land (lit 11 *. lit 1)) := by
    intro hf
    have : ((lit 12 : F64) ==. lit 0) = false := by decide +kernel
    rw [← cm, hf.2.2] at this
    cases this
  have := steps_apart_partial ideal_library ideal_accurate ideal_arctan n n' _ r2 _ _ _ _ _ _ w7 s2 nf 11 1
    (by exact_mod_cast small_nat 11) one_is (by norm_num) s3 nf' rfl
  simpa using this

end

end C84
end GpsGen
