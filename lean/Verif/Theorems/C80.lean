import Verif.Theorems.C01
import Verif.Theorems.C55
import Verif.Theorems.C22
import Verif.Lemmas.Jump
/-!
# C80: a moving device is on its line

Exact arithmetic; any history of a navigator (moves, jumps, changes of its routes) whose tracks are polylines of points
away from the poles and whose steps do not go backwards. After a successful step the device is on the shortest line
between the ends of its current segment, at the travelled distance from its start, and consecutive positions are as far
apart on the ground as they should be. The first step on a track is different: it always ends 1 m behind the start, and
misses the line if the segment is shorter (`claim_fails`).
-/

namespace GpsGen
namespace C80
open Real Navigator

/-! ## Specification -/

/-- The distance in metres between two points on the ground. -/
noncomputable def gap (p q : LatLon ℝ) : ℝ := distance p.lat p.lon q.lat q.lon

/-- `p` is on the shortest line from `a` to `b`: going over `p` is no detour. -/
def OnLine (a b p : LatLon ℝ) : Prop := gap a p + gap p b = gap a b

/-- Every track the navigator holds is the polyline of points away from the poles. -/
def Drawn (n : Navigator ℝ) : Prop := ∀ r ∈ n.routes, ∀ t ∈ r.tracks, ∃ pts : List (LatLon ℝ),
  (∀ p ∈ pts, C48.Valid p) ∧ C01.IsPolyline pts t.segments

/-- The step puts the device on its track: nothing was travelled yet and the cursor stays on the first segment. -/
def First (n n' : Navigator ℝ) : Prop :=
  n.segmentIndex = 0 ∧ n'.segmentIndex = 0 ∧ n.currentSegmentDistance = 0

/-! ## Walking along a great circle -/

/-- The direction in which a walk from (lat, lon) with this bearing starts. -/
noncomputable def heading (lat lon b : ℝ) : EuclideanSpace ℝ (Fin 3) :=
  !₂[-(sin (rad lat) * cos (rad lon) * cos (rad b)) - sin (rad lon) * sin (rad b),
    -(sin (rad lat) * sin (rad lon) * cos (rad b)) + cos (rad lon) * sin (rad b), cos (rad lat) * cos (rad b)]

/-- `Destination` is a point of the great circle through the start with the given bearing. -/
theorem destination_position (lat lon m b : ℝ) (hlat : -90 < lat ∧ lat < 90) :
    C46.position (destination lat lon m b).lat (destination lat lon m b).lon =
      cos (m / 6371000) • C46.position lat lon + sin (m / 6371000) • heading lat lon b := by
  have hp := pi_pos
  have hc : 0 < cos (rad lat) := by
    apply cos_pos_of_mem_Ioo
    constructor <;> (unfold rad; nlinarith [hlat.1, hlat.2])
  rw [destination_rad]
  set δ := m / 6371000
  set φ := rad lat
  set θ := rad b
  set s := sin φ * cos δ + cos φ * sin δ * cos θ with hs
  obtain ⟨s1, s2⟩ := dest_sin_abs φ δ θ
  have hsin : sin (arcsin s) = s := sin_arcsin s1 s2
  have hcs : 0 ≤ cos (arcsin s) := cos_arcsin_nonneg s
  have hsq := sin_sq_add_cos_sq (arcsin s)
  rw [hsin] at hsq
  have hpol := dest_polar φ δ θ
  obtain ⟨p1, p2⟩ := polar (x := cos δ - sin φ * s) (y := sin θ * sin δ * cos φ)
    (mul_nonneg hc.le hcs) (by
      have : (cos φ * cos (arcsin s)) ^ 2 = cos φ ^ 2 * (1 - s ^ 2) := by
        rw [mul_pow]; congr 1; linarith
      rw [this]; exact hpol)
  rw [hsin]
  set a := Complex.arg ⟨cos δ - sin φ * s, sin θ * sin δ * cos φ⟩
  have q2 : cos (arcsin s) * sin a = sin θ * sin δ := by
    apply mul_left_cancel₀ hc.ne'
    linear_combination p2
  have q1 : cos (arcsin s) * cos a = cos φ * cos δ - sin φ * sin δ * cos θ := by
    apply mul_left_cancel₀ hc.ne'
    have := sin_sq_add_cos_sq φ
    linear_combination p1 - sin φ * hs - cos δ * this
  obtain ⟨k, hk⟩ := normLon_shift (rad lon + a)
  have r1 : rad (arcsin s * (180 / π)) = arcsin s := rad_deg _
  have r2 : rad (normLon (rad lon + a) * (180 / π)) = rad lon + a + k * (2 * π) := by rw [rad_deg, hk]
  have c2 : cos (rad lon + a + k * (2 * π)) = cos (rad lon + a) := cos_add_int_mul_two_pi _ _
  have d2 : sin (rad lon + a + k * (2 * π)) = sin (rad lon + a) := sin_add_int_mul_two_pi _ _
  have key : C46.position (arcsin s * (180 / π)) (normLon (rad lon + a) * (180 / π)) =
      !₂[cos (arcsin s) * cos (rad lon + a), cos (arcsin s) * sin (rad lon + a), sin (arcsin s)] := by
    have r1' : arcsin s * (180 / π) * (π / 180) = arcsin s := r1
    have r2' : normLon (rad lon + a) * (180 / π) * (π / 180) = rad lon + a + k * (2 * π) := r2
    unfold C46.position
    rw [r1', r2', c2, d2]
  show C46.position (arcsin s * (180 / π)) (normLon (rad lon + a) * (180 / π)) = _
  rw [key, hsin, cos_add, sin_add]
  unfold C46.position heading
  ext i
  fin_cases i
  · show cos (arcsin s) * (cos (rad lon) * cos a - sin (rad lon) * sin a) =
      cos δ * (cos φ * cos (rad lon)) + sin δ * (-(sin φ * cos (rad lon) * cos θ) - sin (rad lon) * sin θ)
    linear_combination cos (rad lon) * q1 - sin (rad lon) * q2
  · show cos (arcsin s) * (sin (rad lon) * cos a + cos (rad lon) * sin a) =
      cos δ * (cos φ * sin (rad lon)) + sin δ * (-(sin φ * sin (rad lon) * cos θ) + cos (rad lon) * sin θ)
    linear_combination sin (rad lon) * q1 + cos (rad lon) * q2
  · show s = cos δ * sin φ + sin δ * (cos φ * cos θ)
    rw [hs]; ring

theorem position_heading (lat lon b : ℝ) : inner ℝ (C46.position lat lon) (heading lat lon b) = 0 := by
  unfold C46.position heading
  simp only [PiLp.inner_apply, Fin.sum_univ_three]
  have := sin_sq_add_cos_sq (lon * (π / 180))
  simp [rad]
  linear_combination (-(cos (lat * (π / 180)) * sin (lat * (π / 180)) * cos (b * (π / 180)))) * this

theorem heading_heading (lat lon b : ℝ) : inner ℝ (heading lat lon b) (heading lat lon b) = 1 := by
  unfold heading
  simp only [PiLp.inner_apply, Fin.sum_univ_three]
  have h1 := sin_sq_add_cos_sq (rad lon)
  have h2 := sin_sq_add_cos_sq (rad lat)
  have h3 := sin_sq_add_cos_sq (rad b)
  simp [sq_abs]
  have h4 := sq_abs (cos (rad lat))
  have h5 := sq_abs (cos (rad b))
  linear_combination (sin (rad lat) ^ 2 * cos (rad b) ^ 2 + sin (rad b) ^ 2) * h1 + cos (rad b) ^ 2 * h2 + h3 +
    |cos (rad b)| ^ 2 * h4 + cos (rad lat) ^ 2 * h5

/-- Two destinations with the same bearing are as far apart as their distances from the start differ. -/
theorem destination_apart (lat lon b m m' : ℝ) (hlat : -90 < lat ∧ lat < 90) (hm : |m - m'| ≤ π * 6371000) :
    distance (destination lat lon m b).lat (destination lat lon m b).lon
      (destination lat lon m' b).lat (destination lat lon m' b).lon = |m - m'| := by
  rw [C46.distance_angle]
  unfold InnerProductGeometry.angle
  rw [C46.norm_position, C46.norm_position, mul_one, div_one, destination_position _ _ _ _ hlat,
    destination_position _ _ _ _ hlat]
  have e : inner ℝ (cos (m / 6371000) • C46.position lat lon + sin (m / 6371000) • heading lat lon b)
      (cos (m' / 6371000) • C46.position lat lon + sin (m' / 6371000) • heading lat lon b) =
      cos (|m - m'| / 6371000) := by
    rw [inner_add_left, inner_add_right, inner_add_right]
    simp only [real_inner_smul_left, real_inner_smul_right, position_heading, heading_heading,
      real_inner_comm (C46.position lat lon) (heading lat lon b)]
    rw [real_inner_self_eq_norm_sq, C46.norm_position]
    have : cos (|m - m'| / 6371000) = cos (m / 6371000 - m' / 6371000) := by
      rw [← sub_div, ← cos_abs ((m - m') / 6371000), abs_div, abs_of_pos (by norm_num : (0:ℝ) < 6371000)]
    rw [this, cos_sub]
    ring
  rw [e, arccos_cos (by positivity) (by rw [div_le_iff₀ (by norm_num)]; exact hm)]
  field_simp

theorem gap_comm (p q : LatLon ℝ) : gap q p = gap p q := C46.symmetric ..

theorem gap_triangle (p q r : LatLon ℝ) : gap p r ≤ gap p q + gap q r := C46.triangle ..

/-- **C80, segments.** A point at some distance along a segment: how far it is from the two ends and from another such
point. -/
theorem along_segment (pts : List (LatLon ℝ)) (hv : ∀ p ∈ pts, C48.Valid p) (segs : List (Segment ℝ))
    (hp : C01.IsPolyline pts segs) (s : Segment ℝ) (hs : s ∈ segs) (m : ℝ) (h0 : 0 ≤ m) (h1 : m ≤ s.dist) :
    gap s.pointA (s.destinationTo m) = m ∧ gap (s.destinationTo m) s.pointB = s.dist - m ∧
    OnLine s.pointA s.pointB (s.destinationTo m) ∧
    ∀ m', 0 ≤ m' → m' ≤ s.dist → gap (s.destinationTo m) (s.destinationTo m') = |m - m'| := by
  obtain ⟨i, hi⟩ := List.mem_iff_getElem?.mp hs
  obtain ⟨e1, e2, -⟩ := hp.edge i s hi
  obtain ⟨d1, d2⟩ := hp.measure s hs
  have va := hv _ (List.mem_of_getElem? e1)
  have vb := hv _ (List.mem_of_getElem? e2)
  have hb : s.dist ≤ π * 6371000 := by rw [d1]; exact (C46.bounds ..).2
  have apart : ∀ x y, 0 ≤ x → x ≤ s.dist → 0 ≤ y → y ≤ s.dist →
      gap (s.destinationTo x) (s.destinationTo y) = |x - y| := by
    intro x y x0 x1 y0 y1
    refine destination_apart _ _ _ _ _ va.lat ?_
    rw [abs_le]
    constructor <;> linarith
  have hA : s.destinationTo 0 = s.pointA := C48.stays_at_start s.pointA s.bearing va
  have hB : s.destinationTo s.dist = s.pointB := by
    unfold Segment.destinationTo
    rw [d1, d2]
    exact C48.reaches_end s.pointA s.pointB va vb
  have hd : 0 ≤ s.dist := le_trans h0 h1
  have g1 : gap s.pointA (s.destinationTo m) = m := by
    rw [← hA, apart 0 m le_rfl hd h0 h1, zero_sub, abs_neg, abs_of_nonneg h0]
  have g2 : gap (s.destinationTo m) s.pointB = s.dist - m := by
    rw [← hB, apart m s.dist h0 h1 hd le_rfl, abs_sub_comm, abs_of_nonneg (by linarith)]
  refine ⟨g1, g2, ?_, fun m' h0' h1' => apart m m' h0 h1 h0' h1'⟩
  unfold OnLine
  rw [g1, g2]
  show m + (s.dist - m) = gap s.pointA s.pointB
  rw [show gap s.pointA s.pointB = s.dist from d1.symm]
  ring

/-- The line of the segment the cursor addresses. -/
theorem drawn_addressed {n : Navigator ℝ} (h : Drawn n) {s : Segment ℝ} (hs : C09.Addressed n s) :
    ∃ pts t, (∀ p ∈ pts, C48.Valid p) ∧ C01.IsPolyline pts t.segments ∧ n.track? = some t ∧
      t.segments[n.segmentIndex.toNat]? = some s ∧ s ∈ t.segments := by
  obtain ⟨r, t, a1, a2, a3, a4, -, a6⟩ := hs
  obtain ⟨pts, hv, hp⟩ := h r (List.mem_of_getElem? a2) t (List.mem_of_getElem? a4)
  refine ⟨pts, t, hv, hp, ?_, a6, List.mem_of_getElem? a6⟩
  unfold track? route?
  rw [goAt?_eq_some.mpr ⟨a1, a2⟩]
  exact goAt?_eq_some.mpr ⟨a3, a4⟩

/-- **C80, position (partial).** After every successful step the device is on the shortest line between the ends of its
current segment, at the travelled distance from its start; the step that puts the device on a track leaves it 1 m
behind the start instead.

Missing for the full property: the same for the first step on a segment shorter than 1 m, which is false, see
`claim_fails`. -/
theorem on_line_partial (n n' : Navigator ℝ) (tick speed : ℝ) (x : UInt32) (hd : Drawn n)
    (hn : 0 ≤ n.currentSegmentDistance) (hs : 0 ≤ tick * speed)
    (h : n.nextLocation tick speed x = .ok (n', true)) :
    ∃ s, C09.Addressed n' s ∧ (First n n' → gap s.pointA n'.point = 1) ∧
      (¬ First n n' → gap s.pointA n'.point = n'.currentSegmentDistance) ∧
      (¬ First n n' ∨ 1 ≤ s.dist → OnLine s.pointA s.pointB n'.point) := by
  obtain ⟨s, ha, -, hle, hcs, hpt⟩ := C09.position_within_segment n n' tick speed x h
  have hroutes : n'.routes = n.routes := (nextLocation_routes h).1
  have hd' : Drawn n' := by unfold Drawn; rw [hroutes]; exact hd
  obtain ⟨pts, t, hv, hp, -, -, hm⟩ := drawn_addressed hd' ha
  obtain ⟨i, hi⟩ := List.mem_iff_getElem?.mp hm
  have va := hv _ (List.mem_of_getElem? (hp.edge i s hi).1)
  have h0 : 0 ≤ n'.currentSegmentDistance := by
    rw [hcs]
    split
    · simp only [real_add, real_mul]; linarith
    · simp only [real_add, real_mul, real_lit]; push_cast; linarith
  have h1 : n'.currentSegmentDistance ≤ s.dist := by simpa using hle
  refine ⟨s, ha, ?_⟩
  rcases hpt with ⟨f1, f2, f3, hpt⟩ | ⟨f, hpt⟩
  · have hf : First n n' := ⟨f1, f2, by simpa using f3⟩
    have e : n'.point = s.destinationTo 1 := by rw [hpt]; simp [Segment.destinationTo]
    refine ⟨fun _ => ?_, fun k => absurd hf k, ?_⟩
    · rw [e]
      refine C47.distance_requested _ _ _ _ ⟨va.lat.1.le, va.lat.2.le⟩ zero_le_one ?_
      have := pi_gt_three
      nlinarith
    · rintro (k | k)
      · exact absurd hf k
      · rw [e]; exact (along_segment pts hv _ hp s hm 1 zero_le_one k).2.2.1
  · have hf : ¬ First n n' := by
      rintro ⟨g1, g2, g3⟩
      exact f ⟨g1, g2, by simpa using g3⟩
    have e : n'.point = s.destinationTo n'.currentSegmentDistance := hpt
    obtain ⟨a1, -, a3, -⟩ := along_segment pts hv _ hp s hm _ h0 h1
    exact ⟨fun k => absurd k hf, fun _ => by rw [e]; exact a1, fun _ => by rw [e]; exact a3⟩

/-! ## Consecutive positions -/

theorem segment_forward {n n' : Navigator ℝ} {t s : ℝ} {x : UInt32} (h : n.nextLocation t s x = .ok (n', true)) :
    0 ≤ n.segmentIndex ∧ n.segmentIndex ≤ n'.segmentIndex := by
  rcases nextLocation_cases n n' t s x true h with ⟨-, -, h⟩ | ⟨-, -, h⟩ | ⟨r, hr, -, j, hj, he⟩
  · cases h
  · cases h
  generalize hres : (Except.ok (n', true) : Go (Navigator ℝ × Bool)) = res at he
  cases he with
  | unrelated k1 k2 k3 k4 =>
    cases ho : ((n.skipTo j).advanceSegment.toOffline x) with
    | error e => rw [ho] at hres; cases hres
    | ok m => rw [ho] at hres; cases hres
  | leave k1 k2 =>
    cases ho : (((n.skipTo j).leaveTrack r).toOffline x) with
    | error e => rw [ho] at hres; cases hres
    | ok m => rw [ho] at hres; cases hres
  | land hfit =>
    cases hres
    have e : ((n.skipTo j).land (t *. s)).segmentIndex = n.segmentIndex + j := by
      rw [← skipTo_segmentIndex]; rfl
    have h0 : n.curSeg.isEmpty = false := by
      cases j with
      | zero => exact hfit.1
      | succ k => exact (hj 0 (by omega)).2.1
    obtain ⟨-, -, -, -, -, -, si0, -⟩ := C09.addressed_of_seg? (curSeg_nonempty n h0)
    exact ⟨si0, by rw [e]; omega⟩

/-- A new navigator is empty. -/
theorem new_empty {uid : String} {draws : Nat → ℝ} {opts : List (NavOption ℝ)} {n : Navigator ℝ}
    (h : Navigator.new uid draws opts = .ok n) : n.routes = [] ∧ n.currentSegmentDistance = 0 := by
  obtain ⟨_, _, _, -, -, -, rfl⟩ := new_cases h
  constructor <;> simp [newState]

/-- Where the cursor and the travelled distance say the device is. -/
noncomputable def spot (n : Navigator ℝ) : LatLon ℝ := n.curSeg.destinationTo n.currentSegmentDistance

theorem drawn_cur {n : Navigator ℝ} (h : Drawn n) (hs : n.curSeg.isEmpty = false) :
    ∃ pts t, (∀ p ∈ pts, C48.Valid p) ∧ C01.IsPolyline pts t.segments ∧ n.track? = some t ∧
      t.segments[n.segmentIndex.toNat]? = some n.curSeg ∧ n.curSeg ∈ t.segments :=
  drawn_addressed h (C09.addressed_of_seg? (curSeg_nonempty n hs))

/-- Going on to the next segment. -/
theorem spot_advance {m : Navigator ℝ} (hd : Drawn m) (hs : m.curSeg.isEmpty = false)
    (hs' : m.advanceSegment.curSeg.isEmpty = false) (h0 : 0 ≤ m.currentSegmentDistance)
    (h1 : m.currentSegmentDistance ≤ m.curSeg.dist) :
    gap (spot m) (spot m.advanceSegment) = C55.along m.advanceSegment - C55.along m := by
  obtain ⟨pts, t, hv, hp, ht, hi, hm⟩ := drawn_cur hd hs
  obtain ⟨pts', t', -, -, ht', hi', -⟩ := drawn_cur (n := m.advanceSegment) hd hs'
  have htt : t' = t := by
    have : m.track? = some t' := ht'
    rw [ht] at this; exact (Option.some.inj this).symm
  subst htt
  obtain ⟨-, -, -, -, -, -, si0, -⟩ := C09.addressed_of_seg? (curSeg_nonempty m hs)
  have ei : m.advanceSegment.segmentIndex.toNat = m.segmentIndex.toNat + 1 := by
    show (m.segmentIndex + 1).toNat = _
    omega
  rw [ei] at hi'
  have eB : m.advanceSegment.curSeg.pointA = m.curSeg.pointB := by
    have a := (hp.edge _ _ hi).2.1
    have b := (hp.edge _ _ hi').1
    rw [a] at b; exact (Option.some.inj b).symm
  have va := hv _ (List.mem_of_getElem? (hp.edge _ _ hi').1)
  have e0 : spot m.advanceSegment = m.curSeg.pointB := by
    rw [← eB]
    show m.advanceSegment.curSeg.destinationTo (lit 0) = _
    simp only [real_lit, Rat.cast_zero]
    exact C48.stays_at_start _ _ va
  rw [e0, C55.along_skip hs]
  show gap (m.curSeg.destinationTo m.currentSegmentDistance) m.curSeg.pointB = _
  rw [(along_segment pts hv _ hp _ hm _ h0 h1).2.1]
  ring

theorem spot_skip {n : Navigator ℝ} (hd : Drawn n) (h0 : 0 ≤ n.currentSegmentDistance)
    (h1 : n.curSeg.isEmpty = false → n.currentSegmentDistance ≤ n.curSeg.dist) (j : Nat)
    (hj : ∀ i ≤ j, (n.skipTo i).curSeg.isEmpty = false) :
    gap (spot n) (spot (n.skipTo j)) ≤ C55.along (n.skipTo j) - C55.along n := by
  induction j with
  | zero =>
    simp only [skipTo, sub_self]
    obtain ⟨pts, t, hv, hp, -, -, hm⟩ := drawn_cur hd (hj 0 le_rfl)
    have := (along_segment pts hv _ hp _ hm _ h0 (h1 (hj 0 le_rfl))).2.2.2 _ h0 (h1 (hj 0 le_rfl))
    rw [sub_self, abs_zero] at this
    exact le_of_eq this
  | succ j ih =>
    have hdj : Drawn (n.skipTo j) := by unfold Drawn; rw [skipTo_routes]; exact hd
    have hs := hj j (by omega)
    have hs' := hj (j + 1) le_rfl
    rw [skipTo_succ] at hs' ⊢
    have hcs : 0 ≤ (n.skipTo j).currentSegmentDistance ∧
        (n.skipTo j).currentSegmentDistance ≤ (n.skipTo j).curSeg.dist := by
      cases j with
      | zero => exact ⟨h0, h1 hs⟩
      | succ k =>
        obtain ⟨pts, t, hv, hp, -, -, hm⟩ := drawn_cur hdj hs
        have e : (n.skipTo (k + 1)).currentSegmentDistance = 0 := by
          show (lit 0 : ℝ) = 0
          simp
        rw [e, (hp.measure _ hm).1]
        exact ⟨le_rfl, (C46.bounds ..).1⟩
    have := spot_advance hdj hs hs' hcs.1 hcs.2
    have := gap_triangle (spot n) (spot (n.skipTo j)) (spot (n.skipTo j).advanceSegment)
    have := ih (fun i hi => hj i (by omega))
    linarith

/-- **C80, steps.** A device that is where its counters say moves, in a step that succeeds, by exactly tick × speed
metres if it stays on its segment, and otherwise by no more than its way along the track. -/
theorem step_moves (n n' : Navigator ℝ) (tick speed : ℝ) (x : UInt32) (hd : Drawn n)
    (h0 : 0 ≤ n.currentSegmentDistance) (h1 : ∀ s, C09.Addressed n s → n.currentSegmentDistance ≤ s.dist)
    (hp : ∀ s, C09.Addressed n s → n.point = s.destinationTo n.currentSegmentDistance) (hs : 0 ≤ tick * speed)
    (h : n.nextLocation tick speed x = .ok (n', true)) (hf : ¬ First n n') :
    (n'.segmentIndex = n.segmentIndex → gap n.point n'.point = tick * speed) ∧
    gap n.point n'.point ≤ C55.along n' - C55.along n := by
  rcases nextLocation_cases n n' tick speed x true h with ⟨-, -, h⟩ | ⟨-, -, h⟩ | ⟨r, hr, -, j, hj, he⟩
  · cases h
  · cases h
  generalize hres : (Except.ok (n', true) : Go (Navigator ℝ × Bool)) = res at he
  cases he with
  | unrelated k1 k2 k3 k4 =>
    cases ho : ((n.skipTo j).advanceSegment.toOffline x) with
    | error e => rw [ho] at hres; cases hres
    | ok m => rw [ho] at hres; cases hres
  | leave k1 k2 =>
    cases ho : (((n.skipTo j).leaveTrack r).toOffline x) with
    | error e => rw [ho] at hres; cases hres
    | ok m => rw [ho] at hres; cases hres
  | land hfit =>
    cases hres
    simp only [real_mul] at hfit hf ⊢
    have hne : ∀ i ≤ j, (n.skipTo i).curSeg.isEmpty = false := by
      intro i hi
      rcases Nat.lt_or_ge i j with k | k
      · exact (hj i k).2.1
      · obtain rfl : i = j := by omega
        exact hfit.1
    have hdj : Drawn (n.skipTo j) := by unfold Drawn; rw [skipTo_routes]; exact hd
    obtain ⟨pts, t, hv, hpl, -, -, hm⟩ := drawn_cur hdj hfit.1
    have ha := C09.addressed_of_seg? (curSeg_nonempty n (hne 0 (by omega)))
    have e0 : n.point = spot n := hp _ ha
    have hle : (n.skipTo j).currentSegmentDistance + tick * speed ≤ (n.skipTo j).curSeg.dist := by
      simpa using hfit.2
    have hcs : 0 ≤ (n.skipTo j).currentSegmentDistance := by
      cases j with
      | zero => exact h0
      | succ k => show (0 : ℝ) ≤ lit 0; simp
    have hst : (n.skipTo j).isStartSegment = false := by
      rw [Bool.eq_false_iff]
      intro hst
      simp only [isStartSegment, Bool.and_eq_true, beq_iff_eq] at hst
      obtain ⟨a, b⟩ := hst
      have a' := a
      rw [skipTo_segmentIndex] at a'
      have si0 : 0 ≤ n.segmentIndex := by
        obtain ⟨-, -, -, -, -, -, si0, -⟩ := ha
        exact si0
      have hj0 : j = 0 := by omega
      subst hj0
      have b' : n.currentSegmentDistance = 0 := by simpa [skipTo] using b
      exact hf ⟨a, a, b'⟩
    have e1 : ((n.skipTo j).land (tick * speed)).point =
        (n.skipTo j).curSeg.destinationTo ((n.skipTo j).currentSegmentDistance + tick * speed) := by
      simp [land, hst]
    have g : gap (spot (n.skipTo j)) ((n.skipTo j).land (tick * speed)).point = tick * speed := by
      rw [e1]
      have := (along_segment pts hv _ hpl _ hm _ hcs (by linarith)).2.2.2
        ((n.skipTo j).currentSegmentDistance + tick * speed) (by linarith) hle
      rw [sub_add_cancel_left, abs_neg, abs_of_nonneg hs] at this
      exact this
    constructor
    · intro e
      have : ((n.skipTo j).land (tick * speed)).segmentIndex = n.segmentIndex + j := by
        rw [← skipTo_segmentIndex]; rfl
      have hj0 : j = 0 := by omega
      subst hj0
      rw [e0]
      exact g
    · rw [C55.along_land hfit.1, e0]
      have k1 := spot_skip hd h0 (fun _ => h1 _ ha) j hne
      have k2 := gap_triangle (spot n) (spot (n.skipTo j)) ((n.skipTo j).land (tick * speed)).point
      linarith

/-! ## Histories -/

/-- A route whose tracks are polylines of points away from the poles. -/
def DrawnRoute (r : Route ℝ) : Prop := ∀ t ∈ r.tracks, ∃ pts : List (LatLon ℝ),
  (∀ p ∈ pts, C48.Valid p) ∧ C01.IsPolyline pts t.segments

/-- Steps do not go backwards; routes and tracks that are added are drawn. -/
def Allowed : NavOp ℝ → Prop
  | .addRoute rs => ∀ r, some r ∈ rs → DrawnRoute r
  | .nextLocation t s _ => 0 ≤ t * s
  | .onRoute _ (.addTrack (some t)) => ∃ pts : List (LatLon ℝ),
      (∀ p ∈ pts, C48.Valid p) ∧ C01.IsPolyline pts t.segments
  | _ => True

/-- Any history of a navigator: moves, jumps, offline periods, changes of its routes and tracks. -/
inductive Reach : Navigator ℝ → Prop
  | init {uid draws opts n} (h : Navigator.new uid draws opts = .ok n) : Reach n
  | step {n op n'} (hr : Reach n) (ha : Allowed op) (h : n.step op = .ok n') : Reach n'

theorem apply_drawn (r : Route ℝ) (op : RouteOp ℝ) (hop : ∀ t, op = .addTrack (some t) → ∃ pts : List (LatLon ℝ),
      (∀ p ∈ pts, C48.Valid p) ∧ C01.IsPolyline pts t.segments) (h : DrawnRoute r) : DrawnRoute (r.apply op) := by
  intro t ht
  cases op with
  | addTrack o =>
    cases o with
    | none => exact h t ht
    | some u =>
      rcases List.mem_append.mp (show t ∈ r.tracks ++ [u] from ht) with ht | ht
      · exact h t ht
      · simp at ht; subst ht; exact hop _ rfl
  | removeTrack id =>
    simp only [Route.apply, Route.removeTrack, removeFirst_eq] at ht
    split at ht
    · exact h t ht
    · split at ht
      · exact h t (List.mem_of_mem_eraseP ht)
      · exact h t ht
  | trackByID id =>
    simp only [Route.apply, Route.trackByID] at ht
    split at ht
    · exact h t ht
    · split at ht <;> exact h t ht
  | changeColor c => cases c <;> exact h t ht
  | changeName s =>
    simp only [Route.apply, Route.changeName] at ht
    split at ht <;> exact h t ht
  | setProps m => exact h t ht
  | onTrack i op =>
    rcases mem_modify ht with ht | ⟨a, ha, rfl⟩
    · exact h t ht
    · have : (a.apply op).segments = a.segments := by
        cases op with
        | changeColor c => cases c <;> rfl
        | changeName s => simp only [Track.apply, Track.changeName]; split <;> rfl
        | setProps m => rfl
      rw [this]
      exact h a ha

theorem reach_drawn {n : Navigator ℝ} (h : Reach n) : Drawn n ∧ 0 ≤ n.currentSegmentDistance := by
  induction h with
  | init h =>
    obtain ⟨h1, h2⟩ := new_empty h
    refine ⟨?_, ?_⟩
    · unfold Drawn; rw [h1]; simp
    · rw [h2]
  | @step n op n' hr ha h ih =>
    obtain ⟨hd, h0⟩ := ih
    have mv : (n' = n ∨ ∃ a b c ok, n.moveToSegment a b c = .ok (n', ok)) →
        Drawn n' ∧ 0 ≤ n'.currentSegmentDistance := by
      rintro (rfl | ⟨a, b, c, ok, hm⟩)
      · exact ⟨hd, h0⟩
      · rcases moveToSegment_cases hm with ⟨rfl, -⟩ | ⟨s, ht, hne, rfl, -⟩
        · exact ⟨hd, h0⟩
        · exact ⟨hd, by show (0 : ℝ) ≤ lit 0; simp⟩
    have z : (0 : ℝ) ≤ (lit 0 : ℝ) := by simp
    cases op with
    | addRoute rs =>
      cases h
      unfold addRoute
      split
      · exact ⟨hd, h0⟩
      · simp only
        have hm : ∀ r ∈ (addLoop n.routes 0 rs).1, DrawnRoute r := by
          intro r hr
          rcases C10.addLoop_mem _ _ _ _ hr with hr | hr
          · exact hd r hr
          · exact ha r hr
        split
        · exact ⟨hm, z⟩
        · exact ⟨hm, h0⟩
    | removeRoute id =>
      cases h
      unfold removeRoute
      split
      · exact ⟨hd, h0⟩
      · simp only [removeFirst_eq]
        split
        · exact ⟨fun r hr => hd r (List.mem_of_mem_eraseP hr), z⟩
        · exact ⟨hd, h0⟩
    | removeTrack rid tid =>
      cases h
      unfold removeTrack
      split
      · exact ⟨hd, h0⟩
      · split
        · exact ⟨hd, h0⟩
        · have hm : ∀ r ∈ updateFirst (fun r : Route ℝ => r.id == rid) (fun r => (r.removeTrack tid).1) n.routes,
              DrawnRoute r := by
            intro r hr
            rcases C22.mem_updateFirst hr with hr | ⟨q, hq, rfl⟩
            · exact hd r hr
            · exact apply_drawn q (.removeTrack tid) nofun (hd q hq)
          simp only
          split <;> exact ⟨hm, h0⟩
    | resetRoutes =>
      cases h
      unfold resetRoutes
      split
      · exact ⟨hd, h0⟩
      · exact ⟨nofun, z⟩
    | reset => cases h; exact ⟨hd, z⟩
    | moveToSegment _ _ _ => exact mv (move_cases h trivial)
    | moveToRoute _ => exact mv (move_cases h trivial)
    | moveToTrack _ _ => exact mv (move_cases h trivial)
    | moveToRouteByID _ => exact mv (move_cases h trivial)
    | moveToTrackByID _ _ => exact mv (move_cases h trivial)
    | toNextRoute => exact mv (move_cases h trivial)
    | toPrevRoute => exact mv (move_cases h trivial)
    | destinationTo m =>
      cases h
      rcases destinationTo_cases n m with e | ⟨route, ri, rd, track, ti, rd2, crd, s, si, rd3, crd3, ctd, -, -, -, -, -, e⟩
      · rw [e]; exact ⟨hd, h0⟩
      · rw [e]; exact ⟨hd, by show (0 : ℝ) ≤ |_|; exact abs_nonneg _⟩
    | toOffline x =>
      rcases toOffline_cases h with ⟨-, rfl⟩ | ⟨_, _, _, rfl⟩ <;> exact ⟨hd, h0⟩
    | nextLocation t s x =>
      obtain ⟨b, hs⟩ := map_fst_ok h
      refine nextLocation_preserves (fun m => Drawn m ∧ 0 ≤ m.currentSegmentDistance)
        (fun m hm _ _ => ⟨hm.1, z⟩) (fun m r hm _ _ => ⟨hm.1, ?_⟩) (fun m r hm _ => ?_)
        (fun m k hm => hm) ⟨hd, h0⟩ hs
      · show 0 ≤ m.currentSegmentDistance + t * s
        have : 0 ≤ t * s := ha
        linarith [hm.2]
      · unfold leaveTrack
        split
        · exact ⟨hm.1, z⟩
        · split <;> exact ⟨hm.1, z⟩
    | isFinish =>
      cases h
      unfold isFinish
      split <;> exact ⟨hd, h0⟩
    | nextElevation t =>
      simp only [Navigator.step, nextElevation] at h
      cases he : n.elevation.next t with
      | error e => rw [he] at h; cases h
      | ok s => rw [he] at h; cases h; exact ⟨hd, h0⟩
    | shuffleElevation draws => cases h; exact ⟨hd, h0⟩
    | onRoute i rop =>
      cases h
      refine ⟨fun r hr => ?_, h0⟩
      rcases mem_modify hr with hr | ⟨q, hq, rfl⟩
      · exact hd r hr
      · refine apply_drawn q rop ?_ (hd q hq)
        rintro t rfl
        exact ha

/-- **C80 (partial).** In every history: after every successful step the device is on the line of its current segment,
at the travelled distance from its start; only the first step on a track leaves it 1 m behind the start.

Missing for the full property: the first step on a segment shorter than 1 m, where it is false, see `claim_fails`. -/
theorem device_on_line_partial (n n' : Navigator ℝ) (h : Reach n) (tick speed : ℝ) (x : UInt32) (hs : 0 ≤ tick * speed)
    (hn : n.nextLocation tick speed x = .ok (n', true)) :
    ∃ s, C09.Addressed n' s ∧ (First n n' → gap s.pointA n'.point = 1) ∧
      (¬ First n n' → gap s.pointA n'.point = n'.currentSegmentDistance) ∧
      (¬ First n n' ∨ 1 ≤ s.dist → OnLine s.pointA s.pointB n'.point) :=
  on_line_partial n n' tick speed x (reach_drawn h).1 (reach_drawn h).2 hs hn

/-- **C80, consecutive positions.** In every history: of two successful steps in a row, the first not being the first
one on the track, the second moves the device by exactly tick × speed metres on the ground if it stays on its segment,
and otherwise by no more than its way along the track, which is less than tick × speed for every segment it touches. -/
theorem steps_apart (n n' n'' : Navigator ℝ) (h : Reach n) (t s t' s' : ℝ) (x x' : UInt32) (hs : 0 ≤ t * s)
    (hs' : 0 ≤ t' * s') (h1 : n.nextLocation t s x = .ok (n', true)) (hf : ¬ First n n')
    (h2 : n'.nextLocation t' s' x' = .ok (n'', true)) :
    (n''.segmentIndex = n'.segmentIndex → gap n'.point n''.point = t' * s') ∧
    gap n'.point n''.point ≤ C55.along n'' - C55.along n' ∧
    gap n'.point n''.point ≤ (1 + (n''.segmentIndex - n'.segmentIndex : Int)) * (t' * s') := by
  obtain ⟨hd, h0⟩ := reach_drawn h
  have hroutes : n'.routes = n.routes := (nextLocation_routes h1).1
  have hd' : Drawn n' := by unfold Drawn; rw [hroutes]; exact hd
  obtain ⟨sg, ha, -, hle, hcs, hpt⟩ := C09.position_within_segment n n' t s x h1
  have uniq : ∀ u, C09.Addressed n' u → u = sg := by
    intro u hu
    obtain ⟨r, q, -, a2, -, a4, -, a6⟩ := hu
    obtain ⟨r', q', -, b2, -, b4, -, b6⟩ := ha
    rw [a2] at b2; cases b2
    rw [a4] at b4; cases b4
    rw [a6] at b6; cases b6
    rfl
  have hcs0 : 0 ≤ n'.currentSegmentDistance := by
    rw [hcs]
    split
    · simp only [real_add, real_mul]; linarith
    · simp only [real_add, real_mul, real_lit]; push_cast; linarith
  have hp : n'.point = sg.destinationTo n'.currentSegmentDistance := by
    rcases hpt with ⟨f1, f2, f3, -⟩ | ⟨-, hpt⟩
    · exact absurd ⟨f1, f2, by simpa using f3⟩ hf
    · exact hpt
  have hf2 : ¬ First n' n'' := by
    rintro ⟨g1, -, g3⟩
    have hsi : 0 ≤ n.segmentIndex ∧ n.segmentIndex ≤ n'.segmentIndex := segment_forward h1
    have e : n.segmentIndex = 0 := by omega
    rw [if_pos (by omega)] at hcs
    simp only [real_add, real_mul] at hcs
    exact hf ⟨e, g1, by linarith⟩
  have key := step_moves n' n'' t' s' x' hd' hcs0 (fun u hu => by rw [uniq u hu]; simpa using hle)
    (fun u hu => by rw [uniq u hu]; exact hp) hs' h2 hf2
  refine ⟨key.1, key.2, ?_⟩
  obtain ⟨b1, b2, -⟩ := C55.advance_bounds_partial n' n'' t' s' x' h2
  have hfw : n'.segmentIndex ≤ n''.segmentIndex := (segment_forward h2).2
  rcases hfw.eq_or_lt with e | e
  · rw [← e, key.1 e.symm]; simp
  · linarith [b2 e, key.2]

/-! ## The full property fails -/

/-- The full claim. -/
def Claim : Prop := ∀ (n n' : Navigator ℝ) (tick speed : ℝ) (x : UInt32), Reach n → 0 ≤ tick * speed →
  n.nextLocation tick speed x = .ok (n', true) → ∀ s, C09.Addressed n' s → OnLine s.pointA s.pointB n'.point

/-- The first step on a segment shorter than 1 m always misses the line: it ends behind the segment. -/
theorem short_first (n n' : Navigator ℝ) (tick speed : ℝ) (x : UInt32) (h : Reach n) (hs : 0 ≤ tick * speed)
    (hn : n.nextLocation tick speed x = .ok (n', true)) (hf : First n n') (s : Segment ℝ) (ha : C09.Addressed n' s)
    (hl : s.dist < 1) : ¬ OnLine s.pointA s.pointB n'.point := by
  obtain ⟨u, hu, h1, -, -⟩ := device_on_line_partial n n' h tick speed x hs hn
  have e : u = s := by
    obtain ⟨r, q, -, a2, -, a4, -, a6⟩ := hu
    obtain ⟨r', q', -, b2, -, b4, -, b6⟩ := ha
    rw [a2] at b2; cases b2
    rw [a4] at b4; cases b4
    rw [a6] at b6; cases b6
    rfl
  subst e
  have hd : Drawn n' := by unfold Drawn; rw [(nextLocation_routes hn).1]; exact (reach_drawn h).1
  obtain ⟨pts, t, -, hp, -, -, hm⟩ := drawn_addressed hd hu
  intro ho
  unfold OnLine at ho
  rw [h1 hf, show gap u.pointA u.pointB = u.dist from (hp.measure u hm).1.symm] at ho
  have : 0 ≤ gap n'.point u.pointB := (C46.bounds ..).1
  linarith

/-- The longitude half a metre east of zero on the equator. -/
noncomputable def halfMetre : ℝ := 1 / (2 * degLen)

theorem halfMetre_range : 0 < halfMetre ∧ halfMetre < 1 := by
  have h := degLen_gt
  unfold halfMetre
  constructor
  · positivity
  · rw [div_lt_one (by linarith)]; linarith

/-- A track of one segment of half a metre. -/
noncomputable def shortTrack : Track ℝ := eqTrack "t" "#000000" 0 halfMetre

/-- The route holding it. -/
noncomputable def shortRoute : Route ℝ := (Route.new "r" "#000000").addTrack (some shortTrack)

theorem eqTrack_drawn (a b : ℝ) (ha : -180 ≤ a ∧ a < 180) (hb : -180 ≤ b ∧ b < 180) (hab : |b - a| ≤ 180) :
    ∃ pts : List (LatLon ℝ), (∀ p ∈ pts, C48.Valid p) ∧ C01.IsPolyline pts (eqTrack "t" "#000000" a b).segments := by
  obtain ⟨t, h1, -, -, h2, -⟩ := (C01.newTrack_polyline "t" "#000000" [eqPt a, eqPt b]).1 (by simp)
  rw [eqTrack_new _ _ _ _ hab] at h1
  cases h1
  refine ⟨_, ?_, h2⟩
  intro p hp
  simp only [List.mem_cons, List.not_mem_nil, or_false] at hp
  rcases hp with rfl | rfl
  · exact ⟨by norm_num [eqPt], ha⟩
  · exact ⟨by norm_num [eqPt], hb⟩

/-- A new navigator that was given this route. -/
noncomputable def shortNav : Navigator ℝ :=
  { freshNav true with routes := [shortRoute], distance := degLen * |halfMetre - 0|, version := 1 }

theorem shortNav_reach : Reach shortNav := by
  have h1 : (freshNav true).step (.addRoute [some shortRoute]) = .ok shortNav := by
    simp [Navigator.step, addRoute, addLoop, freshNav, hasRoute, reset, resetIndexes, calcRouteDistance, nextVersion,
      shortRoute, shortNav, Route.addTrack, Route.updateState, Route.new, shortTrack, eqTrack]
  obtain ⟨m0, m1⟩ := halfMetre_range
  refine .step (.init (freshNav_new true)) ?_ h1
  intro r hr
  simp only [List.mem_singleton, Option.some.injEq] at hr
  subst hr
  intro t ht
  have ht : t ∈ [shortTrack] := ht
  rw [List.mem_singleton] at ht
  subst ht
  refine eqTrack_drawn 0 halfMetre (by norm_num) ⟨by linarith, by linarith⟩ ?_
  rw [sub_zero, abs_of_pos m0]
  linarith

/-- **The full property fails**: on a track of half a metre a step of a quarter of a metre takes the device a metre
from the start. -/
theorem claim_fails : ¬ Claim := by
  intro hc
  have hd := degLen_gt
  obtain ⟨m0, m1⟩ := halfMetre_range
  have hne : (eqSeg 0 halfMetre 0 (-1)).isEmpty = false := eqSeg_nonempty _ _ _ _ m0.ne
  have hlen : (eqSeg 0 halfMetre 0 (-1)).dist = 1 / 2 := by
    show degLen * |halfMetre - 0| = 1 / 2
    rw [sub_zero, abs_of_pos m0]
    unfold halfMetre
    field_simp
  have hcur : shortNav.curSeg = eqSeg 0 halfMetre 0 (-1) := by
    have : shortNav.seg? = some (eqSeg 0 halfMetre 0 (-1)) := rfl
    simp [curSeg, this, hne]
  have hstep : shortNav.nextLocation (1 / 4) 1 0 = .ok (shortNav.land (1 / 4 * 1), true) := by
    refine nextLocation_land _ _ _ _ shortRoute rfl rfl ⟨by rw [hcur]; exact hne, ?_⟩
    rw [hcur, hlen]
    simp [shortNav, freshNav]
    norm_num
  have ha : C09.Addressed (shortNav.land (1 / 4 * 1)) (eqSeg 0 halfMetre 0 (-1)) :=
    ⟨shortRoute, shortTrack, le_rfl, rfl, le_rfl, rfl, le_rfl, rfl⟩
  refine short_first shortNav _ (1 / 4) 1 0 shortNav_reach (by norm_num) hstep ⟨rfl, rfl, rfl⟩ _ ha ?_
    (hc shortNav _ (1 / 4) 1 0 shortNav_reach (by norm_num) hstep _ ha)
  rw [hlen]
  norm_num

/-! Non-vacuity: three steps of 5, 7 and 11 m on the one-degree route; the last moves the device by 11 m. -/

theorem oneNav_reach : Reach (oneNav true) := by
  have h1 : (freshNav true).step (.addRoute [some oneRoute]) = .ok (oneNav true) := by
    simp [Navigator.step, oneNav_add]
  refine .step (.init (freshNav_new true)) ?_ h1
  intro r hr
  simp only [List.mem_singleton, Option.some.injEq] at hr
  subst hr
  intro t ht
  have ht : t ∈ [eqTrack "t" "#000000" 0 1] := ht
  rw [List.mem_singleton] at ht
  subst ht
  exact eqTrack_drawn 0 1 (by norm_num) (by norm_num) (by norm_num)

example : ∃ n n' n'' : Navigator ℝ, Reach n ∧ n.nextLocation 7 1 0 = .ok (n', true) ∧
    n'.nextLocation 11 1 0 = .ok (n'', true) ∧ gap (eqPt 0) n'.point = 12 ∧ OnLine (eqPt 0) (eqPt 1) n''.point ∧
    gap n'.point n''.point = 11 := by
  have hd := degLen_gt
  have more : ∀ (m : Navigator ℝ) (d : ℝ), m.routes = [oneRoute] → m.routeIndex = 0 → m.trackIndex = 0 →
      m.segmentIndex = 0 → m.skipOffline = true → m.currentSegmentDistance + d * 1 ≤ degLen →
      m.nextLocation d 1 0 = .ok (m.land (d * 1), true) := by
    intro m d e1 e2 e3 e4 e5 e6
    have hseg : m.seg? = some (eqSeg 0 1 0 (-1)) := by
      unfold seg? track? route?
      rw [e1, e2, e3, e4]
      rfl
    have hcur : m.curSeg = eqSeg 0 1 0 (-1) := by simp [curSeg, hseg, oneSeg_nonempty]
    refine nextLocation_land _ _ _ _ oneRoute (by unfold route?; rw [e1, e2]; rfl) ?_
      ⟨by rw [hcur]; exact oneSeg_nonempty, ?_⟩
    · simp [nextOffline, e5]
    · rw [hcur]
      simpa [eqSeg] using e6
  set n := (oneNav true).land (5 * 1) with hn
  have c0 : n.currentSegmentDistance = 5 := by simp [hn, land, updateDist, oneNav, freshNav]
  have s1 := more n 7 rfl rfl rfl rfl rfl (by rw [c0]; linarith)
  set n' := n.land (7 * 1) with hn'
  have c1 : n'.currentSegmentDistance = 12 := by
    have : n'.currentSegmentDistance = n.currentSegmentDistance + 7 * 1 := rfl
    rw [this, c0]; norm_num
  have s2 := more n' 11 rfl rfl rfl rfl rfl (by rw [c1]; linarith)
  have hr : Reach n := .step (op := .nextLocation 5 1 0) oneNav_reach (by show (0:ℝ) ≤ 5 * 1; norm_num)
    (by simp [Navigator.step, oneNav_step true 5 1 0 (by linarith), hn])
  have hr' : Reach n' := .step (op := .nextLocation 7 1 0) hr (by show (0:ℝ) ≤ 7 * 1; norm_num)
    (by simp only [Navigator.step, s1]; rfl)
  have nf : ¬ First n n' := by
    rintro ⟨-, -, h⟩
    rw [c0] at h
    norm_num at h
  have nf' : ¬ First n' (n'.land (11 * 1)) := by
    rintro ⟨-, -, h⟩
    rw [c1] at h
    norm_num at h
  refine ⟨n, n', _, hr, s1, s2, ?_, ?_, ?_⟩
  · obtain ⟨s, ⟨r, t, -, a2, -, a4, -, a6⟩, -, h2, -⟩ := device_on_line_partial n n' hr 7 1 0 (by norm_num) s1
    cases a2; cases a4; cases a6
    rw [← c1]
    exact h2 nf
  · obtain ⟨s, ⟨r, t, -, a2, -, a4, -, a6⟩, -, -, h3⟩ := device_on_line_partial n' _ hr' 11 1 0 (by norm_num) s2
    cases a2; cases a4; cases a6
    exact h3 (.inl nf')
  · rw [(steps_apart n n' _ hr 7 1 11 1 0 0 (by norm_num) (by norm_num) s1 nf s2).1 rfl]
    norm_num

end C80
end GpsGen
