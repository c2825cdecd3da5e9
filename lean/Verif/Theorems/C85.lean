import Verif.Theorems.C84
import Verif.Theorems.C02
import Verif.Theorems.C03
import Verif.Theorems.C55
import Verif.Theorems.C01
/-!
# C85: lengths and odometers are accurate in doubles

The lengths of tracks and routes, the total of a navigator and its odometer (`CurrentDistance`) in IEEE doubles: each is within a
micrometre and a fifth per segment (and a fraction of that per track, route or step) of the exact sum of great-circle distances
or of the exact sum of tick times speed, up to a million kilometres.
-/

namespace GpsGen
namespace C85
open F64 C28.Double C46.Double HavErr C83 C02 Navigator

attribute [local irreducible] Round64.rndQ Round64.pow2

/-! ## Specification -/

/-- The length of the line through points given by latitude and longitude. -/
noncomputable def lineLength : List (ℚ × ℚ) → ℝ
  | p :: q :: rest => exact p.1 p.2 q.1 q.2 + lineLength (q :: rest)
  | _ => 0

/-- Neighbours are at most 10 000 km apart. -/
def Short : List (ℚ × ℚ) → Prop
  | p :: q :: rest => exact p.1 p.2 q.1 q.2 ≤ 10000000 ∧ Short (q :: rest)
  | _ => True

/-- The double coordinates are these numbers. -/
def At (p : LatLon F64) (x : ℚ × ℚ) : Prop := Is p.lat x.1 ∧ Is p.lon x.2 ∧ |x.1| ≤ 90 ∧ |x.2| ≤ 180

/-- The track is the line through these points, and has their added distances as its length. -/
structure Line [MathLib] (t : Track F64) (ps : List (ℚ × ℚ)) : Prop where
  points : ∃ pts, C01.IsPolyline pts t.segments ∧ List.Forall₂ At pts ps
  short : Short ps
  dist : t.dist = goSum (t.segments.map (·.dist))

/-- A history of a navigator whose numbers are finite, with the exact distance its client has commanded since the last restart and the
number of steps: a successful step adds tick × speed; a completed lap restarts at the 0.1 m that mark it (counted as a step);
reading the mark and changing the routes restart at 0. As `C55.Trip`. -/
inductive Driven [MathLib] : ℝ → ℕ → Navigator F64 → Prop
  | new {uid draws opts n} : Navigator.new uid draws opts = .ok n → Driven 0 0 n
  | land {a k n n' tick speed x} {t v : ℚ} : Driven a k n → Is tick t → Is speed v → 0 ≤ t * v →
      n.nextLocation tick speed x = .ok (n', true) → Driven (a + t * v) (k + 1) n'
  | lap {a k n n' tick speed x} : Driven a k n → n.nextLocation tick speed x = .ok (n', false) → C55.Laps n n' →
      Driven (1 / 10) 1 n'
  | stay {a k n n' tick speed x} : Driven a k n → n.nextLocation tick speed x = .ok (n', false) → ¬ C55.Laps n n' →
      Driven a k n'
  | neutral {a k n n' op} : Driven a k n → C55.Neutral op → n.step op = .ok n' → Driven a k n'
  | finish {a k n n'} : Driven a k n → n.isFinish = (n', true) → Driven 0 0 n'
  | unfinished {a k n n'} : Driven a k n → n.isFinish = (n', false) → Driven a k n'
  | added {a k n n' rs} : Driven a k n → n.addRoute rs = (n', none) → n'.routes.length ≠ n.routes.length → Driven 0 0 n'
  | removed {a k n n' id} : Driven a k n → n.removeRoute id = (n', true) → Driven 0 0 n'
  | cleared {a k n n'} : Driven a k n → n.resetRoutes = (n', true) → Driven 0 0 n'
  | reset {a k n} : Driven a k n → Driven 0 0 n.reset

/-! ## Sums -/

theorem zero_near : Near (lit 0 : F64) 0 0 := by
  have := (rnd_fin false (q := 0) (by norm_num)).1
  rw [Round64.rndQ_zero] at this
  exact_mod_cast Near.of_is this

/-- The error of a sum, added from left to right. -/
theorem sum_near (l : List (F64 × ℝ × ℝ)) (f : F64) (x e : ℝ) (hf : Near f x e) (hx : 0 ≤ x) (he : 0 ≤ e)
    (hl : ∀ p ∈ l, Near p.1 p.2.1 p.2.2 ∧ 0 ≤ p.2.1 ∧ 0 ≤ p.2.2) (hS : x + (l.map (·.2.1)).sum ≤ 10 ^ 9)
    (hE : e + (l.map (·.2.2)).sum + l.length * (12 / 10 ^ 8) ≤ 10 ^ 7) :
    Near ((l.map (·.1)).foldl (· +. ·) f) (x + (l.map (·.2.1)).sum) (e + (l.map (·.2.2)).sum + l.length * (12 / 10 ^ 8)) := by
  induction l generalizing f x e with
  | nil => simpa using hf
  | cons p l ih =>
    obtain ⟨hp, hp1, hp2⟩ := hl p List.mem_cons_self
    have hl' := fun q hq => hl q (List.mem_cons_of_mem _ hq)
    have s1 : 0 ≤ (l.map (·.2.1)).sum := List.sum_nonneg (by
      intro y hy; obtain ⟨q, hq, rfl⟩ := List.mem_map.mp hy; exact (hl' q hq).2.1)
    have s2 : 0 ≤ (l.map (·.2.2)).sum := List.sum_nonneg (by
      intro y hy; obtain ⟨q, hq, rfl⟩ := List.mem_map.mp hy; exact (hl' q hq).2.2)
    have s3 : (0 : ℝ) ≤ l.length * (12 / 10 ^ 8) := by positivity
    simp only [List.map_cons, List.sum_cons, List.length_cons, Nat.cast_succ, List.foldl_cons] at *
    have h1 : Near (f +. p.1) (x + p.2.1) (e + p.2.2 + 12 / 10 ^ 8) := by
      refine Near.add hf hp (10 ^ 9) _ (by rw [abs_of_nonneg (by linarith)]; linarith) (by norm_num at hE ⊢; linarith) ?_
      have : (10 ^ 9 + e + p.2.2) * uu + et ≤ 12 / 10 ^ 8 := by
        have : 10 ^ 9 + e + p.2.2 ≤ 1011 * 10 ^ 6 := by norm_num at hE ⊢; linarith
        have := mul_le_mul_of_nonneg_right this (show 0 ≤ uu by unfold uu; norm_num)
        refine (add_le_add_left this _).trans ?_
        unfold uu et
        norm_num
      linarith
    have h2 := ih (f +. p.1) (x + p.2.1) (e + p.2.2 + 12 / 10 ^ 8) h1 (by linarith) (by linarith [show (0:ℝ) ≤ 12 / 10 ^ 8 by norm_num])
      hl' (by linarith) (by linarith)
    have e1 : x + (p.2.1 + (l.map (·.2.1)).sum) = x + p.2.1 + (l.map (·.2.1)).sum := by ring
    rw [e1]
    exact h2.mono (by linarith)

theorem goSum_near (l : List (F64 × ℝ × ℝ)) (hl : ∀ p ∈ l, Near p.1 p.2.1 p.2.2 ∧ 0 ≤ p.2.1 ∧ 0 ≤ p.2.2)
    (hS : (l.map (·.2.1)).sum ≤ 10 ^ 9) (hE : (l.map (·.2.2)).sum + l.length * (12 / 10 ^ 8) ≤ 10 ^ 7) :
    Near (goSum (l.map (·.1))) (l.map (·.2.1)).sum ((l.map (·.2.2)).sum + l.length * (12 / 10 ^ 8)) := by
  have := sum_near l (lit 0) 0 0 zero_near le_rfl le_rfl hl (by simpa using hS) (by simpa using hE)
  simpa [goSum] using this

/-! ## Tracks -/

theorem exact_nonneg' (a b c d : ℝ) : 0 ≤ exact a b c d := by
  unfold exact
  exact mul_nonneg (by norm_num) (InnerProductGeometry.angle_nonneg _ _)

theorem lineLength_nonneg (ps : List (ℚ × ℚ)) : 0 ≤ lineLength ps := by
  induction ps with
  | nil => exact le_rfl
  | cons p ps ih =>
    cases ps with
    | nil => exact le_rfl
    | cons q ps => exact add_nonneg (exact_nonneg' _ _ _ _) ih

/-- The lengths of the segments of a line. -/
def dists [MathLib] : List (LatLon F64) → List F64
  | a :: b :: rest => distance a.lat a.lon b.lat b.lon :: dists (b :: rest)
  | _ => []

theorem dists_get [MathLib] (pts : List (LatLon F64)) (i : ℕ) : (dists pts)[i]? =
    (pts[i]?.bind fun a => pts[i + 1]?.map fun b => distance a.lat a.lon b.lat b.lon) := by
  induction pts generalizing i with
  | nil => simp [dists]
  | cons a pts ih =>
    cases pts with
    | nil => cases i <;> simp [dists]
    | cons b pts =>
      cases i with
      | zero => simp [dists]
      | succ i => simpa [dists] using ih i

theorem polyline_dists [MathLib] {pts : List (LatLon F64)} {segs : List (Segment F64)} (h : C01.IsPolyline pts segs) :
    segs.map (·.dist) = dists pts := by
  apply List.ext_getElem?
  intro i
  rw [dists_get, List.getElem?_map]
  cases hs : segs[i]? with
  | some s =>
    obtain ⟨e1, e2, -⟩ := h.edge i s hs
    rw [e1, e2]
    simp [(h.measure s (List.mem_of_getElem? hs)).1]
  | none =>
    have hl := List.getElem?_eq_none_iff.mp hs
    have : pts[i + 1]? = none := List.getElem?_eq_none_iff.mpr (by rw [← h.length]; omega)
    rw [this]
    cases pts[i]? <;> rfl

theorem dists_near [MathLib] (L : Library) (A : Accurate) (pts : List (LatLon F64)) (ps : List (ℚ × ℚ))
    (h : List.Forall₂ At pts ps) (hs : Short ps) : ∃ l : List (F64 × ℝ × ℝ), l.map (·.1) = dists pts ∧
      (∀ p ∈ l, Near p.1 p.2.1 p.2.2 ∧ 0 ≤ p.2.1 ∧ 0 ≤ p.2.2) ∧ (l.map (·.2.1)).sum = lineLength ps ∧
      (l.map (·.2.2)).sum = l.length * (1 / 10 ^ 6) ∧ l.length = ps.length - 1 := by
  induction h with
  | nil => exact ⟨[], rfl, nofun, rfl, by simp, rfl⟩
  | @cons a x pts ps ha h ih =>
    cases h with
    | nil => exact ⟨[], rfl, nofun, rfl, by simp, rfl⟩
    | @cons b y pts ps hb h =>
      obtain ⟨l, e1, e2, e3, e4, e5⟩ := ih hs.2
      obtain ⟨v, hv, -, hv2⟩ := micrometre L A a.lat a.lon b.lat b.lon x.1 x.2 y.1 y.2
        ⟨ha.1, ha.2.1, hb.1, hb.2.1, ha.2.2, hb.2.2⟩ hs.1
      refine ⟨(distance a.lat a.lon b.lat b.lon, exact x.1 x.2 y.1 y.2, 1 / 10 ^ 6) :: l, ?_, ?_, ?_, ?_, ?_⟩
      · simp [dists, e1]
      · intro p hp
        rcases List.mem_cons.mp hp with rfl | hp
        · exact ⟨⟨v, hv, hv2.le⟩, exact_nonneg' _ _ _ _, by norm_num⟩
        · exact e2 p hp
      · simp [lineLength, e3]
      · simp only [List.map_cons, List.sum_cons, e4, List.length_cons]
        push_cast
        ring
      · simp [e5]

/-- **C85, tracks.** The length of a track of at most a million kilometres and a million million segments is within 1.2 micrometres per
segment of the length of the line through its points. -/
theorem track_length [MathLib] (L : Library) (A : Accurate) (t : Track F64) (ps : List (ℚ × ℚ)) (h : Line t ps)
    (hS : lineLength ps ≤ 10 ^ 9) (hN : t.segments.length ≤ 10 ^ 12) :
    ∃ q : ℚ, Is t.dist q ∧ |(q : ℝ) - lineLength ps| ≤ t.segments.length * (12 / 10 ^ 7) := by
  obtain ⟨pts, hp, hf⟩ := h.points
  obtain ⟨l, e1, e2, e3, e4, e5⟩ := dists_near L A pts ps hf h.short
  have hlen : l.length = t.segments.length := by
    have : (l.map (·.1)).length = (t.segments.map (·.dist)).length := by rw [e1, polyline_dists hp]
    simpa using this
  have hN' : (l.length : ℝ) ≤ 1000000000000 := by rw [hlen]; exact_mod_cast hN
  have l0 : (0 : ℝ) ≤ l.length := by positivity
  have := goSum_near l e2 (by rw [e3]; exact hS) (by rw [e4]; norm_num1; linarith)
  rw [e1, ← polyline_dists hp, ← h.dist, e3, e4, hlen] at this
  obtain ⟨q, h1, h2⟩ := this
  rw [hlen] at l0
  refine ⟨q, h1, h2.trans ?_⟩
  norm_num
  linarith

/-- **C85, new tracks.** `NewTrack` and `RestoreTrack` give such tracks. -/
theorem new_line [MathLib] (uid color : String) (pts : List (LatLon F64)) (ps : List (ℚ × ℚ)) (t : Track F64)
    (h : Track.new uid color pts = .ok t ∨ Track.restore uid color pts = .ok t) (hp : List.Forall₂ At pts ps) (hs : Short ps) :
    Line t ps := by
  have hlen : ¬ pts.length < 2 := by
    intro hl
    rcases h with h | h
    · rw [(C01.newTrack_polyline uid color pts).2 hl] at h; cases h
    · obtain ⟨e, he⟩ := (C01.restoreTrack_polyline uid color pts).2 (Or.inl hl)
      rw [he] at h; cases h
  rcases h with h | h
  · obtain ⟨t', h1, -, -, h2, -⟩ := (C01.newTrack_polyline uid color pts).1 (by omega)
    rw [h1] at h
    cases h
    exact ⟨⟨pts, h2, hp⟩, hs, track_distance_eq_sum _ _ _ _ h1⟩
  · have hid : uid ≠ "" := by
      intro hid
      obtain ⟨e, he⟩ := (C01.restoreTrack_polyline uid color pts).2 (Or.inr hid)
      rw [he] at h; cases h
    obtain ⟨t', h1, -, -, h2, -⟩ := (C01.restoreTrack_polyline uid color pts).1 (by omega) hid
    rw [h1] at h
    cases h
    exact ⟨⟨pts, h2, hp⟩, hs, restored_distance_eq_sum _ _ _ _ h1⟩

/-! ## Routes and navigators -/

/-- The tracks of the route are the lines `ls`, and its length is their added length. -/
def Lines [MathLib] (r : Route F64) (ls : List (List (ℚ × ℚ))) : Prop := List.Forall₂ Line r.tracks ls ∧ Consistent r

/-- The number of segments of a route. -/
def segCount (r : Route F64) : ℕ := (r.tracks.map (·.segments.length)).sum

theorem sum_le_of_mem {l : List ℝ} (h : ∀ x ∈ l, 0 ≤ x) {x : ℝ} (hx : x ∈ l) : x ≤ l.sum :=
  List.single_le_sum h x hx

/-- **C85, routes.** The length of a route is within 1.2 micrometres per segment and 0.12 per track of the length of its lines. -/
theorem route_length [MathLib] (L : Library) (A : Accurate) (r : Route F64) (ls : List (List (ℚ × ℚ))) (h : Lines r ls)
    (hS : (ls.map lineLength).sum ≤ 10 ^ 9) (hN : segCount r + r.tracks.length ≤ 10 ^ 12) :
    ∃ q : ℚ, Is r.dist q ∧ |(q : ℝ) - (ls.map lineLength).sum| ≤ segCount r * (12 / 10 ^ 7) + r.tracks.length * (12 / 10 ^ 8) := by
  obtain ⟨h1, h2⟩ := h
  have key : ∀ (ts : List (Track F64)) (ls : List (List (ℚ × ℚ))), List.Forall₂ Line ts ls → (ls.map lineLength).sum ≤ 10 ^ 9 →
      (ts.map (·.segments.length)).sum ≤ 10 ^ 12 → ∃ l : List (F64 × ℝ × ℝ), l.map (·.1) = ts.map (·.dist) ∧
      (∀ p ∈ l, Near p.1 p.2.1 p.2.2 ∧ 0 ≤ p.2.1 ∧ 0 ≤ p.2.2) ∧ (l.map (·.2.1)).sum = (ls.map lineLength).sum ∧
      (l.map (·.2.2)).sum = ((ts.map (·.segments.length)).sum : ℕ) * (12 / 10 ^ 7) ∧ l.length = ts.length := by
    intro ts ls h
    induction h with
    | nil => intros; exact ⟨[], rfl, nofun, rfl, by simp, rfl⟩
    | @cons t x ts ls ht h ih =>
      intro hS hN
      simp only [List.map_cons, List.sum_cons] at hS hN
      have p1 := lineLength_nonneg x
      have p2 : 0 ≤ (ls.map lineLength).sum := List.sum_nonneg (by
        intro y hy; obtain ⟨z, -, rfl⟩ := List.mem_map.mp hy; exact lineLength_nonneg z)
      obtain ⟨l, e1, e2, e3, e4, e5⟩ := ih (by linarith) (by omega)
      have hn := track_length L A t x ht (by linarith) (by omega)
      refine ⟨(t.dist, lineLength x, t.segments.length * (12 / 10 ^ 7)) :: l, by simp [e1], ?_, by simp [e3], ?_, by simp [e5]⟩
      · intro p hp
        rcases List.mem_cons.mp hp with rfl | hp
        · exact ⟨hn, p1, by positivity⟩
        · exact e2 p hp
      · simp only [List.map_cons, List.sum_cons, e4]
        push_cast
        ring
  unfold segCount at hN ⊢
  obtain ⟨l, e1, e2, e3, e4, e5⟩ := key r.tracks ls h1 hS (by omega)
  have hN' : (((r.tracks.map (·.segments.length)).sum : ℕ) : ℝ) + (r.tracks.length : ℝ) ≤ 1000000000000 := by exact_mod_cast hN
  have l0 : (0 : ℝ) ≤ (r.tracks.length : ℝ) := by positivity
  have := goSum_near l e2 (by rw [e3]; exact hS) (by rw [e4, e5]; norm_num1; linarith)
  rw [e1, e3, e4, e5] at this
  unfold Consistent at h2
  rw [← h2] at this
  exact this

/-- The number of segments and tracks of a navigator. -/
def partCount (n : Navigator F64) : ℕ := (n.routes.map fun r => segCount r + r.tracks.length).sum

/-- **C85, navigators.** After any history without changes of the tracks of held routes (`C03.KeepsTracks`; the total is stale after
them, C03) the total is within 1.2 micrometres per segment, track and route of the length of all lines. -/
theorem total_length [MathLib] (L : Library) (A : Accurate) (uid : String) (draws : Nat → F64) (opts : List (NavOption F64))
    (n0 : Navigator F64) (hn : Navigator.new uid draws opts = .ok n0) (ops : List (NavOp F64)) (hk : ∀ op ∈ ops, C03.KeepsTracks op)
    (n : Navigator F64) (h : n0.run ops = .ok n) (lls : List (List (List (ℚ × ℚ)))) (hl : List.Forall₂ Lines n.routes lls)
    (hS : (lls.map fun ls => (ls.map lineLength).sum).sum ≤ 10 ^ 9) (hN : partCount n + n.routes.length ≤ 10 ^ 12) :
    ∃ q : ℚ, Is n.distance q ∧ |(q : ℝ) - (lls.map fun ls => (ls.map lineLength).sum).sum| ≤
      (partCount n + n.routes.length : ℕ) * (12 / 10 ^ 7) := by
  have h2 := C03.distance_eq_sum_partial uid draws opts n0 hn ops hk n h
  have key : ∀ (rs : List (Route F64)) (lls : List (List (List (ℚ × ℚ)))), List.Forall₂ Lines rs lls →
      (lls.map fun ls => (ls.map lineLength).sum).sum ≤ 10 ^ 9 →
      (rs.map fun r => segCount r + r.tracks.length).sum ≤ 10 ^ 12 → ∃ l : List (F64 × ℝ × ℝ), l.map (·.1) = rs.map (·.dist) ∧
      (∀ p ∈ l, Near p.1 p.2.1 p.2.2 ∧ 0 ≤ p.2.1 ∧ 0 ≤ p.2.2) ∧
      (l.map (·.2.1)).sum = (lls.map fun ls => (ls.map lineLength).sum).sum ∧
      (l.map (·.2.2)).sum = ((rs.map fun r => segCount r + r.tracks.length).sum : ℕ) * (12 / 10 ^ 7) ∧ l.length = rs.length := by
    intro rs lls h
    induction h with
    | nil => intros; exact ⟨[], rfl, nofun, rfl, by simp, rfl⟩
    | @cons r x rs lls hr h ih =>
      intro hS hN
      simp only [List.map_cons, List.sum_cons] at hS hN
      have nn : ∀ ls : List (List (ℚ × ℚ)), 0 ≤ (ls.map lineLength).sum := fun ls => List.sum_nonneg (by
        intro y hy; obtain ⟨z, -, rfl⟩ := List.mem_map.mp hy; exact lineLength_nonneg z)
      have p1 := nn x
      have p2 : 0 ≤ (lls.map fun ls => (ls.map lineLength).sum).sum := List.sum_nonneg (by
        intro y hy; obtain ⟨z, -, rfl⟩ := List.mem_map.mp hy; exact nn z)
      obtain ⟨l, e1, e2, e3, e4, e5⟩ := ih (by linarith) (by omega)
      obtain ⟨q, h1, h2⟩ := route_length L A r x hr (by linarith) (by omega)
      have hle : (segCount r : ℝ) * (12 / 10 ^ 7) + r.tracks.length * (12 / 10 ^ 8) ≤
          (segCount r + r.tracks.length : ℕ) * (12 / 10 ^ 7) := by
        have : (0 : ℝ) ≤ (r.tracks.length : ℝ) := by positivity
        push_cast
        norm_num
        linarith
      refine ⟨(r.dist, (x.map lineLength).sum, (segCount r + r.tracks.length : ℕ) * (12 / 10 ^ 7)) :: l, by simp [e1], ?_,
        by simp [e3], ?_, by simp [e5]⟩
      · intro p hp
        rcases List.mem_cons.mp hp with rfl | hp
        · exact ⟨⟨q, h1, h2.trans hle⟩, p1, by positivity⟩
        · exact e2 p hp
      · simp only [List.map_cons, List.sum_cons, e4]
        push_cast
        ring
  unfold partCount at hN ⊢
  obtain ⟨l, e1, e2, e3, e4, e5⟩ := key n.routes lls hl hS (by omega)
  have hN' : (((n.routes.map fun r => segCount r + r.tracks.length).sum : ℕ) : ℝ) + (n.routes.length : ℝ) ≤ 1000000000000 := by
    exact_mod_cast hN
  have l0 : (0 : ℝ) ≤ (n.routes.length : ℝ) := by positivity
  have := goSum_near l e2 (by rw [e3]; exact hS) (by rw [e4, e5]; norm_num1; linarith)
  rw [e1, e3, e4, e5, ← h2] at this
  obtain ⟨q, h1, h2⟩ := this
  refine ⟨q, h1, h2.trans ?_⟩
  push_cast
  norm_num
  linarith

/-! ## Odometers -/

theorem driven_nonneg [MathLib] {a : ℝ} {k : ℕ} {n : Navigator F64} (h : Driven a k n) : 0 ≤ a := by
  induction h with
  | @land _ _ _ _ _ _ _ t v _ _ _ h0 _ ih =>
    have : (0 : ℝ) ≤ t * v := by exact_mod_cast h0
    exact add_nonneg ih this
  | lap => norm_num
  | _ => first | exact le_rfl | assumption

theorem driven_trip [MathLib] {a : ℝ} {k : ℕ} {n : Navigator F64} (h : Driven a k n) :
    ∃ f, C55.Trip f n ∧ (a ≤ 10 ^ 9 → k ≤ 10 ^ 13 → Near f a (k * (24 / 10 ^ 8))) := by
  have z : (0 : ℝ) ≤ 10 ^ 9 → 0 ≤ 10 ^ 13 → Near (lit 0 : F64) 0 ((0 : ℕ) * (24 / 10 ^ 8)) := by
    intros; simpa using zero_near
  induction h with
  | new h => exact ⟨_, .new h, z⟩
  | @land a k n n' tick speed x t v hd ht hv h0 h ih =>
    obtain ⟨f, hf, ih⟩ := ih
    refine ⟨_, .land hf h, fun ha hk => ?_⟩
    have a0 := driven_nonneg hd
    have h0' : (0 : ℝ) ≤ t * v := by exact_mod_cast h0
    have ih := ih (by linarith) (by omega)
    have hm : Near (tick *. speed) (t * v) (114 / 10 ^ 9) := by
      have hb : |(t : ℝ) * v| ≤ 10 ^ 9 := by rw [abs_of_nonneg h0']; linarith
      obtain ⟨w, hw, rw'⟩ := mul_rnd ht hv (Near.cast_bound (by push_cast; exact hb.trans (by norm_num)))
      refine ⟨w, hw, (rnd_le rw' hb).trans ?_⟩
      unfold uu et
      norm_num
    have hk' : (k : ℝ) + 1 ≤ 10000000000000 := by exact_mod_cast hk
    have k0 : (0 : ℝ) ≤ k := by positivity
    refine Near.add (x := a) ih hm (10 ^ 9) _ (by rw [abs_of_nonneg (by linarith)]; linarith) (by norm_num1; linarith) ?_
    have : (10 ^ 9 + (k : ℝ) * (24 / 10 ^ 8) + 114 / 10 ^ 9) * uu + et ≤ 12 / 10 ^ 8 := by
      have : 10 ^ 9 + (k : ℝ) * (24 / 10 ^ 8) + 114 / 10 ^ 9 ≤ 1003 * 10 ^ 6 := by norm_num1; linarith
      have := mul_le_mul_of_nonneg_right this (show 0 ≤ uu by unfold uu; norm_num)
      refine (add_le_add_left this _).trans ?_
      unfold uu et
      norm_num
    push_cast
    linarith
  | lap hd h hl ih =>
    obtain ⟨f, hf, -⟩ := ih
    refine ⟨_, .lap hf h hl, fun _ _ => ?_⟩
    obtain ⟨hv, hv2⟩ := rnd_fin false (q := 1 / 10) (by norm_num)
    refine ⟨_, hv, ?_⟩
    have := rnd_le hv2 (X := 1 / 10) (by norm_num)
    push_cast at this ⊢
    refine this.trans ?_
    unfold uu et
    norm_num
  | stay _ h hl ih => obtain ⟨f, hf, ih⟩ := ih; exact ⟨f, .stay hf h hl, ih⟩
  | neutral _ ho h ih => obtain ⟨f, hf, ih⟩ := ih; exact ⟨f, .neutral hf ho h, ih⟩
  | finish _ h ih => obtain ⟨f, hf, ih⟩ := ih; exact ⟨_, .finish hf h, z⟩
  | unfinished _ h ih => obtain ⟨f, hf, ih⟩ := ih; exact ⟨f, .unfinished hf h, ih⟩
  | added _ h hne ih => obtain ⟨f, hf, ih⟩ := ih; exact ⟨_, .added hf h hne, z⟩
  | removed _ h ih => obtain ⟨f, hf, ih⟩ := ih; exact ⟨_, .removed hf h, z⟩
  | cleared _ h ih => obtain ⟨f, hf, ih⟩ := ih; exact ⟨_, .cleared hf h, z⟩
  | reset _ ih => obtain ⟨f, hf, ih⟩ := ih; exact ⟨_, .reset hf, z⟩

/-- **C85, odometers.** In every history: after at most ten million million steps and a million kilometres since the last restart the
odometer is within 0.24 micrometres per step of the exact sum of tick times speed. -/
theorem odometer [MathLib] (a : ℝ) (k : ℕ) (n : Navigator F64) (h : Driven a k n) (ha : a ≤ 10 ^ 9) (hk : k ≤ 10 ^ 13) :
    ∃ q : ℚ, Is n.currentDistance q ∧ |(q : ℝ) - a| ≤ k * (24 / 10 ^ 8) := by
  obtain ⟨f, hf, h⟩ := driven_trip h
  rw [C55.odometer_exact f n hf]
  exact h ha hk

/-! ## Examples -/

section
attribute [local instance] ideal

theorem exact_equator (x y : ℝ) (h : |y - x| ≤ 180) : exact 0 x 0 y = 6371000 * (Real.pi / 180) * |y - x| := by
  unfold exact
  rw [← C46.distance_angle, distance_equator _ _ h]
  simp [degLen]

theorem two_degrees : lineLength [(0, 0), (0, 1), (0, 2)] = 6371000 * (Real.pi / 90) := by
  simp only [lineLength]
  push_cast
  rw [exact_equator _ _ (by norm_num), exact_equator _ _ (by norm_num)]
  norm_num
  ring

/-- The track through (0, 0), (0, 1) and (0, 2). -/
example : ∃ (t : Track F64) (q : ℚ), Track.new "t" "#000000" [⟨lit 0, lit 0⟩, ⟨lit 0, lit 1⟩, ⟨lit 0, lit 2⟩] = .ok t ∧ Is t.dist q ∧
    |(q : ℝ) - 6371000 * (Real.pi / 90)| ≤ 24 / 10 ^ 7 := by
  obtain ⟨t, ht, -⟩ := (C01.newTrack_polyline (F := F64) "t" "#000000" [⟨lit 0, lit 0⟩, ⟨lit 0, lit 1⟩, ⟨lit 0, lit 2⟩]).1 (by simp)
  have i2 : Is (lit 2 : F64) 2 := by exact_mod_cast C84.small_nat 2
  have hl : Line t [(0, 0), (0, 1), (0, 2)] := by
    refine new_line _ _ _ _ t (Or.inl ht) ?_ ?_
    · refine .cons ⟨C84.lit_zero, C84.lit_zero, by norm_num, by norm_num⟩ (.cons ⟨C84.lit_zero, one_is, by norm_num, by norm_num⟩
        (.cons ⟨C84.lit_zero, i2, by norm_num, by norm_num⟩ .nil))
    · have := Real.pi_le_four
      refine ⟨?_, ?_, trivial⟩
      all_goals
        push_cast
        rw [exact_equator _ _ (by norm_num)]
        norm_num
        linarith
  have hn : t.segments.length = 2 := by
    obtain ⟨pts, hp, hf⟩ := hl.points
    have := hp.length
    rw [hf.length_eq] at this
    simpa using this
  obtain ⟨q, h1, h2⟩ := track_length ideal_library ideal_accurate t _ hl
    (by rw [two_degrees]; have := Real.pi_le_four; linarith) (by rw [hn]; norm_num)
  rw [two_degrees, hn] at h2
  exact ⟨t, q, ht, h1, h2.trans (by norm_num)⟩

/-- A new navigator that was given a route, then moves by 5 m and by 7 m. -/
example : ∃ (n : Navigator F64) (q : ℚ), Driven 12 2 n ∧ Is n.currentDistance q ∧ |(q : ℝ) - 12| ≤ 48 / 10 ^ 8 := by
  obtain ⟨n0, n1, n2, n3, h0, h1, hne, -, h2, h3, -⟩ := C84.side_drive
  have i5 : Is (lit 5 : F64) 5 := by exact_mod_cast C84.small_nat 5
  have i7 : Is (lit 7 : F64) 7 := by exact_mod_cast C84.small_nat 7
  have d : Driven (0 + ((5 : ℚ) : ℝ) * ((1 : ℚ) : ℝ) + ((7 : ℚ) : ℝ) * ((1 : ℚ) : ℝ)) (0 + 1 + 1) n3 :=
    .land (.land (.added (.new h0) h1 hne) i5 one_is (by norm_num) h2) i7 one_is (by norm_num) h3
  have e : (0 + ((5 : ℚ) : ℝ) * ((1 : ℚ) : ℝ) + ((7 : ℚ) : ℝ) * ((1 : ℚ) : ℝ)) = 12 := by norm_num
  rw [e] at d
  obtain ⟨q, k1, k2⟩ := odometer _ _ _ d (by norm_num) (by norm_num)
  exact ⟨n3, q, d, k1, k2.trans (by norm_num)⟩

end

end C85
end GpsGen
