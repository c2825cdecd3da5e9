import Verif.Theorems.C102
import Verif.Theorems.C97Double
import Verif.Theorems.C85
import Verif.Theorems.C33Double
/-!
# C102 in IEEE doubles

The three example programs with fixed points, with the rounding of `float64`: texts are read as the nearest doubles, and
distances are computed with any mathematical library of the usual accuracy (`C46.Double.Library`, `C83.Accurate`).
-/

namespace GpsGen
namespace C102
namespace Double
open F64 Run Examples C40 C41 Device Navigator C101 C28.Double C27.Double C12.Double C46.Double HavErr C83 C85 Trip

attribute [local irreducible] Round64.rndQ Round64.pow2

/-! ## Specification -/

/-- The programs with fixed points, with how they read numbers. -/
inductive Program : Type 1
  /-- examples/addroute/default -/
  | byHand (track route : String × String)
  /-- examples/addroute/geojson -/
  | geo (gen : ℕ → ℕ → String × String)
  /-- examples/addroute/gpx -/
  | gpx (N : XmlText.NameChars) (T : GpxText F64) (gen : ℕ → ℕ → String × String)

/-- The drone of a program. -/
def build [MathLib] (x : DeviceRnd F64) : Program → Option (Device F64)
  | .byHand t r => (Examples.byHand t r).bind (drone x [])
  | .geo gen => (fromGeo gen).bind (drone x [])
  | .gpx N T gen => (fromGpx N T gen).bind (drone x [])

/-- Numbers in texts are read as the nearest double. -/
def Fine : Program → Prop
  | .gpx _ T _ => ∀ (l : NumLit) x, ofLit l = some x → T.parseFloat (String.ofList l.text) = some x
  | _ => True

/-- Random numbers for the speed lie in the unit interval. -/
def UnitSpeed (y : NextRnd F64) : Prop := ∀ i, Unit (y.speed i)

/-- The full claim, for one mathematical library: the programs work, and their callbacks never panic. -/
def Claim [MathLib] : Prop := ∀ (p : Program) (x : DeviceRnd F64) (cpus : Int), (∀ i, Unit (x.speedDraws i)) → Fine p →
  ∃ d, build x p = some d ∧ Works UnitSpeed (config cpus) d callback fun _ => True

/-! ## Drones -/

/-- The preset does not fail. -/
theorem drone_new (x : DeviceRnd F64) : ∃ d, Device.new x (some DeviceOptions.drone) = .ok d :=
  C33.new_ok C33.Double.smallNumbers_double x (DeviceOptions.drone (F := F64)) 1 2500 5 150 0 100
    (by simp [DeviceOptions.drone])
    (by simp [DeviceOptions.drone]) (by omega) (by omega) (by simp [DeviceOptions.drone])
    (by simp [DeviceOptions.drone]) (by omega) (by omega) (by omega)
    (by simp [DeviceOptions.drone, DeviceOptions.default])
    (by simp [DeviceOptions.drone, DeviceOptions.default]) (by omega) (by omega)
    ⟨by simp [DeviceOptions.drone, DeviceOptions.default], by simp [DeviceOptions.drone, DeviceOptions.default]⟩
    ⟨by simp [DeviceOptions.drone, DeviceOptions.default], by simp [DeviceOptions.drone, DeviceOptions.default]⟩
    (by simp [DeviceOptions.drone, DeviceOptions.default]) (by simp [DeviceOptions.drone, DeviceOptions.default]) rfl rfl

/-- The length is a number of usual size, and so are the lengths of the segments. -/
structure Usual (r : GpsGen.Route F64) : Prop where
  dist : ∃ q, Is r.dist q ∧ 1 ≤ q ∧ q ≤ 10 ^ 9
  segs : ∀ t ∈ r.tracks, ∀ s ∈ t.segments, AtMost (10 ^ 15) s.dist

/-- A device that was made with some sensors and has no routes. -/
structure Bare [MathLib] (d0 d : Device F64) : Prop where
  driven : ∃ q, C27.Double.Driven (DeviceOptions.drone (F := F64)).speedMin (DeviceOptions.drone (F := F64)).speedMax q d
  live : C54.Live d
  nav : d.navigator = d0.navigator
  speed : d.speed = d0.speed
  status : d.status = d0.status

theorem bare_sensor [MathLib] {d0 d : Device F64} (h : Bare d0 d) {s : Sensor F64}
    (ha : C54.ApiSensor s) : Bare d0 (d.addSensor [some s]) := by
  have hs : ∀ q, some q ∈ [some s] → q = s := by simp
  have e : (d.addSensor [some s]).navigator = d.navigator ∧ (d.addSensor [some s]).speed = d.speed ∧
      (d.addSensor [some s]).status = d.status := by
    unfold Device.addSensor
    rw [if_neg (by simp)]
    simp only
    split <;> exact ⟨rfl, rfl, rfl⟩
  obtain ⟨q, hq⟩ := h.driven
  refine ⟨⟨_, .step hq (op := .addSensor [some s]) trivial rfl ?_⟩,
    .step h.live (op := .addSensor [some s]) (fun q hq => hs q hq ▸ ha) rfl, e.1.trans h.nav, e.2.1.trans h.speed,
    e.2.2.trans h.status⟩
  rintro ⟨⟨_, _, h⟩, -⟩
  cases h

theorem touch_parts {F : Type} (r : GpsGen.Route F) : ∀ t ∈ (touchRoute r).tracks, ∃ u ∈ r.tracks, t.segments = u.segments := by
  intro t ht
  have : (touchRoute r).tracks = r.tracks.map fun t => t.propsOf.1 := by
    unfold touchRoute Route.propsOf; cases r.props <;> rfl
  rw [this] at ht
  obtain ⟨u, hu, rfl⟩ := List.mem_map.mp ht
  refine ⟨u, hu, ?_⟩
  unfold Track.propsOf
  cases u.props <;> rfl

theorem speed_parts {F : Type} [GoFloat F] {draws : ℕ → F} {mn mx : F} {amp : Int} {s : Speed F}
    (h : Speed.new draws mn mx amp = .ok s) (h1 : (mx <=. lit 0) = false) (h2 : (mn ==. lit 0) = false) :
    s.min = mn ∧ s.max = mx := by
  unfold Speed.new at h
  simp only [h1, h2, Bool.false_eq_true, if_false, Bool.false_and] at h
  split at h
  · cases h
  split at h
  · cases h
  split at h
  · cases h
  obtain ⟨_, -, h⟩ := bind_eq_ok h
  cases h
  exact ⟨rfl, rfl⟩

/-- The average travel time of a drone. -/
theorem time_pos [MathLib] {f : F64} {q : ℚ} (h : Is f q) (h1 : 1 / 2 ≤ q) (h2 : q ≤ 2 ^ 30) :
    Positive (f /. ((lit 5 +. lit 150) /. lit 2)) := by
  have e : ((lit 5 +. lit 150) /. lit 2 : F64) = lit (155 / 2) := by decide +kernel
  obtain ⟨v, ⟨s', r', e'⟩, hv⟩ : ∃ v : ℚ, Is (lit (155 / 2) : F64) v ∧ v = 155 / 2 := by
    refine ⟨_, lit_is (n := 155) (d := 2) (by norm_num [abs_of_pos]), by decide +kernel⟩
  obtain ⟨s, r, rfl⟩ := h
  subst hv
  rw [e, e', fin_div, if_neg (by norm_num)]
  have hq : |q / (155 / 2)| ≤ 2 ^ 30 := by
    rw [abs_of_nonneg (by positivity)]
    rw [div_le_iff₀ (by norm_num)]
    linarith
  obtain ⟨k1, k2⟩ := rnd_fin (s != s') hq
  refine ⟨_, k1, ?_⟩
  unfold Rnd uu et at k2
  have : (0 : ℝ) < (Round64.rndQ (q / (155 / 2)) : ℚ) := by
    have h1' : ((1 / 2 : ℚ) : ℝ) ≤ q := by exact_mod_cast h1
    push_cast at h1'
    have := (abs_le.mp k2).1
    rw [abs_of_nonneg (by push_cast; positivity)] at this
    push_cast at this
    norm_num at this
    linarith
  exact_mod_cast this

/-- A drone with sensors and a route of usual length is safe and completes laps for ever. -/
theorem drone_made [MathLib] (x : DeviceRnd F64) (u1 : ∀ i, Unit (x.speedDraws i)) (ss : List (Sensor F64))
    (hss : ∀ s ∈ ss, C54.ApiSensor s) (r : GpsGen.Route F64) (hr : Usual r) :
    ∃ d, drone x ss [r] = some d ∧ d.status = Status.stopped ∧ C54.DSafe d ∧
      ∀ start t y, (∀ k, UnitSpeed (y k)) → C97.Forever d start t y := by
  obtain ⟨d0, e⟩ := drone_new x
  have hpre : Device.preset x DeviceOptions.drone = some d0 := by unfold Device.preset; rw [e]; rfl
  have parts : d0.navigator.routes = [] ∧ d0.navigator.skipOffline = true ∧
      (d0.speed.min = lit 5 ∧ d0.speed.max = lit 150) ∧ d0.status = Status.stopped := by
    obtain ⟨n, s, b, st, k1, k2, k3, k4, rfl⟩ := Device.new_eq e
    refine ⟨?_, ?_, ?_, rfl⟩
    · obtain ⟨_, _, _, -, -, -, rfl⟩ := new_cases k1
      rfl
    · obtain ⟨o1, o2, _, c1, c2, -, rfl⟩ := new_cases k1
      show o2.skipOffline = true
      rw [(validateElevation_frame c2).1, (validateOffline_frame c1).1]
      rfl
    · exact speed_parts k2 (by decide +kernel) (by decide +kernel)
  obtain ⟨p1, p2, p3, p4⟩ := parts
  have hbare : ∀ (l : List (Sensor F64)) (d : Device F64), (∀ s ∈ l, C54.ApiSensor s) → Bare d0 d →
      Bare d0 (l.foldl (fun d s => d.addSensor [some s]) d) := by
    intro l
    induction l with
    | nil => intro d _ h; exact h
    | cons s l ih =>
      intro d hl h
      exact ih _ (fun s hs => hl s (List.mem_cons_of_mem _ hs)) (bare_sensor h (hl s List.mem_cons_self))
  have hb := hbare ss d0 hss ⟨⟨_, .init u1 rfl rfl e⟩, .new e, rfl, rfl, rfl⟩
  set d := ss.foldl (fun d s => d.addSensor [some s]) d0 with hdef
  have hn0 : d.navigator.routes = [] := by rw [hb.nav]; exact p1
  have hadd : d.navigator.addRoute [some r] = (({ d.navigator with routes := [r] } : Navigator F64).reset.nextVersion, none) := by
    unfold Navigator.addRoute
    rw [if_neg (by simp), hn0]
    rfl
  have hd' : (d.addRoute [some r]).1 = ({ d with navigator := ({ d.navigator with routes := [r] } : Navigator F64).reset.nextVersion } :
      Device F64).updateRoutes := by
    unfold Device.addRoute
    rw [hadd]
  refine ⟨(d.addRoute [some r]).1, by unfold drone; rw [hpre]; rfl, ?_, ?_⟩
  · rw [← p4, ← hb.status, hd']
    rfl
  obtain ⟨q, hq⟩ := hb.driven
  have hD := C27.Double.Driven.step hq (op := .addRoute [some r]) trivial rfl (by rintro ⟨⟨_, _, h⟩, -⟩; cases h)
  have hL : C54.Live (d.addRoute [some r]).1 := .step hb.live (op := .addRoute [some r]) trivial rfl
  refine ⟨C54.live_safe hL, fun start t y hu => ?_⟩
  obtain ⟨v, hv, v1, v2⟩ := hr.dist
  have hz : Is (lit 0 : F64) 0 := by
    obtain ⟨r0, e0⟩ := lit_nat (q := 0) 0 (by norm_num) (by norm_num) (by norm_num)
    exact ⟨_, r0, e0⟩
  obtain ⟨w, hw, rw'⟩ := add_rnd hz hv (by rw [zero_add, abs_of_nonneg (by linarith)]; linarith)
  have hw2 : 1 / 2 ≤ w ∧ w ≤ 2 ^ 30 := by
    unfold Rnd uu et at rw'
    have h1' : (1 : ℝ) ≤ v := by exact_mod_cast v1
    have h2' : (v : ℝ) ≤ 10 ^ 9 := by exact_mod_cast v2
    simp only [Rat.cast_zero, zero_add] at rw'
    rw [abs_of_nonneg (show (0 : ℝ) ≤ v by linarith)] at rw'
    obtain ⟨a1, a2⟩ := abs_le.mp rw'
    norm_num at a1 a2 h2'
    have b1 : ((1 / 2 : ℚ) : ℝ) ≤ w := by push_cast; linarith
    have b2 : (w : ℝ) ≤ 2 ^ 30 := by norm_num; linarith
    exact ⟨by exact_mod_cast b1, by exact_mod_cast b2⟩
  have g : (d.addRoute [some r]).1.navigator.routes = [touchRoute r] ∧ (d.addRoute [some r]).1.navigator.skipOffline = true ∧
      (d.addRoute [some r]).1.navigator.currentSegmentDistance = lit 0 ∧
      (d.addRoute [some r]).1.avgT = (lit 0 +. r.dist) /. ((lit 5 +. lit 150) /. lit 2) ∧ C97.Settled (d.addRoute [some r]).1 := by
    rw [hd']
    refine ⟨rfl, by show d.navigator.skipOffline = true; rw [hb.nav]; exact p2, rfl, ?_, rfl⟩
    show (lit 0 +. r.dist) /. ((d.speed.min +. d.speed.max) /. lit 2) = _
    rw [hb.speed, p3.1, p3.2]
  obtain ⟨g1, g2, g3, g4, g5⟩ := g
  have i5 : Is (DeviceOptions.drone (F := F64)).speedMin 5 := by
    obtain ⟨r0, e0⟩ := lit_nat (q := 5) 5 (by norm_num) (by norm_num) (by norm_num)
    exact ⟨_, r0, e0⟩
  have i150 : Is (DeviceOptions.drone (F := F64)).speedMax 150 := by
    obtain ⟨r0, e0⟩ := lit_nat (q := 150) 150 (by norm_num) (by norm_num) (by norm_num)
    exact ⟨_, r0, e0⟩
  refine C97.Double.no_offline_partial _ _ 5 150 4 (10 ^ 15) i5 i150 _ _ hD hL (by rw [g1]; simp) g2 g5 ?_ (Or.inr ?_) ?_ ?_ ?_ ?_
    start t y hu
  · rw [g4]
    exact time_pos hw hw2.1 hw2.2
  · have : (2 : ℚ) ^ (-500 : ℤ) ≤ 2 ^ (-1 : ℤ) := zpow_le_zpow_right₀ (by norm_num) (by norm_num)
    unfold bounds tol
    norm_num at *
    linarith
  · norm_num
  · have : (2 : ℚ) ^ (-1074 : ℤ) ≤ 2 ^ (0 : ℤ) := zpow_le_zpow_right₀ (by norm_num) (by norm_num)
    norm_num at *
    linarith
  · intro r' hr' t ht s hs
    rw [g1] at hr'
    cases List.mem_singleton.mp hr'
    obtain ⟨u, hu, e⟩ := touch_parts r t ht
    exact hr.segs u hu s (e ▸ hs)
  · rw [g3]
    obtain ⟨s, r0, e0⟩ := hz
    rw [e0]
    exact le_refl (0 : ℚ)

/-! ## Lines -/

/-- Neighbours differ by at most 48 degrees of latitude and 37 of longitude. -/
def Tight : List (ℚ × ℚ) → Prop
  | p :: q :: rest => (|q.1 - p.1| ≤ 48 ∧ |q.2 - p.2| ≤ 37) ∧ Tight (q :: rest)
  | _ => True

/-- The double coordinates nearest to these numbers. -/
def Nearest (p : LatLon F64) (x : ℚ × ℚ) : Prop := Is p.lat (Round64.rndQ x.1) ∧ Is p.lon (Round64.rndQ x.2)

theorem rnd_close {q : ℚ} (h : |q| ≤ 180) : |Round64.rndQ q - q| ≤ 1 / 10 ^ 9 := by
  obtain ⟨-, k⟩ := rnd_fin false (q := q) (h.trans (by norm_num))
  unfold Rnd uu et at k
  have h' : |(q : ℝ)| ≤ 180 := by exact_mod_cast h
  have : |((Round64.rndQ q : ℚ) : ℝ) - q| ≤ 1 / 10 ^ 9 := by
    refine k.trans ?_
    norm_num at *
    linarith
  have e : (((|Round64.rndQ q - q| : ℚ)) : ℝ) ≤ ((1 / 10 ^ 9 : ℚ) : ℝ) := by push_cast; exact this
  exact_mod_cast e

theorem haversine_real (a b c d : ℝ) : haversine a b c d = Real.sin ((rad c - rad a) / 2) ^ 2 +
    Real.cos (rad a) * Real.cos (rad c) * Real.sin ((rad d - rad b) / 2) ^ 2 := by
  simp [haversine, rad, radians]
  ring

theorem rad_diff {x y B : ℝ} (h : |y - x| ≤ B) : |(rad y - rad x) / 2| ≤ B * (315 / 100 / 360) := by
  have e : (rad y - rad x) / 2 = (y - x) * (Real.pi / 360) := by unfold rad; ring
  have hB : 0 ≤ B := (abs_nonneg _).trans h
  rw [e, abs_mul, abs_of_pos (by positivity : 0 < Real.pi / 360)]
  have := Real.pi_lt_d2
  exact mul_le_mul h (by norm_num at *; linarith) (by positivity) hB

theorem sin_sq_le {x B : ℝ} (h : |x| ≤ B) : Real.sin x ^ 2 ≤ B ^ 2 := by
  have h1 : |Real.sin x| ≤ B := Real.abs_sin_le_abs.trans h
  rw [← sq_abs (Real.sin x)]
  exact pow_le_pow_left₀ (abs_nonneg _) h1 2

/-- Points that differ by at most 49 and 38 degrees. -/
theorem exact_le {a b c d : ℝ} (h1 : |c - a| ≤ 49) (h2 : |d - b| ≤ 38) : exact a b c d ≤ 10000000 := by
  have k1 := sin_sq_le (rad_diff h1)
  have k2 := sin_sq_le (rad_diff h2)
  have k3 : Real.cos (rad a) * Real.cos (rad c) ≤ 1 := by
    have e1 := Real.abs_cos_le_one (rad a)
    have e2 := Real.abs_cos_le_one (rad c)
    refine (le_abs_self _).trans ?_
    rw [abs_mul]
    exact mul_le_one₀ e1 (abs_nonneg _) e2
  have k4 : Real.cos (rad a) * Real.cos (rad c) * Real.sin ((rad d - rad b) / 2) ^ 2 ≤ Real.sin ((rad d - rad b) / 2) ^ 2 :=
    mul_le_of_le_one_left (sq_nonneg _) k3
  have hh : haversine a b c d ≤ (6 / 10) ^ 2 := by
    rw [haversine_real]
    norm_num at *
    linarith
  have hr : root a b c d ≤ 6 / 10 := by
    unfold root
    exact Real.sqrt_le_iff.mpr ⟨by norm_num, hh⟩
  have hs : (6 / 10 : ℝ) ≤ Real.sin (7 / 10) := by
    have := Real.sin_gt_sub_cube (x := 7 / 10) (by norm_num)
    norm_num at *
    linarith
  have hp := Real.pi_gt_d2
  have ha : Real.arcsin (root a b c d) ≤ 7 / 10 := by
    rw [Real.arcsin_le_iff_le_sin' ⟨by norm_num at *; linarith, by norm_num at *; linarith⟩]
    exact hr.trans hs
  rw [exact_root]
  norm_num at *
  linarith

theorem cos_nonneg {a : ℝ} (h : |a| ≤ 90) : 0 ≤ Real.cos (rad a) := by
  have hp := Real.pi_pos
  obtain ⟨h1, h2⟩ := abs_le.mp h
  apply Real.cos_nonneg_of_neg_pi_div_two_le_of_le <;> unfold rad <;> nlinarith

theorem exact_ge {a b c d : ℝ} (ha : |a| ≤ 90) (hc : |c| ≤ 90) : 6371000 * |rad c - rad a| ≤ exact a b c d := by
  have hp := Real.pi_pos
  have h1 : |(rad c - rad a) / 2| ≤ Real.pi / 2 := by
    obtain ⟨a1, a2⟩ := abs_le.mp ha
    obtain ⟨c1, c2⟩ := abs_le.mp hc
    unfold rad
    rw [abs_le]
    constructor <;> nlinarith
  have h2 : |Real.sin ((rad c - rad a) / 2)| ≤ root a b c d := by
    unfold root
    apply Real.le_sqrt_of_sq_le
    rw [sq_abs, haversine_real]
    have := mul_nonneg (mul_nonneg (cos_nonneg ha) (cos_nonneg hc)) (sq_nonneg (Real.sin ((rad d - rad b) / 2)))
    linarith
  have h3 : |(rad c - rad a) / 2| ≤ Real.arcsin (root a b c d) := by
    refine le_trans (le_of_eq ?_) (Real.arcsin_le_arcsin h2)
    rw [Real.abs_sin_eq_sin_abs_of_abs_le_pi (h1.trans (by linarith)),
      Real.arcsin_sin (by linarith [abs_nonneg ((rad c - rad a) / 2)]) h1]
  rw [exact_root]
  rw [abs_div, abs_of_pos (by norm_num : (0 : ℝ) < 2)] at h3
  linarith

theorem nearest_at {p : LatLon F64} {x : ℚ × ℚ} (h : Nearest p x) (h1 : |x.1| ≤ 89) (h2 : |x.2| ≤ 179) :
    At p (Round64.rndQ x.1, Round64.rndQ x.2) := by
  have k1 := rnd_close (h1.trans (by norm_num))
  have k2 := rnd_close (h2.trans (by norm_num))
  refine ⟨h.1, h.2, ?_, ?_⟩
  · have := abs_add_le (Round64.rndQ x.1 - x.1) x.1
    rw [sub_add_cancel] at this
    norm_num at *
    linarith
  · have := abs_add_le (Round64.rndQ x.2 - x.2) x.2
    rw [sub_add_cancel] at this
    norm_num at *
    linarith

theorem diff_close {x y B : ℚ} (hx : |x| ≤ 180) (hy : |y| ≤ 180) (h : |y - x| ≤ B) : |Round64.rndQ y - Round64.rndQ x| ≤ B + 1 := by
  have k1 := abs_le.mp (rnd_close hx)
  have k2 := abs_le.mp (rnd_close hy)
  have k3 := abs_le.mp h
  norm_num at k1 k2
  rw [abs_le]
  constructor <;> linarith [k1.1, k1.2, k2.1, k2.2, k3.1, k3.2]

/-- The rounded points. -/
def rounded (xs : List (ℚ × ℚ)) : List (ℚ × ℚ) := xs.map fun x => (Round64.rndQ x.1, Round64.rndQ x.2)

theorem short_rounded : ∀ (xs : List (ℚ × ℚ)), (∀ x ∈ xs, |x.1| ≤ 89 ∧ |x.2| ≤ 179) → Tight xs →
    C85.Short (rounded xs) ∧ lineLength (rounded xs) ≤ 10000000 * xs.length
  | [], _, _ => ⟨trivial, by simp [rounded, lineLength]⟩
  | [_], _, _ => ⟨trivial, by simp [rounded, lineLength]⟩
  | p :: q :: xs, h, ht => by
    obtain ⟨i1, i2⟩ := short_rounded (q :: xs) (fun x hx => h x (List.mem_cons_of_mem _ hx)) ht.2
    obtain ⟨p1, p2⟩ := h p List.mem_cons_self
    obtain ⟨q1, q2⟩ := h q (List.mem_cons_of_mem _ List.mem_cons_self)
    have d1 := diff_close (p1.trans (by norm_num)) (q1.trans (by norm_num)) ht.1.1
    have d2 := diff_close (p2.trans (by norm_num)) (q2.trans (by norm_num)) ht.1.2
    have e : exact (Round64.rndQ p.1 : ℚ) (Round64.rndQ p.2 : ℚ) (Round64.rndQ q.1 : ℚ) (Round64.rndQ q.2 : ℚ) ≤ 10000000 := by
      apply exact_le
      · norm_num at d1; exact_mod_cast d1
      · norm_num at d2; exact_mod_cast d2
    refine ⟨⟨e, i1⟩, ?_⟩
    have : lineLength (rounded (p :: q :: xs)) = exact (Round64.rndQ p.1 : ℚ) (Round64.rndQ p.2 : ℚ) (Round64.rndQ q.1 : ℚ)
      (Round64.rndQ q.2 : ℚ) + lineLength (rounded (q :: xs)) := rfl
    rw [this, List.length_cons]
    push_cast
    linarith

/-- A route that gets a track along a few points, the first two of which differ in latitude. -/
theorem line_usual [MathLib] (L : Library) (A : Accurate) {uid color : String} {pts : List (LatLon F64)} {x y : ℚ × ℚ} {xs : List (ℚ × ℚ)}
    {r : GpsGen.Route F64} (h0 : r.tracks = []) (hp : List.Forall₂ Nearest pts (x :: y :: xs))
    (hx : ∀ z ∈ x :: y :: xs, |z.1| ≤ 89 ∧ |z.2| ≤ 179) (ht : Tight (x :: y :: xs)) (hd : 1 / 2 ≤ |y.1 - x.1|) (hn : xs.length ≤ 48) :
    ∃ t, Track.new uid color pts = .ok t ∧ Usual (r.addTrack (some t)) := by
  obtain ⟨s1, s2⟩ := short_rounded _ hx ht
  have hlen := hp.length_eq
  obtain ⟨t, e, -⟩ := (C01.newTrack_polyline uid color pts).1 (by rw [hlen]; simp)
  have hat : ∀ (pts : List (LatLon F64)) (xs : List (ℚ × ℚ)), List.Forall₂ Nearest pts xs → (∀ z ∈ xs, |z.1| ≤ 89 ∧ |z.2| ≤ 179) →
      List.Forall₂ At pts (rounded xs) := by
    intro pts xs h
    induction h with
    | nil => intro _; exact .nil
    | cons h _ ih =>
      intro hx
      exact .cons (nearest_at h (hx _ List.mem_cons_self).1 (hx _ List.mem_cons_self).2) (ih fun z hz => hx z (List.mem_cons_of_mem _ hz))
  have hA := hat _ _ hp hx
  have hline := new_line uid color pts _ t (Or.inl e) hA s1
  have hsum : (t.segments.map (·.dist)) = dists pts := by
    obtain ⟨t', h1, -, -, h2, -⟩ := (C01.newTrack_polyline uid color pts).1 (by rw [hlen]; simp)
    rw [h1] at e
    cases e
    exact polyline_dists h2
  obtain ⟨l, e1, e2, e3, e4, e5⟩ := dists_near L A pts _ hA s1
  have hll : l.length ≤ 49 := by rw [e5]; simp [rounded]; omega
  have hsl : t.segments.length = l.length := by
    have := congrArg List.length hsum
    rw [← e1] at this
    simpa using this
  have s3 : lineLength (rounded (x :: y :: xs)) ≤ 5 * 10 ^ 8 := by
    refine s2.trans ?_
    have : ((x :: y :: xs).length : ℝ) ≤ 50 := by
      have : (x :: y :: xs).length ≤ 50 := by simp; omega
      exact_mod_cast this
    norm_num at *
    linarith
  refine ⟨t, e, ?_, ?_⟩
  · have hlines : Lines (r.addTrack (some t)) [rounded (x :: y :: xs)] := by
      have ht : (r.addTrack (some t)).tracks = [t] := by unfold Route.addTrack; simp only [h0]; rfl
      refine ⟨by rw [ht]; exact .cons hline .nil, ?_⟩
      unfold C02.Consistent
      rw [ht]
      unfold Route.addTrack
      simp only [h0]
      rfl
    have htr : (r.addTrack (some t)).tracks = [t] := by unfold Route.addTrack; simp only [h0]; rfl
    have hseg : segCount (r.addTrack (some t)) = l.length := by unfold segCount; rw [htr]; simp [hsl]
    obtain ⟨q, hq, he⟩ := route_length L A _ _ hlines (by simp only [List.map_cons, List.map_nil, List.sum_cons, List.sum_nil]; linarith)
      (by rw [hseg, htr]; simp; omega)
    refine ⟨q, hq, ?_⟩
    rw [hseg, htr] at he
    simp only [List.map_cons, List.map_nil, List.sum_cons, List.sum_nil, add_zero, List.length_singleton, Nat.cast_one, one_mul] at he
    have hl' : (l.length : ℝ) ≤ 49 := by exact_mod_cast hll
    have hge : 100 ≤ lineLength (rounded (x :: y :: xs)) := by
      have : lineLength (rounded (x :: y :: xs)) = exact (Round64.rndQ x.1 : ℚ) (Round64.rndQ x.2 : ℚ) (Round64.rndQ y.1 : ℚ)
        (Round64.rndQ y.2 : ℚ) + lineLength (rounded (y :: xs)) := rfl
      rw [this]
      have l0 := lineLength_nonneg (rounded (y :: xs))
      obtain ⟨p1, p2⟩ := hx x List.mem_cons_self
      obtain ⟨q1, q2⟩ := hx y (List.mem_cons_of_mem _ List.mem_cons_self)
      have c1 := rnd_close (p1.trans (by norm_num))
      have c2 := rnd_close (q1.trans (by norm_num))
      have b : ∀ z : ℚ, |z| ≤ 89 → |((Round64.rndQ z : ℚ) : ℝ)| ≤ 90 := by
        intro z hz
        have c := rnd_close (hz.trans (by norm_num : (89 : ℚ) ≤ 180))
        have := abs_add_le (Round64.rndQ z - z) z
        rw [sub_add_cancel] at this
        have : |Round64.rndQ z| ≤ 90 := by norm_num at *; linarith
        exact_mod_cast this
      have g := exact_ge (b := (Round64.rndQ x.2 : ℚ)) (d := (Round64.rndQ y.2 : ℚ)) (b _ p1) (b _ q1)
      have d1 : 1 / 4 ≤ |Round64.rndQ y.1 - Round64.rndQ x.1| := by
        have t1 := abs_sub_abs_le_abs_sub (y.1 - x.1) ((y.1 - Round64.rndQ y.1) + (Round64.rndQ x.1 - x.1))
        have t2 := abs_add_le (y.1 - Round64.rndQ y.1) (Round64.rndQ x.1 - x.1)
        rw [abs_sub_comm y.1] at t2
        have t3 : y.1 - x.1 - (y.1 - Round64.rndQ y.1 + (Round64.rndQ x.1 - x.1)) = Round64.rndQ y.1 - Round64.rndQ x.1 := by ring
        rw [t3] at t1
        norm_num at *
        linarith
      have d2 : ((1 / 4 : ℚ) : ℝ) ≤ |((Round64.rndQ y.1 : ℚ) : ℝ) - (Round64.rndQ x.1 : ℚ)| := by exact_mod_cast d1
      have er : rad ((Round64.rndQ y.1 : ℚ) : ℝ) - rad ((Round64.rndQ x.1 : ℚ) : ℝ) =
          (((Round64.rndQ y.1 : ℚ) : ℝ) - (Round64.rndQ x.1 : ℚ)) * (Real.pi / 180) := by unfold rad; ring
      rw [er, abs_mul, abs_of_pos (by positivity : 0 < Real.pi / 180)] at g
      have hp := Real.pi_gt_three
      have : (1 / 4 : ℝ) * (3 / 180) ≤ |((Round64.rndQ y.1 : ℚ) : ℝ) - (Round64.rndQ x.1 : ℚ)| * (Real.pi / 180) :=
        mul_le_mul (by push_cast at d2; exact d2) (by linarith) (by norm_num) (abs_nonneg _)
      linarith
    obtain ⟨a1, a2⟩ := abs_le.mp he
    have w1 : ((1 : ℚ) : ℝ) ≤ q := by push_cast; norm_num at a1 a2 s3; linarith
    have w2 : (q : ℝ) ≤ ((10 ^ 9 : ℚ) : ℝ) := by push_cast; norm_num at a1 a2 s3; norm_num; linarith
    exact ⟨by exact_mod_cast w1, by exact_mod_cast w2⟩
  · intro u hu s hs
    have htr : (r.addTrack (some t)).tracks = [t] := by unfold Route.addTrack; simp only [h0]; rfl
    rw [htr] at hu
    cases List.mem_singleton.mp hu
    have hm : s.dist ∈ dists pts := by rw [← hsum]; exact List.mem_map_of_mem hs
    rw [← e1] at hm
    obtain ⟨p, hp', e6⟩ := List.mem_map.mp hm
    obtain ⟨⟨q, ⟨b, rp, e7⟩, hq⟩, n1, n2⟩ := e2 p hp'
    rw [← e6, e7]
    have m1 : p.2.1 ≤ (l.map (·.2.1)).sum := sum_le_of_mem (by
      intro z hz
      obtain ⟨w, hw, rfl⟩ := List.mem_map.mp hz
      exact (e2 w hw).2.1) (List.mem_map_of_mem (f := fun p : F64 × ℝ × ℝ => p.2.1) hp')
    have m2 : p.2.2 ≤ (l.map (·.2.2)).sum := sum_le_of_mem (by
      intro z hz
      obtain ⟨w, hw, rfl⟩ := List.mem_map.mp hz
      exact (e2 w hw).2.2) (List.mem_map_of_mem (f := fun p : F64 × ℝ × ℝ => p.2.2) hp')
    rw [e3] at m1
    rw [e4] at m2
    have hl' : (l.length : ℝ) ≤ 49 := by exact_mod_cast hll
    obtain ⟨a1, a2⟩ := abs_le.mp hq
    have : (q : ℝ) ≤ ((10 ^ 15 : ℚ) : ℝ) := by push_cast; norm_num at m1 m2 s3; norm_num; linarith
    show q ≤ 10 ^ 15
    exact_mod_cast this

/-! ## Routes -/

theorem lit_nearest {q : ℚ} (h : |q| ≤ 180) : Is (lit q : F64) (Round64.rndQ q) := (rnd_fin false (h.trans (by norm_num))).1

theorem ofLit_some {l : NumLit} (h : |l.value| ≤ 180) : ofLit l = some (double l) ∧ Is (double l) (Round64.rndQ l.value) := by
  obtain ⟨⟨s, r, e⟩, -⟩ := rnd_fin l.neg (h.trans (by norm_num))
  have : ofLit l = some (.fin s (Round64.rndQ l.value) r) := by
    unfold ofLit
    rw [e]
  refine ⟨by unfold double; rw [this]; rfl, ?_⟩
  unfold double
  rw [this]
  exact ⟨s, r, rfl⟩

theorem hand_made [MathLib] (L : Library) (A : Accurate) (track route : String × String) :
    ∃ r, byHand (F := F64) track route = some [r] ∧ Usual r := by
  obtain ⟨t, e, hu⟩ := line_usual L A (uid := track.1) (color := track.2) (pts := points)
    (x := (4474332748947083 / 10 ^ 14, 6767893291456264 / 10 ^ 14)) (y := (48249999904172114 / 10 ^ 15, 6486705299207989 / 10 ^ 14)) (xs := [])
    (r := Route.new route.1 route.2) rfl
    (.cons ⟨lit_nearest (by norm_num [abs_le]), lit_nearest (by norm_num [abs_le])⟩
      (.cons ⟨lit_nearest (by norm_num [abs_le]), lit_nearest (by norm_num [abs_le])⟩ .nil))
    (by
      intro z hz
      simp only [List.mem_cons, List.not_mem_nil, or_false] at hz
      rcases hz with rfl | rfl <;> norm_num [abs_le])
    ⟨by norm_num [abs_le], trivial⟩ (by norm_num [abs_of_pos]) (by simp)
  refine ⟨_, ?_, hu⟩
  unfold byHand
  rw [e]
  rfl

/-- The points of a text. -/
def values (ls : List (NumLit × NumLit)) : List (ℚ × ℚ) := ls.map fun p => (p.1.value, p.2.value)

theorem read_nearest : ∀ (ls : List (NumLit × NumLit)), (∀ z ∈ values ls, |z.1| ≤ 89 ∧ |z.2| ≤ 179) →
    List.Forall₂ Nearest (ls.map fun p => ⟨double p.1, double p.2⟩) (values ls)
  | [], _ => .nil
  | p :: ls, h => by
    obtain ⟨h1, h2⟩ := h (p.1.value, p.2.value) List.mem_cons_self
    exact .cons ⟨(ofLit_some (h1.trans (by norm_num))).2, (ofLit_some (h2.trans (by norm_num))).2⟩
      (read_nearest ls fun z hz => h z (List.mem_cons_of_mem _ hz))

/-- `Tight`, decided. -/
instance tightDecidable : (xs : List (ℚ × ℚ)) → Decidable (Tight xs)
  | [] => .isTrue trivial
  | [_] => .isTrue trivial
  | _ :: q :: rest => @instDecidableAnd _ _ _ (tightDecidable (q :: rest))

theorem geo_values : (∀ z ∈ values geoLits, |z.1| ≤ 89 ∧ |z.2| ≤ 179) ∧ Tight (values geoLits) := by decide +kernel

theorem gpx_values : (∀ z ∈ values gpxLits, |z.1| ≤ 89 ∧ |z.2| ≤ 179) ∧ Tight (values gpxLits) := by decide +kernel

theorem geo_made [MathLib] (L : Library) (A : Accurate) (gen : ℕ → ℕ → String × String) :
    ∃ r, fromGeo (F := F64) gen = some [r] ∧ Usual r := by
  obtain ⟨t0, -⟩ := geoRoute_is (F := F64) gen
  obtain ⟨t, e, hu⟩ := line_usual L A (uid := (gen 0 1).1) (color := (gen 0 1).2) t0 (read_nearest geoLits geo_values.1)
    geo_values.1 geo_values.2 (by decide +kernel) (by decide +kernel)
  exact ⟨_, geo_decoded gen _ t geo_read_double e, hu⟩

theorem gpx_made [MathLib] (L : Library) (A : Accurate) (N : XmlText.NameChars) (T : GpxText F64)
    (hT : ∀ (l : NumLit) x, ofLit l = some x → T.parseFloat (String.ofList l.text) = some x)
    (gen : ℕ → ℕ → String × String) : ∃ r, fromGpx N T gen = some [r] ∧ Usual r := by
  obtain ⟨t, e, hu⟩ := line_usual L A (uid := (gen 0 1).1) (color := (gen 0 1).2) (r := Route.new (gen 0 0).1 (gen 0 0).2) rfl
    (read_nearest gpxLits gpx_values.1) gpx_values.1 gpx_values.2 (by decide +kernel) (by decide +kernel)
  refine ⟨_, gpx_decoded N T gen _ t (gpx_read N T double fun p hp => ?_) e, hu⟩
  obtain ⟨h1, h2⟩ := gpx_values.1 (p.1.value, p.2.value) (List.mem_map_of_mem (f := fun p : NumLit × NumLit => (p.1.value, p.2.value)) hp)
  exact ⟨hT _ _ (ofLit_some (h1.trans (by norm_num))).1, hT _ _ (ofLit_some (h2.trans (by norm_num))).1⟩

/-! ## The programs -/

/-- What the programs build. -/
theorem built [MathLib] (L : Library) (A : Accurate) (p : Program) (x : DeviceRnd F64) (u1 : ∀ i, Unit (x.speedDraws i)) (hp : Fine p) :
    ∃ d, build x p = some d ∧ d.status = Status.stopped ∧ C54.DSafe d ∧
      ∀ start t y, (∀ k, UnitSpeed (y k)) → C97.Forever d start t y := by
  have one : ∀ (o : Option (List (GpsGen.Route F64))), (∃ r, o = some [r] ∧ Usual r) → ∃ d, o.bind (drone x []) = some d ∧
      d.status = Status.stopped ∧ C54.DSafe d ∧ ∀ start t y, (∀ k, UnitSpeed (y k)) → C97.Forever d start t y := by
    rintro _ ⟨r, rfl, hu⟩
    rw [Option.bind_some]
    exact drone_made x u1 [] (fun _ h => absurd h List.not_mem_nil) r hu
  cases p with
  | byHand t r =>
    have e : build x (.byHand t r) = (Examples.byHand t r).bind (drone x []) := by rw [build]
    rw [e]
    exact one _ (hand_made L A t r)
  | geo gen =>
    have e : build x (.geo gen) = (fromGeo gen).bind (drone x []) := by rw [build]
    rw [e]
    exact one _ (geo_made L A gen)
  | gpx N T gen =>
    have e : build x (.gpx N T gen) = (fromGpx N T gen).bind (drone x []) := by rw [build]
    rw [e]
    exact one _ (gpx_made L A N T hp gen)

/-- **C102 in doubles (partial).** The programs with fixed points work, and their callbacks do not panic while the generator is open.

Missing for the full property: callbacks after `Close` (false, `claim_fails`), and the programs with random routes. -/
theorem examples_work_partial [MathLib] (L : Library) (A : Accurate) (p : Program) (x : DeviceRnd F64) (cpus : Int)
    (u1 : ∀ i, Unit (x.speedDraws i)) (hp : Fine p) : ∃ d, build x p = some d ∧ Works UnitSpeed (config cpus) d callback Open := by
  obtain ⟨d, h1, h2, h3, h4⟩ := built L A p x u1 hp
  exact ⟨d, h1, works_of h2 h3 h4 cpus fun rnd start L hL ho => shown hL ho⟩

/-- A program whose route has a length between a metre and a million kilometres works in the same way, also with sensors. -/
theorem drone_works_partial [MathLib] (x : DeviceRnd F64) (cpus : Int) (u1 : ∀ i, Unit (x.speedDraws i)) (ss : List (Sensor F64))
    (hss : ∀ s ∈ ss, C54.ApiSensor s) (r : GpsGen.Route F64) (hr : Usual r) :
    ∃ d, drone x ss [r] = some d ∧ Works UnitSpeed (config cpus) d callback Open := by
  obtain ⟨d, h1, h2, h3, h4⟩ := drone_made x u1 ss hss r hr
  exact ⟨d, h1, works_of h2 h3 h4 cpus fun rnd start L hL ho => shown hL ho⟩

/-- **C102 fails in doubles**, after `Close`, for each of these programs. -/
theorem callback_fails [MathLib] (L : Library) (A : Accurate) (p : Program) (x : DeviceRnd F64) (cpus : Int)
    (u1 : ∀ i, Unit (x.speedDraws i)) (hp : Fine p) :
    ∃ d, build x p = some d ∧ ¬ Works UnitSpeed (config cpus) d callback fun _ => True := by
  obtain ⟨d, h1, h2, h3, -⟩ := built L A p x u1 hp
  exact ⟨d, h1, not_safe h2 h3 _ cpus⟩

/-! ## Examples -/

/-- Half of everything. -/
def half : DeviceRnd F64 := ⟨"id", "1", "#000000", some, "s", fun _ => lit (1 / 2), fun _ => lit (1 / 2)⟩

theorem half_unit : ∀ i, Unit (half.speedDraws i) := by
  intro i
  have e : Round64.rndQ (1 / 2) = 1 / 2 := by decide +kernel
  exact ⟨_, lit_nearest (by norm_num [abs_of_pos]), by rw [e]; norm_num, by rw [e]; norm_num⟩

theorem claim_fails [MathLib] (L : Library) (A : Accurate) : ¬ Claim := by
  intro h
  obtain ⟨d, h1, h2⟩ := h (.byHand ("t", "#000000") ("r", "#000000")) half 8 half_unit trivial
  obtain ⟨d', h3, h4⟩ := callback_fails L A (.byHand ("t", "#000000") ("r", "#000000")) half 8 half_unit trivial
  rw [h1] at h3
  cases h3
  exact h4 h2

/-- With the ideal library the program that reads GeoJSON works. -/
example : letI := ideal
    ∃ d, build half (.geo fun _ _ => ("i", "#000000")) = some d ∧ Works UnitSpeed (config 8) d callback Open :=
  letI := ideal
  examples_work_partial ideal_library ideal_accurate _ half 8 half_unit trivial

/-- The first point of the GeoJSON text is read as the nearest double. -/
example : (double ⟨false, 23, [7,6,6,0,2,6,7,4,4,9,9,5,6,2,8], none⟩ ==. lit (23766026744995628 / 10 ^ 15)) = true ∧
    (double ⟨false, 23, [7,6,6,0,2,6,7,4,4,9,9,5,6,2,8], none⟩ ==. lit (23766026744995624 / 10 ^ 15)) = false := by decide +kernel

end Double
end C102
end GpsGen
