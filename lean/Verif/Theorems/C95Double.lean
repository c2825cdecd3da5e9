import Verif.Theorems.C95
import Verif.Theorems.C84
import Verif.Theorems.C27Double
/-!
# C95 in IEEE doubles

The road of C95 with the rounding of `float64` and a mathematical library of stated accuracy (C83, C84): after its first
successful step, a device is published within a thirtieth of a millimetre of the shortest line between the ends of one of
its segments.
-/

namespace GpsGen
namespace C95.Double
open F64 Device Navigator Run C28.Double C27.Double

attribute [local irreducible] Round64.rndQ Round64.pow2

/-! ## Specification -/

/-- The point is within 1/30000 m of the shortest line between the ends of the segment. -/
def OnSeg (s : Segment F64) (p : LatLon F64) : Prop := ∃ m : ℚ, 0 ≤ m ∧ C84.NearLine s.pointA s.pointB p m

/-- The segments are those of a line of points away from the poles, neighbours being at most 500 km apart, the first
segment being at least a metre long. -/
def Fine [MathLib] (g : List (Segment F64)) : Prop :=
  C84.Drawn g ∧ ∀ s, g[0]? = some s → ((lit 1 : F64) <=. s.dist) = true

/-- Whenever a round begins, a device with routes has a positive time for them. -/
def Timed [MathLib] (d : Device F64) (start : Int) (l : List (Int × NextRnd F64)) : Prop :=
  ∀ k d', driveDevice d start (l.take k) = .ok d' → d'.navigator.routes ≠ [] → Positive d'.avgT

/-! ## Steps -/

/-- Successful steps end near the road. -/
theorem lands [MathLib] (L : C46.Double.Library) (A : C83.Accurate) (T : Arctan) :
    Lands Fine (fun x : F64 => (x <. lit 0) = false) C84.Forward OnSeg where
  keep n n' t s x b _ h0 hs h := grows (Q := fun x : F64 => (x <. lit 0) = false) (S := C84.Forward)
    ((C84.not_neg C84.lit_zero).mpr le_rfl) (fun d t s h1 h2 => C84.add_not_neg h1 h2) h0 hs h
  place n n' t s x hp h0 hs h := by
    have hroutes := (nextLocation_routes h).1
    obtain ⟨g, ha, h1, h2⟩ := C84.step_near_line L A T n n' (fun r hr q hq => (hp r hr q hq).1) h0 t s x hs h
    obtain ⟨r, q, -, a2, -, a4, -, a6⟩ := ha
    rw [hroutes] at a2
    have hq := hp r (List.mem_of_getElem? a2) q (List.mem_of_getElem? a4)
    refine ⟨g, List.mem_flatMap.mpr ⟨r, List.mem_of_getElem? a2, List.mem_flatMap.mpr ⟨q, List.mem_of_getElem? a4,
      List.mem_of_getElem? a6⟩⟩, ?_⟩
    by_cases hf : C84.First n n'
    · refine ⟨1, by norm_num, h1 hf ?_⟩
      have h3 := hf.2.1
      rw [h3] at a6
      exact hq.2 g a6
    · obtain ⟨m, -, m0, hm⟩ := h2 hf
      exact ⟨m, m0, hm⟩

theorem seconds_ne_nan (ns : Int) : (durSeconds ns : F64) ≠ .nan := by
  have hb : |ns.tmod 1000000000| ≤ 2 ^ 53 := by
    have h1 := Int.tmod_lt_of_pos ns (show (0 : Int) < 1000000000 by norm_num)
    have h2 := Int.lt_tmod_of_pos ns (show (0 : Int) < 1000000000 by norm_num)
    rw [abs_le]
    constructor <;> norm_num <;> omega
  obtain ⟨s1, r1, e1⟩ := lit_fin (q := (ns.tmod 1000000000 : ℚ)) _ rfl hb
  obtain ⟨s2, r2, e2⟩ := lit_fin (q := 1000000000) 1000000000 (by norm_num) (by norm_num)
  have hx : (lit (ns.tdiv 1000000000 : ℚ) : F64) ≠ .nan := round_ne_nan _ _
  have hq : Is ((lit (ns.tmod 1000000000 : ℚ) : F64) /. lit 1000000000) (Round64.rndQ ((ns.tmod 1000000000 : ℚ) / 1000000000)) := by
    rw [e1, e2, fin_div, if_neg (by norm_num)]
    refine (C83.rnd_fin _ ?_).1
    rw [abs_div]
    have h3 : |(ns.tmod 1000000000 : ℚ)| ≤ 2 ^ 53 := by exact_mod_cast hb
    refine (div_le_div_of_nonneg_right h3 (abs_nonneg _)).trans ?_
    norm_num
  obtain ⟨s3, r3, e3⟩ := hq
  unfold durSeconds
  rw [e3]
  generalize (lit (ns.tdiv 1000000000 : ℚ) : F64) = x at *
  cases x with
  | nan => exact absurd rfl hx
  | inf s => nofun
  | fin s q h => rw [fin_add]; exact round_ne_nan _ _

/-- Ticks are at least a second. -/
theorem tick_nonneg (last t : Int) : ((lit 0 : F64) <=. tickOf last t) = true := by
  have hn := seconds_ne_nan (last - t)
  unfold tickOf
  simp only
  split
  · exact lit_nonneg (by norm_num)
  · refine le_of_not_lt ?_ (round_ne_nan _ _) (by rw [C84.abs_not_neg]; simp)
    generalize (durSeconds (last - t) : F64) = x at *
    cases x with
    | nan => exact absurd rfl hn
    | inf s => nofun
    | fin s q h => cases s <;> nofun

theorem product_not_neg {x y : F64} {v : ℚ} (hx : ((lit 0 : F64) <=. x) = true) (hy : Is y v) (hv : 0 ≤ v) :
    ((x *. y) <. lit 0) = false := by
  obtain ⟨s, r, rfl⟩ := hy
  obtain ⟨t, r', e⟩ := C84.lit_zero
  rcases nonneg_cases hx with ⟨s', q, r2, rfl, h0⟩ | rfl
  · have h1 : ((lit 0 : F64) <=. (F64.fin s' q r2 *. .fin s v r)) = true := by
      rw [fin_mul, e]
      exact fin_le_round _ (mul_nonneg h0 hv)
    rcases nonneg_cases h1 with ⟨_, k, _, h2, k0⟩ | h2
    · rw [h2]
      exact (C84.not_neg ⟨_, _, rfl⟩).mpr k0
    · rw [h2, e]
      rfl
  · show ((if v = 0 then F64.nan else .inf (false != s)) <. lit 0) = false
    rw [e]
    split
    · rfl
    · rename_i hne
      have : s = false := by rw [r.2.2 hne]; simp [hv]
      subst this
      rfl

/-- The steps of a device whose slowest speed is above the rounding errors do not go backwards. -/
theorem onward [MathLib] {a b : ℚ} {d : Device F64} (h : Ok a b d.speed) (h0 : 0 ≤ a) (hab : a = b ∨ tol b ≤ a)
    (hd : ((lit 0 : F64) <=. d.state.duration) = true) (last : Int) (l : List (Int × NextRnd F64))
    (hu : ∀ y ∈ l, ∀ i, Unit (y.2.speed i)) (ha : Timed d last l) : Onward C84.Forward d last l := by
  induction l generalizing d last with
  | nil => trivial
  | cons y l ih =>
    obtain ⟨t, r⟩ := y
    have ht := tick_nonneg last t
    have hp : d.navigator.routes ≠ [] → Positive d.avgT := ha 0 d rfl
    refine ⟨fun hne v hv => ?_, fun x hx => ?_⟩
    · obtain ⟨w, hw, w1, -, w3⟩ := ok_value h h0 (phase_unit hd (seconds_nonneg d ht) (hp hne)) hv
      refine product_not_neg (seconds_nonneg d ht) hw ?_
      rcases hab with e | e
      · rw [w3 e]; exact h0
      · linarith
    · obtain ⟨d1, m⟩ := x
      obtain ⟨i1, i2, -⟩ := next_parts h h0 hd ht (hu _ List.mem_cons_self) hp hx
      refine ih i1 i2 t (fun y hy => hu y (List.mem_cons_of_mem _ hy)) (fun k d' hk => ha (k + 1) d' ?_)
      show driveDevice d last ((t, r) :: l.take k) = _
      unfold driveDevice
      rw [hx]
      exact hk

/-! ## Positions -/

/-- **C95, doubles (partial).** A device of any history whose slowest speed is constant or above the rounding errors and
whose routes are drawn, driven by any ticker for any number of rounds: if it moved in one of them then the position it
publishes is within 1/30000 m of the line of one of its segments; otherwise it publishes what it published at the
beginning, or where its navigator was then.

Missing for the full property: the road before the first successful step and first segments shorter than 1 m (false, see
`C95.claim_fails`, `C80.claim_fails`); segments near the poles (`C84.claim_fails`); devices whose slowest speed is 0. -/
theorem on_road_partial [MathLib] (L : C46.Double.Library) (A : C83.Accurate) (T : Arctan) (mn mx : F64) (a b : ℚ)
    (hmn : Is mn a) (hmx : Is mx b) (hab : (bounds a b).1 = (bounds a b).2 ∨ tol (bounds a b).2 ≤ (bounds a b).1) (p : Prop)
    (d d' : Device F64) (h : Driven mn mx p d) (hf : Held.Holds Fine d.navigator)
    (h0 : (d.navigator.currentSegmentDistance <. lit 0) = false) (start : Int) (l : List (Int × NextRnd F64))
    (hu : ∀ y ∈ l, ∀ i, Unit (y.2.speed i)) (ht : Timed d start l) (hd : driveDevice d start l = .ok d') :
    (movedOnce d start l = true → Road OnSeg d.navigator (shown d')) ∧
    (movedOnce d start l = false → shown d' = shown d ∨ shown d' = d.navigator.point) := by
  obtain ⟨i1, i2, i3, -⟩ := driven_inv hmn hmx h
  obtain ⟨q1, q2⟩ := published (lands L A T) ⟨hf, h0⟩ (onward i1 i2 hab i3 start l hu ht) hd
  exact ⟨fun hc => (q1 hc).2, fun hc => (q2 hc).2⟩

/-- **C95, subscribers in doubles (partial).** In every execution of a generator with such devices, every state that
`onPacket` gets is that of an attached device after a round, with a position as in `on_road_partial`. -/
theorem subscribers_partial [MathLib] (L : C46.Double.Library) (A : C83.Accurate) (T : Arctan) (c : Cfg)
    (rnd : Nat → Nat → NextRnd F64) (devs : List Nat) (mem : Nat → Device F64) (start : Int) (hP : 1 ≤ c.packetSize)
    (hd : devs.Nodup)
    (hdr : ∀ p ∈ devs, ∃ mn mx a b q, Is mn a ∧ Is mx b ∧
      ((bounds a b).1 = (bounds a b).2 ∨ tol (bounds a b).2 ≤ (bounds a b).1) ∧ Driven mn mx q (mem p))
    (hf : ∀ p ∈ devs, Held.Holds Fine (mem p).navigator)
    (h0 : ∀ p ∈ devs, ((mem p).navigator.currentSegmentDistance <. lit 0) = false)
    (hu : ∀ p n i, Unit ((rnd p n).speed i)) (ht : ∀ p ∈ devs, ∀ ts, Timed (mem p) start (roundsOf rnd p ts)) (X : Live F64)
    (h : C79.Runs c rnd devs mem start X) (ho : X.gs.closed = false) (y : Option (DevState F64))
    (hy : y ∈ X.out.flatMap Prod.snd) :
    ∃ p t st, p ∈ devs ∧ (1 ≤ t ∧ t ≤ X.rounds.length) ∧ y = some st ∧
      Told OnSeg mem rnd start p (X.rounds.take t) st := by
  refine received_on_road (P := fun _ => Fine) (S := fun _ => C84.Forward) (fun _ _ => lands L A T) hP hd h ho
    (fun p hp => ⟨hf p hp, h0 p hp⟩) (fun p hp ts => ?_) y hy
  obtain ⟨mn, mx, a, b, q, e1, e2, e3, hq⟩ := hdr p hp
  obtain ⟨i1, i2, i3, -⟩ := driven_inv e1 e2 hq
  refine onward i1 i2 e3 i3 start _ ?_ (ht p hp ts)
  intro y hy
  obtain ⟨x, -, rfl⟩ := List.mem_map.mp hy
  exact hu _ _

/-! ## A case -/

/-- A step of 5 m/s for the second since the last round does not go backwards. -/
example [MathLib] : C84.Forward (tickOf 0 1000000000) (lit 5) := by
  unfold C84.Forward
  decide +kernel

end C95.Double
end GpsGen
