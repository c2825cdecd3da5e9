import Verif.Theorems.C95
import Verif.Theorems.C27
import Verif.Theorems.C33
import Verif.Theorems.C80
/-!
# C95 in exact arithmetic: the road is made of great circles

Over the real numbers. A device of any history, with any draws in the unit interval, in a generator with any ticker:
after its first successful step it is on the shortest line between the ends of one of its segments whenever it is
published. Before that it is published at latitude 0 and longitude 0, and with a track recorded densely enough this is so
for ever.
-/

namespace GpsGen
namespace C95
open Device Navigator Run

/-! ## Specification -/

/-- The point is on the shortest line between the ends of the segment. -/
def OnSeg (s : Segment ℝ) (p : LatLon ℝ) : Prop := C80.OnLine s.pointA s.pointB p

/-- The segments are the polyline of points away from the poles, the first one being at least a metre long. -/
def Fine (g : List (Segment ℝ)) : Prop :=
  (∃ pts : List (LatLon ℝ), (∀ p ∈ pts, C48.Valid p) ∧ C01.IsPolyline pts g) ∧ ∀ s, g[0]? = some s → 1 ≤ s.dist

/-- Random numbers are between 0 and 1. -/
structure UnitRnd (r : NextRnd ℝ) : Prop where
  speed : UnitDraws r.speed
  elevation : UnitDraws r.elevation
  sensor : ∀ i, UnitDraws (r.sensor i)

/-- The full claim: a new device with drawn routes is published on its road after every round. -/
def Claim : Prop := ∀ (rnd : DeviceRnd ℝ) (o : DeviceOptions ℝ) (d0 : Device ℝ) (rs : List (Option (Route ℝ)))
  (start : Int) (l : List (Int × NextRnd ℝ)) (d' : Device ℝ),
  Device.new rnd (some o) = .ok d0 → UnitDraws rnd.speedDraws → UnitDraws rnd.elevationDraws →
  (d0.addRoute rs).1.navigator.routes ≠ [] → Held.Holds Fine (d0.addRoute rs).1.navigator →
  (∀ y ∈ l, UnitRnd y.2) → l ≠ [] → driveDevice (d0.addRoute rs).1 start l = .ok d' →
  Road OnSeg (d0.addRoute rs).1.navigator (shown d')

/-! ## Steps -/

/-- Successful steps end on the road. -/
theorem lands : Lands Fine (fun x => (0 : ℝ) ≤ x) (fun t v => 0 ≤ t * v) OnSeg where
  keep n n' t s x b _ h0 hs h := by
    refine grows (Q := fun x => (0 : ℝ) ≤ x) (S := fun t v => 0 ≤ t * v) (by simp) ?_ h0 hs h
    intro d t s h1 h2
    simp only [real_add, real_mul]
    linarith
  place n n' t s x hp h0 hs h := by
    have hroutes := (nextLocation_routes h).1
    obtain ⟨g, ha, -, -, hon⟩ := C80.on_line_partial n n' t s x (fun r hr q hq => (hp r hr q hq).1) h0 hs h
    obtain ⟨r, q, -, a2, -, a4, -, a6⟩ := ha
    rw [hroutes] at a2
    have hq := hp r (List.mem_of_getElem? a2) q (List.mem_of_getElem? a4)
    refine ⟨g, List.mem_flatMap.mpr ⟨r, List.mem_of_getElem? a2, List.mem_flatMap.mpr ⟨q, List.mem_of_getElem? a4,
      List.mem_of_getElem? a6⟩⟩, hon ?_⟩
    by_cases hf : C80.First n n'
    · right
      rw [hf.2.1] at a6
      exact hq.2 g a6
    · exact Or.inl hf

theorem tick_ge (last t : Int) : (1 : ℝ) ≤ tickOf last t := by
  unfold tickOf
  simp only
  split
  · simp
  · rename_i h
    simp only [real_lt, real_lit, decide_eq_true_eq, not_lt] at h
    push_cast at h
    exact h

/-- The steps of a device: at least a second long, at least as fast as its slowest speed. -/
theorem onward {d : Device ℝ} (h : Inv d) (last : Int) (l : List (Int × NextRnd ℝ))
    (hu : ∀ y ∈ l, UnitRnd y.2) : Onward (fun t v => 1 ≤ t ∧ d.speed.min ≤ v) d last l := by
  generalize hm : d.speed.min = m
  induction l generalizing d last with
  | nil => trivial
  | cons y l ih =>
    obtain ⟨t, r⟩ := y
    have ht := tick_ge last t
    have hr := hu _ List.mem_cons_self
    refine ⟨fun hne v hv => ⟨?_, ?_⟩, fun x hx => ?_⟩
    · unfold seconds
      simp only [real_add, real_lit]
      have : (0 : ℝ) ≤ ((d.tick.toNat : ℚ) : ℝ) := by positivity
      linarith
    · obtain ⟨-, -, -, c⟩ := speed_next_good h.speed hv
      obtain ⟨p0, p1⟩ := phase_unit h hne (seconds_nonneg d (show (0 : ℝ) ≤ tickOf last t by linarith))
      rw [← hm]
      exact (c p0 p1).1
    · obtain ⟨d1, b⟩ := x
      have hs : SaneOp (.next (tickOf last t) r) := ⟨by linarith, hr.1, hr.2, hr.3⟩
      exact ih (next_inv h hs hx) t (fun y hy => hu y (List.mem_cons_of_mem _ hy))
        ((C27.next_speed h (show (0 : ℝ) ≤ tickOf last t by linarith) hx).1.trans hm)

/-- The slowest speed is not negative. -/
theorem min_nonneg {mn mx : ℝ} {p : Prop} {d : Device ℝ} (h : C27.Driven mn mx p d) : 0 ≤ d.speed.min := by
  have h0 : 0 ≤ mn := by
    induction h with
    | init _ _ hmn hmx h =>
      obtain ⟨n, s, b, st, -, hs, -, -, rfl⟩ := Device.new_eq h
      subst hmn
      unfold Speed.new at hs
      split at hs
      · cases hs
      · rename_i h1
        simpa using h1
    | step _ _ _ _ ih => exact ih
    | restore _ _ _ _ ih _ => exact ih
  have := congrArg Prod.fst (C27.driven_speed h).1
  simp only at this
  rw [this]
  unfold C27.bounds
  split
  · split
    · norm_num
    · exact h0
  · exact h0

/-! ## Positions -/

/-- **C95 (partial).** A device of any history whose routes are drawn, driven by any ticker for any number of rounds: if
it moved in one of them then the position it publishes is on the line of one of its segments; otherwise it publishes what
it published at the beginning, or where its navigator was then.

Missing for the full property: the road before the first successful step (false, `claim_fails`), and first segments
shorter than 1 m (false, `C80.claim_fails`). -/
theorem on_road_partial (mn mx : ℝ) (p : Prop) (d d' : Device ℝ) (h : C27.Driven mn mx p d)
    (hf : Held.Holds Fine d.navigator) (h0 : 0 ≤ d.navigator.currentSegmentDistance) (start : Int)
    (l : List (Int × NextRnd ℝ)) (hu : ∀ y ∈ l, UnitRnd y.2) (hd : driveDevice d start l = .ok d') :
    (movedOnce d start l = true → Road OnSeg d.navigator (shown d')) ∧
    (movedOnce d start l = false → shown d' = shown d ∨ shown d' = d.navigator.point) := by
  have ho := onward_mono (S' := fun t v => (0 : ℝ) ≤ t * v)
    (fun t v h1 => mul_nonneg (by linarith [h1.1]) (le_trans (min_nonneg h) h1.2))
    (onward (reach_inv (C27.driven_reach h)) start l hu)
  obtain ⟨a, b⟩ := published lands ⟨hf, h0⟩ ho hd
  exact ⟨fun hc => (a hc).2, fun hc => (b hc).2⟩

/-- **C95, subscribers (partial).** In every execution of a generator with such devices, every state that `onPacket` gets
is that of an attached device after a round, with a position as in `on_road_partial`. -/
theorem subscribers_partial (c : Cfg) (rnd : Nat → Nat → NextRnd ℝ) (devs : List Nat) (mem : Nat → Device ℝ)
    (start : Int) (hP : 1 ≤ c.packetSize) (hd : devs.Nodup)
    (hdr : ∀ p ∈ devs, ∃ mn mx q, C27.Driven mn mx q (mem p)) (hf : ∀ p ∈ devs, Held.Holds Fine (mem p).navigator)
    (h0 : ∀ p ∈ devs, 0 ≤ (mem p).navigator.currentSegmentDistance) (hu : ∀ p n, UnitRnd (rnd p n)) (L : Live ℝ)
    (h : C79.Runs c rnd devs mem start L) (ho : L.gs.closed = false) (y : Option (DevState ℝ))
    (hy : y ∈ L.out.flatMap Prod.snd) :
    ∃ p t st, p ∈ devs ∧ (1 ≤ t ∧ t ≤ L.rounds.length) ∧ y = some st ∧
      Told OnSeg mem rnd start p (L.rounds.take t) st := by
  refine received_on_road (P := fun _ => Fine) (S := fun _ t v => (0 : ℝ) ≤ t * v) (fun _ _ => lands) hP hd h ho
    (fun p hp => ⟨hf p hp, h0 p hp⟩) (fun p hp ts => ?_) y hy
  obtain ⟨mn, mx, q, hq⟩ := hdr p hp
  refine onward_mono (fun t v h1 => mul_nonneg (by linarith [h1.1]) (le_trans (min_nonneg hq) h1.2))
    (onward (reach_inv (C27.driven_reach hq)) start _ ?_)
  intro y hy
  obtain ⟨x, -, rfl⟩ := List.mem_map.mp hy
  exact hu _ _

/-! ## Dense tracks -/

/-- **C95, dense tracks.** A new device all of whose segments are shorter than its slowest speed covers in a second: after
any number of rounds, at any times, it has not moved, and it is published at latitude 0 and longitude 0. -/
theorem dense_tracks (mn mx : ℝ) (p : Prop) (d d' : Device ℝ) (hn : New d) (h : C27.Driven mn mx p d)
    (hs : ∀ s ∈ segs d.navigator, s.dist < (C27.bounds mn mx).1) (start : Int)
    (l : List (Int × NextRnd ℝ)) (hu : ∀ y ∈ l, UnitRnd y.2) (hd : driveDevice d start l = .ok d') :
    movedOnce d start l = false ∧ shown d' = ⟨0, 0⟩ := by
  have hb : d.speed.min = (C27.bounds mn mx).1 := congrArg Prod.fst (C27.driven_speed h).1
  have ho := onward_mono (S' := fun t v => ∀ s ∈ segs d.navigator, ((lit 0 : ℝ) +. t *. v <=. s.dist) = false)
    (fun t v h1 s hm => by
      have := hs s hm
      rw [← hb] at this
      have h2 := min_nonneg h
      simp only [real_add, real_mul, real_lit, real_le, decide_eq_false_iff_not, not_le]
      push_cast
      nlinarith [h1.1, h1.2])
    (onward (reach_inv (C27.driven_reach h)) start l hu)
  obtain ⟨a, b⟩ := dense hn ho hd
  exact ⟨a, by rw [b]; simp⟩

/-- A track of two points on the equator that are about 1.1 m apart. -/
noncomputable def shortTrack : Track ℝ := eqTrack "t" "c" 1 (1 + 1 / 100000)

/-- A route with this track. -/
noncomputable def shortRoute : Route ℝ :=
  ⟨"r", degLen * (1 / 100000), "c", "", [shortTrack], none, 0⟩

theorem short_length : degLen * |((1 : ℝ) + 1 / 100000) - 1| = degLen * (1 / 100000) := by
  rw [add_sub_cancel_left, abs_of_pos (by norm_num)]

theorem degLen_lt : degLen < 112000 := by
  unfold degLen
  have := Real.pi_lt_d2
  linarith

theorem short_fine : Fine shortTrack.segments := by
  refine ⟨⟨[eqPt 1, eqPt (1 + 1 / 100000)], ?_, ?_⟩, ?_⟩
  · intro p hp
    simp only [List.mem_cons, List.not_mem_nil, or_false] at hp
    rcases hp with rfl | rfl <;> constructor <;> (unfold eqPt; constructor <;> norm_num)
  · refine ⟨rfl, ?_, ?_⟩
    · intro i s hs
      match i with
      | 0 => cases hs; exact ⟨rfl, rfl, rfl⟩
      | i + 1 => simp [shortTrack, eqTrack] at hs
    · intro s hs
      simp only [shortTrack, eqTrack, List.mem_singleton] at hs
      subst hs
      refine ⟨?_, rfl⟩
      show degLen * _ = distance (F := ℝ) 0 1 0 (1 + 1 / 100000)
      rw [distance_equator _ _ (by rw [add_sub_cancel_left, abs_of_pos] <;> norm_num)]
  · intro s hs
    cases hs
    show 1 ≤ degLen * |((1 : ℝ) + 1 / 100000) - 1|
    rw [short_length]
    linarith [degLen_gt]

theorem short_wf : WFRoute shortRoute := by
  refine ⟨?_, ?_⟩
  · intro t ht
    cases List.mem_singleton.mp ht
    refine ⟨?_, ?_⟩
    · intro s hs
      cases List.mem_singleton.mp hs
      exact mul_nonneg (by linarith [degLen_gt]) (abs_nonneg _)
    · show degLen * |((1 : ℝ) + 1 / 100000) - 1| = _
      simp [shortTrack, eqTrack, eqSeg]
  · show degLen * (1 / 100000) = _
    rw [← short_length]
    simp [shortRoute, shortTrack, eqTrack]

/-- The bicycle tracker of the package on this route: 2 m/s at least, so a step is longer than the only segment. After
any number of rounds it is published in the Gulf of Guinea, at latitude 0 and longitude 0. -/
theorem bicycle_lost (rnd : DeviceRnd ℝ) (h1 : UnitDraws rnd.elevationDraws) (h2 : UnitDraws rnd.speedDraws) :
    ∃ d0, Device.new rnd (some DeviceOptions.bicycle) = .ok d0 ∧
      Held.Holds Fine (d0.addRoute [some shortRoute]).1.navigator ∧
      (d0.addRoute [some shortRoute]).1.navigator.routes ≠ [] ∧
      (∀ p, Road OnSeg (d0.addRoute [some shortRoute]).1.navigator p → p ≠ ⟨0, 0⟩) ∧
      ∀ (start : Int) (l : List (Int × NextRnd ℝ)), (∀ y ∈ l, UnitRnd y.2) →
        ∃ d', driveDevice (d0.addRoute [some shortRoute]).1 start l = .ok d' ∧ shown d' = ⟨0, 0⟩ := by
  obtain ⟨d0, e⟩ := C33.new_ok C33.smallNumbers_real rnd (DeviceOptions.bicycle (F := ℝ)) 1 125 2 8 0 100
    (by simp [DeviceOptions.bicycle])
    (by simp [DeviceOptions.bicycle]) (by omega) (by omega) (by simp [DeviceOptions.bicycle])
    (by simp [DeviceOptions.bicycle]) (by omega) (by omega) (by omega)
    (by simp [DeviceOptions.bicycle, DeviceOptions.default])
    (by simp [DeviceOptions.bicycle, DeviceOptions.default]) (by omega) (by omega)
    ⟨by simp [DeviceOptions.bicycle, DeviceOptions.default], by simp [DeviceOptions.bicycle, DeviceOptions.default]⟩
    ⟨by simp [DeviceOptions.bicycle, DeviceOptions.default], by simp [DeviceOptions.bicycle, DeviceOptions.default]⟩
    (by simp [DeviceOptions.bicycle, DeviceOptions.default]) (by simp [DeviceOptions.bicycle, DeviceOptions.default]) rfl rfl
  have hr : (d0.addRoute [some shortRoute]).1.navigator.routes = [touchRoute shortRoute] := by
    obtain ⟨n, s, b, st, k1, -, -, -, rfl⟩ := Device.new_eq e
    obtain ⟨_, _, _, -, -, -, rfl⟩ := new_cases k1
    rfl
  have hsafe : C54.DSafe (d0.addRoute [some shortRoute]).1 := by
    obtain ⟨k1, k2⟩ := C54.nav_safe (C54.new_safe e) (.addRoute [some shortRoute]) (fun _ => by simp) rfl
    unfold Device.addRoute
    generalize d0.navigator.addRoute [some shortRoute] = q at *
    obtain ⟨n, _ | _⟩ := q
    · exact k2
    · exact k1
  have hdr : C27.Driven 2 8 (False ∨ C27.Ticks d0 (.addRoute [some shortRoute])) (d0.addRoute [some shortRoute]).1 := by
    refine .step (.init h1 h2 ?_ ?_ e) (op := .addRoute [some shortRoute]) ?_ rfl ?_
    · simp [DeviceOptions.bicycle]
    · simp [DeviceOptions.bicycle]
    · intro r hm
      cases List.mem_singleton.mp hm
      exact short_wf
    · intro r hm
      rw [hr] at hm
      cases List.mem_singleton.mp hm
      show 0 < degLen * (1 / 100000)
      linarith [degLen_gt]
  have hsegs : ∀ s ∈ segs (d0.addRoute [some shortRoute]).1.navigator, s = eqSeg 1 (1 + 1 / 100000) 0 (-1) := by
    intro s hs
    unfold segs at hs
    rw [hr] at hs
    simpa [touchRoute, Route.propsOf, Track.propsOf, shortRoute, shortTrack, eqTrack] using hs
  refine ⟨d0, e, ?_, by rw [hr]; simp, ?_, ?_⟩
  · intro r hm t ht
    rw [hr] at hm
    cases List.mem_singleton.mp hm
    cases List.mem_singleton.mp ht
    exact short_fine
  · rintro p ⟨s, hs, ho⟩ rfl
    rw [hsegs s hs] at ho
    have hd := degLen_gt
    replace ho : distance (F := ℝ) 0 1 0 0 + distance (F := ℝ) 0 0 0 (1 + 1 / 100000) =
      distance (F := ℝ) 0 1 0 (1 + 1 / 100000) := ho
    rw [distance_equator _ _ (by norm_num), distance_equator _ _ (by norm_num [abs_of_pos]),
      distance_equator _ _ (by norm_num [abs_of_pos])] at ho
    norm_num [abs_of_pos] at ho
    linarith
  · intro start l hu
    obtain ⟨d', hd'⟩ := drive_safe hsafe start l
    refine ⟨d', hd', (dense_tracks 2 8 _ _ d' ⟨rnd, _, d0, _, e, rfl⟩ hdr ?_ start l hu hd').2⟩
    intro s hs
    rw [hsegs s hs]
    show degLen * |((1 : ℝ) + 1 / 100000) - 1| < (C27.bounds 2 8).1
    rw [short_length]
    unfold C27.bounds
    norm_num
    linarith [degLen_lt]

/-- The full claim is false. -/
theorem claim_fails : ¬ Claim := by
  intro h
  have hz : UnitDraws (fun _ => (0 : ℝ)) := fun _ => by norm_num
  obtain ⟨d0, e1, e2, e3, e4, e5⟩ := bicycle_lost ⟨"u", "s", "c", some, "x", fun _ => 0, fun _ => 0⟩ hz hz
  have hu : ∀ y ∈ [((0 : Int), (⟨0, 0, fun _ => 0, fun _ => 0, fun _ _ => 0⟩ : NextRnd ℝ))], UnitRnd y.2 := by
    intro y hy
    cases List.mem_singleton.mp hy
    exact ⟨hz, hz, fun _ => hz⟩
  obtain ⟨d', g1, g2⟩ := e5 0 _ hu
  exact e4 _ (h _ _ d0 _ 0 _ d' e1 hz hz e3 e2 hu (by simp) g1) g2

end C95
end GpsGen
