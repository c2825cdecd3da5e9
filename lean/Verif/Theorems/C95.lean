import Verif.Lemmas.Held
import Verif.Lemmas.DevicePub
import Verif.Lemmas.DeviceSafe
import Verif.Theorems.C09
import Verif.Theorems.C54
import Verif.Theorems.C79
import Verif.Lemmas.Toy
/-!
# C95: every position a subscriber receives is on the device's road

The devices of a running generator, from the times its ticker delivers to the decoded packets. This file is about any
number type and any notion `On s p` of the point `p` being on the segment `s`, such that successful steps of the
navigator end on the segments it holds. `C95Real` is about exact arithmetic and great circles, `C95Double` about doubles.
-/

namespace GpsGen
namespace C95
open Device Navigator

variable {F : Type}

/-! ## Specification -/

/-- The position a device publishes. -/
def shown (d : Device F) : LatLon F := ⟨d.state.loc.lat, d.state.loc.lon⟩

/-- The segments of all tracks of all routes. -/
def segs (n : Navigator F) : List (Segment F) := n.routes.flatMap fun r => r.tracks.flatMap fun t => t.segments

/-- The point is on one of the segments. -/
def Road (On : Segment F → LatLon F → Prop) (n : Navigator F) (p : LatLon F) : Prop := ∃ s ∈ segs n, On s p

/-- `Next` returned true in one of the rounds. -/
def movedOnce [GoMath F] : Device F → Int → List (Int × NextRnd F) → Bool
  | _, _, [] => false
  | d, last, (t, rnd) :: rest =>
    match d.next (tickOf last t) rnd with
    | .ok (d', b) => b || movedOnce d' t rest
    | .error _ => false

/-- The steps the device makes are allowed ones. -/
def Onward [GoMath F] (S : F → F → Prop) : Device F → Int → List (Int × NextRnd F) → Prop
  | _, _, [] => True
  | d, last, (t, rnd) :: rest =>
    (d.navigator.routes ≠ [] → ∀ v, d.speed.next (d.phase (d.seconds (tickOf last t))) = .ok v →
      S (d.seconds (tickOf last t)) v.value) ∧
    ∀ x, d.next (tickOf last t) rnd = .ok x → Onward S x.1 t rest

/-- What makes steps end on the road: `P` is about the tracks, `Q` about the distance travelled on the segment, `S`
about the steps. -/
structure Lands [GoMath F] (P : List (Segment F) → Prop) (Q : F → Prop) (S : F → F → Prop)
    (On : Segment F → LatLon F → Prop) : Prop where
  keep : ∀ (n n' : Navigator F) t s x b, Held.Holds P n → Q n.currentSegmentDistance → S t s →
    n.nextLocation t s x = .ok (n', b) → Q n'.currentSegmentDistance
  place : ∀ (n n' : Navigator F) t s x, Held.Holds P n → Q n.currentSegmentDistance → S t s →
    n.nextLocation t s x = .ok (n', true) → Road On n n'.point

theorem onward_mono {F : Type} [GoMath F] {S S' : F → F → Prop} (hS : ∀ t v, S t v → S' t v) {d : Device F} {last : Int}
    {l : List (Int × NextRnd F)} (h : Onward S d last l) : Onward S' d last l := by
  induction l generalizing d last with
  | nil => trivial
  | cons y l ih =>
    obtain ⟨t, r⟩ := y
    exact ⟨fun hne v hv => hS _ _ (h.1 hne v hv), fun x hx => ih (h.2 x hx)⟩

/-- Driving a device that cannot panic. -/
theorem drive_safe {F : Type} [GoMath F] {d : Device F} (h : C54.DSafe d) (last : Int) (l : List (Int × NextRnd F)) :
    ∃ d', driveDevice d last l = .ok d' := by
  induction l generalizing d last with
  | nil => exact ⟨d, rfl⟩
  | cons y l ih =>
    obtain ⟨t, r⟩ := y
    obtain ⟨d1, b, h1, h2⟩ := C54.next_safe h (tickOf last t) r
    obtain ⟨d', h3⟩ := ih h2 t
    refine ⟨d', ?_⟩
    unfold driveDevice
    rw [h1]
    exact h3

/-! ## One round -/

theorem touch_segs (n : Navigator F) : segs { n with routes := n.routes.map touchRoute } = segs n := by
  unfold segs
  simp only [List.flatMap_map]
  congr 1
  funext r
  have h1 : (touchRoute r).tracks = r.tracks.map (fun t => t.propsOf.1) := by
    unfold touchRoute Route.propsOf; cases r.props <;> rfl
  rw [h1, List.flatMap_map]
  congr 1
  funext t
  unfold Track.propsOf
  cases t.props <;> rfl

theorem touch_holds {P : List (Segment F) → Prop} {n : Navigator F} (h : Held.Holds P n) :
    Held.Holds P { n with routes := n.routes.map touchRoute } := by
  intro r hr t ht
  obtain ⟨q, hq, rfl⟩ := List.mem_map.mp hr
  have h1 : (touchRoute q).tracks = q.tracks.map (fun t => t.propsOf.1) := by
    unfold touchRoute Route.propsOf; cases q.props <;> rfl
  rw [h1] at ht
  obtain ⟨u, hu, rfl⟩ := List.mem_map.mp ht
  have : u.propsOf.1.segments = u.segments := by unfold Track.propsOf; cases u.props <;> rfl
  rw [this]
  exact h q hq u hu

/-- A call that does not succeed leaves the navigator's point alone. -/
theorem failed_point [GoMath F] {n n' : Navigator F} {t s : F} {x : UInt32}
    (h : n.nextLocation t s x = .ok (n', false)) : n'.point = n.point := by
  rcases nextLocation_cases n n' t s x false h with ⟨-, rfl, -⟩ | ⟨-, rfl, -⟩ | ⟨r, -, -, j, -, he⟩
  · rfl
  · rfl
  have hj : ∀ j, (n.skipTo j).point = n.point := fun j => by cases j <;> rfl
  generalize hres : (Except.ok (n', false) : Go (Navigator F × Bool)) = res at he
  cases he with
  | land _ => cases hres
  | unrelated _ _ _ _ =>
    obtain ⟨m, hm, e⟩ := map_eq_ok hres.symm
    cases e
    rcases toOffline_cases hm with ⟨-, rfl⟩ | ⟨-, _, -, rfl⟩ <;> exact hj j
  | leave _ _ =>
    obtain ⟨m, hm, e⟩ := map_eq_ok hres.symm
    cases e
    have hl : ((n.skipTo j).leaveTrack r).point = n.point := by
      rw [← hj j]; unfold leaveTrack; split
      · rfl
      · split <;> rfl
    rcases toOffline_cases hm with ⟨-, rfl⟩ | ⟨-, _, -, rfl⟩ <;> exact hl

theorem segs_of {n m : Navigator F} (h : n.routes = m.routes) : segs n = segs m := by unfold segs; rw [h]

theorem road_of {On : Segment F → LatLon F → Prop} {n m : Navigator F} (h : segs n = segs m) {p : LatLon F} (hr : Road On n p) : Road On m p := by
  obtain ⟨s, h1, h2⟩ := hr
  exact ⟨s, h ▸ h1, h2⟩

/-- What is kept from round to round. -/
structure Keeps [GoFloat F] (P : List (Segment F) → Prop) (Q : F → Prop) (n : Navigator F) : Prop where
  holds : Held.Holds P n
  dist : Q n.currentSegmentDistance

section
variable [GoMath F] {P : List (Segment F) → Prop} {Q : F → Prop} {S : F → F → Prop} {On : Segment F → LatLon F → Prop}

theorem powered_keeps {d : Device F} {s : F} {x : UInt32} {n : Navigator F} (h : d.powered s x = .ok n)
    (k : Keeps P Q d.navigator) : Keeps P Q n ∧ n.point = d.navigator.point ∧ n.routes = d.navigator.routes := by
  rcases powered_step h with rfl | h
  · exact ⟨k, rfl, rfl⟩
  · rcases toOffline_cases h with ⟨-, rfl⟩ | ⟨-, _, -, rfl⟩ <;> exact ⟨⟨k.1, k.2⟩, rfl, rfl⟩

theorem loc_keeps (L : Lands P Q S On) {n n' : Navigator F} {t s : F} {x : UInt32} {b : Bool}
    (h : n.nextLocation t s x = .ok (n', b)) (hs : S t s) (k : Keeps P Q n) : Keeps P Q n' ∧ n'.routes = n.routes := by
  have hr := (nextLocation_routes h).1
  exact ⟨⟨fun r hm => k.1 r (by rw [← hr]; exact hm), L.keep _ _ _ _ _ _ k.1 k.2 hs h⟩, hr⟩

/-- A distance travelled that only grows by steps. -/
theorem grows (z : Q (lit 0)) (hadd : ∀ d t s, Q d → S t s → Q (d +. t *. s)) {n n' : Navigator F} {t s : F} {x : UInt32}
    {b : Bool} (h0 : Q n.currentSegmentDistance) (hs : S t s) (h : n.nextLocation t s x = .ok (n', b)) :
    Q n'.currentSegmentDistance := by
  refine nextLocation_preserves (fun m => Q m.currentSegmentDistance) (fun m _ _ _ => z) (fun m r hm _ _ => ?_)
    (fun m r _ _ => ?_) (fun m k hm => hm) h0 h
  · exact hadd _ _ _ hm hs
  · unfold leaveTrack
    split
    · exact z
    · split <;> exact z

theorem finish_keeps {n : Navigator F} (k : Keeps P Q n) : Keeps P Q n.isFinish.1 ∧ n.isFinish.1.point = n.point ∧
    n.isFinish.1.routes = n.routes := by
  unfold isFinish
  split <;> exact ⟨⟨k.1, k.2⟩, rfl, rfl⟩

/-- One round: the device keeps its road; if it moves then it shows a point of the road, otherwise it shows what it
showed before, or its own point. -/
theorem round (L : Lands P Q S On) {d d' : Device F} {tick : F} {rnd : NextRnd F} {b : Bool}
    (k : Keeps P Q d.navigator)
    (hs : d.navigator.routes ≠ [] → ∀ v, d.speed.next (d.phase (d.seconds tick)) = .ok v → S (d.seconds tick) v.value)
    (h : d.next tick rnd = .ok (d', b)) :
    Keeps P Q d'.navigator ∧ segs d'.navigator = segs d.navigator ∧
    (b = false → d'.navigator.point = d.navigator.point ∧ (shown d' = shown d ∨ shown d' = d.navigator.point)) ∧
    (b = true → Road On d.navigator d'.navigator.point ∧ shown d' = d'.navigator.point) := by
  cases next_outcome h with
  | idle hr => exact ⟨k, rfl, fun _ => ⟨rfl, Or.inl rfl⟩, nofun⟩
  | halted hr n1 n2 speed h1 h2 h3 h4 =>
    obtain ⟨k1, p1, r1⟩ := powered_keeps h1 k
    obtain ⟨k2, r2⟩ := loc_keeps L h3 (hs hr _ h2) k1
    obtain ⟨k3, p3, r3⟩ := finish_keeps k2
    exact ⟨k3, segs_of (r3.trans (r2.trans r1)), fun _ => ⟨p3.trans ((failed_point h3).trans p1), Or.inl rfl⟩, nofun⟩
  | lap hr n1 n2 speed d' h1 h2 h3 h4 h5 =>
    obtain ⟨k1, p1, r1⟩ := powered_keeps h1 k
    obtain ⟨k2, r2⟩ := loc_keeps L h3 (hs hr _ h2) k1
    obtain ⟨k3, p3, r3⟩ := finish_keeps k2
    obtain ⟨hf, e1, -⟩ := updateState_fresh h5
    have e : d'.navigator = n2.isFinish.1.shuffleElevation rnd.elevation := e1
    have hp : d'.navigator.point = d.navigator.point := by
      rw [e]; exact p3.trans ((failed_point h3).trans p1)
    refine ⟨by rw [e]; exact ⟨k3.1, k3.2⟩, segs_of (by rw [e]; exact r3.trans (r2.trans r1)), fun _ => ⟨hp, Or.inr ?_⟩,
      nofun⟩
    rw [← hp]
    unfold shown
    rw [hf.lat, hf.lon]
  | moved hr n1 n2 n3 speed sensors d2 d' h1 h2 h3 h4 h5 hd2 h6 =>
    obtain ⟨k1, p1, r1⟩ := powered_keeps h1 k
    obtain ⟨k2, r2⟩ := loc_keeps L h3 (hs hr _ h2) k1
    obtain ⟨s, hs1, hs2⟩ := L.place _ _ _ _ _ k1.1 k1.2 (hs hr _ h2) h3
    obtain ⟨hf, e1, -⟩ := updateState_fresh h6
    have h3' : n3.point = n2.point ∧ n3.routes = n2.routes ∧ n3.currentSegmentDistance = n2.currentSegmentDistance := by
      unfold nextElevation at h4
      obtain ⟨_, _, h4⟩ := bind_eq_ok h4
      cases h4
      exact ⟨rfl, rfl, rfl⟩
    have hn : d'.navigator = n3 ∨ d'.navigator = { n3 with routes := n3.routes.map touchRoute } := by
      rw [e1]
      subst hd2
      split
      · exact Or.inr rfl
      · exact Or.inl rfl
    have k3 : Keeps P Q n3 := ⟨fun r hr => k2.1 r (by rw [← h3'.2.1]; exact hr), by rw [h3'.2.2]; exact k2.2⟩
    have g : segs n3 = segs d.navigator := segs_of (h3'.2.1.trans (r2.trans r1))
    have g0 : segs n1 = segs d.navigator := segs_of r1
    have hpt : d'.navigator.point = n2.point := by
      rcases hn with e | e <;> rw [e] <;> exact h3'.1
    refine ⟨?_, ?_, nofun, fun _ => ⟨⟨s, by rw [← g0]; exact hs1, by rw [hpt]; exact hs2⟩, ?_⟩⟩
    · rcases hn with e | e <;> rw [e]
      · exact k3
      · exact ⟨touch_holds k3.1, k3.2⟩
    · rcases hn with e | e <;> rw [e]
      · exact g
      · rw [touch_segs]; exact g
    · unfold shown
      rw [hf.lat, hf.lon]

/-! ## Any number of rounds -/

/-- A device that has moved stays on its road. -/
theorem stays (L : Lands P Q S On) {d d' : Device F} {last : Int} {l : List (Int × NextRnd F)}
    (k : Keeps P Q d.navigator) (hs : Onward S d last l) (h : driveDevice d last l = .ok d')
    (h1 : Road On d.navigator d.navigator.point) (h2 : Road On d.navigator (shown d)) :
    Road On d.navigator d'.navigator.point ∧ Road On d.navigator (shown d') := by
  induction l generalizing d last with
  | nil => cases h; exact ⟨h1, h2⟩
  | cons y l ih =>
    obtain ⟨t, rnd⟩ := y
    obtain ⟨⟨d1, b⟩, hx, h⟩ := bind_eq_ok h
    obtain ⟨k1, g, a1, a2⟩ := round L k hs.1 hx
    have hp : Road On d1.navigator d1.navigator.point ∧ Road On d1.navigator (shown d1) := by
      cases b with
      | false =>
        obtain ⟨e1, e2⟩ := a1 rfl
        refine ⟨road_of g.symm (by rw [e1]; exact h1), road_of g.symm ?_⟩
        rcases e2 with e | e <;> rw [e]
        · exact h2
        · exact h1
      | true =>
        obtain ⟨e1, e2⟩ := a2 rfl
        exact ⟨road_of g.symm e1, road_of g.symm (by rw [e2]; exact e1)⟩
    obtain ⟨q1, q2⟩ := ih k1 (hs.2 _ hx) h hp.1 hp.2
    exact ⟨road_of g q1, road_of g q2⟩

/-- **C95, positions (any number type).** After any number of rounds: if the device moved in one of them then the
position it publishes is on its road; otherwise it is the position it published at the beginning, or where its navigator
was then. -/
theorem published (L : Lands P Q S On) {d d' : Device F} {last : Int} {l : List (Int × NextRnd F)}
    (k : Keeps P Q d.navigator) (hs : Onward S d last l) (h : driveDevice d last l = .ok d') :
    (movedOnce d last l = true → Road On d.navigator d'.navigator.point ∧ Road On d.navigator (shown d')) ∧
    (movedOnce d last l = false → d'.navigator.point = d.navigator.point ∧
      (shown d' = shown d ∨ shown d' = d.navigator.point)) := by
  induction l generalizing d last with
  | nil => cases h; exact ⟨nofun, fun _ => ⟨rfl, Or.inl rfl⟩⟩
  | cons y l ih =>
    obtain ⟨t, rnd⟩ := y
    obtain ⟨⟨d1, b⟩, hx, h⟩ := bind_eq_ok h
    obtain ⟨k1, g, a1, a2⟩ := round L k hs.1 hx
    have hm : movedOnce d last ((t, rnd) :: l) = (b || movedOnce d1 t l) := by
      conv => lhs; unfold movedOnce
      rw [hx]
    rw [hm]
    cases b with
    | false =>
      obtain ⟨e1, e2⟩ := a1 rfl
      obtain ⟨i1, i2⟩ := ih k1 (hs.2 _ hx) h
      rw [Bool.false_or]
      refine ⟨fun hc => ⟨road_of g (i1 hc).1, road_of g (i1 hc).2⟩, fun hc => ?_⟩
      obtain ⟨j1, j2⟩ := i2 hc
      refine ⟨j1.trans e1, ?_⟩
      rcases j2 with j | j
      · rw [j]; exact e2
      · rw [j, e1]; exact Or.inr rfl
    | true =>
      obtain ⟨e1, e2⟩ := a2 rfl
      refine ⟨fun _ => ?_, nofun⟩
      obtain ⟨q1, q2⟩ := stays L k1 (hs.2 _ hx) h (road_of g.symm e1) (road_of g.symm (by rw [e2]; exact e1))
      exact ⟨road_of g q1, road_of g q2⟩

/-! ## New devices -/

/-- The device was just made, with at most some routes added. -/
def New (d : Device F) : Prop := ∃ rnd o d0 rs, Device.new rnd o = .ok d0 ∧ d = (d0.addRoute rs).1

/-- A new device publishes latitude 0 and longitude 0, and that is also where its navigator is; nothing was travelled. -/
theorem new_shown {d : Device F} (h : New d) : shown d = ⟨lit 0, lit 0⟩ ∧ d.navigator.point = ⟨lit 0, lit 0⟩ ∧
    d.navigator.currentSegmentDistance = lit 0 := by
  obtain ⟨rnd, o, d0, rs, h, rfl⟩ := h
  obtain ⟨n, s, b, st, h1, -, -, h4, rfl⟩ := Device.new_eq h
  obtain ⟨_, _, rfl, -⟩ := applyFor_eq h4
  have hn : n.point = ⟨lit 0, lit 0⟩ ∧ n.currentSegmentDistance = lit 0 := by
    obtain ⟨_, _, _, -, -, -, rfl⟩ := new_cases h1
    exact ⟨rfl, rfl⟩
  have ha : (n.addRoute rs).1.point = ⟨lit 0, lit 0⟩ ∧ (n.addRoute rs).1.currentSegmentDistance = lit 0 := by
    unfold Navigator.addRoute
    split
    · exact hn
    · simp only
      split
      · exact ⟨hn.1, rfl⟩
      · exact hn
  unfold Device.addRoute
  revert ha
  rcases n.addRoute rs with ⟨m, _ | e⟩ <;> exact fun ha => ⟨rfl, ha.1, ha.2⟩

/-- **C95, new devices (any number type).** From a new device with routes on: the position published after any number of
rounds is on the road if the device moved in one of them, and otherwise latitude 0 and longitude 0. -/
theorem published_new (L : Lands P Q S On) (z : Q (lit 0)) {d d' : Device F} {last : Int} {l : List (Int × NextRnd F)}
    (hd : New d) (k : Held.Holds P d.navigator) (hs : Onward S d last l) (h : driveDevice d last l = .ok d') :
    (movedOnce d last l = true → Road On d.navigator (shown d')) ∧
    (movedOnce d last l = false → shown d' = ⟨lit 0, lit 0⟩) := by
  obtain ⟨e1, e2, e3⟩ := new_shown hd
  obtain ⟨a, b⟩ := published L ⟨k, by rw [e3]; exact z⟩ hs h
  refine ⟨fun hc => (a hc).2, fun hc => ?_⟩
  rcases (b hc).2 with e | e
  · rw [e, e1]
  · rw [e, e2]

/-! ## Steps longer than every segment -/

/-- With nothing travelled, a step that is longer than every segment of every track does not succeed, and nothing is
travelled afterwards. -/
theorem too_long {n n' : Navigator F} {t v : F} {x : UInt32} {b : Bool} (h0 : n.currentSegmentDistance = lit 0)
    (hl : ∀ s ∈ segs n, (lit 0 +. t *. v <=. s.dist) = false) (h : n.nextLocation t v x = .ok (n', b)) :
    b = false ∧ n'.currentSegmentDistance = lit 0 := by
  rcases nextLocation_cases n n' t v x b h with ⟨-, rfl, rfl⟩ | ⟨-, rfl, rfl⟩ | ⟨r, -, -, j, -, he⟩
  · exact ⟨rfl, h0⟩
  · exact ⟨rfl, h0⟩
  have hc : (n.skipTo j).currentSegmentDistance = lit 0 := by cases j <;> first | exact h0 | rfl
  have hr : (n.skipTo j).routes = n.routes := skipTo_routes n j
  generalize hres : (Except.ok (n', b) : Go (Navigator F × Bool)) = res at he
  cases he with
  | land hf =>
    exfalso
    obtain ⟨r', t', -, a2, -, a4, -, a6⟩ := C09.addressed_of_seg? (curSeg_nonempty _ hf.1)
    have hm : (n.skipTo j).curSeg ∈ segs n := by
      rw [hr] at a2
      exact List.mem_flatMap.mpr ⟨r', List.mem_of_getElem? a2, List.mem_flatMap.mpr ⟨t', List.mem_of_getElem? a4,
        List.mem_of_getElem? a6⟩⟩
    have h2 := hf.2
    rw [hc, hl _ hm] at h2
    cases h2
  | unrelated _ _ _ _ =>
    obtain ⟨m, hm, e⟩ := map_eq_ok hres.symm
    cases e
    refine ⟨rfl, ?_⟩
    rcases toOffline_cases hm with ⟨-, rfl⟩ | ⟨-, _, -, rfl⟩ <;> rfl
  | leave _ _ =>
    obtain ⟨m, hm, e⟩ := map_eq_ok hres.symm
    cases e
    refine ⟨rfl, ?_⟩
    have hl : ((n.skipTo j).leaveTrack r).currentSegmentDistance = lit 0 := by
      unfold leaveTrack; split
      · rfl
      · split <;> rfl
    rcases toOffline_cases hm with ⟨-, rfl⟩ | ⟨-, _, -, rfl⟩ <;> exact hl

/-- **C95, dense tracks (any number type).** A new device whose steps are longer than every segment of its tracks never
moves; it publishes latitude 0 and longitude 0 after every round. -/
theorem dense {d d' : Device F} {last : Int} {l : List (Int × NextRnd F)} (hd : New d)
    (hs : Onward (fun t v => ∀ s ∈ segs d.navigator, (lit 0 +. t *. v <=. s.dist) = false) d last l)
    (h : driveDevice d last l = .ok d') : movedOnce d last l = false ∧ shown d' = ⟨lit 0, lit 0⟩ := by
  have L : Lands (F := F) (fun g => ∀ s ∈ g, s ∈ segs d.navigator) (fun x => x = lit 0)
      (fun t v => ∀ s ∈ segs d.navigator, (lit 0 +. t *. v <=. s.dist) = false) (fun _ _ => False) := by
    have sub : ∀ n : Navigator F, Held.Holds (fun g => ∀ s ∈ g, s ∈ segs d.navigator) n →
        ∀ s ∈ segs n, s ∈ segs d.navigator := by
      intro n hn s hs
      obtain ⟨r, hr, hs⟩ := List.mem_flatMap.mp hs
      obtain ⟨t, ht, hs⟩ := List.mem_flatMap.mp hs
      exact hn r hr t ht s hs
    constructor
    · intro n n' t s x b h1 h2 h3 h4
      exact (too_long h2 (fun s hs => h3 s (sub n h1 s hs)) h4).2
    · intro n n' t s x h1 h2 h3 h4
      cases (too_long h2 (fun s hs => h3 s (sub n h1 s hs)) h4).1
  obtain ⟨a, b⟩ := published_new L rfl hd (fun r hr t ht s hs =>
    List.mem_flatMap.mpr ⟨r, hr, List.mem_flatMap.mpr ⟨t, ht, hs⟩⟩) hs h
  cases hm : movedOnce d last l with
  | false => exact ⟨rfl, b hm⟩
  | true =>
    obtain ⟨_, _, hf⟩ := a hm
    exact hf.elim

end

/-! ## In a generator -/

section
open Run
variable [GoMath F] {P : Nat → List (Segment F) → Prop} {Q : F → Prop} {S : Nat → F → F → Prop}
  {On : Segment F → LatLon F → Prop} {c : Cfg} {rnd : Nat → Nat → NextRnd F} {devs : List Nat} {mem : Nat → Device F}
  {start : Int}

/-- The rounds of a device: the times with its draws. -/
def roundsOf (rnd : Nat → Nat → NextRnd F) (p : Nat) (ts : List Int) : List (Int × NextRnd F) :=
  ts.zipIdx.map fun x => (x.1, rnd p (x.2 + 1))

/-- The published position is on the road of device `p` if the device moved in the first `n` rounds, and otherwise it is
the position from before the first round, or where the navigator was then. -/
def Told (On : Segment F → LatLon F → Prop) (mem : Nat → Device F) (rnd : Nat → Nat → NextRnd F) (start : Int) (p : Nat)
    (ts : List Int) (st : DevState F) : Prop :=
  (movedOnce (mem p) start (roundsOf rnd p ts) = true → Road On (mem p).navigator ⟨st.loc.lat, st.loc.lon⟩) ∧
  (movedOnce (mem p) start (roundsOf rnd p ts) = false →
    (⟨st.loc.lat, st.loc.lon⟩ : LatLon F) = shown (mem p) ∨ ⟨st.loc.lat, st.loc.lon⟩ = (mem p).navigator.point)

/-- **C95, subscribers (any number type).** Every state that `onPacket` gets, in every execution, is that of an attached
device after a round, and its position is on the device's road if the device moved in one of the rounds up to then. -/
theorem received_on_road (hL : ∀ p ∈ devs, Lands (P p) Q (S p) On) (hP : 1 ≤ c.packetSize) (hd : devs.Nodup) {L : Live F}
    (h : C79.Runs c rnd devs mem start L) (ho : L.gs.closed = false)
    (hk : ∀ p ∈ devs, Keeps (P p) Q (mem p).navigator)
    (hs : ∀ p ∈ devs, ∀ ts, Onward (S p) (mem p) start (roundsOf rnd p ts))
    (y : Option (DevState F)) (hy : y ∈ L.out.flatMap Prod.snd) :
    ∃ p t st, p ∈ devs ∧ (1 ≤ t ∧ t ≤ L.rounds.length) ∧ y = some st ∧ Told On mem rnd start p (L.rounds.take t) st := by
  obtain ⟨p, t, hp, ht, h1, h2⟩ := C79.only_attached hP hd h ho y hy
  unfold C79.stateAfter at h2
  cases hr : driveDevice (mem p) start ((L.rounds.take t).zipIdx.map fun x => (x.1, rnd p (x.2 + 1))) with
  | error e => rw [hr] at h2; rw [h2] at h1; cases h1
  | ok d =>
    rw [hr] at h2
    obtain ⟨a, b⟩ := published (hL p hp) (hk p hp) (hs p hp _) hr
    exact ⟨p, t, d.state, hp, ht, h2, fun hc => (a hc).2, fun hc => (b hc).2⟩

theorem moved_last {d d' : Device F} {last : Int} {l : List (Int × NextRnd F)} {t : Int} {r : NextRnd F} {x : Device F}
    (h : driveDevice d last l = .ok d')
    (hx : d'.next (tickOf (C79.lastOf last (l.map Prod.fst)) t) r = .ok (x, true)) :
    movedOnce d last (l ++ [(t, r)]) = true := by
  induction l generalizing d last with
  | nil =>
    cases h
    simp only [List.nil_append, movedOnce]
    rw [show tickOf last t = tickOf (C79.lastOf last ([].map (Prod.fst (α := Int) (β := NextRnd F)))) t from rfl, hx]
    rfl
  | cons y l ih =>
    obtain ⟨t0, r0⟩ := y
    obtain ⟨⟨d1, b⟩, h1, h⟩ := bind_eq_ok h
    have hlast : C79.lastOf last (List.map Prod.fst ((t0, r0) :: l)) = C79.lastOf t0 (l.map Prod.fst) := by
      unfold C79.lastOf
      cases l with
      | nil => rfl
      | cons a as => simp [List.getLast?_cons]
    rw [hlast] at hx
    show movedOnce d last ((t0, r0) :: (l ++ [(t, r)])) = true
    unfold movedOnce
    rw [h1]
    show (b || movedOnce d1 t0 (l ++ [(t, r)])) = true
    rw [ih h hx, Bool.or_true]

/-- A device that moved in round `n` has moved. -/
theorem moved_in {p n : Nat} {ts : List Int} {d : Device F} (h1 : 1 ≤ n) (hn : n ≤ ts.length)
    (h : C79.Driven mem rnd start p (ts.take n) d) (hm : C79.MovedIn mem rnd start p ts n) :
    movedOnce (mem p) start (roundsOf rnd p (ts.take n)) = true := by
  have hlt : n - 1 < ts.length := by omega
  have hsplit : ts.take n = ts.take (n - 1) ++ [ts[n - 1]] := by
    have := List.take_succ_eq_append_getElem hlt
    rwa [show n - 1 + 1 = n by omega] at this
  have hmap : ((ts.take (n - 1)).zipIdx.map fun x => (x.1, rnd p (x.2 + 1))).map Prod.fst = ts.take (n - 1) := by
    rw [List.map_map]
    exact List.zipIdx_map_fst 0 _
  have hlen : (ts.take (n - 1)).length + 1 = n := by rw [List.length_take]; omega
  unfold C79.Driven at h
  unfold roundsOf
  rw [hsplit, List.zipIdx_append, List.map_append] at h ⊢
  simp only [List.zipIdx_cons, List.zipIdx_nil, List.map_cons, List.map_nil, Nat.zero_add] at h ⊢
  rw [C79.drive_snoc] at h
  obtain ⟨d', hd', h⟩ := bind_eq_ok h
  obtain ⟨x, hx, h⟩ := bind_eq_ok h
  rw [hlen] at hx ⊢
  have hx' := hx
  rw [hmap] at hx'
  have hb := hm d' ts[n - 1] x hd' (by rw [List.getElem?_eq_getElem hlt]) hx'
  obtain ⟨x1, b⟩ := x
  cases hb
  exact moved_last hd' hx

/-- **C95, in bytes (any number type).** The position in every message of a decoded packet is on the road of an attached
device, if the devices moved in the packet's round. `xs` pairs the devices with the routes their published states were
refreshed from. -/
theorem packet_on_road [JsonFloat F] [UtmLib F] [WireFloat F] (hL : ∀ p ∈ devs, Lands (P p) Q (S p) On)
    (hP : 1 ≤ c.packetSize) (hd : devs.Nodup) (hm : ∀ p ∈ devs, C79.Made (mem p)) {L : Live F}
    (h : C79.Runs c rnd devs mem start L) (ho : L.gs.closed = false)
    (hk : ∀ p ∈ devs, Keeps (P p) Q (mem p).navigator)
    (hs : ∀ p ∈ devs, ∀ ts, Onward (S p) (mem p) start (roundsOf rnd p ts))
    (z : Packet × Content F) (hz : z ∈ L.out) (hne : z.2 ≠ [])
    (hmv : ∀ p ∈ devs, C79.MovedIn mem rnd start p L.rounds z.1.clock) :
    ∃ ds : List (Device F), z.2 = ds.map (fun d => some d.state) ∧
      ∀ (now : Int) (xs : List (Device F × List (Route F))), xs.map Prod.fst = ds →
        OkPacketPb ⟨C70.messages xs, now⟩ → (packetBytes now (C70.messages xs)).length < 2 ^ 63 →
        ∃ pk, packetFromBytes (packetBytes now (C70.messages xs)) = some pk ∧ pk.devices.length = z.2.length ∧
          ∀ (i : Nat) m, pk.devices[i]? = some m → ∃ l, m.location = some l ∧
            ∃ p ∈ devs, Road On (mem p).navigator ⟨l.lat, l.lon⟩ := by
  obtain ⟨ds, e, h1, h2⟩ := C79.packet_seen hP hd hm h ho z hz hne hmv
  have hi := C79.runs_inv hP hd h ho
  have hsh := hi.out z hz
  have hcl : 1 ≤ z.1.clock ∧ z.1.clock ≤ L.rounds.length := by
    unfold C79.Shown at hsh
    generalize z.1.slots = sl at hsh
    generalize z.2 = zs at hsh hne
    cases hsh with
    | nil => exact absurd rfl hne
    | cons hx _ =>
      obtain ⟨_, _, _, _, a, b, _⟩ := hx
      exact ⟨a, b⟩
  refine ⟨ds, e, fun now xs hxs hok hlen => ?_⟩
  obtain ⟨pk, g1, -, g3, g4⟩ := h2 now xs hxs hok hlen
  refine ⟨pk, g1, by rw [g3, e, List.length_map], fun i m hmi => ?_⟩
  have hlt : i < ds.length := by rw [← g3]; exact (List.getElem?_eq_some_iff.mp hmi).1
  obtain ⟨m', hm', hsee⟩ := g4 i ds[i] (List.getElem?_eq_getElem hlt)
  rw [hmi] at hm'
  cases hm'
  obtain ⟨l, k1, k2, k3, -⟩ := hsee.place
  obtain ⟨q, hq, hdr⟩ := h1 ds[i] (List.getElem_mem hlt)
  refine ⟨l, k1, q, hq, ?_⟩
  have hpt := ((published (hL q hq) (hk q hq) (hs q hq _) hdr).1 (moved_in hcl.1 hcl.2 hdr (hmv q hq))).1
  rw [k2, k3]
  exact hpt

end
/-! ## Cases -/

/-- A device with a track of two segments: nothing moved before the first round, when it shows latitude 0 and longitude
0; two rounds a second apart move it, and it shows another point, the one its navigator is at. -/
example : ((Toy.dev [.addRoute [some Toy.route]]).map fun d =>
      (movedOnce d 0 [], movedOnce d 0 [(1000000000, Toy.nextRnd), (2000000000, Toy.nextRnd)], (shown d).lat.val,
        (segs d.navigator).length)) = some (false, true, 0, 2) := by decide +kernel

example : ((Toy.dev [.addRoute [some Toy.route]]).bind fun d =>
      (driveDevice d 0 [(1000000000, Toy.nextRnd), (2000000000, Toy.nextRnd)]).toOption.map fun e =>
        ((shown e).lat.val, (shown e).lat.val == e.navigator.point.lat.val, (shown e).lon.val == e.navigator.point.lon.val)) =
    some (1 / 1592750, true, true) := by decide +kernel

end C95
end GpsGen
