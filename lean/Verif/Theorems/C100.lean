import Verif.Model.Machine
import Verif.Theorems.C15
import Verif.Lemmas.Toy
import Verif.Lemmas.DeviceNext
import Verif.Model.Snapshot
/-!
# C100: 64-bit integers

The model computes with unbounded integers. Here: with the 64-bit integers of the machine the navigator does exactly the same, in
every history, although an index restored from a snapshot may overflow. The exception is an offline period drawn between bounds near
the largest integer, which only a snapshot can contain (`claim_fails`).
-/

namespace GpsGen
variable {F : Type}

namespace C100
open Navigator

/-- A 64-bit integer. -/
def Int64 (x : Int) : Prop := -2 ^ 63 ≤ x ∧ x < 2 ^ 63

/-- The integers of a navigator are those of a 64-bit machine. -/
structure Ints (n : Navigator F) : Prop where
  route : Int64 n.routeIndex
  track : Int64 n.trackIndex
  segment : Int64 n.segmentIndex
  offline : Int64 n.offlineIndex

/-- The slices fit into memory: at most `2^32` routes, at most `2^32` tracks per route and less than `2^63` segments per track. -/
structure Memory (n : Navigator F) : Prop where
  routes : n.routes.length ≤ 2 ^ 32
  tracks : ∀ r ∈ n.routes, r.tracks.length ≤ 2 ^ 32
  segments : ∀ r ∈ n.routes, ∀ t ∈ r.tracks, t.segments.length < 2 ^ 63

/-- No offline period can exceed the largest integer. -/
def Bounded (n : Navigator F) : Prop := ∀ r, n.offline = some r → -2 ^ 63 ≤ r.min ∧ r.min + 2 ^ 32 ≤ 2 ^ 63

theorem wrap_int64 (x : Int) : Int64 (wrap64 x) := by unfold Int64 wrap64; omega

theorem wrap_id {x : Int} (h : Int64 x) : wrap64 x = x := by unfold Int64 at h; unfold wrap64; omega

theorem wrap_wrap (x y : Int) : wrap64 (wrap64 x + wrap64 y) = wrap64 (x + y) := by unfold wrap64; omega

theorem wrap_eq {x y : Int} (h : -2 ^ 64 < x - y ∧ x - y < 2 ^ 64) : wrap64 x = wrap64 y ↔ x = y := by
  unfold wrap64; omega

/-! ## Random -/

theorem draw_lt (x : UInt32) (k : Int) : (uint32n x (k % 2 ^ 32).toNat : Int) < 2 ^ 32 := by
  have := C15.uint32n_le x (k % 2 ^ 32).toNat
  omega

theorem value64_eq (r : Random) (x : UInt32) (h : -2 ^ 63 ≤ r.min ∧ r.min + 2 ^ 32 ≤ 2 ^ 63) :
    r.value64 x = r.value x ∧ Int64 (r.value x) := by
  have e : wrap64 (r.max - r.min) % 2 ^ 32 = (r.max - r.min) % 2 ^ 32 := by unfold wrap64; omega
  have := draw_lt x (r.max - r.min)
  have h2 : Int64 (r.value x) := by unfold Random.value Int64; omega
  refine ⟨?_, h2⟩
  unfold Random.value64
  rw [e]
  exact wrap_id h2

theorem toOffline64_eq (n : Navigator F) (x : UInt32) (h : Bounded n) : n.toOffline64 x = n.toOffline x := by
  unfold toOffline64 toOffline
  split
  · rfl
  · cases hr : n.offline with
    | none => rfl
    | some r => simp only [(value64_eq r x (h r hr)).1]

/-! ## Moves -/

theorem toNextRoute64_eq [GoFloat F] (n : Navigator F) (h : Ints n) (m : Memory n) : n.toNextRoute64 = n.toNextRoute := by
  unfold toNextRoute64 toNextRoute
  split
  · rw [wrap_id]
    have := h.route; have := m.routes
    unfold Int64 at *; omega
  · rfl

theorem toPrevRoute64_eq [GoFloat F] (n : Navigator F) (h : Ints n) : n.toPrevRoute64 = n.toPrevRoute := by
  unfold toPrevRoute64 toPrevRoute
  split
  · rw [wrap_id]
    have := h.route
    unfold Int64 at *; omega
  · rfl

theorem nextOffline64_eq (n : Navigator F) (h : Ints n) : n.nextOffline64 = n.nextOffline := by
  unfold nextOffline64 nextOffline
  split
  · rfl
  · split
    · rw [wrap_id]
      have := h.offline
      unfold Int64 at *; omega
    · rfl

theorem nextRoute64_eq [GoFloat F] (n : Navigator F) (h : Ints n) (m : Memory n) : n.nextRoute64 = n.nextRoute := by
  have := h.route; have := m.routes
  unfold nextRoute64 nextRoute
  simp only
  split
  · rw [wrap_id]
    unfold Int64 at *; omega
  · rfl

theorem goIndex_mem {α : Type} {l : List α} {i : Int} {a : α} (h : goIndex l i = .ok a) : a ∈ l := by
  unfold goIndex at h
  split at h
  · split at h
    · cases h; exact List.mem_of_getElem? ‹_›
    · cases h
  · cases h

theorem currentRoute_mem {n : Navigator F} {r : Route F} (h : n.currentRoute = .ok (some r)) : r ∈ n.routes := by
  unfold currentRoute at h
  split at h
  · cases h
  · cases hg : goIndex n.routes n.routeIndex with
    | error e => rw [hg] at h; cases h
    | ok a => rw [hg] at h; cases h; exact goIndex_mem hg

theorem nextTrack64_eq [GoFloat F] (n : Navigator F) (h : Ints n) (m : Memory n) : n.nextTrack64 = n.nextTrack := by
  unfold nextTrack64 nextTrack
  simp only
  have e : ({ n with currentSegmentDistance := lit 0, segmentIndex := 0 } : Navigator F).currentRoute = n.currentRoute := rfl
  rw [e]
  cases hc : n.currentRoute with
  | error e => rfl
  | ok o =>
    cases o with
    | none => rfl
    | some r =>
      have h1 := h.track; have h2 := m.tracks r (currentRoute_mem hc)
      simp only [ok_bind]
      split
      · rename_i hlt
        rw [wrap_id]
        unfold Route.numTracks at hlt
        unfold Int64 at *; omega
      · rfl

/-- `nextTrack` forgets the index of the segment. -/
theorem nextTrack_index [GoFloat F] (n : Navigator F) (i j : Int) (c : F) :
    ({ n with currentSegmentDistance := c, segmentIndex := i } : Navigator F).nextTrack =
      ({ n with currentSegmentDistance := c, segmentIndex := j } : Navigator F).nextTrack := rfl

theorem currentTrack_mem {n : Navigator F} {t : Track F} (h : n.currentTrack = .ok (some t)) :
    ∃ r, n.currentRoute = .ok (some r) ∧ r.trackAt n.trackIndex = some t ∧ r ∈ n.routes ∧ t ∈ r.tracks := by
  unfold currentTrack at h
  cases hc : n.currentRoute with
  | error e => rw [hc] at h; cases h
  | ok o =>
    rw [hc] at h
    cases o with
    | none => cases h
    | some r =>
      have ht : r.trackAt n.trackIndex = some t := by cases hr : r.trackAt n.trackIndex <;> rw [ok_bind] at h <;> simp only [hr] at h <;> cases h; rfl
      exact ⟨r, rfl, ht, currentRoute_mem hc, List.mem_of_getElem? (goAt?_eq_some.mp ht).2⟩

/-- What `nextSegment` does on the machine: the same, or the segment found is empty and only the index of the segment differs. -/
theorem nextSegment64_cases [GoFloat F] (n : Navigator F) (h : Ints n) (m : Memory n) :
    (n.nextSegment64 = n.nextSegment ∧ ∀ n' s, n.nextSegment = .ok (n', s) → s.isEmpty = false → Ints n' ∧ Memory n' ∧
        n'.offline = n.offline) ∨
      ∃ i j s, s.isEmpty = true ∧ n.nextSegment64 = .ok ({ n with currentSegmentDistance := lit 0, segmentIndex := i }, s) ∧
        n.nextSegment = .ok ({ n with currentSegmentDistance := lit 0, segmentIndex := j }, s) := by
  unfold nextSegment64 nextSegment
  cases hc : n.currentTrack with
  | error e => left; exact ⟨rfl, fun _ _ h => by cases h⟩
  | ok o =>
    cases o with
    | none => left; exact ⟨rfl, fun _ _ h he => by cases h; rw [zero_isEmpty] at he; cases he⟩
    | some t =>
      obtain ⟨r, h1, h2, h3, h4⟩ := currentTrack_mem hc
      simp only [ok_bind]
      split
      · left; exact ⟨rfl, fun _ _ h he => by cases h; rw [zero_isEmpty] at he; cases he⟩
      · have hs : n.currentSegment =
            .ok (if (t.segmentAt n.segmentIndex).isEmpty then Segment.zero else t.segmentAt n.segmentIndex) := by
          unfold currentSegment; rw [h1]; simp only [ok_bind, h2]; rfl
        rw [hs]
        simp only [ok_bind]
        by_cases he : (t.segmentAt n.segmentIndex).isEmpty
        · right
          rw [if_pos he]
          exact ⟨_, _, _, zero_isEmpty, rfl, rfl⟩
        · left
          have hin : 0 ≤ n.segmentIndex ∧ n.segmentIndex < t.segments.length := by
            rw [← goAt?_isSome]
            cases hg : goAt? t.segments n.segmentIndex with
            | some s => rfl
            | none => exact absurd (by unfold Track.segmentAt; rw [hg]; exact zero_isEmpty) he
          have hl := m.segments r h3 t h4
          have hw : Int64 (n.segmentIndex + 1) := by unfold Int64; omega
          rw [wrap_id hw]
          exact ⟨rfl, fun _ _ h' _ => by
            cases h'; exact ⟨⟨h.route, h.track, hw, h.offline⟩, ⟨m.routes, m.tracks, m.segments⟩, rfl⟩⟩

theorem toOffline_ints {n n' : Navigator F} {x : UInt32} (h : Ints n) (b : Bounded n) (hs : n.toOffline x = .ok n') : Ints n' := by
  rcases toOffline_cases hs with ⟨-, rfl⟩ | ⟨-, r, hr, rfl⟩
  · exact h
  · exact ⟨h.route, h.track, h.segment, (value64_eq r x (b r hr)).2⟩

theorem nextRoute_ints [GoFloat F] {n : Navigator F} (h : Ints n) (m : Memory n) : Ints n.nextRoute := by
  have h1 := h.route; have h2 := m.routes
  unfold nextRoute
  simp only
  split
  · exact ⟨by unfold Int64 at *; simp only; omega, h.track, h.segment, h.offline⟩
  · exact ⟨by unfold Int64; simp, h.track, h.segment, h.offline⟩

theorem nextTrack_ints [GoFloat F] {n n' : Navigator F} {b : Bool} (hr : Int64 n.routeIndex) (ht : Int64 n.trackIndex)
    (ho : Int64 n.offlineIndex) (m : Memory n) (hs : n.nextTrack = .ok (n', b)) :
    Ints n' ∧ n'.routes = n.routes ∧ n'.offline = n.offline := by
  unfold nextTrack at hs
  simp only at hs
  have e : ({ n with currentSegmentDistance := lit 0, segmentIndex := 0 } : Navigator F).currentRoute = n.currentRoute := rfl
  rw [e] at hs
  have z : Int64 0 := by unfold Int64; omega
  cases hc : n.currentRoute with
  | error e => rw [hc] at hs; cases hs
  | ok o =>
    rw [hc] at hs
    cases o with
    | none => cases hs; exact ⟨⟨hr, ht, z, ho⟩, rfl, rfl⟩
    | some r =>
      have h2 := m.tracks r (currentRoute_mem hc)
      simp only [ok_bind] at hs
      split at hs
      · rename_i hlt
        unfold Route.numTracks at hlt
        cases hs; exact ⟨⟨hr, by unfold Int64 at *; simp only; omega, z, ho⟩, rfl, rfl⟩
      · cases hs; exact ⟨⟨hr, z, z, ho⟩, rfl, rfl⟩

/-! ## NextLocation -/

theorem leave_eq [GoFloat F] (n : Navigator F) (i j : Int) (x : UInt32) (h : Ints n) (m : Memory n) (b : Bounded n) :
    let a : Navigator F := { n with currentSegmentDistance := lit 0, segmentIndex := i }
    let c : Navigator F := { n with currentSegmentDistance := lit 0, segmentIndex := j }
    (do let (n, moved) ← a.nextTrack64
        let n := if !moved then n.nextRoute64 else n
        let n ← n.toOffline64 x
        return (n, false) : Go (Navigator F × Bool)) =
      (do let (n, moved) ← c.nextTrack
          let n := if !moved then n.nextRoute else n
          let n ← n.toOffline x
          return (n, false)) ∧
    ∀ n' q, (do let (n, moved) ← c.nextTrack
                let n := if !moved then n.nextRoute else n
                let n ← n.toOffline x
                return (n, false) : Go (Navigator F × Bool)) = .ok (n', q) → Ints n' := by
  intro a c
  have ea : a.nextTrack64 = c.nextTrack := by
    have e : a.nextTrack64 = ({ n with currentSegmentDistance := lit 0, segmentIndex := 0 } : Navigator F).nextTrack64 := rfl
    have e' := nextTrack64_eq ({ n with currentSegmentDistance := lit 0, segmentIndex := 0 } : Navigator F)
      ⟨h.route, h.track, by unfold Int64; simp, h.offline⟩ ⟨m.routes, m.tracks, m.segments⟩
    rw [e, e']
    rfl
  rw [ea]
  cases hc : c.nextTrack with
  | error e => exact ⟨rfl, fun _ _ h => by cases h⟩
  | ok p =>
    obtain ⟨k, moved⟩ := p
    obtain ⟨h1, h2, h3⟩ := nextTrack_ints (n := c) h.route h.track h.offline ⟨m.routes, m.tracks, m.segments⟩ hc
    have m1 : Memory k := ⟨by rw [h2]; exact m.routes, by rw [h2]; exact m.tracks, by rw [h2]; exact m.segments⟩
    simp only [ok_bind]
    have b1 : Bounded (if !moved then k.nextRoute else k) := by
      intro r hr
      refine b r ?_
      rw [← hr]
      have : k.nextRoute.offline = k.offline := by unfold nextRoute; simp only; split <;> rfl
      split
      · rw [this]; exact h3.symm
      · exact h3.symm
    have i1 : Ints (if !moved then k.nextRoute else k) := by
      split
      · exact nextRoute_ints h1 m1
      · exact h1
    rw [nextRoute64_eq k h1 m1, toOffline64_eq _ x b1]
    refine ⟨rfl, fun n' q hh => ?_⟩
    cases ho : (if !moved then k.nextRoute else k).toOffline x with
    | error e => rw [ho] at hh; cases hh
    | ok v => rw [ho] at hh; cases hh; exact toOffline_ints i1 b1 ho

theorem nextLoop64_eq [GoMath F] (d : F) (x : UInt32) (fuel : Nat) (n : Navigator F) (h : Ints n) (m : Memory n) (b : Bounded n) :
    nextLoop64 d x fuel n = nextLoop d x fuel n ∧ ∀ n' q, nextLoop d x fuel n = .ok (n', q) → Ints n' := by
  induction fuel generalizing n with
  | zero => exact ⟨rfl, fun _ _ h => by cases h⟩
  | succ fuel ih =>
    unfold nextLoop64 nextLoop
    cases hv : n.isValidDistance d with
    | error e => exact ⟨rfl, fun _ _ h => by cases h⟩
    | ok v =>
      simp only [ok_bind]
      cases v with
      | true =>
        refine ⟨rfl, fun n' q hh => ?_⟩
        simp only [if_true] at hh
        cases hs : (n.updateDist d).currentSegment with
        | error e => rw [hs] at hh; cases hh
        | ok s =>
          rw [hs] at hh
          simp only [ok_bind] at hh
          have hu : Ints (n.updateDist d) := ⟨h.route, h.track, h.segment, h.offline⟩
          split at hh
          · cases hh; exact hu
          · split at hh
            · cases hh; exact ⟨h.route, h.track, h.segment, h.offline⟩
            · cases hh; exact ⟨h.route, h.track, h.segment, h.offline⟩
      | false =>
        simp only [Bool.false_eq_true, if_false]
        rcases nextSegment64_cases n h m with ⟨e, hi⟩ | ⟨i, j, s, he, e1, e2⟩
        · rw [e]
          cases hn : n.nextSegment with
          | error e => exact ⟨rfl, fun _ _ h => by cases h⟩
          | ok p =>
            obtain ⟨k, s⟩ := p
            simp only [ok_bind]
            cases hse : s.isEmpty with
            | false =>
              obtain ⟨k1, k2, k3⟩ := hi k s hn hse
              have kb : Bounded k := fun r hr => b r (by rw [← k3]; exact hr)
              simp only [Bool.not_false, if_true]
              split
              · rw [toOffline64_eq k x kb]
                refine ⟨rfl, fun n' q hh => ?_⟩
                cases ho : k.toOffline x with
                | error e => rw [ho] at hh; cases hh
                | ok v => rw [ho] at hh; cases hh; exact toOffline_ints k1 kb ho
              · exact ih k k1 k2 kb
            | true =>
              simp only [Bool.not_true, Bool.false_eq_true, if_false]
              have hk : ∃ c i, k = { n with currentSegmentDistance := c, segmentIndex := i } := by
                unfold nextSegment at hn
                cases hc : n.currentTrack with
                | error e => rw [hc] at hn; cases hn
                | ok o =>
                  rw [hc] at hn
                  cases o with
                  | none => cases hn; exact ⟨_, _, rfl⟩
                  | some t =>
                    simp only [ok_bind] at hn
                    split at hn
                    · cases hn; exact ⟨_, _, rfl⟩
                    · cases hq : n.currentSegment with
                      | error e => rw [hq] at hn; cases hn
                      | ok s' => rw [hq] at hn; cases hn; exact ⟨_, _, rfl⟩
              obtain ⟨c, i, rfl⟩ := hk
              exact leave_eq n i i x h m b
        · rw [e1, e2]
          simp only [ok_bind, he, Bool.not_true, Bool.false_eq_true, if_false]
          exact leave_eq n i j x h m b

theorem nextLocation64_eq [GoMath F] (n : Navigator F) (tick speed : F) (x : UInt32) (h : Ints n) (m : Memory n) (b : Bounded n) :
    n.nextLocation64 tick speed x = n.nextLocation tick speed x ∧
      ∀ n' q, n.nextLocation tick speed x = .ok (n', q) → Ints n' := by
  unfold nextLocation64 nextLocation
  rw [nextOffline64_eq n h]
  split
  · exact ⟨rfl, fun _ _ hh => by cases hh; exact h⟩
  · have h1 : Ints n.nextOffline.1 ∧ n.nextOffline.1.routes = n.routes ∧ n.nextOffline.1.offline = n.offline := by
      have := h.offline
      unfold nextOffline
      split
      · exact ⟨h, rfl, rfl⟩
      · split
        · exact ⟨⟨h.route, h.track, h.segment, by unfold Int64 at *; simp only; omega⟩, rfl, rfl⟩
        · exact ⟨h, rfl, rfl⟩
    generalize n.nextOffline = p at h1
    obtain ⟨k, off⟩ := p
    simp only at h1 ⊢
    obtain ⟨h1, h2, h3⟩ := h1
    split
    · exact ⟨rfl, fun _ _ hh => by cases hh; exact h1⟩
    · exact nextLoop64_eq _ x _ k h1 ⟨by rw [h2]; exact m.routes, by rw [h2]; exact m.tracks, by rw [h2]; exact m.segments⟩
        (fun r hr => b r (by rw [← h3]; exact hr))

/-! ## DestinationTo -/

/-- The sum of the first `i` counters is `i * (i - 1) / 2`. -/
def Sums (i a : Int) : Prop := 0 ≤ i ∧ 2 * a = i * (i - 1)

theorem sums_next {i a : Int} (h : Sums i a) : Sums (i + 1) (a + i) := by
  obtain ⟨h1, h2⟩ := h
  refine ⟨by omega, ?_⟩
  have e : (i + 1) * (i + 1 - 1) = i * (i - 1) + 2 * i := by
    rw [Int.add_sub_cancel, Int.add_mul, Int.mul_sub, Int.mul_one, Int.one_mul]; omega
  omega

theorem sums_int64 {i a : Int} (h : Sums i a) (hi : i ≤ 2 ^ 32) : Int64 a ∧ Int64 i := by
  obtain ⟨h1, h2⟩ := h
  have h3 : i * (i - 1) ≤ 2 ^ 32 * (2 ^ 32 - 1) := by
    rcases (show i = 0 ∨ 1 ≤ i by omega) with rfl | hp
    · omega
    · exact Int.mul_le_mul hi (by omega) (by omega) (by omega)
  have h4 : 0 ≤ i * (i - 1) := by
    rcases (show i = 0 ∨ 1 ≤ i by omega) with rfl | hp
    · omega
    · exact Int.mul_nonneg h1 (by omega)
  constructor <;> unfold Int64 <;> omega

theorem jumpRoutes64_eq [GoFloat F] (d : F) (l : List (Route F)) : ∀ (i ri : Int) (rd : F) (last : Option (Route F)),
    Sums i ri → i + l.length ≤ 2 ^ 32 →
    jumpRoutes64 d i ri rd last l = jumpRoutes d i ri rd last l ∧ Int64 (jumpRoutes d i ri rd last l).2.1 := by
  induction l with
  | nil =>
    intro i ri rd last h hl
    exact ⟨rfl, (sums_int64 h (by simpa using hl)).1⟩
  | cons r rs ih =>
    intro i ri rd last h hl
    rw [List.length_cons] at hl
    have h1 := sums_next h
    have h2 := sums_int64 h1 (by omega)
    unfold jumpRoutes64 jumpRoutes
    rw [wrap_id h2.1, wrap_id h2.2]
    split
    · exact ⟨rfl, h2.1⟩
    · exact ih _ _ _ _ h1 (by omega)

theorem jumpTracks64_eq [GoFloat F] (d : F) (l : List (Track F)) : ∀ (i ti : Int) (rd crd : F) (last : Option (Track F)),
    Sums i ti → i + l.length ≤ 2 ^ 32 →
    jumpTracks64 d i ti rd crd last l = jumpTracks d i ti rd crd last l ∧ Int64 (jumpTracks d i ti rd crd last l).2.1 := by
  induction l with
  | nil =>
    intro i ri rd crd last h hl
    exact ⟨rfl, (sums_int64 h (by simpa using hl)).1⟩
  | cons r rs ih =>
    intro i ri rd crd last h hl
    rw [List.length_cons] at hl
    have h1 := sums_next h
    have h2 := sums_int64 h1 (by omega)
    unfold jumpTracks64 jumpTracks
    rw [wrap_id h2.1, wrap_id h2.2]
    split
    · exact ⟨rfl, h2.1⟩
    · exact ih _ _ _ _ _ h1 (by omega)

theorem jumpSegments64_eq [GoFloat F] (d : F) (l : List (Segment F)) : ∀ (i si : Int) (rd crd ctd : F) (last : Segment F),
    Int64 si → 0 ≤ i → i + l.length < 2 ^ 63 →
    jumpSegments64 d i si rd crd ctd last l = jumpSegments d i si rd crd ctd last l ∧
      Int64 (jumpSegments d i si rd crd ctd last l).2.1 := by
  induction l with
  | nil => intro i si rd crd ctd last h _ _; exact ⟨rfl, h⟩
  | cons s ss ih =>
    intro i si rd crd ctd last h h0 hl
    rw [List.length_cons] at hl
    have h1 : Int64 i := by unfold Int64; omega
    have h2 : Int64 (i + 1) := by unfold Int64; omega
    unfold jumpSegments64 jumpSegments
    rw [wrap_id h2]
    split
    · exact ih _ _ _ _ _ _ h (by omega) (by omega)
    · split
      · exact ⟨rfl, h1⟩
      · exact ih _ _ _ _ _ _ h1 (by omega) (by omega)

theorem jumpRoutes_mem [GoFloat F] (d : F) (l : List (Route F)) : ∀ (i ri : Int) (rd : F) (last : Option (Route F)) (r : Route F),
    (jumpRoutes d i ri rd last l).1 = some r → r ∈ l ∨ last = some r := by
  induction l with
  | nil => intro i ri rd last r h; exact Or.inr h
  | cons a l ih =>
    intro i ri rd last r h
    unfold jumpRoutes at h
    split at h
    · cases h; exact Or.inl (List.mem_cons_self ..)
    · rcases ih _ _ _ _ _ h with h | h
      · exact Or.inl (List.mem_cons_of_mem _ h)
      · cases h; exact Or.inl (List.mem_cons_self ..)

theorem jumpTracks_mem [GoFloat F] (d : F) (l : List (Track F)) : ∀ (i ti : Int) (rd crd : F) (last : Option (Track F)) (t : Track F),
    (jumpTracks d i ti rd crd last l).1 = some t → t ∈ l ∨ last = some t := by
  induction l with
  | nil => intro i ri rd crd last r h; exact Or.inr h
  | cons a l ih =>
    intro i ri rd crd last r h
    unfold jumpTracks at h
    split at h
    · cases h; exact Or.inl (List.mem_cons_self ..)
    · rcases ih _ _ _ _ _ _ h with h | h
      · exact Or.inl (List.mem_cons_of_mem _ h)
      · cases h; exact Or.inl (List.mem_cons_self ..)

theorem destinationTo64_eq [GoMath F] (n : Navigator F) (meters : F) (h : Ints n) (m : Memory n) :
    n.destinationTo64 meters = n.destinationTo meters ∧ Ints (n.destinationTo meters).1 := by
  unfold destinationTo64 destinationTo
  simp only
  generalize (if n.distance <. meters then n.distance else meters) = d
  split
  · exact ⟨rfl, h⟩
  have z : Sums 0 0 := ⟨by omega, by omega⟩
  obtain ⟨e1, i1⟩ := jumpRoutes64_eq d n.routes 0 0 (lit 0) none z (by have := m.routes; omega)
  have m1 := jumpRoutes_mem d n.routes 0 0 (lit 0) none
  rw [e1]
  generalize jumpRoutes d 0 0 (lit 0) none n.routes = p at i1 m1
  obtain ⟨o, ri, rd⟩ := p
  cases o with
  | none => exact ⟨rfl, h⟩
  | some route =>
    have hr : route ∈ n.routes := by rcases m1 route rfl with h | h; exacts [h, by cases h]
    simp only
    obtain ⟨e2, i2⟩ := jumpTracks64_eq d route.tracks 0 0 rd (lit 0) none z (by have := m.tracks _ hr; omega)
    have m2 := jumpTracks_mem d route.tracks 0 0 rd (lit 0) none
    rw [e2]
    generalize jumpTracks d 0 0 rd (lit 0) none route.tracks = p at i2 m2
    obtain ⟨o, ti, rd', crd⟩ := p
    cases o with
    | none => exact ⟨rfl, h⟩
    | some track =>
      have ht : track ∈ route.tracks := by rcases m2 track rfl with h | h; exacts [h, by cases h]
      simp only
      obtain ⟨e3, i3⟩ := jumpSegments64_eq d track.segments 0 0 rd' crd (lit 0) Segment.zero
        (by unfold Int64; omega) (by omega) (by have := m.segments _ hr _ ht; omega)
      rw [e3]
      generalize jumpSegments d 0 0 rd' crd (lit 0) Segment.zero track.segments = p at i3
      obtain ⟨s, si, rd'', crd', ctd⟩ := p
      refine ⟨rfl, ?_⟩
      simp only
      split
      · exact h
      · exact ⟨i1, i2, i3, h.offline⟩

/-! ## Histories -/

theorem move_ints [GoFloat F] {n n' : Navigator F} {a b c : Int} {q : Bool} (h : Ints n) (m : Memory n)
    (hs : n.moveToSegment a b c = .ok (n', q)) : Ints n' := by
  rcases moveToSegment_cases hs with ⟨rfl, -⟩ | ⟨s, ht, -, rfl, -⟩
  · exact h
  · unfold target? at ht
    obtain ⟨r, h1, ht⟩ := Option.bind_eq_some_iff.mp ht
    obtain ⟨t, h2, h3⟩ := Option.bind_eq_some_iff.mp ht
    have r1 := goAt?_isSome.mp (by rw [h1]; rfl)
    have r2 := goAt?_isSome.mp (by rw [h2]; rfl)
    have r3 := goAt?_isSome.mp (by rw [h3]; rfl)
    have hr : r ∈ n.routes := List.mem_of_getElem? (goAt?_eq_some.mp h1).2
    have ht : t ∈ r.tracks := List.mem_of_getElem? (goAt?_eq_some.mp h2).2
    have l1 := m.routes
    have l2 := m.tracks _ hr
    have l3 := m.segments _ hr _ ht
    exact ⟨by unfold Int64 movedTo; simp only; omega, by unfold Int64 movedTo; simp only; omega,
      by unfold Int64 movedTo; simp only; omega, by unfold Int64 movedTo; simp⟩

/-- **One operation.** With 64-bit integers it does the same, whatever integers the navigator holds, and leaves 64-bit integers. -/
theorem step64_eq [GoMath F] (n : Navigator F) (op : NavOp F) (h : Ints n) (m : Memory n) (b : Bounded n) :
    n.step64 op = n.step op ∧ ∀ n', n.step op = .ok n' → Ints n' := by
  have z : Int64 0 := by unfold Int64; omega
  have mv : ∀ {n'}, (n' = n ∨ ∃ a b c q, n.moveToSegment a b c = .ok (n', q)) → Ints n' := by
    rintro n' (rfl | ⟨_, _, _, _, hs⟩)
    · exact h
    · exact move_ints h m hs
  cases op with
  | toNextRoute => exact ⟨by show n.toNextRoute64.map _ = _; rw [toNextRoute64_eq n h m]; rfl, fun _ hs => mv (move_cases hs trivial)⟩
  | toPrevRoute => exact ⟨by show n.toPrevRoute64.map _ = _; rw [toPrevRoute64_eq n h]; rfl, fun _ hs => mv (move_cases hs trivial)⟩
  | moveToSegment _ _ _ | moveToRoute _ | moveToTrack _ _ | moveToRouteByID _ | moveToTrackByID _ _ =>
    exact ⟨rfl, fun _ hs => mv (move_cases hs trivial)⟩
  | destinationTo d =>
    obtain ⟨e, i⟩ := destinationTo64_eq n d h m
    exact ⟨by show Except.ok (n.destinationTo64 d).1 = _; rw [e]; rfl, fun _ hs => by cases hs; exact i⟩
  | toOffline x => exact ⟨toOffline64_eq n x b, fun _ hs => toOffline_ints h b hs⟩
  | nextLocation tick speed x =>
    obtain ⟨e, i⟩ := nextLocation64_eq n tick speed x h m b
    exact ⟨by show (n.nextLocation64 tick speed x).map _ = _; rw [e]; rfl,
      fun _ hs => by obtain ⟨q, hs⟩ := map_fst_ok hs; exact i _ q hs⟩
  | addRoute rs =>
    refine ⟨rfl, fun _ hs => ?_⟩
    cases hs
    unfold addRoute
    split
    · exact h
    · simp only; split
      · exact ⟨z, z, z, h.offline⟩
      · exact ⟨h.route, h.track, h.segment, h.offline⟩
  | removeRoute id =>
    refine ⟨rfl, fun _ hs => ?_⟩
    cases hs
    unfold removeRoute
    split
    · exact h
    · simp only; split
      · exact ⟨z, z, z, h.offline⟩
      · exact h
  | removeTrack rid tid =>
    refine ⟨rfl, fun _ hs => ?_⟩
    cases hs
    unfold removeTrack
    split
    · exact h
    · split
      · exact h
      · simp only; split <;> exact ⟨h.route, h.track, h.segment, h.offline⟩
  | resetRoutes =>
    refine ⟨rfl, fun _ hs => ?_⟩
    cases hs
    unfold resetRoutes
    split
    · exact h
    · exact ⟨z, z, z, h.offline⟩
  | reset => exact ⟨rfl, fun _ hs => by cases hs; exact ⟨z, z, z, h.offline⟩⟩
  | isFinish =>
    refine ⟨rfl, fun _ hs => ?_⟩
    cases hs
    unfold isFinish
    split
    · exact ⟨h.route, h.track, h.segment, h.offline⟩
    · exact h
  | nextElevation t =>
    refine ⟨rfl, fun n' hs => ?_⟩
    change n.nextElevation t = _ at hs
    unfold nextElevation at hs
    cases he : n.elevation.next t with
    | error e => rw [he] at hs; cases hs
    | ok e => rw [he] at hs; cases hs; exact ⟨h.route, h.track, h.segment, h.offline⟩
  | shuffleElevation draws => exact ⟨rfl, fun _ hs => by cases hs; exact ⟨h.route, h.track, h.segment, h.offline⟩⟩
  | onRoute i op => exact ⟨rfl, fun _ hs => by cases hs; exact ⟨h.route, h.track, h.segment, h.offline⟩⟩

/-- The slices fit into memory all the time. -/
def Fits [GoMath F] (n : Navigator F) : List (NavOp F) → Prop
  | [] => True
  | op :: ops => Memory n ∧ ∀ n', n.step op = .ok n' → Fits n' ops

/-- **C100 (partial).** A navigator with any 64-bit integers in it, valid as indices or not, does in every history the same with the
arithmetic of the machine as with unbounded integers.

Missing for the full property: offline bounds within `2^32` of the largest integer, for which it is false (`claim_fails`). -/
theorem run64_partial [GoMath F] (n : Navigator F) (ops : List (NavOp F)) (h : Ints n) (b : Bounded n) (hf : Fits n ops) :
    n.run64 ops = n.run ops := by
  induction ops generalizing n with
  | nil => rfl
  | cons op ops ih =>
    obtain ⟨m, hf⟩ := hf
    obtain ⟨e, i⟩ := step64_eq n op h m b
    show n.step64 op >>= _ = n.step op >>= _
    rw [e]
    cases hs : n.step op with
    | error e => rfl
    | ok n' =>
      exact ih n' (i n' hs) (fun r hr => b r (by rw [← (step_offline_frame hs).offline]; exact hr)) (hf n' hs)

/-- An index restored from a snapshot: the largest integer. -/
def stray : Navigator Toy :=
  { routes := [Toy.route], routeIndex := 0, trackIndex := 0, segmentIndex := 2 ^ 63 - 1
    currentSegmentDistance := Toy.of 0, currentRouteDistance := Toy.of 0
    currentTrackDistance := Toy.of 0, currentDistance := Toy.of 0
    offlineIndex := 0, point := Toy.pt 0 0, elevation := ⟨"", "", Toy.of 0, Toy.of 0, Toy.of 0, Toy.of 0, ⟨[], 0, Toy.of 0, Toy.of 0⟩⟩
    offline := some ⟨1, 10⟩, distance := Toy.of 2, skipOffline := false, version := 0 }

/-- A case of the theorem: two steps from there. -/
example : stray.run64 [.nextLocation (Toy.of 1) (Toy.of 1) 5, .nextLocation (Toy.of 1) (Toy.of 1) 5] =
    stray.run [.nextLocation (Toy.of 1) (Toy.of 1) 5, .nextLocation (Toy.of 1) (Toy.of 1) 5] ∧
    (stray.run [.nextLocation (Toy.of 1) (Toy.of 1) 5]).isOk = true := by decide +kernel

/-- It does overflow in `nextSegment`, but the same call of `NextLocation` sets it to zero. -/
example : (stray.nextSegment64.toOption.map (·.1.segmentIndex), stray.nextSegment.toOption.map (·.1.segmentIndex),
    (stray.nextLocation64 (Toy.of 1) (Toy.of 1) 0).toOption.map (·.1.segmentIndex)) = (some (-2 ^ 63), some (2 ^ 63), some 0) := by
  decide +kernel

/-! ## A new navigator -/

theorem validate64 (o : NavOptions F) (h1 : Int64 o.minOffline) (h2 : Int64 o.maxOffline) :
    (o.validateOffline = o.validateOffline64) ∨
      ∃ a b : Int × Int, o.validateOffline = .ok { o with minOffline := a.1, maxOffline := a.2 } ∧
        o.validateOffline64 = .ok { o with minOffline := b.1, maxOffline := b.2 } ∧ Random.new a.1 a.2 = Random.new b.1 b.2 := by
  obtain ⟨e1, e2, e3, mn, mx, e4, e5⟩ := o
  simp only at h1 h2
  unfold Int64 at h1 h2
  unfold NavOptions.validateOffline NavOptions.validateOffline64
  simp only
  by_cases hn : mn < 0
  · left; rw [if_pos hn, if_pos hn]
  rw [if_neg hn, if_neg hn]
  by_cases hx : mx > 3600
  · left; rw [if_pos hx, if_pos hx]
  rw [if_neg hx, if_neg hx]
  by_cases hm : mx = -2 ^ 63
  · right
    subst hm
    refine ⟨(-2 ^ 63 - 1, -2 ^ 63), (2 ^ 63 - 1, -2 ^ 63), ?_, ?_, by decide⟩
    all_goals
      have hg : mn > -2 ^ 63 := by omega
      rw [if_pos hg]; rfl
  · left
    rw [wrap_id (x := mx - 1) (by unfold Int64; omega)]
    by_cases hg : mn > mx
    · have h3 : ¬ mx < mx - 1 := by omega
      rw [if_pos hg]
      simp only [if_neg h3]
    · have h3 : ¬ mx < mn := by omega
      rw [if_neg hg]
      simp only [if_neg h3]

/-- The offline bounds of the options are 64-bit integers. -/
def Options (opts : List (NavOption F)) : Prop := ∀ a b, NavOption.offline a b ∈ opts → Int64 a ∧ Int64 b

theorem options_int64 [GoFloat F] (opts : List (NavOption F)) (o : NavOptions F) (h : Options opts)
    (ho : Int64 o.minOffline ∧ Int64 o.maxOffline) :
    Int64 (opts.foldl NavOptions.apply o).minOffline ∧ Int64 (opts.foldl NavOptions.apply o).maxOffline := by
  induction opts generalizing o with
  | nil => exact ho
  | cons a opts ih =>
    refine ih _ (fun x y hx => h x y (List.mem_cons_of_mem _ hx)) ?_
    cases a with
    | skipOffline => exact ho
    | elevation => exact ho
    | offline x y => exact h x y (List.mem_cons_self ..)

/-- **New.** Whatever 64-bit offline bounds are asked for, the machine creates the navigator of the model. -/
theorem new64_eq [GoFloat F] (uid : String) (draws : Nat → F) (opts : List (NavOption F)) (h : Options opts) :
    Navigator.new64 uid draws opts = Navigator.new uid draws opts := by
  obtain ⟨h1, h2⟩ := options_int64 opts (NavOptions.default : NavOptions F) h ⟨by unfold Int64 NavOptions.default; simp, by unfold Int64 NavOptions.default; simp⟩
  unfold Navigator.new64 Navigator.new
  simp only
  rcases validate64 _ h1 h2 with e | ⟨a, b, e1, e2, e3⟩
  · rw [e]
  · rw [e1, e2]
    generalize opts.foldl NavOptions.apply (NavOptions.default : NavOptions F) = o
    simp only [ok_bind]
    have f : ∀ c : Int × Int, ({ o with minOffline := c.1, maxOffline := c.2 } : NavOptions F).validateElevation =
        o.validateElevation.map (fun o' => { o' with minOffline := c.1, maxOffline := c.2 }) := by
      intro c
      unfold NavOptions.validateElevation
      simp only
      by_cases c1 : o.elevationMin <. lit 0
      · rw [if_pos c1, if_pos c1]; rfl
      rw [if_neg c1, if_neg c1]
      by_cases c2 : lit 50000 <. o.elevationMax
      · rw [if_pos c2, if_pos c2]; rfl
      rw [if_neg c2, if_neg c2]
      by_cases c3 : o.elevationMax <. o.elevationMin
      · rw [if_pos c3, if_pos c3]
        simp only [Except.map]
        split <;> simp only <;> split <;> rfl
      · rw [if_neg c3, if_neg c3]
        simp only [Except.map]
        split <;> rfl
    rw [f, f]
    cases o.validateElevation with
    | error e => rfl
    | ok o' => simp only [Except.map, ok_bind, e3]

/-- **C100 for navigators made by `New`.** The offline bounds are then small, so only memory limits the histories. -/
theorem fresh [GoMath F] (uid : String) (draws : Nat → F) (opts : List (NavOption F)) (ho : Options opts) (n : Navigator F)
    (hn : Navigator.new64 uid draws opts = .ok n) (ops : List (NavOp F)) (hf : Fits n ops) : n.run64 ops = n.run ops := by
  rw [new64_eq uid draws opts ho] at hn
  obtain ⟨i, b⟩ : Ints n ∧ Bounded n := by
    constructor
    · obtain ⟨_, _, _, -, -, -, rfl⟩ := new_cases hn
      have z : Int64 0 := by unfold Int64; omega
      exact ⟨z, z, z, z⟩
    · intro r hr
      cases hs : n.skipOffline with
      | false =>
        obtain ⟨r', hr', h1, h2, h3, -⟩ := C15.new_random hn hs
        rw [hr'] at hr; cases hr; omega
      | true =>
        obtain ⟨_, _, _, -, -, -, rfl⟩ := new_cases hn
        change (if _ then none else _) = some r at hr
        split at hr
        · cases hr
        · exact absurd hs ‹_›
  exact run64_partial n ops i b hf

/-- **C100 for navigators read from a snapshot.** The indices are any 64-bit integers; only the smallest offline duration must be less
than 292 thousand million years. -/
theorem restored [GoMath F] (m : NavMsg F) (h : Int64 m.routeIndex ∧ Int64 m.trackIndex ∧ Int64 m.segmentIndex ∧ Int64 m.offlineIndex)
    (hb : m.offlineMin ≤ 2 ^ 63 - 2 ^ 32) (n : Navigator F) (hn : Navigator.fromSnapshotOnto false none m = .ok n)
    (ops : List (NavOp F)) (hf : Fits n ops) : n.run64 ops = n.run ops := by
  obtain ⟨h1, h2, h3, h4⟩ := h
  obtain ⟨rs, -, hn⟩ := bind_eq_ok hn
  obtain ⟨p, -, hn⟩ := bind_eq_ok hn
  obtain ⟨e, -, hn⟩ := bind_eq_ok hn
  cases hn
  refine run64_partial _ ops ⟨h1, h2, h3, h4⟩ (fun r hr => ?_) hf
  cases hr
  unfold Random.new
  simp only
  repeat' split
  all_goals omega

/-! ## Versions -/

theorem fold_wrap {α : Type} (f g : Int → α → Int) (h : ∀ a x, f (wrap64 a) x = wrap64 (g a x)) (l : List α) (a : Int) :
    l.foldl f (wrap64 a) = wrap64 (l.foldl g a) := by
  induction l generalizing a with
  | nil => rfl
  | cons x l ih => rw [List.foldl_cons, h, ih, List.foldl_cons]

/-- The sums of the machine are the sums of the model, reduced to 64 bits. -/
theorem sum64_eq (n : Navigator F) : n.sum64 = (wrap64 n.sum.1, wrap64 n.sum.2.1, wrap64 n.sum.2.2) := by
  have z : wrap64 0 = 0 := by decide
  unfold sum64 sum
  refine Prod.ext rfl (Prod.ext ?_ ?_)
  · have := fold_wrap (fun a (r : Route F) => wrap64 (a + wrap64 r.version)) (fun a r => a + r.version)
      (fun a r => wrap_wrap a r.version) n.routes 0
    rw [z] at this; exact this
  · have := fold_wrap (fun b (r : Route F) => r.tracks.foldl (fun b t => wrap64 (b + wrap64 t.version)) b)
      (fun b r => r.tracks.foldl (fun b t => b + t.version) b)
      (fun a r => fold_wrap _ _ (fun a (t : Track F) => wrap_wrap a t.version) r.tracks a) n.routes 0
    rw [z] at this; exact this

/-- Fewer than `2^64` changes lie between two sums. -/
def Near (a b : Int × Int × Int) : Prop :=
  (-2 ^ 64 < a.1 - b.1 ∧ a.1 - b.1 < 2 ^ 64) ∧ (-2 ^ 64 < a.2.1 - b.2.1 ∧ a.2.1 - b.2.1 < 2 ^ 64) ∧
    (-2 ^ 64 < a.2.2 - b.2.2 ∧ a.2.2 - b.2.2 < 2 ^ 64)

/-- **Versions.** `Next` compares the sum with the last one seen (device.go:900-908). On the machine the comparison has the same
result, even if counters overflow between the two. -/
theorem changed (n m : Navigator F) (h : Near n.sum m.sum) : n.sum64 = m.sum64 ↔ n.sum = m.sum := by
  obtain ⟨h1, h2, h3⟩ := h
  rw [sum64_eq, sum64_eq]
  simp only [Prod.ext_iff, wrap_eq h1, wrap_eq h2, wrap_eq h3]

/-! ## The full claim -/

/-- The full claim: no restriction on the offline bounds. -/
def Claim (F : Type) [GoMath F] : Prop :=
  ∀ (n : Navigator F) (ops : List (NavOp F)), Ints n → (∀ r, n.offline = some r → Int64 r.min ∧ Int64 r.max) → Fits n ops →
    n.run64 ops = n.run ops

/-- **Counterexample.** With a smallest offline duration of `2^63 - 1` seconds (a snapshot is not checked) the period drawn becomes
negative, so the device does not go offline at all. For every number type. -/
theorem overflow : (⟨2 ^ 63 - 1, 2 ^ 63 - 100⟩ : Random).value64 (UInt32.ofNat (2 ^ 31)) < 0 ∧
    (⟨2 ^ 63 - 1, 2 ^ 63 - 100⟩ : Random).value (UInt32.ofNat (2 ^ 31)) > 2 ^ 63 := by decide

theorem claim_fails [GoMath F] : ¬ Claim F := by
  intro h
  have e : Sensor F := ⟨"", "", lit 0, lit 0, lit 0, lit 0, ⟨[], 0, lit 0, lit 0⟩⟩
  have z : Int64 0 := by unfold Int64; omega
  let n : Navigator F := {
    routes := [], routeIndex := 0, trackIndex := 0, segmentIndex := 0
    currentSegmentDistance := lit 0, currentRouteDistance := lit 0
    currentTrackDistance := lit 0, currentDistance := lit 0
    offlineIndex := 0, point := ⟨lit 0, lit 0⟩, elevation := e
    offline := some ⟨2 ^ 63 - 1, 2 ^ 63 - 100⟩
    distance := lit 0, skipOffline := false, version := 0 }
  have := h n [.toOffline (UInt32.ofNat (2 ^ 31))] ⟨z, z, z, z⟩
    (fun r hr => by cases hr; constructor <;> unfold Int64 <;> simp only <;> omega)
    ⟨⟨by simp [n], by simp [n], by simp [n]⟩, fun _ _ => trivial⟩
  have e := Except.ok.inj this
  have e := congrArg Navigator.offlineIndex e
  change (⟨2 ^ 63 - 1, 2 ^ 63 - 100⟩ : Random).value64 (UInt32.ofNat (2 ^ 31)) =
    (⟨2 ^ 63 - 1, 2 ^ 63 - 100⟩ : Random).value (UInt32.ofNat (2 ^ 31)) at e
  have := overflow
  omega

/-- The restriction is nearly sharp: in its absence the drawn period differs from the model exactly when it exceeds the largest
integer. -/
theorem value64_iff (r : Random) (x : UInt32) (h : Int64 r.min) : r.value64 x = r.value x ↔ r.value x < 2 ^ 63 := by
  have e : wrap64 (r.max - r.min) % 2 ^ 32 = (r.max - r.min) % 2 ^ 32 := by unfold wrap64; omega
  have := draw_lt x (r.max - r.min)
  unfold Int64 at h
  unfold Random.value64
  rw [e]
  change wrap64 (r.value x) = r.value x ↔ _
  have h2 : -2 ^ 63 ≤ r.value x := by unfold Random.value; omega
  have h3 : r.value x < 2 ^ 64 := by unfold Random.value; omega
  unfold wrap64
  omega

end C100
end GpsGen
