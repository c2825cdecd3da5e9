import Verif.Theorems.C54
/-!
# C108: a device that has lost its position can be repaired

C54 shows that `DestinationTo` can leave a device whose route index is out of range, and that `Next`,
`Update`, `EncodeTracker` and the getters then panic. Here: exactly when `Update` and `EncodeTracker`
panic, and which calls bring such a device back. Any number type.

The model drops the state that a panicking call leaves behind. The theorems therefore do not speak of
one particular state: they hold for every device `d'` with `Left d d'`, which fixes only the curves and
the offline settings and leaves routes, indices, distances, published state, tick and battery arbitrary.
-/

namespace GpsGen
variable {F : Type}

namespace C108
open Device Navigator C24 C07 C54

/-! ## Specification -/

/-- The route index denotes a held route, or there are none. -/
def Placed (d : Device F) : Prop :=
  d.navigator.routes = [] ∨
    ∃ k : Nat, d.navigator.routeIndex = k ∧ k < d.navigator.routes.length

/-- `d'` may be what is left of `d`, however broken its position: the offline settings are those of `d`,
and the curves have as many control points as before. -/
structure Left [GoFloat F] (d d' : Device F) : Prop where
  skip : d'.navigator.skipOffline = d.navigator.skipOffline
  offline : d'.navigator.offline = d.navigator.offline
  elevation : d'.navigator.elevation.gen.points.length = d.navigator.elevation.gen.points.length
  isStatic : d'.speed.isStatic = d.speed.isStatic
  speed : d'.speed.gen.points.length = d.speed.gen.points.length
  sensors : d'.sensors.map (·.gen.points.length) = d.sensors.map (·.gen.points.length)

/-- Nothing panics: neither the getters, nor any covered call, nor encoding, nor decoding. -/
def Usable [GoMath F] (d : Device F) : Prop :=
  GettersOk d.navigator ∧ (∀ op, Proper d op → Returns (d.step op)) ∧
  (∀ tick rnd, Returns (d.next tick rnd)) ∧
  (∀ e, Live e → Returns (d.fromSnapshot e.snapshot)) ∧
  Returns (encodeTracker d) ∧ Returns (decodeTracker d.snapshot)

/-- The calls that move the navigator to a place given by the client. -/
inductive MoveCall [GoFloat F] (n : Navigator F) : Go (Navigator F × Bool) → Prop
  | segment (r t s : Int) : MoveCall n (n.moveToSegment r t s)
  | track (r t : Int) : MoveCall n (n.moveToTrack r t)
  | trackByID (r t : String) : MoveCall n (n.moveToTrackByID r t)
  | route (r : Int) : MoveCall n (n.moveToRoute r)
  | routeByID (r : String) : MoveCall n (n.moveToRouteByID r)
  | next : MoveCall n n.toNextRoute
  | prev : MoveCall n n.toPrevRoute

/-! ## Proof -/

theorem placed_iff (d : Device F) : Placed d ↔ d.navigator.IndexOk := by
  unfold Placed IndexOk
  constructor
  · rintro (h | ⟨k, h1, h2⟩)
    · exact Or.inl h
    · exact Or.inr (by omega)
  · rintro (h | h)
    · exact Or.inl h
    · exact Or.inr ⟨d.navigator.routeIndex.toNat, by omega, by omega⟩

theorem usable_of_dsafe [GoMath F] {d : Device F} (hs : DSafe d) : Usable d := by
  refine ⟨getters_ok _ hs.nav.index, ?_, ?_, ?_, ?_, ?_⟩
  · intro op ho
    obtain ⟨d', h1, -⟩ := step_dsafe hs op ho
    exact ⟨d', h1⟩
  · intro tick rnd
    obtain ⟨d', b, h1, -⟩ := next_safe hs tick rnd
    exact ⟨_, h1⟩
  · intro e he
    obtain ⟨d', h1, -⟩ := restore_safe (ss := d.sensors) (tk := d.tick) hs.sensors (live_safe he)
    exact ⟨d', h1⟩
  · obtain ⟨d', h1, -⟩ := update_safe hs
    exact ⟨(d', d'.snapshot), by simp only [encodeTracker, h1, ok_bind, pure_eq_ok]⟩
  · obtain ⟨d', h1, -⟩ := decode_safe hs
    exact ⟨d', h1⟩

theorem left_sensors [GoFloat F] {d d' : Device F} (hs : ∀ s ∈ d.sensors, s.gen.points ≠ [])
    (h : Left d d') : ∀ s ∈ d'.sensors, s.gen.points ≠ [] := by
  intro s hs' he
  have : s.gen.points.length ∈ d'.sensors.map (·.gen.points.length) := List.mem_map.mpr ⟨s, hs', rfl⟩
  rw [h.sensors, he] at this
  obtain ⟨q, hq, hl⟩ := List.mem_map.mp this
  exact hs q hq (List.length_eq_zero_iff.mp hl)

/-- The parts of the invariant that do not concern the position survive. -/
theorem left_safe [GoFloat F] {d d' : Device F} (hs : DSafe d) (h : Left d d')
    (hi : d'.navigator.IndexOk) : DSafe d' := by
  refine ⟨⟨hi, ?_, ?_⟩, ?_, left_sensors hs.sensors h⟩
  · rw [h.skip, h.offline]; exact hs.nav.offline
  · exact ne_nil_of_length h.elevation hs.nav.elevation
  · rcases hs.speed with k | k
    · exact Or.inl (h.isStatic.trans k)
    · exact Or.inr (ne_nil_of_length h.speed k)

theorem left_trans [GoFloat F] {a b c : Device F} (h : Left a b) (k : Left b c) : Left a c :=
  ⟨k.skip.trans h.skip, k.offline.trans h.offline, k.elevation.trans h.elevation,
   k.isStatic.trans h.isStatic, k.speed.trans h.speed, k.sensors.trans h.sensors⟩

theorem left_nav [GoFloat F] {d : Device F} {n : Navigator F} (h1 : n.skipOffline = d.navigator.skipOffline)
    (h2 : n.offline = d.navigator.offline) (h3 : n.elevation = d.navigator.elevation) :
    Left d { d with navigator := n } :=
  ⟨h1, h2, by rw [h3], rfl, rfl, rfl⟩

theorem moved_segment [GoFloat F] {n n' : Navigator F} {a b c : Int}
    (h : n.moveToSegment a b c = .ok (n', true)) :
    n'.IndexOk ∧ n'.skipOffline = n.skipOffline ∧ n'.offline = n.offline ∧ n'.elevation = n.elevation := by
  rcases moveToSegment_cases h with ⟨-, hf⟩ | ⟨s, ht, -, rfl, -⟩
  · cases hf
  · refine ⟨Or.inr ?_, rfl, rfl, rfl⟩
    unfold target? at ht
    cases hr : goAt? n.routes a with
    | none => rw [hr] at ht; cases ht
    | some r =>
      have := goAt?_isSome.mp (by rw [hr]; rfl)
      simp only [movedTo]
      omega

theorem moved_call [GoFloat F] {n n' : Navigator F} {g : Go (Navigator F × Bool)} (hc : MoveCall n g)
    (h : g = .ok (n', true)) :
    n'.IndexOk ∧ n'.skipOffline = n.skipOffline ∧ n'.offline = n.offline ∧ n'.elevation = n.elevation := by
  cases hc with
  | segment r t s => exact moved_segment h
  | track r t => exact moved_segment h
  | route r => exact moved_segment h
  | routeByID r =>
    unfold moveToRouteByID at h
    simp only at h
    split at h
    · cases h
    · exact moved_segment h
  | trackByID r t =>
    unfold moveToTrackByID at h
    simp only at h
    split at h
    · cases h
    · cases hg : goIndex n.routes (n.indexRoute r) with
      | error e => rw [hg] at h; cases h
      | ok q =>
        rw [hg] at h
        simp only [ok_bind] at h
        split at h
        · cases h
        · exact moved_segment h
  | next =>
    unfold toNextRoute at h
    split at h
    · exact moved_segment h
    · cases h
  | prev =>
    unfold toPrevRoute at h
    split at h
    · exact moved_segment h
    · cases h

theorem addLoop_grows (held : List (Route F)) (k : Nat) (l : List (Option (Route F))) :
    k ≤ (addLoop held k l).2 ∧ ((∃ r, some r ∈ l ∧ ∀ q ∈ held, q.id ≠ r.id) → k < (addLoop held k l).2) := by
  induction l generalizing held k with
  | nil => exact ⟨Nat.le_refl _, by simp⟩
  | cons o l ih =>
    cases o with
    | none =>
      refine ⟨(ih held k).1, ?_⟩
      rintro ⟨r, hr, hq⟩
      rcases List.mem_cons.mp hr with e | e
      · cases e
      · exact (ih held k).2 ⟨r, e, hq⟩
    | some p =>
      unfold addLoop
      split
      · rename_i hp
        refine ⟨(ih held k).1, ?_⟩
        rintro ⟨r, hr, hq⟩
        rcases List.mem_cons.mp hr with e | e
        · cases e
          unfold hasRoute at hp
          obtain ⟨q, hm, he⟩ := List.any_eq_true.mp hp
          exact absurd (by simpa using he : p.id = q.id).symm (hq q hm)
        · exact (ih held k).2 ⟨r, e, hq⟩
      · have := (ih (held ++ [p]) (k + 1)).1
        exact ⟨by omega, fun _ => by omega⟩

/-! ## The claim -/

/-- **C108, diagnosis.** `Update` returns if and only if the route index denotes a held route or there
are no routes, and `EncodeTracker` likewise. Nothing else can make them panic. -/
theorem lost_iff [GoMath F] (d : Device F) :
    (Returns d.update ↔ Placed d) ∧ (Returns (encodeTracker d) ↔ Placed d) := by
  have h1 : Returns d.update ↔ Placed d := by
    rw [show Placed d ↔ Returns d.updateState from (placed_iff d).trans (updateState_iff d).symm]
    unfold Device.update
    cases d.updateState with
    | ok a => exact ⟨fun _ => ⟨_, rfl⟩, fun _ => ⟨_, rfl⟩⟩
    | error e => exact ⟨fun ⟨_, h⟩ => (by cases h), fun ⟨_, h⟩ => (by cases h)⟩
  refine ⟨h1, ?_⟩
  rw [← h1]
  unfold encodeTracker
  cases d.update with
  | ok a => exact ⟨fun _ => ⟨_, rfl⟩, fun _ => ⟨_, rfl⟩⟩
  | error e => exact ⟨fun ⟨_, h⟩ => (by cases h), fun ⟨_, h⟩ => (by cases h)⟩

/-- **C108, damage.** `DestinationTo` may lose the position, but it leaves everything needed for a
repair, whatever the distance and however many routes are held. -/
theorem jump_leaves [GoMath F] (d : Device F) (m : F) :
    Left d { d with navigator := (d.navigator.destinationTo m).1 } := by
  have : (d.navigator.destinationTo m).1.skipOffline = d.navigator.skipOffline ∧
      (d.navigator.destinationTo m).1.offline = d.navigator.offline ∧
      (d.navigator.destinationTo m).1.elevation = d.navigator.elevation := by
    unfold destinationTo
    simp only
    repeat' split
    all_goals exact ⟨rfl, rfl, rfl⟩
  exact left_nav this.1 this.2.1 this.2.2

/-- **C108, repair.** Whatever is left of a device: after `ResetNavigator`, after `ResetRoutes`, after a
`RemoveRoute` that removes a route, after an `AddRoute` that brings a route with a new id, and after any
move that reports success, nothing panics. Each of these calls returns. -/
theorem repaired [GoMath F] (d d' : Device F) (h : Live d) (hl : Left d d') :
    (∃ r, d'.step (.move .resetNavigator) = .ok r ∧ Usable r) ∧
    Usable d'.resetRoutes.1 ∧
    (∀ id, (d'.removeRoute id).2 = true → Usable (d'.removeRoute id).1) ∧
    (∀ rs, (∃ r, some r ∈ rs ∧ ∀ q ∈ d'.navigator.routes, q.id ≠ r.id) → Usable (d'.addRoute rs).1) ∧
    (∀ g n, MoveCall d'.navigator g → g = .ok (n, true) → Usable { d' with navigator := n }) := by
  have hs := live_safe h
  have fix : ∀ n : Navigator F, n.IndexOk → n.skipOffline = d'.navigator.skipOffline →
      n.offline = d'.navigator.offline → n.elevation = d'.navigator.elevation →
      DSafe { d' with navigator := n } := fun n hi h1 h2 h3 =>
    left_safe hs (left_trans hl (left_nav h1 h2 h3)) hi
  refine ⟨⟨_, rfl, usable_of_dsafe (fix _ (indexOk_reset _) rfl rfl rfl)⟩, ?_, ?_, ?_, ?_⟩
  · apply usable_of_dsafe
    unfold Device.resetRoutes Navigator.resetRoutes
    split
    · rename_i q n ok hq
      split at hq
      · rename_i h0
        cases hq
        exact fix _ (Or.inl (List.length_eq_zero_iff.mp h0)) rfl rfl rfl
      · cases hq
        exact updateRoutes_safe (fix _ (indexOk_reset ({ d'.navigator with routes := [] })) rfl rfl rfl)
  · intro id
    unfold Device.removeRoute Navigator.removeRoute
    by_cases h0 : goLen id = 0 ∨ goLen id > 36
    · simp [h0]
    · simp only [h0, if_false]
      generalize removeFirst (fun r : Route F => r.id == id) d'.navigator.routes = q
      obtain ⟨rs, ok⟩ := q
      cases ok
      · intro hf; cases hf
      · intro _
        exact usable_of_dsafe (updateRoutes_safe
          (fix _ (indexOk_reset (({ d'.navigator with routes := rs } : Navigator F).nextVersion)) rfl rfl rfl))
  · intro rs hr
    have hpos := (addLoop_grows d'.navigator.routes 0 rs).2 hr
    have h0 : rs.length ≠ 0 := by
      obtain ⟨r, hm, -⟩ := hr
      intro e
      rw [List.length_eq_zero_iff.mp e] at hm
      cases hm
    unfold Device.addRoute Navigator.addRoute
    rw [if_neg h0]
    simp only [gt_iff_lt, hpos, if_true]
    exact usable_of_dsafe (updateRoutes_safe (fix _
      (indexOk_reset ({ d'.navigator with routes := (addLoop d'.navigator.routes 0 rs).1 })) rfl rfl rfl))
  · intro g n hc hg
    obtain ⟨h1, h2, h3, h4⟩ := moved_call hc hg
    exact usable_of_dsafe (fix n h1 h2 h3 h4)

/-- **C108, restore.** Restoring the snapshot of any device held by a client onto what is left of another
one returns a device on which nothing panics. -/
theorem restored [GoMath F] (d d' e : Device F) (h : Live d) (hl : Left d d') (he : Live e) :
    ∃ r, d'.fromSnapshot e.snapshot = .ok r ∧ Usable r := by
  obtain ⟨r, h1, h2⟩ := restore_safe (ss := d'.sensors) (tk := d'.tick)
    (left_sensors (live_safe h).sensors hl) (live_safe he)
  exact ⟨r, h1, usable_of_dsafe h2⟩

/-! ## A concrete case -/

/-- What a repair does after the jump of C54: does `Next` return, and where is the device? -/
def after (ops : List (DevOp Toy)) : Option (Bool × Int) :=
  (Toy.dev (jump ++ ops)).map fun d =>
    ((d.next (Toy.of 1) Toy.nextRnd).toOption.isSome, d.navigator.routeIndex)

/-- Lost after the jump; changing the model or the sensors does not help; five repairs that do. -/
example : after [] = some (false, 3) := by decide +kernel
example : (after [.setModel "m", .resetSensors]).map (·.1) = some false := by decide +kernel
example : after [.move .resetNavigator] = some (true, 0) := by decide +kernel
example : after [.removeRoute "a"] = some (true, 0) := by decide +kernel
example : after [.addRoute [some (demoRoute "d")]] = some (true, 0) := by decide +kernel
example : after [.move (.moveToRoute 2)] = some (true, 2) := by decide +kernel
example : (after [.resetRoutes]).isSome = true := by decide +kernel

/-- An `AddRoute` that brings only a known id, and a move that fails, do not repair. -/
example : (after [.addRoute [some (demoRoute "a")]]).map (·.1) = some false := by decide +kernel
example : (after [.move (.moveToRoute 7)]).map (·.1) = some false := by decide +kernel

end C108
end GpsGen
