import Verif.Theorems.C21
import Verif.Lemmas.SkipOffline
/-!
# C22: a navigator survives a snapshot round trip

Any number type, any navigator returned by `New`, any history, any continuation. As in C21 the
properties stored by the client must be representable in JSON; that restriction makes the theorems
`_partial`.

A navigator that skips offline periods has no offline settings; the restored one has the (unused)
default settings instead. `Alike` allows exactly this difference, and `alike_perform` shows that no
operation can observe it.
-/

namespace GpsGen
variable {F : Type}

namespace C22
open Navigator C21

/-- A route with a valid name and faithful properties. -/
def SoundRoute (r : Route F) : Prop :=
  NameOk r.name ∧ FaithfulProps r.props ∧ ∀ t ∈ r.tracks, FaithfulProps t.props

/-- The client stores only faithful properties in tracks. -/
def SoundTrackOp : TrackOp F → Prop
  | .setProps m => FaithfulProps (some m)
  | _ => True

/-- The client stores only faithful properties in routes. -/
def SoundRouteOp : RouteOp F → Prop
  | .addTrack t => ∀ t', t = some t' → FaithfulProps t'.props
  | .setProps m => FaithfulProps (some m)
  | .onTrack _ op => SoundTrackOp op
  | _ => True

/-- The client adds only sound routes. -/
def SoundOp : NavOp F → Prop
  | .addRoute rs => ∀ r, some r ∈ rs → SoundRoute r
  | .onRoute _ op => SoundRouteOp op
  | _ => True

/-- Equal, except possibly for the unused offline settings of a navigator that is never offline. -/
def Alike (n m : Navigator F) : Prop :=
  m = n ∨ (n.skipOffline = true ∧ ∃ o, m = { n with offline := o })

theorem track_apply_sound {t : Track F} {op : TrackOp F} (h : FaithfulProps t.props)
    (ho : SoundTrackOp op) : FaithfulProps (t.apply op).props := by
  cases op with
  | changeColor c => cases c <;> exact h
  | changeName s => simp only [Track.apply, Track.changeName]; split <;> exact h
  | setProps m => exact ho

theorem route_apply_sound [GoFloat F] {r : Route F} {op : RouteOp F} (h : SoundRoute r)
    (ho : SoundRouteOp op) : SoundRoute (r.apply op) := by
  cases op with
  | addTrack t =>
    cases t with
    | none => exact h
    | some t =>
      refine ⟨h.1, h.2.1, fun t' hm => ?_⟩
      simp only [Route.apply, Route.addTrack, Route.updateState, List.mem_append,
        List.mem_singleton] at hm
      rcases hm with hm | rfl
      · exact h.2.2 t' hm
      · exact ho _ rfl
  | removeTrack id =>
    simp only [Route.apply, Route.removeTrack]
    split
    · exact h
    · simp only [removeFirst_eq]
      split
      · exact ⟨h.1, h.2.1, fun t hm => h.2.2 t (List.mem_of_mem_eraseP hm)⟩
      · exact h
  | trackByID id =>
    simp only [Route.apply, Route.trackByID]
    split
    · exact h
    · split <;> exact h
  | changeColor c => cases c <;> exact h
  | changeName s =>
    simp only [Route.apply, Route.changeName]
    cases hp : parseName s with
    | error e => exact h
    | ok s' =>
      refine ⟨?_, h.2⟩
      unfold parseName at hp
      split at hp
      · cases hp
      split at hp
      · cases hp
      cases hp
      exact Or.inr (by simp only; omega)
  | setProps m => exact ⟨h.1, ho, h.2.2⟩
  | onTrack i op =>
    refine ⟨h.1, h.2.1, fun t hm => ?_⟩
    rcases mem_modify hm with hm | ⟨a, ha, rfl⟩
    · exact h.2.2 t hm
    · exact track_apply_sound (h.2.2 a ha) ho

theorem mem_addLoop {held : List (Route F)} {k : Nat} {l : List (Option (Route F))} {r : Route F}
    (h : r ∈ (addLoop held k l).1) : r ∈ held ∨ some r ∈ l := by
  induction l generalizing held k with
  | nil => exact Or.inl h
  | cons a l ih =>
    cases a with
    | none => rcases ih h with h | h <;> simp [h]
    | some a =>
      unfold addLoop at h
      split at h
      · rcases ih h with h | h <;> simp [h]
      · rcases ih h with h | h
        · simp only [List.mem_append, List.mem_singleton] at h
          rcases h with h | rfl <;> simp [*]
        · simp [h]

theorem mem_updateFirst {α : Type} {p : α → Bool} {f : α → α} {l : List α} {b : α}
    (h : b ∈ updateFirst p f l) : b ∈ l ∨ ∃ a ∈ l, b = f a := by
  induction l with
  | nil => cases h
  | cons a l ih =>
    unfold updateFirst at h
    split at h
    · rcases List.mem_cons.mp h with rfl | h
      · exact Or.inr ⟨a, by simp, rfl⟩
      · exact Or.inl (by simp [h])
    · rcases List.mem_cons.mp h with rfl | h
      · exact Or.inl (by simp)
      · rcases ih h with h | ⟨c, hc, rfl⟩
        · exact Or.inl (by simp [h])
        · exact Or.inr ⟨c, by simp [hc], rfl⟩

/-- The routes of a navigator are sound and its offline settings, if used, are those of a
constructor. -/
structure Sound (n : Navigator F) : Prop where
  routes : ∀ r ∈ n.routes, SoundRoute r
  offline : n.skipOffline = true ∨ ∃ a b, n.offline = some (Random.new a b)

theorem step_sound [GoMath F] {n n' : Navigator F} {op : NavOp F} (hn : Sound n) (ho : SoundOp op)
    (h : n.step op = .ok n') : Sound n' := by
  have hf := step_offline_frame h
  refine ⟨?_, by rw [hf.skip, hf.offline]; exact hn.offline⟩
  have moving : Moving op → ∀ r ∈ n'.routes, SoundRoute r := fun hm => by
    rw [(step_routes_frame hm h).1]; exact hn.routes
  cases op with
  | addRoute rs =>
    cases h
    unfold addRoute
    split
    · exact hn.routes
    · intro r hr
      have : r ∈ (addLoop n.routes 0 rs).1 := by
        simp only at hr
        split at hr <;> exact hr
      rcases mem_addLoop this with h | h
      · exact hn.routes r h
      · exact ho r h
  | removeRoute id =>
    cases h
    unfold removeRoute
    split
    · exact hn.routes
    · simp only [removeFirst_eq]
      split
      · exact fun r hr => hn.routes r (List.mem_of_mem_eraseP hr)
      · exact hn.routes
  | removeTrack rid tid =>
    cases h
    unfold removeTrack
    split
    · exact hn.routes
    · split
      · exact hn.routes
      · have : ∀ r ∈ updateFirst (fun r : Route F => r.id == rid)
            (fun r => (r.removeTrack tid).1) n.routes, SoundRoute r := by
          intro r hr
          rcases mem_updateFirst hr with hr | ⟨a, ha, rfl⟩
          · exact hn.routes r hr
          · exact route_apply_sound (op := .removeTrack tid) (hn.routes a ha) trivial
        simp only
        split <;> exact this
  | resetRoutes =>
    cases h
    unfold resetRoutes
    split
    · exact hn.routes
    · exact fun r hr => by cases hr
  | reset => cases h; exact hn.routes
  | onRoute i op =>
    cases h
    intro r hr
    rcases mem_modify hr with hr | ⟨a, ha, rfl⟩
    · exact hn.routes r hr
    · exact route_apply_sound (hn.routes a ha) ho
  | _ => exact moving trivial

theorem run_sound [GoMath F] {n n' : Navigator F} {ops : List (NavOp F)} (hn : Sound n)
    (ho : ∀ op ∈ ops, SoundOp op) (h : n.run ops = .ok n') : Sound n' := by
  induction ops generalizing n with
  | nil => cases h; exact hn
  | cons op ops ih =>
    obtain ⟨n1, h1, h2⟩ := bind_eq_ok h
    exact ih (step_sound hn (ho op (by simp)) h1) (fun o hm => ho o (by simp [hm])) h2

theorem new_sound [GoFloat F] {uid : String} {draws : Nat → F} {opts : List (NavOption F)}
    {n : Navigator F} (h : Navigator.new uid draws opts = .ok n) : Sound n := by
  obtain ⟨o1, o2, s, -, -, -, rfl⟩ := new_cases h
  refine ⟨fun r hr => (by cases hr), ?_⟩
  cases hs : o2.skipOffline with
  | true => left; simp [newState, hs]
  | false => right; exact ⟨o2.minOffline, o2.maxOffline, by simp [newState, hs]⟩

theorem random_idempotent (a b : Int) :
    Random.new (Random.new a b).min (Random.new a b).max = Random.new a b := by
  unfold Random.new
  simp only
  repeat' split
  all_goals simp_all
  all_goals omega

theorem restore_sound [GoMath F] {n : Navigator F} (h : Sound n) :
    ∃ m, Navigator.fromSnapshot (some n.snapshot) = .ok m ∧ Alike n m := by
  have hr : (n.routes.map Route.snapshot).mapM
      (fun m : RouteMsg F => (do let (r, _) ← Route.fromSnapshot m; return r : Go (Route F))) =
      .ok (n.routes.map id) := by
    apply mapM_map_ok
    intro r hm
    have ⟨h1, h2, h3⟩ := h.routes r hm
    rw [route_round_trip r h1 (fun m hm => (h2 m hm).1) (fun t ht m hm => (h3 t ht m hm).1),
      reloaded_faithful r h2 h3]
    rfl
  refine ⟨{ n with offline := some (Random.new n.snapshot.offlineMin n.snapshot.offlineMax) }, ?_, ?_⟩
  · simp only [Navigator.fromSnapshot, fromSnapshotOnto]
    have : n.snapshot.routes = n.routes.map Route.snapshot := rfl
    rw [this, hr]
    have e1 : n.snapshot.elevation = some n.elevation.snapshot := rfl
    rw [e1, sensor_round_trip]
    simp only [List.map_id, ok_bind]
    rfl
  · rcases h.offline with h1 | ⟨a, b, h2⟩
    · exact Or.inr ⟨h1, _, rfl⟩
    · left
      have : Random.new n.snapshot.offlineMin n.snapshot.offlineMax = Random.new a b := by
        simp only [snapshot, h2]
        exact random_idempotent a b
      rw [this, ← h2]

/-- **C22, the state.** Whatever history led to the navigator, restoring its snapshot into a new
navigator succeeds and gives the same routes, cursor, counters, location, elevation and offline
state. -/
theorem navigator_survives_partial [GoMath F] (uid : String) (draws : Nat → F)
    (opts : List (NavOption F)) (n0 n : Navigator F) (ops : List (NavOp F))
    (h0 : Navigator.new uid draws opts = .ok n0) (ho : ∀ op ∈ ops, SoundOp op)
    (h : n0.run ops = .ok n) :
    ∃ m, Navigator.fromSnapshot (some n.snapshot) = .ok m ∧ Alike n m ∧
      (n.skipOffline = false → m = n) := by
  obtain ⟨m, h1, h2⟩ := restore_sound (run_sound (new_sound h0) ho h)
  refine ⟨m, h1, h2, fun hs => ?_⟩
  rcases h2 with h2 | ⟨h3, _⟩
  · exact h2
  · rw [hs] at h3; cases h3

/-- One operation on alike navigators: the same answer (or the same panic) and alike results. -/
def SameOutcome (a b : Go (Navigator F × Answer)) : Prop :=
  (∃ n m ans, a = .ok (n, ans) ∧ b = .ok (m, ans) ∧ Alike n m) ∨ (∃ e, a = .error e ∧ b = .error e)

theorem alike_perform [GoMath F] {n m : Navigator F} (h : Alike n m) (op : NavOp F) :
    SameOutcome (n.perform op) (m.perform op) := by
  rcases h with rfl | ⟨hs, o, rfl⟩
  · cases hp : m.perform op with
    | error e => exact Or.inr ⟨e, rfl, rfl⟩
    | ok p => exact Or.inl ⟨p.1, p.1, p.2, rfl, rfl, Or.inl rfl⟩
  · have := perform_wo (o := o) hs op
    rw [show ({ n with offline := o } : Navigator F) = n.withOffline o from rfl, this]
    cases hp : n.perform op with
    | error e => exact Or.inr ⟨e, rfl, rfl⟩
    | ok p =>
      refine Or.inl ⟨p.1, p.1.withOffline o, p.2, rfl, rfl, Or.inr ⟨?_, o, rfl⟩⟩
      rw [(perform_skip hp).1]; exact hs

/-- Answers of a history. -/
def answers [GoMath F] (n : Navigator F) : List (NavOp F) → Go (Navigator F × List Answer)
  | [] => .ok (n, [])
  | op :: ops => do
    let (n, a) ← n.perform op
    let (n, as) ← answers n ops
    return (n, a :: as)

theorem alike_answers [GoMath F] {n m : Navigator F} (h : Alike n m) (ops : List (NavOp F)) :
    (∃ n' m' as, answers n ops = .ok (n', as) ∧ answers m ops = .ok (m', as) ∧ Alike n' m') ∨
    (∃ e, answers n ops = .error e ∧ answers m ops = .error e) := by
  induction ops generalizing n m with
  | nil => exact Or.inl ⟨n, m, [], rfl, rfl, h⟩
  | cons op ops ih =>
    unfold answers
    rcases alike_perform h op with ⟨n1, m1, a, h1, h2, h3⟩ | ⟨e, h1, h2⟩
    · rw [h1, h2]
      simp only [ok_bind]
      rcases ih h3 with ⟨n2, m2, as, h4, h5, h6⟩ | ⟨e, h4, h5⟩
      · left; rw [h4, h5]; exact ⟨n2, m2, a :: as, rfl, rfl, h6⟩
      · right; rw [h4, h5]; exact ⟨e, rfl, rfl⟩
    · right; rw [h1, h2]; exact ⟨e, rfl, rfl⟩

/-- The published state is a function of what `Alike` navigators share. -/
theorem alike_update [GoMath F] {n m : Navigator F} (h : Alike n m) (s : DevState F) :
    n.update s = m.update s := by
  rcases h with rfl | ⟨_, o, rfl⟩ <;> rfl

/-- **C22, the future.** The restored navigator gives the same answers as the original for every
continuation with the same arguments and random draws, and publishes the same state afterwards. -/
theorem navigator_evolves_alike_partial [GoMath F] (uid : String) (draws : Nat → F)
    (opts : List (NavOption F)) (n0 n m : Navigator F) (ops rest : List (NavOp F))
    (h0 : Navigator.new uid draws opts = .ok n0) (ho : ∀ op ∈ ops, SoundOp op)
    (h : n0.run ops = .ok n) (hm : Navigator.fromSnapshot (some n.snapshot) = .ok m) :
    (∃ n' m' as, answers n rest = .ok (n', as) ∧ answers m rest = .ok (m', as) ∧
      ∀ s, n'.update s = m'.update s) ∨
    (∃ e, answers n rest = .error e ∧ answers m rest = .error e) := by
  obtain ⟨m', h1, h2, -⟩ := navigator_survives_partial uid draws opts n0 n ops h0 ho h
  rw [hm] at h1; cases h1
  rcases alike_answers h2 rest with ⟨n', m', as, h4, h5, h6⟩ | h
  · exact Or.inl ⟨n', m', as, h4, h5, alike_update h6⟩
  · exact Or.inr h

/-- **Negation of the unrestricted claim**: an integer property of a held route is not the same after
the round trip. -/
theorem int_property_lost [GoMath F] (n0 : Navigator F) : ∃ (r : Route F) (m : Navigator F),
    Navigator.fromSnapshot (some ({ n0 with routes := [r] } : Navigator F).snapshot) = .ok m ∧
    m.routes ≠ [r] := by
  refine ⟨Route.restore "r" "#000000" (some [("k", .int 1)]),
    { n0 with
      routes := [Route.restore "r" "#000000" (some [("k", .float (lit 1))])]
      offline := some (Random.new n0.snapshot.offlineMin n0.snapshot.offlineMax) }, ?_, ?_⟩
  · simp only [Navigator.fromSnapshot, fromSnapshotOnto]
    have e1 : ({ n0 with routes := [Route.restore "r" "#000000" (some [("k", PVal.int 1)])] } :
      Navigator F).snapshot.elevation = some n0.elevation.snapshot := rfl
    rw [e1, sensor_round_trip]
    rfl
  · intro h
    injection h with h _
    injection h with _ _ _ _ _ h _
    cases h

/-- Non-vacuity: a navigator with offline periods, moved, put offline and restored in the middle of an
offline period is the very same state. -/
def sample : Option (Navigator Toy) :=
  match Navigator.new "e" (fun _ => Toy.of 0) [] with
  | .error _ => none
  | .ok n => (n.run [.addRoute [some Toy.route], .nextLocation (Toy.of 1) (Toy.of 5) 0,
      .moveToSegment 0 0 1, .nextLocation (Toy.of 1) (Toy.of 7) 0, .toOffline 4000000000]).toOption

example : sample.map (fun n => (n.segmentIndex, n.offlineIndex, n.currentRouteDistance.val)) =
    some (1, 9, 12) := by decide +kernel

example : sample.map (fun n => decide (Navigator.fromSnapshot (some n.snapshot) = .ok n)) = some true := by
  decide +kernel

end C22
end GpsGen
