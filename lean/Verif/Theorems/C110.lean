import Verif.Model.Loops
import Verif.Lemmas.Basic
import Verif.Lemmas.Toy
/-!
# C110: the loops compute what the list functions say

Every loop of `Model/Loops.lean`, written like the Go code, returns without running out of range, and
returns what the corresponding function on lists returns. The other theorems, which use the functions on
lists, therefore speak of the loops.
-/

namespace GpsGen
variable {F : Type}

namespace C110
open Loops

/-! ## Proof -/

/-- A loop over the elements instead of the indices. -/
def over {α σ : Type} (f : Nat → α → σ → Step σ) : Nat → List α → σ → σ
  | _, [], s => s
  | i, a :: l, s =>
    match f i a s with
    | .next s => over f (i + 1) l s
    | .leave s => s

theorem run_over {α σ : Type} (l : List α) (body : Nat → σ → Go (Step σ)) (f : Nat → α → σ → Step σ)
    (P : σ → Prop) (hb : ∀ i a s, P s → l[i]? = some a → body i s = .ok (f i a s) ∧
      ∀ s', f i a s = .next s' → P s') :
    ∀ (r : List α) (i : Nat) (s : σ), P s → l.drop i = r → run body i r.length s = .ok (over f i r s) := by
  intro r
  induction r with
  | nil => intro i s _ _; rfl
  | cons a r ih =>
    intro i s hs hd
    have ha : l[i]? = some a := by
      have := congrArg List.head? hd
      rwa [List.head?_drop] at this
    obtain ⟨h1, h2⟩ := hb i a s hs ha
    simp only [List.length_cons, run, over, h1, ok_bind]
    cases hf : f i a s with
    | leave s' => rfl
    | next s' =>
      refine ih (i + 1) s' (h2 s' hf) ?_
      rw [← List.tail_drop, hd]
      rfl

theorem for_over {α σ : Type} {l : List α} {body : Nat → σ → Go (Step σ)} {s : σ}
    (f : Nat → α → σ → Step σ) (hb : ∀ i a s, l[i]? = some a → body i s = .ok (f i a s)) :
    for' l.length s body = .ok (over f 0 l s) :=
  run_over l body f (fun _ => True) (fun i a s _ h => ⟨hb i a s h, fun _ _ => trivial⟩) l 0 s trivial rfl

theorem index_get {α : Type} {l : List α} {i : Nat} {a : α} (h : l[i]? = some a) :
    goIndex l (i : Int) = .ok a := by
  simp [goIndex, h]

/-- Searching: the value at the first hit. -/
theorem over_search {α σ : Type} (p : α → Bool) (g : Nat → α → σ) (l : List α) : ∀ (i : Nat) (s : σ),
    over (fun i a s => if p a then .leave (g i a) else .next s) i l s =
      match l.findIdx? p with
      | some k => (match l[k]? with | some a => g (i + k) a | none => s)
      | none => s := by
  induction l with
  | nil => intro i s; rfl
  | cons a l ih =>
    intro i s
    simp only [over, List.findIdx?_cons]
    cases hp : p a
    · simp only [Bool.false_eq_true, if_false]
      rw [ih (i + 1) s]
      cases l.findIdx? p with
      | none => rfl
      | some k =>
        simp only [Option.map_some, List.getElem?_cons_succ]
        rw [show i + 1 + k = i + (k + 1) by omega]
    · simp

theorem findIdx_find {α : Type} (p : α → Bool) (l : List α) :
    (l.findIdx? p).bind (fun k => l[k]?) = l.find? p := by
  induction l with
  | nil => rfl
  | cons a l ih =>
    rw [List.findIdx?_cons, List.find?_cons]
    cases p a
    · rw [← ih]
      cases l.findIdx? p <;> simp
    · simp

theorem findIdx_some {α : Type} {p : α → Bool} {l : List α} {k : Nat} (h : l.findIdx? p = some k) :
    ∃ a, l[k]? = some a := by
  have := List.findIdx?_eq_some_iff_getElem.mp h
  exact ⟨_, List.getElem?_eq_getElem this.1⟩

/-! ## The claims -/

/-- **C110, searches.** -/
theorem searches (routes : List (Route F)) (sensors : List (Sensor F)) (n : Navigator F) (r : Route F)
    (d : Device F) (id : String) :
    Loops.hasRoute routes id = .ok (Navigator.hasRoute routes id) ∧
    Loops.hasSensor sensors id = .ok (Device.hasSensor sensors id) ∧
    Loops.indexRoute n id = .ok (n.indexRoute id) ∧
    Loops.indexTrack r id = .ok (r.indexTrack id) ∧
    Loops.sensorByID d id = .ok (d.sensorByID id) ∧
    Loops.routeByID n id = .ok (n.routeByID id) := by
  refine ⟨?_, ?_, ?_, ?_, ?_, ?_⟩
  · unfold Loops.hasRoute
    rw [for_over (fun _ a s => if (id == a.id) then .leave true else .next s) (by
      intro i a s h
      simp only [index_get h, ok_bind, beq_iff_eq]
      split <;> rfl), over_search (fun a : Route F => id == a.id) (fun _ _ => true)]
    unfold Navigator.hasRoute
    cases hf : routes.findIdx? (fun a => id == a.id) with
    | none =>
      rw [List.findIdx?_eq_none_iff] at hf
      congr 1
      symm
      rw [List.any_eq_false]
      intro x hx
      simpa using hf x hx
    | some k =>
      obtain ⟨a, ha⟩ := findIdx_some hf
      simp only [ha]
      congr 1
      symm
      rw [List.any_eq_true]
      obtain ⟨h1, h2, -⟩ := List.findIdx?_eq_some_iff_getElem.mp hf
      exact ⟨_, List.getElem_mem h1, h2⟩
  · unfold Loops.hasSensor
    rw [for_over (fun _ a s => if (a.id == id) then .leave true else .next s) (by
      intro i a s h
      simp only [index_get h, ok_bind, beq_iff_eq]
      split <;> rfl), over_search (fun a : Sensor F => a.id == id) (fun _ _ => true)]
    unfold Device.hasSensor
    cases hf : sensors.findIdx? (fun a => a.id == id) with
    | none =>
      rw [List.findIdx?_eq_none_iff] at hf
      congr 1
      symm
      rw [List.any_eq_false]
      intro x hx
      simpa using hf x hx
    | some k =>
      obtain ⟨a, ha⟩ := findIdx_some hf
      simp only [ha]
      congr 1
      symm
      rw [List.any_eq_true]
      obtain ⟨h1, h2, -⟩ := List.findIdx?_eq_some_iff_getElem.mp hf
      exact ⟨_, List.getElem_mem h1, h2⟩
  · unfold Loops.indexRoute Navigator.indexRoute
    split
    · rfl
    · rw [for_over (fun i a s => if (a.id == id) then .leave (i : Int) else .next s) (by
        intro i a s h
        simp only [index_get h, ok_bind, beq_iff_eq]
        split <;> rfl), over_search (fun a : Route F => a.id == id) (fun i _ => (i : Int))]
      cases hf : n.routes.findIdx? (fun a => a.id == id) with
      | none => rfl
      | some k =>
        obtain ⟨a, ha⟩ := findIdx_some hf
        simp [ha]
  · unfold Loops.indexTrack Route.indexTrack
    rw [for_over (fun i a s => if (a.id == id) then .leave (i : Int) else .next s) (by
      intro i a s h
      simp only [index_get h, ok_bind, beq_iff_eq]
      split <;> rfl), over_search (fun a : Track F => a.id == id) (fun i _ => (i : Int))]
    cases hf : r.tracks.findIdx? (fun a => a.id == id) with
    | none => rfl
    | some k =>
      obtain ⟨a, ha⟩ := findIdx_some hf
      simp [ha]
  · unfold Loops.sensorByID Device.sensorByID
    rw [for_over (fun _ a s => if (a.id == id) then .leave (some a) else .next s) (by
      intro i a s h
      simp only [index_get h, ok_bind, beq_iff_eq]
      split <;> rfl), over_search (fun a : Sensor F => a.id == id) (fun _ a => some a), ← findIdx_find]
    cases hf : d.sensors.findIdx? (fun a => a.id == id) with
    | none => rfl
    | some k =>
      obtain ⟨a, ha⟩ := findIdx_some hf
      simp [ha]
  · unfold Loops.routeByID Navigator.routeByID
    split
    · rfl
    · rw [for_over (fun _ a s => if (a.id == id) then .leave (.ok a) else .next s) (by
        intro i a s h
        simp only [index_get h, ok_bind, beq_iff_eq]
        split <;> rfl), over_search (fun a : Route F => a.id == id) (fun _ a => (Except.ok a : Except Err (Route F))), ← findIdx_find]
      cases hf : n.routes.findIdx? (fun a => a.id == id) with
      | none => rfl
      | some k =>
        obtain ⟨a, ha⟩ := findIdx_some hf
        simp [ha]

theorem over_removal {α : Type} (p : α → Bool) (r : List α) : ∀ (l : List α),
    over (fun i a (s : List α × Bool) => if p a then .leave ((l ++ r).take i ++ (l ++ r).drop (i + 1), true)
      else .next s) l.length r (l ++ r, false) = (l ++ (removeFirst p r).1, (removeFirst p r).2) := by
  induction r with
  | nil => intro l; rfl
  | cons a r ih =>
    intro l
    simp only [over, removeFirst]
    cases hp : p a
    · simp only [Bool.false_eq_true, if_false]
      have := ih (l ++ [a])
      simp only [List.append_assoc, List.singleton_append, List.length_append, List.length_cons,
        List.length_nil] at this
      rw [this]
    · simp [List.drop_append]

/-- **C110, removals.** -/
theorem removals {α : Type} (name : α → String) (l : List α) (id : String) :
    removeByID name l id = .ok (removeFirst (fun a => name a == id) l) := by
  unfold removeByID
  rw [for_over (fun i a s => if (name a == id) then .leave (l.take i ++ l.drop (i + 1), true) else .next s) (by
    intro i a s h
    simp only [index_get h, ok_bind, beq_iff_eq]
    split <;> rfl)]
  have := over_removal (fun a => name a == id) l []
  simp only [List.nil_append, List.length_nil] at this
  rw [this]

theorem over_next {α σ : Type} (g : α → σ → σ) (l : List α) : ∀ (i : Nat) (s : σ),
    over (fun _ a s => .next (g a s)) i l s = l.foldl (fun s a => g a s) s := by
  induction l with
  | nil => intro i s; rfl
  | cons a l ih => intro i s; exact ih (i + 1) _

/-- **C110, sums.** -/
theorem sums [GoFloat F] (n : Navigator F) (r : Route F) :
    Loops.sum n = .ok n.sum ∧ Loops.calcRouteDistance n = .ok n.calcRouteDistance ∧
    Loops.updateState r = .ok r.updateState := by
  refine ⟨?_, ?_, ?_⟩
  · unfold Loops.sum
    rw [for_over (fun _ a s => .next (s.1 + a.version, a.tracks.foldl (fun b t => b + t.version) s.2)) (by
      intro i a s h
      obtain ⟨x, y⟩ := s
      simp only [index_get h, ok_bind]
      rw [for_over (fun _ t b => .next (b + t.version)) (by
        intro j t b hj
        simp only [index_get hj, ok_bind]
        rfl), over_next (fun (t : Track F) b => b + t.version)]
      rfl), over_next (fun (a : Route F) s => (s.1 + a.version, a.tracks.foldl (fun b t => b + t.version) s.2))]
    have : ∀ (l : List (Route F)) (s : Int × Int),
        l.foldl (fun s a => (s.1 + a.version, a.tracks.foldl (fun b t => b + t.version) s.2)) s =
        (l.foldl (fun a r => a + r.version) s.1,
         l.foldl (fun b r => r.tracks.foldl (fun b t => b + t.version) b) s.2) := by
      intro l
      induction l with
      | nil => intro s; rfl
      | cons a l ih => intro s; exact ih _
    simp only [ok_bind, this]
    rfl
  · unfold Loops.calcRouteDistance Navigator.calcRouteDistance for'
    simp only
    rw [run_over n.routes _ (fun _ a m => .next { m with distance := m.distance +. a.dist })
      (fun m => m.routes = n.routes) (by
        intro i a m hm h
        refine ⟨?_, ?_⟩
        · simp only [hm, index_get h, ok_bind]
          rfl
        · intro m' hm'
          cases hm'
          exact hm) n.routes 0 _ (by rfl) rfl,
      over_next (fun (a : Route F) (m : Navigator F) => { m with distance := m.distance +. a.dist })]
    congr 1
    have : ∀ (l : List (Route F)) (x : F),
        l.foldl (fun (m : Navigator F) a => { m with distance := m.distance +. a.dist }) { n with distance := x } =
        { n with distance := l.foldl (fun d r => d +. r.dist) x } := by
      intro l
      induction l with
      | nil => intro x; rfl
      | cons a l ih => intro x; exact ih _
    exact this _ _
  · unfold Loops.updateState Route.updateState for'
    simp only
    rw [run_over r.tracks _ (fun _ a m => .next { m with dist := m.dist +. a.dist })
      (fun m => m.tracks = r.tracks) (by
        intro i a m hm h
        refine ⟨?_, ?_⟩
        · simp only [hm, index_get h, ok_bind]
          rfl
        · intro m' hm'
          cases hm'
          exact hm) r.tracks 0 _ (by rfl) rfl,
      over_next (fun (a : Track F) (m : Route F) => { m with dist := m.dist +. a.dist })]
    congr 1
    have : ∀ (l : List (Track F)) (x : F),
        l.foldl (fun (m : Route F) a => { m with dist := m.dist +. a.dist }) { r with dist := x } =
        { r with dist := l.foldl (fun d t => d +. t.dist) x } := by
      intro l
      induction l with
      | nil => intro x; rfl
      | cons a l ih => intro x; exact ih _
    exact this _ _

/-- **C110, comparison of versions.** `Next` publishes the routes anew exactly when one of the three
numbers differs. -/
theorem versions (a b : Int × Int × Int) :
    isNotValidNS [a.1, a.2.1, a.2.2] [b.1, b.2.1, b.2.2] = .ok (decide (b ≠ a)) := by
  obtain ⟨a1, a2, a3⟩ := a
  obtain ⟨b1, b2, b3⟩ := b
  unfold isNotValidNS for'
  by_cases h1 : a1 = b1
  · by_cases h2 : a2 = b2
    · by_cases h3 : a3 = b3
      · simp [run, goIndex, h1, h2, h3, ok_bind, pure_eq_ok]
      · simp [run, goIndex, h1, h2, h3, ok_bind, pure_eq_ok, Ne.symm h3]
    · simp [run, goIndex, h1, h2, ok_bind, pure_eq_ok, Ne.symm h2]
  · simp [run, goIndex, h1, ok_bind, pure_eq_ok, Ne.symm h1]

/-- **C110, points of a track.** -/
theorem points (segments : List (Segment F)) : copyPoints segments = .ok (Track.points segments) := by
  unfold copyPoints
  rw [for_over (fun i a s => .next (if i = segments.length - 1 then s ++ [a.pointA] ++ [a.pointB]
      else s ++ [a.pointA])) (by
    intro i a s h
    simp only [index_get h, ok_bind]
    split <;> rfl)]
  congr 1
  have : ∀ (r : List (Segment F)) (i : Nat) (s : List (LatLon F)), i + r.length = segments.length →
      over (fun i (a : Segment F) s => .next (if i = segments.length - 1 then s ++ [a.pointA] ++ [a.pointB]
        else s ++ [a.pointA])) i r s = s ++ Track.points r := by
    intro r
    induction r with
    | nil => intro i s _; simp [over, Track.points]
    | cons a r ih =>
      intro i s hi
      simp only [List.length_cons] at hi
      simp only [over]
      rw [ih (i + 1) _ (by omega)]
      cases r with
      | nil =>
        simp only [List.length_nil] at hi
        rw [if_pos (by omega)]
        simp [Track.points]
      | cons b r =>
        simp only [List.length_cons] at hi
        rw [if_neg (by omega)]
        simp [Track.points]
  simpa using this segments 0 [] (by simp)

theorem findLoop_find (devs : Nat → Device F) (id : String) (l : List Nat) :
    World.findLoop devs id l = l.find? (fun p => (devs p).state.id == id) := by
  induction l with
  | nil => rfl
  | cons p l ih =>
    simp only [World.findLoop, List.find?_cons, ih]
    cases (devs p).state.id == id <;> rfl

theorem deleteLoop_index (devs : Nat → Device F) (id : String) (l : List Nat) :
    World.deleteLoop devs id l = (l.findIdx? (fun p => (devs p).state.id == id)).bind
      (fun k => l[k]?.map (fun p => (p, l.take k ++ l.drop (k + 1)))) := by
  induction l with
  | nil => rfl
  | cons p l ih =>
    simp only [World.deleteLoop, List.findIdx?_cons, ih]
    cases (devs p).state.id == id
    · cases l.findIdx? (fun p => (devs p).state.id == id) with
      | none => rfl
      | some k => cases h : l[k]? <;> simp [h]
    · simp

/-- The world when the device `p`, the `i`-th of the generator, is taken out. -/
def without (w : World F) (g i p : Nat) : World F × Option Err :=
  let gens := setAt w.gens g ((w.gens g).take i ++ (w.gens g).drop (i + 1))
  match (w.devs p).unmount with
  | .error e => ({ w with gens := gens }, some e)
  | .ok d => ({ devs := setAt w.devs p d, gens := gens }, none)

/-- **C110, devices of a generator.** `find` returns a device and `true`, or nil and `false`; `Detach` is
`delete` but for the empty id. -/
theorem devices (w : World F) (g : Nat) (id : String) :
    Loops.find w g id = .ok (World.findLoop w.devs id (w.gens g), w.hasTracker g id) ∧
    (goLen id ≠ 0 → Loops.delete w g id = .ok (w.detach g id)) := by
  constructor
  · unfold Loops.find World.hasTracker
    rw [for_over (fun _ p s => if ((w.devs p).state.id == id) then .leave (some p, true) else .next s) (by
      intro i a s h
      simp only [index_get h, ok_bind, beq_iff_eq]
      split <;> rfl), over_search (fun p => (w.devs p).state.id == id) (fun _ p => (some p, true)),
      findLoop_find, ← findIdx_find]
    cases hf : (w.gens g).findIdx? (fun p => (w.devs p).state.id == id) with
    | none => rfl
    | some k =>
      obtain ⟨a, ha⟩ := findIdx_some hf
      simp [ha]
  · intro hid
    unfold Loops.delete World.detach
    rw [if_neg hid, for_over (fun i p s => if ((w.devs p).state.id == id) then .leave (without w g i p)
        else .next s) (by
      intro i a s h
      simp only [index_get h, ok_bind, beq_iff_eq, without]
      split
      · cases (w.devs a).unmount <;> rfl
      · rfl), over_search (fun p => (w.devs p).state.id == id) (fun i p => without w g i p), deleteLoop_index]
    cases hf : (w.gens g).findIdx? (fun p => (w.devs p).state.id == id) with
    | none => rfl
    | some k =>
      obtain ⟨a, ha⟩ := findIdx_some hf
      simp only [ha, Nat.zero_add, Option.bind_some, Option.map_some, without]
      cases (w.devs a).unmount <;> rfl

theorem over_each (fn : Nat → Nat → Bool) (l : List Nat) : ∀ (i : Nat) (s : List (Nat × Nat)),
    over (fun i p s => if fn i p then .next (s ++ [(i, p)]) else .leave (s ++ [(i, p)])) i l s =
      s ++ World.eachLoop fn i l := by
  induction l with
  | nil => intro i s; simp [over, World.eachLoop]
  | cons p l ih =>
    intro i s
    simp only [over, World.eachLoop]
    cases fn i p
    · rfl
    · simp only [if_true]
      rw [ih]
      simp

theorem over_map {β : Type} (g : Nat → β) (l : List Nat) : ∀ (i : Nat) (s : List β),
    over (fun _ a s => .next (s ++ [g a])) i l s = s ++ l.map g := by
  induction l with
  | nil => intro i s; simp [over]
  | cons a l ih =>
    intro i s
    simp only [over, ih, List.map_cons, List.append_assoc, List.singleton_append]

theorem run_reset {α : Type} (r : List (Option α)) : ∀ (k : Nat),
    run (fun i (packet : List (Option α)) =>
      if i < packet.length then .ok (.next (packet.set i none)) else .error .indexOutOfRange) k r.length
      (List.replicate k none ++ r) = .ok (List.replicate (k + r.length) none) := by
  induction r with
  | nil => intro k; simp [run]
  | cons a r ih =>
    intro k
    simp only [List.length_cons, run]
    rw [if_pos (by simp)]
    have h : (List.replicate k none ++ a :: r).set k none = List.replicate (k + 1) none ++ r := by
      rw [List.set_append_right _ _ (by simp)]
      simp [List.replicate_succ']
    simp only [ok_bind, h]
    rw [ih (k + 1), show k + 1 + r.length = k + (r.length + 1) by omega]

/-- **C110, the run loop of the generator.** `Each` calls the function on the devices in order until it
answers false; `flush` sends the slices of C38, in order; `resetPacket` empties every slot. -/
theorem generator {α : Type} (w : World F) (g : Nat) (fn : Nat → Nat → Bool) (c : Run.Cfg) (index : Nat)
    (packet : List (Option α)) :
    Loops.each w g fn = .ok (w.each g fn) ∧
    Loops.flush c index = .ok (c.slices index) ∧
    Loops.resetPacket packet = .ok (List.replicate packet.length none) := by
  refine ⟨?_, ?_, ?_⟩
  · unfold Loops.each World.each
    rw [for_over (fun i p s => if fn i p then .next (s ++ [(i, p)]) else .leave (s ++ [(i, p)])) (by
      intro i a s h
      simp only [index_get h, ok_bind]
      split <;> rfl), over_each]
    rfl
  · unfold Loops.flush Run.Cfg.slices Run.Cfg.single
    by_cases h : index ≤ c.numWorkers + c.workerSize
    · simp [h]
    · simp only [h, if_false, decide_false, Bool.false_eq_true]
      have e : ∀ (n : Nat) (body : Nat → List Run.Slice → Go (Step (List Run.Slice))),
          for' n [] body = for' (List.range n).length [] body := by simp
      rw [e, for_over (fun _ a s => .next (s ++ [c.part index a])) (by
        intro i a s hi
        obtain ⟨h1, h2⟩ := List.getElem?_eq_some_iff.mp hi
        rw [List.getElem_range] at h2
        subst h2
        unfold Run.Cfg.part
        split <;> simp_all), over_map]
      rfl
  · exact (run_reset packet 0).trans (by simp)

/-! ## A concrete case -/

example : removeByID id ["a", "b", "c", "b"] "b" = .ok (["a", "c", "b"], true) := by rfl
example : removeByID id ["a", "b"] "x" = .ok (["a", "b"], false) := by rfl
example : isNotValidNS [1, 2, 3] [1, 2, 3] = .ok false ∧ isNotValidNS [1, 2, 3] [1, 0, 3] = .ok true :=
  ⟨by rfl, by rfl⟩

/-- With an array of two numbers the loop would run out of range, unless it has already left. -/
example : isNotValidNS [1, 2] [1, 2] = .error .indexOutOfRange ∧ isNotValidNS [1, 2] [1, 0] = .ok true :=
  ⟨by rfl, by rfl⟩

/-- A track of two segments has three points; sums and searches on a device with two routes. -/
example : (copyPoints Toy.track.segments).toOption.map List.length = some 3 := by decide +kernel

def twoRoutes : Route Toy × Route Toy :=
  (Route.addTrack (Route.restore "a" "#000000" none) (some Toy.track),
   Route.addTrack (Route.addTrack (Route.restore "b" "#000000" none) (some Toy.track)) (some Toy.track))

example : (Toy.dev [.addRoute [some twoRoutes.1, some twoRoutes.2]]).map (fun d =>
    ((Loops.sum d.navigator).toOption, (Loops.indexRoute d.navigator "b").toOption,
     (Loops.indexRoute d.navigator "c").toOption, (Loops.hasRoute d.navigator.routes "a").toOption)) =
    some (some (1, 3, 0), some 1, some (-1), some true) := by decide +kernel

/-- Two devices with the same id: the first is found and taken out. -/
def pair (d : Device Toy) : World Toy := ⟨fun _ => d, fun _ => [2, 1]⟩

example : (Toy.dev []).map (fun d => ((Loops.find (pair d) 0 "device").toOption,
    (Loops.find (pair d) 0 "x").toOption)) = some (some (some 2, true), some (none, false)) := by decide +kernel

example : (Toy.dev []).map (fun d => ((Loops.delete (pair d) 0 "device").toOption.map (fun r => r.1.gens 0),
    (Loops.delete (pair d) 0 "x").toOption.map (fun r => r.1.gens 0))) =
    some (some [1], some [2, 1]) := by decide +kernel

example : (Toy.dev []).map (fun d => ((Loops.each (pair d) 0 (fun _ p => p != 2)).toOption,
    (Loops.each (pair d) 0 (fun _ _ => true)).toOption)) = some (some [(0, 2)], some [(0, 2), (1, 1)]) := by
  decide +kernel

/-- Three workers and ten devices in a packet of twelve: the last slice takes the rest. -/
example : Loops.flush ⟨3, 12⟩ 10 = .ok [⟨0, 3⟩, ⟨3, 6⟩, ⟨6, 10⟩] ∧ Loops.flush ⟨3, 12⟩ 7 = .ok [⟨0, 7⟩] :=
  ⟨by rfl, by rfl⟩

example : Loops.resetPacket [some 1, none, some 2] = .ok [none, none, none] := by rfl

end C110
end GpsGen
