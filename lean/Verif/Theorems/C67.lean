import Verif.Model.Iterate
import Verif.Lemmas.Toy
/-!
# C67: iteration visits every element once, in order, until told to stop

Any number type, any callback. The claim holds for callbacks that leave the collection as it is, whatever else they do
(`visits_partial`), and, for loops that return, exactly what such a loop does in general. It is false for callbacks
that change the collection: one that removes the element it is given makes the loop skip the next one
(`removal_skips`), and one that adds an element in every call never returns (`growing_never_returns`).
-/

namespace GpsGen
variable {F : Type}

namespace C67

/-! ## Specification -/

/-- These calls went through `l`: indices from zero, elements in order, all answers but the last are "go on", and if
not all elements were visited the last answer is "stop". -/
structure Visits {α : Type} (l : List α) (calls : List (EachCall α)) : Prop where
  items : calls.map (·.item) = l.take calls.length
  indices : calls.map (·.index) = List.range calls.length
  goOn : ∀ c ∈ calls.dropLast, c.more = true
  stop : calls.length = l.length ∨ ∃ c, calls.getLast? = some c ∧ c.more = false

/-- The state after these calls. -/
def replay {S α : Type} (fn : Nat → α → S → S × Bool) (s : S) (calls : List (EachCall α)) : S :=
  calls.foldl (fun s c => (fn c.index c.item s).1) s

/-- A callback that leaves the collection as it is. -/
def Keeps {S α : Type} (items : S → List α) (fn : Nat → α → S → S × Bool) : Prop :=
  ∀ i x s, items (fn i x s).1 = items s

/-- An iteration over the collection is as it should be: it returns, has made the right calls, and the state is what
the callback made of it. -/
def Iterates {S α : Type} (items : S → List α) (fn : Nat → α → S → S × Bool) (s : S)
    (r : Option (S × List (EachCall α))) : Prop :=
  ∃ calls, r = some (replay fn s calls, calls) ∧ Visits (items s) calls ∧ items (replay fn s calls) = items s

/-! ## Proof -/

theorem each_from {S α : Type} {items : S → List α} {fn : Nat → α → S → S × Bool} (hk : Keeps items fn)
    (l : List α) (fuel i : Nat) (s : S) (hl : l = (items s).drop i) (hf : l.length < fuel) :
    ∃ calls, eachFrom items fn fuel i s = some (replay fn s calls, calls) ∧ calls.map (·.item) = l.take calls.length ∧
      calls.map (·.index) = List.range' i calls.length ∧ (∀ c ∈ calls.dropLast, c.more = true) ∧
      (calls.length = l.length ∨ ∃ c, calls.getLast? = some c ∧ c.more = false) ∧
      items (replay fn s calls) = items s := by
  induction l generalizing fuel i s with
  | nil =>
    cases fuel with
    | zero => cases hf
    | succ fuel =>
      have : (items s)[i]? = none := List.getElem?_eq_none (List.drop_eq_nil_iff.mp hl.symm)
      refine ⟨[], ?_, rfl, rfl, nofun, Or.inl rfl, rfl⟩
      unfold eachFrom
      rw [this]; rfl
  | cons x l ih =>
    cases fuel with
    | zero => cases hf
    | succ fuel =>
      have hlt : i < (items s).length := by
        rcases Nat.lt_or_ge i (items s).length with h | h
        · exact h
        · rw [List.drop_eq_nil_of_le h] at hl; cases hl
      rw [List.drop_eq_getElem_cons hlt] at hl
      injection hl with hx hl
      have hg : (items s)[i]? = some x := by rw [hx]; exact List.getElem?_eq_getElem hlt
      unfold eachFrom
      rw [hg]
      simp only
      cases hb : (fn i x s).2 with
      | false =>
        refine ⟨[⟨i, x, false⟩], ?_, rfl, rfl, nofun, Or.inr ⟨_, rfl, rfl⟩, hk i x s⟩
        rw [if_neg (by decide)]; rfl
      | true =>
        obtain ⟨calls, h1, h2, h3, h4, h5, h6⟩ := ih fuel (i + 1) (fn i x s).1 (by rw [hk, hl]) (by
          simpa using hf)
        refine ⟨⟨i, x, true⟩ :: calls, ?_, ?_, ?_, ?_, ?_, h6.trans (hk i x s)⟩
        · rw [if_pos rfl, h1]; rfl
        · simp only [List.map_cons, List.length_cons, List.take_succ_cons, h2]
        · simp only [List.map_cons, List.length_cons, List.range'_succ, h3]
        · intro c hc
          cases calls with
          | nil => cases hc
          | cons a as =>
            rw [List.dropLast_cons_cons] at hc
            rcases List.mem_cons.mp hc with rfl | hc
            · rfl
            · exact h4 c hc
        · rcases h5 with h5 | ⟨c, h5, h5'⟩
          · exact Or.inl (by simp [h5])
          · refine Or.inr ⟨c, ?_, h5'⟩
            cases calls with
            | nil => cases h5
            | cons a as => rw [List.getLast?_cons_cons]; exact h5

theorem each_iterates {S α : Type} {items : S → List α} {fn : Nat → α → S → S × Bool} (hk : Keeps items fn)
    (fuel : Nat) (s : S) (hf : (items s).length < fuel) : Iterates items fn s (eachFrom items fn fuel 0 s) := by
  obtain ⟨calls, h1, h2, h3, h4, h5, h6⟩ := each_from hk (items s) fuel 0 s rfl hf
  exact ⟨calls, h1, ⟨h2, by rw [h3, List.range_eq_range'], h4, h5⟩, h6⟩

/-! ## Theorems -/

/-- **C67, partial: `EachTrack`.** For callbacks that leave the tracks of the route as they are. -/
theorem eachTrack_visits_partial {S : Type} (route : S → Route F) (fn : Nat → Track F → S → S × Bool)
    (hk : Keeps (fun s => (route s).tracks) fn) (s : S) (fuel : Nat) (hf : (route s).tracks.length < fuel) :
    Iterates (fun s => (route s).tracks) fn s (Route.eachTrack route fn fuel s) := each_iterates hk fuel s hf

/-- **C67, partial: `EachRoute` of a navigator.** -/
theorem eachRoute_visits_partial {S : Type} (nav : S → Navigator F) (fn : Nat → Route F → S → S × Bool)
    (hk : Keeps (fun s => (nav s).routes) fn) (s : S) (fuel : Nat) (hf : (nav s).routes.length < fuel) :
    Iterates (fun s => (nav s).routes) fn s (Navigator.eachRoute nav fn fuel s) := by
  unfold Navigator.eachRoute
  split
  · rename_i h
    have h0 : (nav s).routes = [] := List.eq_nil_of_length_eq_zero h
    exact ⟨[], rfl, ⟨rfl, rfl, nofun, Or.inl (by simp [h0])⟩, rfl⟩
  · exact each_iterates hk fuel s hf

/-- **C67, partial: `EachRoute` of a device.** -/
theorem device_eachRoute_visits_partial {S : Type} (dev : S → Device F) (fn : Nat → Route F → S → S × Bool)
    (hk : Keeps (fun s => (dev s).navigator.routes) fn) (s : S) (fuel : Nat)
    (hf : (dev s).navigator.routes.length < fuel) :
    Iterates (fun s => (dev s).navigator.routes) fn s (Device.eachRoute dev fn fuel s) :=
  eachRoute_visits_partial (fun s => (dev s).navigator) fn hk s fuel hf

/-- **C67, partial: `EachSensor`.** -/
theorem eachSensor_visits_partial {S : Type} (dev : S → Device F) (fn : Nat → Sensor F → S → S × Bool)
    (hk : Keeps (fun s => (dev s).sensors) fn) (s : S) (fuel : Nat) (hf : (dev s).sensors.length < fuel) :
    Iterates (fun s => (dev s).sensors) fn s (Device.eachSensor dev fn fuel s) := each_iterates hk fuel s hf

/-- A callback that always goes on sees every element, under the index by which it is accessed otherwise. -/
theorem visits_all {α : Type} {l : List α} {calls : List (EachCall α)} (h : Visits l calls)
    (hm : ∀ c ∈ calls, c.more = true) :
    calls.map (·.item) = l ∧ ∀ i x, (⟨i, x, true⟩ : EachCall α) ∈ calls ↔ l[i]? = some x := by
  have hlen : calls.length = l.length := by
    rcases h.stop with h | ⟨c, h1, h2⟩
    · exact h
    · rw [hm c (List.mem_of_getLast? h1)] at h2; cases h2
  have hi := h.items
  rw [hlen, List.take_length] at hi
  refine ⟨hi, fun i x => ?_⟩
  have hget : ∀ j (hj : j < calls.length), calls[j].index = j ∧ l[j]? = some calls[j].item ∧ calls[j].more = true := by
    intro j hj
    refine ⟨?_, ?_, hm _ (List.getElem_mem hj)⟩
    · have := congrArg (fun l => l[j]?) h.indices
      simpa [hj] using this
    · rw [← hi]; simp [hj]
  constructor
  · intro hmem
    obtain ⟨j, hj, e⟩ := List.getElem_of_mem hmem
    obtain ⟨a, b, -⟩ := hget j hj
    rw [e] at a b
    rw [show i = j from a]
    exact b
  · intro hx
    have hj : i < calls.length := by
      rw [hlen]; exact (List.getElem?_eq_some_iff.mp hx).1
    obtain ⟨a, b, c⟩ := hget i hj
    rw [hx] at b
    have : calls[i] = ⟨i, x, true⟩ := by
      cases hc : calls[i] with
      | mk p q r =>
        rw [hc] at a b c
        simp only at a b c
        cases b
        rw [a, c]
    rw [← this]
    exact List.getElem_mem hj

/-- `TrackAt`, `RouteAt` and `SensorAt` return the element visited under the index, and nil outside. -/
theorem at_index (r : Route F) (n : Navigator F) (d : Device F) (i : Int) :
    r.trackAt i = (if 0 ≤ i ∧ i < r.numTracks then r.tracks[i.toNat]? else none) ∧
    n.routeAt i = (if 0 ≤ i ∧ i < n.numRoutes then n.routes[i.toNat]? else none) ∧
    d.sensorAt i = (if 0 ≤ i ∧ i < d.numSensors then d.sensors[i.toNat]? else none) := by
  have key : ∀ {α : Type} (l : List α), goAt? l i = if 0 ≤ i ∧ i < (l.length : Int) then l[i.toNat]? else none := by
    intro α l
    unfold goAt?
    by_cases h0 : 0 ≤ i
    · by_cases h1 : i < (l.length : Int)
      · rw [if_pos h0, if_pos ⟨h0, h1⟩]
      · rw [if_pos h0, if_neg (fun h => h1 h.2), List.getElem?_eq_none (by omega)]
    · rw [if_neg h0, if_neg (fun h => h0 h.1)]
  exact ⟨key _, key _, key _⟩

/-! ## Callbacks that change the collection -/

/-- Removing the element it is called for. -/
def removing {α : Type} (i : Nat) (_ : α) (l : List α) : List α × Bool := (l.eraseIdx i, true)

/-- Every other element. -/
def alternate {α : Type} : List α → List α × List α
  | [] => ([], [])
  | [a] => ([a], [])
  | a :: b :: l => (a :: (alternate l).1, b :: (alternate l).2)

/-- **C67 is false, skipped elements.** A callback that removes the element it is given sees every other element only;
the others remain. -/
theorem removal_skips {α : Type} (l : List α) (fuel : Nat) (hf : l.length < fuel) :
    (eachFrom id (removing (α := α)) fuel 0 l).map (fun r => (r.2.map (·.item), r.1)) = some (alternate l) := by
  have key : ∀ (n : Nat) (l pre : List α) (fuel : Nat), l.length ≤ n → l.length < fuel →
      (eachFrom id (removing (α := α)) fuel pre.length (pre ++ l)).map (fun r => (r.2.map (·.item), r.1)) =
        some ((alternate l).1, pre ++ (alternate l).2) := by
    intro n
    induction n with
    | zero =>
      intro l pre fuel hn hf
      cases fuel with
      | zero => cases hf
      | succ fuel =>
        have : l = [] := List.eq_nil_of_length_eq_zero (by omega)
        subst this
        simp [eachFrom, alternate]
    | succ n ih =>
      intro l pre fuel hn hf
      cases fuel with
      | zero => cases hf
      | succ fuel =>
        match l, hn, hf with
        | [], _, _ => simp [eachFrom, alternate]
        | [a], _, hf =>
          cases fuel with
          | zero => simp at hf
          | succ fuel => simp [eachFrom, removing, alternate, List.eraseIdx_append_of_length_le]
        | a :: b :: l, hn, hf =>
          have h := ih l (pre ++ [b]) fuel (by simp at hn; omega) (by simp at hf; omega)
          have e : (pre ++ a :: b :: l).eraseIdx pre.length = (pre ++ [b]) ++ l := by
            rw [List.eraseIdx_append_of_length_le (Nat.le_refl _)]
            simp
          unfold eachFrom
          have hg : (id (pre ++ a :: b :: l))[pre.length]? = some a := by simp
          rw [hg]
          simp only [removing, if_true]
          rw [e, Option.map_map]
          have hl : (pre ++ [b]).length = pre.length + 1 := by simp
          rw [hl] at h
          cases he : eachFrom id (removing (α := α)) fuel (pre.length + 1) (pre ++ [b] ++ l) with
          | none => rw [he] at h; cases h
          | some q =>
            rw [he] at h
            simp only [Option.map_some, Option.some.injEq, Prod.mk.injEq] at h
            simp only [Option.map_some, Function.comp, List.map_cons, h.1, h.2, alternate, List.append_assoc,
              List.cons_append, List.nil_append]
  exact key l.length l [] fuel (Nat.le_refl _) hf

/-- **C67 is false, endless loops.** A callback that adds a track in every call makes `EachTrack` go on for ever, for
every route that has a track. -/
theorem growing_never_returns [GoFloat F] (r : Route F) (hr : r.tracks ≠ []) (t : Track F) (fuel : Nat) :
    Route.eachTrack id (fun _ _ s => (Route.addTrack s (some t), true)) fuel r = none := by
  have key : ∀ (fuel i : Nat) (s : Route F), i < s.tracks.length →
      eachFrom (fun s : Route F => s.tracks) (fun _ _ s => (Route.addTrack s (some t), true)) fuel i s = none := by
    intro fuel
    induction fuel with
    | zero => intro i s _; rfl
    | succ fuel ih =>
      intro i s h
      unfold eachFrom
      rw [List.getElem?_eq_getElem h]
      simp only [if_true]
      have := ih (i + 1) (Route.addTrack s (some t)) (by
        show i + 1 < (s.tracks ++ [t]).length
        simp; omega)
      rw [this]; rfl
  exact key fuel 0 r (by
    cases h : r.tracks with
    | nil => exact absurd h hr
    | cons a as => simp)

/-- Clearing a route by removing every track `EachTrack` shows leaves tracks behind. -/
theorem clear_leaves :
    let r := Route.addTrack (Route.addTrack (Route.restore "r" "#000000" none) (some Toy.track))
      (some { Toy.track with id := "u" })
    (Route.eachTrack id (fun _ t s => ((Route.removeTrack s t.id).1, true)) 9 r).map
      (fun q => (q.2.map (·.item.id), q.1.tracks.map (·.id))) = some (["t"], ["u"]) := by decide +kernel

/-! Non-vacuity: three tracks, a callback that collects ids and stops at the second. -/

/-- A route with three tracks. -/
def three : Route Toy :=
  ["a", "b", "c"].foldl (fun r i => Route.addTrack r (some { Toy.track with id := i })) (Route.restore "r" "#000000" none)

example : (Route.eachTrack Prod.fst (fun i t s => ((s.1, s.2 ++ [(i, t.id)]), decide (t.id ≠ "b"))) 4
    (three, ([] : List (Nat × String)))).map (fun q => (q.1.2, q.2.map (·.more))) =
    some ([(0, "a"), (1, "b")], [true, false]) := by decide +kernel

example : Keeps (fun s : Route Toy × List (Nat × String) => s.1.tracks)
    (fun i t s => ((s.1, s.2 ++ [(i, t.id)]), decide (t.id ≠ "b"))) := fun _ _ _ => rfl

end C67
end GpsGen
