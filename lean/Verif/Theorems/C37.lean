import Verif.Theorems.C36
/-!
# C37: generator lookups agree with the attached devices

Any number type, any number of devices and generators. The first group of theorems holds in every state;
`registry_refines` says which devices are attached after a history. A device returned by `NewDevice` has
the id it was given or a fresh one, so its id is not empty as long as fresh ids are not; the lookups
disagree only about devices with an empty id, which a restored snapshot can produce (`empty_id_differs`).
-/

namespace GpsGen
variable {F : Type}

namespace C37
open World

/-! ## In every state -/

/-- The id of a device. -/
def name (w : World F) (p : Nat) : String := (w.devs p).state.id

theorem goLen_zero (s : String) : goLen s = 0 ↔ s = "" := String.utf8ByteSize_eq_zero_iff

/-- `Lookup` succeeds exactly when a device with that non-empty id is attached. -/
theorem lookup_iff (w : World F) (g : Nat) (id : String) :
    (w.lookup g id).isSome = true ↔ id ≠ "" ∧ ∃ p ∈ w.gens g, name w p = id := by
  unfold lookup
  split
  · rename_i h
    simp [(goLen_zero id).mp h]
  · rename_i h
    rw [findLoop_eq, List.find?_isSome]
    simp only [beq_iff_eq]
    exact ⟨fun e => ⟨fun hc => h ((goLen_zero id).mpr hc), e⟩, fun e => e.2⟩

/-- `Lookup` returns the first attached device with that id. -/
theorem lookup_first (w : World F) (g : Nat) (id : String) (p : Nat) (h : w.lookup g id = some p) :
    name w p = id ∧ ∃ a b, w.gens g = a ++ p :: b ∧ ∀ q ∈ a, name w q ≠ id := by
  unfold lookup at h
  split at h
  · cases h
  · rw [findLoop_eq] at h
    obtain ⟨h1, a, b, h2, h3⟩ := List.find?_eq_some_iff_append.mp h
    refine ⟨by simpa [name] using h1, a, b, h2, fun q hq => ?_⟩
    simpa [name] using h3 q hq

/-- `HasTracker` holds exactly when a device with that id is attached. -/
theorem hasTracker_iff (w : World F) (g : Nat) (id : String) :
    w.hasTracker g id = true ↔ ∃ p ∈ w.gens g, name w p = id := by
  unfold hasTracker
  rw [findLoop_eq, List.find?_isSome]
  simp only [beq_iff_eq]
  rfl

/-- The two lookups agree on non-empty ids. -/
theorem lookups_agree (w : World F) (g : Nat) (id : String) (h : id ≠ "") :
    (w.lookup g id).isSome = w.hasTracker g id := by
  rw [Bool.eq_iff_iff, lookup_iff, hasTracker_iff]
  exact ⟨fun e => e.2, fun e => ⟨h, e⟩⟩

/-- `Detach` of the id of an attached device removes exactly one device, the first with that id, keeps
the order of the others and leaves other generators alone. -/
theorem detach_removes (w : World F) (g : Nat) (id : String) (hid : id ≠ "")
    (h : ∃ p ∈ w.gens g, name w p = id) :
    ∃ a p b, w.gens g = a ++ p :: b ∧ (w.detach g id).1.gens g = a ++ b ∧ name w p = id ∧
      (∀ q ∈ a, name w q ≠ id) ∧ (∀ g', g' ≠ g → (w.detach g id).1.gens g' = w.gens g') ∧
      (w.detach g id).1.numDevices g + 1 = w.numDevices g := by
  have hl : ¬ goLen id = 0 := fun e => hid ((goLen_zero id).mp e)
  cases hd : deleteLoop w.devs id (w.gens g) with
  | none =>
    obtain ⟨p, hp, e⟩ := h
    exact absurd e (deleteLoop_none hd p hp)
  | some r =>
    obtain ⟨p, rest⟩ := r
    obtain ⟨a, b, h1, rfl, h3, h4⟩ := deleteLoop_some hd
    have hg : (w.detach g id).1.gens = setAt w.gens g (a ++ b) := by
      unfold detach
      rw [if_neg hl, hd]
      simp only
      cases (w.devs p).unmount <;> rfl
    refine ⟨a, p, b, h1, by rw [hg, setAt_same], h3, h4, fun g' hne => by rw [hg, setAt_other hne], ?_⟩
    unfold numDevices
    rw [hg, setAt_same, h1]
    simp only [List.length_append, List.length_cons]
    omega

/-- `Detach` of any other id changes nothing. -/
theorem detach_absent (w : World F) (g : Nat) (id : String)
    (h : id = "" ∨ ¬ ∃ p ∈ w.gens g, name w p = id) : w.detach g id = (w, none) := by
  unfold detach
  split
  · rfl
  · rename_i hl
    have h : ¬ ∃ p ∈ w.gens g, name w p = id := by
      rcases h with h | h
      · exact absurd ((goLen_zero id).mpr h) hl
      · exact h
    cases hd : deleteLoop w.devs id (w.gens g) with
    | none => rfl
    | some r =>
      obtain ⟨p, rest⟩ := r
      obtain ⟨a, b, h1, -, h3, -⟩ := deleteLoop_some hd
      exact absurd ⟨p, by rw [h1]; simp, h3⟩ h

/-- `Each` with a function that never stops visits the attached devices in order. -/
theorem each_all (w : World F) (g : Nat) (fn : Nat → Nat → Bool) (h : ∀ i p, fn i p = true) :
    (w.each g fn).map (·.2) = w.gens g ∧ (w.each g fn).map (·.1) = List.range (w.numDevices g) := by
  have key : ∀ (l : List Nat) (i : Nat), (eachLoop fn i l).map (·.2) = l ∧
      (eachLoop fn i l).map (·.1) = List.range' i l.length := by
    intro l
    induction l with
    | nil => intro i; exact ⟨rfl, rfl⟩
    | cons p l ih =>
      intro i
      obtain ⟨h1, h2⟩ := ih (i + 1)
      simp only [eachLoop, h, if_true, List.map_cons, h1, h2, List.length_cons, List.range'_succ]
      exact ⟨trivial, trivial⟩
  obtain ⟨h1, h2⟩ := key (w.gens g) 0
  refine ⟨h1, ?_⟩
  rw [List.range_eq_range']
  exact h2

/-- `Each` visits a prefix of the attached devices, and stops after the first refusal. -/
theorem each_prefix (w : World F) (g : Nat) (fn : Nat → Nat → Bool) :
    (w.each g fn).map (·.2) <+: w.gens g ∧
    ∀ a x b, w.each g fn = a ++ x :: b → fn x.1 x.2 = false → b = [] := by
  have key : ∀ (l : List Nat) (i : Nat), (eachLoop fn i l).map (·.2) <+: l ∧
      ∀ a x b, eachLoop fn i l = a ++ x :: b → fn x.1 x.2 = false → b = [] := by
    intro l
    induction l with
    | nil => intro i; exact ⟨List.nil_prefix, fun a x b h => by simp [eachLoop] at h⟩
    | cons p l ih =>
      intro i
      obtain ⟨h1, h2⟩ := ih (i + 1)
      unfold eachLoop
      by_cases hf : fn i p = true
      · rw [if_pos hf]
        refine ⟨by rw [List.map_cons]; exact (List.prefix_cons_inj p).mpr h1, ?_⟩
        intro a x b he hx
        cases a with
        | nil =>
          simp only [List.nil_append, List.cons.injEq] at he
          rw [← he.1] at hx
          simp only at hx
          rw [hf] at hx
          cases hx
        | cons y a =>
          simp only [List.cons_append, List.cons.injEq] at he
          exact h2 a x b he.2 hx
      · rw [if_neg hf]
        refine ⟨by simp, ?_⟩
        intro a x b he _
        cases a with
        | nil => simp only [List.nil_append, List.cons.injEq] at he; exact he.2.symm
        | cons y a => simp at he
  exact key (w.gens g) 0

/-! ## After a history -/

/-- The registry that the operations describe: lists of devices, and the devices in use. -/
structure Registry where
  lists : Nat → List Nat
  used : Nat → Bool

/-- What an operation does to the registry, for fixed names. -/
def Registry.step (names : Nat → String) (r : Registry) : WorldOp F → Registry
  | .attach _ none => r
  | .attach g (some p) =>
    if r.used p then r
    else ⟨fun g' => if g' = g then r.lists g ++ [p] else r.lists g', fun q => q == p || r.used q⟩
  | .detach g id =>
    match (r.lists g).find? (fun q => id ≠ "" ∧ names q = id) with
    | none => r
    | some p => ⟨fun g' => if g' = g then (r.lists g).erase p else r.lists g', fun q => q != p && r.used q⟩
  | .device _ _ => r

/-- Nothing attached. -/
def Registry.empty : Registry := ⟨fun _ => [], fun _ => false⟩

/-- The registry of a world. -/
def Describes (names : Nat → String) (r : Registry) (w : World F) : Prop :=
  w.gens = r.lists ∧ (∀ p, r.used p = true ↔ (w.devs p).status = Status.running) ∧ ∀ p, name w p = names p

theorem step_describes [GoMath F] {names : Nat → String} {r : Registry} {w w' : World F} {op : WorldOp F}
    (ho : C36.Once w) (hd : Describes names r w) (hn : C36.NoRestore op) (h : w.step op = .ok w') :
    Describes names (r.step names op) w' := by
  obtain ⟨d1, d2, d3⟩ := hd
  cases op with
  | attach g p =>
    cases h
    cases p with
    | none => exact ⟨d1, d2, d3⟩
    | some p =>
      by_cases hs : (w.devs p).status = Status.running
      · rw [C36.attach_running w g p hs]
        simp only [Registry.step]
        rw [if_pos ((d2 p).mpr hs)]
        exact ⟨d1, d2, d3⟩
      · rw [C36.attach_stopped w g p hs]
        simp only [Registry.step]
        rw [if_neg (fun e => hs ((d2 p).mp e))]
        refine ⟨?_, ?_, ?_⟩
        · rw [d1]; rfl
        · intro q
          simp only [Bool.or_eq_true, beq_iff_eq]
          by_cases hq : q = p
          · subst hq; simp [setAt_same]
          · rw [setAt_other hq]; simp [hq, d2 q]
        · intro q
          unfold name
          by_cases hq : q = p
          · subst hq; simp only [setAt_same]; exact d3 q
          · simp only [setAt_other hq]; exact d3 q
  | detach g id =>
    cases h
    have hf : ∀ o, (r.lists g).find? (fun q => id ≠ "" ∧ names q = id) = o →
        (match (r.lists g).find? (fun q => id ≠ "" ∧ names q = id) with
          | none => r
          | some p => (⟨fun g' => if g' = g then (r.lists g).erase p else r.lists g',
              fun q => q != p && r.used q⟩ : Registry)) =
        (match o with
          | none => r
          | some p => (⟨fun g' => if g' = g then (r.lists g).erase p else r.lists g',
              fun q => q != p && r.used q⟩ : Registry)) := by
      rintro o rfl; rfl
    by_cases hex : id ≠ "" ∧ ∃ p ∈ w.gens g, name w p = id
    · obtain ⟨hid, hex⟩ := hex
      have hl : ¬ goLen id = 0 := fun e => hid ((goLen_zero id).mp e)
      cases hdl : deleteLoop w.devs id (w.gens g) with
      | none =>
        obtain ⟨p, hp, e⟩ := hex
        exact absurd e (deleteLoop_none hdl p hp)
      | some x =>
        obtain ⟨p, rest⟩ := x
        obtain ⟨a, b, h1, rfl, h3, h4⟩ := deleteLoop_some hdl
        have hp : p ∈ w.gens g := by rw [h1]; simp
        have hr := (ho.running p).mpr ⟨g, hp⟩
        have hns : ¬ (w.devs p).status = Status.stopped := by rw [hr]; exact C36.running_ne_stopped
        have hu : (w.devs p).unmount = .ok { w.devs p with status := Status.stopped } := if_neg hns
        have hw : (w.detach g id).1 = ⟨setAt w.devs p { w.devs p with status := Status.stopped },
            setAt w.gens g (a ++ b)⟩ := by
          unfold detach
          rw [if_neg hl, hdl]
          simp only [hu]
        have hfind : (r.lists g).find? (fun q => id ≠ "" ∧ names q = id) = some p := by
          rw [← d1, h1, List.find?_eq_some_iff_append]
          refine ⟨by simp [hid, ← d3 p]; exact h3, a, b, rfl, fun q hq => ?_⟩
          have := h4 q hq
          have hq' : names q ≠ id := by rw [← d3 q]; exact this
          simp [hq']
        have hpa : p ∉ a := fun hc => h4 p hc h3
        have herase : (r.lists g).erase p = a ++ b := by
          rw [← d1, h1, List.erase_append_right _ hpa, List.erase_cons_head]
        have hst : Registry.step names r (.detach g id : WorldOp F) =
            ⟨fun g' => if g' = g then a ++ b else r.lists g', fun q => q != p && r.used q⟩ := by
          refine (hf _ hfind).trans ?_
          simp only [herase]
        show Describes names (Registry.step names r (.detach g id : WorldOp F)) (w.detach g id).1
        rw [hst, hw]
        refine ⟨?_, ?_, ?_⟩
        · rw [d1]; rfl
        · intro q
          simp only [Bool.and_eq_true, bne_iff_ne, ne_eq]
          by_cases hq : q = p
          · subst hq; simp [setAt_same, C36.running_ne_stopped.symm]
          · rw [setAt_other hq]; simp [hq, d2 q]
        · intro q
          unfold name
          by_cases hq : q = p
          · subst hq; simp only [setAt_same]; exact d3 q
          · simp only [setAt_other hq]; exact d3 q
    · have hw : w.detach g id = (w, none) := by
        apply detach_absent
        by_cases hid : id = ""
        · exact Or.inl hid
        · exact Or.inr (fun e => hex ⟨hid, e⟩)
      have hfind : (r.lists g).find? (fun q => id ≠ "" ∧ names q = id) = none := by
        rw [List.find?_eq_none]
        intro q hq
        simp only [decide_eq_true_eq]
        rintro ⟨e1, e2⟩
        exact hex ⟨e1, q, by rw [d1]; exact hq, by rw [d3 q]; exact e2⟩
      have hst : Registry.step names r (.detach g id : WorldOp F) = r := hf _ hfind
      show Describes names (Registry.step names r (.detach g id : WorldOp F)) (w.detach g id).1
      rw [hst, hw]
      exact ⟨d1, d2, d3⟩
  | device p op =>
    obtain ⟨d, h1, rfl⟩ := map_eq_ok h
    obtain ⟨e1, e2⟩ := Device.step_identity h1 (fun m e => by subst e; exact hn)
    refine ⟨d1, ?_, ?_⟩
    · intro q
      by_cases hq : q = p
      · subst hq; simp only [setAt_same, e1]; exact d2 q
      · simp only [setAt_other hq]; exact d2 q
    · intro q
      unfold name
      by_cases hq : q = p
      · subst hq; simp only [setAt_same, e2]; exact d3 q
      · simp only [setAt_other hq]; exact d3 q

/-- **C37.** After any history without restores the attached devices of every generator are those that
the operations describe, in order of attachment. -/
theorem registry_refines [GoMath F] (w w' : World F) (ops : List (WorldOp F)) (hf : C36.Fresh w)
    (hn : ∀ op ∈ ops, C36.NoRestore op) (h : w.run ops = .ok w') :
    w'.gens = (ops.foldl (Registry.step (name w)) Registry.empty).lists := by
  have key : ∀ {v : World F} {r : Registry}, C36.Once v → Describes (name w) r v → v.run ops = .ok w' →
      w'.gens = (ops.foldl (Registry.step (name w)) r).lists := by
    clear h
    induction ops with
    | nil => intro v r _ hv h; cases h; exact hv.1
    | cons op ops ih =>
      intro v r ho hv h
      obtain ⟨v1, h1, h2⟩ := bind_eq_ok h
      exact ih (fun o ho => hn o (by simp [ho])) (C36.step_once ho (hn op (by simp)) h1)
        (step_describes ho hv (hn op (by simp)) h1) h2
  have ho := C36.fresh_once hf
  refine key ho ⟨funext hf.2, ?_, fun _ => rfl⟩ h
  intro p
  constructor
  · intro e; cases e
  · intro e
    obtain ⟨g, hg⟩ := (ho.running p).mp e
    unfold C36.Attached at hg
    rw [hf.2 g] at hg
    cases hg

/-- Ids given by `NewDevice` are not empty if generated ones are not. -/
theorem new_name [GoFloat F] {rnd : DeviceRnd F} {o : Option (DeviceOptions F)} {d : Device F}
    (hu : rnd.uid ≠ "") (h : Device.new rnd o = .ok d) : d.state.id ≠ "" := by
  obtain ⟨n, speed, bat, st, -, -, -, hst, rfl⟩ := Device.new_eq h
  obtain ⟨_, _, rfl, -, -⟩ := applyFor_eq hst
  simp only
  split
  · exact hu
  · rename_i hl
    exact fun e => hl ((goLen_zero _).mpr e)

/-- **C37, both lookups, every id.** Over histories without restores. -/
theorem lookups_after_history [GoMath F] (w w' : World F) (ops : List (WorldOp F))
    (hw : ∀ p, ∃ rnd o, rnd.uid ≠ "" ∧ Device.new rnd o = .ok (w.devs p))
    (hn : ∀ op ∈ ops, C36.NoRestore op) (h : w.run ops = .ok w') (g : Nat) (id : String) :
    ((w'.lookup g id).isSome = true ↔ ∃ p ∈ w'.gens g, name w' p = id) ∧
    (w'.hasTracker g id = true ↔ ∃ p ∈ w'.gens g, name w' p = id) := by
  have key : ∀ {v : World F}, (∀ p, name v p ≠ "") → v.run ops = .ok w' → ∀ p, name w' p ≠ "" := by
    clear h hw
    induction ops with
    | nil => intro v hv h; cases h; exact hv
    | cons op ops ih =>
      intro v hv h
      obtain ⟨v1, h1, h2⟩ := bind_eq_ok h
      refine ih (fun o ho => hn o (by simp [ho])) ?_ h2
      have ho := hn op (by simp)
      cases op with
      | attach g p =>
        cases h1
        cases p with
        | none => exact hv
        | some p =>
          intro q
          by_cases hs : (v.devs p).status = Status.running
          · rw [C36.attach_running v g p hs]; exact hv q
          · rw [C36.attach_stopped v g p hs]
            unfold name
            by_cases hq : q = p
            · subst hq; simp only [setAt_same]; exact hv q
            · simp only [setAt_other hq]; exact hv q
      | detach g id =>
        cases h1
        intro q
        unfold detach
        split
        · exact hv q
        · split
          · exact hv q
          · rename_i p rest _
            unfold Device.unmount
            split
            · rename_i heq
              exact hv q
            · rename_i d heq
              have e : d.state.id = (v.devs p).state.id := by
                split at heq
                · cases heq
                · cases heq; rfl
              unfold name
              by_cases hq : q = p
              · subst hq; simp only [setAt_same, e]; exact hv q
              · simp only [setAt_other hq]; exact hv q
      | device p op =>
        obtain ⟨d, h3, rfl⟩ := map_eq_ok h1
        have e := (Device.step_identity h3 (fun m e => by subst e; exact ho)).2
        intro q
        unfold name
        by_cases hq : q = p
        · subst hq; simp only [setAt_same, e]; exact hv q
        · simp only [setAt_other hq]; exact hv q
  have hne := key (fun p => by
    obtain ⟨rnd, o, hu, hd⟩ := hw p
    exact new_name hu hd) h
  refine ⟨?_, hasTracker_iff w' g id⟩
  rw [lookup_iff]
  refine ⟨fun e => e.2, fun ⟨p, hp, e⟩ => ⟨?_, p, hp, e⟩⟩
  rw [← e]
  exact hne p

/-- The two lookups differ on an attached device with an empty id. -/
theorem empty_id_differs (w : World F) (g p : Nat) (hp : p ∈ w.gens g) (h : name w p = "") :
    w.hasTracker g "" = true ∧ w.lookup g "" = none ∧ w.detach g "" = (w, none) :=
  ⟨(hasTracker_iff w g "").mpr ⟨p, hp, h⟩, if_pos rfl, if_pos rfl⟩

/-! Non-vacuity: two devices with the same id; detaching removes the first. -/

def demo : World Toy := ((C36.world.attach 0 (some 4)).1.attach 0 (some 3)).1

example : demo.gens 0 = [4, 3] ∧ demo.lookup 0 "device" = some 4 ∧ demo.hasTracker 0 "x" = false ∧
    (demo.detach 0 "device").1.gens 0 = [3] ∧ ((demo.detach 0 "device").1.lookup 0 "device") = some 3 := by
  decide +kernel

end C37
end GpsGen
