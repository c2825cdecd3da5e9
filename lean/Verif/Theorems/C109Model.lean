import Verif.Theorems.C109
import Verif.Model.Generator
/-!
# C109, link to the rest of the model

The other models treat the lists of routes, tracks, sensors and devices as values (`addLoop`, `addSensors`,
`removeFirst`, `deleteLoop`). Here: the slices of `Model/Slices.lean`, read through the pointers, show
exactly what those functions compute. `obj` says what the pointers point to; it does not change during a
call that adds or removes.
-/

namespace GpsGen
namespace C109
open Slices

/-- What a reader sees in list `k`. -/
def objs {α : Type} (obj : Nat → α) (w : Slices.World) (k : Nat) : List α :=
  (w.heap.view (w.owned k)).filterMap (·.map obj)

theorem objs_eq {α : Type} (grow : Nat → Nat → Nat) (key : Nat → String) (obj : Nat → α) (ops : List Op)
    (k : Nat) : objs obj (Slices.World.run grow key ops) k = ((Lists.run key ops).owned k).map obj := by
  unfold objs
  rw [(like_values grow key ops).1 k]
  induction (Lists.run key ops).owned k with
  | nil => rfl
  | cons a l ih => simp [ih]

theorem run_snoc (key : Nat → String) (ops : List Op) (op : Op) :
    Lists.run key (ops ++ [op]) = (Lists.run key ops).step key op := by
  unfold Lists.run
  rw [List.foldl_append]
  rfl

theorem held_args {grow : Nat → Nat → Nat} {key : Nat → String} {ops : List Op} {c : Nat} {args : Slice}
    (hc : (Slices.World.run grow key ops).held[c]? = some args) :
    (Lists.run key ops).held[c]? = some ((Slices.World.run grow key ops).heap.view args) := by
  have := congrArg (·[c]?) (like_values grow key ops).2
  simp only [List.getElem?_map, hc, Option.map_some] at this
  exact this.symm

theorem addLoop_map {F : Type} (obj : Nat → Route F) (args : List Cell) : ∀ (l : List Nat) (n : Nat),
    (Navigator.addLoop (l.map obj) n (args.map (·.map obj))).1 =
      (args.foldl (addNew fun p => (obj p).id) l).map obj := by
  induction args with
  | nil => intro l n; rfl
  | cons a args ih =>
    intro l n
    cases a with
    | none => exact ih l n
    | some p =>
      have e : Navigator.hasRoute (l.map obj) (obj p).id = l.any (fun q => (obj q).id == (obj p).id) := by
        unfold Navigator.hasRoute
        rw [List.any_map]
        congr 1
        funext q
        exact Bool.beq_comm
      simp only [List.map_cons, Option.map_some, Navigator.addLoop, List.foldl_cons, addNew, e]
      split
      · exact ih l n
      · have := ih (l ++ [p]) (n + 1)
        simpa using this

theorem addSensors_map {F : Type} (obj : Nat → Sensor F) (args : List Cell) : ∀ (l : List Nat) (n : Nat),
    (Device.addSensors (l.map obj) n (args.map (·.map obj))).1 =
      (args.foldl (addNew fun p => (obj p).id) l).map obj := by
  induction args with
  | nil => intro l n; rfl
  | cons a args ih =>
    intro l n
    cases a with
    | none => exact ih l n
    | some p =>
      have e : Device.hasSensor (l.map obj) (obj p).id = l.any (fun q => (obj q).id == (obj p).id) := by
        unfold Device.hasSensor
        rw [List.any_map]
        rfl
      simp only [List.map_cons, Option.map_some, Device.addSensors, List.foldl_cons, addNew, e]
      split
      · exact ih l n
      · have := ih (l ++ [p]) (n + 1)
        simpa using this

theorem removeFirst_map {α : Type} (obj : Nat → α) (f : α → Bool) (l : List Nat) :
    (removeFirst f (l.map obj)).1 = (l.eraseP fun p => f (obj p)).map obj := by
  induction l with
  | nil => rfl
  | cons a l ih =>
    simp only [List.map_cons, removeFirst, List.eraseP_cons]
    cases f (obj a) <;> simp [ih]

/-! ## The claims -/

/-- **C109, routes added.** `AddRoute` with a slice of the client leaves the routes that `addLoop` computes. -/
theorem add_routes {F : Type} (grow : Nat → Nat → Nat) (obj : Nat → Route F) (ops : List Op) (k c : Nat)
    (args : Slice) (hc : (Slices.World.run grow (fun p => (obj p).id) ops).held[c]? = some args) :
    let w := Slices.World.run grow (fun p => (obj p).id) ops
    objs obj (Slices.World.run grow (fun p => (obj p).id) (ops ++ [.add k c])) k =
      (Navigator.addLoop (objs obj w k) 0 ((w.heap.view args).map (·.map obj))).1 := by
  simp only [objs_eq, addLoop_map, run_snoc, Lists.step, Lists.change, held_args hc, if_true, Option.getD_some]

/-- **C109, sensors added.** -/
theorem add_sensors {F : Type} (grow : Nat → Nat → Nat) (obj : Nat → Sensor F) (ops : List Op) (k c : Nat)
    (args : Slice) (hc : (Slices.World.run grow (fun p => (obj p).id) ops).held[c]? = some args) :
    let w := Slices.World.run grow (fun p => (obj p).id) ops
    objs obj (Slices.World.run grow (fun p => (obj p).id) (ops ++ [.add k c])) k =
      (Device.addSensors (objs obj w k) 0 ((w.heap.view args).map (·.map obj))).1 := by
  simp only [objs_eq, addSensors_map, run_snoc, Lists.step, Lists.change, held_args hc, if_true,
    Option.getD_some]

/-- **C109, removed.** Routes, tracks and sensors: the removal in place leaves what `removeFirst` computes. -/
theorem removed {α : Type} (grow : Nat → Nat → Nat) (name : α → String) (obj : Nat → α) (ops : List Op)
    (k : Nat) (id : String) :
    objs obj (Slices.World.run grow (fun p => name (obj p)) (ops ++ [.remove k id])) k =
      (removeFirst (fun r => name r == id) (objs obj (Slices.World.run grow (fun p => name (obj p)) ops) k)).1 := by
  simp only [objs_eq, removeFirst_map, run_snoc, Lists.step, Lists.change, if_true]

/-- **C109, detached.** The generator keeps the devices that `deleteLoop` leaves. -/
theorem detached {F : Type} (grow : Nat → Nat → Nat) (devs : Nat → Device F) (ops : List Op) (k : Nat)
    (id : String) :
    let key := fun p => (devs p).state.id
    objs (fun p => p) (Slices.World.run grow key (ops ++ [.remove k id])) k =
      match GpsGen.World.deleteLoop devs id (objs (fun p => p) (Slices.World.run grow key ops) k) with
      | some r => r.2
      | none => objs (fun p => p) (Slices.World.run grow key ops) k := by
  simp only [objs_eq, run_snoc, Lists.step, Lists.change, if_true, List.map_id']
  induction (Lists.run (fun p => (devs p).state.id) ops).owned k with
  | nil => rfl
  | cons a l ih =>
    simp only [GpsGen.World.deleteLoop, List.eraseP_cons]
    cases h : (devs a).state.id == id
    · simp only [cond_false, Bool.false_eq_true, if_false]
      rw [ih]
      cases GpsGen.World.deleteLoop devs id l <;> rfl
    · simp

/-- **C109, others.** A call on one list shows in no other list. -/
theorem others {α : Type} (grow : Nat → Nat → Nat) (key : Nat → String) (obj : Nat → α) (ops : List Op)
    (j k c p cap : Nat) (id : String) (hne : j ≠ k) (op : Op)
    (ho : op = .add k c ∨ op = .push k p ∨ op = .remove k id ∨ op = .reset k cap) :
    objs obj (Slices.World.run grow key (ops ++ [op])) j = objs obj (Slices.World.run grow key ops) j := by
  rw [objs_eq, objs_eq, run_snoc]
  rcases ho with rfl | rfl | rfl | rfl <;> simp [Lists.step, Lists.change, hne]

/-! ## A concrete case -/

/-- The pointers of `C109.ids` as sensors. -/
def probe (p : Nat) : Sensor Nat := ⟨ids p, ids p, p, 0, 0, 0, ⟨[], 0, 0, 0⟩⟩

/-- Names and values after adding `[a, nil, b, b, c]` and after removing `b`: the first `b` was kept. -/
example : (objs probe (Slices.World.run (fun c _ => c) ids (demo.take 2)) 0).map (fun s => (s.id, s.min)) =
    [("a", 1), ("b", 2), ("c", 3)] := by decide +kernel
example : (objs probe (Slices.World.run (fun c _ => c) ids (demo.take 2 ++ [.remove 0 "b"])) 0).map (·.id) =
    ["a", "c"] := by decide +kernel

end C109
end GpsGen
