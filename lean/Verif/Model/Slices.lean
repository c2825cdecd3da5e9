/-!
# Slices over shared arrays

The rest of the model treats the lists of routes, tracks, sensors and devices as values. In Go they are
slices: windows into arrays that several slices may share, and `append` and the removal idiom
`append(s[:i], s[i+1:]...)` write into the array of `s` when there is room. This file models arrays,
slices and the functions of the library that work on them. The pointers stored in the cells are numbers;
what they point to is not modelled here, except for the id (`key`).

Simplifications. Locks are not modelled here: one call happens after the other. The version, the distances
and the published state, which the same calls update, are in the other models. The checks on the length of
an id (navigator.go:150, route.go:123, device.go:241, generator.go:121) are left out: a call they turn away
changes nothing.
-/

namespace GpsGen
namespace Slices

/-- A pointer, or nil. -/
abbrev Cell := Option Nat

/-- The arrays allocated so far: `cells a i` is cell `i` of array `a`; arrays from `next` on are free. -/
structure Heap where
  cells : Nat → Nat → Cell
  next : Nat

/-- A Go slice: array, offset, length, capacity. -/
structure Slice where
  arr : Nat
  off : Nat
  len : Nat
  cap : Nat
deriving DecidableEq, Repr

/-- What reading all of `s` gives. -/
def Heap.view (h : Heap) (s : Slice) : List Cell := (List.range s.len).map fun i => h.cells s.arr (s.off + i)

/-- `s[:i]`. -/
def Slice.upTo (s : Slice) (i : Nat) : Slice := { s with len := i }

/-- `s[i:]`. -/
def Slice.from (s : Slice) (i : Nat) : Slice := ⟨s.arr, s.off + i, s.len - i, s.cap - i⟩

/-- Overwriting the cells of array `a` from `i` on by `xs`. -/
def Heap.put (h : Heap) (a i : Nat) (xs : List Cell) : Heap :=
  { h with cells := fun b j => if b = a ∧ i ≤ j ∧ j < i + xs.length then xs.getD (j - i) none else h.cells b j }

/-- `make([]*T, len, cap)`: a new array of nils. -/
def Heap.make (h : Heap) (len cap : Nat) : Heap × Slice :=
  ({ cells := fun b j => if b = h.next then none else h.cells b j, next := h.next + 1 }, ⟨h.next, 0, len, cap⟩)

/-- The built-in `append(s, xs...)`: in place when the capacity suffices, otherwise into a new array with
room to spare. How much, is up to the runtime: `grow`. -/
def Heap.append (grow : Nat → Nat → Nat) (h : Heap) (s : Slice) (xs : List Cell) : Heap × Slice :=
  if s.len + xs.length ≤ s.cap then
    (h.put s.arr (s.off + s.len) xs, { s with len := s.len + xs.length })
  else
    let old := h.view s
    let (h, t) := h.make (s.len + xs.length) (s.len + xs.length + grow s.cap (s.len + xs.length))
    (h.put t.arr 0 (old ++ xs), t)

/-- The built-in `copy(dst, src)`. -/
def Heap.copy (h : Heap) (dst src : Slice) : Heap := h.put dst.arr dst.off ((h.view src).take dst.len)

/-- navigator/navigator.go:251-255 `Routes`, device.go:216-222 `Sensors`: a new slice with the same cells. -/
def Heap.listOf (h : Heap) (s : Slice) : Heap × Slice :=
  let (h, t) := h.make s.len s.len
  (h.copy t s, t)

/-- navigator/navigator.go:779-786 `hasRoute`, device.go:910-918 `hasSensor`. -/
def Heap.has (h : Heap) (key : Nat → String) (s : Slice) (id : String) : Bool :=
  (h.view s).any fun c => match c with
    | some p => key p == id
    | none => false

/-- The loops of `AddRoute` (navigator/navigator.go:84-90) and `AddSensor` (device.go:192-199) over the
arguments `args`, which are read cell by cell while the list grows. `n` is the number of arguments left. -/
def Heap.addLoop (grow : Nat → Nat → Nat) (key : Nat → String) (h : Heap) (s args : Slice) :
    Nat → Heap × Slice
  | 0 => (h, s)
  | n + 1 =>
    match h.cells args.arr (args.off + (args.len - (n + 1))) with
    | none => h.addLoop grow key s args n
    | some p =>
      if h.has key s (key p) then h.addLoop grow key s args n
      else
        let (h, s) := h.append grow s [some p]
        h.addLoop grow key s args n

/-- The loops of `RemoveRoute` (navigator/navigator.go:153-159), `RemoveTrack` (navigator/route.go:126-134),
`RemoveSensor` (device.go:249-257) and `delete` (generator.go:386-392): the first element with the id is
removed by `append(s[:i], s[i+1:]...)`. A nil cell would panic in Go; C109 shows that the lists hold none.
`n` is the number of cells left. -/
def Heap.removeLoop (grow : Nat → Nat → Nat) (key : Nat → String) (h : Heap) (s : Slice) (id : String) :
    Nat → Heap × Slice
  | 0 => (h, s)
  | n + 1 =>
    let i := s.len - (n + 1)
    match h.cells s.arr (s.off + i) with
    | none => h.removeLoop grow key s id n
    | some p =>
      if key p = id then h.append grow (s.upTo i) (h.view (s.from (i + 1)))
      else h.removeLoop grow key s id n

/-! ## Programs -/

/-- The lists of the library, one per navigator, route, device and generator, and the slices that the
client holds. -/
structure World where
  heap : Heap
  owned : Nat → Slice
  held : List Slice

/-- Calls of the library and what a client can do with its own slices. -/
inductive Op where
  /-- `AddRoute(args...)`, `AddSensor(args...)` with a slice that the client holds. -/
  | add (k c : Nat)
  /-- `AddTrack` (navigator/route.go:166-176) and `Attach` (generator.go:104-118) of a pointer. -/
  | push (k p : Nat)
  /-- `RemoveRoute`, `RemoveTrack`, `RemoveSensor`, `Detach`. -/
  | remove (k : Nat) (id : String)
  /-- `ResetRoutes` (navigator/navigator.go:117), `ResetSensors` (device.go:212), and the constructors
  (generator.go:85). -/
  | reset (k cap : Nat)
  /-- `Routes()`, `Sensors()`. -/
  | list (k : Nat)
  /-- The client makes a slice of its own. -/
  | mine (xs : List Cell)
  /-- The client writes into a slice it holds: `c[i] = x`. -/
  | write (c i : Nat) (x : Cell)

/-- One call. A client index out of range does nothing. -/
def World.step (grow : Nat → Nat → Nat) (key : Nat → String) (w : World) : Op → World
  | .add k c =>
    match w.held[c]? with
    | none => w
    | some args =>
      let (h, s) := w.heap.addLoop grow key (w.owned k) args args.len
      { w with heap := h, owned := fun j => if j = k then s else w.owned j }
  | .push k p =>
    let (h, s) := w.heap.append grow (w.owned k) [some p]
    { w with heap := h, owned := fun j => if j = k then s else w.owned j }
  | .remove k id =>
    let (h, s) := w.heap.removeLoop grow key (w.owned k) id (w.owned k).len
    { w with heap := h, owned := fun j => if j = k then s else w.owned j }
  | .reset k cap =>
    let (h, s) := w.heap.make 0 cap
    { w with heap := h, owned := fun j => if j = k then s else w.owned j }
  | .list k =>
    let (h, s) := w.heap.listOf (w.owned k)
    { w with heap := h, held := w.held ++ [s] }
  | .mine xs =>
    let (h, s) := w.heap.make xs.length xs.length
    { w with heap := h.put s.arr 0 xs, held := w.held ++ [s] }
  | .write c i x =>
    match w.held[c]? with
    | none => w
    | some s => if i < s.len then { w with heap := w.heap.put s.arr (s.off + i) [x] } else w

/-- Before the first call: no arrays, every list is the nil slice. -/
def World.init : World := ⟨⟨fun _ _ => none, 0⟩, fun _ => ⟨0, 0, 0, 0⟩, []⟩

/-- A whole program. -/
def World.run (grow : Nat → Nat → Nat) (key : Nat → String) (ops : List Op) : World :=
  ops.foldl (World.step grow key) World.init

end Slices
end GpsGen
