import Verif.Model.DevHistory
/-!
# The generator: attached devices

`generator.go`, the part that is sequential. Devices and generators live in a store; a device is
identified by its address (a natural number), which is what the Go code compares when it appends and
removes pointers. Every operation holds the generator's mutex, and `mount`/`unmount` hold the device's,
so operations of concurrent clients are totally ordered and a history is a list.
-/

namespace GpsGen

variable {F : Type}

/-- The devices and, for each generator, the attached devices (generator.go:17 `devices`). -/
structure World (F : Type) where
  devs : Nat → Device F
  gens : Nat → List Nat

/-- Change a function at one place. -/
def setAt {α : Type} (f : Nat → α) (i : Nat) (a : α) : Nat → α := fun j => if j = i then a else f j

namespace World

/-- generator.go:104-118 `Attach`; `none` is a nil device. -/
def attach (w : World F) (g : Nat) : Option Nat → World F × Option Err
  | none => (w, none)
  | some p =>
    match (w.devs p).mount with
    | .error e => (w, some e)
    | .ok d => ({ devs := setAt w.devs p d, gens := setAt w.gens g (w.gens g ++ [p]) }, none)

/-- The loop of generator.go:385-394 `delete`: the removed device and the remaining ones. -/
def deleteLoop (devs : Nat → Device F) (id : String) : List Nat → Option (Nat × List Nat)
  | [] => none
  | p :: ps =>
    if (devs p).state.id == id then some (p, ps)
    else (deleteLoop devs id ps).map (fun r => (r.1, p :: r.2))

/-- generator.go:121-130 `Detach` and 385-394 `delete`. The device is removed even if `unmount` fails. -/
def detach (w : World F) (g : Nat) (id : String) : World F × Option Err :=
  if goLen id = 0 then (w, none) else
  match deleteLoop w.devs id (w.gens g) with
  | none => (w, none)
  | some (p, rest) =>
    match (w.devs p).unmount with
    | .error e => ({ w with gens := setAt w.gens g rest }, some e)
    | .ok d => ({ devs := setAt w.devs p d, gens := setAt w.gens g rest }, none)

/-- generator.go:396-405 `find`. -/
def findLoop (devs : Nat → Device F) (id : String) : List Nat → Option Nat
  | [] => none
  | p :: ps => if (devs p).state.id == id then some p else findLoop devs id ps

/-- generator.go:95-101 `HasTracker`. -/
def hasTracker (w : World F) (g : Nat) (id : String) : Bool := (findLoop w.devs id (w.gens g)).isSome

/-- generator.go:146-155 `Lookup`. -/
def lookup (w : World F) (g : Nat) (id : String) : Option Nat :=
  if goLen id = 0 then none else findLoop w.devs id (w.gens g)

/-- generator.go:158-162 `NumDevices`. -/
def numDevices (w : World F) (g : Nat) : Nat := (w.gens g).length

/-- generator.go:134-142 `Each`: the devices passed to `fn`, which answers whether to go on. -/
def eachLoop (fn : Nat → Nat → Bool) : Nat → List Nat → List (Nat × Nat)
  | _, [] => []
  | i, p :: ps => (i, p) :: (if fn i p then eachLoop fn (i + 1) ps else [])

/-- generator.go:134-142 `Each`. -/
def each (w : World F) (g : Nat) (fn : Nat → Nat → Bool) : List (Nat × Nat) := eachLoop fn 0 (w.gens g)

end World

/-- What clients do to generators and devices. -/
inductive WorldOp (F : Type) where
  | attach (g : Nat) (p : Option Nat)
  | detach (g : Nat) (id : String)
  | device (p : Nat) (op : DevOp F)

/-- Execute one operation. -/
def World.step [GoMath F] (w : World F) : WorldOp F → Go (World F)
  | .attach g p => .ok (w.attach g p).1
  | .detach g id => .ok (w.detach g id).1
  | .device p op => ((w.devs p).step op).map (fun d => { w with devs := setAt w.devs p d })

/-- Execute a history. -/
def World.run [GoMath F] (w : World F) : List (WorldOp F) → Go (World F)
  | [] => .ok w
  | op :: ops => w.step op >>= fun w' => w'.run ops

end GpsGen
