import Verif.Model.GenRun
import Verif.Model.Clock
/-!
# A running generator with its devices

`GenRun` treats devices as addresses. Here the addresses point to devices: the run loop advances them with the tick it
gets from the clock (generator.go:221-259), and a worker copies the published states its slice points to into the
packet it delivers (generator.go:288-300). Serialisation of the states into bytes is in `PacketBytes`.

Simplification: nobody else uses the devices while the generator runs. `rnd p n` are the draws of device `p` in round
`n`. A panic of `Next` ends the program: there is no next state.
-/

namespace GpsGen
namespace Run

variable {F : Type}

/-- Content of a packet: for every slot the published state it points to, if any. -/
abbrev Content (F : Type) := List (Option (DevState F))

/-- A running generator and the devices. -/
structure Live (F : Type) where
  gs : GS
  /-- 212: `lastTime` -/
  last : Int
  /-- 221: `t` -/
  now : Int
  /-- the devices by address -/
  mem : Nat → Device F
  /-- 289-292: what a worker has serialised -/
  held : Nat → Content F
  /-- 299: what was given to `onPacket`, latest last -/
  out : List (Packet × Content F)
  /-- the times of all rounds so far (an observation: no step depends on it) -/
  rounds : List Int

/-- The state in which `Run` starts at time `start`. -/
def Live.init (c : Cfg) (devs : List Nat) (mem : Nat → Device F) (start : Int) : Live F :=
  ⟨GS.init c devs, start, start, mem, fun _ => [], [], []⟩

/-- What a slot points to. -/
def Live.read (L : Live F) (x : Slot) : Option (DevState F) := x.map fun q => (L.mem q.1).state

/-- What an action does to the devices and the packets, before the state of the generator changes. -/
def Live.effect [GoMath F] (rnd : Nat → Nat → Device.NextRnd F) (L : Live F) : Act → Option (Live F)
  | .run =>
    match L.gs.run with
    | .ticked => if L.gs.closed then some L else some { L with rounds := L.rounds ++ [L.now] }
    | .adv i =>
      match L.gs.devs[i]? with
      | some p =>
        match (L.mem p).next (tickOf L.last L.now) (rnd p L.gs.clock) with
        | .ok r => some { L with mem := fun q => if q = p then r.1 else L.mem q }
        | .error _ => none
      | none => some L
    | .notify => some { L with last := L.now }
    | _ => some L
  | .worker i _ =>
    match L.gs.workers[i]? with
    | some (.mar x) =>
      some { L with held := fun j => if j = i then (L.gs.cut x).slots.map L.read else L.held j }
    | some (.call p) => some { L with out := L.out ++ [(p, L.held i)] }
    | _ => some L
  | _ => some L

/-- One step; the ticker delivers the time `t`. -/
def Live.step [GoMath F] (c : Cfg) (rnd : Nat → Nat → Device.NextRnd F) (L : Live F) (a : Act) (t : Int) :
    Option (Live F) := do
  let gs ← fire c L.gs a
  let L' ← L.effect rnd a
  return { L' with gs := gs, now := if a = .ticker then t else L'.now }

/-- Execute a schedule. -/
def Live.exec [GoMath F] (c : Cfg) (rnd : Nat → Nat → Device.NextRnd F) : Live F → List (Act × Int) → Option (Live F)
  | L, [] => some L
  | L, (a, t) :: as => (L.step c rnd a t).bind fun L' => L'.exec c rnd as

end Run
end GpsGen
