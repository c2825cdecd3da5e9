import Verif.Model.Generator
/-!
# The generator: goroutines

`generator.go:186-383` as an interleaving of the run loop, the workers, the notifier and clients. One
step of a goroutine is one blocking or shared-state action with the local computation that follows it:
a channel operation, a closed-check, a device tick, a packet slot, a mutex section.

* `ctx` is a flag; `isClosed` reads it. A `select` on `ctx.Done()` and a channel may take either branch
  that is ready (the `stop` argument of an action, or the action `ticker`).
* `sliceCh` and `waitCh` are buffers of capacity `numWorkers`, `nextCh` of capacity one.
* `g.mu` is held for reading by the run loop in `adv` and `fill`; `Attach` and `Detach` (atomic here)
  wait for it. `g.dmu` is held for reading by a worker in `mar`; writers wait for it.
* Devices are addresses. `packet` holds addresses because `State()` returns a pointer.
* Callbacks return; serialisation succeeds (all strings are valid UTF-8).
* `log`, `sent`, `clock`, `last`, `ticks`, `nexts`, `announced` are observations: no step depends on them.
-/

namespace GpsGen
namespace Run

/-- generator.go:37-46 `Options`. -/
structure Options where
  interval : Int
  packetSize : Int
  numWorkers : Int

/-- generator.go:50-56 `NewOptions`. -/
def Options.default : Options := ⟨3000000000, 8192, 4⟩

/-- generator.go:58-68 `prepare`; `cpus` is `runtime.NumCPU()`. -/
def Options.prepare (o : Options) (cpus : Int) : Options where
  packetSize := if o.packetSize < 1024 then 1024 else o.packetSize
  interval := if o.interval ≤ 0 then 1000000000 else o.interval
  numWorkers := if o.numWorkers ≤ 0 then cpus else o.numWorkers

/-- The sizes of a generator. -/
structure Cfg where
  numWorkers : Nat
  packetSize : Nat

/-- generator.go:71-92 `New`; `none` is nil options. -/
def Cfg.new (o : Option Options) (cpus : Int) : Cfg :=
  let o := (o.getD .default).prepare cpus
  ⟨o.numWorkers.toNat, o.packetSize.toNat⟩

/-- generator.go:83 `workerSize`. -/
def Cfg.workerSize (c : Cfg) : Nat := c.packetSize / c.numWorkers

/-- generator.go:261-263 `slice`. -/
structure Slice where
  lo : Nat
  hi : Nat
  deriving DecidableEq, Repr

/-- generator.go:345-356: the `i`-th slice of a divided packet. -/
def Cfg.part (c : Cfg) (index i : Nat) : Slice :=
  let step := index / c.numWorkers
  let rem := index % c.numWorkers
  ⟨i * step, i * step + step + (if i = c.numWorkers - 1 then rem else 0)⟩

/-- generator.go:338: the packet is not divided. -/
def Cfg.single (c : Cfg) (index : Nat) : Bool := index ≤ c.numWorkers + c.workerSize

/-- generator.go:337-366: the slices sent by `flush` while the generator is open. -/
def Cfg.slices (c : Cfg) (index : Nat) : List Slice :=
  if c.single index then [⟨0, index⟩] else (List.range c.numWorkers).map (c.part index)

/-- A device in a packet: its address, and the tick in which the slot was filled. -/
abbrev Slot := Option (Nat × Nat)

/-- A packet handed to `onPacket`: the tick and the serialised devices. -/
structure Packet where
  clock : Nat
  slots : List Slot
  deriving DecidableEq, Repr

/-- Where the run loop is (206-259 and 337-366). `k = some i` marks the flush in the middle of a tick after
device `i`, `none` the flush at the end. -/
inductive RPC where
  /-- 217: `select` -/
  | idle
  /-- 221: received from the ticker -/
  | ticked
  /-- 232: about to tick device `i` -/
  | adv (i : Nat)
  /-- 237: about to store device `i` -/
  | fill (i : Nat)
  /-- 339 -/
  | fsend (k : Option Nat)
  /-- 340 -/
  | fcheck (k : Option Nat)
  /-- 343 -/
  | fwait (k : Option Nat)
  /-- 348 -/
  | mcheck (k : Option Nat) (i : Nat)
  /-- 357 -/
  | msend (k : Option Nat) (i : Nat)
  /-- 360 -/
  | wcheck (k : Option Nat) (j : Nat)
  /-- 363 -/
  | mwait (k : Option Nat) (j : Nat)
  /-- 244: after a flush in the middle -/
  | relock (i : Nat)
  /-- 253 -/
  | reset
  /-- 254 -/
  | notify
  /-- 207: deferred -/
  | fin
  | done
  deriving DecidableEq, Repr

/-- Where a worker is (265-309). -/
inductive WPC where
  /-- 275: `select` -/
  | wait
  /-- 279: received a slice -/
  | got (s : Slice)
  /-- 291: about to lock -/
  | enc (s : Slice)
  /-- 292: serialising under the read lock -/
  | mar (s : Slice)
  /-- 296-300: in the callback -/
  | call (p : Packet)
  /-- 302 -/
  | check
  /-- 284, 306: about to answer -/
  | send
  /-- 267: deferred `wg.Done` -/
  | leave
  /-- 268: deferred answer -/
  | exit
  | dead
  deriving DecidableEq, Repr

/-- Where the notifier is (318-335). -/
inductive NPC where
  | wait
  | got
  | call
  | done
  deriving DecidableEq, Repr

/-- The state of a running generator. -/
structure GS where
  closed : Bool
  sliceCh : List Slice
  waitCh : Nat
  nextCh : Bool
  run : RPC
  workers : List WPC
  notifier : NPC
  devs : List Nat
  index : Nat
  packet : List Slot
  /-- ticks begun -/
  clock : Nat
  /-- the tick in which a device was last advanced -/
  last : Nat → Nat
  /-- slices sent, with the packet at that time -/
  sent : List Packet
  /-- packets delivered, latest last -/
  log : List Packet
  /-- ticks completed -/
  ticks : Nat
  /-- `onNext` calls begun -/
  nexts : Nat
  /-- ticks completed when `onNext` was last begun -/
  announced : Nat

/-- What can happen next. -/
inductive Act where
  | close
  | ticker
  | attach (p : Nat)
  | detach (i : Nat)
  | run
  | worker (i : Nat) (stop : Bool)
  | notifier (stop : Bool)
  deriving DecidableEq, Repr

/-- Steps of the generator's goroutines, as opposed to clients and the ticker. -/
def Act.internal : Act → Bool
  | .run | .worker _ _ | .notifier _ => true
  | _ => false

/-- The state in which `Run` starts (191-204), with devices attached before. -/
def GS.init (c : Cfg) (devs : List Nat) : GS where
  closed := false
  sliceCh := []
  waitCh := 0
  nextCh := false
  run := .idle
  workers := List.replicate c.numWorkers .wait
  notifier := .wait
  devs := devs
  index := 0
  packet := List.replicate c.packetSize none
  clock := 0
  last := fun _ => 0
  sent := []
  log := []
  ticks := 0
  nexts := 0
  announced := 0

/-- The run loop holds `g.mu` for reading. -/
def RPC.locked : RPC → Bool
  | .adv _ | .fill _ => true
  | _ => false

/-- A worker holds `g.dmu` for reading. -/
def WPC.marshalling : WPC → Bool
  | .mar _ => true
  | _ => false

/-- `g.dmu` can be locked for writing. -/
def GS.writable (s : GS) : Bool := !s.workers.any WPC.marshalling

/-- Where the run loop goes after a flush. -/
def RPC.after : Option Nat → RPC
  | some i => .relock i
  | none => .reset

/-- 337-338, 344: the start of `flush`. -/
def Cfg.enter (c : Cfg) (index : Nat) (k : Option Nat) : RPC :=
  if c.single index then .fsend k else .mcheck k 0

/-- The devices of a slice of the packet. -/
def GS.cut (s : GS) (x : Slice) : Packet := ⟨s.clock, (s.packet.take x.hi).drop x.lo⟩

/-- 339, 357: send a slice. -/
def GS.push (s : GS) (x : Slice) (pc : RPC) : GS :=
  { s with sliceCh := s.sliceCh ++ [x], sent := s.sent ++ [s.cut x], run := pc }

/-- One step of the run loop; `none` if it is blocked or finished. -/
def runStep (c : Cfg) (s : GS) : Option GS :=
  match s.run with
  | .idle => if s.closed then some { s with run := .fin } else none
  | .ticked =>
    if s.closed then some { s with run := .fin } else some { s with run := .adv 0, clock := s.clock + 1 }
  | .adv i =>
    match s.devs[i]? with
    | some p => some { s with last := setAt s.last p s.clock, run := .adv (i + 1) }
    | none => some { s with index := 0, run := .fill 0 }
  | .fill i =>
    match s.devs[i]? with
    | some p =>
      if s.writable then
        if s.index + 1 = c.packetSize then
          some { s with packet := s.packet.set s.index (some (p, s.clock)), run := c.enter s.index (some i) }
        else
          some { s with
            packet := s.packet.set s.index (some (p, s.clock)), index := s.index + 1, run := .fill (i + 1) }
      else none
    | none => some { s with run := c.enter s.index none }
  | .fsend k => if s.sliceCh.length < c.numWorkers then some (s.push ⟨0, s.index⟩ (.fcheck k)) else none
  | .fcheck k => if s.closed then some { s with run := .after k } else some { s with run := .fwait k }
  | .fwait k => if s.waitCh > 0 then some { s with waitCh := s.waitCh - 1, run := .after k } else none
  | .mcheck k i =>
    if i < c.numWorkers then
      if s.closed then some { s with run := .after k } else some { s with run := .msend k i }
    else some { s with run := .wcheck k 0 }
  | .msend k i =>
    if s.sliceCh.length < c.numWorkers then some (s.push (c.part s.index i) (.mcheck k (i + 1))) else none
  | .wcheck k j =>
    if j < c.numWorkers then
      if s.closed then some { s with run := .after k } else some { s with run := .mwait k j }
    else some { s with run := .after k }
  | .mwait k j =>
    if s.waitCh > 0 then some { s with waitCh := s.waitCh - 1, run := .wcheck k (j + 1) } else none
  | .relock i => some { s with index := 0, run := .fill (i + 1) }
  | .reset =>
    if s.writable then some { s with packet := List.replicate s.packet.length none, run := .notify } else none
  | .notify => some { s with nextCh := true, ticks := s.ticks + 1, run := .idle }
  | .fin => some { s with run := .done }
  | .done => none

/-- One step of a worker at `w`: the shared state and where the worker goes. -/
def workerStep (c : Cfg) (s : GS) (w : WPC) (stop : Bool) : Option (GS × WPC) :=
  match w with
  | .wait =>
    if stop then (if s.closed then some (s, .leave) else none)
    else match s.sliceCh with
      | [] => none
      | x :: rest => some ({ s with sliceCh := rest }, .got x)
  | .got x =>
    if s.closed then some (s, .leave)
    else if x.lo = 0 ∧ x.hi = 0 then some (s, .send) else some (s, .enc x)
  | .enc x => some (s, .mar x)
  | .mar x => some (s, .call (s.cut x))
  | .call p => some ({ s with log := s.log ++ [p] }, .check)
  | .check => if s.closed then some (s, .leave) else some (s, .send)
  | .send => if s.waitCh < c.numWorkers then some ({ s with waitCh := s.waitCh + 1 }, .wait) else none
  | .leave => some (s, .exit)
  | .exit => if s.waitCh < c.numWorkers then some ({ s with waitCh := s.waitCh + 1 }, .dead) else none
  | .dead => none

/-- One step of the notifier, with an `onNext` callback installed. -/
def notifierStep (s : GS) (stop : Bool) : Option GS :=
  match s.notifier with
  | .wait =>
    if stop then (if s.closed then some { s with notifier := .done } else none)
    else if s.nextCh then some { s with nextCh := false, notifier := .got } else none
  | .got =>
    if s.closed then some { s with notifier := .done }
    else some { s with notifier := .call, nexts := s.nexts + 1, announced := s.ticks }
  | .call => some { s with notifier := .wait }
  | .done => none

/-- One step; `none` if it is not possible. -/
def fire (c : Cfg) (s : GS) : Act → Option GS
  | .close => some { s with closed := true }
  | .ticker => if s.run = .idle then some { s with run := .ticked } else none
  | .attach p => if s.run.locked then none else some { s with devs := s.devs ++ [p] }
  | .detach i => if s.run.locked then none else some { s with devs := s.devs.eraseIdx i }
  | .run => runStep c s
  | .worker i stop =>
    match s.workers[i]? with
    | none => none
    | some w => (workerStep c s w stop).map (fun r => { r.1 with workers := s.workers.set i r.2 })
  | .notifier stop => notifierStep s stop

/-- Execute a schedule. -/
def exec (c : Cfg) : GS → List Act → Option GS
  | s, [] => some s
  | s, a :: as => (fire c s a).bind (fun s' => exec c s' as)

/-- `Run` has returned: every goroutine has called `wg.Done` (203). -/
def GS.returned (s : GS) : Bool :=
  s.run == .done && s.workers.all (fun w => w == .exit || w == .dead) && s.notifier == .done

end Run
end GpsGen
