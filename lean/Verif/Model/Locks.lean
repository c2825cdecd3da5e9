/-!
# The locks of devices and generators

`sync.RWMutex` as documented by the Go standard library: any number of readers or one writer; a waiting writer
keeps new readers out; `TryLock` does not wait. Each method of `Device` and `Generator` is reduced to the locks it
takes and gives back. Simplification: every waiting writer keeps readers out, also one that still waits for another
writer; channel operations and computations are left out (no lock is held during channel operations).
-/

namespace GpsGen
namespace Locks

/-- The locks: `Generator.mu`, `Generator.dmu` (generator.go:15-35) and `Device.mu` (device.go:31-42) of each device. -/
inductive Lock
  | gen
  | packet
  | dev (i : Nat)
  deriving DecidableEq

/-- `RLock` or `Lock`. -/
inductive Mode
  | read
  | write
  deriving DecidableEq

/-- What a goroutine does with locks. -/
inductive Prog
  | done
  | acq (l : Lock) (m : Mode) (k : Prog)
  | rel (l : Lock) (k : Prog)
  | try (l : Lock) (ok fail : Prog)

/-- A goroutine: what it has to do, the locks it holds, and whether it is waiting inside `Lock`. -/
structure Thread where
  prog : Prog
  held : List (Lock × Mode)
  waiting : Bool

/-- The goroutine waits for `l` inside `Lock`. -/
def Thread.waits (t : Thread) (l : Lock) : Prop := t.waiting = true ∧ ∃ k, t.prog = .acq l .write k

/-- Somebody holds the lock. -/
def Held (s : List Thread) (l : Lock) : Prop := ∃ t ∈ s, ∃ m, (l, m) ∈ t.held

/-- The steps of one goroutine among others. -/
inductive Step : List Thread → List Thread → Prop
  | rlock {s i t l k} (h : s[i]? = some t) (hp : t.prog = .acq l .read k)
      (hf : ∀ u ∈ s, (l, .write) ∉ u.held ∧ ¬ u.waits l) :
      Step s (s.set i ⟨k, (l, .read) :: t.held, false⟩)
  | wait {s i t l k} (h : s[i]? = some t) (hp : t.prog = .acq l .write k) (hw : t.waiting = false) :
      Step s (s.set i { t with waiting := true })
  | lock {s i t l k} (h : s[i]? = some t) (hp : t.prog = .acq l .write k) (hw : t.waiting = true)
      (hf : ¬ Held s l) : Step s (s.set i ⟨k, (l, .write) :: t.held, false⟩)
  | unlock {s i t l k} (h : s[i]? = some t) (hp : t.prog = .rel l k) :
      Step s (s.set i ⟨k, t.held.eraseP (fun p => p.1 = l), false⟩)
  | tryOk {s i t l a b} (h : s[i]? = some t) (hp : t.prog = .try l a b) (hf : ¬ Held s l) :
      Step s (s.set i ⟨a, (l, .write) :: t.held, false⟩)
  | tryFail {s i t l a b} (h : s[i]? = some t) (hp : t.prog = .try l a b) (hf : Held s l ∨ ∃ u ∈ s, u.waits l) :
      Step s (s.set i ⟨b, t.held, false⟩)

/-- Any number of steps. -/
inductive Steps : List Thread → Nat → List Thread → Prop
  | refl {s} : Steps s 0 s
  | tail {s n s' s''} (h : Steps s n s') (hs : Step s' s'') : Steps s (n + 1) s''

/-- Goroutines at their beginning. -/
def start (ps : List Prog) : List Thread := ps.map (fun p => ⟨p, [], false⟩)

/-! ## The methods -/

/-- One after the other. -/
def Prog.seq : Prog → Prog → Prog
  | .done, q => q
  | .acq l m k, q => .acq l m (k.seq q)
  | .rel l k, q => .rel l (k.seq q)
  | .try l a b, q => .try l (a.seq q) (b.seq q)

/-- All of a list, one after the other. -/
def Prog.all : List Prog → Prog
  | [] => .done
  | p :: ps => p.seq (Prog.all ps)

/-- `mu.Lock(); defer mu.Unlock()` or the same with `RLock` around a body. -/
def Prog.under (l : Lock) (m : Mode) (body : Prog) : Prog := .acq l m (body.seq (.rel l .done))

/-- Methods of a device that take locks. -/
inductive DevCall
  /-- device.go:140-625, the methods starting with `d.mu.RLock()`, among them `ID` and `State`. `EachSensor` and
  `EachRoute` (device.go:298-315) belong here as long as their callback calls no method of device or generator. -/
  | reader (d : Nat)
  /-- device.go:113-600 the methods starting with `d.mu.Lock()`, `FromSnapshot` (device.go:748-779), `mount` and
  `unmount` (device.go:790-808). -/
  | writer (d : Nat)
  /-- device.go:633-692 `Next`. -/
  | next (d : Nat)
  /-- device.go:719-743 `Snapshot`; the lock is taken only if there are sensors. -/
  | snapshot (d : Nat) (sensors : Bool)

/-- The locks of a device method. -/
def DevCall.prog : DevCall → Prog
  | .reader d => .under (.dev d) .read .done
  | .writer d => .under (.dev d) .write .done
  | .next d => .try (.dev d) (.rel (.dev d) .done) .done
  | .snapshot d true => .under (.dev d) .read .done
  | .snapshot _ false => .done

/-- Methods of a generator that take locks; lists of devices are those that the method passes on its way. -/
inductive GenCall
  /-- generator.go:95-101 `HasTracker`, with `find` (generator.go:396-405). -/
  | hasTracker (ds : List Nat)
  /-- generator.go:104-118 `Attach`. -/
  | attach (d : Nat)
  /-- generator.go:121-130 `Detach`, with `delete` (generator.go:385-394). -/
  | detach (ds : List Nat) (found : Option Nat)
  /-- generator.go:134-142 `Each`; the callback calls methods of devices. -/
  | each (body : List DevCall)
  /-- generator.go:146-155 `Lookup`. -/
  | lookup (ds : List Nat)
  /-- generator.go:158-162 `NumDevices`. -/
  | numDevices
  /-- generator.go:165-183 `OnError`, `OnPacket` and `OnNext`. -/
  | onEvent
  /-- generator.go:230-250 one tick of `run` up to the first flush. -/
  | tick (ds : List Nat) (stored : List Nat)
  /-- generator.go:235-250 the rest of the devices after a flush. -/
  | rest (stored : List Nat)
  /-- generator.go:291-294 encoding by a worker. -/
  | encode
  /-- generator.go:377-383 `resetPacket`. -/
  | resetPacket

/-- `g.devices[i].ID()` for each device. -/
def ids (ds : List Nat) : Prog := .all (ds.map fun d => (DevCall.reader d).prog)

/-- generator.go:237-239: storing the states of devices in the packet. -/
def store (ds : List Nat) : Prog := .all (ds.map fun d => .under .packet .write (DevCall.reader d).prog)

/-- The locks of a generator method. -/
def GenCall.prog : GenCall → Prog
  | .hasTracker ds => .under .gen .write (ids ds)
  | .attach d => .under .gen .write (DevCall.writer d).prog
  | .detach ds none => .under .gen .write (ids ds)
  | .detach ds (some d) => .under .gen .write ((ids ds).seq (DevCall.writer d).prog)
  | .each body => .under .gen .read (.all (body.map DevCall.prog))
  | .lookup ds => .under .gen .read (ids ds)
  | .numDevices => .under .gen .read .done
  | .onEvent => .under .gen .write .done
  | .tick ds stored => .under .gen .read ((Prog.all (ds.map fun d => (DevCall.next d).prog)).seq (store stored))
  | .rest stored => .under .gen .read (store stored)
  | .encode => .under .packet .read .done
  | .resetPacket => .under .packet .write .done

/-- Any method. -/
inductive Call
  | dev (c : DevCall)
  | gen (c : GenCall)

/-- The locks of a method. -/
def Call.prog : Call → Prog
  | .dev c => c.prog
  | .gen c => c.prog

/-- A goroutine calling methods one after the other. -/
def calls (cs : List Call) : Prog := .all (cs.map Call.prog)

/-- generator.go:134-142 `Each`, device.go:298-315 `EachSensor` and `EachRoute` with a callback that calls methods of
its own while the lock is held for reading. -/
def callback (l : Lock) (cs : List Call) : Prog := .under l .read (calls cs)

end Locks
end GpsGen
