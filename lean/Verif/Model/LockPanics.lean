import Verif.Model.Locks

/-!
# Locks and panics

A method that panics runs its deferred calls and hands the panic to its caller; statements after the panic are
skipped, also an `Unlock` without `defer`. A goroutine that recovers (as the one of an `http.Server` handler does) goes
on with its next call. Each method of `Device` and `Generator` is reduced to the locks it takes, the `defer`s, and the
places where it computes, each of which may panic. Simplification: `sync` itself does not panic; the goroutines of the
generator have no `recover`, so that a panic there ends the process and they appear here without panics.
-/

namespace GpsGen
namespace Locks

/-- The body of a method. `work` is a computation or a callback, with `true` if it panics; `dfr` is
`defer mu.Unlock()` or `defer mu.RUnlock()`; `call` runs another method. -/
inductive Script
  | done
  | work (panics : Bool) (k : Script)
  | acq (l : Lock) (m : Mode) (k : Script)
  | dfr (l : Lock) (k : Script)
  | rel (l : Lock) (k : Script)
  | try (l : Lock) (ok fail : Script)
  | call (body k : Script)

/-- The deferred unlocks, the last one first. -/
def rels : List Lock → Prog → Prog
  | [], k => k
  | l :: ls, k => .rel l (rels ls k)

/-- The lock operations of a method with the unlocks `ds` deferred so far, followed by `ret`, which is told whether
the method panicked. -/
def Script.prog : Script → List Lock → (Bool → Prog) → Prog
  | .done, ds, ret => rels ds (ret false)
  | .work true _, ds, ret => rels ds (ret true)
  | .work false k, ds, ret => k.prog ds ret
  | .acq l m k, ds, ret => .acq l m (k.prog ds ret)
  | .dfr l k, ds, ret => k.prog (l :: ds) ret
  | .rel l k, ds, ret => .rel l (k.prog ds ret)
  | .try l a b, ds, ret => .try l (a.prog ds ret) (b.prog ds ret)
  | .call body k, ds, ret => body.prog [] fun
    | true => rels ds (ret true)
    | false => k.prog ds ret

/-- A call whose panic is recovered. -/
def Script.recovered (s : Script) : Prog := s.prog [] fun _ => .done

/-! ## The methods -/

/-- Methods of a device, with the places where they panic. -/
inductive DevPanic
  /-- device.go:140-625, the methods starting with `d.mu.RLock(); defer d.mu.RUnlock()`, among them `EachSensor` and
  `EachRoute` (device.go:298-315) with a callback that may panic. -/
  | reader (d : Nat) (p : Bool)
  /-- device.go:113-600 the methods starting with `d.mu.Lock(); defer d.mu.Unlock()`, `FromSnapshot`
  (device.go:748-779), `mount` and `unmount` (device.go:790-808). -/
  | writer (d : Nat) (p : Bool)
  /-- device.go:633-692 `Next`. -/
  | next (d : Nat) (p : Bool)
  /-- device.go:719-743 `Snapshot`: `p` before the lock is asked for, `q` in the loop over the sensors. -/
  | snapshot (d : Nat) (sensors : Bool) (p q : Bool)

/-- The body of a device method. -/
def DevPanic.script : DevPanic → Script
  | .reader d p => .acq (.dev d) .read (.dfr (.dev d) (.work p .done))
  | .writer d p => .acq (.dev d) .write (.dfr (.dev d) (.work p .done))
  | .next d p => .try (.dev d) (.dfr (.dev d) (.work p .done)) .done
  | .snapshot d true p q => .work p (.acq (.dev d) .read (.work q (.rel (.dev d) .done)))
  | .snapshot _ false p _ => .work p .done

/-- Methods of a generator; lists of devices are those that the method passes on its way, with the calls that
panic. -/
inductive GenPanic
  /-- generator.go:95-101 `HasTracker`, 165-183 `OnError`, `OnPacket` and `OnNext`, 104-118 `Attach` with `mount`,
  121-130 `Detach` with `delete` (385-394) and `unmount`: calls of devices under the write lock. -/
  | writer (body : List DevPanic) (p : Bool)
  /-- generator.go:134-142 `Each`, whose callback calls methods of devices and may panic, 146-155 `Lookup`, 158-162
  `NumDevices`. -/
  | reader (body : List DevPanic) (p : Bool)

/-- After the calls of devices the method computes. -/
def scriptsThen : List DevPanic → Bool → Script
  | [], p => .work p .done
  | c :: cs, p => .call c.script (scriptsThen cs p)

/-- The body of a generator method. -/
def GenPanic.script : GenPanic → Script
  | .writer body p => .acq .gen .write (.dfr .gen (scriptsThen body p))
  | .reader body p => .acq .gen .read (.dfr .gen (scriptsThen body p))

/-- A call of a method, recovered if it panics, or one of the parts of the generator's own goroutines, which do not
recover. -/
inductive PCall
  | dev (c : DevPanic)
  | gen (c : GenPanic)
  | own (c : GenCall)

/-- The lock operations of a call. -/
def PCall.prog : PCall → Prog
  | .dev c => c.script.recovered
  | .gen c => c.script.recovered
  | .own c => c.prog

/-- A goroutine that makes calls one after the other and recovers from panics. -/
def pcalls (cs : List PCall) : Prog := .all (cs.map PCall.prog)

end Locks
end GpsGen
