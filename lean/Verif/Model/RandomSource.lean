/-!
# The random sources of the package

random/random.go: `Random` guards a `rand.Rand` by a mutex; `defaultRnd` (random/random.go:9) and `rnd` of package curve
(curve/curve.go:17) are shared by all goroutines of a program. Goroutines are interleaved by a schedule, which names the
goroutine that takes the next step. Simplifications: what `rand.Rand` computes is a parameter (`Source`); a call of it
reads the state of the source in one step and writes the new state in another one; the mutex is handed to whichever
goroutine asks for it first. The panic of `rand.Rand.Intn` for `n ≤ 0` is a call without value that leaves the state as
it is; the goroutine recovers and goes on.
-/

namespace GpsGen
namespace RandomSource

/-- random/random.go:22-38 the methods `Intn`, `Float64` and `ExpFloat64`. -/
inductive Call
  | intn (n : Int)
  | float
  | expFloat
deriving Repr, DecidableEq

/-- random/random.go:11-14 the field `rnd`: what a call returns, and the state it leaves; `none` if it panics. -/
structure Source (σ α : Type) where
  draw : Call → σ → Option (α × σ)

/-- Where a goroutine is within random/random.go:22-38. `ready` is before `r.mu.Lock()`, `locked` after it, `loaded` in
`r.rnd` after the state was read, and `drawn` after the call of `r.rnd` returned or panicked, when the deferred
`r.mu.Unlock()` is still to run. -/
inductive Pc (σ α : Type)
  | ready
  | locked
  | loaded (s : σ)
  | drawn (v : Option α)
deriving Repr, DecidableEq

/-- A goroutine: the calls it has still to make, each with the number of the source, and what the calls made so far
returned. During a call, this call is the first one of `todo`. -/
structure Gor (σ α : Type) where
  todo : List (Nat × Call)
  pc : Pc σ α := .ready
  got : List (Option α) := []

/-- The sources with their mutexes (random/random.go:11-14), and the goroutines. `owner k` holds the mutex of the source
`k`. -/
structure World (σ α : Type) where
  state : Nat → σ
  owner : Nat → Option Nat := fun _ => none
  gors : Nat → Gor σ α

variable {σ α β : Type}

/-- The function `f`, but `v` at `i`. -/
def put (f : Nat → β) (i : Nat) (v : β) : Nat → β := fun j => if j = i then v else f j

/-- random/random.go:22-38 one step of the goroutine `g`: lines 23, 29 and 35 (`Lock`), the call of `r.rnd` in two steps
(lines 25, 31 and 37), and the deferred `Unlock` of lines 24, 30 and 36 with the `return`. A goroutine that waits for the
mutex, or has no more calls, does nothing. -/
def step (src : Source σ α) (w : World σ α) (g : Nat) : World σ α :=
  let r := w.gors g
  match r.todo with
  | [] => w
  | (k, c) :: rest =>
    match r.pc with
    | .ready =>
      match w.owner k with
      | some _ => w
      | none => { w with owner := put w.owner k (some g), gors := put w.gors g { r with pc := .locked } }
    | .locked => { w with gors := put w.gors g { r with pc := .loaded (w.state k) } }
    | .loaded s =>
      match src.draw c s with
      | none => { w with gors := put w.gors g { r with pc := .drawn none } }
      | some (v, s') =>
        { w with state := put w.state k s', gors := put w.gors g { r with pc := .drawn (some v) } }
    | .drawn v =>
      { w with
        owner := put w.owner k none
        gors := put w.gors g { todo := rest, pc := .ready, got := r.got ++ [v] } }

/-- A program: the goroutines take steps in the order of the schedule. -/
def exec (src : Source σ α) (w : World σ α) (sched : List Nat) : World σ α := sched.foldl (step src) w

/-- The beginning of a program: nobody holds a mutex, and every goroutine has its calls ahead. -/
def start (s : Nat → σ) (prog : Nat → List (Nat × Call)) : World σ α :=
  { state := s, gors := fun g => { todo := prog g } }

end RandomSource
end GpsGen
