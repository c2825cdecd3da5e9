import Verif.Lemmas.DeviceReal
import Verif.Lemmas.Toy
/-!
# C34: simulated time is conserved

Over ℝ, any device returned by `NewDevice`, any history of operations. A call to `Next` may find the
device locked; it then only counts. The claim "duration plus pending time is the sum of all ticks since
the last finish" is false in four cases (negations below): a locked call counts one second whatever its
tick is, a call on a device without routes loses its tick, the counter wraps after 2^32 locked calls, and
a locked call that runs between the read and the reset of the counter in `Next` is lost.
`time_conserved_partial` excludes exactly these: its operations are atomic, so the fourth case is stated on
a separate machine for the counter, `Counter`.
-/

namespace GpsGen
namespace C34
open Device Navigator

/-- A client call: `Next` with its tick, which finds the device locked or not, or something else. -/
inductive Call where
  | next (tick : ℝ) (locked : Bool) (rnd : NextRnd ℝ)
  | other (op : DevOp ℝ)

/-- The operation that a call performs. -/
def Call.op : Call → DevOp ℝ
  | .next t false rnd => .next t rnd
  | .next _ true _ => .skipTick
  | .other op => op

/-- Operations other than `Next` and restoring a snapshot. -/
def Plain {F : Type} : DevOp F → Prop
  | .next _ _ => False
  | .skipTick => False
  | .fromSnapshot _ => False
  | _ => True

/-- In this call to `Next` the navigator reports that the trip is finished. -/
def Finishes {F : Type} [GoMath F] (d : Device F) (t : F) (rnd : NextRnd F) : Prop :=
  ∃ n1 n2 speed, d.powered (d.seconds t) rnd.low = .ok n1 ∧
    d.speed.next (d.phase (d.seconds t)) = .ok speed ∧
    n1.nextLocation (d.seconds t) speed.value rnd.loc = .ok (n2, false) ∧ n2.isFinish.2 = true

/-- The sum of the ticks since the last finish, as the client counts them. -/
inductive Elapsed : Device ℝ → ℝ → Call → ℝ → Prop
  | locked {d e t rnd} : Elapsed d e (.next t true rnd) (e + t)
  | finish {d e t rnd} (h : d.navigator.routes ≠ []) (hf : Finishes d t rnd) :
      Elapsed d e (.next t false rnd) 0
  | tick {d e t rnd} (h : d.navigator.routes ≠ []) (hf : ¬ Finishes d t rnd) :
      Elapsed d e (.next t false rnd) (e + t)
  | other {d e op} (h : Plain op) : Elapsed d e (.other op) e

/-- A device with a history of calls, with the client's account of the time. Locked calls have a tick
of one second and the counter does not wrap. `Next` is called on devices with routes. -/
inductive Timed : Device ℝ → ℝ → Prop
  | new {rnd opts d} (h : Device.new rnd opts = .ok d) : Timed d 0
  | step {d e c d' e'} (hd : Timed d e) (he : Elapsed d e c e') (h : d.step c.op = .ok d')
      (h1 : ∀ t rnd, c = .next t true rnd → t = 1 ∧ d.tick.toNat + 1 < 2 ^ 32) : Timed d' e'

/-! ## Proof -/

theorem plain_frame {F : Type} [GoMath F] {d d' : Device F} {op : DevOp F} (hp : Plain op) (hs : d.step op = .ok d') :
    d'.state.duration = d.state.duration ∧ d'.tick = d.tick := by
  cases op with
  | addRoute rs =>
    cases hs
    unfold Device.addRoute
    cases d.navigator.addRoute rs with
    | mk n err => cases err <;> exact ⟨rfl, rfl⟩
  | removeRoute id =>
    cases hs
    unfold Device.removeRoute
    cases d.navigator.removeRoute id with
    | mk n ok => cases ok <;> exact ⟨rfl, rfl⟩
  | removeTrack rid tid =>
    cases hs
    unfold Device.removeTrack
    cases d.navigator.removeTrack rid tid with
    | mk n ok => cases ok <;> exact ⟨rfl, rfl⟩
  | resetRoutes =>
    cases hs
    unfold Device.resetRoutes
    cases d.navigator.resetRoutes with
    | mk n ok => cases ok <;> exact ⟨rfl, rfl⟩
  | move m =>
    obtain ⟨n, hn, rfl⟩ := map_eq_ok hs
    exact ⟨rfl, rfl⟩
  | onRoute i rop => cases hs; exact ⟨rfl, rfl⟩
  | addSensor ss =>
    cases hs
    unfold addSensor
    split
    · exact ⟨rfl, rfl⟩
    · simp only
      split <;> exact ⟨rfl, rfl⟩
  | removeSensor id =>
    cases hs
    unfold removeSensor
    split
    · exact ⟨rfl, rfl⟩
    · simp only
      split <;> exact ⟨rfl, rfl⟩
  | resetSensors => cases hs; exact ⟨rfl, rfl⟩
  | sensorNext i t =>
    simp only [Device.step, onSensorNext] at hs
    split at hs
    · cases hs; exact ⟨rfl, rfl⟩
    · obtain ⟨y, _, hs⟩ := bind_eq_ok hs
      cases hs
      exact ⟨rfl, rfl⟩
  | sensorShuffle i draws => cases hs; exact ⟨rfl, rfl⟩
  | next t rnd => exact hp.elim
  | skipTick => exact hp.elim
  | update =>
    obtain ⟨st, h1, rfl⟩ := update_eq hs
    exact ⟨(nav_update_frame h1).2.2.2.1, rfl⟩
  | setModel m =>
    cases hs
    unfold setModel
    cases newModel m <;> exact ⟨rfl, rfl⟩
  | setUserID m => cases hs; exact ⟨rfl, rfl⟩
  | setDescription m => cases hs; exact ⟨rfl, rfl⟩
  | setColor c => cases hs; cases c <;> exact ⟨rfl, rfl⟩
  | fromSnapshot m => exact hp.elim

/-- `Next` on a device with routes either finishes the trip or adds the pending seconds and the tick;
it always clears the counter. Any number type. -/
theorem next_time_any {F : Type} [GoMath F] {d d' : Device F} {t : F} {rnd : NextRnd F} {b : Bool}
    (h : d.next t rnd = .ok (d', b)) (hr : d.navigator.routes ≠ []) :
    d'.tick = 0 ∧ (Finishes d t rnd → d'.state.duration = lit 0) ∧
    (¬ Finishes d t rnd → d'.state.duration = d.state.duration +. d.seconds t) := by
  cases next_outcome h with
  | idle h0 => exact absurd h0 hr
  | halted hr n1 n2 speed h1 h2 h3 h4 =>
    refine ⟨rfl, ?_, fun _ => rfl⟩
    rintro ⟨m1, m2, sp, g1, g2, g3, g4⟩
    rw [h1] at g1; cases g1
    rw [h2] at g2; cases g2
    rw [h3] at g3; cases g3
    rw [h4] at g4; cases g4
  | lap hr n1 n2 speed _ h1 h2 h3 h4 h5 =>
    obtain ⟨st, h6, rfl⟩ := updateState_eq h5
    refine ⟨rfl, fun _ => ?_, fun hn => absurd ⟨n1, n2, speed, h1, h2, h3, h4⟩ hn⟩
    exact (nav_update_frame h6).2.2.2.1
  | moved hr n1 n2 n3 speed sensors d2 _ h1 h2 h3 h4 h5 hd2 h6 =>
    obtain ⟨st, h7, rfl⟩ := updateState_eq h6
    have h8 := (nav_update_frame h7).2.2.2.1
    refine ⟨?_, ?_, fun _ => ?_⟩
    · subst hd2
      simp only [refreshed]
      split <;> rfl
    · rintro ⟨m1, m2, sp, g1, g2, g3, g4⟩
      rw [h1] at g1; cases g1
      rw [h2] at g2; cases g2
      rw [h3] at g3; cases g3
    · refine h8.trans ?_
      subst hd2
      split <;> rfl

theorem next_time {d d' : Device ℝ} {t : ℝ} {rnd : NextRnd ℝ} {b : Bool}
    (h : d.next t rnd = .ok (d', b)) (hr : d.navigator.routes ≠ []) :
    d'.tick = 0 ∧ (Finishes d t rnd → d'.state.duration = 0) ∧
    (¬ Finishes d t rnd → d'.state.duration = d.state.duration + d.tick.toNat + t) := by
  obtain ⟨a1, a2, a3⟩ := next_time_any h hr
  refine ⟨a1, fun hf => (a2 hf).trans (by simp), fun hf => (a3 hf).trans ?_⟩
  unfold seconds
  simp [add_assoc]

/-- **C34.** The duration plus the pending seconds is the client's account of the time. -/
theorem time_conserved_partial (d : Device ℝ) (e : ℝ) (h : Timed d e) :
    d.state.duration + d.tick.toNat = e := by
  induction h with
  | new h =>
    obtain ⟨_, _, _, st, -, -, -, h2, rfl⟩ := Device.new_eq h
    obtain ⟨_, _, rfl, -⟩ := applyFor_eq h2
    simp [DevState.init]
  | @step d e c d' e' _ he h h1 ih =>
    cases he with
    | @locked t rnd =>
      obtain ⟨rfl, hw⟩ := h1 t rnd rfl
      cases h
      show d.state.duration + ((d.tick + 1).toNat : ℝ) = e + 1
      have : (d.tick + 1).toNat = d.tick.toNat + 1 := by
        rw [UInt32.toNat_add]
        exact Nat.mod_eq_of_lt hw
      rw [this, ← ih]
      push_cast
      ring
    | @finish t rnd hr hf =>
      obtain ⟨⟨x, b⟩, hn, hx⟩ := map_eq_ok h
      cases hx
      obtain ⟨a1, a2, -⟩ := next_time hn hr
      show x.state.duration + (x.tick.toNat : ℝ) = 0
      rw [a1, a2 hf]
      simp
    | @tick t rnd hr hf =>
      obtain ⟨⟨x, b⟩, hn, hx⟩ := map_eq_ok h
      cases hx
      obtain ⟨a1, -, a3⟩ := next_time hn hr
      show x.state.duration + (x.tick.toNat : ℝ) = e + t
      rw [a1, a3 hf, ← ih]
      simp
    | other hp =>
      obtain ⟨a1, a2⟩ := plain_frame hp h
      rw [a1, a2, ih]

/-- After a successful or offline `Next` nothing is pending: the whole time is published. -/
theorem nothing_pending {d d' : Device ℝ} {t : ℝ} {rnd : NextRnd ℝ} {b : Bool}
    (h : d.next t rnd = .ok (d', b)) (hr : d.navigator.routes ≠ []) : d'.tick = 0 := (next_time h hr).1

/-- **Negation 1.** A locked call accounts for one second, whatever its tick is. -/
theorem locked_call_counts_one (d : Device ℝ) (hw : d.tick.toNat + 1 < 2 ^ 32) (t : ℝ) (rnd : NextRnd ℝ) :
    ∃ d', d.step (Call.next t true rnd).op = .ok d' ∧
      d'.state.duration + d'.tick.toNat = d.state.duration + d.tick.toNat + 1 := by
  refine ⟨_, rfl, ?_⟩
  show d.state.duration + ((d.tick + 1).toNat : ℝ) = _
  have : (d.tick + 1).toNat = d.tick.toNat + 1 := by
    rw [UInt32.toNat_add]
    exact Nat.mod_eq_of_lt hw
  rw [this]
  push_cast
  ring

/-- **Negation 2.** On a device without routes the tick of `Next` is lost. -/
theorem idle_call_loses_tick (d : Device ℝ) (hr : d.navigator.routes = []) (t : ℝ) (rnd : NextRnd ℝ) :
    d.step (Call.next t false rnd).op = .ok d := by
  show (d.next t rnd).map (·.1) = .ok d
  unfold Device.next
  rw [if_pos (by rw [hr]; rfl)]
  rfl

/-- **Negation 3.** The 2^32nd locked call loses all pending time. -/
theorem counter_wraps (d : Device ℝ) (ht : d.tick.toNat = 2 ^ 32 - 1) (t : ℝ) (rnd : NextRnd ℝ) :
    ∃ d', d.step (Call.next t true rnd).op = .ok d' ∧ d'.tick = 0 ∧
      d'.state.duration = d.state.duration := by
  refine ⟨_, rfl, ?_, rfl⟩
  show d.tick + 1 = 0
  apply UInt32.toNat_inj.mp
  rw [UInt32.toNat_add, ht]
  rfl

/-- The counter of `device.go` 645-647 and 811-817 as its atomic accesses: `Next` loads the counter and
later stores zero, a locked call adds one. `seen` is what `Next` has loaded, `done` what it has accounted
for. -/
structure Counter where
  tick : UInt32 := 0
  seen : Option UInt32 := none
  done : Nat := 0

/-- `load`: 645; `store`: `resetTick`; `inc`: `incTick`. -/
inductive Access where
  | load | store | inc

/-- One access. -/
def Counter.step (c : Counter) : Access → Counter
  | .load => { c with seen := some c.tick }
  | .store =>
    match c.seen with
    | some k => { tick := 0, seen := none, done := c.done + k.toNat }
    | none => c
  | .inc => { c with tick := c.tick + 1 }

/-- Number of locked calls in a schedule. -/
def incs (l : List Access) : Nat := l.countP fun | .inc => true | _ => false

/-- No locked call runs between the load and the store. -/
def Undisturbed : Bool → List Access → Prop
  | _, [] => True
  | _, .load :: l => Undisturbed true l
  | _, .store :: l => Undisturbed false l
  | b, .inc :: l => b = false ∧ Undisturbed b l

theorem counter_inv (l : List Access) : ∀ (c : Counter) (b : Bool), Undisturbed b l →
    (c.seen ≠ none → b = true) → (∀ k, c.seen = some k → k = c.tick) →
    c.tick.toNat + incs l < 2 ^ 32 →
    (l.foldl Counter.step c).done + (l.foldl Counter.step c).tick.toNat = c.done + c.tick.toNat + incs l := by
  induction l with
  | nil => intro c b _ _ _ _; simp [incs]
  | cons a l ih =>
    intro c b hu hb hs hw
    cases a with
    | load =>
      have e : incs (.load :: l) = incs l := by simp [incs]
      rw [e] at hw ⊢
      exact ih (c.step .load) true hu (fun _ => rfl) (fun k hk => by cases hk; rfl) hw
    | store =>
      have e : incs (.store :: l) = incs l := by simp [incs]
      rw [e] at hw ⊢
      rw [List.foldl_cons]
      cases h : c.seen with
      | none =>
        have hc : c.step .store = c := by simp [Counter.step, h]
        rw [hc]
        exact ih c false hu (fun hn => absurd h hn) hs hw
      | some k =>
        have hk := hs k h
        subst hk
        have hc : c.step .store = { tick := 0, seen := none, done := c.done + c.tick.toNat } := by
          simp [Counter.step, h]
        rw [hc]
        have := ih { tick := 0, seen := none, done := c.done + c.tick.toNat } false hu (fun hn => absurd rfl hn)
          (fun _ hk => by cases hk) (by simp only [UInt32.toNat_zero]; omega)
        simpa using this
    | inc =>
      have e : incs (.inc :: l) = incs l + 1 := by simp [incs]
      rw [e] at hw ⊢
      have hn : c.seen = none := by
        cases h : c.seen with
        | none => rfl
        | some k =>
          have := hb (by rw [h]; simp)
          rw [hu.1] at this
          cases this
      have ht : (c.tick + 1).toNat = c.tick.toNat + 1 := by
        rw [UInt32.toNat_add]
        exact Nat.mod_eq_of_lt (by show c.tick.toNat + 1 < 2 ^ 32; omega)
      rw [List.foldl_cons]
      have := ih (c.step .inc) b hu.2 hb (fun k hk => by
        have : c.seen = some k := hk
        rw [hn] at this; cases this) (by show (c.tick + 1).toNat + incs l < _; rw [ht]; omega)
      rw [this]
      show c.done + (c.tick + 1).toNat + incs l = _
      rw [ht]
      omega

/-- Every locked call is accounted for or pending, if none runs between the load and the store. -/
theorem counter_conserved_partial (l : List Access) (hu : Undisturbed false l) (hw : incs l < 2 ^ 32) :
    (l.foldl Counter.step {}).done + (l.foldl Counter.step {}).tick.toNat = incs l := by
  have := counter_inv l {} false hu (fun h => absurd rfl h) (fun _ h => by cases h)
    (by simp only [UInt32.toNat_zero]; omega)
  simpa using this

/-- **Negation 4.** A locked call between the load and the store is lost. -/
theorem disturbed_call_lost (c : Counter) :
    (([.load, .inc, .store] : List Access).foldl Counter.step c) =
      (([.load, .store] : List Access).foldl Counter.step c) := rfl

example : let c := ([.inc, .load, .store, .inc, .inc] : List Access).foldl Counter.step {}
    (c.done, c.tick) = (1, 2) := by decide +kernel

/-! Non-vacuity, on rationals: two effective ticks, two locked calls, one more tick. -/

example : (Toy.dev [.addRoute [some Toy.route], .next (Toy.of 1) Toy.nextRnd, .skipTick, .skipTick]).map
    (fun d => (d.state.duration.val, d.tick)) = some (1, 2) := by decide +kernel

example : (Toy.dev [.addRoute [some Toy.route], .next (Toy.of 1) Toy.nextRnd, .skipTick, .skipTick,
    .next (Toy.of (1/2)) Toy.nextRnd]).map
    (fun d => (d.state.duration.val, d.tick)) = some (7/2, 0) := by decide +kernel

end C34
end GpsGen
