import Verif.Lemmas.LockOrder

/-!
# C65: the locks of devices and generators never deadlock

Goroutines that call methods of devices and generators, any number of them and any methods, never wait for each other's
locks forever: as long as one is unfinished some goroutine can go on, and after a bounded number of steps all are
finished with no lock held.

Partial: the claim is false for callbacks. `Each`, `EachRoute` and `EachSensor` hold the lock while their callback
runs, so a callback that changes the same device or generator stops forever, and one that only reads it does so when
another goroutine asks for the lock in between. Callbacks of `Generator.Each` that use devices only are fine and
belong to the proved part. Channels are not part of this model (see C39 to C42).
-/

namespace GpsGen
namespace C65
open Locks

/-- Every goroutine has come to its end and holds nothing. -/
def AllDone (s : List Thread) : Prop := ∀ t ∈ s, t.prog = .done ∧ t.held = []

/-- The full claim for goroutines running `ps`: the number of steps is bounded, and while a goroutine is unfinished
somebody can go on. So every execution ends, and it ends with all of them done. -/
def NoDeadlock (ps : List Prog) : Prop :=
  ∃ N, ∀ n s, Steps (start ps) n s → n ≤ N ∧ (AllDone s ∨ ∃ s', Step s s')

/-- Goroutines calling methods, whatever the methods and however they interleave, finish. -/
theorem methods_no_deadlock_partial (gs : List (List Call)) : NoDeadlock (gs.map calls) := by
  refine ⟨((gs.map calls).map ops).sum, fun n s h => ⟨?_, ?_⟩⟩
  · have := steps_left h
    rw [start_left] at this
    omega
  · have ho : AllOrdered s := by
      refine steps_ordered h (start_ordered ?_)
      intro p hp
      obtain ⟨cs, -, rfl⟩ := List.mem_map.mp hp
      exact calls_ordered cs
    by_cases hs : ∃ s', Step s s'
    · exact .inr hs
    · exact .inl (stuck_finished ho fun s' h => hs ⟨s', h⟩)

/-- From any reachable state all goroutines can still be brought to their end. -/
theorem methods_can_finish (gs : List (List Call)) {n s} (h : Steps (start (gs.map calls)) n s) :
    ∃ m s', Steps (start (gs.map calls)) m s' ∧ n ≤ m ∧ AllDone s' := by
  obtain ⟨N, hN⟩ := methods_no_deadlock_partial gs
  obtain ⟨f, hf⟩ : ∃ f, f + n = N := ⟨N - n, Nat.sub_add_cancel (hN n s h).1⟩
  induction f generalizing n s with
  | zero =>
    rcases (hN n s h).2 with hd | ⟨s', hs⟩
    · exact ⟨n, s, h, Nat.le_refl _, hd⟩
    · have := (hN _ _ (.tail h hs)).1
      omega
  | succ f ih =>
    rcases (hN n s h).2 with hd | ⟨s', hs⟩
    · exact ⟨n, s, h, Nat.le_refl _, hd⟩
    · obtain ⟨m, s'', hm, hle, hd⟩ := ih (.tail h hs) (by omega)
      exact ⟨m, s'', hm, by omega, hd⟩

/-- Who holds a lock for writing is the only one to hold it, whatever the goroutines do. -/
theorem writer_alone (ps : List Prog) {n s} (h : Steps (start ps) n s) (i j : Nat) (t u : Thread) (l : Lock) (m : Mode)
    (ht : s[i]? = some t) (hu : s[j]? = some u) (hw : (l, .write) ∈ t.held) (hm : (l, m) ∈ u.held) : i = j :=
  steps_alone h (start_alone ps) i j t u l m ht hu hw hm

/-! ## Callbacks -/

/-- A state reached by steps in which nobody can go on though somebody is unfinished refutes the claim. -/
theorem not_noDeadlock {ps n s} (h : Steps (start ps) n s) (hs : ∀ s', ¬ Step s s') (hd : ¬ AllDone s) :
    ¬ NoDeadlock ps := fun ⟨_, hN⟩ => (hN n s h).2.elim hd fun ⟨s', h⟩ => hs s' h

theorem no_step_write {l : Lock} {k : Prog} (t : Thread) (hp : t.prog = .acq l .write k) (hw : t.waiting = true)
    (hm : (l, .read) ∈ t.held) (s' : List Thread) : ¬ Step [t] s' := by
  intro h
  have one : ∀ {i : Nat} {u : Thread}, [t][i]? = some u → u = t := fun h => by simpa using mem_of_get h
  cases h with
  | rlock h hp' _ => cases one h; rw [hp] at hp'; cases hp'
  | wait h hp' hw' => cases one h; rw [hw] at hw'; cases hw'
  | lock h hp' _ hf =>
    cases one h
    rw [hp] at hp'
    cases hp'
    exact hf ⟨t, List.mem_singleton.mpr rfl, _, hm⟩
  | unlock h hp' => cases one h; rw [hp] at hp'; cases hp'
  | tryOk h hp' _ => cases one h; rw [hp] at hp'; cases hp'
  | tryFail h hp' _ => cases one h; rw [hp] at hp'; cases hp'

/-- A single goroutine whose callback asks for the lock that is held during the callback stops forever. -/
theorem own_lock_stops (l : Lock) (k : Prog) : ¬ NoDeadlock [.acq l .read (.acq l .write k)] := by
  refine not_noDeadlock (n := 2) (s := [⟨.acq l .write k, [(l, .read)], true⟩]) ?_ (no_step_write _ rfl rfl (by simp))
    (fun h => nomatch (h _ (List.mem_singleton.mpr rfl)).1)
  have h1 : Step (start [.acq l .read (.acq l .write k)]) [⟨.acq l .write k, [(l, .read)], false⟩] :=
    Step.rlock (i := 0) (t := ⟨.acq l .read (.acq l .write k), [], false⟩) rfl rfl (by
      intro u hu
      rw [List.mem_singleton.mp hu]
      exact ⟨by simp, fun h => nomatch h.1⟩)
  have h2 : Step [⟨.acq l .write k, [(l, .read)], false⟩] [⟨.acq l .write k, [(l, .read)], true⟩] :=
    Step.wait (i := 0) (t := ⟨.acq l .write k, [(l, .read)], false⟩) rfl rfl rfl
  exact .tail (.tail .refl h1) h2

/-- `EachRoute` or `EachSensor` with a callback that sets an attribute of the device, adds or removes a route or the
like: it never returns. -/
theorem device_callback_writer (d : Nat) (cs : List Call) :
    ¬ NoDeadlock [callback (.dev d) (.dev (.writer d) :: cs)] := own_lock_stops (.dev d) _

/-- `Generator.Each` with a callback that attaches a device, or detaches, or asks `HasTracker`: it never returns. -/
theorem generator_callback_attach (d : Nat) (cs : List Call) :
    ¬ NoDeadlock [callback .gen (.gen (.attach d) :: cs)] := own_lock_stops .gen _

theorem generator_callback_detach (ds : List Nat) (o : Option Nat) (cs : List Call) :
    ¬ NoDeadlock [callback .gen (.gen (.detach ds o) :: cs)] := by
  cases o with
  | none => exact own_lock_stops .gen _
  | some d => exact own_lock_stops .gen _

theorem generator_callback_hasTracker (ds : List Nat) (cs : List Call) :
    ¬ NoDeadlock [callback .gen (.gen (.hasTracker ds) :: cs)] := own_lock_stops .gen _

/-- A reading callback and another goroutine that wants to write the same lock stop each other. -/
theorem reader_and_writer_stop (l : Lock) (k k' : Prog) :
    ¬ NoDeadlock [.acq l .read (.acq l .read k), .acq l .write k'] := by
  have two : ∀ {a b u : Thread} {i : Nat}, [a, b][i]? = some u → (i = 0 ∧ u = a) ∨ (i = 1 ∧ u = b) := by
    intro a b u i h
    match i, h with
    | 0, h => exact .inl ⟨rfl, by simpa using h.symm⟩
    | 1, h => exact .inr ⟨rfl, by simpa using h.symm⟩
  refine not_noDeadlock (n := 2) (s := [⟨.acq l .read k, [(l, .read)], false⟩, ⟨.acq l .write k', [], true⟩]) ?_ ?_
    (fun h => nomatch (h _ (List.mem_cons_self ..)).1)
  · have h1 : Step (start [.acq l .read (.acq l .read k), .acq l .write k'])
        [⟨.acq l .read k, [(l, .read)], false⟩, ⟨.acq l .write k', [], false⟩] :=
      Step.rlock (i := 0) (t := ⟨.acq l .read (.acq l .read k), [], false⟩) rfl rfl (by
        intro u hu
        obtain ⟨p, -, rfl⟩ := List.mem_map.mp hu
        exact ⟨by simp, fun h => nomatch h.1⟩)
    have h2 : Step [⟨.acq l .read k, [(l, .read)], false⟩, ⟨.acq l .write k', [], false⟩]
        [⟨.acq l .read k, [(l, .read)], false⟩, ⟨.acq l .write k', [], true⟩] :=
      Step.wait (i := 1) (t := ⟨.acq l .write k', [], false⟩) rfl rfl rfl
    exact .tail (.tail .refl h1) h2
  · intro s' h
    cases h with
    | rlock h hp hf =>
      rcases two h with ⟨-, rfl⟩ | ⟨-, rfl⟩
      · cases hp
        exact (hf ⟨.acq l .write k', [], true⟩ (by simp)).2 ⟨rfl, k', rfl⟩
      · cases hp
    | wait h hp hw =>
      rcases two h with ⟨-, rfl⟩ | ⟨-, rfl⟩
      · cases hp
      · cases hw
    | lock h hp hw hf =>
      rcases two h with ⟨-, rfl⟩ | ⟨-, rfl⟩
      · cases hp
      · cases hp
        exact hf ⟨⟨.acq l .read k, [(l, .read)], false⟩, by simp, .read, by simp⟩
    | unlock h hp => rcases two h with ⟨-, rfl⟩ | ⟨-, rfl⟩ <;> cases hp
    | tryOk h hp hf => rcases two h with ⟨-, rfl⟩ | ⟨-, rfl⟩ <;> cases hp
    | tryFail h hp hf => rcases two h with ⟨-, rfl⟩ | ⟨-, rfl⟩ <;> cases hp

/-- `EachRoute` with a callback that only reads the device, while another goroutine calls a setter: both stop. -/
theorem device_callback_reader (d : Nat) (cs : List Call) :
    ¬ NoDeadlock [callback (.dev d) (.dev (.reader d) :: cs), calls [.dev (.writer d)]] :=
  reader_and_writer_stop (.dev d) _ _

/-- `Generator.Each` with a callback that calls `Lookup`, while another goroutine attaches a device: both stop. -/
theorem generator_callback_lookup (ds : List Nat) (d : Nat) (cs : List Call) :
    ¬ NoDeadlock [callback .gen (.gen (.lookup ds) :: cs), calls [.gen (.attach d)]] :=
  reader_and_writer_stop .gen _ _

/-- The claim with callbacks included is false. -/
theorem callbacks_deadlock : ¬ ∀ (l : Lock) (cs : List Call), NoDeadlock [callback l cs] :=
  fun h => device_callback_writer 0 [] (h _ _)

/-! ## Examples -/

/-- A tick over two devices, a worker, a goroutine that detaches a device and one that changes it. -/
example : NoDeadlock [calls [.gen (.tick [0, 1] [0, 1]), .gen .resetPacket], calls [.gen .encode],
    calls [.gen (.detach [0, 1] (some 1))], calls [.dev (.writer 1), .dev (.reader 0)]] :=
  methods_no_deadlock_partial [[.gen (.tick [0, 1] [0, 1]), .gen .resetPacket], [.gen .encode],
    [.gen (.detach [0, 1] (some 1))], [.dev (.writer 1), .dev (.reader 0)]]

/-- The locks of `Attach`. -/
example : calls [.gen (.attach 3)]
    = .acq .gen .write (.acq (.dev 3) .write (.rel (.dev 3) (.rel .gen .done))) := rfl

end C65
end GpsGen
