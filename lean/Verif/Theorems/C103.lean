import Verif.Lemmas.LockPanics
import Verif.Theorems.C65
import Verif.Theorems.C58

/-!
# C103: a panic that is recovered leaves devices and generators usable

A method may panic (a bad argument, a callback, one of the panics found elsewhere) and the caller may recover, as the
goroutines of an `http.Server` do. All locks that the method took are then free again: goroutines that go on calling
methods, recovering each time, still never wait for each other forever.

Partial: the claim is false for `Device.Snapshot`, the only method that unlocks without `defer`. If it panics in its
loop over the sensors, and it does when a sensor is added meanwhile (C58), the read lock stays taken for ever. From
then on nobody can change the device, `Next` never gets in, so that the device stands still though the generator runs,
and the first setter that is called waits for ever and takes the generator and all who use it with it.
The model stops at locks: what a panic leaves half done in the data is not covered.
-/

namespace GpsGen
variable {F : Type}

namespace C103
open Locks C65

/-- The full claim for goroutines that make these calls and recover from panics. -/
def Usable (gs : List (List PCall)) : Prop := NoDeadlock (gs.map pcalls)

/-- The call is, or runs in its callback, a `Snapshot` that panics in its loop over the sensors. -/
def LeavesLock : PCall → Prop
  | .dev c => ∃ d, c = .snapshot d true false true
  | .gen (.writer body _) => ∃ d, .snapshot d true false true ∈ body
  | .gen (.reader body _) => ∃ d, .snapshot d true false true ∈ body
  | .own _ => False

theorem dev_safe_iff (c : DevPanic) : c.Safe ↔ ¬ ∃ d, c = .snapshot d true false true := by
  constructor
  · rintro h ⟨d, rfl⟩
    exact h
  · intro h
    rcases c with ⟨d, _ | _⟩ | ⟨d, _ | _⟩ | ⟨d, _ | _⟩ | ⟨d, _ | _, _ | _, _ | _⟩
    case snapshot.true.false.true => exact (h ⟨d, rfl⟩).elim
    all_goals trivial

theorem safe_of (c : PCall) (h : ¬ LeavesLock c) : c.Safe := by
  rcases c with c | ⟨body, p⟩ | c
  · exact (dev_safe_iff c).mpr h
  · exact fun c hc => (dev_safe_iff c).mpr fun ⟨d, e⟩ => h ⟨d, e ▸ hc⟩
  · exact fun c hc => (dev_safe_iff c).mpr fun ⟨d, e⟩ => h ⟨d, e ▸ hc⟩
  · trivial

/-- **C103.** Whatever methods the goroutines call, wherever these panic and however they interleave: all goroutines
come to their end with no lock held, provided that no `Snapshot` panics in its loop over the sensors. -/
theorem recovered_panics_partial (gs : List (List PCall)) (h : ∀ cs ∈ gs, ∀ c ∈ cs, ¬ LeavesLock c) : Usable gs := by
  refine ⟨((gs.map pcalls).map ops).sum, fun n s hs => ⟨?_, ?_⟩⟩
  · have := steps_left hs
    rw [start_left] at this
    omega
  · have ho : AllOrdered s := by
      refine steps_ordered hs (start_ordered ?_)
      intro p hp
      obtain ⟨cs, hcs, rfl⟩ := List.mem_map.mp hp
      exact pcalls_ordered cs fun c hc => safe_of c (h cs hcs c hc)
    by_cases hx : ∃ s', Step s s'
    · exact .inr hx
    · exact .inl (stuck_finished ho fun s' h => hx ⟨s', h⟩)

/-! ## The two models agree -/

/-- Without panics the lock operations are those of C65. -/
theorem calm_reader (d : Nat) : (DevPanic.reader d false).script.recovered = (DevCall.reader d).prog := rfl
theorem calm_writer (d : Nat) : (DevPanic.writer d false).script.recovered = (DevCall.writer d).prog := rfl
theorem calm_next (d : Nat) : (DevPanic.next d false).script.recovered = (DevCall.next d).prog := rfl
theorem calm_snapshot (d : Nat) (b : Bool) :
    (DevPanic.snapshot d b false false).script.recovered = (DevCall.snapshot d b).prog := by cases b <;> rfl

/-- Also a panicking call, other than `Snapshot`, does the same with locks as one that returns. -/
theorem panic_reader (d : Nat) (p : Bool) : (DevPanic.reader d p).script.recovered = (DevCall.reader d).prog := by
  cases p <;> rfl
theorem panic_writer (d : Nat) (p : Bool) : (DevPanic.writer d p).script.recovered = (DevCall.writer d).prog := by
  cases p <;> rfl
theorem panic_next (d : Nat) (p : Bool) : (DevPanic.next d p).script.recovered = (DevCall.next d).prog := by
  cases p <;> rfl

/-- A method of the generator that returns passes all of its devices. -/
theorem calm_each (ds : List Nat) :
    (GenPanic.reader (ds.map fun d => .reader d false) false).script.recovered = (GenCall.lookup ds).prog := by
  have h : ∀ q : Prog, (scriptsThen (ds.map fun d => .reader d false) false).prog [.gen] (fun _ => q)
      = (ids ds).seq (.rel .gen q) := by
    intro q
    induction ds with
    | nil => rfl
    | cons d ds ih =>
      simp only [List.map_cons, scriptsThen, Script.prog, DevPanic.script, rels]
      rw [ih]
      rfl
  exact congrArg (Prog.acq .gen .read) (h .done)

/-! ## A panic in `Snapshot` -/

/-- What is left of a goroutine whose `Snapshot` panicked in the loop: it is finished, or has gone on, with the read lock
in nobody's hands. -/
def ghost (d : Nat) : Thread := ⟨.done, [(.dev d, .read)], false⟩

/-- `Snapshot` with a panic in the loop. -/
def badSnapshot (d : Nat) : PCall := .dev (.snapshot d true false true)

theorem badSnapshot_prog (d : Nat) : pcalls [badSnapshot d] = .acq (.dev d) .read .done := rfl

/-- **C103, negation.** The read lock is never given back. Whatever the goroutines `ps` do: once there is a ghost,
nobody ever holds the write lock of the device any more. So no setter returns and no `Next` gets in. -/
theorem never_written (ps : List Prog) {n m : Nat} {s s' : List Thread} (h : Steps (start ps) n s) {i d : Nat}
    (hi : s[i]? = some (ghost d)) (h' : Steps s m s') : ∀ t ∈ s', (.dev d, .write) ∉ t.held := by
  intro t ht hw
  have hg := steps_dead h' hi rfl
  have ha : Alone s' := steps_alone h' (steps_alone h (start_alone ps))
  obtain ⟨j, hj, e⟩ := List.getElem_of_mem ht
  have hj' : s'[j]? = some t := by rw [List.getElem?_eq_getElem hj, e]
  have : j = i := ha j i t (ghost d) (.dev d) .read hj' hg hw (by simp [ghost])
  subst this
  rw [hj'] at hg
  cases hg
  simp [ghost] at hw

/-- A `Next` (`TryLock`) that comes to its decision fails. -/
theorem next_fails {m : Nat} {s s' : List Thread} {i d : Nat} (hi : s[i]? = some (ghost d))
    (h' : Steps s m s') {j : Nat} {t : Thread} {a b : Prog} (hj : s'[j]? = some t) (hp : t.prog = .try (.dev d) a b) : Step s' (s'.set j ⟨b, t.held, false⟩) ∧
      ∀ s'', Step s' s'' → ∀ u, s''[j]? = some u → u = t ∨ u = ⟨b, t.held, false⟩ := by
  have hg := steps_dead h' hi rfl
  have hheld : Held s' (.dev d) := ⟨_, mem_of_get hg, .read, by simp [ghost]⟩
  refine ⟨.tryFail hj hp (.inl hheld), fun s'' hs u hu => ?_⟩
  cases hs with
  | rlock h1 hp' _ =>
    rcases get_set_cases hu with ⟨rfl, rfl⟩ | ⟨-, hu'⟩
    · rw [hj] at h1; cases h1; rw [hp] at hp'; cases hp'
    · rw [hj] at hu'; cases hu'; exact .inl rfl
  | wait h1 hp' _ =>
    rcases get_set_cases hu with ⟨rfl, rfl⟩ | ⟨-, hu'⟩
    · rw [hj] at h1; cases h1; rw [hp] at hp'; cases hp'
    · rw [hj] at hu'; cases hu'; exact .inl rfl
  | lock h1 hp' _ _ =>
    rcases get_set_cases hu with ⟨rfl, rfl⟩ | ⟨-, hu'⟩
    · rw [hj] at h1; cases h1; rw [hp] at hp'; cases hp'
    · rw [hj] at hu'; cases hu'; exact .inl rfl
  | unlock h1 hp' =>
    rcases get_set_cases hu with ⟨rfl, rfl⟩ | ⟨-, hu'⟩
    · rw [hj] at h1; cases h1; rw [hp] at hp'; cases hp'
    · rw [hj] at hu'; cases hu'; exact .inl rfl
  | tryOk h1 hp' hf =>
    rcases get_set_cases hu with ⟨rfl, rfl⟩ | ⟨-, hu'⟩
    · rw [hj] at h1; cases h1; rw [hp] at hp'; cases hp'; exact absurd hheld hf
    · rw [hj] at hu'; cases hu'; exact .inl rfl
  | tryFail h1 hp' _ =>
    rcases get_set_cases hu with ⟨rfl, rfl⟩ | ⟨-, hu'⟩
    · rw [hj] at h1; cases h1; rw [hp] at hp'; cases hp'; exact .inr rfl
    · rw [hj] at hu'; cases hu'; exact .inl rfl

/-- A goroutine that can do nothing: it is finished, or asks for a lock that is not to be had. -/
def Blocked (s : List Thread) (t : Thread) : Prop :=
  t.prog = .done ∨ (∃ l k, t.prog = .acq l .read k ∧ ∃ u ∈ s, (l, .write) ∈ u.held ∨ u.waits l) ∨
    (∃ l k, t.prog = .acq l .write k ∧ t.waiting = true ∧ Held s l)

theorem blocked_stuck {s : List Thread} (h : ∀ t ∈ s, Blocked s t) (s' : List Thread) : ¬ Step s s' := by
  intro hs
  cases hs with
  | rlock h1 hp hf =>
    rcases h _ (mem_of_get h1) with e | ⟨l, k, e, u, hu, hx⟩ | ⟨l, k, e, _⟩
    · rw [hp] at e; cases e
    · rw [hp] at e; cases e; exact hx.elim (hf u hu).1 (hf u hu).2
    · rw [hp] at e; cases e
  | wait h1 hp hw =>
    rcases h _ (mem_of_get h1) with e | ⟨l, k, e, -⟩ | ⟨l, k, e, hw', -⟩
    · rw [hp] at e; cases e
    · rw [hp] at e; cases e
    · rw [hw] at hw'; cases hw'
  | lock h1 hp hw hf =>
    rcases h _ (mem_of_get h1) with e | ⟨l, k, e, -⟩ | ⟨l, k, e, -, hh⟩
    · rw [hp] at e; cases e
    · rw [hp] at e; cases e
    · rw [hp] at e; cases e; exact hf hh
  | unlock h1 hp =>
    rcases h _ (mem_of_get h1) with e | ⟨l, k, e, -⟩ | ⟨l, k, e, -⟩ <;> (rw [hp] at e; cases e)
  | tryOk h1 hp hf =>
    rcases h _ (mem_of_get h1) with e | ⟨l, k, e, -⟩ | ⟨l, k, e, -⟩ <;> (rw [hp] at e; cases e)
  | tryFail h1 hp hf =>
    rcases h _ (mem_of_get h1) with e | ⟨l, k, e, -⟩ | ⟨l, k, e, -⟩ <;> (rw [hp] at e; cases e)

/-- **C103, negation: a setter.** After the panic a setter never returns, even though nobody else is left. -/
theorem setter_waits (d : Nat) (p : Bool) : ¬ Usable [[badSnapshot d], [.dev (.writer d p)]] := by
  have hp : pcalls [.dev (.writer d p)] = .acq (.dev d) .write (.rel (.dev d) .done) := by cases p <;> rfl
  have he : ([[badSnapshot d], [.dev (.writer d p)]] : List (List PCall)).map pcalls
      = [.acq (.dev d) .read .done, .acq (.dev d) .write (.rel (.dev d) .done)] := by
    rw [List.map_cons, List.map_cons, List.map_nil, hp, badSnapshot_prog]
  unfold Usable
  rw [he]
  refine not_noDeadlock (n := 2) (s := [ghost d, ⟨.acq (.dev d) .write (.rel (.dev d) .done), [], true⟩])
    (.tail (.tail .refl
      (Step.rlock (i := 0) (t := ⟨.acq (.dev d) .read .done, [], false⟩) rfl rfl ?_))
      (Step.wait (i := 1) (t := ⟨.acq (.dev d) .write (.rel (.dev d) .done), [], false⟩) rfl rfl rfl))
    (blocked_stuck ?_) (fun h => nomatch (h _ (List.mem_cons_of_mem _ (List.mem_singleton.mpr rfl))).1)
  · intro u hu
    obtain ⟨q, -, rfl⟩ := List.mem_map.mp hu
    exact ⟨by simp, fun h => nomatch h.1⟩
  · intro t ht
    rcases List.mem_cons.mp ht with rfl | ht
    · exact .inl rfl
    · rw [List.mem_singleton.mp ht]
      exact .inr (.inr ⟨_, _, rfl, rfl, ghost d, List.mem_cons_self .., .read, by simp [ghost]⟩)

/-- The lock operations of a tick with one device. -/
theorem tick_prog (d : Nat) : pcalls [.own (.tick [d] [d])] = .acq .gen .read (.try (.dev d)
    (.rel (.dev d) (.acq .packet .write (.acq (.dev d) .read (.rel (.dev d) (.rel .packet (.rel .gen .done))))))
    (.acq .packet .write (.acq (.dev d) .read (.rel (.dev d) (.rel .packet (.rel .gen .done)))))) := rfl

/-- **C103, negation: the generator.** After the panic, with a setter waiting, a tick of the generator stops in the
middle with its locks taken, and `Attach` of another device and the encoding of a packet wait for it: nobody can go
on any more. -/
theorem generator_stops (d e : Nat) (p : Bool) :
    ¬ Usable [[badSnapshot d], [.dev (.writer d p)], [.own (.tick [d] [d])], [.own (.attach e)], [.own .encode]] := by
  have hp : pcalls [.dev (.writer d p)] = .acq (.dev d) .write (.rel (.dev d) .done) := by cases p <;> rfl
  let w : Prog := .acq (.dev d) .write (.rel (.dev d) .done)
  let st : Prog := .acq (.dev d) .read (.rel (.dev d) (.rel .packet (.rel .gen .done)))
  let tk : Prog := .try (.dev d) (.rel (.dev d) (.acq .packet .write st)) (.acq .packet .write st)
  let at' : Prog := .acq .gen .write (.acq (.dev e) .write (.rel (.dev e) (.rel .gen .done)))
  let en : Prog := .acq .packet .read (.rel .packet .done)
  have he : ([[badSnapshot d], [.dev (.writer d p)], [.own (.tick [d] [d])], [.own (.attach e)], [.own .encode]] :
      List (List PCall)).map pcalls = [.acq (.dev d) .read .done, w, .acq .gen .read tk, at', en] := by
    simp only [List.map_cons, List.map_nil, hp, badSnapshot_prog, tick_prog]
    rfl
  unfold Usable
  rw [he]
  have free : ∀ {s : List Thread} {l : Lock}, (∀ u ∈ s, (l, .write) ∉ u.held ∧ (u.waiting = false ∨
      ∀ k, u.prog ≠ .acq l .write k)) → ∀ u ∈ s, (l, .write) ∉ u.held ∧ ¬ u.waits l := by
    intro s l h u hu
    refine ⟨(h u hu).1, fun ⟨h1, k, h2⟩ => ?_⟩
    rcases (h u hu).2 with h3 | h3
    · rw [h1] at h3; cases h3
    · exact h3 k h2
  have r1 : Step (start [.acq (.dev d) .read .done, w, .acq .gen .read tk, at', en])
      [ghost d, ⟨w, [], false⟩, ⟨.acq .gen .read tk, [], false⟩, ⟨at', [], false⟩, ⟨en, [], false⟩] :=
    Step.rlock (i := 0) (t := ⟨.acq (.dev d) .read .done, [], false⟩) rfl rfl (free (by simp [start]))
  have r2 : Step [ghost d, ⟨w, [], false⟩, ⟨.acq .gen .read tk, [], false⟩, ⟨at', [], false⟩, ⟨en, [], false⟩]
      [ghost d, ⟨w, [], true⟩, ⟨.acq .gen .read tk, [], false⟩, ⟨at', [], false⟩, ⟨en, [], false⟩] :=
    Step.wait (i := 1) (t := ⟨w, [], false⟩) rfl rfl rfl
  have r3 : Step [ghost d, ⟨w, [], true⟩, ⟨.acq .gen .read tk, [], false⟩, ⟨at', [], false⟩, ⟨en, [], false⟩]
      [ghost d, ⟨w, [], true⟩, ⟨tk, [(.gen, .read)], false⟩, ⟨at', [], false⟩, ⟨en, [], false⟩] :=
    Step.rlock (i := 2) (t := ⟨.acq .gen .read tk, [], false⟩) rfl rfl (free (by simp [ghost, w]))
  have r4 : Step [ghost d, ⟨w, [], true⟩, ⟨tk, [(.gen, .read)], false⟩, ⟨at', [], false⟩, ⟨en, [], false⟩]
      [ghost d, ⟨w, [], true⟩, ⟨.acq .packet .write st, [(.gen, .read)], false⟩, ⟨at', [], false⟩, ⟨en, [], false⟩] :=
    Step.tryFail (i := 2) (t := ⟨tk, [(.gen, .read)], false⟩) rfl rfl
      (.inl ⟨ghost d, by simp, .read, by simp [ghost]⟩)
  have r5 : Step
      [ghost d, ⟨w, [], true⟩, ⟨.acq .packet .write st, [(.gen, .read)], false⟩, ⟨at', [], false⟩, ⟨en, [], false⟩]
      [ghost d, ⟨w, [], true⟩, ⟨.acq .packet .write st, [(.gen, .read)], true⟩, ⟨at', [], false⟩, ⟨en, [], false⟩] :=
    Step.wait (i := 2) (t := ⟨.acq .packet .write st, [(.gen, .read)], false⟩) rfl rfl rfl
  have r6 : Step
      [ghost d, ⟨w, [], true⟩, ⟨.acq .packet .write st, [(.gen, .read)], true⟩, ⟨at', [], false⟩, ⟨en, [], false⟩]
      [ghost d, ⟨w, [], true⟩, ⟨st, [(.packet, .write), (.gen, .read)], false⟩, ⟨at', [], false⟩, ⟨en, [], false⟩] :=
    Step.lock (i := 2) (t := ⟨.acq .packet .write st, [(.gen, .read)], true⟩) rfl rfl rfl (by
      rintro ⟨u, hu, m, hm⟩
      simp only [List.mem_cons, List.not_mem_nil, or_false] at hu
      rcases hu with rfl | rfl | rfl | rfl | rfl <;> simp [ghost] at hm)
  have r7 : Step
      [ghost d, ⟨w, [], true⟩, ⟨st, [(.packet, .write), (.gen, .read)], false⟩, ⟨at', [], false⟩, ⟨en, [], false⟩]
      [ghost d, ⟨w, [], true⟩, ⟨st, [(.packet, .write), (.gen, .read)], false⟩, ⟨at', [], true⟩, ⟨en, [], false⟩] :=
    Step.wait (i := 3) (t := ⟨at', [], false⟩) rfl rfl rfl
  refine not_noDeadlock (.tail (.tail (.tail (.tail (.tail (.tail (.tail .refl r1) r2) r3) r4) r5) r6) r7)
    (blocked_stuck ?_) (fun h => nomatch (h ⟨w, [], true⟩ (by simp)).1)
  intro t ht
  simp only [List.mem_cons, List.not_mem_nil, or_false] at ht
  rcases ht with rfl | rfl | rfl | rfl | rfl
  · exact .inl rfl
  · exact .inr (.inr ⟨_, _, rfl, rfl, ghost d, by simp, .read, by simp [ghost]⟩)
  · exact .inr (.inl ⟨_, _, rfl, ⟨w, [], true⟩, by simp, .inr ⟨rfl, _, rfl⟩⟩)
  · exact .inr (.inr ⟨_, _, rfl, rfl, ⟨st, [(.packet, .write), (.gen, .read)], false⟩, by simp, .read, by simp⟩)
  · exact .inr (.inl ⟨_, _, rfl, ⟨st, [(.packet, .write), (.gen, .read)], false⟩, by simp, .inl (by simp)⟩)

/-- A call of `Snapshot` on device `d` whose parts were read at the moments `m`. -/
def snapshotAt [GoFloat F] (d : Nat) (m : SnapMoments F) : PCall :=
  .dev (.snapshot d (!m.count.sensors.isEmpty) false (decide (m.count.sensors.length < m.sensors.sensors.length)))

/-- **C103, exactly.** A `Snapshot` leaves the lock behind if and only if it panics. -/
theorem snapshot_leaves_iff [GoFloat F] (d : Nat) (m : SnapMoments F) :
    LeavesLock (snapshotAt d m) ↔ ¬ C24.Returns m.snapshot := by
  rw [C58.returns_iff]
  unfold LeavesLock snapshotAt
  constructor
  · rintro ⟨d', h⟩
    simp only [DevPanic.snapshot.injEq, decide_eq_true_eq, Bool.not_eq_true', List.isEmpty_eq_false_iff] at h
    rintro (h' | h')
    · exact h.2.1 h'
    · omega
  · intro h
    refine ⟨d, ?_⟩
    have h1 : m.count.sensors ≠ [] := fun e => h (.inl e)
    have h2 : m.count.sensors.length < m.sensors.sensors.length := Nat.lt_of_not_le fun e => h (.inr e)
    simp [h1, h2]

/-- **C103, the claim is false** for every device with a sensor: a sensor added while `Snapshot` runs makes it panic,
and a setter called after that never returns. -/
theorem claim_fails [GoMath F] (d : Device F) (hd : d.sensors ≠ []) (s : Sensor F) (hs : ∀ x ∈ d.sensors, x.id ≠ s.id)
    (i : Nat) : ∃ (hist : List (Device F)) (m : SnapMoments F), hist.head? = some d ∧ C58.History hist ∧
      C58.During hist m ∧ ¬ Usable [[snapshotAt i m], [.dev (.writer i false)]] := by
  obtain ⟨hist, m, h1, h2, h3, h4⟩ := C58.added_sensor_panics d hd s hs
  refine ⟨hist, m, h1, h2, h3, ?_⟩
  obtain ⟨d', e⟩ := (snapshot_leaves_iff i m).mpr h4
  have : snapshotAt i m = badSnapshot i := by
    have e' : d' = i := by
      simp only [DevPanic.snapshot.injEq] at e
      exact e.1.symm
    subst e'
    exact congrArg PCall.dev e
  rw [this]
  exact setter_waits i false

/-! ## Examples -/

/-- A callback of `Each` that panics while it changes a device, a panicking `Next`, a tick and a worker. -/
example : Usable [[.gen (.reader [.reader 0 false, .writer 1 true, .reader 2 false] false), .dev (.next 1 true)],
    [.own (.tick [0, 1] [0, 1]), .own .resetPacket], [.own .encode], [.dev (.snapshot 1 true true false)]] := by
  apply recovered_panics_partial
  intro cs hcs c hc
  simp only [List.mem_cons, List.not_mem_nil, or_false] at hcs
  rcases hcs with rfl | rfl | rfl | rfl <;> simp only [List.mem_cons, List.not_mem_nil, or_false] at hc
  · rcases hc with rfl | rfl <;> simp [LeavesLock]
  · rcases hc with rfl | rfl <;> simp [LeavesLock]
  · subst hc; simp [LeavesLock]
  · subst hc; simp [LeavesLock]

/-- A panic in the callback skips the rest of the callback and frees both locks. -/
example : (GenPanic.reader [.writer 1 true, .reader 2 false] false).script.recovered
    = .acq .gen .read (.acq (.dev 1) .write (.rel (.dev 1) (.rel .gen .done))) := rfl

end C103
end GpsGen
