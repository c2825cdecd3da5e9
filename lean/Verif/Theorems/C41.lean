import Verif.Lemmas.GenMeasure
/-!
# C41: the generator never deadlocks while running

Every interleaving of the run loop, the workers, the notifier, the ticker and clients that attach and
detach devices, for every number of workers (at least one), packet size and number of devices.
-/

namespace GpsGen
namespace C41
open Run

/-! ## Specification -/

/-- Some goroutine of the generator can take a step. -/
def CanStep (c : Cfg) (s : GS) : Prop := ∃ a s', a.internal = true ∧ fire c s a = some s'

/-- Everything waits for the next tick: nothing is in flight, and all ticks begun are completed and
announced. -/
structure Quiescent (s : GS) : Prop where
  run : s.run = .idle
  workers : ∀ w ∈ s.workers, w = .wait
  notifier : s.notifier = .wait
  slices : s.sliceCh = []
  answers : s.waitCh = 0
  notification : s.nextCh = false
  complete : s.ticks = s.clock
  announced : s.announced = s.ticks

/-! ## Invariants -/

/-- The run loop is between the start and the end of a tick. -/
def inTick : RPC → Bool
  | .idle | .ticked | .fin | .done => false
  | _ => true

/-- What holds while the generator is open. -/
structure Open (s : GS) : Prop where
  run : s.run ≠ .fin ∧ s.run ≠ .done
  notifier : s.notifier ≠ .done
  ticks : s.clock = s.ticks + (if inTick s.run then 1 else 0)
  announced : s.ticks = s.announced ∨ s.nextCh = true ∨ s.notifier = .got

theorem inTick_enter (c : Cfg) (i : Nat) (k : Option Nat) : inTick (c.enter i k) = true := by
  unfold Cfg.enter; split <;> rfl

theorem inTick_after (k : Option Nat) : inTick (RPC.after k) = true := by cases k <;> rfl

theorem open_run {c : Cfg} {s s' : GS} (h : Open s) (ho : s.closed = false) (hs : runStep c s = some s') :
    Open s' := by
  obtain ⟨h1, h2, h3, h4⟩ := h
  have mk : s'.notifier = s.notifier → s'.announced = s.announced →
      (s'.ticks = s.ticks ∧ s'.nextCh = s.nextCh ∨ s'.nextCh = true) →
      s'.clock = s'.ticks + (if inTick s'.run then 1 else 0) →
      (s'.run ≠ .fin ∧ s'.run ≠ .done) → Open s' := by
    intro e1 e2 e3 e4 e5
    refine ⟨e5, by rw [e1]; exact h2, e4, ?_⟩
    rcases e3 with ⟨k1, k2⟩ | k
    · rw [k1, k2, e1, e2]; exact h4
    · exact Or.inr (Or.inl k)
  have ne : ∀ k, RPC.after k ≠ .fin ∧ RPC.after k ≠ .done := by intro k; cases k <;> exact ⟨nofun, nofun⟩
  have nen : ∀ i k, c.enter i k ≠ .fin ∧ c.enter i k ≠ .done := by
    intro i k; unfold Cfg.enter; split <;> exact ⟨nofun, nofun⟩
  unfold runStep at hs
  cases hr : s.run with
  | idle => rw [hr] at hs; simp [ho] at hs
  | ticked =>
    rw [hr] at hs h3
    simp only [ho] at hs
    cases hs
    exact mk rfl rfl (Or.inl ⟨rfl, rfl⟩) (by simpa [inTick] using h3) ⟨nofun, nofun⟩
  | adv i =>
    rw [hr] at hs h3
    simp only at hs
    split at hs <;> cases hs
    · exact mk rfl rfl (Or.inl ⟨rfl, rfl⟩) h3 ⟨nofun, nofun⟩
    · exact mk rfl rfl (Or.inl ⟨rfl, rfl⟩) h3 ⟨nofun, nofun⟩
  | fill i =>
    rw [hr] at hs h3
    simp only at hs
    split at hs
    · split at hs
      · split at hs <;> cases hs
        · exact mk rfl rfl (Or.inl ⟨rfl, rfl⟩) (by rw [h3, inTick_enter]; rfl) (nen _ _)
        · exact mk rfl rfl (Or.inl ⟨rfl, rfl⟩) h3 ⟨nofun, nofun⟩
      · cases hs
    · cases hs
      exact mk rfl rfl (Or.inl ⟨rfl, rfl⟩) (by rw [h3, inTick_enter]; rfl) (nen _ _)
  | fsend k =>
    rw [hr] at hs h3
    simp only at hs
    split at hs <;> cases hs
    exact mk rfl rfl (Or.inl ⟨rfl, rfl⟩) h3 ⟨nofun, nofun⟩
  | fcheck k =>
    rw [hr] at hs h3
    simp only [ho] at hs
    cases hs
    exact mk rfl rfl (Or.inl ⟨rfl, rfl⟩) h3 ⟨nofun, nofun⟩
  | fwait k =>
    rw [hr] at hs h3
    simp only at hs
    split at hs <;> cases hs
    exact mk rfl rfl (Or.inl ⟨rfl, rfl⟩) (by rw [h3, inTick_after]; rfl) (ne _)
  | mcheck k i =>
    rw [hr] at hs h3
    simp only [ho] at hs
    split at hs <;> cases hs
    · exact mk rfl rfl (Or.inl ⟨rfl, rfl⟩) h3 ⟨nofun, nofun⟩
    · exact mk rfl rfl (Or.inl ⟨rfl, rfl⟩) h3 ⟨nofun, nofun⟩
  | msend k i =>
    rw [hr] at hs h3
    simp only at hs
    split at hs <;> cases hs
    exact mk rfl rfl (Or.inl ⟨rfl, rfl⟩) h3 ⟨nofun, nofun⟩
  | wcheck k j =>
    rw [hr] at hs h3
    simp only [ho] at hs
    split at hs <;> cases hs
    · exact mk rfl rfl (Or.inl ⟨rfl, rfl⟩) h3 ⟨nofun, nofun⟩
    · exact mk rfl rfl (Or.inl ⟨rfl, rfl⟩) (by rw [h3, inTick_after]; rfl) (ne _)
  | mwait k j =>
    rw [hr] at hs h3
    simp only at hs
    split at hs <;> cases hs
    exact mk rfl rfl (Or.inl ⟨rfl, rfl⟩) h3 ⟨nofun, nofun⟩
  | relock i =>
    rw [hr] at hs h3
    cases hs
    exact mk rfl rfl (Or.inl ⟨rfl, rfl⟩) h3 ⟨nofun, nofun⟩
  | reset =>
    rw [hr] at hs h3
    simp only at hs
    split at hs <;> cases hs
    exact mk rfl rfl (Or.inl ⟨rfl, rfl⟩) h3 ⟨nofun, nofun⟩
  | notify =>
    rw [hr] at hs h3
    cases hs
    exact mk rfl rfl (Or.inr rfl) (by simpa [inTick] using h3) ⟨nofun, nofun⟩
  | fin => exact absurd hr h1.1
  | done => exact absurd hr h1.2

theorem open_fire {c : Cfg} {s s' : GS} {a : Act} (h : s.closed = false → Open s) (hs : fire c s a = some s')
    (ho' : s'.closed = false) : Open s' := by
  have back : s.closed = false := by
    cases a with
    | close => cases hs; cases ho'
    | ticker => simp only [fire] at hs; split at hs <;> cases hs; exact ho'
    | attach p => simp only [fire] at hs; split at hs <;> cases hs; exact ho'
    | detach i => simp only [fire] at hs; split at hs <;> cases hs; exact ho'
    | run =>
      rw [← run_closed hs]; exact ho'
    | worker i stop =>
      obtain ⟨w, r, hw, hr, rfl, e1, -⟩ := worker_effect hs
      rw [← e1]; exact ho'
    | notifier stop =>
      obtain ⟨e1, -⟩ := notifier_effect hs
      rw [← e1]; exact ho'
  have hop := h back
  obtain ⟨h1, h2, h3, h4⟩ := hop
  cases a with
  | close => cases hs; cases ho'
  | ticker =>
    simp only [fire] at hs
    split at hs
    · rename_i hr
      cases hs
      rw [hr] at h3
      exact ⟨⟨nofun, nofun⟩, h2, h3, h4⟩
    · cases hs
  | attach p => simp only [fire] at hs; split at hs <;> cases hs; exact ⟨h1, h2, h3, h4⟩
  | detach i => simp only [fire] at hs; split at hs <;> cases hs; exact ⟨h1, h2, h3, h4⟩
  | run => exact open_run ⟨h1, h2, h3, h4⟩ back hs
  | worker i stop =>
    obtain ⟨w, r, hw, hr, rfl, e1, e2, e3, e4, e5, e6, e7, e8, e9, e10, e11, e12, e13, e14⟩ := worker_effect hs
    exact ⟨by rw [e2]; exact h1, by rw [e8]; exact h2, by simp only [e2, e9, e12]; exact h3,
      by simp only [e7, e8, e12, e14]; exact h4⟩
  | notifier stop =>
    obtain ⟨e1, e2, e3, e4, e5, e6, e7, e8, e9, e10, e11, e12, e13⟩ := notifier_effect hs
    simp only [fire] at hs
    unfold notifierStep at hs
    refine ⟨by rw [e2]; exact h1, ?_, by rw [e2, e9, e13]; exact h3, ?_⟩
    · cases hn : s.notifier with
      | wait =>
        rw [hn] at hs; simp only [back] at hs
        split at hs
        · cases hs
        · split at hs <;> cases hs
          exact nofun
      | got => rw [hn] at hs; simp only [back] at hs; cases hs; exact nofun
      | call => rw [hn] at hs; cases hs; exact nofun
      | done => exact absurd hn h2
    · cases hn : s.notifier with
      | wait =>
        rw [hn] at hs; simp only [back] at hs
        split at hs
        · cases hs
        · split at hs <;> cases hs
          exact Or.inr (Or.inr rfl)
      | got => rw [hn] at hs; simp only [back] at hs; cases hs; exact Or.inl rfl
      | call =>
        rw [hn] at hs h4; cases hs
        rcases h4 with h4 | h4 | h4
        · exact Or.inl h4
        · exact Or.inr (Or.inl h4)
        · cases h4
      | done => exact absurd hn h2

theorem reach_open {c : Cfg} {s : GS} (h : Reach c s) (ho : s.closed = false) : Open s := by
  induction h with
  | init devs => exact ⟨⟨nofun, nofun⟩, nofun, rfl, Or.inl rfl⟩
  | step a _ h ih => exact open_fire ih h ho

/-! ## Theorems -/

theorem worker_steps {c : Cfg} {s : GS} {i : Nat} {w : WPC} (hw : s.workers[i]? = some w) {stop : Bool}
    {r : GS × WPC} (h : workerStep c s w stop = some r) : CanStep c s :=
  ⟨.worker i stop, _, rfl, by simp only [fire, hw, h, Option.map_some]; rfl⟩

/-- A serialising worker can go on. -/
theorem marshalling_steps {c : Cfg} {s : GS} (h : s.writable = false) : CanStep c s := by
  unfold GS.writable at h
  rw [Bool.not_eq_false', List.any_eq_true] at h
  obtain ⟨w, hw, hm⟩ := h
  obtain ⟨i, hi⟩ := List.mem_iff_getElem?.mp hw
  cases w with
  | mar x => exact worker_steps (stop := false) hi rfl
  | _ => cases hm

/-- Unless the answers fill their channel, a worker that holds a slice can go on. -/
theorem busy_steps {c : Cfg} {s : GS} (h : 0 < s.workers.countP WPC.busy) (hl : s.waitCh < c.numWorkers) :
    CanStep c s := by
  obtain ⟨w, hw, hb⟩ := List.countP_pos_iff.mp h
  obtain ⟨i, hi⟩ := List.mem_iff_getElem?.mp hw
  cases w with
  | got x =>
    by_cases hc : s.closed = true
    · exact worker_steps (stop := false) hi (r := (s, .leave)) (by simp [workerStep, hc])
    · by_cases hx : x.lo = 0 ∧ x.hi = 0
      · exact worker_steps (stop := false) hi (r := (s, .send)) (by simp [workerStep, hc, hx])
      · exact worker_steps (stop := false) hi (r := (s, .enc x)) (by simp only [workerStep, hc, hx]; rfl)
  | enc x => exact worker_steps (stop := false) hi rfl
  | mar x => exact worker_steps (stop := false) hi rfl
  | call p => exact worker_steps (stop := false) hi rfl
  | check =>
    by_cases hc : s.closed = true
    · exact worker_steps (stop := false) hi (r := (s, .leave)) (by simp [workerStep, hc])
    · exact worker_steps (stop := false) hi (r := (s, .send)) (by simp [workerStep, hc])
  | send =>
    exact worker_steps (stop := false) hi (r := ({ s with waitCh := s.waitCh + 1 }, .wait)) (by simp [workerStep, hl])
  | wait => cases hb
  | leave => cases hb
  | exit => cases hb
  | dead => cases hb

theorem run_steps {c : Cfg} {s s' : GS} (h : runStep c s = some s') : CanStep c s := ⟨.run, s', rfl, h⟩

/-- While slices are unanswered, a worker can go on. -/
theorem waiting_steps {c : Cfg} {s : GS} (h : Inv c s) (ho : s.closed = false) (hn : 1 ≤ c.numWorkers)
    (hw : s.waitCh = 0) (hout : 0 < c.out s.run) : CanStep c s := by
  have ht := h.tokens ho
  by_cases hb : 0 < s.workers.countP WPC.busy
  · exact busy_steps hb (by omega)
  · cases hq : s.sliceCh with
    | nil => rw [hq, List.length_nil] at ht; omega
    | cons x rest =>
      have hlen := h.len
      have h0 : 0 < s.workers.length := by omega
      have hi : s.workers[0]? = some s.workers[0] := List.getElem?_eq_getElem h0
      have hm : s.workers[0] ∈ s.workers := List.getElem_mem h0
      have hl := h.live ho _ hm
      have hnb : ¬ s.workers[0].busy = true := by
        intro hx
        exact hb (List.countP_pos_iff.mpr ⟨_, hm, hx⟩)
      cases hw0 : s.workers[0] with
      | wait =>
        rw [hw0] at hi
        exact worker_steps (stop := false) hi (r := ({ s with sliceCh := rest }, .got x)) (by simp [workerStep, hq])
      | got x => rw [hw0] at hnb; exact absurd rfl hnb
      | enc x => rw [hw0] at hnb; exact absurd rfl hnb
      | mar x => rw [hw0] at hnb; exact absurd rfl hnb
      | call x => rw [hw0] at hnb; exact absurd rfl hnb
      | check => rw [hw0] at hnb; exact absurd rfl hnb
      | send => rw [hw0] at hnb; exact absurd rfl hnb
      | leave => rw [hw0] at hl; cases hl
      | exit => rw [hw0] at hl; cases hl
      | dead => rw [hw0] at hl; cases hl

/-- **C41.** In every reachable state of an open generator a goroutine can take a step, or everything is
quiescent. -/
theorem never_stuck {c : Cfg} {s : GS} (hn : 1 ≤ c.numWorkers) (h : Reach c s) (ho : s.closed = false) :
    CanStep c s ∨ Quiescent s := by
  have inv := reach_inv h
  have op := reach_open h ho
  have ht := inv.tokens ho
  have hroom := inv.room
  cases hr : s.run with
  | idle =>
    rw [hr] at ht
    simp only [Cfg.out] at ht
    by_cases hx : CanStep c s
    · exact Or.inl hx
    · right
      have hnot : s.notifier = .wait := by
        cases hn : s.notifier with
        | wait => rfl
        | got => exact absurd ⟨.notifier false, _, rfl, by simp only [fire, notifierStep, hn, ho]; rfl⟩ hx
        | call => exact absurd ⟨.notifier false, _, rfl, by simp only [fire, notifierStep, hn]; rfl⟩ hx
        | done => exact absurd hn op.notifier
      have hnext : s.nextCh = false := by
        cases hb : s.nextCh with
        | false => rfl
        | true =>
          exact absurd ⟨.notifier false, _, rfl, by simp only [fire, notifierStep, hnot, hb]; rfl⟩ hx
      have hwork : ∀ w ∈ s.workers, w = .wait := by
        intro w hw
        have h1 := inv.live ho w hw
        have h2 : ¬ w.busy = true := by
          intro hb
          have := List.countP_pos_iff.mpr ⟨w, hw, hb⟩
          omega
        cases w <;> simp_all [WPC.busy, WPC.gone]
      refine ⟨hr, hwork, hnot, List.length_eq_zero_iff.mp (by omega), by omega, hnext, ?_, ?_⟩
      · have := op.ticks
        rw [hr] at this
        simpa [inTick] using this.symm
      · rcases op.announced with e | e | e
        · exact e.symm
        · rw [hnext] at e; cases e
        · rw [hnot] at e; cases e
  | ticked => exact Or.inl (run_steps (s' := { s with run := .adv 0, clock := s.clock + 1 }) (by simp [runStep, hr, ho]))
  | adv i =>
    left
    cases hd : s.devs[i]? with
    | some p =>
      exact run_steps (s' := { s with last := setAt s.last p s.clock, run := .adv (i + 1) })
        (by simp only [runStep, hr, hd])
    | none => exact run_steps (s' := { s with index := 0, run := .fill 0 }) (by simp only [runStep, hr, hd])
  | fill i =>
    left
    cases hd : s.devs[i]? with
    | some p =>
      cases hw : s.writable with
      | false => exact marshalling_steps hw
      | true =>
        by_cases hp : s.index + 1 = c.packetSize
        · exact run_steps (by simp only [runStep, hr, hd, hw, hp, if_true]; rfl)
        · exact run_steps (by simp only [runStep, hr, hd, hw, hp, if_true, if_false]; rfl)
    | none => exact run_steps (by simp only [runStep, hr, hd]; rfl)
  | fsend k =>
    left
    rw [hr] at ht
    simp only [Cfg.out] at ht
    have : s.sliceCh.length < c.numWorkers := by omega
    exact run_steps (by simp only [runStep, hr, this, if_true]; rfl)
  | fcheck k => exact Or.inl (run_steps (s' := { s with run := .fwait k }) (by simp [runStep, hr, ho]))
  | fwait k =>
    left
    by_cases hw : s.waitCh > 0
    · exact run_steps (by simp only [runStep, hr, hw, if_true]; rfl)
    · exact waiting_steps inv ho hn (by omega) (by rw [hr]; exact Nat.one_pos)
  | mcheck k i =>
    left
    by_cases hi : i < c.numWorkers
    · exact run_steps (s' := { s with run := .msend k i }) (by simp [runStep, hr, hi, ho])
    · exact run_steps (s' := { s with run := .wcheck k 0 }) (by simp [runStep, hr, hi])
  | msend k i =>
    left
    have := hroom k i hr
    have hpc := inv.pc
    rw [hr] at hpc
    have hpc : i < c.numWorkers := hpc
    have : s.sliceCh.length < c.numWorkers := by omega
    exact run_steps (by simp only [runStep, hr, this, if_true]; rfl)
  | wcheck k j =>
    left
    by_cases hj : j < c.numWorkers
    · exact run_steps (s' := { s with run := .mwait k j }) (by simp [runStep, hr, hj, ho])
    · exact run_steps (s' := { s with run := .after k }) (by simp [runStep, hr, hj])
  | mwait k j =>
    left
    by_cases hw : s.waitCh > 0
    · exact run_steps (by simp only [runStep, hr, hw, if_true]; rfl)
    · have hpc := inv.pc
      rw [hr] at hpc
      have hpc : j < c.numWorkers := hpc
      exact waiting_steps inv ho hn (by omega) (by rw [hr]; simp only [Cfg.out]; omega)
  | relock i => exact Or.inl (run_steps (by simp only [runStep, hr]; rfl))
  | reset =>
    left
    cases hw : s.writable with
    | false => exact marshalling_steps hw
    | true => exact run_steps (by simp only [runStep, hr, hw, if_true]; rfl)
  | notify => exact Or.inl (run_steps (by simp only [runStep, hr]; rfl))
  | fin => exact absurd hr op.run.1
  | done => exact absurd hr op.run.2

/-- In a quiescent state the ticker can start a tick. -/
theorem quiescent_ticks (c : Cfg) {s : GS} (h : Quiescent s) :
    fire c s .ticker = some { s with run := .ticked } := by
  simp only [fire, h.run, if_true]

theorem closed_internal {c : Cfg} {s s' : GS} {a : Act} (ha : a.internal = true) (h : fire c s a = some s') :
    s'.closed = s.closed := by
  cases a with
  | run => exact run_closed h
  | worker i stop =>
    obtain ⟨w, r, hw, hr, rfl, e1, -⟩ := worker_effect h
    exact e1
  | notifier stop => exact (notifier_effect h).1
  | close => cases ha
  | ticker => cases ha
  | attach p => cases ha
  | detach i => cases ha

/-- **C41, liveness.** Left alone, an open generator becomes quiescent: no schedule of goroutine steps is
longer than a bound, and every one that cannot be continued ends in a quiescent state. So every tick that
has begun is completed and announced. -/
theorem settles {c : Cfg} {s : GS} (hn : 1 ≤ c.numWorkers) (h : Reach c s) (ho : s.closed = false) :
    ∃ bound, ∀ as s', (∀ a ∈ as, a.internal = true) → exec c s as = some s' →
      as.length ≤ bound ∧ (CanStep c s' ∨ Quiescent s') := by
  refine ⟨measure c s, fun as s' ha he => ⟨?_, ?_⟩⟩
  · have := internal_bounded h ha he
    omega
  · have hc : s'.closed = false := by
      clear hn h
      induction as generalizing s with
      | nil => cases he; exact ho
      | cons a as ih =>
        unfold exec at he
        obtain ⟨s1, h1, h2⟩ := Option.bind_eq_some_iff.mp he
        exact ih (s := s1) (by rw [closed_internal (ha a (by simp)) h1]; exact ho)
          (fun b hb => ha b (by simp [hb])) h2
    exact never_stuck hn (exec_reach h he) hc

/-! Non-vacuity: two workers, four slots; a tick of three devices ends quiescent with the packet delivered. -/

/-- A complete tick. -/
def demo : List Act :=
  [.ticker] ++ List.replicate 11 .run ++ List.replicate 7 (.worker 1 false) ++
    [.run, .run, .run, .notifier false, .notifier false, .notifier false]

example : (exec ⟨2, 4⟩ (GS.init ⟨2, 4⟩ [7, 8, 9]) demo).map
      (fun s => (s.run, s.workers, s.ticks, s.nexts, s.log)) =
    some (.idle, [.wait, .wait], 1, 1, [⟨1, [some (7, 1), some (8, 1), some (9, 1)]⟩]) := by decide +kernel

end C41
end GpsGen
