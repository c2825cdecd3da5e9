import Verif.Lemmas.GenInv
import Mathlib.Tactic.Ring
/-!
# Helper lemmas: a measure that every step of a goroutine decreases
-/

namespace GpsGen
namespace Run

/-- Steps left to a worker. -/
def WPC.rank : WPC → Nat
  | .dead => 0
  | .exit => 1
  | .leave => 2
  | .wait => 3
  | .send => 4
  | .check => 5
  | .call _ => 6
  | .mar _ => 7
  | .enc _ => 8
  | .got _ => 9

/-- Steps left to the notifier. -/
def NPC.rank : NPC → Nat
  | .done => 0
  | .wait => 1
  | .call => 2
  | .got => 3

/-- A bound on the steps of one flush. -/
def Cfg.flushCost (c : Cfg) : Nat := 12 * c.numWorkers + 12

/-- Steps left from `fill i` with `n` devices. -/
def Cfg.fillRank (c : Cfg) (n i : Nat) : Nat := 10 + c.flushCost + (n - i) * (c.flushCost + 3)

/-- Steps left after a flush. -/
def Cfg.afterRank (c : Cfg) (n : Nat) : Option Nat → Nat
  | none => 9
  | some i => c.fillRank n (i + 1) + 1

/-- Steps left to the run loop, including those of other goroutines that it causes. -/
def Cfg.rank (c : Cfg) (closed : Bool) (n : Nat) : RPC → Nat
  | .done => 0
  | .fin => 1
  | .idle => 3
  | .notify => 8
  | .reset => 9
  | .relock i => c.fillRank n (i + 1) + 1
  | .fwait k => c.afterRank n k + 1
  | .fcheck k => c.afterRank n k + 2
  | .fsend k => c.afterRank n k + 10
  | .wcheck k j => c.afterRank n k + 2 * (c.numWorkers - j) + 1
  | .mwait k j => c.afterRank n k + 2 * (c.numWorkers - j)
  | .mcheck k i => c.afterRank n k + 2 * c.numWorkers + 2 + 10 * (c.numWorkers - i)
  | .msend k i => c.afterRank n k + 2 * c.numWorkers + 1 + 10 * (c.numWorkers - i)
  | .fill i => c.fillRank n i
  | .adv i => c.fillRank n 0 + 1 + (n - i)
  | .ticked => if closed then 2 else c.fillRank n 0 + 2 + n

/-- Steps caused by a pending notification. -/
def noteRank (b : Bool) : Nat := if b then 3 else 0

/-- The measure. -/
def measure (c : Cfg) (s : GS) : Nat :=
  c.rank s.closed s.devs.length s.run + 7 * s.sliceCh.length + (s.workers.map WPC.rank).sum +
    s.notifier.rank + noteRank s.nextCh

theorem sum_set {l : List WPC} {i : Nat} {w : WPC} (h : l[i]? = some w) (w' : WPC) :
    ((l.set i w').map WPC.rank).sum + w.rank = (l.map WPC.rank).sum + w'.rank := by
  induction l generalizing i with
  | nil => simp at h
  | cons x l ih =>
    cases i with
    | zero =>
      simp only [List.getElem?_cons_zero, Option.some.injEq] at h
      subst h
      simp only [List.set_cons_zero, List.map_cons, List.sum_cons]
      omega
    | succ i =>
      simp only [List.getElem?_cons_succ] at h
      have := ih h
      simp only [List.set_cons_succ, List.map_cons, List.sum_cons]
      omega

theorem worker_rank {c : Cfg} {s : GS} {w : WPC} {stop : Bool} {r : GS × WPC}
    (h : workerStep c s w stop = some r) : 7 * r.1.sliceCh.length + r.2.rank < 7 * s.sliceCh.length + w.rank := by
  unfold workerStep at h
  cases w with
  | wait =>
    simp only at h
    split at h
    · split at h
      · cases h; simp [WPC.rank]
      · cases h
    · split at h
      · cases h
      · rename_i x rest hx
        cases h
        simp only [hx, List.length_cons, WPC.rank]
        omega
  | got x =>
    simp only at h
    split at h
    · cases h; simp [WPC.rank]
    · split at h <;> (cases h; simp [WPC.rank])
  | enc x => cases h; simp [WPC.rank]
  | mar x => cases h; simp [WPC.rank]
  | call p => cases h; simp [WPC.rank]
  | check =>
    simp only at h
    split at h <;> (cases h; simp [WPC.rank])
  | send =>
    simp only at h
    split at h
    · cases h; simp [WPC.rank]
    · cases h
  | leave => cases h; simp [WPC.rank]
  | exit =>
    simp only at h
    split at h
    · cases h; simp [WPC.rank]
    · cases h
  | dead => cases h

theorem fillRank_succ (c : Cfg) {n i : Nat} (h : i < n) :
    c.fillRank n i = c.fillRank n (i + 1) + c.flushCost + 3 := by
  unfold Cfg.fillRank
  obtain ⟨m, rfl⟩ : ∃ m, n = i + 1 + m := ⟨n - (i + 1), by omega⟩
  rw [show i + 1 + m - i = m + 1 by omega, show i + 1 + m - (i + 1) = m by omega]
  ring

theorem enter_rank (c : Cfg) (closed : Bool) (n index : Nat) (k : Option Nat) :
    c.rank closed n (c.enter index k) ≤ c.afterRank n k + c.flushCost := by
  unfold Cfg.enter
  split <;> simp only [Cfg.rank, Cfg.flushCost] <;> omega

theorem after_rank (c : Cfg) (closed : Bool) (n : Nat) (k : Option Nat) :
    c.rank closed n (RPC.after k) = c.afterRank n k := by
  cases k <;> rfl

theorem run_decreases {c : Cfg} {s s' : GS} (hpc : c.pcOk s.run) (h : runStep c s = some s') :
    measure c s' < measure c s := by
  unfold runStep at h
  unfold measure
  cases hr : s.run with
  | idle =>
    rw [hr] at h; simp only at h
    split at h <;> cases h
    simp [Cfg.rank]
  | ticked =>
    rw [hr] at h; simp only at h
    split at h
    · rename_i hc
      cases h
      simp [Cfg.rank, hc]
    · rename_i hc
      cases h
      simp only [Cfg.rank, if_neg hc]
      omega
  | adv i =>
    rw [hr] at h; simp only at h
    split at h
    · rename_i p hp
      cases h
      have := (List.getElem?_eq_some_iff.mp hp).1
      simp only [Cfg.rank]
      omega
    · cases h
      simp only [Cfg.rank]
      omega
  | fill i =>
    rw [hr] at h; simp only at h
    split at h
    · rename_i p hp
      have hi := (List.getElem?_eq_some_iff.mp hp).1
      have hf := fillRank_succ c hi
      split at h
      · split at h
        · cases h
          have := enter_rank c s.closed s.devs.length s.index (some i)
          simp only [Cfg.rank, Cfg.afterRank] at this ⊢
          omega
        · cases h
          simp only [Cfg.rank]
          omega
      · cases h
    · rename_i hp
      have hi := List.getElem?_eq_none_iff.mp hp
      cases h
      have := enter_rank c s.closed s.devs.length s.index none
      have e : s.devs.length - i = 0 := by omega
      simp only [Cfg.rank, Cfg.afterRank, Cfg.fillRank, e] at this ⊢
      omega
  | fsend k =>
    rw [hr] at h; simp only at h
    split at h <;> cases h
    simp only [GS.push, Cfg.rank, List.length_append, List.length_singleton]
    omega
  | fcheck k =>
    rw [hr] at h; simp only at h
    split at h <;> cases h
    · simp only [after_rank]; simp only [Cfg.rank]; omega
    · simp only [Cfg.rank]; omega
  | fwait k =>
    rw [hr] at h; simp only at h
    split at h <;> cases h
    simp only [after_rank]; simp only [Cfg.rank]; omega
  | mcheck k i =>
    rw [hr] at h; simp only at h
    split at h
    · split at h <;> cases h
      · simp only [after_rank]; simp only [Cfg.rank]; omega
      · simp only [Cfg.rank]; omega
    · cases h
      simp only [Cfg.rank]; omega
  | msend k i =>
    rw [hr] at h hpc; simp only [Cfg.pcOk] at h hpc
    split at h <;> cases h
    simp only [GS.push, Cfg.rank, List.length_append, List.length_singleton]
    omega
  | wcheck k j =>
    rw [hr] at h; simp only at h
    split at h
    · split at h <;> cases h
      · simp only [after_rank]; simp only [Cfg.rank]; omega
      · simp only [Cfg.rank]; omega
    · cases h
      simp only [after_rank]; simp only [Cfg.rank]; omega
  | mwait k j =>
    rw [hr] at h hpc; simp only [Cfg.pcOk] at h hpc
    split at h <;> cases h
    simp only [Cfg.rank]; omega
  | relock i => rw [hr] at h; cases h; simp only [Cfg.rank]; omega
  | reset =>
    rw [hr] at h; simp only at h
    split at h <;> cases h
    simp only [Cfg.rank]; omega
  | notify =>
    rw [hr] at h; cases h
    simp only [Cfg.rank, noteRank, if_true]
    split <;> omega
  | fin => rw [hr] at h; cases h; simp only [Cfg.rank]; omega
  | done => rw [hr] at h; cases h

theorem worker_decreases {c : Cfg} {s s' : GS} {i : Nat} {stop : Bool}
    (h : fire c s (.worker i stop) = some s') : measure c s' < measure c s := by
  obtain ⟨w, r, hw, hr, rfl, e1, e2, e3, e4, e5, e6, e7, e8, -⟩ := worker_effect h
  have h1 := worker_rank hr
  have h2 := sum_set hw r.2
  unfold measure
  simp only [e1, e2, e5, e7, e8]
  omega

theorem notifier_decreases {c : Cfg} {s s' : GS} {stop : Bool} (h : notifierStep s stop = some s') :
    measure c s' < measure c s := by
  unfold notifierStep at h
  unfold measure
  cases hn : s.notifier with
  | wait =>
    rw [hn] at h; simp only at h
    split at h
    · split at h <;> cases h
      simp only [NPC.rank]; omega
    · split at h
      · rename_i hx
        cases h
        simp only [NPC.rank, noteRank, hx, if_true, Bool.false_eq_true, if_false]; omega
      · cases h
  | got =>
    rw [hn] at h; simp only at h
    split at h <;> (cases h; simp only [NPC.rank]; omega)
  | call => rw [hn] at h; cases h; simp only [NPC.rank]; omega
  | done => rw [hn] at h; cases h

/-- Every step of a goroutine decreases the measure. -/
theorem internal_decreases {c : Cfg} {s s' : GS} {a : Act} (hpc : c.pcOk s.run) (ha : a.internal = true)
    (h : fire c s a = some s') : measure c s' < measure c s := by
  cases a with
  | run => exact run_decreases hpc h
  | worker i stop => exact worker_decreases h
  | notifier stop => exact notifier_decreases h
  | close => cases ha
  | ticker => cases ha
  | attach p => cases ha
  | detach i => cases ha

theorem exec_reach {c : Cfg} {s s' : GS} {as : List Act} (h : Reach c s) (he : exec c s as = some s') :
    Reach c s' := by
  induction as generalizing s with
  | nil => cases he; exact h
  | cons a as ih =>
    unfold exec at he
    obtain ⟨s1, h1, h2⟩ := Option.bind_eq_some_iff.mp he
    exact ih (Reach.step a h h1) h2

theorem exec_append {c : Cfg} {s : GS} {as bs : List Act} :
    exec c s (as ++ bs) = (exec c s as).bind (fun s' => exec c s' bs) := by
  induction as generalizing s with
  | nil => rfl
  | cons a as ih =>
    simp only [List.cons_append, exec]
    cases fire c s a with
    | none => rfl
    | some s1 => exact ih

/-- A schedule of goroutine steps only is at most as long as the measure. -/
theorem internal_bounded {c : Cfg} {s s' : GS} {as : List Act} (h : Reach c s)
    (ha : ∀ a ∈ as, a.internal = true) (he : exec c s as = some s') :
    as.length + measure c s' ≤ measure c s := by
  induction as generalizing s with
  | nil => cases he; simp
  | cons a as ih =>
    unfold exec at he
    obtain ⟨s1, h1, h2⟩ := Option.bind_eq_some_iff.mp he
    have := internal_decreases (reach_inv h).pc (ha a (by simp)) h1
    have := ih (Reach.step a h h1) (fun b hb => ha b (by simp [hb])) h2
    simp only [List.length_cons]
    omega

/-- Letting the goroutines run ends in a state in which none of them can step. -/
theorem internal_settles {c : Cfg} {s : GS} (h : Reach c s) :
    ∃ as s', (∀ a ∈ as, a.internal = true) ∧ exec c s as = some s' ∧
      ∀ a, a.internal = true → fire c s' a = none := by
  generalize hm : measure c s = m
  induction m using Nat.strong_induction_on generalizing s with
  | _ m ih =>
    by_cases hx : ∃ a s1, Act.internal a = true ∧ fire c s a = some s1
    · obtain ⟨a, s1, ha, h1⟩ := hx
      have hd := internal_decreases (reach_inv h).pc ha h1
      obtain ⟨as, s', k1, k2, k3⟩ := ih (measure c s1) (by omega) (Reach.step a h h1) rfl
      refine ⟨a :: as, s', ?_, ?_, k3⟩
      · intro b hb
        rcases List.mem_cons.mp hb with rfl | hb
        · exact ha
        · exact k1 b hb
      · simp only [exec, h1, Option.bind_some, k2]
    · refine ⟨[], s, by simp, rfl, ?_⟩
      intro a ha
      cases hf : fire c s a with
      | none => rfl
      | some s1 => exact absurd ⟨a, s1, ha, hf⟩ hx

end Run
end GpsGen
