import Verif.Model.GenRun
/-!
# Helper lemmas: invariants of the generator's goroutines
-/

namespace GpsGen
namespace Run

/-- Reachable states, from any set of devices attached before `Run`. -/
inductive Reach (c : Cfg) : GS → Prop
  | init (devs : List Nat) : Reach c (GS.init c devs)
  | step {s s' : GS} (a : Act) (hs : Reach c s) (h : fire c s a = some s') : Reach c s'

/-- The worker holds a slice that it has not answered. -/
def WPC.busy : WPC → Bool
  | .got _ | .enc _ | .mar _ | .call _ | .check | .send => true
  | _ => false

/-- The worker has left its loop. -/
def WPC.gone : WPC → Bool
  | .leave | .exit | .dead => true
  | _ => false

/-- The worker is at its end. -/
def WPC.isDead : WPC → Bool
  | .dead => true
  | _ => false

/-- Slices sent and not yet answered, as the run loop sees them. -/
def Cfg.out (c : Cfg) : RPC → Nat
  | .fcheck _ | .fwait _ => 1
  | .mcheck _ i | .msend _ i => i
  | .wcheck _ j | .mwait _ j => c.numWorkers - j
  | _ => 0

/-- The loop counters are in range. -/
def Cfg.pcOk (c : Cfg) : RPC → Prop
  | .mcheck _ i => i ≤ c.numWorkers
  | .msend _ i => i < c.numWorkers
  | .wcheck _ j => j ≤ c.numWorkers
  | .mwait _ j => j < c.numWorkers
  | _ => True

theorem count_set {l : List WPC} {i : Nat} {w : WPC} (h : l[i]? = some w) (w' : WPC) (p : WPC → Bool) :
    (l.set i w').countP p + (if p w then 1 else 0) = l.countP p + (if p w' then 1 else 0) := by
  induction l generalizing i with
  | nil => simp at h
  | cons x l ih =>
    cases i with
    | zero =>
      simp only [List.getElem?_cons_zero, Option.some.injEq] at h
      subst h
      simp only [List.set_cons_zero, List.countP_cons]
      omega
    | succ i =>
      simp only [List.getElem?_cons_succ] at h
      have := ih h
      simp only [List.set_cons_succ, List.countP_cons]
      omega

theorem count_pos {l : List WPC} {i : Nat} {w : WPC} (h : l[i]? = some w) {p : WPC → Bool} (hp : p w = true) :
    0 < l.countP p := by
  rw [List.countP_pos_iff]
  exact ⟨w, List.mem_of_getElem? h, hp⟩

theorem count_lt {l : List WPC} {i : Nat} {w : WPC} (h : l[i]? = some w) {p : WPC → Bool} (hp : p w = false) :
    l.countP p < l.length := by
  rcases Nat.lt_or_ge (l.countP p) l.length with h1 | h1
  · exact h1
  · have h2 : l.countP p = l.length := Nat.le_antisymm List.countP_le_length h1
    rw [List.countP_eq_length] at h2
    rw [h2 w (List.mem_of_getElem? h)] at hp
    cases hp

theorem mem_set_of {l : List WPC} {i : Nat} {w x : WPC} (h : x ∈ l.set i w) : x = w ∨ x ∈ l := by
  rcases List.mem_or_eq_of_mem_set h with h | h
  · exact Or.inr h
  · exact Or.inl h

/-- What holds in every reachable state. -/
structure Inv (c : Cfg) (s : GS) : Prop where
  len : s.workers.length = c.numWorkers
  plen : s.packet.length = c.packetSize
  pc : c.pcOk s.run
  /-- nobody leaves before the generator is closed -/
  live : s.closed = false → ∀ w ∈ s.workers, w.gone = false
  /-- unanswered slices are in the channel, with a worker, or answered in the channel -/
  tokens : s.closed = false →
    s.sliceCh.length + s.workers.countP WPC.busy + s.waitCh = c.out s.run
  scap : s.sliceCh.length ≤ c.numWorkers
  wcap : s.waitCh ≤ c.numWorkers
  /-- there is room for the slices of a divided packet -/
  room : ∀ k i, s.run = .msend k i → s.sliceCh.length ≤ i
  /-- a waiting run loop has consumed no final answer -/
  finals : (∃ k, s.run = .fwait k) ∨ (∃ k j, s.run = .mwait k j) → s.workers.countP WPC.isDead ≤ s.waitCh

theorem inv_init (c : Cfg) (devs : List Nat) : Inv c (GS.init c devs) := by
  refine ⟨by simp [GS.init], by simp [GS.init], trivial, ?_, ?_, Nat.zero_le _, Nat.zero_le _, ?_, ?_⟩
  · intro _ w hw
    have := List.eq_of_mem_replicate hw
    subst this; rfl
  · intro _
    simp [GS.init, Cfg.out, WPC.busy]
  · intro k i h; cases h
  · rintro (⟨k, h⟩ | ⟨k, j, h⟩) <;> cases h

theorem dead_zero {c : Cfg} {s : GS} (h : Inv c s) (ho : s.closed = false) :
    s.workers.countP WPC.isDead = 0 := by
  rw [List.countP_eq_zero]
  intro w hw hd
  have := h.live ho w hw
  cases w <;> simp_all [WPC.gone, WPC.isDead]

theorem inv_run {c : Cfg} {s s' : GS} (h : Inv c s) (hs : runStep c s = some s') : Inv c s' := by
  have htok := h.tokens
  have hpc := h.pc
  have hroom := h.room
  have hfin := h.finals
  have hscap := h.scap
  have hwcap := h.wcap
  unfold runStep at hs
  cases hr : s.run with
  | idle =>
    rw [hr] at hs htok
    simp only at hs
    split at hs
    · rename_i hc
      cases hs
      exact ⟨h.len, h.plen, trivial, h.live, fun ho => htok ho, hscap, hwcap,
        fun k i e => by (cases e), fun e => by rcases e with ⟨_, e⟩ | ⟨_, _, e⟩ <;> cases e⟩
    · cases hs
  | ticked =>
    rw [hr] at hs htok
    simp only at hs
    split at hs <;> cases hs
    · exact ⟨h.len, h.plen, trivial, h.live, fun ho => htok ho, hscap, hwcap,
        fun k i e => by (cases e), fun e => by rcases e with ⟨_, e⟩ | ⟨_, _, e⟩ <;> cases e⟩
    · exact ⟨h.len, h.plen, trivial, h.live, fun ho => htok ho, hscap, hwcap,
        fun k i e => by (cases e), fun e => by rcases e with ⟨_, e⟩ | ⟨_, _, e⟩ <;> cases e⟩
  | adv i =>
    rw [hr] at hs htok
    simp only at hs
    split at hs <;> cases hs
    · exact ⟨h.len, h.plen, trivial, h.live, fun ho => htok ho, hscap, hwcap,
        fun k i e => by (cases e), fun e => by rcases e with ⟨_, e⟩ | ⟨_, _, e⟩ <;> cases e⟩
    · exact ⟨h.len, h.plen, trivial, h.live, fun ho => htok ho, hscap, hwcap,
        fun k i e => by (cases e), fun e => by rcases e with ⟨_, e⟩ | ⟨_, _, e⟩ <;> cases e⟩
  | fill i =>
    rw [hr] at hs htok
    simp only at hs
    have enter : ∀ (s' : GS) k, s'.workers = s.workers → s'.packet.length = s.packet.length →
        s'.closed = s.closed → s'.sliceCh = s.sliceCh → s'.waitCh = s.waitCh →
        s'.run = c.enter s.index k → Inv c s' := by
      intro s' k e1 e2 e3 e4 e5 e6
      have hout : c.out s'.run = 0 := by
        rw [e6]; unfold Cfg.enter; split <;> rfl
      have hne : (∀ k i, s'.run ≠ .msend k i) ∧ (∀ k, s'.run ≠ .fwait k) ∧ ∀ k j, s'.run ≠ .mwait k j := by
        rw [e6]; unfold Cfg.enter; split <;> exact ⟨nofun, nofun, nofun⟩
      refine ⟨by rw [e1]; exact h.len, by rw [e2]; exact h.plen, ?_, by rw [e1, e3]; exact h.live, ?_,
        by rw [e4]; exact hscap, by rw [e5]; exact hwcap, fun k i e => absurd e (hne.1 k i), ?_⟩
      · rw [e6]; unfold Cfg.enter; split
        · trivial
        · exact Nat.zero_le _
      · intro ho
        rw [hout, e1, e4, e5]
        rw [e3] at ho
        exact htok ho
      · rintro (⟨k, e⟩ | ⟨k, j, e⟩)
        · exact absurd e (hne.2.1 k)
        · exact absurd e (hne.2.2 k j)
    split at hs
    · split at hs
      · split at hs
        · cases hs
          exact enter _ _ rfl (by simp) rfl rfl rfl rfl
        · cases hs
          exact ⟨h.len, by simpa using h.plen, trivial, h.live, fun ho => htok ho, hscap, hwcap,
            fun k i e => by (cases e), fun e => by rcases e with ⟨_, e⟩ | ⟨_, _, e⟩ <;> cases e⟩
      · cases hs
    · cases hs
      exact enter _ _ rfl rfl rfl rfl rfl rfl
  | fsend k =>
    rw [hr] at hs htok
    simp only at hs
    split at hs
    · rename_i hl
      cases hs
      refine ⟨h.len, h.plen, trivial, h.live, fun ho => ?_, ?_, hwcap,
        fun k i e => by (cases e), fun e => by rcases e with ⟨_, e⟩ | ⟨_, _, e⟩ <;> cases e⟩
      · have := htok ho
        simp only [GS.push, List.length_append, List.length_singleton, Cfg.out] at this ⊢
        omega
      · simp only [GS.push, List.length_append, List.length_singleton]; omega
    · cases hs
  | fcheck k =>
    rw [hr] at hs htok
    simp only at hs
    split at hs
    · rename_i hc
      cases hs
      refine ⟨h.len, h.plen, ?_, h.live, fun ho => ?_, hscap, hwcap, ?_, ?_⟩
      · cases k <;> trivial
      · simp only at ho; rw [ho] at hc; cases hc
      · intro k' i e; cases k <;> cases e
      · rintro (⟨_, e⟩ | ⟨_, _, e⟩) <;> cases k <;> cases e
    · rename_i hc
      cases hs
      refine ⟨h.len, h.plen, trivial, h.live, fun ho => htok ho, hscap, hwcap,
        fun k i e => by (cases e), fun _ => ?_⟩
      have := dead_zero h (by simpa using hc)
      simp only
      omega
  | fwait k =>
    rw [hr] at hs htok
    simp only at hs
    split at hs
    · rename_i hw
      cases hs
      refine ⟨h.len, h.plen, ?_, h.live, fun ho => ?_, hscap, ?_, ?_, ?_⟩
      · cases k <;> trivial
      · have := htok ho
        have e : c.out (RPC.after k) = 0 := by cases k <;> rfl
        simp only [Cfg.out] at this
        simp only [e]
        omega
      · simp only; omega
      · intro k' i e; cases k <;> cases e
      · rintro (⟨_, e⟩ | ⟨_, _, e⟩) <;> cases k <;> cases e
    · cases hs
  | mcheck k i =>
    rw [hr] at hs htok hpc
    simp only [Cfg.pcOk] at hs hpc
    split at hs
    · rename_i hi
      split at hs
      · rename_i hc
        cases hs
        refine ⟨h.len, h.plen, ?_, h.live, fun ho => ?_, hscap, hwcap, ?_, ?_⟩
        · cases k <;> trivial
        · simp only at ho; rw [ho] at hc; cases hc
        · intro k' i e; cases k <;> cases e
        · rintro (⟨_, e⟩ | ⟨_, _, e⟩) <;> cases k <;> cases e
      · rename_i hc
        cases hs
        refine ⟨h.len, h.plen, hi, h.live, fun ho => htok ho, hscap, hwcap, ?_,
          fun e => by rcases e with ⟨_, e⟩ | ⟨_, _, e⟩ <;> cases e⟩
        intro k' i' e
        cases e
        have := htok (by simpa using hc)
        simp only [Cfg.out] at this
        simp only
        omega
    · rename_i hi
      cases hs
      refine ⟨h.len, h.plen, Nat.zero_le _, h.live, fun ho => ?_, hscap, hwcap,
        fun k i e => by (cases e), fun e => by rcases e with ⟨_, e⟩ | ⟨_, _, e⟩ <;> cases e⟩
      have := htok ho
      simp only [Cfg.out] at this ⊢
      omega
  | msend k i =>
    rw [hr] at hs htok hpc
    simp only [Cfg.pcOk] at hs hpc
    split at hs
    · cases hs
      refine ⟨h.len, h.plen, hpc, h.live, fun ho => ?_, ?_, hwcap,
        fun k i e => by (cases e), fun e => by rcases e with ⟨_, e⟩ | ⟨_, _, e⟩ <;> cases e⟩
      · have := htok ho
        simp only [GS.push, List.length_append, List.length_singleton, Cfg.out] at this ⊢
        omega
      · simp only [GS.push, List.length_append, List.length_singleton]; omega
    · cases hs
  | wcheck k j =>
    rw [hr] at hs htok hpc
    simp only [Cfg.pcOk] at hs hpc
    split at hs
    · rename_i hj
      split at hs
      · rename_i hc
        cases hs
        refine ⟨h.len, h.plen, ?_, h.live, fun ho => ?_, hscap, hwcap, ?_, ?_⟩
        · cases k <;> trivial
        · simp only at ho; rw [ho] at hc; cases hc
        · intro k' i e; cases k <;> cases e
        · rintro (⟨_, e⟩ | ⟨_, _, e⟩) <;> cases k <;> cases e
      · rename_i hc
        cases hs
        refine ⟨h.len, h.plen, hj, h.live, fun ho => htok ho, hscap, hwcap,
          fun k i e => by (cases e), fun _ => ?_⟩
        have := dead_zero h (by simpa using hc)
        simp only
        omega
    · rename_i hj
      cases hs
      refine ⟨h.len, h.plen, ?_, h.live, fun ho => ?_, hscap, hwcap, ?_, ?_⟩
      · cases k <;> trivial
      · have := htok ho
        have e : c.out (RPC.after k) = 0 := by cases k <;> rfl
        simp only [Cfg.out] at this
        simp only [e]
        omega
      · intro k' i e; cases k <;> cases e
      · rintro (⟨_, e⟩ | ⟨_, _, e⟩) <;> cases k <;> cases e
  | mwait k j =>
    rw [hr] at hs htok hpc
    simp only [Cfg.pcOk] at hs hpc
    split at hs
    · rename_i hw
      cases hs
      refine ⟨h.len, h.plen, hpc, h.live, fun ho => ?_, hscap, ?_,
        fun k i e => by (cases e), fun e => by rcases e with ⟨_, e⟩ | ⟨_, _, e⟩ <;> cases e⟩
      · have := htok ho
        simp only [Cfg.out] at this ⊢
        omega
      · simp only; omega
    · cases hs
  | relock i =>
    rw [hr] at hs htok
    cases hs
    exact ⟨h.len, h.plen, trivial, h.live, fun ho => htok ho, hscap, hwcap,
      fun k i e => by (cases e), fun e => by rcases e with ⟨_, e⟩ | ⟨_, _, e⟩ <;> cases e⟩
  | reset =>
    rw [hr] at hs htok
    simp only at hs
    split at hs
    · cases hs
      exact ⟨h.len, by simpa using h.plen, trivial, h.live, fun ho => htok ho, hscap, hwcap,
        fun k i e => by (cases e), fun e => by rcases e with ⟨_, e⟩ | ⟨_, _, e⟩ <;> cases e⟩
    · cases hs
  | notify =>
    rw [hr] at hs htok
    cases hs
    exact ⟨h.len, h.plen, trivial, h.live, fun ho => htok ho, hscap, hwcap,
      fun k i e => by (cases e), fun e => by rcases e with ⟨_, e⟩ | ⟨_, _, e⟩ <;> cases e⟩
  | fin =>
    rw [hr] at hs htok
    cases hs
    exact ⟨h.len, h.plen, trivial, h.live, fun ho => htok ho, hscap, hwcap,
      fun k i e => by (cases e), fun e => by rcases e with ⟨_, e⟩ | ⟨_, _, e⟩ <;> cases e⟩
  | done => rw [hr] at hs; cases hs

theorem run_closed {c : Cfg} {s s' : GS} (h : runStep c s = some s') : s'.closed = s.closed := by
  unfold runStep at h
  cases hr : s.run <;> rw [hr] at h <;> simp only at h <;>
    first
    | (cases h <;> rfl)
    | (split at h <;> first
        | (cases h <;> rfl)
        | (split at h <;> first
          | (cases h <;> rfl)
          | (split at h <;> (cases h <;> rfl))))

/-- What a worker's step does to everything that the invariants mention. -/
theorem worker_effect {c : Cfg} {s s' : GS} {i : Nat} {stop : Bool} (h : fire c s (.worker i stop) = some s') :
    ∃ w r, s.workers[i]? = some w ∧ workerStep c s w stop = some r ∧
      s' = { r.1 with workers := s.workers.set i r.2 } ∧
      r.1.closed = s.closed ∧ r.1.run = s.run ∧ r.1.packet = s.packet ∧ r.1.workers = s.workers ∧
      r.1.devs = s.devs ∧ r.1.index = s.index ∧ r.1.nextCh = s.nextCh ∧ r.1.notifier = s.notifier ∧
      r.1.clock = s.clock ∧ r.1.last = s.last ∧ r.1.sent = s.sent ∧ r.1.ticks = s.ticks ∧
      r.1.nexts = s.nexts ∧ r.1.announced = s.announced := by
  unfold fire at h
  simp only at h
  cases hw : s.workers[i]? with
  | none => rw [hw] at h; cases h
  | some w =>
    rw [hw] at h
    obtain ⟨r, hr, e⟩ := Option.map_eq_some_iff.mp h
    refine ⟨w, r, rfl, hr, e.symm, ?_⟩
    unfold workerStep at hr
    cases w with
    | wait =>
      simp only at hr
      split at hr
      · split at hr
        · cases hr; exact ⟨rfl, rfl, rfl, rfl, rfl, rfl, rfl, rfl, rfl, rfl, rfl, rfl, rfl, rfl⟩
        · cases hr
      · split at hr
        · cases hr
        · cases hr; exact ⟨rfl, rfl, rfl, rfl, rfl, rfl, rfl, rfl, rfl, rfl, rfl, rfl, rfl, rfl⟩
    | got x =>
      simp only at hr
      split at hr
      · cases hr; exact ⟨rfl, rfl, rfl, rfl, rfl, rfl, rfl, rfl, rfl, rfl, rfl, rfl, rfl, rfl⟩
      · split at hr <;> (cases hr; exact ⟨rfl, rfl, rfl, rfl, rfl, rfl, rfl, rfl, rfl, rfl, rfl, rfl, rfl, rfl⟩)
    | enc x => cases hr; exact ⟨rfl, rfl, rfl, rfl, rfl, rfl, rfl, rfl, rfl, rfl, rfl, rfl, rfl, rfl⟩
    | mar x => cases hr; exact ⟨rfl, rfl, rfl, rfl, rfl, rfl, rfl, rfl, rfl, rfl, rfl, rfl, rfl, rfl⟩
    | call p => cases hr; exact ⟨rfl, rfl, rfl, rfl, rfl, rfl, rfl, rfl, rfl, rfl, rfl, rfl, rfl, rfl⟩
    | check =>
      simp only at hr
      split at hr <;> (cases hr; exact ⟨rfl, rfl, rfl, rfl, rfl, rfl, rfl, rfl, rfl, rfl, rfl, rfl, rfl, rfl⟩)
    | send =>
      simp only at hr
      split at hr
      · cases hr; exact ⟨rfl, rfl, rfl, rfl, rfl, rfl, rfl, rfl, rfl, rfl, rfl, rfl, rfl, rfl⟩
      · cases hr
    | leave => cases hr; exact ⟨rfl, rfl, rfl, rfl, rfl, rfl, rfl, rfl, rfl, rfl, rfl, rfl, rfl, rfl⟩
    | exit =>
      simp only at hr
      split at hr
      · cases hr; exact ⟨rfl, rfl, rfl, rfl, rfl, rfl, rfl, rfl, rfl, rfl, rfl, rfl, rfl, rfl⟩
      · cases hr
    | dead => cases hr

/-- How a worker's step changes the channels and its own class. -/
theorem worker_tokens {c : Cfg} {s : GS} {w : WPC} {stop : Bool} {r : GS × WPC}
    (h : workerStep c s w stop = some r) :
    -- slices and answers are conserved
    (r.1.sliceCh.length + (if r.2.busy then 1 else 0) + r.1.waitCh + (if w.isDead then 1 else 0) ≤
      s.sliceCh.length + (if w.busy then 1 else 0) + s.waitCh + (if r.2.isDead then 1 else 0)) ∧
    (s.closed = false → w.gone = false → r.2.gone = false ∧
      r.1.sliceCh.length + (if r.2.busy then 1 else 0) + r.1.waitCh =
      s.sliceCh.length + (if w.busy then 1 else 0) + s.waitCh) ∧
    r.1.sliceCh.length ≤ s.sliceCh.length ∧
    (r.1.waitCh ≤ s.waitCh ∨ r.1.waitCh = s.waitCh + 1 ∧ s.waitCh < c.numWorkers) ∧
    s.waitCh ≤ r.1.waitCh ∧
    (w.isDead = false) ∧ (r.2.isDead = true → r.1.waitCh = s.waitCh + 1) := by
  unfold workerStep at h
  cases w with
  | wait =>
    simp only at h
    split at h
    · split at h
      · rename_i hc
        cases h
        simp [WPC.busy, WPC.isDead, hc]
      · cases h
    · split at h
      · cases h
      · rename_i x rest hx
        cases h
        simp only [hx, List.length_cons, WPC.busy, WPC.isDead, WPC.gone]
        refine ⟨by simp, ?_⟩
        simp
  | got x =>
    simp only at h
    split at h
    · rename_i hc
      cases h
      simp [WPC.busy, WPC.isDead, hc]
    · split at h <;> (cases h; simp [WPC.busy, WPC.isDead, WPC.gone])
  | enc x => cases h; simp [WPC.busy, WPC.isDead, WPC.gone]
  | mar x => cases h; simp [WPC.busy, WPC.isDead, WPC.gone]
  | call p => cases h; simp [WPC.busy, WPC.isDead, WPC.gone]
  | check =>
    simp only at h
    split at h
    · rename_i hc
      cases h
      simp [WPC.busy, WPC.isDead, hc]
    · cases h; simp [WPC.busy, WPC.isDead, WPC.gone]
  | send =>
    simp only at h
    split at h
    · rename_i hl
      cases h
      simp [WPC.busy, WPC.isDead, WPC.gone, hl]
      omega
    · cases h
  | leave => cases h; simp [WPC.busy, WPC.isDead, WPC.gone]
  | exit =>
    simp only at h
    split at h
    · rename_i hl
      cases h
      simp [WPC.busy, WPC.isDead, WPC.gone, hl]
      omega
    · cases h
  | dead => cases h

theorem inv_worker {c : Cfg} {s s' : GS} {i : Nat} {stop : Bool} (h : Inv c s)
    (hs : fire c s (.worker i stop) = some s') : Inv c s' := by
  obtain ⟨w, r, hw, hr, rfl, e1, e2, e3, e4, -⟩ := worker_effect hs
  obtain ⟨-, t2, t3, t4, t5, t6, t7⟩ := worker_tokens hr
  have hb := count_set hw r.2 WPC.busy
  have hd := count_set hw r.2 WPC.isDead
  have hscap := h.scap
  have hwcap := h.wcap
  refine ⟨by simpa using h.len, by rw [e3]; exact h.plen, by rw [e2]; exact h.pc, ?_, ?_, ?_, ?_, ?_, ?_⟩
  · intro ho x hx
    simp only [e1] at ho
    rcases mem_set_of hx with rfl | hx
    · exact (t2 ho (h.live ho w (List.mem_of_getElem? hw))).1
    · exact h.live ho x hx
  · intro ho
    simp only [e1] at ho
    have := (t2 ho (h.live ho w (List.mem_of_getElem? hw))).2
    have ht := h.tokens ho
    simp only [e2]
    omega
  · simp only; omega
  · simp only; omega
  · intro k j e
    simp only [e2] at e
    have := h.room k j e
    simp only; omega
  · intro e
    simp only [e2] at e
    have := h.finals e
    simp only
    rw [t6] at hd
    simp only [Bool.false_eq_true, if_false, Nat.add_zero] at hd
    by_cases hx : r.2.isDead = true
    · rw [if_pos hx] at hd
      have := t7 hx
      omega
    · rw [if_neg hx] at hd
      omega

theorem notifier_effect {s s' : GS} {stop : Bool} (h : notifierStep s stop = some s') :
    s'.closed = s.closed ∧ s'.run = s.run ∧ s'.packet = s.packet ∧ s'.workers = s.workers ∧
    s'.devs = s.devs ∧ s'.index = s.index ∧ s'.sliceCh = s.sliceCh ∧ s'.waitCh = s.waitCh ∧
    s'.clock = s.clock ∧ s'.last = s.last ∧ s'.sent = s.sent ∧ s'.log = s.log ∧ s'.ticks = s.ticks := by
  unfold notifierStep at h
  cases hn : s.notifier with
  | wait =>
    rw [hn] at h
    simp only at h
    split at h
    · split at h
      · cases h; exact ⟨rfl, rfl, rfl, rfl, rfl, rfl, rfl, rfl, rfl, rfl, rfl, rfl, rfl⟩
      · cases h
    · split at h
      · cases h; exact ⟨rfl, rfl, rfl, rfl, rfl, rfl, rfl, rfl, rfl, rfl, rfl, rfl, rfl⟩
      · cases h
  | got =>
    rw [hn] at h
    simp only at h
    split at h <;> (cases h; exact ⟨rfl, rfl, rfl, rfl, rfl, rfl, rfl, rfl, rfl, rfl, rfl, rfl, rfl⟩)
  | call =>
    rw [hn] at h; cases h; exact ⟨rfl, rfl, rfl, rfl, rfl, rfl, rfl, rfl, rfl, rfl, rfl, rfl, rfl⟩
  | done => rw [hn] at h; cases h

theorem inv_fire {c : Cfg} {s s' : GS} {a : Act} (h : Inv c s) (hs : fire c s a = some s') : Inv c s' := by
  cases a with
  | close =>
    cases hs
    exact ⟨h.len, h.plen, h.pc, fun e => by (cases e), fun e => by (cases e), h.scap, h.wcap, h.room, h.finals⟩
  | ticker =>
    simp only [fire] at hs
    split at hs
    · rename_i hr
      cases hs
      have ht := h.tokens
      rw [hr] at ht
      exact ⟨h.len, h.plen, trivial, h.live, ht, h.scap, h.wcap,
        fun k i e => by (cases e), fun e => by rcases e with ⟨_, e⟩ | ⟨_, _, e⟩ <;> cases e⟩
    · cases hs
  | attach p =>
    simp only [fire] at hs
    split at hs
    · cases hs
    · cases hs
      exact ⟨h.len, h.plen, h.pc, h.live, h.tokens, h.scap, h.wcap, h.room, h.finals⟩
  | detach i =>
    simp only [fire] at hs
    split at hs
    · cases hs
    · cases hs
      exact ⟨h.len, h.plen, h.pc, h.live, h.tokens, h.scap, h.wcap, h.room, h.finals⟩
  | run => exact inv_run h hs
  | worker i stop => exact inv_worker h hs
  | notifier stop =>
    obtain ⟨e1, e2, e3, e4, e5, e6, e7, e8, -⟩ := notifier_effect hs
    exact ⟨by rw [e4]; exact h.len, by rw [e3]; exact h.plen, by rw [e2]; exact h.pc,
      by rw [e1, e4]; exact h.live, by rw [e1, e2, e4, e7, e8]; exact h.tokens,
      by rw [e7]; exact h.scap, by rw [e8]; exact h.wcap, by rw [e2, e7]; exact h.room,
      by rw [e2, e4, e8]; exact h.finals⟩

theorem reach_inv {c : Cfg} {s : GS} (h : Reach c s) : Inv c s := by
  induction h with
  | init devs => exact inv_init c devs
  | step a _ h ih => exact inv_fire ih h

end Run
end GpsGen
