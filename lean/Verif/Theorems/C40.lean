import Verif.Theorems.C41
/-!
# C40: Close always stops Run

As stated the property is false. A worker that is about to answer when the generator is closed can find
the answer channel filled by the final answers of the other workers, if the packet was divided among the
workers (`hang`); with one worker, closing in the middle of a tick with more devices than a packet holds
leaves a slice in the channel on which the run loop then blocks (`hang_one_worker`).

Proved: if throughout the execution the devices fit into one undivided packet, Run returns under every
scheduling. With the default options these are up to 2052 devices.
-/

namespace GpsGen
namespace C40
open Run C41

/-! ## Specification -/

/-- `Path c P s as s'`: the schedule `as` leads from `s` to `s'`, and `P` holds all along. -/
inductive Path (c : Cfg) (P : GS → Prop) : GS → List Act → GS → Prop
  | nil {s : GS} (h : P s) : Path c P s [] s
  | cons {s s1 s' : GS} {a : Act} {as : List Act} (h : P s) (h1 : fire c s a = some s1)
      (h2 : Path c P s1 as s') : Path c P s (a :: as) s'

/-- The devices fit into one undivided packet. -/
def Fits (c : Cfg) (s : GS) : Prop :=
  s.devs.length < c.packetSize ∧ s.devs.length ≤ c.numWorkers + c.packetSize / c.numWorkers

/-- The action does not attach or detach a device. -/
def keeps : Act → Bool
  | .attach _ | .detach _ => false
  | _ => true

/-- From this state on, `Run` does not return whatever happens. -/
def NeverReturns (c : Cfg) (s : GS) : Prop := ∀ bs s', exec c s bs = some s' → s'.returned = false

/-! ## Invariant -/

/-- Places of the run loop when packets are neither full nor divided. -/
def plain : RPC → Bool
  | .idle | .ticked | .adv _ | .fill _ | .fsend none | .fcheck none | .fwait none | .reset | .notify | .fin
  | .done => true
  | _ => false

/-- Places before the slice of this tick is sent. -/
def early : RPC → Bool
  | .adv _ | .fill _ | .fsend _ => true
  | _ => false

/-- Slices sent in this tick. -/
def sentNow (r : RPC) : Nat := if early r then 0 else 1

structure Inv1 (c : Cfg) (s : GS) : Prop where
  plain : plain s.run = true
  index : ∀ i, s.run = .fill i → s.index = i ∧ i ≤ s.devs.length
  empty : early s.run = true → s.sliceCh = []
  tokens : s.sliceCh.length + s.workers.countP WPC.busy + s.waitCh ≤ sentNow s.run + s.workers.countP WPC.isDead

theorem enter_fits {c : Cfg} {n : Nat} (h : n ≤ c.numWorkers + c.packetSize / c.numWorkers) (k : Option Nat) :
    c.enter n k = .fsend k := by
  unfold Cfg.enter Cfg.single Cfg.workerSize
  rw [decide_eq_true h, if_pos rfl]

theorem inv1_run {c : Cfg} {s s' : GS} (hinv : Inv c s) (h : Inv1 c s) (hf : Fits c s)
    (hs : runStep c s = some s') : Inv1 c s' := by
  have hpl := h.plain
  have hix := h.index
  have hem := h.empty
  have htk := h.tokens
  unfold runStep at hs
  cases hr : s.run with
  | idle =>
    rw [hr] at hs htk; simp only at hs
    split at hs <;> cases hs
    exact ⟨rfl, nofun, nofun, htk⟩
  | ticked =>
    rw [hr] at hs htk; simp only at hs
    split at hs
    · cases hs; exact ⟨rfl, nofun, nofun, htk⟩
    · rename_i hc
      cases hs
      have ht := hinv.tokens (by simpa using hc)
      rw [hr] at ht
      simp only [Cfg.out] at ht
      refine ⟨rfl, nofun, fun _ => List.length_eq_zero_iff.mp (by simp only; omega), ?_⟩
      simp only
      omega
  | adv i =>
    rw [hr] at hs htk hem; simp only at hs
    split at hs <;> cases hs
    · exact ⟨rfl, nofun, fun _ => hem rfl, htk⟩
    · exact ⟨rfl, fun i e => by cases e; exact ⟨rfl, Nat.zero_le _⟩, fun _ => hem rfl, htk⟩
  | fill i =>
    obtain ⟨hi1, hi2⟩ := hix i hr
    rw [hr] at hs htk hem; simp only at hs
    split at hs
    · rename_i p hp
      have hlt := (List.getElem?_eq_some_iff.mp hp).1
      split at hs
      · split at hs
        · rename_i hx
          have := hf.1
          omega
        · cases hs
          refine ⟨rfl, fun j e => ?_, fun _ => hem rfl, htk⟩
          cases e
          simp only
          exact ⟨by omega, by omega⟩
      · cases hs
    · cases hs
      have e := enter_fits (c := c) (n := s.index) (by have := hf.2; omega) none
      simp only [e]
      exact ⟨rfl, nofun, fun _ => hem rfl, htk⟩
  | fsend k =>
    rw [hr] at hs htk hem hpl; simp only at hs
    split at hs <;> cases hs
    have e := hem rfl
    cases k with
    | some i => cases hpl
    | none =>
      refine ⟨rfl, nofun, nofun, ?_⟩
      simp only [GS.push, List.length_append, List.length_singleton, sentNow, early] at htk ⊢
      simp at htk ⊢
      omega
  | fcheck k =>
    rw [hr] at hs htk hpl; simp only at hs
    cases k with
    | some i => cases hpl
    | none =>
      split at hs <;> cases hs
      · exact ⟨rfl, nofun, nofun, htk⟩
      · exact ⟨rfl, nofun, nofun, htk⟩
  | fwait k =>
    rw [hr] at hs htk hpl; simp only at hs
    cases k with
    | some i => cases hpl
    | none =>
      split at hs <;> cases hs
      refine ⟨rfl, nofun, nofun, ?_⟩
      simp only [sentNow, early, RPC.after] at htk ⊢
      simp at htk ⊢
      omega
  | mcheck k i => rw [hr] at hpl; cases hpl
  | msend k i => rw [hr] at hpl; cases hpl
  | wcheck k j => rw [hr] at hpl; cases hpl
  | mwait k j => rw [hr] at hpl; cases hpl
  | relock i => rw [hr] at hpl; cases hpl
  | reset =>
    rw [hr] at hs htk; simp only at hs
    split at hs <;> cases hs
    exact ⟨rfl, nofun, nofun, htk⟩
  | notify => rw [hr] at hs htk; cases hs; exact ⟨rfl, nofun, nofun, htk⟩
  | fin => rw [hr] at hs htk; cases hs; exact ⟨rfl, nofun, nofun, htk⟩
  | done => rw [hr] at hs; cases hs

theorem inv1_fire {c : Cfg} {s s' : GS} {a : Act} (hinv : Inv c s) (h : Inv1 c s) (hf : Fits c s)
    (hs : fire c s a = some s') : Inv1 c s' := by
  cases a with
  | close => cases hs; exact ⟨h.plain, h.index, h.empty, h.tokens⟩
  | ticker =>
    simp only [fire] at hs
    split at hs
    · rename_i hr
      have htk := h.tokens
      rw [hr] at htk
      cases hs
      exact ⟨rfl, nofun, nofun, htk⟩
    · cases hs
  | attach p =>
    simp only [fire] at hs
    split at hs
    · cases hs
    · rename_i hl
      cases hs
      exact ⟨h.plain, fun i e => by simp only at e; rw [e] at hl; exact absurd rfl hl, h.empty, h.tokens⟩
  | detach i =>
    simp only [fire] at hs
    split at hs
    · cases hs
    · rename_i hl
      cases hs
      exact ⟨h.plain, fun i e => by simp only at e; rw [e] at hl; exact absurd rfl hl, h.empty, h.tokens⟩
  | run => exact inv1_run hinv h hf hs
  | worker i stop =>
    obtain ⟨w, r, hw, hr, rfl, e1, e2, e3, e4, e5, e6, -⟩ := worker_effect hs
    obtain ⟨t1, t2, t3, -⟩ := worker_tokens hr
    have hb := count_set hw r.2 WPC.busy
    have hd := count_set hw r.2 WPC.isDead
    have htk := h.tokens
    refine ⟨by rw [e2]; exact h.plain, by simp only [e2, e5, e6]; exact h.index, ?_, ?_⟩
    · intro e
      simp only [e2] at e
      have := h.empty e
      rw [this] at t3
      exact List.length_eq_zero_iff.mp (Nat.le_zero.mp t3)
    · simp only [e2]
      omega
  | notifier stop =>
    obtain ⟨e1, e2, e3, e4, e5, e6, e7, e8, -⟩ := notifier_effect hs
    exact ⟨by rw [e2]; exact h.plain, by rw [e2, e5, e6]; exact h.index, by rw [e2, e7]; exact h.empty,
      by rw [e2, e4, e7, e8]; exact h.tokens⟩

theorem inv1_init (c : Cfg) (devs : List Nat) : Inv1 c (GS.init c devs) := by
  refine ⟨rfl, nofun, nofun, ?_⟩
  have e : (List.replicate c.numWorkers WPC.wait).countP WPC.busy = 0 := by simp [WPC.busy]
  simp only [GS.init, List.length_nil, e]
  omega

theorem path_inv {c : Cfg} {s s' : GS} {as : List Act} (hp : Path c (Fits c) s as s') (h : Reach c s)
    (h1 : Inv1 c s) : Reach c s' ∧ Inv1 c s' ∧ Fits c s' := by
  induction hp with
  | nil hf => exact ⟨h, h1, hf⟩
  | cons hf hs _ ih => exact ih (Reach.step _ h hs) (inv1_fire (reach_inv h) h1 hf hs)

/-! ## No stuck state -/

theorem stop_steps {c : Cfg} {s : GS} (hc : s.closed = true) (hl : s.waitCh < c.numWorkers) {w : WPC}
    (hw : w ∈ s.workers) (hd : w ≠ .dead) : CanStep c s := by
  obtain ⟨i, hi⟩ := List.mem_iff_getElem?.mp hw
  by_cases hb : w.busy = true
  · exact busy_steps (List.countP_pos_iff.mpr ⟨w, hw, hb⟩) hl
  · cases w with
    | wait => exact worker_steps (stop := true) hi (r := (s, .leave)) (by simp [workerStep, hc])
    | leave => exact worker_steps (stop := false) hi rfl
    | exit =>
      exact worker_steps (stop := false) hi (r := ({ s with waitCh := s.waitCh + 1 }, .dead))
        (by simp [workerStep, hl])
    | dead => exact absurd rfl hd
    | _ => exact absurd rfl hb

theorem closed_not_stuck {c : Cfg} {s : GS} (hn : 1 ≤ c.numWorkers) (inv : Inv c s) (h : Inv1 c s)
    (hc : s.closed = true) : CanStep c s ∨ s.returned = true := by
  by_cases hx : CanStep c s
  · exact Or.inl hx
  right
  -- the run loop is done
  have hrun : s.run = .done := by
    have hpl := h.plain
    cases hr : s.run with
    | done => rfl
    | idle => exact absurd (run_steps (s' := { s with run := .fin }) (by simp [runStep, hr, hc])) hx
    | ticked => exact absurd (run_steps (s' := { s with run := .fin }) (by simp [runStep, hr, hc])) hx
    | adv i =>
      cases hd : s.devs[i]? with
      | some p => exact absurd (run_steps (by simp only [runStep, hr, hd]; rfl)) hx
      | none => exact absurd (run_steps (by simp only [runStep, hr, hd]; rfl)) hx
    | fill i =>
      cases hd : s.devs[i]? with
      | some p =>
        cases hw : s.writable with
        | false => exact absurd (marshalling_steps hw) hx
        | true =>
          by_cases hp : s.index + 1 = c.packetSize
          · exact absurd (run_steps (by simp only [runStep, hr, hd, hw, hp, if_true]; rfl)) hx
          · exact absurd (run_steps (by simp only [runStep, hr, hd, hw, hp, if_true, if_false]; rfl)) hx
      | none => exact absurd (run_steps (by simp only [runStep, hr, hd]; rfl)) hx
    | fsend k =>
      have e := h.empty (by rw [hr]; rfl)
      have : s.sliceCh.length < c.numWorkers := by rw [e]; exact hn
      exact absurd (run_steps (by simp only [runStep, hr, this, if_true]; rfl)) hx
    | fcheck k => exact absurd (run_steps (s' := { s with run := .after k }) (by simp [runStep, hr, hc])) hx
    | fwait k =>
      exfalso
      by_cases hw : s.waitCh > 0
      · exact hx (run_steps (by simp only [runStep, hr, hw, if_true]; rfl))
      · have hd := inv.finals (Or.inl ⟨k, hr⟩)
        have hlen := inv.len
        have h0 : 0 < s.workers.length := by omega
        have hm : s.workers[0] ∈ s.workers := List.getElem_mem h0
        refine hx (stop_steps hc (by omega) hm ?_)
        intro e
        have : 0 < s.workers.countP WPC.isDead := List.countP_pos_iff.mpr ⟨_, hm, by rw [e]; rfl⟩
        omega
    | mcheck k i => rw [hr] at hpl; cases hpl
    | msend k i => rw [hr] at hpl; cases hpl
    | wcheck k j => rw [hr] at hpl; cases hpl
    | mwait k j => rw [hr] at hpl; cases hpl
    | relock i => rw [hr] at hpl; cases hpl
    | reset =>
      cases hw : s.writable with
      | false => exact absurd (marshalling_steps hw) hx
      | true => exact absurd (run_steps (by simp only [runStep, hr, hw, if_true]; rfl)) hx
    | notify => exact absurd (run_steps (by simp only [runStep, hr]; rfl)) hx
    | fin => exact absurd (run_steps (by simp only [runStep, hr]; rfl)) hx
  -- the notifier is done
  have hnot : s.notifier = .done := by
    cases hn : s.notifier with
    | wait => exact absurd ⟨.notifier true, _, rfl, by simp only [fire, notifierStep, hn, hc]; rfl⟩ hx
    | got => exact absurd ⟨.notifier false, _, rfl, by simp only [fire, notifierStep, hn, hc]; rfl⟩ hx
    | call => exact absurd ⟨.notifier false, _, rfl, by simp only [fire, notifierStep, hn]; rfl⟩ hx
    | done => rfl
  -- the workers are done
  have hwork : ∀ w ∈ s.workers, w = .exit ∨ w = .dead := by
    intro w hw
    by_cases hd : w = .dead
    · exact Or.inr hd
    · by_cases hl : s.waitCh < c.numWorkers
      · exact absurd (stop_steps hc hl hw hd) hx
      · obtain ⟨i, hi⟩ := List.mem_iff_getElem?.mp hw
        have htk := h.tokens
        rw [hrun] at htk
        simp only [sentNow, early] at htk
        have hlen := inv.len
        have hdead : s.workers.countP WPC.isDead < s.workers.length :=
          count_lt hi (by cases w <;> first | rfl | exact absurd rfl hd)
        have hnb : ¬ 0 < s.workers.countP WPC.busy := by simp at htk; omega
        have hnb' : ¬ w.busy = true := fun hb => hnb (List.countP_pos_iff.mpr ⟨w, hw, hb⟩)
        cases w with
        | wait =>
          exact absurd (worker_steps (stop := true) hi (r := (s, .leave)) (by simp [workerStep, hc])) hx
        | leave => exact absurd (worker_steps (stop := false) hi (r := (s, .exit)) rfl) hx
        | exit => exact Or.inl rfl
        | dead => exact Or.inr rfl
        | _ => exact absurd rfl hnb'
  unfold GS.returned
  rw [hrun, hnot, Bool.and_eq_true, Bool.and_eq_true, List.all_eq_true]
  refine ⟨⟨rfl, fun w hw => ?_⟩, rfl⟩
  rcases hwork w hw with rfl | rfl <;> rfl

/-! ## Termination -/

theorem env_measure {c : Cfg} {s s' : GS} {a : Act} (h : Inv1 c s) (hc : s.closed = true)
    (ha : a.internal = false) (hs : fire c s a = some s') : Run.measure c s' ≤ Run.measure c s := by
  have hpl := h.plain
  have key : ∀ n m, ¬ s.run.locked = true → c.rank true n s.run = c.rank true m s.run := by
    intro n m hl
    cases hr : s.run with
    | adv i => rw [hr] at hl; exact absurd rfl hl
    | fill i => rw [hr] at hl; exact absurd rfl hl
    | fsend k => rw [hr] at hpl; cases k with
      | none => rfl
      | some i => cases hpl
    | fcheck k => rw [hr] at hpl; cases k with
      | none => rfl
      | some i => cases hpl
    | fwait k => rw [hr] at hpl; cases k with
      | none => rfl
      | some i => cases hpl
    | mcheck k i => rw [hr] at hpl; cases hpl
    | msend k i => rw [hr] at hpl; cases hpl
    | wcheck k j => rw [hr] at hpl; cases hpl
    | mwait k j => rw [hr] at hpl; cases hpl
    | relock i => rw [hr] at hpl; cases hpl
    | _ => rfl
  cases a with
  | close =>
    cases hs
    unfold Run.measure
    simp only [hc]
    exact Nat.le_refl _
  | ticker =>
    simp only [fire] at hs
    split at hs
    · rename_i hr
      cases hs
      unfold Run.measure
      simp only [hc, hr, Cfg.rank, if_true]
      omega
    · cases hs
  | attach p =>
    simp only [fire] at hs
    split at hs
    · cases hs
    · rename_i hl
      cases hs
      unfold Run.measure
      simp only [hc]
      rw [key _ s.devs.length hl]
  | detach i =>
    simp only [fire] at hs
    split at hs
    · cases hs
    · rename_i hl
      cases hs
      unfold Run.measure
      simp only [hc]
      rw [key _ s.devs.length hl]
  | run => cases ha
  | worker i stop => cases ha
  | notifier stop => cases ha

theorem fire_closed {c : Cfg} {s s' : GS} {a : Act} (hc : s.closed = true) (hs : fire c s a = some s') :
    s'.closed = true := by
  cases a with
  | close => cases hs; rfl
  | ticker => simp only [fire] at hs; split at hs <;> cases hs; exact hc
  | attach p => simp only [fire] at hs; split at hs <;> cases hs; exact hc
  | detach i => simp only [fire] at hs; split at hs <;> cases hs; exact hc
  | run => rw [run_closed hs]; exact hc
  | worker i stop => rw [closed_internal rfl hs]; exact hc
  | notifier stop => rw [closed_internal rfl hs]; exact hc

theorem path_measure {c : Cfg} {s s' : GS} {as : List Act} (hp : Path c (Fits c) s as s') (h : Reach c s)
    (h1 : Inv1 c s) (hc : s.closed = true) :
    as.countP Act.internal + Run.measure c s' ≤ Run.measure c s ∧ s'.closed = true := by
  induction hp with
  | nil hf => exact ⟨by simp, hc⟩
  | @cons s s1 s' a as hf hs _ ih =>
    obtain ⟨k1, k2⟩ := ih (Reach.step _ h hs) (inv1_fire (reach_inv h) h1 hf hs) (fire_closed hc hs)
    refine ⟨?_, k2⟩
    rw [List.countP_cons]
    cases ha : a.internal with
    | true =>
      have := internal_decreases (reach_inv h).pc ha hs
      simp only [if_true]
      omega
    | false =>
      have := env_measure h1 hc ha hs
      simp only [Bool.false_eq_true, if_false]
      omega

/-- **C40, partial.** Suppose that the devices fit into one undivided packet all along. After `Close`, the
goroutines take a bounded number of steps whatever the schedule and whatever clients do, and when none of
them can take a step, `Run` has returned. -/
theorem close_stops_partial (c : Cfg) (hn : 1 ≤ c.numWorkers) (devs : List Nat) (as : List Act) (s : GS)
    (hp : Path c (Fits c) (GS.init c devs) as s) (hc : s.closed = true) :
    ∃ bound, ∀ bs s', Path c (Fits c) s bs s' →
      bs.countP Act.internal ≤ bound ∧ (CanStep c s' ∨ s'.returned = true) := by
  obtain ⟨k1, k2, -⟩ := path_inv hp (Reach.init devs) (inv1_init c devs)
  refine ⟨Run.measure c s, fun bs s' hq => ?_⟩
  obtain ⟨m1, m2⟩ := path_measure hq k1 k2 hc
  obtain ⟨q1, q2, -⟩ := path_inv hq k1 k2
  exact ⟨by omega, closed_not_stuck hn (reach_inv q1) q2 m2⟩

/-- In every configuration, a closed generator whose goroutines run undisturbed stops taking steps. -/
theorem close_terminates (c : Cfg) (s : GS) (h : Reach c s) :
    ∃ bound, ∀ bs s', (∀ b ∈ bs, b.internal = true) → exec c s bs = some s' → bs.length ≤ bound :=
  ⟨Run.measure c s, fun _ _ hb he => by have := internal_bounded h hb he; omega⟩

/-! ## The hang with a divided packet -/

/-- `s'` is reachable from `s` without attaching or detaching devices. -/
def Steps (c : Cfg) (s s' : GS) : Prop := ∃ as, as.all keeps = true ∧ exec c s as = some s'

theorem Steps.refl (c : Cfg) (s : GS) : Steps c s s := ⟨[], rfl, rfl⟩

theorem Steps.head {c : Cfg} {s s1 s' : GS} (a : Act) (h : fire c s a = some s1) (h2 : Steps c s1 s')
    (hk : keeps a = true := by rfl) : Steps c s s' := by
  obtain ⟨as, k, e⟩ := h2
  exact ⟨a :: as, by rw [List.all_cons, hk, k]; rfl, by simp only [exec, h, Option.bind_some, e]⟩

theorem Steps.trans {c : Cfg} {s s1 s' : GS} (h : Steps c s s1) (h2 : Steps c s1 s') : Steps c s s' := by
  obtain ⟨as, k, e⟩ := h
  obtain ⟨bs, k', e'⟩ := h2
  exact ⟨as ++ bs, by rw [List.all_append, k, k']; rfl, by rw [exec_append, e]; exact e'⟩

/-- An open state with idle workers. -/
structure Ready (c : Cfg) (n : Nat) (s : GS) : Prop where
  open_ : s.closed = false
  workers : s.workers = List.replicate c.numWorkers .wait
  waitCh : s.waitCh = 0
  devs : s.devs.length = n

theorem ready_writable {c : Cfg} {n : Nat} {s : GS} (h : Ready c n s) : s.writable = true := by
  unfold GS.writable
  rw [h.workers]
  simp [WPC.marshalling]

theorem reach_fill0 {c : Cfg} {n : Nat} : ∀ (m : Nat) (s : GS) (i : Nat), n = i + m → Ready c n s →
    s.sliceCh = [] → s.run = .adv i →
    ∃ s', Steps c s s' ∧ Ready c n s' ∧ s'.sliceCh = [] ∧ s'.run = .fill 0 ∧ s'.index = 0 := by
  intro m
  induction m with
  | zero =>
    intro s i hm h hq hr
    have hd : s.devs[i]? = none := by rw [List.getElem?_eq_none_iff, h.devs]; omega
    exact ⟨{ s with index := 0, run := .fill 0 },
      Steps.head .run (by simp only [fire, runStep, hr, hd]) (Steps.refl _ _),
      ⟨h.open_, h.workers, h.waitCh, h.devs⟩, hq, rfl, rfl⟩
  | succ m ih =>
    intro s i hm h hq hr
    have hi : i < s.devs.length := by rw [h.devs]; omega
    have hd : s.devs[i]? = some s.devs[i] := List.getElem?_eq_getElem hi
    obtain ⟨s', k1, k2⟩ := ih { s with last := setAt s.last s.devs[i] s.clock, run := .adv (i + 1) } (i + 1)
      (by omega) ⟨h.open_, h.workers, h.waitCh, h.devs⟩ hq rfl
    exact ⟨s', Steps.head .run (by simp only [fire, runStep, hr, hd]) k1, k2⟩

/-- The fill level of the first packet of a tick. -/
def level (c : Cfg) (n : Nat) : Nat := min n (c.packetSize - 1)

theorem reach_flush {c : Cfg} {n : Nat} (hP : 1 ≤ c.packetSize) : ∀ (m : Nat) (s : GS) (i : Nat),
    level c n = i + m → Ready c n s → s.sliceCh = [] → s.run = .fill i → s.index = i →
    ∃ s', Steps c s s' ∧ Ready c n s' ∧ s'.sliceCh = [] ∧ s'.index = level c n ∧
      s'.run = c.enter (level c n) (if n < c.packetSize then none else some (c.packetSize - 1)) := by
  intro m
  induction m with
  | zero =>
    intro s i hm h hq hr hx
    have hw := ready_writable h
    by_cases hn : n < c.packetSize
    · have hi : i = n := by unfold level at hm; omega
      have hd : s.devs[i]? = none := by rw [List.getElem?_eq_none_iff, h.devs]; omega
      refine ⟨{ s with run := c.enter s.index none },
        Steps.head .run (by simp only [fire, runStep, hr, hd]) (Steps.refl _ _),
        ⟨h.open_, h.workers, h.waitCh, h.devs⟩, hq, by simp only; omega, ?_⟩
      simp only [hn, if_true]
      rw [show s.index = level c n by omega]
    · have hi : i < s.devs.length := by rw [h.devs]; unfold level at hm; omega
      have hd : s.devs[i]? = some s.devs[i] := List.getElem?_eq_getElem hi
      have hx1 : s.index + 1 = c.packetSize := by unfold level at hm; omega
      refine ⟨{ s with
          packet := s.packet.set s.index (some (s.devs[i], s.clock)), run := c.enter s.index (some i) },
        Steps.head .run (by simp only [fire, runStep, hr, hd, hw, hx1, if_true]) (Steps.refl _ _),
        ⟨h.open_, h.workers, h.waitCh, h.devs⟩, hq, by simp only; omega, ?_⟩
      simp only [hn, if_false]
      rw [show s.index = level c n by omega, show i = c.packetSize - 1 by omega]
  | succ m ih =>
    intro s i hm h hq hr hx
    have hw := ready_writable h
    have hi : i < s.devs.length := by rw [h.devs]; unfold level at hm; omega
    have hd : s.devs[i]? = some s.devs[i] := List.getElem?_eq_getElem hi
    have hx1 : ¬ s.index + 1 = c.packetSize := by unfold level at hm; omega
    obtain ⟨s', k1, k2⟩ := ih { s with
        packet := s.packet.set s.index (some (s.devs[i], s.clock)), index := s.index + 1, run := .fill (i + 1) }
      (i + 1) (by omega) ⟨h.open_, h.workers, h.waitCh, h.devs⟩ hq rfl (by simp only; omega)
    exact ⟨s', Steps.head .run (by simp only [fire, runStep, hr, hd, hw, hx1, if_true, if_false]) k1, k2⟩

/-- From the start to the first flush. -/
theorem reach_first_flush (c : Cfg) (hP : 1 ≤ c.packetSize) (devs : List Nat) :
    ∃ s', Steps c (GS.init c devs) s' ∧ Ready c devs.length s' ∧ s'.sliceCh = [] ∧
      s'.index = level c devs.length ∧ s'.run = c.enter (level c devs.length)
        (if devs.length < c.packetSize then none else some (c.packetSize - 1)) := by
  obtain ⟨s1, a1, a2, a3, a4, a5⟩ := reach_fill0 (c := c) (n := devs.length) devs.length
    { GS.init c devs with run := .adv 0, clock := 1 } 0 (by omega) ⟨rfl, rfl, rfl, rfl⟩ rfl rfl
  obtain ⟨s2, b1, b2⟩ := reach_flush (c := c) (n := devs.length) hP (level c devs.length) s1 0 (by omega) a2 a3 a4 a5
  refine ⟨s2, ?_, b2⟩
  refine Steps.head .ticker (s1 := { GS.init c devs with run := .ticked }) rfl ?_
  refine Steps.head .run (s1 := { GS.init c devs with run := .adv 0, clock := 1 }) rfl ?_
  exact a1.trans b1

theorem reach_sent {c : Cfg} {n : Nat} {k : Option Nat} : ∀ (m : Nat) (s : GS) (i : Nat),
    c.numWorkers = i + m → Ready c n s → s.sliceCh.length = i → s.run = .mcheck k i →
    ∃ s', Steps c s s' ∧ Ready c n s' ∧ s'.sliceCh.length = c.numWorkers ∧ s'.run = .wcheck k 0 := by
  intro m
  induction m with
  | zero =>
    intro s i hm h hq hr
    have hi : ¬ i < c.numWorkers := by omega
    exact ⟨{ s with run := .wcheck k 0 },
      Steps.head .run (by simp only [fire, runStep, hr, hi, if_false]) (Steps.refl _ _),
      ⟨h.open_, h.workers, h.waitCh, h.devs⟩, by simp only; omega, rfl⟩
  | succ m ih =>
    intro s i hm h hq hr
    have hi : i < c.numWorkers := by omega
    have ho := h.open_
    obtain ⟨s', k1, k2⟩ := ih (({ s with run := RPC.msend k i } : GS).push (c.part s.index i) (.mcheck k (i + 1)))
      (i + 1) (by omega) ⟨h.open_, h.workers, h.waitCh, h.devs⟩ (by simp [GS.push, hq]) rfl
    refine ⟨s', ?_, k2⟩
    refine Steps.head .run (s1 := { s with run := RPC.msend k i })
      (by simp only [fire, runStep, hr, hi, if_true, ho]; rfl) ?_
    refine Steps.head .run ?_ k1
    have : ({ s with run := RPC.msend k i } : GS).sliceCh.length < c.numWorkers := by simp only; omega
    simp only [fire, runStep, this, if_true]

/-- A waiting worker takes a slice and works until it is about to answer. -/
theorem reach_send {c : Cfg} {s : GS} {i : Nat} {x : Slice} {rest : List Slice} (ho : s.closed = false)
    (hw : s.workers[i]? = some .wait) (hq : s.sliceCh = x :: rest) :
    ∃ s', Steps c s s' ∧ s'.closed = false ∧ s'.run = s.run ∧ s'.waitCh = s.waitCh ∧ s'.sliceCh = rest ∧
      s'.workers = s.workers.set i .send := by
  have hlt := (List.getElem?_eq_some_iff.mp hw).1
  have get : ∀ w : WPC, (s.workers.set i w)[i]? = some w := fun w => List.getElem?_set_self hlt
  let t (w : WPC) : GS := { s with sliceCh := rest, workers := s.workers.set i w }
  have s1 : fire c s (.worker i false) = some (t (.got x)) := by
    simp only [fire, hw, workerStep, hq]
    rfl
  by_cases hx : x.lo = 0 ∧ x.hi = 0
  · refine ⟨t .send, ?_, ho, rfl, rfl, rfl, rfl⟩
    refine Steps.head _ s1 (Steps.head (.worker i false) (s1 := t .send) ?_ (Steps.refl _ _))
    simp only [fire, t, get, workerStep, ho, hx]
    simp
  · let p : Packet := (t (.mar x)).cut x
    let u (w : WPC) : GS := { s with sliceCh := rest, workers := s.workers.set i w, log := s.log ++ [p] }
    refine ⟨u .send, ?_, ho, rfl, rfl, rfl, rfl⟩
    refine Steps.head _ s1 (Steps.head (.worker i false) (s1 := t (.enc x)) ?_ ?_)
    · simp only [fire, t, get, workerStep, ho, hx]
      simp
    refine Steps.head (.worker i false) (s1 := t (.mar x)) ?_ ?_
    · simp only [fire, t, get, workerStep]
      simp
    refine Steps.head (.worker i false) (s1 := t (.call p)) ?_ ?_
    · simp only [fire, t, get, workerStep]
      simp [p, t]
    refine Steps.head (.worker i false) (s1 := u .check) ?_ ?_
    · simp only [fire, t, get, workerStep]
      simp [u]
    refine Steps.head (.worker i false) (s1 := u .send) ?_ (Steps.refl _ _)
    simp only [fire, u, get, workerStep, ho]
    simp

/-- Waiting workers leave one after the other, each filling the answer channel by one. -/
theorem reach_full {c : Cfg} : ∀ (m : Nat) (s : GS) (j : Nat), c.numWorkers = j + m → 1 ≤ j →
    s.closed = true → s.workers.length = c.numWorkers → s.waitCh = j → s.workers[0]? = some .send →
    (∀ l, j ≤ l → l < c.numWorkers → s.workers[l]? = some .wait) →
    ∃ s', Steps c s s' ∧ s'.closed = true ∧ s'.waitCh = c.numWorkers ∧ s'.workers[0]? = some .send ∧
      s'.run = s.run := by
  intro m
  induction m with
  | zero =>
    intro s j hm hj hc hl hw h0 hr
    exact ⟨s, Steps.refl _ _, hc, by omega, h0, rfl⟩
  | succ m ih =>
    intro s j hm hj hc hl hw h0 hr
    have hj' := hr j (Nat.le_refl _) (by omega)
    have hlt : j < s.workers.length := by omega
    have get : ∀ w : WPC, (s.workers.set j w)[j]? = some w := fun w => List.getElem?_set_self hlt
    let t (w : WPC) : GS := { s with workers := s.workers.set j w }
    let u : GS := { s with workers := s.workers.set j .dead, waitCh := s.waitCh + 1 }
    obtain ⟨s', k1, k2, k3, k4, k5⟩ := ih u (j + 1) (by omega) (by omega) hc (by simpa [u] using hl) (by simp [u, hw])
      (by simp only [u]; rw [List.getElem?_set_ne (by omega)]; exact h0)
      (fun l h1 h2 => by simp only [u]; rw [List.getElem?_set_ne (by omega)]; exact hr l (by omega) h2)
    refine ⟨s', ?_, k2, k3, k4, k5⟩
    refine Steps.head (.worker j true) (s1 := t .leave) ?_ ?_
    · simp only [fire, hj', workerStep, hc]
      simp [t]
    refine Steps.head (.worker j false) (s1 := t .exit) ?_ ?_
    · simp only [fire, t, get, workerStep]
      simp
    refine Steps.head (.worker j false) (s1 := u) ?_ k1
    have : s.waitCh < c.numWorkers := by omega
    simp only [fire, t, get, workerStep, this]
    simp [u]

/-- Closed, a worker about to answer, the answer channel full, and the run loop not going to receive. -/
structure Jam (c : Cfg) (s : GS) : Prop where
  closed : s.closed = true
  full : s.waitCh = c.numWorkers
  stuck : s.workers[0]? = some .send
  past : (∀ k, s.run ≠ .fwait k) ∧ ∀ k j, s.run ≠ .mwait k j

theorem jam_run {c : Cfg} {s s' : GS} (h : Jam c s) (hs : runStep c s = some s') : Jam c s' := by
  obtain ⟨h1, h2, h3, h4⟩ := h
  have ne : ∀ k, (∀ k', RPC.after k ≠ .fwait k') ∧ ∀ k' j, RPC.after k ≠ .mwait k' j := by
    intro k; cases k <;> exact ⟨nofun, nofun⟩
  have nen : ∀ i k, (∀ k', c.enter i k ≠ .fwait k') ∧ ∀ k' j, c.enter i k ≠ .mwait k' j := by
    intro i k; unfold Cfg.enter; split <;> exact ⟨nofun, nofun⟩
  unfold runStep at hs
  cases hr : s.run with
  | idle => rw [hr] at hs; simp only at hs; rw [if_pos h1] at hs; cases hs; exact ⟨h1, h2, h3, nofun, nofun⟩
  | ticked => rw [hr] at hs; simp only at hs; rw [if_pos h1] at hs; cases hs; exact ⟨h1, h2, h3, nofun, nofun⟩
  | adv i =>
    rw [hr] at hs; simp only at hs
    split at hs <;> (cases hs; exact ⟨h1, h2, h3, nofun, nofun⟩)
  | fill i =>
    rw [hr] at hs; simp only at hs
    split at hs
    · split at hs
      · split at hs <;> cases hs
        · exact ⟨h1, h2, h3, nen _ _⟩
        · exact ⟨h1, h2, h3, nofun, nofun⟩
      · cases hs
    · cases hs; exact ⟨h1, h2, h3, nen _ _⟩
  | fsend k => rw [hr] at hs; simp only at hs; split at hs <;> cases hs; exact ⟨h1, h2, h3, nofun, nofun⟩
  | fcheck k => rw [hr] at hs; simp only at hs; rw [if_pos h1] at hs; cases hs; exact ⟨h1, h2, h3, ne _⟩
  | fwait k => exact absurd hr (h4.1 k)
  | mcheck k i =>
    rw [hr] at hs; simp only at hs
    rw [if_pos h1] at hs
    split at hs <;> cases hs
    · exact ⟨h1, h2, h3, ne _⟩
    · exact ⟨h1, h2, h3, nofun, nofun⟩
  | msend k i => rw [hr] at hs; simp only at hs; split at hs <;> cases hs; exact ⟨h1, h2, h3, nofun, nofun⟩
  | wcheck k j =>
    rw [hr] at hs; simp only at hs
    rw [if_pos h1] at hs
    split at hs <;> (cases hs; exact ⟨h1, h2, h3, ne _⟩)
  | mwait k j => exact absurd hr (h4.2 k j)
  | relock i => rw [hr] at hs; cases hs; exact ⟨h1, h2, h3, nofun, nofun⟩
  | reset => rw [hr] at hs; simp only at hs; split at hs <;> cases hs; exact ⟨h1, h2, h3, nofun, nofun⟩
  | notify => rw [hr] at hs; cases hs; exact ⟨h1, h2, h3, nofun, nofun⟩
  | fin => rw [hr] at hs; cases hs; exact ⟨h1, h2, h3, nofun, nofun⟩
  | done => rw [hr] at hs; cases hs

theorem jam_fire {c : Cfg} {s s' : GS} {a : Act} (h : Jam c s) (hs : fire c s a = some s') : Jam c s' := by
  cases a with
  | close => cases hs; exact ⟨rfl, h.full, h.stuck, h.past⟩
  | ticker => simp only [fire] at hs; split at hs <;> cases hs; exact ⟨h.closed, h.full, h.stuck, nofun, nofun⟩
  | attach p => simp only [fire] at hs; split at hs <;> cases hs; exact ⟨h.closed, h.full, h.stuck, h.past⟩
  | detach i => simp only [fire] at hs; split at hs <;> cases hs; exact ⟨h.closed, h.full, h.stuck, h.past⟩
  | run => exact jam_run h hs
  | worker i stop =>
    have hc := fire_closed h.closed hs
    obtain ⟨w, r, hw, hr, rfl, e1, e2, -⟩ := worker_effect hs
    obtain ⟨-, -, -, t4, t5, -⟩ := worker_tokens hr
    have hfull := h.full
    refine ⟨hc, by simp only; omega, ?_, by rw [e2]; exact h.past⟩
    simp only
    by_cases hi : i = 0
    · subst hi
      rw [h.stuck] at hw
      cases hw
      simp [workerStep, hfull] at hr
    · rw [List.getElem?_set_ne hi]
      exact h.stuck
  | notifier stop =>
    obtain ⟨e1, e2, e3, e4, e5, e6, e7, e8, -⟩ := notifier_effect hs
    exact ⟨by rw [e1]; exact h.closed, by rw [e8]; exact h.full, by rw [e4]; exact h.stuck, by rw [e2]; exact h.past⟩

theorem jam_never {c : Cfg} {s : GS} (h : Jam c s) : NeverReturns c s := by
  intro bs
  induction bs generalizing s with
  | nil =>
    intro s' he
    cases he
    have hm := List.mem_of_getElem? h.stuck
    cases hx : s.returned with
    | false => rfl
    | true =>
      unfold GS.returned at hx
      rw [Bool.and_eq_true, Bool.and_eq_true, List.all_eq_true] at hx
      have := hx.1.2 _ hm
      cases this
  | cons b bs ih =>
    intro s' he
    unfold exec at he
    obtain ⟨s1, h1, h2⟩ := Option.bind_eq_some_iff.mp he
    exact ih (jam_fire h h1) s' h2

/-- **C40 fails.** Whenever there are at least two workers and enough devices for a packet to be divided,
a schedule that neither attaches nor detaches devices exists after which the generator is closed and `Run` never returns. -/
theorem hang_keeps (c : Cfg) (hn : 2 ≤ c.numWorkers) (devs : List Nat)
    (hd : c.numWorkers + c.packetSize / c.numWorkers < min devs.length (c.packetSize - 1)) :
    ∃ as s, as.all keeps = true ∧ exec c (GS.init c devs) as = some s ∧ s.closed = true ∧ NeverReturns c s := by
  have hP : 1 ≤ c.packetSize := by
    generalize c.packetSize / c.numWorkers = q at hd
    omega
  obtain ⟨s1, a1, a2, a3, -, a5⟩ := reach_first_flush c hP devs
  have hs : c.single (level c devs.length) = false := by
    unfold Cfg.single Cfg.workerSize level
    exact decide_eq_false (Nat.not_le.mpr hd)
  generalize (if devs.length < c.packetSize then none else some (c.packetSize - 1)) = k at a5
  unfold Cfg.enter at a5
  rw [hs, if_neg (by simp)] at a5
  obtain ⟨s2, b1, b2, b3, b4⟩ := reach_sent (c := c) c.numWorkers s1 0 (by omega) a2 (by rw [a3]; rfl) a5
  obtain ⟨x, y, rest, hq⟩ : ∃ x y rest, s2.sliceCh = x :: y :: rest := by
    cases h1 : s2.sliceCh with
    | nil => rw [h1, List.length_nil] at b3; omega
    | cons x l =>
      cases h2 : l with
      | nil => rw [h1, h2] at b3; simp at b3; omega
      | cons y rest => exact ⟨x, y, rest, rfl⟩
  have get : ∀ l, l < c.numWorkers → s2.workers[l]? = some .wait := by
    intro l hl
    rw [b2.workers, List.getElem?_replicate, if_pos hl]
  obtain ⟨s3, d1, d2, d3, d4, d5, d6⟩ := reach_send (c := c) b2.open_ (get 0 (by omega)) hq
  have get3 : s3.workers[1]? = some .wait := by
    rw [d6, List.getElem?_set_ne (by omega)]
    exact get 1 (by omega)
  obtain ⟨s4, e1, e2, e3, e4, e5, e6⟩ := reach_send (c := c) d2 get3 d5
  have hlen4 : s4.workers.length = c.numWorkers := by
    rw [e6, d6, List.length_set, List.length_set, b2.workers, List.length_replicate]
  have get4 : s4.workers[1]? = some .send := by
    rw [e6, List.getElem?_set_self (by rw [d6, List.length_set, b2.workers, List.length_replicate]; omega)]
  let s5 : GS := { s4 with waitCh := s4.waitCh + 1, workers := s4.workers.set 1 .wait }
  have f5 : fire c s4 (.worker 1 false) = some s5 := by
    have hw4 : s4.waitCh < c.numWorkers := by rw [e4, d4, b2.waitCh]; omega
    simp only [fire, get4, workerStep, hw4]
    simp [s5]
  let s6 : GS := { s5 with closed := true }
  have hrun : s6.run = .wcheck k 0 := by simp only [s6, s5]; rw [e3, d3, b4]
  have hpos : 0 < c.numWorkers := by omega
  let s7 : GS := { s6 with run := .after k }
  have f7 : fire c s6 .run = some s7 := by
    simp only [fire, runStep, hrun, hpos, if_true]
    rfl
  have hw7 : s7.waitCh = 1 := by
    simp only [s7, s6, s5]
    rw [e4, d4, b2.waitCh]
  have hsend7 : s7.workers[0]? = some .send := by
    simp only [s7, s6, s5]
    rw [List.getElem?_set_ne (by omega), e6, List.getElem?_set_ne (by omega), d6,
      List.getElem?_set_self (by rw [b2.workers, List.length_replicate]; omega)]
  have hlen7 : s7.workers.length = c.numWorkers := by
    simp only [s7, s6, s5]
    rw [List.length_set]; exact hlen4
  obtain ⟨s8, g1, g2, g3, g4, g5⟩ := reach_full (c := c) (c.numWorkers - 1) s7 1 (by omega) (Nat.le_refl _) rfl hlen7
    hw7 hsend7 (by
      intro l h1 h2
      simp only [s7, s6, s5]
      by_cases hl : l = 1
      · subst hl
        exact List.getElem?_set_self (by omega)
      · rw [List.getElem?_set_ne (by omega), e6, List.getElem?_set_ne (by omega), d6,
          List.getElem?_set_ne (by omega)]
        exact get l h2)
  have hjam : Jam c s8 := by
    refine ⟨g2, g3, g4, ?_⟩
    rw [g5]
    simp only [s7]
    cases k <;> exact ⟨nofun, nofun⟩
  obtain ⟨as, hk, has⟩ : Steps c (GS.init c devs) s8 := by
    refine a1.trans (b1.trans (d1.trans (e1.trans ?_)))
    refine Steps.head _ f5 (Steps.head .close (s1 := s6) rfl (Steps.head .run f7 g1))
  exact ⟨as, s8, hk, has, g2, jam_never hjam⟩

/-- **C40 fails.** The same without the condition on the schedule. -/
theorem hang (c : Cfg) (hn : 2 ≤ c.numWorkers) (devs : List Nat)
    (hd : c.numWorkers + c.packetSize / c.numWorkers < min devs.length (c.packetSize - 1)) :
    ∃ as s, exec c (GS.init c devs) as = some s ∧ s.closed = true ∧ NeverReturns c s := by
  obtain ⟨as, s, -, h⟩ := hang_keeps c hn devs hd
  exact ⟨as, s, h⟩

/-! ## The hang with one worker -/

/-- Closed, all workers gone, the slice channel full, and the run loop on the way to another flush. -/
structure Jam1 (c : Cfg) (s : GS) : Prop where
  one : c.numWorkers = 1
  closed : s.closed = true
  full : s.sliceCh.length = c.numWorkers
  gone : ∀ w ∈ s.workers, w.gone = true
  index : s.index < c.packetSize
  run : (∃ i, s.run = .relock i) ∨ (∃ i, s.run = .fill i) ∨ ∃ k, s.run = .fsend k

theorem jam1_fire {c : Cfg} {s s' : GS} {a : Act} (h : Jam1 c s) (hs : fire c s a = some s') : Jam1 c s' := by
  obtain ⟨h0, h1, h2, h3, h4, h5⟩ := h
  have enter : ∀ k, c.enter s.index k = .fsend k := by
    intro k
    apply enter_fits
    rw [h0, Nat.div_one]
    omega
  cases a with
  | close => cases hs; exact ⟨h0, rfl, h2, h3, h4, h5⟩
  | ticker =>
    simp only [fire] at hs
    split at hs
    · rename_i hr
      rw [hr] at h5
      rcases h5 with ⟨_, e⟩ | ⟨_, e⟩ | ⟨_, e⟩ <;> cases e
    · cases hs
  | attach p => simp only [fire] at hs; split at hs <;> cases hs; exact ⟨h0, h1, h2, h3, h4, h5⟩
  | detach i => simp only [fire] at hs; split at hs <;> cases hs; exact ⟨h0, h1, h2, h3, h4, h5⟩
  | run =>
    simp only [fire] at hs
    unfold runStep at hs
    rcases h5 with ⟨i, hr⟩ | ⟨i, hr⟩ | ⟨k, hr⟩
    · rw [hr] at hs
      cases hs
      exact ⟨h0, h1, h2, h3, by simp only; omega, Or.inr (Or.inl ⟨_, rfl⟩)⟩
    · rw [hr] at hs
      simp only at hs
      split at hs
      · split at hs
        · split at hs <;> cases hs
          · exact ⟨h0, h1, h2, h3, h4, Or.inr (Or.inr ⟨_, enter _⟩)⟩
          · exact ⟨h0, h1, h2, h3, by simp only; omega, Or.inr (Or.inl ⟨_, rfl⟩)⟩
        · cases hs
      · cases hs
        exact ⟨h0, h1, h2, h3, h4, Or.inr (Or.inr ⟨_, enter _⟩)⟩
    · rw [hr] at hs
      simp only [h2, Nat.lt_irrefl, if_false] at hs
      cases hs
  | worker i stop =>
    obtain ⟨w, r, hw, hr, rfl, e1, e2, e3, e4, e5, e6, -⟩ := worker_effect hs
    have hg := h3 w (List.mem_of_getElem? hw)
    have key : r.2.gone = true ∧ r.1.sliceCh = s.sliceCh := by
      cases w with
      | leave => cases hr; exact ⟨rfl, rfl⟩
      | exit =>
        simp only [workerStep] at hr
        split at hr <;> cases hr
        exact ⟨rfl, rfl⟩
      | dead => cases hr
      | _ => cases hg
    refine ⟨h0, by rw [← h1]; exact e1, by simp only [key.2]; exact h2, ?_, by simp only [e6]; exact h4,
      by simp only [e2]; exact h5⟩
    intro x hx
    rcases mem_set_of hx with rfl | hx
    · exact key.1
    · exact h3 x hx
  | notifier stop =>
    obtain ⟨e1, e2, e3, e4, e5, e6, e7, e8, -⟩ := notifier_effect hs
    exact ⟨h0, by rw [e1]; exact h1, by rw [e7]; exact h2, by rw [e4]; exact h3, by rw [e6]; exact h4,
      by rw [e2]; exact h5⟩

theorem jam1_never {c : Cfg} {s : GS} (h : Jam1 c s) : NeverReturns c s := by
  intro bs
  induction bs generalizing s with
  | nil =>
    intro s' he
    cases he
    unfold GS.returned
    rcases h.run with ⟨_, e⟩ | ⟨_, e⟩ | ⟨_, e⟩ <;> rw [e] <;> rfl
  | cons b bs ih =>
    intro s' he
    unfold exec at he
    obtain ⟨s1, h1, h2⟩ := Option.bind_eq_some_iff.mp he
    exact ih (jam1_fire h h1) s' h2

/-- **C40 fails** with one worker as well, if there are at least as many devices as a packet has slots. -/
theorem hang_one_worker (c : Cfg) (hn : c.numWorkers = 1) (hP : 1 ≤ c.packetSize) (devs : List Nat)
    (hd : c.packetSize ≤ devs.length) :
    ∃ as s, exec c (GS.init c devs) as = some s ∧ s.closed = true ∧ NeverReturns c s := by
  obtain ⟨s1, a1, a2, a3, a4, a5⟩ := reach_first_flush c hP devs
  have hl : level c devs.length = c.packetSize - 1 := by unfold level; omega
  rw [if_neg (by omega), hl, enter_fits (by rw [hn, Nat.div_one]; omega)] at a5
  rw [hl] at a4
  let k := some (c.packetSize - 1)
  let s2 := s1.push ⟨0, s1.index⟩ (.fcheck k)
  have f2 : fire c s1 .run = some s2 := by
    have : s1.sliceCh.length < c.numWorkers := by rw [a3, hn]; exact Nat.one_pos
    simp only [fire, runStep, a5, this, if_true]
    rfl
  let s3 : GS := { s2 with closed := true }
  let s4 : GS := { s3 with run := .relock (c.packetSize - 1) }
  have f4 : fire c s3 .run = some s4 := rfl
  have hw : s4.workers = [.wait] := by
    have := a2.workers
    rw [hn] at this
    exact this
  let s5 : GS := { s4 with workers := [.leave] }
  have f5 : fire c s4 (.worker 0 true) = some s5 := by
    simp only [fire, hw, List.getElem?_cons_zero, workerStep]
    simp [s5, s4, s3]
  have hjam : Jam1 c s5 := by
    refine ⟨hn, rfl, ?_, ?_, ?_, Or.inl ⟨_, rfl⟩⟩
    · simp [s5, s4, s3, s2, GS.push, a3, hn]
    · intro w hw
      rw [List.mem_singleton.mp hw]; rfl
    · simp only [s5, s4, s3, s2, GS.push]
      omega
  obtain ⟨as, -, has⟩ : Steps c (GS.init c devs) s5 :=
    a1.trans (Steps.head .run f2 (Steps.head .close (s1 := s3) rfl (Steps.head .run f4
      (Steps.head _ f5 (Steps.refl _ _)))))
  exact ⟨as, s5, has, rfl, jam1_never hjam⟩

/-! ## A leaked goroutine -/

/-- Even when `Run` returns, a worker can stay blocked for ever on its final answer: one worker, one
device, `Close` after the worker has answered. -/
theorem leaked_worker : ∃ as s, exec ⟨1, 1024⟩ (GS.init ⟨1, 1024⟩ [7]) as = some s ∧ s.returned = true ∧
    s.workers = [.exit] ∧ ∀ bs s', exec ⟨1, 1024⟩ s bs = some s' → s'.workers = [.exit] := by
  have key : ∀ s : GS, s.run = .done → s.workers = [.exit] → s.waitCh = 1 →
      ∀ bs s', exec ⟨1, 1024⟩ s bs = some s' → s'.workers = [.exit] := by
    intro s h1 h2 h3 bs
    induction bs generalizing s with
    | nil => intro s' he; cases he; exact h2
    | cons b bs ih =>
      intro s' he
      unfold exec at he
      obtain ⟨t, k1, k2⟩ := Option.bind_eq_some_iff.mp he
      refine ih t ?_ ?_ ?_ s' k2
      all_goals
        cases b with
        | close => cases k1; assumption
        | ticker => simp [fire, h1] at k1
        | attach p => simp only [fire] at k1; split at k1 <;> cases k1; assumption
        | detach i => simp only [fire] at k1; split at k1 <;> cases k1; assumption
        | run => simp [fire, runStep, h1] at k1
        | worker i stop =>
          exfalso
          cases i with
          | zero => simp [fire, h2, workerStep, h3] at k1
          | succ i => simp [fire, h2] at k1
        | notifier stop =>
          obtain ⟨e1, e2, e3, e4, e5, e6, e7, e8, -⟩ := notifier_effect k1
          first
          | (rw [e2]; assumption)
          | (rw [e4]; assumption)
          | (rw [e8]; assumption)
  let as : List Act := [.ticker] ++ List.replicate 6 .run ++ List.replicate 7 (.worker 0 false) ++ [.close] ++
    List.replicate 5 .run ++ [.worker 0 true, .worker 0 false, .notifier true]
  have h : (exec ⟨1, 1024⟩ (GS.init ⟨1, 1024⟩ [7]) as).map (fun s => (s.returned, s.run, s.workers, s.waitCh)) =
      some (true, .done, [.exit], 1) := by decide +kernel
  obtain ⟨s, hs, e⟩ := Option.map_eq_some_iff.mp h
  simp only [Prod.mk.injEq] at e
  exact ⟨as, s, hs, e.1, e.2.2.1, key s e.2.1 e.2.2.1 e.2.2.2⟩

/-! Non-vacuity: the default options hang with 2053 devices; and a short tick that `Close` interrupts. -/

example : ∃ as s, exec ⟨4, 8192⟩ (GS.init ⟨4, 8192⟩ (List.range 2053)) as = some s ∧ s.closed = true ∧
    NeverReturns ⟨4, 8192⟩ s :=
  hang ⟨4, 8192⟩ (by decide) _ (by simp)

example : Fits ⟨4, 8192⟩ (GS.init ⟨4, 8192⟩ (List.range 2052)) := by
  unfold Fits GS.init
  simp only [List.length_range]
  decide

end C40
end GpsGen
