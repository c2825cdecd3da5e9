import Verif.Theorems.C41
import Mathlib.Tactic.Ring
/-!
# C42: packets are serialised only while the run loop waits

While the generator is open, for every interleaving, number of workers, packet size and devices. After
`Close` the property is false: the run loop stops waiting and clears the packet while a worker may still
serialise it (`closed_delivers_nothing`).
-/

namespace GpsGen
namespace C42
open Run C41

/-! ## Specification -/

/-- The run loop is inside `flush`, with slices sent. -/
def Waiting : RPC → Prop
  | .fcheck _ | .fwait _ | .msend _ _ | .wcheck _ _ | .mwait _ _ => True
  | .mcheck _ i => 0 < i
  | _ => False

/-- The worker holds a slice: it has received it and not yet delivered the packet. -/
def Holds : WPC → Prop
  | .got _ | .enc _ | .mar _ | .call _ => True
  | _ => False

/-- A slot that was filled in tick `t`. -/
def FilledIn (t : Nat) (x : Slot) : Prop := ∃ p, x = some (p, t)

/-! ## Exclusion -/

theorem holds_busy {w : WPC} (h : Holds w) : w.busy = true := by cases w <;> first | rfl | cases h

/-- **C42, exclusion.** While the generator is open, a worker holds a slice only while the run loop waits in
`flush`. -/
theorem holds_waiting {c : Cfg} {s : GS} (h : Reach c s) (ho : s.closed = false) {w : WPC}
    (hw : w ∈ s.workers) (hh : Holds w) : Waiting s.run := by
  have ht := (reach_inv h).tokens ho
  have hpc := (reach_inv h).pc
  have : 0 < s.workers.countP WPC.busy := List.countP_pos_iff.mpr ⟨w, hw, holds_busy hh⟩
  cases hr : s.run <;> rw [hr] at ht hpc <;> simp only [Cfg.out, Cfg.pcOk] at ht hpc <;>
    first | trivial | omega | (simp only [Waiting]; omega)

/-- What the run loop does while waiting leaves packet and devices alone. -/
theorem waiting_frozen {c : Cfg} {s s' : GS} (hw : Waiting s.run) (h : runStep c s = some s') :
    s'.packet = s.packet ∧ s'.last = s.last ∧ s'.clock = s.clock ∧ s'.index = s.index := by
  unfold runStep at h
  cases hr : s.run with
  | fcheck k => rw [hr] at h; simp only at h; split at h <;> (cases h; exact ⟨rfl, rfl, rfl, rfl⟩)
  | fwait k => rw [hr] at h; simp only at h; split at h <;> cases h; exact ⟨rfl, rfl, rfl, rfl⟩
  | mcheck k i =>
    rw [hr] at h; simp only at h
    split at h
    · split at h <;> (cases h; exact ⟨rfl, rfl, rfl, rfl⟩)
    · cases h; exact ⟨rfl, rfl, rfl, rfl⟩
  | msend k i => rw [hr] at h; simp only at h; split at h <;> cases h; exact ⟨rfl, rfl, rfl, rfl⟩
  | wcheck k j =>
    rw [hr] at h; simp only at h
    split at h
    · split at h <;> (cases h; exact ⟨rfl, rfl, rfl, rfl⟩)
    · cases h; exact ⟨rfl, rfl, rfl, rfl⟩
  | mwait k j => rw [hr] at h; simp only at h; split at h <;> cases h; exact ⟨rfl, rfl, rfl, rfl⟩
  | idle => rw [hr] at hw; cases hw
  | ticked => rw [hr] at hw; cases hw
  | adv i => rw [hr] at hw; cases hw
  | fill i => rw [hr] at hw; cases hw
  | fsend k => rw [hr] at hw; cases hw
  | relock i => rw [hr] at hw; cases hw
  | reset => rw [hr] at hw; cases hw
  | notify => rw [hr] at hw; cases hw
  | fin => rw [hr] at hw; cases hw
  | done => rw [hr] at hw; cases hw

/-- **C42, no interference.** While the generator is open and a worker holds a slice, no step of anyone
advances a device or changes the packet. -/
theorem holds_frozen {c : Cfg} {s s' : GS} {a : Act} (h : Reach c s) (ho : s.closed = false) {w : WPC}
    (hw : w ∈ s.workers) (hh : Holds w) (hs : fire c s a = some s') :
    s'.packet = s.packet ∧ s'.last = s.last ∧ s'.clock = s.clock := by
  cases a with
  | close => cases hs; exact ⟨rfl, rfl, rfl⟩
  | ticker => simp only [fire] at hs; split at hs <;> cases hs; exact ⟨rfl, rfl, rfl⟩
  | attach p => simp only [fire] at hs; split at hs <;> cases hs; exact ⟨rfl, rfl, rfl⟩
  | detach i => simp only [fire] at hs; split at hs <;> cases hs; exact ⟨rfl, rfl, rfl⟩
  | run =>
    obtain ⟨h1, h2, h3, -⟩ := waiting_frozen (holds_waiting h ho hw hh) hs
    exact ⟨h1, h2, h3⟩
  | worker i stop =>
    obtain ⟨w, r, hw, hr, rfl, e1, e2, e3, e4, e5, e6, e7, e8, e9, e10, -⟩ := worker_effect hs
    exact ⟨e3, e10, e9⟩
  | notifier stop =>
    obtain ⟨e1, e2, e3, e4, e5, e6, e7, e8, e9, e10, -⟩ := notifier_effect hs
    exact ⟨e3, e10, e9⟩

/-! ## Contents -/

/-- A packet of current states. -/
def Good (p : Packet) : Prop := ∀ x ∈ p.slots, FilledIn p.clock x

/-- The slice a worker holds. -/
def heldSlice : WPC → Option Slice
  | .got x | .enc x | .mar x => some x
  | _ => none

/-- Places at which the slots below the fill level are current. -/
def packing : RPC → Bool
  | .idle | .ticked | .adv _ | .reset | .notify | .fin | .done => false
  | _ => true

/-- What holds while open. -/
structure Inv2 (s : GS) : Prop where
  filled : packing s.run = true → ∀ j < s.index, ∃ p, s.packet[j]? = some (some (p, s.clock))
  queued : ∀ x ∈ s.sliceCh, x.hi ≤ s.index
  held : ∀ w ∈ s.workers, ∀ x, heldSlice w = some x → x.hi ≤ s.index
  called : ∀ p, .call p ∈ s.workers → Good p
  log : ∀ p ∈ s.log, Good p

theorem part_hi (c : Cfg) {index i : Nat} (hi : i < c.numWorkers) : (c.part index i).hi ≤ index := by
  unfold Cfg.part
  simp only
  have hm := Nat.div_add_mod index c.numWorkers
  generalize index / c.numWorkers = q at *
  generalize index % c.numWorkers = r at *
  obtain ⟨m, hm'⟩ : ∃ m, c.numWorkers = i + 1 + m := ⟨c.numWorkers - (i + 1), by omega⟩
  rw [hm'] at hm
  have e : (i + 1 + m) * q = i * q + q + m * q := by ring
  rw [e] at hm
  split <;> omega

theorem empty_of {c : Cfg} {s : GS} (h : Inv c s) (ho : s.closed = false) (h0 : c.out s.run = 0) :
    s.sliceCh = [] ∧ s.workers.countP WPC.busy = 0 := by
  have := h.tokens ho
  rw [h0] at this
  exact ⟨List.length_eq_zero_iff.mp (by omega), by omega⟩

theorem not_busy {s : GS} (h : s.workers.countP WPC.busy = 0) {w : WPC} (hw : w ∈ s.workers) : w.busy = false := by
  have := List.countP_eq_zero.mp h w hw
  simpa using this

/-- A step of the run loop while nothing is in flight. -/
theorem inv2_quiet {c : Cfg} {s s' : GS} (hi : Inv c s) (h : Inv2 s) (ho : s.closed = false)
    (h0 : c.out s.run = 0) (hw : s'.workers = s.workers) (hl : s'.log = s.log)
    (hq : ∀ x ∈ s'.sliceCh, x ∈ s.sliceCh ∨ x.hi ≤ s'.index)
    (hf : packing s'.run = true → ∀ j < s'.index, ∃ p, s'.packet[j]? = some (some (p, s'.clock))) : Inv2 s' := by
  obtain ⟨e1, e2⟩ := empty_of hi ho h0
  refine ⟨hf, ?_, ?_, ?_, by rw [hl]; exact h.log⟩
  · intro x hx
    rcases hq x hx with hx | hx
    · rw [e1] at hx; cases hx
    · exact hx
  · intro w hw' x hx
    rw [hw] at hw'
    have := not_busy e2 hw'
    cases w <;> simp_all [WPC.busy, heldSlice]
  · intro p hp
    rw [hw] at hp
    have := not_busy e2 hp
    cases this

/-- A step of the run loop while it waits. -/
theorem inv2_waiting {s s' : GS} (h : Inv2 s) (hpk : packing s.run = true) (hp : s'.packet = s.packet)
    (hx : s'.index = s.index) (hc : s'.clock = s.clock) (hw : s'.workers = s.workers) (hl : s'.log = s.log)
    (hq : ∀ x ∈ s'.sliceCh, x ∈ s.sliceCh ∨ x.hi ≤ s.index) : Inv2 s' := by
  refine ⟨fun _ => by rw [hp, hx, hc]; exact h.filled hpk, ?_, by rw [hw, hx]; exact h.held,
    by rw [hw]; exact h.called, by rw [hl]; exact h.log⟩
  intro x hx'
  rw [hx]
  rcases hq x hx' with hx' | hx'
  · exact h.queued x hx'
  · exact hx'

theorem inv2_run {c : Cfg} {s s' : GS} (hi : Inv c s) (h : Inv2 s) (ho : s.closed = false)
    (hix : ∀ i, s.run = .fill i → s.index < c.packetSize) (hs : runStep c s = some s') : Inv2 s' := by
  have hpc := hi.pc
  have hfl := h.filled
  unfold runStep at hs
  cases hr : s.run with
  | idle => rw [hr] at hs; simp [ho] at hs
  | ticked =>
    rw [hr] at hs; simp only at hs
    rw [if_neg (by simp [ho])] at hs
    cases hs
    exact inv2_quiet hi h ho (by rw [hr]; rfl) rfl rfl (fun x hx => Or.inl hx) nofun
  | adv i =>
    rw [hr] at hs; simp only at hs
    split at hs <;> cases hs
    · exact inv2_quiet hi h ho (by rw [hr]; rfl) rfl rfl (fun x hx => Or.inl hx) nofun
    · exact inv2_quiet hi h ho (by rw [hr]; rfl) rfl rfl (fun x hx => Or.inl hx) (fun _ j hj => by cases hj)
  | fill i =>
    have hx := hix i hr
    have hlt : s.index < s.packet.length := by rw [hi.plen]; exact hx
    rw [hr] at hs hfl; simp only at hs
    have upd : ∀ p j, j < s.index + 1 →
        ∃ p', (s.packet.set s.index (some (p, s.clock)))[j]? = some (some (p', s.clock)) := by
      intro p j hj
      by_cases e : j = s.index
      · subst e
        exact ⟨p, List.getElem?_set_self hlt⟩
      · obtain ⟨p', hp'⟩ := hfl rfl j (by omega)
        exact ⟨p', by rw [List.getElem?_set_ne (by omega)]; exact hp'⟩
    split at hs
    · split at hs
      · split at hs <;> cases hs
        · exact inv2_quiet hi h ho (by rw [hr]; rfl) rfl rfl (fun x hx => Or.inl hx)
            (fun _ j hj => upd _ j (by simp only at hj; omega))
        · exact inv2_quiet hi h ho (by rw [hr]; rfl) rfl rfl (fun x hx => Or.inl hx) (fun _ j hj => upd _ j hj)
      · cases hs
    · cases hs
      exact inv2_quiet hi h ho (by rw [hr]; rfl) rfl rfl (fun x hx => Or.inl hx) (fun _ => hfl rfl)
  | fsend k =>
    rw [hr] at hs hfl; simp only at hs
    split at hs <;> cases hs
    refine inv2_quiet hi h ho (by rw [hr]; rfl) rfl rfl ?_ (fun _ => hfl rfl)
    intro x hx
    rcases List.mem_append.mp hx with hx | hx
    · exact Or.inl hx
    · rw [List.mem_singleton.mp hx]; exact Or.inr (Nat.le_refl _)
  | fcheck k =>
    rw [hr] at hs; simp only at hs
    rw [if_neg (by simp [ho])] at hs
    cases hs
    exact inv2_waiting h (by rw [hr]; rfl) rfl rfl rfl rfl rfl (fun x hx => Or.inl hx)
  | fwait k =>
    rw [hr] at hs; simp only at hs
    split at hs <;> cases hs
    exact inv2_waiting h (by rw [hr]; rfl) rfl rfl rfl rfl rfl (fun x hx => Or.inl hx)
  | mcheck k i =>
    rw [hr] at hs; simp only at hs
    rw [if_neg (by simp [ho] : ¬ s.closed = true)] at hs
    split at hs <;> cases hs
    · exact inv2_waiting h (by rw [hr]; rfl) rfl rfl rfl rfl rfl (fun x hx => Or.inl hx)
    · exact inv2_waiting h (by rw [hr]; rfl) rfl rfl rfl rfl rfl (fun x hx => Or.inl hx)
  | msend k i =>
    rw [hr] at hs hpc; simp only at hs
    split at hs <;> cases hs
    refine inv2_waiting h (by rw [hr]; rfl) rfl rfl rfl rfl rfl ?_
    intro x hx
    rcases List.mem_append.mp hx with hx | hx
    · exact Or.inl hx
    · rw [List.mem_singleton.mp hx]; exact Or.inr (part_hi c hpc)
  | wcheck k j =>
    rw [hr] at hs; simp only at hs
    rw [if_neg (by simp [ho] : ¬ s.closed = true)] at hs
    split at hs <;> cases hs
    · exact inv2_waiting h (by rw [hr]; rfl) rfl rfl rfl rfl rfl (fun x hx => Or.inl hx)
    · exact inv2_waiting h (by rw [hr]; rfl) rfl rfl rfl rfl rfl (fun x hx => Or.inl hx)
  | mwait k j =>
    rw [hr] at hs; simp only at hs
    split at hs <;> cases hs
    exact inv2_waiting h (by rw [hr]; rfl) rfl rfl rfl rfl rfl (fun x hx => Or.inl hx)
  | relock i =>
    rw [hr] at hs
    cases hs
    exact inv2_quiet hi h ho (by rw [hr]; rfl) rfl rfl (fun x hx => Or.inl hx) (fun _ j hj => by cases hj)
  | reset =>
    rw [hr] at hs; simp only at hs
    split at hs <;> cases hs
    exact inv2_quiet hi h ho (by rw [hr]; rfl) rfl rfl (fun x hx => Or.inl hx) nofun
  | notify =>
    rw [hr] at hs
    cases hs
    exact inv2_quiet hi h ho (by rw [hr]; rfl) rfl rfl (fun x hx => Or.inl hx) nofun
  | fin =>
    rw [hr] at hs
    cases hs
    exact inv2_quiet hi h ho (by rw [hr]; rfl) rfl rfl (fun x hx => Or.inl hx) nofun
  | done => rw [hr] at hs; cases hs

/-- What a worker takes and hands on. -/
theorem worker_hands {c : Cfg} {s : GS} {w : WPC} {stop : Bool} {r : GS × WPC} (ho : s.closed = false)
    (h : workerStep c s w stop = some r) :
    (∀ x ∈ r.1.sliceCh, x ∈ s.sliceCh) ∧
    (∀ x, heldSlice r.2 = some x → heldSlice w = some x ∨ x ∈ s.sliceCh) ∧
    (∀ p, r.2 = .call p → ∃ x, w = .mar x ∧ p = s.cut x) ∧
    (∀ p ∈ r.1.log, p ∈ s.log ∨ w = .call p) := by
  unfold workerStep at h
  cases w with
  | wait =>
    simp only [ho] at h
    split at h
    · cases h
    · split at h
      · cases h
      · rename_i x rest hx
        cases h
        refine ⟨fun y hy => by rw [hx]; exact List.mem_cons_of_mem _ hy, fun y hy => ?_, nofun, fun p hp => Or.inl hp⟩
        cases hy
        exact Or.inr (by rw [hx]; exact List.mem_cons_self)
  | got x =>
    simp only at h
    rw [if_neg (by simp [ho])] at h
    split at h <;> cases h
    · exact ⟨fun y hy => hy, nofun, nofun, fun p hp => Or.inl hp⟩
    · exact ⟨fun y hy => hy, fun y hy => Or.inl hy, nofun, fun p hp => Or.inl hp⟩
  | enc x => cases h; exact ⟨fun y hy => hy, fun y hy => Or.inl hy, nofun, fun p hp => Or.inl hp⟩
  | mar x =>
    cases h
    exact ⟨fun y hy => hy, nofun, fun p hp => ⟨x, rfl, by cases hp; rfl⟩, fun p hp => Or.inl hp⟩
  | call p =>
    cases h
    refine ⟨fun y hy => hy, nofun, nofun, fun q hq => ?_⟩
    rcases List.mem_append.mp hq with hq | hq
    · exact Or.inl hq
    · rw [List.mem_singleton.mp hq]; exact Or.inr rfl
  | check =>
    simp only at h
    rw [if_neg (by simp [ho])] at h
    cases h
    exact ⟨fun y hy => hy, nofun, nofun, fun p hp => Or.inl hp⟩
  | send =>
    simp only at h
    split at h <;> cases h
    exact ⟨fun y hy => hy, nofun, nofun, fun p hp => Or.inl hp⟩
  | leave => cases h; exact ⟨fun y hy => hy, nofun, nofun, fun p hp => Or.inl hp⟩
  | exit =>
    simp only at h
    split at h <;> cases h
    exact ⟨fun y hy => hy, nofun, nofun, fun p hp => Or.inl hp⟩
  | dead => cases h

/-- The elements of a cut are slots below its upper end. -/
theorem mem_cut {s : GS} {x : Slice} {y : Slot} (h : y ∈ (s.cut x).slots) :
    ∃ j, j < x.hi ∧ s.packet[j]? = some y := by
  unfold GS.cut at h
  have h1 := List.mem_of_mem_drop h
  obtain ⟨j, hj⟩ := List.mem_iff_getElem?.mp h1
  rw [List.getElem?_take] at hj
  split at hj
  · rename_i hlt
    exact ⟨j, hlt, hj⟩
  · cases hj

theorem index_lt {c : Cfg} (hP : 1 ≤ c.packetSize) {s : GS} (h : Reach c s) :
    (∀ i, s.run = .fill i → s.index < c.packetSize) := by
  induction h with
  | init devs => exact nofun
  | @step s s' a hs hf ih =>
    intro i hr'
    have same : s'.run = s.run → s'.index = s.index → s'.index < c.packetSize := by
      intro e1 e2
      rw [e2]
      exact ih i (by rw [← e1]; exact hr')
    cases a with
    | close => cases hf; exact same rfl rfl
    | ticker => simp only [fire] at hf; split at hf <;> cases hf; cases hr'
    | attach p => simp only [fire] at hf; split at hf <;> cases hf; exact same rfl rfl
    | detach p => simp only [fire] at hf; split at hf <;> cases hf; exact same rfl rfl
    | run =>
      simp only [fire] at hf
      unfold runStep at hf
      cases hr : s.run with
      | adv j => rw [hr] at hf; simp only at hf; split at hf <;> cases hf <;> first | exact hP | cases hr'
      | fill j =>
        have hx := ih j hr
        rw [hr] at hf; simp only at hf
        split at hf
        · split at hf
          · split at hf
            · cases hf; exact hx
            · rename_i hne
              cases hf
              simp only
              omega
          · cases hf
        · cases hf; exact hx
      | relock j => rw [hr] at hf; cases hf; exact hP
      | idle => rw [hr] at hf; simp only at hf; split at hf <;> cases hf; cases hr'
      | ticked => rw [hr] at hf; simp only at hf; split at hf <;> cases hf <;> cases hr'
      | fsend k => rw [hr] at hf; simp only at hf; split at hf <;> cases hf; cases hr'
      | fcheck k => rw [hr] at hf; simp only at hf; split at hf <;> cases hf <;> cases k <;> cases hr'
      | fwait k => rw [hr] at hf; simp only at hf; split at hf <;> cases hf; cases k <;> cases hr'
      | mcheck k j =>
        rw [hr] at hf; simp only at hf
        split at hf
        · split at hf <;> cases hf <;> cases k <;> cases hr'
        · cases hf; cases hr'
      | msend k j => rw [hr] at hf; simp only at hf; split at hf <;> cases hf; cases hr'
      | wcheck k j =>
        rw [hr] at hf; simp only at hf
        split at hf
        · split at hf <;> cases hf <;> cases k <;> cases hr'
        · cases hf; cases k <;> cases hr'
      | mwait k j => rw [hr] at hf; simp only at hf; split at hf <;> cases hf; cases hr'
      | reset => rw [hr] at hf; simp only at hf; split at hf <;> cases hf; cases hr'
      | notify => rw [hr] at hf; cases hf; cases hr'
      | fin => rw [hr] at hf; cases hf; cases hr'
      | done => rw [hr] at hf; cases hf
    | worker j stop =>
      obtain ⟨w, r, hw, hr, rfl, e1, e2, e3, e4, e5, e6, -⟩ := worker_effect hf
      exact same e2 e6
    | notifier stop =>
      obtain ⟨e1, e2, e3, e4, e5, e6, -⟩ := notifier_effect hf
      exact same e2 e6

theorem open_before {c : Cfg} {s s' : GS} {a : Act} (hs : fire c s a = some s') (ho : s'.closed = false) :
    s.closed = false := by
  cases hc : s.closed with
  | false => rfl
  | true =>
    have : s'.closed = true := by
      cases a with
      | close => cases hs; rfl
      | ticker => simp only [fire] at hs; split at hs <;> cases hs; exact hc
      | attach p => simp only [fire] at hs; split at hs <;> cases hs; exact hc
      | detach i => simp only [fire] at hs; split at hs <;> cases hs; exact hc
      | run => rw [run_closed hs]; exact hc
      | worker i stop => rw [closed_internal rfl hs]; exact hc
      | notifier stop => rw [closed_internal rfl hs]; exact hc
    rw [this] at ho
    cases ho

theorem held_packing {s : GS} (h : Waiting s.run) : packing s.run = true := by
  cases hr : s.run <;> rw [hr] at h <;> first | rfl | cases h

theorem reach_inv2 {c : Cfg} (hP : 1 ≤ c.packetSize) {s : GS} (h : Reach c s) (ho : s.closed = false) :
    Inv2 s := by
  induction h with
  | init devs =>
    refine ⟨nofun, nofun, ?_, ?_, nofun⟩
    · intro w hw x hx
      rw [List.eq_of_mem_replicate hw] at hx
      cases hx
    · intro p hp
      have := List.eq_of_mem_replicate hp
      cases this
  | @step s s' a hs hf ih =>
    have hb := open_before hf ho
    have h2 := ih hb
    cases a with
    | close => cases hf; cases ho
    | ticker =>
      simp only [fire] at hf
      split at hf <;> cases hf
      exact ⟨nofun, h2.queued, h2.held, h2.called, h2.log⟩
    | attach p =>
      simp only [fire] at hf; split at hf <;> cases hf
      exact ⟨h2.filled, h2.queued, h2.held, h2.called, h2.log⟩
    | detach i =>
      simp only [fire] at hf; split at hf <;> cases hf
      exact ⟨h2.filled, h2.queued, h2.held, h2.called, h2.log⟩
    | run => exact inv2_run (reach_inv hs) h2 hb (index_lt hP hs) hf
    | worker i stop =>
      obtain ⟨w, r, hw, hr, rfl, e1, e2, e3, e4, e5, e6, e7, e8, e9, e10, -⟩ := worker_effect hf
      obtain ⟨k1, k2, k3, k4⟩ := worker_hands hb hr
      have hmem := List.mem_of_getElem? hw
      refine ⟨by simp only [e2, e3, e6, e9]; exact h2.filled, ?_, ?_, ?_, ?_⟩
      · intro x hx
        simp only [e6]
        exact h2.queued x (k1 x hx)
      · intro w' hw' x hx
        simp only [e6]
        rcases mem_set_of hw' with rfl | hw'
        · rcases k2 x hx with hx | hx
          · exact h2.held w hmem x hx
          · exact h2.queued x hx
        · exact h2.held w' hw' x hx
      · intro p hp
        rcases mem_set_of hp with hp | hp
        · obtain ⟨x, rfl, rfl⟩ := k3 p hp.symm
          have hwait := holds_waiting hs hb hmem trivial
          intro y hy
          obtain ⟨j, hj, e⟩ := mem_cut hy
          have hh := h2.held _ hmem x rfl
          obtain ⟨q, hq⟩ := h2.filled (held_packing hwait) j (by omega)
          rw [hq] at e
          cases e
          exact ⟨q, rfl⟩
        · exact h2.called p hp
      · intro p hp
        rcases k4 p hp with hp | hp
        · exact h2.log p hp
        · exact h2.called p (by rw [← hp]; exact hmem)
    | notifier stop =>
      obtain ⟨e1, e2, e3, e4, e5, e6, e7, e8, e9, e10, e11, e12, -⟩ := notifier_effect hf
      exact ⟨by rw [e2, e3, e6, e9]; exact h2.filled, by rw [e6, e7]; exact h2.queued,
        by rw [e4, e6]; exact h2.held, by rw [e4]; exact h2.called, by rw [e12]; exact h2.log⟩

/-- **C42, contents.** While the generator is open, every delivered packet consists of states stored in the
tick to which it belongs; no slot is empty or stale. -/
theorem delivered_current_partial (c : Cfg) (hP : 1 ≤ c.packetSize) (s : GS) (h : Reach c s)
    (ho : s.closed = false) : ∀ p ∈ s.log, ∀ x ∈ p.slots, FilledIn p.clock x :=
  (reach_inv2 hP h ho).log

/-- The packet being handed to the callback is of the current tick. -/
theorem serialised_current (c : Cfg) (s s' : GS) (i : Nat) (x : Slice) (h : Reach c s) (hP : 1 ≤ c.packetSize)
    (ho : s.closed = false) (hw : s.workers[i]? = some (.mar x)) (hs : fire c s (.worker i false) = some s') :
    ∃ p, s'.workers[i]? = some (.call p) ∧ p.clock = s.clock ∧ (∀ y ∈ p.slots, FilledIn s.clock y) := by
  have hm := List.mem_of_getElem? hw
  have h2 := reach_inv2 hP h ho
  have hlt := (List.getElem?_eq_some_iff.mp hw).1
  simp only [fire, hw, workerStep, Option.map_some] at hs
  cases hs
  refine ⟨s.cut x, List.getElem?_set_self hlt, rfl, fun y hy => ?_⟩
  obtain ⟨j, hj, e⟩ := mem_cut hy
  have hh := h2.held _ hm x rfl
  obtain ⟨q, hq⟩ := h2.filled (held_packing (holds_waiting h ho hm trivial)) j (by omega)
  rw [hq] at e
  cases e
  exact ⟨q, rfl⟩

/-! ## After Close -/

/-- **C42 fails after Close.** The run loop clears the packet while a worker still holds a slice, and the
worker delivers a packet without the device. -/
theorem closed_delivers_nothing : ∃ as s, exec ⟨4, 1024⟩ (GS.init ⟨4, 1024⟩ [7]) as = some s ∧
    s.log = [⟨1, [none]⟩] := by
  let as : List Act := [.ticker] ++ List.replicate 6 .run ++ List.replicate 2 (.worker 0 false) ++ [.close] ++
    List.replicate 2 .run ++ List.replicate 3 (.worker 0 false)
  have h : (exec ⟨4, 1024⟩ (GS.init ⟨4, 1024⟩ [7]) as).map (·.log) = some [⟨1, [none]⟩] := by decide +kernel
  obtain ⟨s, hs, e⟩ := Option.map_eq_some_iff.mp h
  exact ⟨as, s, hs, e⟩

/-! Non-vacuity: a worker serialises while the run loop waits. -/

example : (exec ⟨2, 4⟩ (GS.init ⟨2, 4⟩ [7, 8, 9])
      ([.ticker] ++ List.replicate 11 .run ++ List.replicate 4 (.worker 1 false))).map
      (fun s => (s.run, s.workers)) =
    some (.fwait none, [.wait, .call ⟨1, [some (7, 1), some (8, 1), some (9, 1)]⟩]) := by decide +kernel

end C42
end GpsGen
