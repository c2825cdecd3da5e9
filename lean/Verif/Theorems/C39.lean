import Verif.Theorems.C42
import Verif.Theorems.C38
import Mathlib.Data.List.Nodup
import Mathlib.Data.List.Count
/-!
# C39: every attached device is delivered exactly once per tick

As stated the property is false: the flush in the middle of a tick sends `packetSize - 1` slots although
`packetSize` are filled, so the devices at positions `packetSize - 1`, `2 * packetSize - 1`, ... (from 0) are
never delivered (`last_of_packet_lost`). Proved for every interleaving, with devices neither attached nor
detached during the execution: exactly the other devices are delivered, each once per tick, in order.
-/

namespace GpsGen
namespace C39
open Run C41 C42

/-! ## Specification -/

/-- States reachable without attaching or detaching devices while `Run` is running. -/
inductive Steady (c : Cfg) (devs : List Nat) : GS → Prop
  | init : Steady c devs (GS.init c devs)
  | step {s s' : GS} (a : Act) (hs : Steady c devs s) (ha : ∀ p, a ≠ .attach p) (hd : ∀ i, a ≠ .detach i)
      (h : fire c s a = some s') : Steady c devs s'

/-- The devices that are not in the last slot of a full packet. -/
def kept (P : Nat) (devs : List Nat) : List Nat :=
  (devs.zipIdx.filter (fun x => (x.2 + 1) % P ≠ 0)).map Prod.fst

/-- What tick `t` should deliver. -/
def tickSlots (P : Nat) (devs : List Nat) (t : Nat) : List Slot := (kept P devs).map (fun p => some (p, t))

/-- What ticks 1 to `n` should deliver. -/
def allSlots (P : Nat) (devs : List Nat) (n : Nat) : List Slot :=
  (List.range n).flatMap (fun t => tickSlots P devs (t + 1))

/-- The device states in a sequence of packets. -/
def contents (l : List Packet) : List Slot := l.flatMap Packet.slots

/-- A packet with a device in it. -/
def nonempty (p : Packet) : Bool := !p.slots.isEmpty

/-! ## Every slice sent is delivered once -/

theorem steady_reach {c : Cfg} {devs : List Nat} {s : GS} (h : Steady c devs s) : Reach c s ∧ s.devs = devs := by
  induction h with
  | init => exact ⟨Reach.init devs, rfl⟩
  | @step s s' a _ ha hd h ih =>
    refine ⟨Reach.step a ih.1 h, ?_⟩
    rw [← ih.2]
    cases a with
    | close => cases h; rfl
    | ticker => simp only [fire] at h; split at h <;> cases h; rfl
    | attach p => exact absurd rfl (ha p)
    | detach i => exact absurd rfl (hd i)
    | run =>
      simp only [fire] at h
      unfold runStep at h
      cases hr : s.run <;> rw [hr] at h <;> simp only at h <;>
        first
        | (cases h <;> rfl)
        | (split at h <;> first
            | (cases h <;> rfl)
            | (split at h <;> first
              | (cases h <;> rfl)
              | (split at h <;> (cases h <;> rfl))))
    | worker i stop =>
      obtain ⟨w, r, hw, hr, rfl, e1, e2, e3, e4, e5, -⟩ := worker_effect h
      exact e5
    | notifier stop =>
      obtain ⟨e1, e2, e3, e4, e5, -⟩ := notifier_effect h
      exact e5

/-- The worker is going to deliver this packet. -/
def carries (s : GS) (p : Packet) : WPC → Bool
  | .got x | .enc x | .mar x => s.cut x = p
  | .call q => q = p
  | _ => false

/-- Conservation of packets. -/
def Balanced (s : GS) : Prop := ∀ p, nonempty p = true →
  s.log.count p + s.sliceCh.countP (fun x => s.cut x = p) + s.workers.countP (carries s p) = s.sent.count p

theorem carries_busy {s : GS} {p : Packet} {w : WPC} (h : carries s p w = true) : w.busy = true := by
  cases w <;> first | rfl | cases h

theorem carries_zero {s : GS} {p : Packet} {l : List WPC} (h : l.countP WPC.busy = 0) :
    l.countP (carries s p) = 0 := by
  rw [List.countP_eq_zero] at h ⊢
  exact fun w hw hc => h w hw (carries_busy hc)

/-- A step of the run loop that sends nothing. -/
theorem balanced_quiet {c : Cfg} {s s' : GS} (hi : Inv c s) (h : Balanced s) (ho : s.closed = false)
    (h0 : c.out s.run = 0) (hw : s'.workers = s.workers) (hq : s'.sliceCh = s.sliceCh) (hl : s'.log = s.log)
    (hs : s'.sent = s.sent) : Balanced s' := by
  obtain ⟨e1, e2⟩ := empty_of hi ho h0
  intro p hp
  have := h p hp
  rw [hw, hq, hl, hs, carries_zero e2, e1, List.countP_nil]
  rw [e1, carries_zero e2, List.countP_nil] at this
  exact this

theorem balanced_frozen {s s' : GS} (h : Balanced s) (hp : s'.packet = s.packet) (hc : s'.clock = s.clock)
    (hw : s'.workers = s.workers) (hq : s'.sliceCh = s.sliceCh) (hl : s'.log = s.log) (hs : s'.sent = s.sent) :
    Balanced s' := by
  have e : s'.cut = s.cut := by funext x; unfold GS.cut; rw [hp, hc]
  have e2 : ∀ p, carries s' p = carries s p := by
    intro p; funext w; cases w <;> simp only [carries, e]
  intro p hpn
  rw [hl, hq, hw, hs, e, e2]
  exact h p hpn

theorem balanced_push {s : GS} (h : Balanced s) (x : Slice) (pc : RPC) : Balanced (s.push x pc) := by
  have e : (s.push x pc).cut = s.cut := rfl
  have e2 : ∀ p, carries (s.push x pc) p = carries s p := by
    intro p; funext w; cases w <;> simp only [carries, e]
  intro p hpn
  have := h p hpn
  rw [e, e2]
  simp only [GS.push, List.countP_append, List.count_append, List.countP_singleton, List.count_singleton]
  simp only [decide_eq_true_eq, beq_iff_eq]
  omega

theorem balanced_run {c : Cfg} {s s' : GS} (hi : Inv c s) (h : Balanced s) (ho : s.closed = false)
    (hs : runStep c s = some s') : Balanced s' := by
  unfold runStep at hs
  cases hr : s.run with
  | idle => rw [hr] at hs; simp [ho] at hs
  | ticked =>
    rw [hr] at hs; simp only at hs
    rw [if_neg (by simp [ho])] at hs
    cases hs
    exact balanced_quiet hi h ho (by rw [hr]; rfl) rfl rfl rfl rfl
  | adv i =>
    rw [hr] at hs; simp only at hs
    split at hs <;> (cases hs; exact balanced_quiet hi h ho (by rw [hr]; rfl) rfl rfl rfl rfl)
  | fill i =>
    rw [hr] at hs; simp only at hs
    split at hs
    · split at hs
      · split at hs <;> (cases hs; exact balanced_quiet hi h ho (by rw [hr]; rfl) rfl rfl rfl rfl)
      · cases hs
    · cases hs; exact balanced_quiet hi h ho (by rw [hr]; rfl) rfl rfl rfl rfl
  | fsend k => rw [hr] at hs; simp only at hs; split at hs <;> cases hs; exact balanced_push h _ _
  | fcheck k => rw [hr] at hs; simp only at hs; split at hs <;> (cases hs; exact balanced_frozen h rfl rfl rfl rfl rfl rfl)
  | fwait k => rw [hr] at hs; simp only at hs; split at hs <;> cases hs; exact balanced_frozen h rfl rfl rfl rfl rfl rfl
  | mcheck k i =>
    rw [hr] at hs; simp only at hs
    split at hs
    · split at hs <;> (cases hs; exact balanced_frozen h rfl rfl rfl rfl rfl rfl)
    · cases hs; exact balanced_frozen h rfl rfl rfl rfl rfl rfl
  | msend k i => rw [hr] at hs; simp only at hs; split at hs <;> cases hs; exact balanced_push h _ _
  | wcheck k j =>
    rw [hr] at hs; simp only at hs
    split at hs
    · split at hs <;> (cases hs; exact balanced_frozen h rfl rfl rfl rfl rfl rfl)
    · cases hs; exact balanced_frozen h rfl rfl rfl rfl rfl rfl
  | mwait k j => rw [hr] at hs; simp only at hs; split at hs <;> cases hs; exact balanced_frozen h rfl rfl rfl rfl rfl rfl
  | relock i => rw [hr] at hs; cases hs; exact balanced_quiet hi h ho (by rw [hr]; rfl) rfl rfl rfl rfl
  | reset =>
    rw [hr] at hs; simp only at hs
    split at hs <;> cases hs
    exact balanced_quiet hi h ho (by rw [hr]; rfl) rfl rfl rfl rfl
  | notify => rw [hr] at hs; cases hs; exact balanced_quiet hi h ho (by rw [hr]; rfl) rfl rfl rfl rfl
  | fin => rw [hr] at hs; cases hs; exact balanced_quiet hi h ho (by rw [hr]; rfl) rfl rfl rfl rfl
  | done => rw [hr] at hs; cases hs

/-- A worker's step moves a packet along. -/
theorem worker_moves {c : Cfg} {s : GS} {w : WPC} {stop : Bool} {r : GS × WPC} (ho : s.closed = false)
    (h : workerStep c s w stop = some r) (p : Packet) (hp : nonempty p = true) :
    r.1.log.count p + r.1.sliceCh.countP (fun x => s.cut x = p) + (if carries s p r.2 then 1 else 0) =
    s.log.count p + s.sliceCh.countP (fun x => s.cut x = p) + (if carries s p w then 1 else 0) := by
  unfold workerStep at h
  cases w with
  | wait =>
    simp only [ho] at h
    split at h
    · cases h
    · split at h
      · cases h
      · rename_i x rest hx
        cases h
        simp only [hx, List.countP_cons, carries, decide_eq_true_eq]
        simp
        omega
  | got x =>
    simp only at h
    rw [if_neg (by simp [ho])] at h
    split at h
    · rename_i hx
      cases h
      have : ¬ s.cut x = p := by
        intro e
        rw [← e] at hp
        simp [nonempty, GS.cut, hx.2] at hp
      simp [carries, this]
    · cases h; rfl
  | enc x => cases h; rfl
  | mar x => cases h; rfl
  | call q =>
    cases h
    simp only [List.count_append, List.count_singleton, carries, decide_eq_true_eq, beq_iff_eq]
    simp
    omega
  | check =>
    simp only at h
    rw [if_neg (by simp [ho])] at h
    cases h; rfl
  | send => simp only at h; split at h <;> cases h; rfl
  | leave => cases h; rfl
  | exit => simp only at h; split at h <;> cases h; rfl
  | dead => cases h

theorem reach_balanced {c : Cfg} {s : GS} (h : Reach c s) (ho : s.closed = false) : Balanced s := by
  induction h with
  | init devs =>
    intro p hp
    have : (List.replicate c.numWorkers WPC.wait).countP (carries (GS.init c devs) p) = 0 :=
      carries_zero (by simp [WPC.busy])
    simp only [GS.init] at this ⊢
    rw [this]
    rfl
  | @step s s' a hs hf ih =>
    have hb := open_before hf ho
    have h2 := ih hb
    cases a with
    | close => cases hf; cases ho
    | ticker => simp only [fire] at hf; split at hf <;> cases hf; exact balanced_frozen h2 rfl rfl rfl rfl rfl rfl
    | attach p => simp only [fire] at hf; split at hf <;> cases hf; exact balanced_frozen h2 rfl rfl rfl rfl rfl rfl
    | detach i => simp only [fire] at hf; split at hf <;> cases hf; exact balanced_frozen h2 rfl rfl rfl rfl rfl rfl
    | run => exact balanced_run (reach_inv hs) h2 hb hf
    | worker i stop =>
      obtain ⟨w, r, hw, hr, rfl, e1, e2, e3, e4, e5, e6, e7, e8, e9, e10, e11, -⟩ := worker_effect hf
      intro p hp
      have k := worker_moves hb hr p hp
      have hc := count_set hw r.2 (carries s p)
      have hbal := h2 p hp
      have e : ({ r.1 with workers := s.workers.set i r.2 } : GS).cut = s.cut := by
        funext x; unfold GS.cut; simp only [e3, e9]
      have ec : carries ({ r.1 with workers := s.workers.set i r.2 } : GS) p = carries s p := by
        funext w; cases w <;> simp only [carries, e]
      rw [e, ec]
      simp only [e11]
      omega
    | notifier stop =>
      obtain ⟨e1, e2, e3, e4, e5, e6, e7, e8, e9, e10, e11, e12, -⟩ := notifier_effect hf
      exact balanced_frozen h2 e3 e9 e4 e7 e12 e11

/-- While no slice is in flight, the delivered packets are the sent ones, in some order. -/
theorem delivered_sent {c : Cfg} {s : GS} (h : Reach c s) (ho : s.closed = false) (h0 : c.out s.run = 0) :
    (s.log.filter nonempty).Perm (s.sent.filter nonempty) := by
  obtain ⟨e1, e2⟩ := empty_of (reach_inv h) ho h0
  rw [List.perm_iff_count]
  intro p
  by_cases hp : nonempty p = true
  · rw [List.count_filter hp, List.count_filter hp]
    have := reach_balanced h ho p hp
    rw [e1, carries_zero e2, List.countP_nil] at this
    exact this
  · rw [List.count_eq_zero_of_not_mem, List.count_eq_zero_of_not_mem]
    · intro hm; exact hp (List.mem_filter.mp hm).2
    · intro hm; exact hp (List.mem_filter.mp hm).2

theorem contents_filter (l : List Packet) : contents (l.filter nonempty) = contents l := by
  unfold contents
  induction l with
  | nil => rfl
  | cons p l ih =>
    by_cases hp : nonempty p = true
    · rw [List.filter_cons_of_pos hp, List.flatMap_cons, List.flatMap_cons, ih]
    · rw [List.filter_cons_of_neg hp, List.flatMap_cons, ih]
      have : p.slots = [] := by simpa [nonempty] using hp
      rw [this, List.nil_append]

/-! ## What is sent -/

/-- Devices dealt with in this tick when the slices of the current flush are sent. -/
def cover (n : Nat) : RPC → Nat
  | .adv _ => 0
  | .fill i => i
  | .fsend k | .fcheck k | .fwait k | .mcheck k _ | .msend k _ | .wcheck k _ | .mwait k _ =>
    (match k with | none => n | some i => i + 1)
  | .relock i => i + 1
  | _ => n

/-- Stored and not yet sent. -/
def remaining (c : Cfg) (s : GS) : List Slot :=
  match s.run with
  | .fill _ | .fsend _ => s.packet.take s.index
  | .mcheck _ i | .msend _ i => ((c.slices s.index).drop i).flatMap (C38.cut s.packet)
  | _ => []

/-- What must have been sent, with what remains. -/
def due (c : Cfg) (devs : List Nat) (s : GS) : List Slot :=
  if inTick s.run then allSlots c.packetSize devs (s.clock - 1) ++
    tickSlots c.packetSize (devs.take (cover devs.length s.run)) s.clock
  else allSlots c.packetSize devs s.clock

/-- Facts about the position in the tick. -/
def place (c : Cfg) (n : Nat) (s : GS) : Prop :=
  match s.run with
  | .fill i => i ≤ n ∧ s.index < c.packetSize ∧ ∃ q, i = q * c.packetSize + s.index
  | .fsend k => c.single s.index = true ∧ s.index < c.packetSize ∧
      ∀ i, k = some i → i < n ∧ ∃ q, i + 1 = q * c.packetSize
  | .mcheck k _ | .msend k _ => c.single s.index = false ∧ s.index < c.packetSize ∧
      ∀ i, k = some i → i < n ∧ ∃ q, i + 1 = q * c.packetSize
  | .fcheck k | .fwait k | .wcheck k _ | .mwait k _ =>
      ∀ i, k = some i → i < n ∧ ∃ q, i + 1 = q * c.packetSize
  | .relock i => i < n ∧ ∃ q, i + 1 = q * c.packetSize
  | _ => True

structure Inv3 (c : Cfg) (devs : List Nat) (s : GS) : Prop where
  sent : contents s.sent ++ remaining c s = due c devs s
  place : place c devs.length s
  clock : inTick s.run = true → 1 ≤ s.clock

theorem kept_snoc (P : Nat) (l : List Nat) (x : Nat) :
    kept P (l ++ [x]) = kept P l ++ (if (l.length + 1) % P ≠ 0 then [x] else []) := by
  unfold kept
  rw [List.zipIdx_append, List.filter_append, List.map_append]
  congr 1
  simp only [List.zipIdx_cons, List.zipIdx_nil, Nat.zero_add]
  by_cases h : (l.length + 1) % P ≠ 0
  · rw [List.filter_cons_of_pos (by simpa using h), if_pos h]; rfl
  · rw [List.filter_cons_of_neg (by simpa using h), if_neg h]; rfl

theorem tick_snoc {P : Nat} {devs : List Nat} {i x : Nat} (h : devs[i]? = some x) (t : Nat) :
    tickSlots P (devs.take (i + 1)) t =
      tickSlots P (devs.take i) t ++ (if (i + 1) % P ≠ 0 then [some (x, t)] else []) := by
  have hlt := (List.getElem?_eq_some_iff.mp h).1
  have e : devs.take (i + 1) = devs.take i ++ [x] := by
    rw [List.take_add_one, h]; rfl
  unfold tickSlots
  rw [e, kept_snoc, List.length_take_of_le (by omega), List.map_append]
  split <;> rfl

theorem allSlots_succ (P : Nat) (devs : List Nat) {n : Nat} (h : 1 ≤ n) :
    allSlots P devs n = allSlots P devs (n - 1) ++ tickSlots P devs n := by
  obtain ⟨m, rfl⟩ : ∃ m, n = m + 1 := ⟨n - 1, by omega⟩
  unfold allSlots
  rw [List.range_succ, List.flatMap_append]
  simp

theorem cut_eq (s : GS) (x : Slice) : (s.cut x).slots = C38.cut s.packet x := by
  unfold GS.cut C38.cut
  simp only
  rw [List.drop_take]

theorem contents_push (s : GS) (x : Slice) (pc : RPC) :
    contents (s.push x pc).sent = contents s.sent ++ C38.cut s.packet x := by
  unfold contents GS.push
  simp only
  rw [List.flatMap_append, ← cut_eq]
  simp

theorem take_set {l : List Slot} {i : Nat} (h : i < l.length) (x : Slot) :
    (l.set i x).take (i + 1) = l.take i ++ [x] := by
  rw [List.take_add_one, List.getElem?_set_self h, List.take_set_of_le (Nat.le_refl _)]
  rfl

theorem enter_remaining {c : Cfg} (hn : 1 ≤ c.numWorkers) {s : GS} {k : Option Nat} (hr : s.run = c.enter s.index k)
    (hl : s.index ≤ s.packet.length) : remaining c s = s.packet.take s.index := by
  unfold remaining
  rw [hr]
  unfold Cfg.enter
  split
  · rename_i heq
    split at heq <;> cases heq
  · rename_i heq
    rfl
  · rename_i k' i heq
    split at heq
    · cases heq
    · cases heq
      rw [List.drop_zero]
      exact C38.slices_partition c s.index hn s.packet hl
  · rename_i heq
    split at heq <;> cases heq
  · rename_i h1 h2 h3 h4
    by_cases hs : c.single s.index = true
    · rw [if_pos hs] at h2; exact absurd rfl (h2 k)
    · rw [if_neg hs] at h3; exact absurd rfl (h3 k 0)

theorem enter_inTick (c : Cfg) (i : Nat) (k : Option Nat) (n : Nat) :
    inTick (c.enter i k) = true ∧ cover n (c.enter i k) = (match k with | none => n | some i => i + 1) := by
  unfold Cfg.enter; split <;> exact ⟨rfl, rfl⟩

theorem enter_place {c : Cfg} {n : Nat} {s : GS} {k : Option Nat} (hr : s.run = c.enter s.index k)
    (hx : s.index < c.packetSize) (hk : ∀ i, k = some i → i < n ∧ ∃ q, i + 1 = q * c.packetSize) :
    place c n s := by
  unfold place
  rw [hr]
  unfold Cfg.enter
  cases hs : c.single s.index with
  | true => exact ⟨by simpa using hs, hx, hk⟩
  | false => exact ⟨by simpa using hs, hx, hk⟩

/-- After a flush. -/
theorem inv3_after {c : Cfg} {devs : List Nat} {s s' : GS} {k : Option Nat} (h : Inv3 c devs s)
    (hin : inTick s.run = true) (hcov : cover devs.length s.run = (match k with | none => devs.length | some i => i + 1))
    (hrem : remaining c s = []) (hk : ∀ i, k = some i → i < devs.length ∧ ∃ q, i + 1 = q * c.packetSize)
    (hr : s'.run = .after k) (hs : s'.sent = s.sent) (hc : s'.clock = s.clock) : Inv3 c devs s' := by
  have hsent := h.sent
  rw [hrem, List.append_nil] at hsent
  unfold due at hsent
  rw [hin, if_pos rfl, hcov] at hsent
  cases k with
  | none =>
    refine ⟨?_, by unfold place; rw [hr]; trivial, fun _ => by rw [hc]; exact h.clock hin⟩
    unfold remaining due
    rw [hr, hs, hc]
    simpa [RPC.after, inTick, cover] using hsent
  | some i =>
    refine ⟨?_, by unfold place; rw [hr]; exact hk i rfl, fun _ => by rw [hc]; exact h.clock hin⟩
    unfold remaining due
    rw [hr, hs, hc]
    simpa [RPC.after, inTick, cover] using hsent

theorem slices_get {c : Cfg} {index i : Nat} (hs : c.single index = false) (hi : i < c.numWorkers) :
    (c.slices index).drop i = c.part index i :: (c.slices index).drop (i + 1) := by
  have hl : i < (c.slices index).length := by
    unfold Cfg.slices
    rw [hs]
    simpa using hi
  rw [List.drop_eq_getElem_cons hl]
  congr 1
  unfold Cfg.slices
  simp [hs]

theorem inv3_run {c : Cfg} (hn : 1 ≤ c.numWorkers) (hP : 1 ≤ c.packetSize) {devs : List Nat} {s s' : GS}
    (hi : Inv c s) (ho : s.closed = false) (hd : s.devs = devs) (h : Inv3 c devs s)
    (hs : runStep c s = some s') : Inv3 c devs s' := by
  have hsent := h.sent
  have hplace := h.place
  have hclock := h.clock
  have hpc := hi.pc
  unfold runStep at hs
  cases hr : s.run with
  | idle => rw [hr] at hs; simp [ho] at hs
  | ticked =>
    rw [hr] at hs; simp only at hs
    rw [if_neg (by simp [ho])] at hs
    cases hs
    refine ⟨?_, trivial, fun _ => by simp⟩
    unfold remaining due at hsent
    rw [hr] at hsent
    simp only [inTick, List.append_nil] at hsent
    simp only [remaining, due, inTick, cover, if_true, List.append_nil, Nat.add_sub_cancel]
    rw [hsent]
    simp [tickSlots, kept]
  | adv i =>
    have hck := hclock (by rw [hr]; rfl)
    unfold remaining due at hsent
    rw [hr] at hs hsent; simp only at hs
    split at hs <;> cases hs
    · exact ⟨hsent, trivial, fun _ => hck⟩
    · refine ⟨?_, ⟨Nat.zero_le _, hP, 0, by simp⟩, fun _ => hck⟩
      simpa [remaining, due, inTick, cover] using hsent
  | fill i =>
    have hck := hclock (by rw [hr]; rfl)
    unfold place at hplace
    unfold remaining due at hsent
    rw [hr] at hs hsent hplace; simp only at hs hplace
    simp only [inTick, cover, if_true] at hsent
    obtain ⟨p1, p2, q, p3⟩ := hplace
    have hlt : s.index < s.packet.length := by rw [hi.plen]; exact p2
    split at hs
    · rename_i p hp
      have hp' : devs[i]? = some p := by rw [← hd]; exact hp
      have hlt' : i < devs.length := (List.getElem?_eq_some_iff.mp hp').1
      split at hs
      · split at hs
        · -- the packet is full
          rename_i hfull
          cases hs
          have hmod : i + 1 = (q + 1) * c.packetSize := by
            rw [p3, Nat.succ_mul, ← hfull]
            omega
          have hrem := enter_remaining (k := some i) hn (s := { s with
              packet := s.packet.set s.index (some (p, s.clock)), run := c.enter s.index (some i) })
            rfl (by simp only [List.length_set]; omega)
          refine ⟨?_, ?_, fun _ => hck⟩
          · rw [hrem]
            unfold due
            simp only
            obtain ⟨e1, e2⟩ := enter_inTick c s.index (some i) devs.length
            rw [e1, e2, if_pos rfl, tick_snoc hp']
            rw [if_neg (by rw [hmod]; simp), List.append_nil, List.take_set_of_le (Nat.le_refl _)]
            exact hsent
          · refine enter_place (k := some i) rfl p2 (fun j hj => ?_)
            cases hj
            exact ⟨hlt', q + 1, hmod⟩
        · rename_i hnf
          cases hs
          refine ⟨?_, ⟨hlt', by simp only; omega, q, by simp only; omega⟩, fun _ => hck⟩
          simp only [remaining, due, inTick, cover, if_true]
          rw [take_set hlt, tick_snoc hp', ← List.append_assoc, hsent]
          have hmod : (i + 1) % c.packetSize ≠ 0 := by
            rw [p3, Nat.add_assoc, Nat.mul_add_mod_self_right, Nat.mod_eq_of_lt (by omega)]
            omega
          rw [if_pos hmod, List.append_assoc]
      · cases hs
    · rename_i hp
      rw [hd, List.getElem?_eq_none_iff] at hp
      have hi' : i = devs.length := by omega
      cases hs
      have hrem := enter_remaining (k := none) hn (s := { s with run := c.enter s.index none })
        rfl (by simp only; omega)
      refine ⟨?_, enter_place (k := none) rfl p2 nofun, fun _ => hck⟩
      rw [hrem]
      unfold due
      simp only
      obtain ⟨e1, e2⟩ := enter_inTick c s.index none devs.length
      rw [e1, e2, if_pos rfl]
      rw [hi'] at hsent
      exact hsent
  | fsend k =>
    have hck := hclock (by rw [hr]; rfl)
    unfold place at hplace
    unfold remaining due at hsent
    rw [hr] at hs hsent hplace; simp only at hs hplace
    split at hs <;> cases hs
    refine ⟨?_, hplace.2.2, fun _ => hck⟩
    rw [contents_push]
    have e : C38.cut s.packet ⟨0, s.index⟩ = s.packet.take s.index := by simp [C38.cut]
    rw [e]
    unfold remaining due
    simp only [GS.push, List.append_nil]
    exact hsent
  | fcheck k =>
    have hck := hclock (by rw [hr]; rfl)
    unfold place at hplace
    unfold remaining due at hsent
    rw [hr] at hs hsent hplace; simp only at hs hplace
    rw [if_neg (by simp [ho])] at hs
    cases hs
    exact ⟨hsent, hplace, fun _ => hck⟩
  | fwait k =>
    unfold place at hplace
    rw [hr] at hs hplace; simp only at hs hplace
    split at hs <;> cases hs
    exact inv3_after (k := k) h (by rw [hr]; rfl) (by rw [hr]; rfl) (by unfold remaining; rw [hr]) hplace rfl rfl rfl
  | mcheck k i =>
    have hck := hclock (by rw [hr]; rfl)
    unfold place at hplace
    unfold remaining due at hsent
    rw [hr] at hs hsent hplace; simp only at hs hplace
    rw [if_neg (by simp [ho] : ¬ s.closed = true)] at hs
    split at hs
    · cases hs
      exact ⟨hsent, hplace, fun _ => hck⟩
    · rename_i hge
      cases hs
      refine ⟨?_, hplace.2.2, fun _ => hck⟩
      have e : (c.slices s.index).drop i = [] := by
        rw [List.drop_eq_nil_iff]
        have := C38.slices_length c s.index hn
        omega
      simp only [e, List.flatMap_nil] at hsent
      exact hsent
  | msend k i =>
    have hck := hclock (by rw [hr]; rfl)
    unfold place at hplace
    unfold remaining due at hsent
    rw [hr] at hs hsent hplace hpc; simp only at hs hplace
    have hpc : i < c.numWorkers := hpc
    split at hs <;> cases hs
    refine ⟨?_, hplace, fun _ => hck⟩
    simp only at hsent
    rw [slices_get hplace.1 hpc, List.flatMap_cons, ← List.append_assoc] at hsent
    rw [contents_push]
    exact hsent
  | wcheck k j =>
    have hck := hclock (by rw [hr]; rfl)
    unfold place at hplace
    rw [hr] at hs hplace; simp only at hs hplace
    rw [if_neg (by simp [ho] : ¬ s.closed = true)] at hs
    split at hs
    · cases hs
      unfold remaining due at hsent
      rw [hr] at hsent
      exact ⟨hsent, hplace, fun _ => hck⟩
    · cases hs
      exact inv3_after (k := k) h (by rw [hr]; rfl) (by rw [hr]; rfl) (by unfold remaining; rw [hr]) hplace rfl rfl rfl
  | mwait k j =>
    have hck := hclock (by rw [hr]; rfl)
    unfold place at hplace
    unfold remaining due at hsent
    rw [hr] at hs hsent hplace; simp only at hs hplace
    split at hs <;> cases hs
    exact ⟨hsent, hplace, fun _ => hck⟩
  | relock i =>
    have hck := hclock (by rw [hr]; rfl)
    unfold place at hplace
    unfold remaining due at hsent
    rw [hr] at hs hsent hplace; simp only at hs hplace
    cases hs
    obtain ⟨h1, q, h2⟩ := hplace
    refine ⟨?_, ⟨h1, hP, q, by simp only; omega⟩, fun _ => hck⟩
    simpa [remaining, due, inTick, cover] using hsent
  | reset =>
    have hck := hclock (by rw [hr]; rfl)
    unfold remaining due at hsent
    rw [hr] at hs hsent; simp only at hs
    split at hs <;> cases hs
    exact ⟨hsent, trivial, fun _ => hck⟩
  | notify =>
    have hck := hclock (by rw [hr]; rfl)
    unfold remaining due at hsent
    rw [hr] at hs hsent
    cases hs
    refine ⟨?_, trivial, nofun⟩
    simp only [inTick, cover, if_true, List.append_nil, List.take_length] at hsent
    simp only [remaining, due, inTick, List.append_nil, allSlots_succ _ _ hck]
    exact hsent
  | fin =>
    unfold remaining due at hsent
    rw [hr] at hs hsent
    cases hs
    exact ⟨hsent, trivial, nofun⟩
  | done => rw [hr] at hs; cases hs

theorem inv3_same {c : Cfg} {devs : List Nat} {s s' : GS} (h : Inv3 c devs s) (e1 : s'.sent = s.sent)
    (e2 : s'.run = s.run) (e3 : s'.packet = s.packet) (e4 : s'.index = s.index) (e5 : s'.clock = s.clock) :
    Inv3 c devs s' := by
  obtain ⟨h1, h2, h3⟩ := h
  refine ⟨?_, ?_, by rw [e2, e5]; exact h3⟩
  · unfold remaining due at h1 ⊢
    rw [e1, e2, e3, e4, e5]; exact h1
  · unfold place at h2 ⊢
    rw [e2, e4]; exact h2

theorem steady_inv3 {c : Cfg} (hn : 1 ≤ c.numWorkers) (hP : 1 ≤ c.packetSize) {devs : List Nat} {s : GS}
    (h : Steady c devs s) (ho : s.closed = false) : Inv3 c devs s := by
  induction h with
  | init => exact ⟨rfl, trivial, nofun⟩
  | @step s s' a hs ha hd hf ih =>
    have hb := open_before hf ho
    have h3 := ih hb
    obtain ⟨hr, hdv⟩ := steady_reach hs
    cases a with
    | close => cases hf; cases ho
    | ticker =>
      simp only [fire] at hf
      split at hf
      · rename_i hr
        cases hf
        obtain ⟨h1, h2, h3⟩ := h3
        refine ⟨?_, trivial, nofun⟩
        unfold remaining due at h1
        rw [hr] at h1
        exact h1
      · cases hf
    | attach p => exact absurd rfl (ha p)
    | detach i => exact absurd rfl (hd i)
    | run => exact inv3_run hn hP (reach_inv hr) hb hdv h3 hf
    | worker i stop =>
      obtain ⟨w, r, hw, hr, rfl, e1, e2, e3, e4, e5, e6, e7, e8, e9, e10, e11, -⟩ := worker_effect hf
      exact inv3_same h3 e11 e2 e3 e6 e9
    | notifier stop =>
      obtain ⟨e1, e2, e3, e4, e5, e6, e7, e8, e9, e10, e11, e12, -⟩ := notifier_effect hf
      exact inv3_same h3 e11 e2 e3 e6 e9

/-! ## Theorems -/

/-- **C39, partial.** Devices are neither attached nor detached, the generator is open and between ticks.
Then the packets delivered so far are, in some order, the non-empty ones of a sequence of packets whose
contents, in order, are: for every tick, once, the state of every device that is not in the last slot of a
full packet, stored in that tick. -/
theorem delivered_once_partial (c : Cfg) (hn : 1 ≤ c.numWorkers) (hP : 1 ≤ c.packetSize) (devs : List Nat)
    (s : GS) (h : Steady c devs s) (ho : s.closed = false) (hr : s.run = .idle) :
    ∃ pieces : List Packet, (s.log.filter nonempty).Perm (pieces.filter nonempty) ∧
      contents pieces = allSlots c.packetSize devs s.clock := by
  refine ⟨s.sent, delivered_sent (steady_reach h).1 ho (by rw [hr]; rfl), ?_⟩
  have := (steady_inv3 hn hP h ho).sent
  unfold remaining due at this
  rw [hr] at this
  simpa [inTick] using this

/-- A tick's worth of `n` devices, each once. -/
theorem kept_all {P : Nat} {devs : List Nat} (h : devs.length < P) : kept P devs = devs := by
  unfold kept
  rw [List.filter_eq_self.mpr, List.zipIdx_map_fst]
  intro x hx
  have := List.snd_lt_of_mem_zipIdx hx
  simp only [ne_eq, decide_not, Bool.not_eq_eq_eq_not, Bool.not_true, decide_eq_false_iff_not]
  rw [Nat.mod_eq_of_lt (by omega)]
  omega

/-- **C39 for fewer devices than a packet has slots.** With distinct devices, every device's state of every
tick so far has been delivered exactly once. -/
theorem each_once (c : Cfg) (hn : 1 ≤ c.numWorkers) (devs : List Nat) (hd : devs.Nodup)
    (hlen : devs.length < c.packetSize) (s : GS) (h : Steady c devs s) (ho : s.closed = false)
    (hr : s.run = .idle) (p : Nat) (hp : p ∈ devs) (t : Nat) (ht : 1 ≤ t ∧ t ≤ s.clock) :
    (contents s.log).count (some (p, t)) = 1 := by
  obtain ⟨pieces, h1, h2⟩ := delivered_once_partial c hn (by omega) devs s h ho hr
  have hperm : (contents s.log).Perm (contents pieces) := by
    rw [← contents_filter s.log, ← contents_filter pieces]
    exact h1.flatMap_right _
  rw [hperm.count_eq, h2]
  have hone : ∀ t', (tickSlots c.packetSize devs t').count (some (p, t)) = if t' = t then 1 else 0 := by
    intro t'
    unfold tickSlots
    rw [kept_all hlen]
    split
    · rename_i e
      subst e
      refine List.count_eq_one_of_mem ?_ (List.mem_map.mpr ⟨p, hp, rfl⟩)
      refine List.Nodup.map ?_ hd
      intro a b hab
      simpa using hab
    · rename_i e
      rw [List.count_eq_zero]
      intro hm
      obtain ⟨q, -, hq⟩ := List.mem_map.mp hm
      simp only [Option.some.injEq, Prod.mk.injEq] at hq
      exact e hq.2
  unfold allSlots
  rw [List.count_flatMap]
  have : ∀ n, ((List.range n).map (fun t' => (tickSlots c.packetSize devs (t' + 1)).count (some (p, t)))).sum =
      if 1 ≤ t ∧ t ≤ n then 1 else 0 := by
    intro n
    induction n with
    | zero => rw [if_neg (by omega)]; rfl
    | succ n ih =>
      rw [List.range_succ, List.map_append, List.sum_append, ih]
      simp only [List.map_cons, List.map_nil, List.sum_cons, List.sum_nil, hone]
      split <;> split <;> split <;> omega
  have e := this s.clock
  rw [if_pos ht] at e
  exact e

theorem kept_mem {P : Nat} {devs : List Nat} {p : Nat} (h : p ∈ kept P devs) :
    ∃ i, devs[i]? = some p ∧ (i + 1) % P ≠ 0 := by
  unfold kept at h
  obtain ⟨⟨q, i⟩, hm, rfl⟩ := List.mem_map.mp h
  obtain ⟨h1, h2⟩ := List.mem_filter.mp hm
  refine ⟨i, List.mk_mem_zipIdx_iff_getElem?.mp h1, by simpa using h2⟩

/-- **C39 fails.** With at least as many distinct devices as a packet has slots, the device in the last slot
is never delivered, in any tick. -/
theorem last_of_packet_lost (c : Cfg) (hn : 1 ≤ c.numWorkers) (hP : 1 ≤ c.packetSize) (devs : List Nat)
    (hd : devs.Nodup) (p : Nat) (hp : devs[c.packetSize - 1]? = some p) (s : GS) (h : Steady c devs s)
    (ho : s.closed = false) (hr : s.run = .idle) (t : Nat) : some (p, t) ∉ contents s.log := by
  obtain ⟨pieces, h1, h2⟩ := delivered_once_partial c hn hP devs s h ho hr
  have hperm : (contents s.log).Perm (contents pieces) := by
    rw [← contents_filter s.log, ← contents_filter pieces]
    exact h1.flatMap_right _
  intro hm
  rw [hperm.mem_iff, h2] at hm
  unfold allSlots at hm
  obtain ⟨t', -, ht'⟩ := List.mem_flatMap.mp hm
  unfold tickSlots at ht'
  obtain ⟨q, hq, e⟩ := List.mem_map.mp ht'
  simp only [Option.some.injEq, Prod.mk.injEq] at e
  rw [e.1] at hq
  obtain ⟨i, hi, hmod⟩ := kept_mem hq
  have hlt := (List.getElem?_eq_some_iff.mp hi).1
  have : i = c.packetSize - 1 := by
    rw [← hp] at hi
    exact (List.getElem?_inj hlt hd).mp hi
  rw [this, show c.packetSize - 1 + 1 = c.packetSize by omega, Nat.mod_self] at hmod
  exact hmod rfl

/-! ## Devices in a packet have been advanced in its tick (for C42) -/

/-- What has been advanced. -/
def advanced (s : GS) : Prop :=
  match s.run with
  | .adv i => ∀ j < i, ∀ p, s.devs[j]? = some p → s.last p = s.clock
  | .idle | .ticked | .fin | .done => True
  | _ => ∀ p ∈ s.devs, s.last p = s.clock

/-- The stored devices are attached ones. -/
def stored (s : GS) : Prop := packing s.run = true → ∀ j < s.index, ∀ x, s.packet[j]? = some x →
  ∃ p ∈ s.devs, x = some (p, s.clock)

theorem advanced_same {s s' : GS} (h : advanced s) (e1 : s'.run = s.run) (e2 : s'.devs = s.devs)
    (e3 : s'.last = s.last) (e4 : s'.clock = s.clock) : advanced s' := by
  unfold advanced at h ⊢
  rw [e1, e2, e3, e4]; exact h

theorem advanced_run {c : Cfg} {s s' : GS} (ho : s.closed = false) (h : advanced s)
    (hs : runStep c s = some s') : advanced s' := by
  unfold runStep at hs
  unfold advanced at h
  have aft : ∀ (k : Option Nat) (t : GS), t.run = .after k → (∀ p ∈ t.devs, t.last p = t.clock) → advanced t := by
    intro k t e ht
    unfold advanced
    rw [e]
    cases k <;> exact ht
  have ent : ∀ (i : Nat) (k : Option Nat) (t : GS), t.run = c.enter i k → (∀ p ∈ t.devs, t.last p = t.clock) →
      advanced t := by
    intro i k t e ht
    unfold advanced
    rw [e]
    unfold Cfg.enter
    cases c.single i <;> exact ht
  cases hr : s.run with
  | idle => rw [hr] at hs; simp [ho] at hs
  | ticked =>
    rw [hr] at hs; simp only at hs
    rw [if_neg (by simp [ho])] at hs
    cases hs
    exact fun j hj => by cases hj
  | adv i =>
    rw [hr] at hs h; simp only at hs h
    split at hs
    · rename_i p hp
      cases hs
      intro j hj q hq
      simp only at hq ⊢
      by_cases e : q = p
      · subst e; exact if_pos rfl
      · have : j ≠ i := by
          rintro rfl
          rw [hp] at hq
          exact e (Option.some.inj hq).symm
        have hlast := h j (by omega) q hq
        unfold setAt
        rw [if_neg e]
        exact hlast
    · rename_i hp
      cases hs
      rw [List.getElem?_eq_none_iff] at hp
      intro p hpm
      obtain ⟨j, hj⟩ := List.mem_iff_getElem?.mp hpm
      have hlt : j < s.devs.length := (List.getElem?_eq_some_iff.mp hj).1
      exact h j (by omega) p hj
  | fill i =>
    rw [hr] at hs h; simp only at hs h
    split at hs
    · split at hs
      · split at hs
        · cases hs; exact ent _ _ _ rfl h
        · cases hs; exact h
      · cases hs
    · cases hs; exact ent _ _ _ rfl h
  | fsend k => rw [hr] at hs h; simp only at hs h; split at hs <;> cases hs; exact h
  | fcheck k => rw [hr] at hs h; simp only at hs h; rw [if_neg (by simp [ho])] at hs; cases hs; exact h
  | fwait k => rw [hr] at hs h; simp only at hs h; split at hs <;> cases hs; exact aft k _ rfl h
  | mcheck k i =>
    rw [hr] at hs h; simp only at hs h
    rw [if_neg (by simp [ho] : ¬ s.closed = true)] at hs
    split at hs <;> (cases hs; exact h)
  | msend k i => rw [hr] at hs h; simp only at hs h; split at hs <;> cases hs; exact h
  | wcheck k j =>
    rw [hr] at hs h; simp only at hs h
    rw [if_neg (by simp [ho] : ¬ s.closed = true)] at hs
    split at hs
    · cases hs; exact h
    · cases hs; exact aft k _ rfl h
  | mwait k j => rw [hr] at hs h; simp only at hs h; split at hs <;> cases hs; exact h
  | relock i => rw [hr] at hs h; cases hs; exact h
  | reset => rw [hr] at hs h; simp only at hs h; split at hs <;> cases hs; exact h
  | notify => rw [hr] at hs h; cases hs; trivial
  | fin => rw [hr] at hs h; cases hs; trivial
  | done => rw [hr] at hs; cases hs

theorem steady_advanced {c : Cfg} {devs : List Nat} {s : GS} (h : Steady c devs s) (ho : s.closed = false) :
    advanced s := by
  induction h with
  | init => trivial
  | @step s s' a hs ha hd hf ih =>
    have hb := open_before hf ho
    have h3 := ih hb
    cases a with
    | close => cases hf; cases ho
    | ticker => simp only [fire] at hf; split at hf <;> cases hf; trivial
    | attach p => exact absurd rfl (ha p)
    | detach i => exact absurd rfl (hd i)
    | run => exact advanced_run hb h3 hf
    | worker i stop =>
      obtain ⟨w, r, hw, hr, rfl, e1, e2, e3, e4, e5, e6, e7, e8, e9, e10, -⟩ := worker_effect hf
      exact advanced_same h3 e2 e5 e10 e9
    | notifier stop =>
      obtain ⟨e1, e2, e3, e4, e5, e6, e7, e8, e9, e10, -⟩ := notifier_effect hf
      exact advanced_same h3 e2 e5 e10 e9

theorem stored_run {c : Cfg} {s s' : GS} (hi : Inv c s) (ho : s.closed = false) (h : stored s)
    (hix : ∀ i, s.run = .fill i → s.index < c.packetSize) (hs : runStep c s = some s') : stored s' := by
  unfold runStep at hs
  unfold stored at h ⊢
  have keep : s'.packet = s.packet → s'.index = s.index → s'.devs = s.devs → s'.clock = s.clock →
      packing s.run = true → packing s'.run = true → ∀ j < s'.index, ∀ x, s'.packet[j]? = some x →
        ∃ p ∈ s'.devs, x = some (p, s'.clock) := by
    intro e1 e2 e3 e4 e5 _
    rw [e1, e2, e3, e4]
    exact h e5
  cases hr : s.run with
  | idle => rw [hr] at hs; simp [ho] at hs
  | ticked =>
    rw [hr] at hs; simp only at hs
    rw [if_neg (by simp [ho])] at hs
    cases hs
    exact nofun
  | adv i =>
    rw [hr] at hs; simp only at hs
    split at hs <;> cases hs
    · exact nofun
    · exact fun _ j hj => by cases hj
  | fill i =>
    have hx := hix i hr
    have hlt : s.index < s.packet.length := by rw [hi.plen]; exact hx
    have h' := h (by rw [hr]; rfl)
    rw [hr] at hs; simp only at hs
    split at hs
    · rename_i p hp
      have hpm := List.mem_of_getElem? hp
      split at hs
      · split at hs <;> cases hs
        · intro _ j hj x hx
          simp only at hj hx ⊢
          rw [List.getElem?_set_ne (by omega)] at hx
          exact h' j hj x hx
        · intro _ j hj x hx
          simp only at hj hx ⊢
          by_cases e : j = s.index
          · subst e
            rw [List.getElem?_set_self hlt] at hx
            exact ⟨p, hpm, (Option.some.inj hx).symm⟩
          · rw [List.getElem?_set_ne (by omega)] at hx
            exact h' j (by omega) x hx
      · cases hs
    · cases hs
      exact fun _ => h'
  | fsend k =>
    rw [hr] at hs; simp only at hs; split at hs <;> cases hs
    exact keep rfl rfl rfl rfl (by rw [hr]; rfl)
  | fcheck k =>
    rw [hr] at hs; simp only at hs; rw [if_neg (by simp [ho])] at hs; cases hs
    exact keep rfl rfl rfl rfl (by rw [hr]; rfl)
  | fwait k =>
    rw [hr] at hs; simp only at hs; split at hs <;> cases hs
    exact keep rfl rfl rfl rfl (by rw [hr]; rfl)
  | mcheck k i =>
    rw [hr] at hs; simp only at hs
    rw [if_neg (by simp [ho] : ¬ s.closed = true)] at hs
    split at hs <;> (cases hs; exact keep rfl rfl rfl rfl (by rw [hr]; rfl))
  | msend k i =>
    rw [hr] at hs; simp only at hs; split at hs <;> cases hs
    exact keep rfl rfl rfl rfl (by rw [hr]; rfl)
  | wcheck k j =>
    rw [hr] at hs; simp only at hs
    rw [if_neg (by simp [ho] : ¬ s.closed = true)] at hs
    split at hs <;> (cases hs; exact keep rfl rfl rfl rfl (by rw [hr]; rfl))
  | mwait k j =>
    rw [hr] at hs; simp only at hs; split at hs <;> cases hs
    exact keep rfl rfl rfl rfl (by rw [hr]; rfl)
  | relock i => rw [hr] at hs; cases hs; exact fun _ j hj => by cases hj
  | reset => rw [hr] at hs; simp only at hs; split at hs <;> cases hs; exact nofun
  | notify => rw [hr] at hs; cases hs; exact nofun
  | fin => rw [hr] at hs; cases hs; exact nofun
  | done => rw [hr] at hs; cases hs

theorem steady_stored {c : Cfg} (hP : 1 ≤ c.packetSize) {devs : List Nat} {s : GS} (h : Steady c devs s)
    (ho : s.closed = false) : stored s := by
  induction h with
  | init => exact nofun
  | @step s s' a hs ha hd hf ih =>
    have hb := open_before hf ho
    have h3 := ih hb
    have hr := (steady_reach hs).1
    cases a with
    | close => cases hf; cases ho
    | ticker => simp only [fire] at hf; split at hf <;> cases hf; exact nofun
    | attach p => exact absurd rfl (ha p)
    | detach i => exact absurd rfl (hd i)
    | run => exact stored_run (reach_inv hr) hb h3 (index_lt hP hr) hf
    | worker i stop =>
      obtain ⟨w, r, hw, hr, rfl, e1, e2, e3, e4, e5, e6, e7, e8, e9, e10, -⟩ := worker_effect hf
      unfold stored at h3 ⊢
      simp only [e2, e3, e5, e6, e9]
      exact h3
    | notifier stop =>
      obtain ⟨e1, e2, e3, e4, e5, e6, e7, e8, e9, e10, -⟩ := notifier_effect hf
      unfold stored at h3 ⊢
      rw [e2, e3, e5, e6, e9]
      exact h3

/-- While the generator is open and a worker serialises a slice, every device in it has been advanced in the
current tick and not since. -/
theorem serialised_advanced (c : Cfg) (hP : 1 ≤ c.packetSize) (devs : List Nat) (s : GS) (h : Steady c devs s)
    (ho : s.closed = false) (x : Slice) (hw : .mar x ∈ s.workers) :
    ∀ y ∈ (s.cut x).slots, ∃ p ∈ devs, y = some (p, s.clock) ∧ s.last p = s.clock := by
  obtain ⟨hr, hd⟩ := steady_reach h
  have hwait := holds_waiting hr ho hw trivial
  have hhi := (reach_inv2 hP hr ho).held _ hw x rfl
  intro y hy
  obtain ⟨j, hj, e⟩ := mem_cut hy
  obtain ⟨p, hp, rfl⟩ := steady_stored hP h ho (held_packing hwait) j (by omega) y e
  refine ⟨p, by rw [← hd]; exact hp, rfl, ?_⟩
  have ha := steady_advanced h ho
  unfold advanced at ha
  cases hrun : s.run <;> rw [hrun] at ha hwait <;> first | exact ha p hp | cases hwait

/-! Non-vacuity: four slots and five devices: device 10, in the last slot, is never delivered. -/

example : (exec ⟨1, 4⟩ (GS.init ⟨1, 4⟩ [7, 8, 9, 10, 11]) ([.ticker] ++ List.replicate 13 .run ++
      List.replicate 7 (.worker 0 false) ++ List.replicate 6 .run ++ List.replicate 7 (.worker 0 false) ++
      List.replicate 3 .run)).map (fun s => (s.run, s.log)) =
    some (.idle, [⟨1, [some (7, 1), some (8, 1), some (9, 1)]⟩, ⟨1, [some (11, 1)]⟩]) := by decide +kernel

example : kept 4 [7, 8, 9, 10, 11] = [7, 8, 9, 11] := by decide

end C39
end GpsGen
