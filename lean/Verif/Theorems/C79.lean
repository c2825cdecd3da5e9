import Verif.Model.Live
import Verif.Theorems.C39
import Verif.Theorems.C70
import Mathlib.Data.List.Sort
/-!
# C79: a subscriber receives the trajectory of every device

Any number type and every interleaving of run loop, workers, notifier and ticker; devices are neither attached nor
detached, and used by nobody but the generator. With fewer devices than a packet has slots, the states of a device that
`onPacket` gets are, in order and without gap or repetition, its states after the first, second, ... round.
-/

namespace GpsGen
namespace C79
open Run C41 C42 C39

variable {F : Type} [GoMath F]

/-! ## Specification -/

/-- Every device by itself: it starts as `mem p` and `Next` is called in every round, with the time since the round
before. `rnd p n` are its draws in round `n`, from 1. -/
def Driven (mem : Nat → Device F) (rnd : Nat → Nat → Device.NextRnd F) (start : Int) (p : Nat) (ts : List Int)
    (d : Device F) : Prop :=
  driveDevice (mem p) start (ts.zipIdx.map fun x => (x.1, rnd p (x.2 + 1))) = .ok d

/-- The state of a device after the first `n` of the rounds. -/
def stateAfter (mem : Nat → Device F) (rnd : Nat → Nat → Device.NextRnd F) (start : Int) (p : Nat) (ts : List Int)
    (n : Nat) : Option (DevState F) :=
  (driveDevice (mem p) start ((ts.take n).zipIdx.map fun x => (x.1, rnd p (x.2 + 1)))).toOption.map (·.state)

/-- Executions in which no device is attached or detached. -/
inductive Runs (c : Cfg) (rnd : Nat → Nat → Device.NextRnd F) (devs : List Nat) (mem : Nat → Device F) (start : Int) :
    Live F → Prop
  | init : Runs c rnd devs mem start (Live.init c devs mem start)
  | step {L L' : Live F} (a : Act) (t : Int) (hs : Runs c rnd devs mem start L) (ha : ∀ p, a ≠ .attach p)
      (hd : ∀ i, a ≠ .detach i) (h : L.step c rnd a t = some L') : Runs c rnd devs mem start L'

/-- Everything that was delivered, slot by slot. -/
def slots (L : Live F) : List (Slot × Option (DevState F)) := L.out.flatMap fun x => x.1.slots.zip x.2

/-- What was delivered of one device, in order. -/
def received (L : Live F) (p : Nat) : List (Option (DevState F)) :=
  ((slots L).filter fun y => y.1.map Prod.fst == some p).map Prod.snd

/-! ## Steps -/

theorem step_eq {c : Cfg} {rnd : Nat → Nat → Device.NextRnd F} {L L' : Live F} {a : Act} {t : Int}
    (h : L.step c rnd a t = some L') : ∃ gs M, fire c L.gs a = some gs ∧ L.effect rnd a = some M ∧
      L' = { M with gs := gs, now := if a = .ticker then t else M.now } := by
  unfold Live.step at h
  obtain ⟨gs, h1, h⟩ := Option.bind_eq_some_iff.mp h
  obtain ⟨M, h2, h⟩ := Option.bind_eq_some_iff.mp h
  exact ⟨gs, M, h1, h2, (Option.some.inj h).symm⟩

/-- The generator does not see the devices. -/
theorem runs_steady {c : Cfg} {rnd : Nat → Nat → Device.NextRnd F} {devs : List Nat} {mem : Nat → Device F} {start : Int}
    {L : Live F} (h : Runs c rnd devs mem start L) : Steady c devs L.gs := by
  induction h with
  | init => exact .init
  | step a t hs ha hd h ih =>
    obtain ⟨gs, M, h1, -, rfl⟩ := step_eq h
    exact .step a ih ha hd h1

/-! ## Driving -/

/-- The time of the last round. -/
def lastOf (start : Int) (ts : List Int) : Int := ts.getLast?.getD start

theorem drive_snoc (d : Device F) (start : Int) (l : List (Int × Device.NextRnd F)) (t : Int) (r : Device.NextRnd F) :
    driveDevice d start (l ++ [(t, r)]) = (do
      let d' ← driveDevice d start l
      let x ← d'.next (tickOf (lastOf start (l.map Prod.fst)) t) r
      return x.1) := by
  induction l generalizing d start with
  | nil =>
    simp only [List.nil_append, driveDevice, lastOf, List.map_nil, List.getLast?_nil, Option.getD_none]
    rfl
  | cons y l ih =>
    obtain ⟨t0, r0⟩ := y
    simp only [List.cons_append, driveDevice]
    cases hx : d.next (tickOf start t0) r0 with
    | error e => rfl
    | ok x =>
      show driveDevice x.1 t0 (l ++ [(t, r)]) = _
      rw [ih]
      have : lastOf start (List.map Prod.fst ((t0, r0) :: l)) = lastOf t0 (l.map Prod.fst) := by
        unfold lastOf
        cases l with
        | nil => rfl
        | cons a as => simp [List.getLast?_cons]
      rw [this]
      rfl

theorem driven_snoc {mem : Nat → Device F} {rnd : Nat → Nat → Device.NextRnd F} {start : Int} {p : Nat} {ts : List Int}
    {d : Device F} {t : Int} {x : Device F × Bool} (h : Driven mem rnd start p ts d)
    (hx : d.next (tickOf (lastOf start ts) t) (rnd p (ts.length + 1)) = .ok x) :
    Driven mem rnd start p (ts ++ [t]) x.1 := by
  unfold Driven at *
  rw [List.zipIdx_append, List.map_append]
  have hm : (ts.zipIdx.map fun x => (x.1, rnd p (x.2 + 1))).map Prod.fst = ts := by
    rw [List.map_map]
    exact List.zipIdx_map_fst 0 ts
  simp only [List.zipIdx_cons, List.zipIdx_nil, List.map_cons, List.map_nil, Nat.zero_add]
  rw [drive_snoc, h, hm]
  show (d.next _ _ >>= _) = _
  rw [hx]
  rfl

/-! ## Invariant -/

section
variable (rnd : Nat → Nat → Device.NextRnd F) (devs : List Nat) (mem : Nat → Device F) (start : Int)

/-- The content of a packet is what its slots say. -/
def Shown (rounds : List Int) (p : Packet) (l : Content F) : Prop :=
  List.Forall₂ (fun (x : Slot) (y : Option (DevState F)) => ∃ q d, q ∈ devs ∧ x = some (q, p.clock) ∧
    1 ≤ p.clock ∧ p.clock ≤ rounds.length ∧ Driven mem rnd start q (rounds.take p.clock) d ∧ y = some d.state) p.slots l

/-- Where the devices are. -/
def Placed (L : Live F) : Prop :=
  match L.gs.run with
  | .idle | .ticked => L.last = lastOf start L.rounds ∧ ∀ p ∈ devs, Driven mem rnd start p L.rounds (L.mem p)
  | .adv i => ∃ rs, L.rounds = rs ++ [L.now] ∧ L.last = lastOf start rs ∧
      ∀ (j : Nat) p, devs[j]? = some p → Driven mem rnd start p (if j < i then L.rounds else rs) (L.mem p)
  | .fin | .done => True
  | _ => (∃ rs, L.rounds = rs ++ [L.now]) ∧ ∀ p ∈ devs, Driven mem rnd start p L.rounds (L.mem p)

/-- What holds while the generator is open. -/
structure Inv (L : Live F) : Prop where
  count : L.rounds.length = L.gs.clock
  placed : Placed rnd devs mem start L
  held : ∀ (i : Nat) p, L.gs.workers[i]? = some (.call p) → Shown rnd devs mem start L.rounds p (L.held i)
  carried : ∀ p, .call p ∈ L.gs.workers → p.clock = L.gs.clock
  out : ∀ x ∈ L.out, Shown rnd devs mem start L.rounds x.1 x.2
  log : L.out.map Prod.fst = L.gs.log
  sorted : (L.gs.log.map (·.clock)).Pairwise (· ≤ ·)
  past : ∀ p ∈ L.gs.log, p.clock ≤ L.gs.clock

variable {rnd devs mem start}

theorem shown_mono {rounds : List Int} {p : Packet} {l : Content F} (t : Int)
    (h : Shown rnd devs mem start rounds p l) : Shown rnd devs mem start (rounds ++ [t]) p l := by
  refine h.imp ?_
  rintro x y ⟨q, d, hq, hx, h1, hle, hd, hy⟩
  refine ⟨q, d, hq, hx, h1, ?_, ?_, hy⟩
  · rw [List.length_append]; omega
  · rw [List.take_append_of_le_length hle]; exact hd

/-- What a step of the run loop leaves alone. -/
theorem run_frame {c : Cfg} {s s' : GS} (h : runStep c s = some s') : s'.workers = s.workers ∧ s'.log = s.log ∧
    s'.devs = s.devs ∧ (s.run ≠ .ticked → s'.clock = s.clock) := by
  unfold runStep at h
  cases hr : s.run <;> rw [hr] at h <;> simp only at h <;> (repeat' (split at h)) <;> cases h <;>
    first | exact ⟨rfl, rfl, rfl, fun _ => rfl⟩ | exact ⟨rfl, rfl, rfl, fun h => absurd rfl h⟩

/-- The run loop keeps the devices where they should be. -/
theorem placed_run {c : Cfg} {L M : Live F} {gs : GS} (hd : L.gs.devs = devs) (hn : devs.Nodup) (ho : L.gs.closed = false)
    (hc : L.rounds.length = L.gs.clock) (h : Placed rnd devs mem start L) (h1 : runStep c L.gs = some gs)
    (h2 : L.effect rnd .run = some M) :
    Placed rnd devs mem start { M with gs := gs } ∧ M.rounds.length = gs.clock := by
  unfold runStep at h1
  unfold Live.effect at h2
  unfold Placed at h
  have aft : ∀ (k : Option Nat) (N : Live F), N.gs.run = .after k → ((∃ rs, N.rounds = rs ++ [N.now]) ∧
      ∀ p ∈ devs, Driven mem rnd start p N.rounds (N.mem p)) → Placed rnd devs mem start N := by
    intro k N e hN
    unfold Placed
    rw [e]
    cases k <;> exact hN
  have ent : ∀ (i : Nat) (k : Option Nat) (N : Live F), N.gs.run = c.enter i k → ((∃ rs, N.rounds = rs ++ [N.now]) ∧
      ∀ p ∈ devs, Driven mem rnd start p N.rounds (N.mem p)) → Placed rnd devs mem start N := by
    intro i k N e hN
    unfold Placed
    rw [e]
    unfold Cfg.enter
    cases c.single i <;> exact hN
  cases hr : L.gs.run with
  | idle => rw [hr] at h1; simp [ho] at h1
  | ticked =>
    rw [hr] at h1 h2 h; simp only [ho] at h1 h2 h
    rw [if_neg (by decide)] at h1 h2
    cases h1; cases h2
    refine ⟨⟨L.rounds, rfl, h.1, fun j p hj => ?_⟩, ?_⟩
    · rw [if_neg (Nat.not_lt_zero j)]
      exact h.2 p (List.mem_of_getElem? hj)
    · simp [hc]
  | adv i =>
    rw [hr] at h1 h2 h; simp only at h1 h2 h
    obtain ⟨rs, e1, e2, e3⟩ := h
    cases hp : L.gs.devs[i]? with
    | none =>
      rw [hp] at h1 h2
      cases h1; cases h2
      refine ⟨⟨⟨rs, e1⟩, fun p hpm => ?_⟩, hc⟩
      obtain ⟨j, hj⟩ := List.mem_iff_getElem?.mp hpm
      have hlt : j < i := by
        rw [List.getElem?_eq_none_iff, hd] at hp
        exact lt_of_lt_of_le (List.getElem?_eq_some_iff.mp hj).1 hp
      have := e3 j p hj
      rwa [if_pos hlt] at this
    | some p =>
      rw [hp] at h1 h2; simp only at h1 h2
      cases h1
      have hpi : devs[i]? = some p := by rw [← hd]; exact hp
      cases hx : (L.mem p).next (tickOf L.last L.now) (rnd p L.gs.clock) with
      | error e => rw [hx] at h2; cases h2
      | ok x =>
        rw [hx] at h2; simp only at h2
        cases h2
        refine ⟨⟨rs, e1, e2, fun j q hj => ?_⟩, hc⟩
        by_cases e : q = p
        · subst e
          have hji : j = i := by
            have hlt := (List.getElem?_eq_some_iff.mp hpi).1
            exact ((List.getElem?_inj hlt hn).mp (by rw [hpi, hj])).symm
          subst hji
          have hb := e3 j q hj
          rw [if_neg (Nat.lt_irrefl j)] at hb
          rw [if_pos (Nat.lt_succ_self j)]
          simp only [if_true]
          show Driven mem rnd start q L.rounds x.1
          rw [e1]
          refine driven_snoc hb ?_
          have hl : rs.length + 1 = L.gs.clock := by rw [← hc, e1]; simp
          rw [hl, ← e2]
          exact hx
        · have hb := e3 j q hj
          have hji : j ≠ i := by
            rintro rfl
            rw [hpi] at hj
            exact e (Option.some.inj hj).symm
          simp only [if_neg e]
          by_cases hlt : j < i
          · rw [if_pos (by omega)]; rwa [if_pos hlt] at hb
          · rw [if_neg (by omega)]; rwa [if_neg hlt] at hb
  | fill i =>
    rw [hr] at h1 h2 h; simp only at h1 h2 h
    cases h2
    split at h1
    · split at h1
      · split at h1 <;> cases h1
        · exact ⟨ent _ _ _ rfl h, hc⟩
        · exact ⟨h, hc⟩
      · cases h1
    · cases h1; exact ⟨ent _ _ _ rfl h, hc⟩
  | fsend k => rw [hr] at h1 h2 h; simp only at h1 h2 h; cases h2; split at h1 <;> cases h1; exact ⟨h, hc⟩
  | fcheck k =>
    rw [hr] at h1 h2 h; simp only at h1 h2 h; cases h2
    rw [if_neg (by simp [ho])] at h1; cases h1; exact ⟨h, hc⟩
  | fwait k => rw [hr] at h1 h2 h; simp only at h1 h2 h; cases h2; split at h1 <;> cases h1; exact ⟨aft k _ rfl h, hc⟩
  | mcheck k i =>
    rw [hr] at h1 h2 h; simp only at h1 h2 h; cases h2
    rw [if_neg (by simp [ho] : ¬ L.gs.closed = true)] at h1
    split at h1 <;> (cases h1; exact ⟨h, hc⟩)
  | msend k i => rw [hr] at h1 h2 h; simp only at h1 h2 h; cases h2; split at h1 <;> cases h1; exact ⟨h, hc⟩
  | wcheck k j =>
    rw [hr] at h1 h2 h; simp only at h1 h2 h; cases h2
    rw [if_neg (by simp [ho] : ¬ L.gs.closed = true)] at h1
    split at h1
    · cases h1; exact ⟨h, hc⟩
    · cases h1; exact ⟨aft k _ rfl h, hc⟩
  | mwait k j => rw [hr] at h1 h2 h; simp only at h1 h2 h; cases h2; split at h1 <;> cases h1; exact ⟨h, hc⟩
  | relock i => rw [hr] at h1 h2 h; cases h1; cases h2; exact ⟨h, hc⟩
  | reset => rw [hr] at h1 h2 h; simp only at h1 h2 h; cases h2; split at h1 <;> cases h1; exact ⟨h, hc⟩
  | notify =>
    rw [hr] at h1 h2 h; cases h1; cases h2
    obtain ⟨⟨rs, e⟩, h⟩ := h
    refine ⟨⟨?_, h⟩, hc⟩
    show L.now = lastOf start L.rounds
    rw [e]; simp [lastOf]
  | fin => rw [hr] at h1 h2; cases h1; cases h2; exact ⟨trivial, hc⟩
  | done => rw [hr] at h1; cases h1

theorem effect_run {L M : Live F} (h : L.effect rnd .run = some M) : M.held = L.held ∧ M.out = L.out ∧
    (M.rounds = L.rounds ∨ (∃ t, M.rounds = L.rounds ++ [t])) := by
  unfold Live.effect at h
  simp only at h
  split at h
  · split at h <;> cases h
    · exact ⟨rfl, rfl, .inl rfl⟩
    · exact ⟨rfl, rfl, .inr ⟨_, rfl⟩⟩
  · split at h
    · split at h <;> cases h
      exact ⟨rfl, rfl, .inl rfl⟩
    · cases h; exact ⟨rfl, rfl, .inl rfl⟩
  · cases h; exact ⟨rfl, rfl, .inl rfl⟩
  · cases h; exact ⟨rfl, rfl, .inl rfl⟩

end

theorem runs_inv {c : Cfg} {rnd : Nat → Nat → Device.NextRnd F} {devs : List Nat} {mem : Nat → Device F} {start : Int}
    (hP : 1 ≤ c.packetSize) (hn : devs.Nodup)
    {L : Live F} (h : Runs c rnd devs mem start L) (ho : L.gs.closed = false) : Inv rnd devs mem start L := by
  induction h with
  | init =>
    refine ⟨rfl, ⟨rfl, fun p _ => rfl⟩, ?_, ?_, nofun, rfl, List.Pairwise.nil, nofun⟩
    · intro i p hp
      exact absurd (List.eq_of_mem_replicate (List.mem_of_getElem? hp)) nofun
    · intro p hp
      exact absurd (List.eq_of_mem_replicate hp) nofun
  | @step L L' a t hs ha hd h ih =>
    have hst := runs_steady hs
    obtain ⟨gs, M, h1, h2, rfl⟩ := step_eq h
    have hb : L.gs.closed = false := open_before h1 ho
    have hi := ih hb
    obtain ⟨hreach, hdevs⟩ := steady_reach hst
    cases a with
    | close => cases h1; cases ho
    | attach p => exact absurd rfl (ha p)
    | detach i => exact absurd rfl (hd i)
    | ticker =>
      cases h2
      simp only [fire] at h1
      split at h1
      · rename_i hr
        cases h1
        refine ⟨hi.count, ?_, hi.held, hi.carried, hi.out, hi.log, hi.sorted, hi.past⟩
        have := hi.placed
        unfold Placed at this ⊢
        rw [hr] at this
        exact this
      · cases h1
    | run =>
      have h1' : runStep c L.gs = some gs := h1
      obtain ⟨hp, hcount⟩ := placed_run hdevs hn hb hi.count hi.placed h1' h2
      obtain ⟨f1, f2, f3, f4⟩ := run_frame h1'
      obtain ⟨g1, g2, g3⟩ := effect_run h2
      have hmono : ∀ p l, Shown rnd devs mem start L.rounds p l → Shown rnd devs mem start M.rounds p l := by
        intro p l hpl
        rcases g3 with e | ⟨t, e⟩ <;> rw [e]
        · exact hpl
        · exact shown_mono t hpl
      have hlen : L.rounds.length ≤ M.rounds.length := by
        rcases g3 with e | ⟨t, e⟩ <;> rw [e]
        rw [List.length_append]; omega
      refine ⟨hcount, hp, ?_, ?_, ?_, ?_, ?_, ?_⟩
      · intro i p hip
        simp only [f1, g1] at hip ⊢
        exact hmono _ _ (hi.held i p hip)
      · intro p hpw
        simp only [f1] at hpw
        have hw := holds_waiting hreach hb hpw trivial
        simp only
        rw [f4 (by intro e; rw [e] at hw; exact hw)]
        exact hi.carried p hpw
      · intro x hx
        simp only [g2] at hx ⊢
        exact hmono _ _ (hi.out x hx)
      · simp only [g2, f2]; exact hi.log
      · simp only [f2]; exact hi.sorted
      · intro p hpl
        simp only [f2] at hpl ⊢
        have := hi.past p hpl
        have hc := hi.count
        omega
    | worker i stop =>
      obtain ⟨w, r, hw, hr, rfl, e1, e2, e3, e4, e5, e6, e7, e8, e9, e10, -⟩ := worker_effect h1
      have hlt := (List.getElem?_eq_some_iff.mp hw).1
      have hmem := List.mem_of_getElem? hw
      have hplace : ∀ N : Live F, N.gs.run = L.gs.run → N.rounds = L.rounds → N.now = L.now → N.last = L.last →
          N.mem = L.mem → Placed rnd devs mem start N := by
        intro N k1 k2 k3 k4 k5
        have := hi.placed
        unfold Placed at this ⊢
        rw [k1, k2, k3, k4, k5]
        exact this
      -- a worker that neither serialises nor delivers
      have quiet : M = L → r.1.log = L.gs.log → (∀ p, r.2 ≠ .call p) →
          Inv rnd devs mem start { M with gs := { r.1 with workers := L.gs.workers.set i r.2 }, now := M.now } := by
        rintro rfl hl hc
        have back : ∀ p, .call p ∈ M.gs.workers.set i r.2 → .call p ∈ M.gs.workers := by
          intro p hp
          rcases mem_set_of hp with hp | hp
          · exact absurd hp.symm (hc p)
          · exact hp
        refine ⟨by rw [hi.count]; exact e9.symm, hplace _ e2 rfl rfl rfl rfl, ?_, ?_, hi.out, by rw [hi.log]; exact hl.symm,
          by simp only [hl]; exact hi.sorted, ?_⟩
        · intro j p hj
          simp only at hj ⊢
          by_cases e : j = i
          · subst e
            rw [List.getElem?_set_self hlt] at hj
            exact absurd (Option.some.inj hj) (hc p)
          · rw [List.getElem?_set_ne (Ne.symm e)] at hj
            exact hi.held j p hj
        · intro p hp
          simp only [e9]
          exact hi.carried p (back p hp)
        · intro p hp
          simp only [hl, e9] at hp ⊢
          exact hi.past p hp
      have hM : (∀ x, w ≠ .mar x) → (∀ p, w ≠ .call p) → M = L := by
        intro n1 n2
        unfold Live.effect at h2
        simp only [hw] at h2
        cases w <;> first | exact (Option.some.inj h2).symm | exact absurd rfl (n1 _) | exact absurd rfl (n2 _)
      cases w with
      | mar x =>
        unfold Live.effect at h2
        simp only [hw] at h2
        cases h2
        simp only [workerStep] at hr
        cases hr
        have hwait := holds_waiting hreach hb hmem trivial
        obtain ⟨⟨rs, hrs⟩, hall⟩ : (∃ rs, L.rounds = rs ++ [L.now]) ∧
            ∀ p ∈ devs, Driven mem rnd start p L.rounds (L.mem p) := by
          have := hi.placed
          unfold Placed at this
          cases hrun : L.gs.run <;> rw [hrun] at this hwait <;> first | exact this | cases hwait
        have hadv := serialised_advanced c hP devs L.gs hst hb x hmem
        have hnew : Shown rnd devs mem start L.rounds (L.gs.cut x) ((L.gs.cut x).slots.map L.read) := by
          unfold Shown
          rw [List.forall₂_map_right_iff]
          rw [List.forall₂_same]
          intro y hy
          obtain ⟨p, hp, rfl, -⟩ := hadv y hy
          refine ⟨p, L.mem p, hp, rfl, ?_, hi.count.ge, ?_, rfl⟩
          · show 1 ≤ L.gs.clock
            rw [← hi.count, hrs]; simp
          have : (L.gs.cut x).clock = L.rounds.length := hi.count.symm
          rw [this, List.take_length]
          exact hall p hp
        refine ⟨hi.count, hplace _ rfl rfl rfl rfl rfl, ?_, ?_, hi.out, hi.log, hi.sorted, hi.past⟩
        · intro j p hj
          simp only at hj ⊢
          by_cases e : j = i
          · subst e
            rw [List.getElem?_set_self hlt] at hj
            cases hj
            simp only [if_true]
            exact hnew
          · rw [List.getElem?_set_ne (Ne.symm e)] at hj
            rw [if_neg e]
            exact hi.held j p hj
        · intro p hp
          rcases mem_set_of hp with hp | hp
          · cases hp; rfl
          · exact hi.carried p hp
      | call p =>
        unfold Live.effect at h2
        simp only [hw] at h2
        cases h2
        simp only [workerStep] at hr
        cases hr
        have back : ∀ q, .call q ∈ L.gs.workers.set i .check → .call q ∈ L.gs.workers := by
          intro q hq
          rcases mem_set_of hq with hq | hq
          · cases hq
          · exact hq
        have hpc := hi.carried p hmem
        refine ⟨hi.count, hplace _ rfl rfl rfl rfl rfl, ?_, fun q hq => hi.carried q (back q hq), ?_, ?_, ?_, ?_⟩
        · intro j q hj
          simp only at hj ⊢
          by_cases e : j = i
          · subst e
            rw [List.getElem?_set_self hlt] at hj
            cases hj
          · rw [List.getElem?_set_ne (Ne.symm e)] at hj
            exact hi.held j q hj
        · intro x hx
          rcases List.mem_append.mp hx with hx | hx
          · exact hi.out x hx
          · rw [List.mem_singleton] at hx
            subst hx
            exact hi.held i p hw
        · show List.map Prod.fst (L.out ++ [(p, L.held i)]) = L.gs.log ++ [p]
          rw [List.map_append, hi.log]; rfl
        · show (List.map (·.clock) (L.gs.log ++ [p])).Pairwise (· ≤ ·)
          rw [List.map_append, List.pairwise_append]
          refine ⟨hi.sorted, List.pairwise_singleton _ _, ?_⟩
          intro m hm n hn
          obtain ⟨q, hq, rfl⟩ := List.mem_map.mp hm
          rw [List.map_singleton, List.mem_singleton] at hn
          subst hn
          rw [hpc]
          exact hi.past q hq
        · intro q hq
          rcases List.mem_append.mp hq with hq | hq
          · exact hi.past q hq
          · rw [List.mem_singleton] at hq
            subst hq
            exact hpc.le
      | _ =>
        refine quiet (hM nofun nofun) ?_ ?_
        all_goals
          simp only [workerStep] at hr
          (repeat' (split at hr)) <;> cases hr <;> first | rfl | exact nofun
    | notifier stop =>
      have h1' : notifierStep L.gs stop = some gs := h1
      obtain ⟨e1, e2, e3, e4, e5, e6, e7, e8, e9, e10, e11, e12, -⟩ := notifier_effect h1'
      cases h2
      refine ⟨by rw [hi.count]; exact e9.symm, ?_, by simp only [e4]; exact hi.held, by simp only [e4, e9]; exact hi.carried,
        hi.out, by rw [hi.log]; exact e12.symm, by simp only [e12]; exact hi.sorted, by simp only [e12, e9]; exact hi.past⟩
      have := hi.placed
      unfold Placed at this ⊢
      simp only [e2]
      exact this

/-! ## Theorems -/

section
variable {c : Cfg} {rnd : Nat → Nat → Device.NextRnd F} {devs : List Nat} {mem : Nat → Device F} {start : Int}

/-- The slot belongs to the device. -/
def of (p : Nat) (x : Slot) : Bool := x.map Prod.fst == some p

/-- The tick of a slot. -/
def tickOfSlot (x : Slot) : Nat := (x.map Prod.snd).getD 0

theorem zip_fst {rounds : List Int} {p : Packet} {l : Content F} (h : Shown rnd devs mem start rounds p l) :
    (p.slots.zip l).map Prod.fst = p.slots ∧ (p.slots.zip l).map Prod.snd = l := by
  have := h.length_eq
  exact ⟨List.map_fst_zip (by omega), List.map_snd_zip (by omega)⟩

/-- The slots delivered, without their contents. -/
theorem slots_fst {L : Live F} (h : Inv rnd devs mem start L) : (slots L).map Prod.fst = contents L.gs.log := by
  unfold slots contents
  rw [← h.log, List.map_flatMap, List.flatMap_map]
  refine List.flatMap_congr fun x hx => ?_
  exact (zip_fst (h.out x hx)).1

/-- Nothing else is delivered. -/
theorem slots_snd {L : Live F} (h : Inv rnd devs mem start L) : (slots L).map Prod.snd = L.out.flatMap Prod.snd := by
  unfold slots
  rw [List.map_flatMap]
  refine List.flatMap_congr fun x hx => ?_
  exact (zip_fst (h.out x hx)).2

theorem slot_shown {L : Live F} (h : Inv rnd devs mem start L) {y : Slot × Option (DevState F)} (hy : y ∈ slots L) :
    ∃ q t, q ∈ devs ∧ y.1 = some (q, t) ∧ (1 ≤ t ∧ t ≤ L.rounds.length) ∧ y.2.isSome = true ∧
      y.2 = stateAfter mem rnd start q L.rounds t := by
  unfold slots at hy
  obtain ⟨x, hx, hy⟩ := List.mem_flatMap.mp hy
  obtain ⟨q, d, hq, e1, h1, hle, hd, e2⟩ := List.forall₂_iff_zip.mp (h.out x hx) |>.2 hy
  refine ⟨q, x.1.clock, hq, e1, ⟨h1, hle⟩, by rw [e2]; rfl, ?_⟩
  unfold stateAfter
  unfold Driven at hd
  rw [hd, e2]
  rfl

/-- The ticks of the delivered slots do not go back. -/
theorem ticks_sorted {L : Live F} (h : Inv rnd devs mem start L) :
    (contents L.gs.log).Pairwise (fun x y => tickOfSlot x ≤ tickOfSlot y) := by
  have hg : ∀ p ∈ L.gs.log, ∀ x ∈ p.slots, tickOfSlot x = p.clock := by
    intro p hp x hx
    rw [← h.log] at hp
    obtain ⟨z, hz, rfl⟩ := List.mem_map.mp hp
    have hf := h.out z hz
    obtain ⟨y, hy⟩ : ∃ y, (x, y) ∈ z.1.slots.zip z.2 := by
      have e := (zip_fst hf).1
      rw [← e] at hx
      obtain ⟨⟨a, b⟩, hab, rfl⟩ := List.mem_map.mp hx
      exact ⟨b, hab⟩
    obtain ⟨q, d, -, e1, -⟩ := (List.forall₂_iff_zip.mp hf).2 hy
    rw [e1]; rfl
  unfold contents
  rw [List.pairwise_flatMap]
  constructor
  · intro p hp
    refine List.pairwise_of_forall_mem_list fun x hx y hy => ?_
    rw [hg p hp x hx, hg p hp y hy]
  · have := h.sorted
    rw [List.pairwise_map] at this
    refine this.imp_of_mem ?_
    intro p q hp hq hpq x hx y hy
    rw [hg p hp x hx, hg q hq y hy]
    exact hpq

theorem all_of (hd : devs.Nodup) {P : Nat} (hlen : devs.length < P) {p : Nat} (hp : p ∈ devs) (n : Nat) :
    (allSlots P devs n).filter (of p) = (List.range n).map fun t => some (p, t + 1) := by
  unfold allSlots
  rw [List.filter_flatMap]
  have : ∀ t, (tickSlots P devs t).filter (of p) = [some (p, t)] := by
    intro t
    unfold tickSlots
    rw [kept_all hlen, List.filter_map]
    have e : (of p ∘ fun q => (some (q, t) : Slot)) = fun q => q == p := by
      funext q
      simp [of]
    rw [e, List.filter_beq, List.count_eq_one_of_mem hd hp]
    rfl
  simp only [this]
  rw [← List.map_eq_flatMap]

/-- **C79.** While the generator is open and between rounds: what a subscriber has received of a device is its state
after every round so far, each once and in order. -/
theorem trajectory (hn : 1 ≤ c.numWorkers) (hd : devs.Nodup) (hlen : devs.length < c.packetSize) {L : Live F}
    (h : Runs c rnd devs mem start L) (ho : L.gs.closed = false) (hr : L.gs.run = .idle) (p : Nat) (hp : p ∈ devs) :
    received L p = (List.range L.rounds.length).map (fun t => stateAfter mem rnd start p L.rounds (t + 1)) ∧
    ∀ y ∈ received L p, y.isSome = true := by
  have hi := runs_inv (by omega) hd h ho
  obtain ⟨pieces, h1, h2⟩ := delivered_once_partial c hn (by omega) devs L.gs (runs_steady h) ho hr
  have hperm : (contents L.gs.log).Perm (allSlots c.packetSize devs L.gs.clock) := by
    rw [← h2, ← contents_filter L.gs.log, ← contents_filter pieces]
    exact h1.flatMap_right _
  have htags : (contents L.gs.log).filter (of p) = (List.range L.rounds.length).map fun t => some (p, t + 1) := by
    have hp1 := hperm.filter (of p)
    rw [all_of hd hlen hp, ← hi.count] at hp1
    have hs1 := (ticks_sorted hi).filter (of p)
    have key : ∀ l : List Slot, (∀ x ∈ l, of p x = true) → l = (l.map tickOfSlot).map fun t => some (p, t) := by
      intro l hl
      rw [List.map_map]
      conv_lhs => rw [← List.map_id l]
      refine List.map_congr_left fun x hx => ?_
      have := hl x hx
      unfold of at this
      cases x with
      | none => simp at this
      | some z =>
        obtain ⟨q, t⟩ := z
        simp at this
        simp [tickOfSlot, this]
    have hnat : ((contents L.gs.log).filter (of p)).map tickOfSlot = (List.range L.rounds.length).map (· + 1) := by
      refine List.Perm.eq_of_pairwise' (r := (· ≤ ·)) ?_ ?_ ?_
      · rw [List.pairwise_map]; exact hs1
      · rw [List.pairwise_map]
        exact List.pairwise_lt_range.imp (fun hab => by omega)
      · have := hp1.map tickOfSlot
        rw [List.map_map] at this
        exact this
    rw [key _ (fun x hx => (List.mem_filter.mp hx).2), hnat, List.map_map]
    rfl
  have hrec : received L p = (((slots L).filter fun y => of p y.1).map Prod.fst).map
      (fun x => stateAfter mem rnd start p L.rounds (tickOfSlot x)) := by
    unfold received
    rw [List.map_map]
    refine List.map_congr_left fun y hy => ?_
    obtain ⟨hy1, hy2⟩ := List.mem_filter.mp hy
    obtain ⟨q, t, -, e1, -, -, e2⟩ := slot_shown hi hy1
    have hq : q = p := by
      simp only [e1] at hy2
      simpa using hy2
    subst hq
    rw [e2, Function.comp, e1]
    rfl
  have hf : ((slots L).filter fun y => of p y.1).map Prod.fst = (contents L.gs.log).filter (of p) := by
    rw [← slots_fst hi, List.filter_map]
    rfl
  refine ⟨?_, ?_⟩
  · rw [hrec, hf, htags, List.map_map]
    rfl
  · intro y hy
    unfold received at hy
    obtain ⟨z, hz, rfl⟩ := List.mem_map.mp hy
    obtain ⟨-, -, -, -, -, e, -⟩ := slot_shown hi (List.mem_filter.mp hz).1
    exact e

/-- **C79, nothing else.** Every state delivered is that of an attached device after a round. -/
theorem only_attached (hP : 1 ≤ c.packetSize) (hd : devs.Nodup) {L : Live F} (h : Runs c rnd devs mem start L)
    (ho : L.gs.closed = false) (y : Option (DevState F)) (hy : y ∈ L.out.flatMap Prod.snd) :
    ∃ p t, p ∈ devs ∧ (1 ≤ t ∧ t ≤ L.rounds.length) ∧ y.isSome = true ∧ y = stateAfter mem rnd start p L.rounds t := by
  have hi := runs_inv hP hd h ho
  rw [← slots_snd hi] at hy
  obtain ⟨z, hz, rfl⟩ := List.mem_map.mp hy
  obtain ⟨q, t, hq, -, ht, e1, e2⟩ := slot_shown hi hz
  exact ⟨q, t, hq, ht, e1, e2⟩

/-! ## In bytes -/

/-- The device was made by the constructor and no snapshot was restored. -/
def Made (d : Device F) : Prop :=
  ∃ (rnd : DeviceRnd F) (o : Option (DeviceOptions F)) (d0 : Device F) (ops : List (DevOp F)),
    (∀ op ∈ ops, C26.NoRestore op) ∧ Device.new rnd o = .ok d0 ∧ d0.run ops = .ok d

theorem run_append (d : Device F) (as bs : List (DevOp F)) : d.run (as ++ bs) = d.run as >>= fun d' => d'.run bs := by
  induction as generalizing d with
  | nil => rfl
  | cons a as ih =>
    show (d.step a >>= fun d' => d'.run (as ++ bs)) = ((d.step a >>= fun d' => d'.run as) >>= _)
    cases d.step a with
    | error e => rfl
    | ok d' => exact ih d'

theorem drive_made {d d' : Device F} {t0 : Int} {l : List (Int × Device.NextRnd F)} (hm : Made d)
    (h : driveDevice d t0 l = .ok d') : Made d' := by
  induction l generalizing d t0 with
  | nil => cases h; exact hm
  | cons y l ih =>
    obtain ⟨t, r⟩ := y
    unfold driveDevice at h
    cases hx : d.next (tickOf t0 t) r with
    | error e => rw [hx] at h; cases h
    | ok x =>
      rw [hx] at h
      refine ih ?_ h
      obtain ⟨rnd, o, d0, ops, h1, h2, h3⟩ := hm
      refine ⟨rnd, o, d0, ops ++ [.next (tickOf t0 t) r], ?_, h2, ?_⟩
      · intro op hop
        rcases List.mem_append.mp hop with hop | hop
        · exact h1 op hop
        · rw [List.mem_singleton] at hop; subst hop; trivial
      · rw [run_append, h3]
        show d.run [.next (tickOf t0 t) r] = _
        unfold Device.run Device.step
        simp only
        rw [hx]
        rfl

/-- `Next` moved the device in round `n`. -/
def MovedIn (mem : Nat → Device F) (rnd : Nat → Nat → Device.NextRnd F) (start : Int) (p : Nat) (ts : List Int)
    (n : Nat) : Prop :=
  ∀ d t x, Driven mem rnd start p (ts.take (n - 1)) d → ts[n - 1]? = some t →
    d.next (tickOf (lastOf start (ts.take (n - 1))) t) (rnd p n) = .ok x → x.2 = true

theorem driven_ticked {p : Nat} {ts : List Int} {n : Nat} {d : Device F} (hm : Made (mem p)) (h1 : 1 ≤ n)
    (hn : n ≤ ts.length) (h : Driven mem rnd start p (ts.take n) d) (hmv : MovedIn mem rnd start p ts n) :
    C70.Ticked d := by
  have hlt : n - 1 < ts.length := by omega
  have hsplit : ts.take n = ts.take (n - 1) ++ [ts[n - 1]] := by
    have := List.take_succ_eq_append_getElem hlt
    rwa [show n - 1 + 1 = n by omega] at this
  have h0 := h
  unfold Driven at h
  rw [hsplit, List.zipIdx_append, List.map_append] at h
  simp only [List.zipIdx_cons, List.zipIdx_nil, List.map_cons, List.map_nil, Nat.zero_add] at h
  rw [drive_snoc] at h
  obtain ⟨d', hd', h⟩ := bind_eq_ok h
  obtain ⟨x, hx, h⟩ := bind_eq_ok h
  cases h
  have hmap : ((ts.take (n - 1)).zipIdx.map fun x => (x.1, rnd p (x.2 + 1))).map Prod.fst = ts.take (n - 1) := by
    rw [List.map_map]
    exact List.zipIdx_map_fst 0 _
  rw [hmap] at hx
  have hl : (ts.take (n - 1)).length + 1 = n := by rw [List.length_take]; omega
  rw [hl] at hx
  obtain ⟨rnd0, o, d0, ops, k1, k2, k3⟩ := drive_made hm hd'
  have hb := hmv d' ts[n - 1] x hd' (List.getElem?_eq_getElem hlt) hx
  exact ⟨rnd0, o, d0, d', ops, _, _, k1, k2, k3, by rw [hx, ← hb]⟩

theorem shown_devices (hm : ∀ p ∈ devs, Made (mem p)) {rounds : List Int} {p : Packet} {l : Content F}
    (hmv : ∀ q ∈ devs, MovedIn mem rnd start q rounds p.clock) (hs : Shown rnd devs mem start rounds p l) :
    ∃ ds : List (Device F), l = ds.map (fun d => some d.state) ∧
      ∀ d ∈ ds, C70.Ticked d ∧ ∃ q ∈ devs, Driven mem rnd start q (rounds.take p.clock) d := by
  unfold Shown at hs
  generalize p.slots = sl at hs
  induction hs with
  | nil => exact ⟨[], rfl, fun d hd => absurd hd List.not_mem_nil⟩
  | cons hx _ ih =>
    obtain ⟨ds, e, hds⟩ := ih
    obtain ⟨q, d, hq, -, h1, hle, hdr, e'⟩ := hx
    refine ⟨d :: ds, by rw [e, e', List.map_cons], ?_⟩
    intro d' hd'
    rcases List.mem_cons.mp hd' with rfl | hd'
    · exact ⟨driven_ticked (hm q hq) h1 hle hdr (hmv q hq), q, hq, hdr⟩
    · exact hds d' hd'

/-- **C79, in bytes.** A packet is made of the states of attached devices after the same round. Decoding its bytes shows
these devices, provided each of them moved in that round. `xs` pairs the devices with the routes their published states
were refreshed from. -/
theorem packet_seen [JsonFloat F] [UtmLib F] [WireFloat F] (hP : 1 ≤ c.packetSize) (hd : devs.Nodup)
    (hm : ∀ p ∈ devs, Made (mem p)) {L : Live F} (h : Runs c rnd devs mem start L) (ho : L.gs.closed = false)
    (z : Packet × Content F) (hz : z ∈ L.out) (hne : z.2 ≠ [])
    (hmv : ∀ p ∈ devs, MovedIn mem rnd start p L.rounds z.1.clock) :
    ∃ ds : List (Device F), z.2 = ds.map (fun d => some d.state) ∧
      (∀ d ∈ ds, ∃ q ∈ devs, Driven mem rnd start q (L.rounds.take z.1.clock) d) ∧
      ∀ (now : Int) (xs : List (Device F × List (Route F))), xs.map Prod.fst = ds →
        OkPacketPb ⟨C70.messages xs, now⟩ → (packetBytes now (C70.messages xs)).length < 2 ^ 63 →
        ∃ pk, packetFromBytes (packetBytes now (C70.messages xs)) = some pk ∧ pk.timestamp = now ∧
          pk.devices.length = ds.length ∧
          ∀ (i : Nat) d, ds[i]? = some d → ∃ m, pk.devices[i]? = some m ∧ C70.Sees m d := by
  have hi := runs_inv hP hd h ho
  have hs := hi.out z hz
  obtain ⟨p, l⟩ := z
  simp only at hs hne hmv ⊢
  obtain ⟨ds, e, hds⟩ := shown_devices hm hmv hs
  refine ⟨ds, e, fun d hd => (hds d hd).2, fun now xs hxs hk hl => ?_⟩
  have hx : xs ≠ [] := by
    rintro rfl
    apply hne
    rw [e, ← hxs]; rfl
  obtain ⟨pk, g1, g2, g3, g4⟩ := C70.client_sees now xs
    (fun x hx => (hds x.1 (by rw [← hxs]; exact List.mem_map_of_mem hx)).1) hk hl hx
  refine ⟨pk, g1, g2, by rw [g3, ← hxs, List.length_map], fun i d hid => ?_⟩
  rw [← hxs, List.getElem?_map] at hid
  obtain ⟨x, hx, rfl⟩ := Option.map_eq_some_iff.mp hid
  exact g4 i x hx
end

/-! ## Example -/

/-- Two rounds with one worker and two devices, one of them without routes. -/
def exRun : Option (Live Toy) :=
  (Toy.dev [.addRoute [some Toy.route], .next (Toy.of 1) Toy.nextRnd]).bind fun d =>
  (Toy.dev []).bind fun d' =>
  (Live.init ⟨1, 4⟩ [7, 8] (fun p => if p = 7 then d else d') 0).exec ⟨1, 4⟩ (fun _ _ => Toy.nextRnd)
    ((List.range 2).flatMap fun n => [(Act.ticker, ((n : Int) + 1) * 3000000000)] ++ (List.replicate 9 Act.run ++
      List.replicate 7 (Act.worker 0 false) ++ List.replicate 3 Act.run).map fun a => (a, 0))

example : (exRun.map fun L => (L.gs.run, L.gs.closed, L.rounds, L.out.map fun x => (x.1.clock, x.2.length))) =
    some (.idle, false, [3000000000, 6000000000], [(1, 2), (2, 2)]) := by decide +kernel

example : (exRun.map fun L => ((received L 7).map (·.map (·.loc.lat)), (received L 8).map (·.map (·.loc.lat)))) =
    some ([some (.of (1 / 796375)), some (.of (7 / 3185500))], [some (.of 0), some (.of 0)]) := by decide +kernel

end C79
end GpsGen
