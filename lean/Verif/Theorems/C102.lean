import Verif.Lemmas.ExampleText
import Verif.Lemmas.JsonText
import Verif.Theorems.C101
import Verif.Theorems.C23
/-!
# C102: the example programs with one drone

Exact arithmetic; every schedule, every ticker and all random draws. The drone is created and attached, every packet has
one device, the callback finds it with a location while the generator is open, the drone completes laps for ever, nothing
panics in the package, and after `Close` the call of `Run` returns. After `Close` a callback may get a device without a
location, and the callbacks of four of the programs then panic.
-/

namespace GpsGen
namespace C102
open Run Examples C40 C41 Device Navigator C101

/-! ## Specification -/

section
variable {F : Type} [GoMath F]

/-- What the programs are for; random numbers of a round have `U`, and the callback `cb` is looked at in states with `P`. -/
structure Works (U : NextRnd F → Prop) (c : Cfg) (d : Device F) (cb : Content F → Bool) (P : Live F → Prop) : Prop where
  /-- the drone is attached -/
  attached : (world d).gens 0 = [0]
  /-- it does not panic -/
  calm : ∀ rnd start L a t gs, C79.Runs c rnd [0] (world d).devs start L → fire c L.gs a = some gs →
    ∃ L', L.step c rnd a t = some L'
  /-- every packet has one device -/
  single : ∀ rnd start L, C79.Runs c rnd [0] (world d).devs start L → ∀ x ∈ L.out, x.2.length = 1
  /-- the callback does not panic -/
  safe : ∀ rnd start L, C79.Runs c rnd [0] (world d).devs start L → P L → ∀ x ∈ L.out, cb x.2 = true
  /-- between rounds the callback has got one state per round -/
  seen : ∀ rnd start L, C79.Runs c rnd [0] (world d).devs start L → Between L →
    L.out.length = L.rounds.length ∧ (C79.received L 0).length = L.rounds.length
  /-- again and again the drone completes a lap and is seen with the clock of the lap at zero -/
  laps : ∀ rnd start (t : ℕ → Int), (∀ p k, U (rnd p k)) → ∀ K, ∃ k, K ≤ k ∧
    C97.Lap ((world d).devs 0) start t (fun i => rnd 0 (i + 1)) k ∧
    ∀ L m, C79.Runs c rnd [0] (world d).devs start L → Between L → L.rounds = times t m → k < m →
      ∃ st, (C79.received L 0)[k]? = some (some st) ∧ st.duration = lit 0
  /-- after `Close` the program ends -/
  stops : Stops c [0]

/-- While the generator is open. -/
def Open (L : Live F) : Prop := L.gs.closed = false

/-! ## Packets -/

/-- The places of the run loop when a packet has room for all devices and is not divided. -/
def Spot (n : ℕ) (s : GS) : Prop :=
  match s.run with
  | .fill i => s.index = i ∧ i ≤ n
  | .fsend none => s.index = n
  | .fsend (some _) | .fcheck (some _) | .fwait (some _) | .mcheck _ _ | .msend _ _ | .wcheck _ _ | .mwait _ _ | .relock _ => False
  | _ => True

/-- A content with a state exactly in the slots that are filled. -/
def Same (p : Packet) (l : Content F) : Prop := l.map Option.isSome = p.slots.map Option.isSome

/-- All slices are the whole packet. -/
structure Whole (c : Cfg) (n : ℕ) (L : Live F) : Prop where
  size : L.gs.packet.length = c.packetSize
  spot : Spot n L.gs
  queue : ∀ x ∈ L.gs.sliceCh, x = ⟨0, n⟩
  carried : ∀ w ∈ L.gs.workers, ∀ x, C42.heldSlice w = some x → x = ⟨0, n⟩
  held : ∀ (i : ℕ) p, L.gs.workers[i]? = some (.call p) → (L.held i).length = n ∧ Same p (L.held i)
  out : ∀ x ∈ L.out, x.2.length = n ∧ Same x.1 x.2
  log : L.out.map Prod.fst = L.gs.log

theorem whole_run {c : Cfg} {n : ℕ} (hn : n < c.packetSize) (hs : c.single n = true) {L M : Live F} {gs : GS}
    {rnd : ℕ → ℕ → NextRnd F} (hd : L.gs.devs.length = n) (h : Whole c n L) (h1 : runStep c L.gs = some gs)
    (h2 : L.effect rnd .run = some M) : Whole c n { M with gs := gs } := by
  obtain ⟨k1, k2, -⟩ := C79.effect_run h2
  obtain ⟨f1, f2, -, -⟩ := C79.run_frame h1
  have hq : gs.packet.length = c.packetSize ∧ Spot n gs ∧ ∀ x ∈ gs.sliceCh, x = ⟨0, n⟩ := by
    have hsz := h.size
    have hsp := h.spot
    have hqu := h.queue
    unfold Spot at hsp
    unfold runStep at h1
    cases hr : L.gs.run with
    | fill i =>
      rw [hr] at h1 hsp
      simp only at h1 hsp
      cases hp : L.gs.devs[i]? with
      | some p =>
        simp only [hp] at h1
        have hi : i < n := by rw [← hd]; exact (List.getElem?_eq_some_iff.mp hp).1
        split at h1
        · split at h1
          · omega
          · cases h1
            exact ⟨by simpa using hsz, by simp only [Spot]; omega, hqu⟩
        · cases h1
      | none =>
        simp only [hp] at h1
        cases h1
        have hi : n ≤ i := by rw [← hd]; exact List.getElem?_eq_none_iff.mp hp
        have : L.gs.index = n := by omega
        refine ⟨hsz, ?_, hqu⟩
        unfold Spot Cfg.enter
        simp only [this, hs, if_true]
    | fsend k =>
      rw [hr] at h1 hsp
      cases k with
      | some _ => exact hsp.elim
      | none =>
        simp only at h1 hsp
        split at h1
        · cases h1
          refine ⟨hsz, trivial, ?_⟩
          intro x hx
          rcases List.mem_append.mp hx with hx | hx
          · exact hqu x hx
          · rw [List.mem_singleton.mp hx, hsp]
        · cases h1
    | fcheck k =>
      rw [hr] at h1 hsp
      cases k with
      | some _ => exact hsp.elim
      | none =>
        simp only at h1
        split at h1 <;> (cases h1; exact ⟨hsz, trivial, hqu⟩)
    | fwait k =>
      rw [hr] at h1 hsp
      cases k with
      | some _ => exact hsp.elim
      | none =>
        simp only at h1
        split at h1 <;> cases h1
        exact ⟨hsz, trivial, hqu⟩
    | mcheck _ _ => rw [hr] at hsp; exact hsp.elim
    | msend _ _ => rw [hr] at hsp; exact hsp.elim
    | wcheck _ _ => rw [hr] at hsp; exact hsp.elim
    | mwait _ _ => rw [hr] at hsp; exact hsp.elim
    | relock _ => rw [hr] at hsp; exact hsp.elim
    | idle => rw [hr] at h1; simp only at h1; split at h1 <;> cases h1; exact ⟨hsz, trivial, hqu⟩
    | ticked => rw [hr] at h1; simp only at h1; split at h1 <;> (cases h1; exact ⟨hsz, trivial, hqu⟩)
    | adv i =>
      rw [hr] at h1
      simp only at h1
      split at h1 <;> cases h1
      · exact ⟨hsz, trivial, hqu⟩
      · exact ⟨hsz, ⟨rfl, Nat.zero_le _⟩, hqu⟩
    | reset =>
      rw [hr] at h1
      simp only at h1
      split at h1 <;> cases h1
      exact ⟨by simpa using hsz, trivial, hqu⟩
    | notify => rw [hr] at h1; cases h1; exact ⟨hsz, trivial, hqu⟩
    | fin => rw [hr] at h1; cases h1; exact ⟨hsz, trivial, hqu⟩
    | done => rw [hr] at h1; cases h1
  refine ⟨hq.1, hq.2.1, hq.2.2, ?_, ?_, ?_, by show M.out.map _ = gs.log; rw [k2, f2]; exact h.log⟩
  · show ∀ w ∈ gs.workers, _
    rw [f1]; exact h.carried
  · intro i p hp
    change gs.workers[i]? = _ at hp
    rw [f1] at hp
    show (M.held i).length = n ∧ Same p (M.held i)
    rw [k1]; exact h.held i p hp
  · show ∀ x ∈ M.out, _
    rw [k2]; exact h.out

theorem whole_worker {c : Cfg} {n : ℕ} (hn : n < c.packetSize) {L M : Live F} {gs : GS} {rnd : ℕ → ℕ → NextRnd F} {i : ℕ}
    {stop : Bool} (h : Whole c n L) (h1 : fire c L.gs (.worker i stop) = some gs)
    (h2 : L.effect rnd (.worker i stop) = some M) : Whole c n { M with gs := gs } := by
  simp only [fire] at h1
  cases hw : L.gs.workers[i]? with
  | none => rw [hw] at h1; cases h1
  | some w =>
    simp only [hw] at h1
    obtain ⟨⟨s, w'⟩, hr, rfl⟩ := Option.map_eq_some_iff.mp h1
    have hmem := List.mem_of_getElem? hw
    -- a step that leaves the slices and what was delivered alone
    have key : ∀ (s : GS) (w' : WPC) (M : Live F), s.packet = L.gs.packet → s.run = L.gs.run → s.index = L.gs.index →
        (∀ x ∈ s.sliceCh, x ∈ L.gs.sliceCh) → (∀ x, C42.heldSlice w' = some x → x = ⟨0, n⟩) →
        (∀ p, w' = .call p → (M.held i).length = n ∧ Same p (M.held i)) → (∀ j, j ≠ i → M.held j = L.held j) →
        (∀ x ∈ M.out, x.2.length = n ∧ Same x.1 x.2) → M.out.map Prod.fst = s.log →
        Whole c n { M with gs := { s with workers := L.gs.workers.set i w' } } := by
      intro s w' M e1 e2 e3 e4 e5 e6 e7 e8 e9
      refine ⟨by show s.packet.length = _; rw [e1]; exact h.size, ?_, fun x hx => h.queue x (e4 x hx), ?_, ?_, e8, e9⟩
      · have := h.spot
        unfold Spot at this ⊢
        simp only [e2, e3]
        exact this
      · intro v hv x hx
        rcases List.mem_or_eq_of_mem_set hv with hv | rfl
        · exact h.carried v hv x hx
        · exact e5 x hx
      · intro j p hp
        simp only at hp ⊢
        by_cases hj : j = i
        · subst hj
          have hlt := (List.getElem?_eq_some_iff.mp hw).1
          rw [List.getElem?_set_self hlt] at hp
          exact e6 p (Option.some.inj hp)
        · rw [List.getElem?_set_ne (Ne.symm hj)] at hp
          rw [e7 j hj]
          exact h.held j p hp
    unfold Live.effect at h2
    simp only [hw] at h2
    cases w with
    | mar x =>
      cases h2
      cases hr
      have hx := h.carried _ hmem x rfl
      refine key _ _ _ rfl rfl rfl (fun _ hx => hx) nofun ?_ (fun j hj => by simp [hj]) h.out h.log
      rintro _ ⟨⟩
      have := h.size
      simp only [if_true, List.length_map, GS.cut, hx]
      refine ⟨by simp; omega, ?_⟩
      unfold Same
      rw [List.map_map]
      apply List.map_congr_left
      intro y _
      cases y <;> rfl
    | call p =>
      cases h2
      cases hr
      refine key _ _ _ rfl rfl rfl (fun _ hx => hx) nofun nofun (fun j hj => rfl) ?_ (by simp [h.log])
      intro x hx
      rcases List.mem_append.mp hx with hx | hx
      · exact h.out x hx
      · rw [List.mem_singleton.mp hx]
        exact h.held i p hw
    | wait =>
      cases h2
      unfold workerStep at hr
      simp only at hr
      split at hr
      · split at hr <;> cases hr
        exact key _ _ _ rfl rfl rfl (fun _ hx => hx) nofun nofun (fun j hj => rfl) h.out h.log
      · split at hr
        · cases hr
        · rename_i x rest hq
          cases hr
          refine key _ _ _ rfl rfl rfl (fun y hy => by rw [hq]; exact List.mem_cons_of_mem _ hy) ?_ nofun (fun j hj => rfl) h.out h.log
          rintro _ ⟨⟩
          exact h.queue x (by rw [hq]; exact List.mem_cons_self)
    | got x =>
      cases h2
      have hx := h.carried _ hmem x rfl
      unfold workerStep at hr
      simp only at hr
      split at hr
      · cases hr
        exact key _ _ _ rfl rfl rfl (fun _ hx => hx) nofun nofun (fun j hj => rfl) h.out h.log
      · split at hr <;> cases hr
        · exact key _ _ _ rfl rfl rfl (fun _ hx => hx) nofun nofun (fun j hj => rfl) h.out h.log
        · exact key _ _ _ rfl rfl rfl (fun _ hx => hx) (by rintro _ ⟨⟩; exact hx) nofun (fun j hj => rfl) h.out h.log
    | enc x =>
      cases h2
      cases hr
      have hx := h.carried _ hmem x rfl
      exact key _ _ _ rfl rfl rfl (fun _ hx => hx) (by rintro _ ⟨⟩; exact hx) nofun (fun j hj => rfl) h.out h.log
    | check =>
      cases h2
      unfold workerStep at hr
      simp only at hr
      split at hr <;> (cases hr; exact key _ _ _ rfl rfl rfl (fun _ hx => hx) nofun nofun (fun j hj => rfl) h.out h.log)
    | send =>
      cases h2
      unfold workerStep at hr
      simp only at hr
      split at hr <;> cases hr
      exact key _ _ _ rfl rfl rfl (fun _ hx => hx) nofun nofun (fun j hj => rfl) h.out h.log
    | leave =>
      cases h2
      cases hr
      exact key _ _ _ rfl rfl rfl (fun _ hx => hx) nofun nofun (fun j hj => rfl) h.out h.log
    | exit =>
      cases h2
      unfold workerStep at hr
      simp only at hr
      split at hr <;> cases hr
      exact key _ _ _ rfl rfl rfl (fun _ hx => hx) nofun nofun (fun j hj => rfl) h.out h.log
    | dead => cases hr

/-- When a packet has room for all devices and is not divided, it always has that many devices, also after `Close`. -/
theorem whole {c : Cfg} {devs : List ℕ} (hn : devs.length < c.packetSize) (hs : c.single devs.length = true)
    {rnd : ℕ → ℕ → NextRnd F} {mem : ℕ → Device F} {start : Int} {L : Live F} (h : C79.Runs c rnd devs mem start L) :
    Whole c devs.length L := by
  induction h with
  | init =>
    refine ⟨List.length_replicate, trivial, nofun, ?_, ?_, nofun, rfl⟩
    · intro w hw x hx
      rw [List.eq_of_mem_replicate hw] at hx
      cases hx
    · intro i p hp
      exact absurd (List.eq_of_mem_replicate (List.mem_of_getElem? hp)) nofun
  | @step L L' a t hr ha hd h ih =>
    obtain ⟨gs, M, h1, h2, rfl⟩ := C79.step_eq h
    have hdv := (C39.steady_reach (C79.runs_steady hr)).2
    cases a with
    | attach p => exact absurd rfl (ha p)
    | detach i => exact absurd rfl (hd i)
    | close => cases h1; cases h2; exact ⟨ih.size, ih.spot, ih.queue, ih.carried, ih.held, ih.out, ih.log⟩
    | ticker =>
      cases h2
      simp only [fire] at h1
      split at h1 <;> cases h1
      exact ⟨ih.size, trivial, ih.queue, ih.carried, ih.held, ih.out, ih.log⟩
    | run =>
      have := whole_run hn hs (by rw [hdv]) ih h1 h2
      exact ⟨this.size, this.spot, this.queue, this.carried, this.held, this.out, this.log⟩
    | worker i stop =>
      have := whole_worker hn ih h1 h2
      exact ⟨this.size, this.spot, this.queue, this.carried, this.held, this.out, this.log⟩
    | notifier stop =>
      cases h2
      have : gs.packet = L.gs.packet ∧ gs.run = L.gs.run ∧ gs.index = L.gs.index ∧ gs.sliceCh = L.gs.sliceCh ∧
          gs.workers = L.gs.workers ∧ gs.log = L.gs.log := by
        simp only [fire] at h1
        unfold notifierStep at h1
        cases hN : L.gs.notifier <;> rw [hN] at h1 <;> simp only at h1 <;> (repeat' (split at h1)) <;> cases h1 <;>
          exact ⟨rfl, rfl, rfl, rfl, rfl, rfl⟩
      obtain ⟨e1, e2, e3, e4, e5, e6⟩ := this
      refine ⟨by show gs.packet.length = _; rw [e1]; exact ih.size, ?_, by show ∀ x ∈ gs.sliceCh, _; rw [e4]; exact ih.queue,
        by show ∀ w ∈ gs.workers, _; rw [e5]; exact ih.carried, ?_, ih.out,
        by show L.out.map _ = gs.log; rw [e6]; exact ih.log⟩
      · have := ih.spot
        unfold Spot at this ⊢
        simp only [e2, e3]
        exact this
      · intro i p hp
        change gs.workers[i]? = _ at hp
        rw [e5] at hp
        exact ih.held i p hp

/-! ## A drone in a generator -/

theorem config_is (cpus : Int) : config cpus = ⟨4, 8192⟩ := rfl

omit [GoMath F] in
theorem world_is {d : Device F} (h : d.status = Status.stopped) :
    (world d).gens 0 = [0] ∧ (world d).devs 0 = running d := by
  have hm : d.mount = .ok (running d) := by
    unfold Device.mount
    rw [if_neg (by rw [h]; decide)]
    rfl
  have hm' : ((Readme.blank d).devs 0).mount = .ok (running d) := hm
  unfold world World.attach
  simp only [hm']
  exact ⟨rfl, rfl⟩

/-- What was delivered of the only device. -/
theorem received_all {rnd : ℕ → ℕ → NextRnd F} {mem : ℕ → Device F} {start : Int} {L : Live F}
    (hi : C79.Inv rnd [0] mem start L) (hl : ∀ x ∈ L.out, x.2.length = 1) : (C79.received L 0).length = L.out.length := by
  have hall : ∀ y ∈ C79.slots L, (y.1.map Prod.fst == some 0) = true := by
    intro y hy
    obtain ⟨q, t, hq, e, -⟩ := C79.slot_shown hi hy
    cases List.mem_singleton.mp hq
    rw [e]
    rfl
  unfold C79.received
  rw [List.filter_eq_self.mpr hall, List.length_map]
  unfold C79.slots
  rw [List.length_flatMap]
  have : L.out.map (fun x => (x.1.slots.zip x.2).length) = L.out.map fun _ => 1 := by
    apply List.map_congr_left
    intro x hx
    have := (hi.out x hx).length_eq
    rw [List.length_zip, this, hl x hx]
    rfl
  rw [this]
  simp

/-- Every packet has one device. -/
theorem one_device {cpus : Int} {rnd : ℕ → ℕ → NextRnd F} {mem : ℕ → Device F} {start : Int} {L : Live F}
    (hL : C79.Runs (config cpus) rnd [0] mem start L) : ∀ x ∈ L.out, x.2.length = 1 :=
  fun x hx => ((whole (by rw [config_is]; decide) (by rw [config_is]; decide) hL).out x hx).1

/-- While the generator is open, it is not nil. -/
theorem shown {cpus : Int} {rnd : ℕ → ℕ → NextRnd F} {mem : ℕ → Device F} {start : Int} {L : Live F}
    (hL : C79.Runs (config cpus) rnd [0] mem start L) (ho : Open L) : ∀ x ∈ L.out, callback x.2 = true := by
  intro x hx
  obtain ⟨y, hy⟩ := List.length_eq_one_iff.mp (one_device hL x hx)
  have hm : y ∈ L.out.flatMap Prod.snd := List.mem_flatMap.mpr ⟨x, hx, by rw [hy]; exact List.mem_singleton_self _⟩
  obtain ⟨p, t, -, -, e, -⟩ := C79.only_attached (c := config cpus) (by rw [config_is]; decide) (by simp) hL ho y hm
  obtain ⟨st, rfl⟩ := Option.isSome_iff_exists.mp e
  rw [hy]
  rfl

/-- A safe drone that completes laps for ever makes a program that works, apart from the callback. -/
theorem works_of {d : Device F} (hs : d.status = Status.stopped) (hd : C54.DSafe d)
    {U : NextRnd F → Prop} (hf : ∀ start t y, (∀ k, U (y k)) → C97.Forever d start t y) (cpus : Int) {cb : Content F → Bool}
    {P : Live F → Prop} (hcb : ∀ rnd start L, C79.Runs (config cpus) rnd [0] (world d).devs start L → P L →
      ∀ x ∈ L.out, cb x.2 = true) : Works U (config cpus) d cb P := by
  obtain ⟨w1, w2⟩ := world_is hs
  have hsafe : ∀ p ∈ [0], C54.DSafe ((world d).devs p) := by
    intro p hp
    cases List.mem_singleton.mp hp
    rw [w2]
    exact ⟨hd.nav, hd.speed, hd.sensors⟩
  refine ⟨w1, fun rnd start L a t gs hL hf => calm_of hsafe hL hf, fun _ _ _ => one_device, hcb, ?_, ?_,
    stops (by rw [config_is]; decide) (by rw [config_is]; decide)⟩
  · intro rnd start L hL hb
    have hi := C79.runs_inv (by rw [config_is]; decide) (by simp) hL hb.1
    obtain ⟨k1, -⟩ := C79.trajectory (c := config cpus) (by rw [config_is]; decide) (by simp) (by rw [config_is]; decide) hL hb.1
      hb.2 0 (by simp)
    have k2 : (C79.received L 0).length = L.rounds.length := by rw [k1]; simp
    exact ⟨by rw [← received_all hi (one_device hL)]; exact k2, k2⟩
  · intro rnd start t hu K
    obtain ⟨k, hk, hlap⟩ := running_forever (hf start t (fun k => rnd 0 (k + 1)) (fun k => hu 0 (k + 1))) K
    rw [← w2] at hlap
    exact ⟨k, hk, hlap, fun L m hL ho hrd hkm => lap_seen (c := config cpus) (by rw [config_is]; decide) (by simp)
      (by rw [config_is]; decide) (by simp) hlap hL ho hrd hkm⟩

end

/-! ## Drones -/

theorem addLoop_ne : ∀ (rs : List (Option (Route ℝ))) (held : List (Route ℝ)) (k : ℕ), held ≠ [] →
    (addLoop held k rs).1 ≠ [] := by
  intro rs
  induction rs with
  | nil => intro held k h; exact h
  | cons a rs ih =>
    intro held k h
    cases a with
    | none => unfold addLoop; exact ih _ _ h
    | some q =>
      unfold addLoop
      split
      · exact ih _ _ h
      · exact ih _ _ (by simp)

/-- A device that was made with some sensors and has no routes. -/
structure Bare (d0 d : Device ℝ) : Prop where
  driven : ∃ q, C27.Driven (DeviceOptions.drone (F := ℝ)).speedMin (DeviceOptions.drone (F := ℝ)).speedMax q d
  live : C54.Live d
  nav : d.navigator = d0.navigator
  speed : d.speed = d0.speed
  status : d.status = d0.status

theorem bare_sensor {d0 d : Device ℝ} (h0 : d0.navigator.routes = []) (h : Bare d0 d) {s : Sensor ℝ} (hg : GoodSensor s)
    (ha : C54.ApiSensor s) : Bare d0 (d.addSensor [some s]) := by
  have hs : ∀ q, some q ∈ [some s] → q = s := by simp
  have e : (d.addSensor [some s]).navigator = d.navigator ∧ (d.addSensor [some s]).speed = d.speed ∧
      (d.addSensor [some s]).status = d.status := by
    unfold Device.addSensor
    rw [if_neg (by simp)]
    simp only
    split <;> exact ⟨rfl, rfl, rfl⟩
  obtain ⟨q, hq⟩ := h.driven
  refine ⟨⟨_, .step hq (op := .addSensor [some s]) (fun q hq => hs q hq ▸ hg) rfl ?_⟩,
    .step h.live (op := .addSensor [some s]) (fun q hq => hs q hq ▸ ha) rfl, e.1.trans h.nav, e.2.1.trans h.speed,
    e.2.2.trans h.status⟩
  rw [e.1, h.nav, h0]
  exact nofun

/-- The preset does not fail. -/
theorem drone_new (x : DeviceRnd ℝ) : ∃ d, Device.new x (some DeviceOptions.drone) = .ok d := by
  obtain ⟨d0, e⟩ := C33.new_ok C33.smallNumbers_real x (DeviceOptions.drone (F := ℝ)) 1 2500 5 150 0 100
    (by simp [DeviceOptions.drone])
    (by simp [DeviceOptions.drone]) (by omega) (by omega) (by simp [DeviceOptions.drone])
    (by simp [DeviceOptions.drone]) (by omega) (by omega) (by omega)
    (by simp [DeviceOptions.drone, DeviceOptions.default])
    (by simp [DeviceOptions.drone, DeviceOptions.default]) (by omega) (by omega)
    ⟨by simp [DeviceOptions.drone, DeviceOptions.default], by simp [DeviceOptions.drone, DeviceOptions.default]⟩
    ⟨by simp [DeviceOptions.drone, DeviceOptions.default], by simp [DeviceOptions.drone, DeviceOptions.default]⟩
    (by simp [DeviceOptions.drone, DeviceOptions.default]) (by simp [DeviceOptions.drone, DeviceOptions.default]) rfl rfl
  exact ⟨d0, e⟩

/-- A drone with sensors and routes that have a length is safe and completes laps for ever. -/
theorem drone_made (x : DeviceRnd ℝ) (u1 : UnitDraws x.speedDraws) (u2 : UnitDraws x.elevationDraws) (ss : List (Sensor ℝ))
    (hss : ∀ s ∈ ss, GoodSensor s ∧ C54.ApiSensor s) (rs : List (Route ℝ)) (hne : rs ≠ [])
    (hrs : ∀ r ∈ rs, WFRoute r ∧ 0 < r.dist) :
    ∃ d, drone x ss rs = some d ∧ d.status = Status.stopped ∧ C54.DSafe d ∧
      ∀ start t y, (∀ k, C95.UnitRnd (y k)) → C97.Forever d start t y := by
  obtain ⟨d0, e⟩ := drone_new x
  have hpre : Device.preset x DeviceOptions.drone = some d0 := by unfold Device.preset; rw [e]; rfl
  have parts : d0.navigator.routes = [] ∧ d0.navigator.skipOffline = true ∧ 0 < d0.speed.min ∧ d0.status = Status.stopped := by
    obtain ⟨n, s, b, st, k1, k2, k3, k4, rfl⟩ := Device.new_eq e
    refine ⟨?_, ?_, ?_, rfl⟩
    · obtain ⟨_, _, _, -, -, -, rfl⟩ := new_cases k1
      rfl
    · obtain ⟨o1, o2, _, c1, c2, -, rfl⟩ := new_cases k1
      show o2.skipOffline = true
      rw [(validateElevation_frame c2).1, (validateOffline_frame c1).1]
      rfl
    · show 0 < s.min
      unfold Speed.new validateAmplitude at k2
      simp only [DeviceOptions.drone, DeviceOptions.default, Option.getD_some] at k2
      norm_num at k2
      subst k2
      norm_num
  obtain ⟨p1, p2, p3, p4⟩ := parts
  have hbare : ∀ (l : List (Sensor ℝ)) (d : Device ℝ), (∀ s ∈ l, GoodSensor s ∧ C54.ApiSensor s) → Bare d0 d →
      Bare d0 (l.foldl (fun d s => d.addSensor [some s]) d) := by
    intro l
    induction l with
    | nil => intro d _ h; exact h
    | cons s l ih =>
      intro d hl h
      exact ih _ (fun s hs => hl s (List.mem_cons_of_mem _ hs))
        (bare_sensor p1 h (hl s List.mem_cons_self).1 (hl s List.mem_cons_self).2)
  have hb := hbare ss d0 hss ⟨⟨_, .init u2 u1 rfl rfl e⟩, .new e, rfl, rfl, rfl⟩
  set d := ss.foldl (fun d s => d.addSensor [some s]) d0 with hdef
  refine ⟨(d.addRoute (rs.map some)).1, by unfold drone; rw [hpre]; rfl, ?_, ?_⟩
  · rw [← p4, ← hb.status]
    unfold Device.addRoute
    simp only
    split <;> rfl
  have hrs' : ∀ r, some r ∈ rs.map some → WFRoute r ∧ 0 < r.dist := by
    intro r hr
    obtain ⟨q, hq, e⟩ := List.mem_map.mp hr
    cases e
    exact hrs _ hq
  have hnav := C97.nav_added d.navigator (rs.map some)
  have hn0 : d.navigator.routes = [] := by rw [hb.nav]; exact p1
  have hne' : (d.navigator.addRoute (rs.map some)).1.routes ≠ [] := by
    obtain ⟨r, l, rfl⟩ := List.exists_cons_of_ne_nil hne
    unfold Navigator.addRoute
    rw [if_neg (by simp), hn0]
    simp only
    have : (addLoop [] 0 (List.map some (r :: l))).1 ≠ [] := by
      rw [List.map_cons]
      unfold addLoop
      split
      · rename_i h; simp [hasRoute] at h
      · exact addLoop_ne _ _ _ (by simp)
    split <;> exact this
  have hparts : (d.addRoute (rs.map some)).1.navigator.routes ≠ [] ∧
      (∀ r ∈ (d.addRoute (rs.map some)).1.navigator.routes, 0 < r.dist) ∧ (d.addRoute (rs.map some)).1.speed = d.speed ∧
      (d.addRoute (rs.map some)).1.navigator.skipOffline = true := by
    rw [hn0] at hnav
    have hsk : d.navigator.skipOffline = true := by rw [hb.nav]; exact p2
    unfold Device.addRoute
    generalize d.navigator.addRoute (rs.map some) = q at *
    obtain ⟨n, _ | _⟩ := q
    · refine ⟨?_, ?_, rfl, hnav.2.1.trans hsk⟩
      · show n.routes.map touchRoute ≠ []
        intro h
        exact hne' (List.map_eq_nil_iff.mp h)
      · intro r hr
        obtain ⟨u, hu, rfl⟩ := List.mem_map.mp (show r ∈ n.routes.map touchRoute from hr)
        rw [C97.touch_dist]
        exact (hrs' u ((hnav.2.2 u hu).resolve_left List.not_mem_nil)).2
    · exact ⟨hne', fun r hr => (hrs' r ((hnav.2.2 r hr).resolve_left List.not_mem_nil)).2, rfl, hnav.2.1.trans hsk⟩
  obtain ⟨g1, g2, g3, g4⟩ := hparts
  obtain ⟨q, hq⟩ := hb.driven
  have hD := C27.Driven.step hq (op := .addRoute (rs.map some)) (fun r hr => (hrs' r hr).1) rfl g2
  have hL : C54.Live (d.addRoute (rs.map some)).1 := .step hb.live (op := .addRoute (rs.map some)) trivial rfl
  refine ⟨C54.live_safe hL, fun start t y hu => ?_⟩
  exact C97.no_offline_partial _ _ _ _ hD hL g1 (by rw [g3, hb.speed]; exact p3) g4 start t y hu

/-! ## Routes -/

/-- A route that begins with a track along points, the first two of which are apart. -/
theorem line_pos {uid color : String} {p q : LatLon ℝ} {pts : List (LatLon ℝ)} {r : Route ℝ} (h0 : r.tracks = [])
    (h1 : r.dist = 0) (hp : |p.lat| < 90) (hq : |q.lat| < 90) (hl : |q.lon - p.lon| < 360) (hne : p.lat ≠ q.lat ∨ p.lon ≠ q.lon) :
    ∃ t, Track.new uid color (p :: q :: pts) = .ok t ∧ WFRoute (r.addTrack (some t)) ∧ 0 < (r.addTrack (some t)).dist := by
  obtain ⟨t, e, -⟩ := (C01.newTrack_polyline uid color (p :: q :: pts)).1 (by simp)
  have hw : WFRoute (r.addTrack (some t)) := by
    refine route_apply_wf r (.addTrack (some t)) ?_ ⟨by rw [h0]; exact nofun, by rw [h0, h1]; rfl⟩
    rintro _ ⟨⟩
    exact new_wf _ _ _ _ (Or.inl e)
  refine ⟨t, e, hw, ?_⟩
  have ht := track_pos e (j := 0) rfl rfl (distance_pos hp hq hl hne)
  rw [hw.2]
  have : (r.addTrack (some t)).tracks = [t] := by
    unfold Route.addTrack
    simp only [h0]
    rfl
  rw [this]
  simpa using ht

/-- A random route of the programs. -/
theorem random_made (x : RouteDraw ℝ) (hn : C50.NameOk x.name) (hx : ∀ i, Ordinary (x.tracks i)) (hs : ∀ i j, (x.tracks i).e j ≤ 300) :
    ∃ r, randomly x = some [r] ∧ WFRoute r ∧ 0 < r.dist := by
  obtain ⟨r, h, -, hw, hd⟩ := random_pos (lo := lit (2831261399982 / 10 ^ 11)) (la := lit (53247483804819666 / 10 ^ 15))
    (ρ := 3603 / 100) (n := 2) (l := 300) (uid := x.uid) (color := x.color) (name := x.name) (rnd := x.tracks) (by decide) (by decide) hn
    (fun i => (hx i).draws) (fun i => (hx i).differ) (fun i k => by
      have := hs i k
      rw [show ((C50.levelOf 300 : Int) : ℝ) = 300 by norm_num [C50.levelOf]]
      unfold C78.radius
      linarith) (by rw [real_lit]; norm_num [abs_of_pos]) (by rw [real_lit]; norm_num [abs_of_pos])
  refine ⟨r, ?_, hw, hd⟩
  unfold randomly
  rw [h]
  rfl

theorem hand_made (track route : String × String) : ∃ r, byHand (F := ℝ) track route = some [r] ∧ WFRoute r ∧ 0 < r.dist := by
  obtain ⟨t, e, hw, hd⟩ := line_pos (uid := track.1) (color := track.2) (p := ⟨lit (4474332748947083 / 10 ^ 14), lit (6767893291456264 / 10 ^ 14)⟩)
    (q := ⟨lit (48249999904172114 / 10 ^ 15), lit (6486705299207989 / 10 ^ 14)⟩) (pts := []) (r := Route.new route.1 route.2) rfl (by simp [Route.new])
    (by simp only [real_lit]; norm_num [abs_lt]) (by simp only [real_lit]; norm_num [abs_lt]) (by simp only [real_lit]; norm_num [abs_lt])
    (Or.inl (by simp only [real_lit]; norm_num))
  refine ⟨_, ?_, hw, hd⟩
  unfold byHand points
  rw [e]
  rfl

theorem geo_made (J : JsonFloat ℝ) (hJ : ∀ l, JsonFloat.read l = some (real l)) (gen : ℕ → ℕ → String × String) :
    ∃ r, fromGeo (F := ℝ) gen = some [r] ∧ WFRoute r ∧ 0 < r.dist := by
  obtain ⟨t0, d0⟩ := geoRoute_is (F := ℝ) gen
  obtain ⟨t, e, hw, hd⟩ := line_pos (uid := (gen 0 1).1) (color := (gen 0 1).2)
    (p := ⟨real ⟨false, 23, [7,6,6,0,2,6,7,4,4,9,9,5,6,2,8], none⟩, real ⟨true, 0, [6,8,4,8,9,7,7,0,0,7,7,1,9,5,5,4], none⟩⟩)
    (q := ⟨real ⟨true, 2, [9,3,6,1,4,1,2,0,5,4,8,1,2,9,1,6], none⟩, real ⟨false, 31, [6,5,1,7,2,1,4,0,7,7,6,7,4,4], none⟩⟩)
    (pts := geoDocLine.drop 2) t0 (by rw [d0]; simp)
    (by norm_num [real, NumLit.value, digitsNat, abs_lt]) (by norm_num [real, NumLit.value, digitsNat, abs_lt])
    (by norm_num [real, NumLit.value, digitsNat, abs_lt]) (Or.inl (by norm_num [real, NumLit.value, digitsNat]))
  exact ⟨_, geo_decoded gen geoDocLine t (geo_read J hJ) e, hw, hd⟩

theorem gpx_made (N : XmlText.NameChars) (T : GpxText ℝ) (hT : ∀ l : NumLit, T.parseFloat (String.ofList l.text) = some (real l))
    (gen : ℕ → ℕ → String × String) : ∃ r, fromGpx N T gen = some [r] ∧ WFRoute r ∧ 0 < r.dist := by
  obtain ⟨t, e, hw, hd⟩ := line_pos (uid := (gen 0 1).1) (color := (gen 0 1).2)
    (p := ⟨real ⟨false, 53, [8,3,0,4,8,8,7,5,0,3,0,0,1,5,5], none⟩, real ⟨false, 35, [3,7,8,5,7,1,6,8,6,6,6,6,3,7], none⟩⟩)
    (q := ⟨real ⟨false, 54, [7,5,3,3,5,0,4,3,3,3,1,0,5,4,4], none⟩, real ⟨false, 39, [9,0,4,2,7,0,6,2,9,6,9,3,5,3], none⟩⟩)
    (pts := gpxDocLine.drop 2) (r := Route.new (gen 0 0).1 (gen 0 0).2) rfl (by simp [Route.new])
    (by norm_num [real, NumLit.value, digitsNat, abs_lt]) (by norm_num [real, NumLit.value, digitsNat, abs_lt])
    (by norm_num [real, NumLit.value, digitsNat, abs_lt]) (Or.inl (by norm_num [real, NumLit.value, digitsNat]))
  exact ⟨_, gpx_decoded N T gen gpxDocLine t (gpx_read N T real fun p _ => ⟨hT p.1, hT p.2⟩) e, hw, hd⟩

/-! ## Sensors -/

theorem sensors_made (uid : ℕ → String) (draws : ℕ → ℕ → ℝ) (hd : ∀ i, UnitDraws (draws i)) :
    ∃ ss, Examples.sensors uid draws = some ss ∧ ss.map Sensor.name = ["s1", "s2", "s3"] ∧ ∀ s ∈ ss, GoodSensor s ∧ C54.ApiSensor s := by
  have one : ∀ i (name : String) (a b : ℝ) (m : UInt16), goLen name ≠ 0 →
      ∃ s, Sensor.new (uid i) (draws i) name a b 16 m = .ok s ∧ s.name = name ∧ GoodSensor s ∧ C54.ApiSensor s := by
    intro i name a b m hn
    have e : Sensor.new (uid i) (draws i) name a b 16 m =
        .ok ⟨uid i, name, a, b, lit 0, lit 0, Curve.new a b 16 (normSensorMode m) (draws i)⟩ := by
      unfold Sensor.new validateAmplitude
      simp [hn]
    exact ⟨_, e, rfl, sensor_new_good (hd i) e, .new e⟩
  obtain ⟨a, a1, a2, a3⟩ := one 0 "s1" (lit 1) (lit 10) 57344 (by decide)
  obtain ⟨b, b1, b2, b3⟩ := one 1 "s2" (lit 10) (lit 20) 40960 (by decide)
  obtain ⟨c, c1, c2, c3⟩ := one 2 "s3" (lit 20) (lit 30) 0 (by decide)
  refine ⟨[a, b, c], by unfold Examples.sensors; rw [a1, b1, c1]; rfl, by simp [a2, b2, c2], ?_⟩
  intro s hs
  simp only [List.mem_cons, List.not_mem_nil, or_false] at hs
  rcases hs with rfl | rfl | rfl
  · exact a3
  · exact b3
  · exact c3

/-! ## The programs -/

/-- The programs, with what they draw and how they read numbers. -/
inductive Program : Type 1
  /-- examples/addroute/default -/
  | byHand (track route : String × String)
  /-- examples/addroute/random -/
  | randomly (x : RouteDraw ℝ)
  /-- examples/addsensor -/
  | sensors (uid : ℕ → String) (draws : ℕ → ℕ → ℝ) (x : RouteDraw ℝ)
  /-- examples/addroute/geojson -/
  | geo (J : JsonFloat ℝ) (gen : ℕ → ℕ → String × String)
  /-- examples/addroute/gpx -/
  | gpx (N : XmlText.NameChars) (T : GpxText ℝ) (gen : ℕ → ℕ → String × String)

/-- The drone of a program. -/
noncomputable def build (x : DeviceRnd ℝ) : Program → Option (Device ℝ)
  | .byHand t r => (Examples.byHand t r).bind (drone x [])
  | .randomly y => (Examples.randomly y).bind (drone x [])
  | .sensors uid draws y => (Examples.sensors uid draws).bind fun ss => (Examples.randomly y).bind (drone x ss)
  | .geo _ gen => (fromGeo gen).bind (drone x [])
  | .gpx N T gen => (fromGpx N T gen).bind (drone x [])

/-- What is drawn for a random route, apart from extreme draws. -/
structure Route (x : RouteDraw ℝ) : Prop where
  name : C50.NameOk x.name
  tracks : ∀ i, Ordinary (x.tracks i)
  small : ∀ i j, (x.tracks i).e j ≤ 300

/-- Usual draws; numbers in texts are read exactly. -/
def Fine : Program → Prop
  | .byHand _ _ => True
  | .randomly y => Route y
  | .sensors _ draws y => (∀ i, UnitDraws (draws i)) ∧ Route y
  | .geo _ _ => ∀ l, JsonFloat.read l = some (real l)
  | .gpx _ T _ => ∀ l : NumLit, T.parseFloat (String.ofList l.text) = some (real l)

/-- The callback of a program. -/
def onPacket : Program → Content ℝ → Bool
  | .sensors _ _ _ => listens
  | _ => callback

/-- The full claim: the programs work, and their callbacks never panic. -/
def Claim : Prop := ∀ (p : Program) (x : DeviceRnd ℝ) (cpus : Int), UnitDraws x.speedDraws → UnitDraws x.elevationDraws →
  Fine p → ∃ d, build x p = some d ∧ Works C95.UnitRnd (config cpus) d (onPacket p) fun _ => True

/-- What the programs build. -/
theorem built (p : Program) (x : DeviceRnd ℝ) (u1 : UnitDraws x.speedDraws) (u2 : UnitDraws x.elevationDraws) (hp : Fine p) :
    ∃ d, build x p = some d ∧ d.status = Status.stopped ∧ C54.DSafe d ∧
      ∀ start t y, (∀ k, C95.UnitRnd (y k)) → C97.Forever d start t y := by
  have one : ∀ (o : Option (List (GpsGen.Route ℝ))) ss, (∀ s ∈ ss, GoodSensor s ∧ C54.ApiSensor s) →
      (∃ r, o = some [r] ∧ WFRoute r ∧ 0 < r.dist) → ∃ d, o.bind (drone x ss) = some d ∧ d.status = Status.stopped ∧
        C54.DSafe d ∧ ∀ start t y, (∀ k, C95.UnitRnd (y k)) → C97.Forever d start t y := by
    rintro _ ss hss ⟨r, rfl, hw, hd⟩
    exact drone_made x u1 u2 ss hss [r] (by simp) (by
      intro q hq
      cases List.mem_singleton.mp hq
      exact ⟨hw, hd⟩)
  cases p with
  | byHand t r => exact one _ [] nofun (hand_made t r)
  | randomly y => exact one _ [] nofun (random_made y hp.name hp.tracks hp.small)
  | sensors uid draws y =>
    obtain ⟨ss, h1, -, h2⟩ := sensors_made uid draws hp.1
    obtain ⟨d, h3, h4⟩ := one _ ss h2 (random_made y hp.2.name hp.2.tracks hp.2.small)
    have e : build x (.sensors uid draws y) = (Examples.sensors uid draws).bind fun ss => (Examples.randomly y).bind (drone x ss) := rfl
    exact ⟨d, by rw [e, h1]; exact h3, h4⟩
  | geo J gen =>
    have e : build x (.geo J gen) = (fromGeo gen).bind (drone x []) := by rw [build]
    rw [e]
    exact one _ [] nofun (geo_made J hp gen)
  | gpx N T gen =>
    have e : build x (.gpx N T gen) = (fromGpx N T gen).bind (drone x []) := by rw [build]
    rw [e]
    exact one _ [] nofun (gpx_made N T hp gen)

/-- **C102 (partial).** The programs work, and their callbacks do not panic while the generator is open.

Missing for the full property: callbacks after `Close` (false, `claim_fails`; true for one program, `sensors_work`). -/
theorem examples_work_partial (p : Program) (x : DeviceRnd ℝ) (cpus : Int) (u1 : UnitDraws x.speedDraws)
    (u2 : UnitDraws x.elevationDraws) (hp : Fine p) : ∃ d, build x p = some d ∧ Works C95.UnitRnd (config cpus) d (onPacket p) Open := by
  obtain ⟨d, h1, h2, h3, h4⟩ := built p x u1 u2 hp
  refine ⟨d, h1, works_of h2 h3 h4 cpus fun rnd start L hL ho => ?_⟩
  cases p with
  | sensors _ _ _ =>
    intro x hx
    obtain ⟨y, hy⟩ := List.length_eq_one_iff.mp (one_device hL x hx)
    show (x.2.head?).isSome = true
    rw [hy]
    rfl
  | _ => exact shown hL ho

/-- The callback of examples/addsensor does not panic after `Close` either. -/
theorem sensors_work (uid : ℕ → String) (draws : ℕ → ℕ → ℝ) (y : RouteDraw ℝ) (x : DeviceRnd ℝ) (cpus : Int)
    (u1 : UnitDraws x.speedDraws) (u2 : UnitDraws x.elevationDraws) (hp : Fine (.sensors uid draws y)) :
    ∃ d, build x (.sensors uid draws y) = some d ∧ Works C95.UnitRnd (config cpus) d (onPacket (.sensors uid draws y)) fun _ => True := by
  obtain ⟨d, h1, h2, h3, h4⟩ := built (.sensors uid draws y) x u1 u2 hp
  refine ⟨d, h1, works_of h2 h3 h4 cpus fun rnd start L hL _ x hx => ?_⟩
  obtain ⟨y, hy⟩ := List.length_eq_one_iff.mp (one_device hL x hx)
  show (x.2.head?).isSome = true
  rw [hy]
  rfl

/-! ## After `Close` -/

section
variable {F : Type} [GoMath F]

/-- A schedule of the goroutines of a program of safe devices is an execution. -/
theorem lifted {c : Cfg} {rnd : ℕ → ℕ → NextRnd F} {devs : List ℕ} {mem : ℕ → Device F} {start : Int}
    (hm : ∀ p ∈ devs, C54.DSafe (mem p)) : ∀ (as : List Act) (L : Live F) (s : GS), C79.Runs c rnd devs mem start L →
      Quiet as → exec c L.gs as = some s → ∃ L', C79.Runs c rnd devs mem start L' ∧ L'.gs = s := by
  intro as
  induction as with
  | nil => rintro L _ hL - ⟨⟩; exact ⟨L, hL, rfl⟩
  | cons a as ih =>
    intro L s hL hq h
    unfold exec at h
    obtain ⟨s1, h1, h2⟩ := Option.bind_eq_some_iff.mp h
    obtain ⟨q1, q2⟩ := hq a List.mem_cons_self
    obtain ⟨L', h3⟩ := calm_of hm hL (t := 0) h1
    obtain ⟨gs, M, k1, -, rfl⟩ := C79.step_eq h3
    rw [h1] at k1
    cases k1
    exact ih _ s (.step a 0 hL q1 q2 h3) (fun b hb => hq b (List.mem_cons_of_mem _ hb)) h2

theorem lifted_init {c : Cfg} (rnd : ℕ → ℕ → NextRnd F) {devs : List ℕ} {mem : ℕ → Device F} (start : Int)
    (hm : ∀ p ∈ devs, C54.DSafe (mem p)) {as : List Act} {s : GS} (hq : Quiet as)
    (h : exec c (GS.init c devs) as = some s) : ∃ L, C79.Runs c rnd devs mem start L ∧ L.gs = s :=
  lifted hm as _ s .init hq h

/-- The run loop clears the packet after `Close`, while a worker still has to serialise it. -/
def race : List Act :=
  [.ticker] ++ List.replicate 6 .run ++ List.replicate 2 (.worker 0 false) ++ [.close] ++ List.replicate 2 .run ++
    List.replicate 3 (.worker 0 false)

theorem race_quiet : Quiet race := by
  have : ∀ a ∈ race, keeps a = true := by decide
  intro a ha
  have := this a ha
  constructor <;> rintro _ rfl <;> cases this

theorem race_log : (exec ⟨4, 8192⟩ (GS.init ⟨4, 8192⟩ [0]) race).map (·.log) = some [⟨1, [none]⟩] := by decide +kernel

/-- With any safe drone the callback of four of the programs may panic. -/
theorem not_safe {d : Device F} (hs : d.status = Status.stopped) (hd : C54.DSafe d) (U : NextRnd F → Prop) (cpus : Int) :
    ¬ Works U (config cpus) d callback fun _ => True := by
  intro hw
  obtain ⟨w1, w2⟩ := world_is hs
  have hsafe : ∀ p ∈ [0], C54.DSafe ((world d).devs p) := by
    intro p hp
    cases List.mem_singleton.mp hp
    rw [w2]
    exact ⟨hd.nav, hd.speed, hd.sensors⟩
  obtain ⟨s, h1, h2⟩ := Option.map_eq_some_iff.mp race_log
  obtain ⟨L, hL, rfl⟩ := lifted_init (c := config cpus) (fun _ _ => ⟨0, 0, fun _ => lit 0, fun _ => lit 0, fun _ _ => lit 0⟩) 0 hsafe race_quiet h1
  have hW := whole (by rw [config_is]; decide) (by rw [config_is]; decide) hL
  have hl := hW.log
  rw [h2] at hl
  obtain ⟨x, hx, e⟩ := List.map_eq_singleton_iff.mp hl
  have hm : x ∈ L.out := by rw [hx]; exact List.mem_singleton_self x
  have h3 := hw.safe _ _ _ hL trivial x hm
  obtain ⟨h4, h5⟩ := hW.out x hm
  obtain ⟨y, hy⟩ := List.length_eq_one_iff.mp h4
  unfold Same at h5
  rw [e, hy] at h5
  rw [hy] at h3
  cases y with
  | none => cases h3
  | some _ => cases h5

end

/-- **C102 fails** after `Close`, for each of the four programs that read the location. -/
theorem callback_fails (p : Program) (hp : onPacket p = callback) (x : DeviceRnd ℝ) (cpus : Int) (u1 : UnitDraws x.speedDraws)
    (u2 : UnitDraws x.elevationDraws) (hf : Fine p) :
    ∃ d, build x p = some d ∧ ¬ Works C95.UnitRnd (config cpus) d (onPacket p) fun _ => True := by
  obtain ⟨d, h1, h2, h3, -⟩ := built p x u1 u2 hf
  exact ⟨d, h1, by rw [hp]; exact not_safe h2 h3 _ cpus⟩

theorem claim_fails : ¬ Claim := by
  intro h
  obtain ⟨d, h1, h2⟩ := h (.byHand ("t", "#000000") ("r", "#000000")) sample.device 8 sample_usual.speed sample_usual.elevation trivial
  obtain ⟨d', h3, h4⟩ := callback_fails (.byHand ("t", "#000000") ("r", "#000000")) rfl sample.device 8 sample_usual.speed
    sample_usual.elevation trivial
  rw [h1] at h3
  cases h3
  exact h4 h2

/-! ## examples/serialize_device -/

theorem random_sound {lo la : ℝ} {n l : Int} {uid color : String} {name : ℕ → ℕ} {rnd : ℕ → TrackRnd ℝ} {r : GpsGen.Route ℝ}
    (h : randomRoute lo la n l uid color name rnd = .ok r) : C22.SoundRoute r := by
  have loop : ∀ (z : ℝ) (n : ℕ) (r0 r : GpsGen.Route ℝ), C22.SoundRoute r0 → randomTracks la lo z rnd n r0 = .ok r →
      C22.SoundRoute r := by
    intro z n
    induction n with
    | zero => rintro r0 _ h ⟨⟩; exact h
    | succ n ih =>
      intro r0 r h h1
      unfold randomTracks at h1
      obtain ⟨t, ht, h1⟩ := bind_eq_ok h1
      refine ih _ r (C22.route_apply_sound (op := .addTrack (some t)) h ?_) h1
      rintro _ ⟨⟩
      have : t.props = none := by
        unfold randomTrack at ht
        obtain ⟨raw, -, ht⟩ := bind_eq_ok ht
        cases e : Track.new (rnd n).uid (rnd n).color (normalizeCoordinates la lo raw) with
        | error _ => simp only [e] at ht; cases ht
        | ok t0 =>
          simp only [e] at ht
          obtain ⟨nm, -, ht⟩ := bind_eq_ok ht
          cases ht
          have h0 : t0.props = none := by
            unfold Track.new at e
            obtain ⟨_, -, e⟩ := bind_eq_ok e
            cases e
            rfl
          unfold Track.changeName
          split <;> exact h0
      rw [this]
      exact nofun
  unfold randomRoute at h
  obtain ⟨s, -, h⟩ := bind_eq_ok h
  refine loop _ _ _ _ ?_ h
  exact C22.route_apply_sound (op := .changeName ("Route-" ++ s)) ⟨Or.inl rfl, nofun, nofun⟩ trivial

/-- **C102, examples/serialize_device** (with the message instead of its bytes). Encoding succeeds, decoding succeeds, and
both trackers show the same state: the program prints `true`. -/
theorem serialize_works (x : DeviceRnd ℝ) (y : RouteDraw ℝ)
    (hy : Route y) : ∃ d e m d', build x (.randomly y) = some d ∧ encodeTracker d = .ok (e, m) ∧
      decodeTracker m = .ok d' ∧ d'.state = e.state := by
  obtain ⟨r, hr, -⟩ := random_made y hy.name hy.tracks hy.small
  have hrr : C22.SoundRoute r := by
    unfold Examples.randomly at hr
    obtain ⟨r', h1, h2⟩ := Option.map_eq_some_iff.mp hr
    cases h2
    cases h3 : randomRoute (lit (2831261399982 / 10 ^ 11) : ℝ) (lit (53247483804819666 / 10 ^ 15)) 2 300 y.uid y.color y.name y.tracks with
    | error _ => rw [h3] at h1; cases h1
    | ok q => rw [h3] at h1; cases h1; exact random_sound h3
  obtain ⟨d0, e0⟩ := drone_new x
  have hb : build x (.randomly y) = some (d0.addRoute [some r]).1 := by
    show (Examples.randomly y).bind (drone x []) = _
    rw [hr]
    show drone x [] [r] = _
    unfold drone Device.preset
    rw [e0]
    rfl
  have hL : C54.Live (d0.addRoute [some r]).1 := .step (.new e0) (op := .addRoute [some r]) trivial rfl
  have hV : C23.Lived _ (d0.addRoute [some r]).1 := .step (.new e0) (op := .addRoute [some r]) (fun q hq => by
    cases List.mem_singleton.mp hq; exact hrr) rfl
  have parts : (d0.addRoute [some r]).1.tick = 0 ∧ (d0.addRoute [some r]).1.speed.isStatic = false ∧
      (d0.addRoute [some r]).1.state.nav.currentRouteId = "" ∧ (d0.addRoute [some r]).1.state.nav.currentTrackId = "" := by
    obtain ⟨n, sp, b, st, -, k2, -, k4, rfl⟩ := Device.new_eq e0
    have hsp : sp.isStatic = false := by
      unfold Speed.new validateAmplitude at k2
      simp only [DeviceOptions.drone, DeviceOptions.default, Option.getD_some] at k2
      norm_num at k2
      subst k2
      simp [Speed.isStatic]
    have hst : st.nav = ⟨0, 0, 0, "", ""⟩ := by
      unfold DeviceOptions.applyFor at k4
      obtain ⟨_, -, k4⟩ := bind_eq_ok k4
      simp only at k4
      split at k4
      · split at k4 <;> cases k4
        rfl
      · cases k4; rfl
    have : ∀ d : Device ℝ, ((d.addRoute [some r]).1.tick = d.tick ∧ (d.addRoute [some r]).1.speed = d.speed ∧
        (d.addRoute [some r]).1.state.nav = d.state.nav) := by
      intro d
      unfold Device.addRoute
      simp only
      split <;> exact ⟨rfl, rfl, rfl⟩
    obtain ⟨g1, g2, g3⟩ := this { status := Status.stopped, navigator := n, speed := sp, battery := b, state := st, sensors := [],
                                  avgT := lit 0, tick := 0, ns := (0, 0, 0) }
    rw [g1, g2, g3]
    exact ⟨rfl, hsp, by rw [hst], by rw [hst]⟩
  obtain ⟨p1, p2, p3, p4⟩ := parts
  obtain ⟨⟨e, m⟩, he⟩ := (C54.device_never_panics_partial _ hL).2.2.2.2.1
  obtain ⟨-, d', h1, -, h2, -⟩ := C23.device_survives_partial _ _ e m hV p1 (Or.inr p2) ⟨fun _ => p3, fun _ => p4⟩ he
  exact ⟨_, e, m, d', hb, he, h1, h2⟩

/-! ## examples/generator -/

/-- **C102, examples/generator (partial).** The program of the README with a callback that reads the location of every
device: it does not panic while the generator is open. The rest is C101. -/
theorem generator_safe_partial (xs : List (Readme.Draw ℝ)) (hx : ∀ x ∈ xs, C101.Usual x) (d : Device ℝ)
    (cpus : Int) : ∃ w, Readme.populate xs 0 (Readme.blank d) = some w ∧ ∀ rnd start L,
      C79.Runs (Readme.config cpus) rnd (w.gens 0) w.devs start L → Open L → ∀ x ∈ L.out, ∀ y ∈ x.2, y.isSome = true := by
  obtain ⟨w, h1, h2, -⟩ := populated xs hx 0 (Readme.blank d)
  refine ⟨w, h1, fun rnd start L hL ho x hx y hy => ?_⟩
  have hnd : (w.gens 0).Nodup := by
    rw [h2]
    show ([] ++ List.range' 0 xs.length).Nodup
    simpa using List.nodup_range'
  obtain ⟨-, -, -, -, e, -⟩ := C79.only_attached (c := Readme.config cpus) (by rw [config_eq]; decide) hnd hL ho y
    (List.mem_flatMap.mpr ⟨x, hx, hy⟩)
  exact e

/-! Non-vacuity: readers of numbers and draws. -/

/-- Numbers are read exactly. -/
@[instance_reducible] noncomputable def exactJson : JsonFloat ℝ where
  write _ := none
  read l := some (real l)
  read_write := nofun
  read_int i _ _ := by
    simp only [NumLit.ofInt, real, NumLit.value, real_lit]
    congr 2
    by_cases h : i < 0
    · have : ((i.natAbs : ℕ) : ℚ) = -(i : ℚ) := by
        have h1 : ((i.natAbs : ℕ) : ℤ) = -i := by omega
        rw [← Int.cast_natCast, h1]
        push_cast
        rfl
      simp [h, this, digitsNat]
    · have : ((i.natAbs : ℕ) : ℚ) = (i : ℚ) := by
        have h1 : ((i.natAbs : ℕ) : ℤ) = i := by omega
        rw [← Int.cast_natCast, h1]
      simp [h, this, digitsNat]

noncomputable def exactGpx : GpxText ℝ where
  parseFloat s := (readNum s.toList).map fun x => real x.1
  showFloat _ := ""
  f2s _ := ""
  showOther _ := ""
  coord x := x

theorem exactGpx_reads (l : NumLit) : exactGpx.parseFloat (String.ofList l.text) = some (real l) := by
  have := Json.readNum_text l (rest := []) (by simp [Json.Ends])
  rw [List.append_nil] at this
  simp only [exactGpx, String.toList_ofList, this]
  rfl

/-- Draws for a route. -/
noncomputable def routeDraw : RouteDraw ℝ := ⟨"r", "#000000", fun _ => 0, fun _ => sampleTrack⟩

theorem routeDraw_usual : Route routeDraw where
  name _ := by simp [routeDraw]
  tracks := sample_usual.tracks
  small _ j := by simp only [routeDraw, sampleTrack]; split <;> norm_num

example : ∃ d, build sample.device (.byHand ("t", "#111111") ("r", "#222222")) = some d ∧ Works C95.UnitRnd (config 8) d callback Open :=
  examples_work_partial (.byHand _ _) _ 8 sample_usual.speed sample_usual.elevation trivial

example : ∃ d, build sample.device (.sensors (fun i => toString i) (fun _ _ => 1 / 2) routeDraw) = some d ∧
    Works C95.UnitRnd (config 8) d listens fun _ => True :=
  sensors_work _ _ _ _ 8 sample_usual.speed sample_usual.elevation ⟨fun _ _ => by norm_num, routeDraw_usual⟩

example (gen : ℕ → ℕ → String × String) : ∃ d, build sample.device (.geo exactJson gen) = some d ∧ Works C95.UnitRnd (config 8) d callback Open :=
  examples_work_partial (.geo exactJson gen) _ 8 sample_usual.speed sample_usual.elevation fun _ => rfl

example (N : XmlText.NameChars) (gen : ℕ → ℕ → String × String) :
    ∃ d, build sample.device (.gpx N exactGpx gen) = some d ∧ Works C95.UnitRnd (config 8) d callback Open :=
  examples_work_partial (.gpx N exactGpx gen) _ 8 sample_usual.speed sample_usual.elevation exactGpx_reads

example : ∃ d e m d', build sample.device (.randomly routeDraw) = some d ∧ encodeTracker d = .ok (e, m) ∧
    decodeTracker m = .ok d' ∧ d'.state = e.state :=
  serialize_works _ _ routeDraw_usual

end C102
end GpsGen
