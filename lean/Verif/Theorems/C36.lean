import Mathlib.Data.List.Nodup
import Mathlib.Tactic.Tauto
import Verif.Lemmas.World
import Verif.Lemmas.Toy
/-!
# C36: a device is attached at most once

Any number type, any set of devices and generators, any history of `Attach`, `Detach` and device
operations. The claim is false for histories that restore a snapshot onto a device, because the snapshot
also sets the status (`restored_attached_twice`, `restored_never_attached`); it is proved for all others.
-/

namespace GpsGen
variable {F : Type}

namespace C36

/-! ## Specification -/

/-- Devices returned by `NewDevice`, nothing attached. -/
def Fresh [GoFloat F] (w : World F) : Prop :=
  (∀ p, ∃ rnd o, Device.new rnd o = .ok (w.devs p)) ∧ ∀ g, w.gens g = []

/-- Not restoring a snapshot. -/
def NoRestore : WorldOp F → Prop
  | .device _ (.fromSnapshot _) => False
  | _ => True

/-- Attached to generator `g`. -/
def Attached (w : World F) (g p : Nat) : Prop := p ∈ w.gens g

/-- At most once per generator, to at most one generator, running exactly while attached. -/
structure Once (w : World F) : Prop where
  nodup : ∀ g, (w.gens g).Nodup
  unique : ∀ g g' p, Attached w g p → Attached w g' p → g = g'
  running : ∀ p, (w.devs p).status = Status.running ↔ ∃ g, Attached w g p
  stopped : ∀ p, (w.devs p).status = Status.stopped ↔ ¬ ∃ g, Attached w g p

/-! ## Proof -/

theorem running_ne_stopped : Status.running ≠ Status.stopped := by decide

theorem attach_running (w : World F) (g p : Nat) (h : (w.devs p).status = Status.running) :
    w.attach g (some p) = (w, some .alreadyRunning) := by
  simp only [World.attach, Device.mount, h, if_true]

theorem attach_stopped (w : World F) (g p : Nat) (h : (w.devs p).status ≠ Status.running) :
    w.attach g (some p) =
      ({ devs := setAt w.devs p { w.devs p with status := Status.running }
         gens := setAt w.gens g (w.gens g ++ [p]) }, none) := by
  simp only [World.attach, Device.mount, if_neg h]

theorem attach_once {w : World F} (hw : Once w) (g : Nat) (p : Option Nat) : Once (w.attach g p).1 := by
  cases p with
  | none => exact hw
  | some p =>
    by_cases hs : (w.devs p).status = Status.running
    · rw [attach_running w g p hs]; exact hw
    · rw [attach_stopped w g p hs]
      have hna : ∀ g', p ∉ w.gens g' := fun g' hg => hs ((hw.running p).mpr ⟨g', hg⟩)
      have hmem : ∀ g' q, q ∈ setAt w.gens g (w.gens g ++ [p]) g' ↔ q ∈ w.gens g' ∨ (g' = g ∧ q = p) := by
        intro g' q
        by_cases hg : g' = g
        · subst hg; rw [setAt_same]; simp
        · rw [setAt_other hg]; simp [hg]
      have hex : ∀ q, (∃ g', q ∈ setAt w.gens g (w.gens g ++ [p]) g') ↔ (∃ g', q ∈ w.gens g') ∨ q = p := by
        intro q
        constructor
        · rintro ⟨g', h⟩
          rcases (hmem g' q).mp h with h | h
          · exact Or.inl ⟨g', h⟩
          · exact Or.inr h.2
        · rintro (⟨g', h⟩ | rfl)
          · exact ⟨g', (hmem g' q).mpr (Or.inl h)⟩
          · exact ⟨g, (hmem g q).mpr (Or.inr ⟨rfl, rfl⟩)⟩
      refine ⟨?_, ?_, ?_, ?_⟩
      · intro g'
        by_cases hg : g' = g
        · subst hg
          simp only [setAt_same]
          rw [List.nodup_append]
          refine ⟨hw.nodup g', by simp, ?_⟩
          intro a ha b hb
          rw [List.mem_singleton] at hb
          rintro rfl
          exact hna g' (hb ▸ ha)
        · simp only [setAt_other hg]
          exact hw.nodup g'
      · intro g1 g2 q h1 h2
        rcases (hmem g1 q).mp h1 with k1 | ⟨rfl, rfl⟩
        · rcases (hmem g2 q).mp h2 with k2 | ⟨rfl, rfl⟩
          · exact hw.unique g1 g2 q k1 k2
          · exact (hna g1 k1).elim
        · rcases (hmem g2 q).mp h2 with k2 | ⟨rfl, -⟩
          · exact (hna g2 k2).elim
          · rfl
      · intro q
        simp only [Attached]
        rw [hex]
        by_cases hq : q = p
        · subst hq; simp [setAt_same]
        · rw [setAt_other hq]; simp only [hq, or_false]; exact hw.running q
      · intro q
        simp only [Attached]
        rw [hex]
        by_cases hq : q = p
        · subst hq; simp [setAt_same, running_ne_stopped]
        · rw [setAt_other hq]; simp only [hq, or_false]; exact hw.stopped q

theorem detach_once {w : World F} (hw : Once w) (g : Nat) (id : String) :
    Once (w.detach g id).1 ∧ (w.detach g id).2 = none := by
  unfold World.detach
  split
  · exact ⟨hw, rfl⟩
  · split
    · exact ⟨hw, rfl⟩
    · rename_i p rest h
      obtain ⟨a, b, hl, rfl, -, -⟩ := World.deleteLoop_some h
      have hp : p ∈ w.gens g := by rw [hl]; simp
      have hr := (hw.running p).mpr ⟨g, hp⟩
      have hns : ¬ (w.devs p).status = Status.stopped := by rw [hr]; exact running_ne_stopped
      have hu : (w.devs p).unmount = .ok { w.devs p with status := Status.stopped } := if_neg hns
      rw [hu]
      refine ⟨?_, rfl⟩
      have hnd := hw.nodup g
      rw [hl] at hnd
      have hpab : p ∉ a ++ b := (List.nodup_middle.mp hnd).notMem
      have hmem : ∀ g' q, q ∈ setAt w.gens g (a ++ b) g' ↔ q ∈ w.gens g' ∧ q ≠ p := by
        intro g' q
        by_cases hg : g' = g
        · subst hg
          rw [setAt_same, hl]
          constructor
          · intro hq
            refine ⟨?_, fun e => hpab (e ▸ hq)⟩
            simp only [List.mem_append, List.mem_cons] at hq ⊢
            tauto
          · rintro ⟨hq, hne⟩
            simp only [List.mem_append, List.mem_cons] at hq ⊢
            tauto
        · rw [setAt_other hg]
          constructor
          · intro hq
            exact ⟨hq, fun e => hg (hw.unique g' g p (e ▸ hq) hp)⟩
          · exact fun h => h.1
      have hex : ∀ q, (∃ g', q ∈ setAt w.gens g (a ++ b) g') ↔ (∃ g', q ∈ w.gens g') ∧ q ≠ p := by
        intro q
        constructor
        · rintro ⟨g', h⟩
          exact ⟨⟨g', ((hmem g' q).mp h).1⟩, ((hmem g' q).mp h).2⟩
        · rintro ⟨⟨g', h⟩, hne⟩
          exact ⟨g', (hmem g' q).mpr ⟨h, hne⟩⟩
      refine ⟨?_, ?_, ?_, ?_⟩
      · intro g'
        by_cases hg : g' = g
        · subst hg; simp only [setAt_same]; exact (List.nodup_middle.mp hnd).of_cons
        · simp only [setAt_other hg]; exact hw.nodup g'
      · intro g1 g2 q h1 h2
        exact hw.unique g1 g2 q ((hmem g1 q).mp h1).1 ((hmem g2 q).mp h2).1
      · intro q
        simp only [Attached]
        rw [hex]
        by_cases hq : q = p
        · subst hq; simp [setAt_same, running_ne_stopped.symm]
        · rw [setAt_other hq]; simp only [ne_eq, hq, not_false_eq_true, and_true]; exact hw.running q
      · intro q
        simp only [Attached]
        rw [hex]
        by_cases hq : q = p
        · subst hq; simp [setAt_same]
        · rw [setAt_other hq]; simp only [ne_eq, hq, not_false_eq_true, and_true]; exact hw.stopped q

theorem device_once [GoMath F] {w : World F} (hw : Once w) {p : Nat} {op : DevOp F} {d : Device F}
    (hn : ∀ m, op ≠ .fromSnapshot m) (h : (w.devs p).step op = .ok d) :
    Once { w with devs := setAt w.devs p d } := by
  have e := (Device.step_identity h hn).1
  have hs : ∀ q, (setAt w.devs p d q).status = (w.devs q).status := by
    intro q
    by_cases hq : q = p
    · subst hq; rw [setAt_same, e]
    · rw [setAt_other hq]
  exact ⟨hw.nodup, hw.unique, fun q => by rw [hs q]; exact hw.running q,
    fun q => by rw [hs q]; exact hw.stopped q⟩

theorem step_once [GoMath F] {w w' : World F} {op : WorldOp F} (hw : Once w) (hn : NoRestore op)
    (h : w.step op = .ok w') : Once w' := by
  cases op with
  | attach g p => cases h; exact attach_once hw g p
  | detach g id => cases h; exact (detach_once hw g id).1
  | device p op =>
    obtain ⟨d, h1, rfl⟩ := map_eq_ok h
    exact device_once hw (fun m e => by subst e; exact hn) h1

theorem fresh_once [GoFloat F] {w : World F} (h : Fresh w) : Once w := by
  have hs : ∀ p, (w.devs p).status = Status.stopped := by
    intro p
    obtain ⟨rnd, o, hd⟩ := h.1 p
    obtain ⟨_, _, _, _, -, -, -, -, e⟩ := Device.new_eq hd
    rw [e]
  have hno : ∀ p, ¬ ∃ g, Attached w g p := by
    rintro p ⟨g, hg⟩
    unfold Attached at hg
    rw [h.2 g] at hg
    cases hg
  exact ⟨fun g => by rw [h.2 g]; exact List.nodup_nil,
    fun g _ p hp => absurd ⟨g, hp⟩ (hno p),
    fun p => ⟨fun e => absurd ((hs p).symm.trans e) running_ne_stopped.symm, fun e => absurd e (hno p)⟩,
    fun p => ⟨fun _ => hno p, fun _ => hs p⟩⟩

/-- **C36.** After any history without restores, every device is attached at most once, to at most one
generator, and is running exactly while attached. -/
theorem attached_once_partial [GoMath F] (w w' : World F) (ops : List (WorldOp F)) (hf : Fresh w)
    (hn : ∀ op ∈ ops, NoRestore op) (h : w.run ops = .ok w') : Once w' := by
  have key : ∀ {v : World F}, Once v → v.run ops = .ok w' → Once w' := by
    clear h hf
    induction ops with
    | nil => intro v hv h; cases h; exact hv
    | cons op ops ih =>
      intro v hv h
      obtain ⟨v1, h1, h2⟩ := bind_eq_ok h
      exact ih (fun o ho => hn o (by simp [ho])) (step_once hv (hn op (by simp)) h1) h2
  exact key (fresh_once hf) h

/-- Attaching an attached device fails without effect, on every generator; attaching another device
succeeds and appends it. -/
theorem attach_iff_partial [GoMath F] (w w' : World F) (ops : List (WorldOp F)) (hf : Fresh w)
    (hn : ∀ op ∈ ops, NoRestore op) (h : w.run ops = .ok w') (g p : Nat) :
    ((∃ g', Attached w' g' p) → w'.attach g (some p) = (w', some .alreadyRunning)) ∧
    ((¬ ∃ g', Attached w' g' p) → (w'.attach g (some p)).2 = none ∧
      (w'.attach g (some p)).1.gens g = w'.gens g ++ [p] ∧
      ∀ g', g' ≠ g → (w'.attach g (some p)).1.gens g' = w'.gens g') := by
  have ho := attached_once_partial w w' ops hf hn h
  constructor
  · intro ha
    exact attach_running w' g p ((ho.running p).mpr ha)
  · intro ha
    rw [attach_stopped w' g p (fun e => ha ((ho.running p).mp e))]
    exact ⟨rfl, setAt_same _ _ _, fun g' hg => setAt_other hg⟩

/-- `Detach` never fails, and a detached device can be attached again. -/
theorem detach_ok_partial [GoMath F] (w w' : World F) (ops : List (WorldOp F)) (hf : Fresh w)
    (hn : ∀ op ∈ ops, NoRestore op) (h : w.run ops = .ok w') (g : Nat) (id : String) :
    (w'.detach g id).2 = none ∧ Once (w'.detach g id).1 :=
  ⟨(detach_once (attached_once_partial w w' ops hf hn h) g id).2,
   (detach_once (attached_once_partial w w' ops hf hn h) g id).1⟩

/-! ## Negations -/

/-- Restoring any snapshot made by `Snapshot` marks the device as stopped. -/
theorem restore_stops [GoMath F] (d d' e : Device F) (h : d.step (.fromSnapshot e.snapshot) = .ok d') :
    d'.status = Status.stopped := by
  obtain ⟨n, speed, battery, sensors, d1, -, -, -, -, hu, rfl⟩ := Device.fromSnapshotOnto_eq h
  obtain ⟨st, -, rfl⟩ := Device.updateState_eq hu
  rfl

/-- **Negation 1.** An attached device onto which a snapshot is restored can be attached again: it is
then listed twice, or by two generators. -/
theorem restored_attached_twice [GoMath F] (w : World F) (g g' p : Nat) (e d' : Device F)
    (ha : Attached w g p) (h : (w.devs p).step (.fromSnapshot e.snapshot) = .ok d') :
    ∃ w', w.run [.device p (.fromSnapshot e.snapshot), .attach g' (some p)] = .ok w' ∧
      w'.gens g' = w.gens g' ++ [p] ∧ Attached w' g p := by
  have hs := restore_stops _ _ _ h
  have h1 : (setAt w.devs p d' p).status ≠ Status.running := by
    rw [setAt_same, hs]; exact running_ne_stopped.symm
  refine ⟨(({ w with devs := setAt w.devs p d' } : World F).attach g' (some p)).1, ?_, ?_, ?_⟩
  · have h2 : w.step (.device p (.fromSnapshot e.snapshot)) = .ok { w with devs := setAt w.devs p d' } := by
      show ((w.devs p).step _).map _ = _
      rw [h]
      rfl
    show (w.step (.device p (.fromSnapshot e.snapshot)) >>= fun w' => w'.run [.attach g' (some p)]) = _
    rw [h2]
    rfl
  · rw [attach_stopped ({ w with devs := setAt w.devs p d' } : World F) g' p h1]
    exact setAt_same _ _ _
  · rw [attach_stopped ({ w with devs := setAt w.devs p d' } : World F) g' p h1]
    show p ∈ setAt w.gens g' (w.gens g' ++ [p]) g
    by_cases hg : g = g'
    · subst hg; rw [setAt_same]; simp
    · rw [setAt_other hg]; exact ha

/-- **Negation 2.** A snapshot message with status 1 makes an unattached device running, so that it can
never be attached. -/
theorem restored_never_attached [GoMath F] (w w' : World F) (p : Nat) (m : SnapMsg F) (hm : m.status = 1)
    (h : w.step (.device p (.fromSnapshot m)) = .ok w') (g : Nat) :
    w'.gens = w.gens ∧ w'.attach g (some p) = (w', some .alreadyRunning) := by
  obtain ⟨d, h1, rfl⟩ := map_eq_ok h
  obtain ⟨n, speed, battery, sensors, d1, -, -, -, -, hu, rfl⟩ := Device.fromSnapshotOnto_eq h1
  obtain ⟨st, -, rfl⟩ := Device.updateState_eq hu
  refine ⟨rfl, attach_running _ g p ?_⟩
  simp only [setAt_same]
  show m.status % 256 = Status.running
  rw [hm]
  rfl

/-! Non-vacuity: three devices, two generators; and the double attachment happens. -/

def device : Device Toy := (Toy.dev []).getD ((Toy.dev []).get (by decide +kernel))

def world : World Toy := ⟨fun _ => device, fun _ => []⟩

def after (ops : List (WorldOp Toy)) : Option (List Nat × List Nat × List Int) :=
  match world.run ops with
  | .ok w => some (w.gens 0, w.gens 1, [(w.devs 0).status, (w.devs 1).status, (w.devs 2).status])
  | .error _ => none

example : after [.attach 0 (some 0), .attach 1 (some 1), .attach 1 (some 0), .attach 0 (some 0),
    .attach 0 (some 2)] = some ([0, 2], [1], [1, 1, 1]) := by decide +kernel

example : after [.attach 0 (some 0), .attach 0 (some 2), .detach 0 "device", .attach 1 (some 0)] =
    some ([2], [0], [1, 2, 1]) := by decide +kernel

example : after [.attach 0 (some 0), .device 0 (.fromSnapshot device.snapshot), .attach 0 (some 0),
    .device 0 (.fromSnapshot device.snapshot), .attach 1 (some 0)] = some ([0, 0], [0], [1, 2, 2]) := by
  decide +kernel

end C36
end GpsGen
