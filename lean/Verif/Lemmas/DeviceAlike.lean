import Verif.Lemmas.SkipOffline
import Verif.Model.DevHistory
/-!
# Helper lemmas: devices that differ only in their status and in unused offline settings
-/

namespace GpsGen
variable {F : Type}

namespace Navigator

/-- Replacing the `offline` field by `o` is harmless. -/
def OffFree (o : Option Random) (n : Navigator F) : Prop := n.skipOffline = true ∨ n.offline = o

theorem withOffline_self {o : Option Random} {n : Navigator F} (h : n.offline = o) : n.withOffline o = n := by
  subst h; rfl

theorem perform_wo' [GoMath F] {o : Option Random} {n : Navigator F} (h : OffFree o n) (op : NavOp F) :
    (n.withOffline o).perform op = (n.perform op).map (fun p => (p.1.withOffline o, p.2)) := by
  rcases h with h | h
  · exact perform_wo h op
  · rw [withOffline_self h]
    cases hp : n.perform op with
    | error e => rfl
    | ok p =>
      have := (perform_skip hp).2
      show Except.ok p = Except.ok (p.1.withOffline o, p.2)
      rw [withOffline_self (this.trans h)]

theorem step_wo [GoMath F] {o : Option Random} {n : Navigator F} (h : OffFree o n) (op : NavOp F) :
    (n.withOffline o).step op = (n.step op).map (fun n' => n'.withOffline o) := by
  rw [← perform_step, ← perform_step, perform_wo' h, map_map_go, map_map_go]

theorem toOffline_wo [GoMath F] {o : Option Random} {n : Navigator F} (h : OffFree o n) (x : UInt32) :
    (n.withOffline o).toOffline x = (n.toOffline x).map (fun n' => n'.withOffline o) :=
  step_wo h (.toOffline x)

theorem nextLocation_wo' [GoMath F] {o : Option Random} {n : Navigator F} (h : OffFree o n) (t s : F)
    (x : UInt32) : (n.withOffline o).nextLocation t s x =
      (n.nextLocation t s x).map (fun p => (p.1.withOffline o, p.2)) := by
  have := perform_wo' h (.nextLocation t s x)
  simp only [perform, map_map_go] at this
  revert this
  cases (n.withOffline o).nextLocation t s x with
  | error e =>
    cases n.nextLocation t s x with
    | error e' => intro h; cases h; rfl
    | ok p => intro h; cases h
  | ok q =>
    cases n.nextLocation t s x with
    | error e' => intro h; cases h
    | ok p =>
      intro h
      simp only [Except.map, Except.ok.injEq, Prod.mk.injEq, Answer.bool.injEq] at h ⊢
      exact Prod.ext h.1 h.2

theorem step_offFree [GoMath F] {o : Option Random} {n n' : Navigator F} {op : NavOp F} (h : OffFree o n)
    (hs : n.step op = .ok n') : OffFree o n' := by
  have := step_offline_frame hs
  unfold OffFree
  rw [this.skip, this.offline]
  exact h

end Navigator

namespace Device
open Navigator

/-- Another status and other offline settings. -/
def like (o : Option Random) (s : Int) (d : Device F) : Device F :=
  { d with status := s, navigator := d.navigator.withOffline o }

theorem bind_like {α β γ δ : Type} {x : Go α} {f : β → Go δ} {g : α → Go γ} {u : α → β} {v : γ → δ}
    (h : ∀ a, x = .ok a → f (u a) = (g a).map v) : (x.map u >>= f) = (x >>= g).map v := by
  cases x with
  | error e => rfl
  | ok a => exact h a rfl

variable [GoMath F] {o : Option Random} {s : Int} {d : Device F}

theorem updateState_like : (d.like o s).updateState = d.updateState.map (like o s) := by
  unfold updateState
  have : (d.like o s).navigator.update (d.like o s).state = d.navigator.update d.state := rfl
  rw [this]
  cases d.navigator.update d.state with
  | error e => rfl
  | ok st =>
    simp only [ok_bind, pure_eq_ok, map_ok]
    have e1 : (d.like o s).sensors = d.sensors := rfl
    simp only [e1]
    split <;> rfl

theorem updateRoutes_like : (d.like o s).updateRoutes = d.updateRoutes.like o s := rfl

theorem update_like : (d.like o s).update = d.update.map (like o s) := by
  unfold update
  rw [updateState_like]
  exact bind_like (fun a _ => rfl)

theorem drain_like (h : OffFree o d.navigator) (sec : F) (x : UInt32) :
    (d.like o s).drain sec x = (d.drain sec x).map (like o s) := by
  unfold drain
  have e1 : (d.like o s).battery = d.battery := rfl
  have e2 : (d.like o s).navigator = d.navigator.withOffline o := rfl
  rw [e1, e2, toOffline_wo h]
  dsimp only
  by_cases hl : (d.battery.next sec).isLow = true
  · rw [if_pos hl, if_pos hl]
    exact bind_like (fun a _ => rfl)
  · rw [if_neg hl, if_neg hl]; rfl

theorem drain_offFree {d' : Device F} (h : OffFree o d.navigator) {sec : F} {x : UInt32}
    (hd : d.drain sec x = .ok d') : OffFree o d'.navigator := by
  unfold drain at hd
  dsimp only at hd
  split at hd
  · obtain ⟨n, h1, hd⟩ := bind_eq_ok hd
    cases hd
    exact step_offFree h (op := .toOffline x) h1
  · cases hd; exact h

theorem halt_like (rnd : NextRnd F) : (d.like o s).halt rnd = (d.halt rnd).map (like o s) := by
  unfold halt
  have e : (d.like o s).updateOfflineState.navigator.isFinish =
      (d.updateOfflineState.navigator.isFinish.1.withOffline o,
        d.updateOfflineState.navigator.isFinish.2) := by
    show (d.navigator.withOffline o).isFinish =
      (d.navigator.isFinish.1.withOffline o, d.navigator.isFinish.2)
    unfold isFinish
    generalize d.navigator = n
    by_cases hc : (n.routeIndex == 0 && n.trackIndex == 0 && n.segmentIndex == 0 &&
        n.currentDistance ==. lit (1 / 10)) = true
    · rw [if_pos hc]
      exact if_pos hc
    · rw [if_neg hc]
      exact if_neg hc
  simp only [e]
  by_cases hf : d.updateOfflineState.navigator.isFinish.2 = true
  · simp only [hf, if_true]
    rw [← updateState_like]
    rfl
  · simp only [hf]
    rfl

theorem proceed_like (t : F) : (d.like o s).proceed t = (d.proceed t).map (like o s) := by
  unfold proceed
  have e1 : (d.like o s).navigator.nextElevation t =
      (d.navigator.nextElevation t).map (withOffline o) := by
    show (d.navigator.withOffline o).nextElevation t = _
    unfold nextElevation
    have : (d.navigator.withOffline o).elevation = d.navigator.elevation := rfl
    rw [this]
    cases d.navigator.elevation.next t <;> rfl
  rw [e1]
  apply bind_like
  intro n _
  have e2 : (d.like o s).sensors = d.sensors := rfl
  rw [e2]
  cases d.sensors.mapM (fun s => s.next t) with
  | error e => rfl
  | ok ss =>
    simp only [ok_bind]
    rw [← updateState_like]
    congr 1
    have e3 : (n.withOffline o).sum = n.sum := rfl
    have e4 : (d.like o s).ns = d.ns := rfl
    simp only [e3, e4]
    split <;> rfl

theorem next_like (h : OffFree o d.navigator) (tick : F) (rnd : NextRnd F) :
    (d.like o s).next tick rnd = (d.next tick rnd).map (fun p => (p.1.like o s, p.2)) := by
  unfold next
  by_cases hr : d.navigator.routes.length = 0
  · have hr' : (d.like o s).navigator.routes.length = 0 := hr
    rw [if_pos hr, if_pos hr']; rfl
  · have hr' : ¬ (d.like o s).navigator.routes.length = 0 := hr
    rw [if_neg hr, if_neg hr']
    simp only
    have e0 : ∀ sec : F, ({ d.like o s with tick := 0, state := { (d.like o s).state with
        duration := (d.like o s).state.duration +. sec, tick := sec } } : Device F) =
        ({ d with tick := 0, state := { d.state with
          duration := d.state.duration +. sec, tick := sec } } : Device F).like o s := fun _ => rfl
    have e1 : (d.like o s).tick = d.tick := rfl
    rw [e1, e0, drain_like (d := { d with tick := 0, state := { d.state with
        duration := d.state.duration +. (lit d.tick.toNat +. tick), tick := lit d.tick.toNat +. tick } }) h]
    apply bind_like
    intro d1 hd1
    have h1 := drain_offFree (d := { d with tick := 0, state := { d.state with
        duration := d.state.duration +. (lit d.tick.toNat +. tick), tick := lit d.tick.toNat +. tick } })
        h hd1
    have e2 : (d1.like o s).speed = d1.speed := rfl
    have e3 : (d1.like o s).nextT (lit d.tick.toNat +. tick) = d1.nextT (lit d.tick.toNat +. tick) := rfl
    rw [e2, e3]
    cases d1.speed.next (d1.nextT (lit d.tick.toNat +. tick)) with
    | error e => rfl
    | ok speed =>
      simp only [ok_bind]
      have e4 : (d1.like o s).navigator = d1.navigator.withOffline o := rfl
      rw [e4, nextLocation_wo' h1]
      apply bind_like
      rintro ⟨n, ok⟩ hn
      cases ok with
      | true =>
        simp only [if_true]
        have e5 := proceed_like (d := { d1 with
          speed := speed, state := { d1.state with speed := speed.value }, navigator := n }) (o := o) (s := s)
          (d1.nextT (lit d.tick.toNat +. tick))
        refine Eq.trans (congrArg (fun z => z >>= _) e5) ?_
        exact bind_like (fun a _ => rfl)
      | false =>
        simp only [Bool.false_eq_true, if_false]
        have e5 := halt_like (d := { d1 with
          speed := speed, state := { d1.state with speed := speed.value }, navigator := n }) (o := o) (s := s) rnd
        refine Eq.trans (congrArg (fun z => z >>= _) e5) ?_
        exact bind_like (fun a _ => rfl)

end Device
end GpsGen
