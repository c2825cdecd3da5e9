import Verif.Lemmas.DeviceRound
/-!
# Helper lemmas: every operation treats twins alike
-/

namespace GpsGen
variable {F : Type}

namespace Device
open Navigator

/-- Equal, except for the status and for offline settings that are never used. -/
def Twin (d d' : Device F) : Prop := ∃ o s, OffFree o d.navigator ∧ d' = d.like o s

theorem Twin.refl (d : Device F) : Twin d d := ⟨d.navigator.offline, d.status, Or.inr rfl, rfl⟩

/-- The same answer (or the same panic) and twins again. -/
def TwinOutcome (a b : Go (Device F × Answer)) : Prop :=
  (∃ d d' ans, a = .ok (d, ans) ∧ b = .ok (d', ans) ∧ Twin d d') ∨ (∃ e, a = .error e ∧ b = .error e)

variable [GoMath F] {o : Option Random} {s : Int} {d : Device F}

theorem addRoute_like (h : OffFree o d.navigator) (rs : List (Option (Route F))) :
    (d.like o s).addRoute rs = ((d.addRoute rs).1.like o s, (d.addRoute rs).2) := by
  have := perform_wo' h (.addRoute rs)
  simp only [Navigator.perform, map_ok, Except.ok.injEq, Prod.mk.injEq, Answer.err.injEq] at this
  unfold addRoute
  have e : (d.like o s).navigator.addRoute rs =
      ((d.navigator.addRoute rs).1.withOffline o, (d.navigator.addRoute rs).2) :=
    Prod.ext this.1 this.2
  simp only [e]
  cases (d.navigator.addRoute rs).2 <;> rfl

theorem removeRoute_like (h : OffFree o d.navigator) (id : String) :
    (d.like o s).removeRoute id = ((d.removeRoute id).1.like o s, (d.removeRoute id).2) := by
  have := perform_wo' h (.removeRoute id)
  simp only [Navigator.perform, map_ok, Except.ok.injEq, Prod.mk.injEq, Answer.bool.injEq] at this
  unfold removeRoute
  have e : (d.like o s).navigator.removeRoute id =
      ((d.navigator.removeRoute id).1.withOffline o, (d.navigator.removeRoute id).2) :=
    Prod.ext this.1 this.2
  simp only [e]
  cases (d.navigator.removeRoute id).2 <;> rfl

theorem removeTrack_like (h : OffFree o d.navigator) (rid tid : String) :
    (d.like o s).removeTrack rid tid = ((d.removeTrack rid tid).1.like o s, (d.removeTrack rid tid).2) := by
  have := perform_wo' h (.removeTrack rid tid)
  simp only [Navigator.perform, map_ok, Except.ok.injEq, Prod.mk.injEq, Answer.bool.injEq] at this
  unfold removeTrack
  have e : (d.like o s).navigator.removeTrack rid tid =
      ((d.navigator.removeTrack rid tid).1.withOffline o, (d.navigator.removeTrack rid tid).2) :=
    Prod.ext this.1 this.2
  simp only [e]
  cases (d.navigator.removeTrack rid tid).2 <;> rfl

theorem resetRoutes_like (h : OffFree o d.navigator) :
    (d.like o s).resetRoutes = (d.resetRoutes.1.like o s, d.resetRoutes.2) := by
  have := perform_wo' h .resetRoutes
  simp only [Navigator.perform, map_ok, Except.ok.injEq, Prod.mk.injEq, Answer.bool.injEq] at this
  unfold resetRoutes
  have e : (d.like o s).navigator.resetRoutes =
      (d.navigator.resetRoutes.1.withOffline o, d.navigator.resetRoutes.2) :=
    Prod.ext this.1 this.2
  simp only [e]
  cases d.navigator.resetRoutes.2 <;> rfl

omit [GoMath F] in
theorem addSensor_like (ss : List (Option (Sensor F))) :
    (d.like o s).addSensor ss = (d.addSensor ss).like o s := by
  unfold addSensor
  by_cases h : ss.length = 0
  · rw [if_pos h, if_pos h]
  · rw [if_neg h, if_neg h]
    have e : (d.like o s).sensors = d.sensors := rfl
    simp only [e]
    split <;> rfl

omit [GoMath F] in
theorem removeSensor_like (id : String) :
    (d.like o s).removeSensor id = ((d.removeSensor id).1.like o s, (d.removeSensor id).2) := by
  unfold removeSensor
  by_cases h : goLen id = 0
  · rw [if_pos h, if_pos h]
  · rw [if_neg h, if_neg h]
    have e : (d.like o s).sensors = d.sensors := rfl
    simp only [e]
    cases (removeFirst (fun s : Sensor F => s.id == id) d.sensors).2 <;> rfl

omit [GoMath F] in
theorem setModel_like (m : String) :
    (d.like o s).setModel m = ((d.setModel m).1.like o s, (d.setModel m).2) := by
  unfold setModel
  cases newModel m <;> rfl

omit [GoMath F] in
theorem setColor_like (c : Option String) :
    (d.like o s).setColor c = ((d.setColor c).1.like o s, (d.setColor c).2) := by
  cases c <;> rfl

theorem onSensorNext_like (i : Nat) (t : F) :
    (d.like o s).onSensorNext i t = (d.onSensorNext i t).map (like o s) := by
  unfold onSensorNext
  have e : (d.like o s).sensors = d.sensors := rfl
  simp only [e]
  cases d.sensors[i]? with
  | none => rfl
  | some x =>
    simp only
    cases x.next t <;> rfl

theorem perform_like (h : OffFree o d.navigator) (op : DevOp F) (hf : ∀ m, op ≠ .fromSnapshot m) :
    (d.like o s).perform op = (d.perform op).map (fun p => (p.1.like o s, p.2)) := by
  cases op with
  | addRoute rs => simp only [perform, addRoute_like h, map_ok]
  | removeRoute id => simp only [perform, removeRoute_like h, map_ok]
  | removeTrack rid tid => simp only [perform, removeTrack_like h, map_ok]
  | resetRoutes => simp only [perform, resetRoutes_like h, map_ok]
  | move m =>
    simp only [perform]
    rw [show (d.like o s).navigator = d.navigator.withOffline o from rfl, perform_wo' h, map_map_go,
      map_map_go]
    rfl
  | onRoute i op =>
    simp only [perform]
    rw [show (d.like o s).navigator = d.navigator.withOffline o from rfl, perform_wo' h, map_map_go,
      map_map_go]
    rfl
  | addSensor ss => simp only [perform, addSensor_like, map_ok]
  | removeSensor id => simp only [perform, removeSensor_like, map_ok]
  | resetSensors => rfl
  | sensorNext i t => simp only [perform, onSensorNext_like, map_map_go]
  | sensorShuffle i draws => rfl
  | next tick rnd => simp only [perform, next_like h, map_map_go]
  | skipTick => rfl
  | update => simp only [perform, update_like, map_map_go]
  | setModel m => simp only [perform, setModel_like, map_ok]
  | setUserID m => rfl
  | setDescription m => rfl
  | setColor c => simp only [perform, setColor_like, map_ok]
  | fromSnapshot m => exact absurd rfl (hf m)

theorem proceed_nav {d d' : Device F} {t : F} (h : d.proceed t = .ok d') :
    d'.navigator.skipOffline = d.navigator.skipOffline ∧ d'.navigator.offline = d.navigator.offline := by
  unfold proceed at h
  obtain ⟨n, h1, h⟩ := bind_eq_ok h
  obtain ⟨ss, h2, h⟩ := bind_eq_ok h
  have hn : n.skipOffline = d.navigator.skipOffline ∧ n.offline = d.navigator.offline := by
    unfold nextElevation at h1
    obtain ⟨e, _, h1⟩ := bind_eq_ok h1
    cases h1
    exact ⟨rfl, rfl⟩
  obtain ⟨st, h3, rfl⟩ := updateState_eq h
  rw [← hn.1, ← hn.2]
  simp only [refreshed]
  split <;> exact ⟨rfl, rfl⟩

theorem halt_nav {d d' : Device F} {rnd : NextRnd F} (h : d.halt rnd = .ok d') :
    d'.navigator.skipOffline = d.navigator.skipOffline ∧ d'.navigator.offline = d.navigator.offline := by
  unfold halt at h
  have hf : d.updateOfflineState.navigator.isFinish.1.skipOffline = d.navigator.skipOffline ∧
      d.updateOfflineState.navigator.isFinish.1.offline = d.navigator.offline := by
    show d.navigator.isFinish.1.skipOffline = _ ∧ d.navigator.isFinish.1.offline = _
    unfold isFinish
    split <;> exact ⟨rfl, rfl⟩
  simp only at h
  split at h
  · obtain ⟨st, h3, rfl⟩ := updateState_eq h
    exact hf
  · cases h
    exact hf

theorem next_nav {d d' : Device F} {t : F} {rnd : NextRnd F} {b : Bool}
    (h : d.next t rnd = .ok (d', b)) :
    d'.navigator.skipOffline = d.navigator.skipOffline ∧ d'.navigator.offline = d.navigator.offline := by
  unfold next at h
  split at h
  · cases h; exact ⟨rfl, rfl⟩
  · simp only at h
    obtain ⟨d1, h1, h⟩ := bind_eq_ok h
    have g1 : d1.navigator.skipOffline = d.navigator.skipOffline ∧
        d1.navigator.offline = d.navigator.offline := by
      unfold drain at h1
      dsimp only at h1
      split at h1
      · obtain ⟨n, h2, h1⟩ := bind_eq_ok h1
        cases h1
        have := step_offline_frame (op := .toOffline rnd.low) h2
        exact ⟨this.skip, this.offline⟩
      · cases h1; exact ⟨rfl, rfl⟩
    obtain ⟨sp, h2, h⟩ := bind_eq_ok h
    obtain ⟨⟨n, ok⟩, h3, h⟩ := bind_eq_ok h
    have hs : d1.navigator.step (.nextLocation (lit d.tick.toNat +. t) sp.value rnd.loc) = .ok n := by
      simp only [Navigator.step]
      rw [h3]; rfl
    have g2 := step_offline_frame hs
    obtain ⟨d2, h4, h⟩ := bind_eq_ok h
    simp only [pure_eq_ok, Except.ok.injEq, Prod.mk.injEq] at h
    obtain ⟨rfl, -⟩ := h
    rw [← g1.1, ← g1.2, ← g2.skip, ← g2.offline]
    split at h4
    · exact proceed_nav h4
    · exact halt_nav h4

theorem nav_step_free {d : Device F} {n : Navigator F} {op : NavOp F} {a : Answer}
    (h : OffFree o d.navigator) (hp : d.navigator.perform op = .ok (n, a)) : OffFree o n := by
  have := perform_skip hp
  unfold OffFree
  rw [this.1, this.2]
  exact h

theorem perform_offFree {d' : Device F} {a : Answer} {op : DevOp F} (h : OffFree o d.navigator)
    (hf : ∀ m, op ≠ .fromSnapshot m) (hp : d.perform op = .ok (d', a)) : OffFree o d'.navigator := by
  cases op with
  | addRoute rs =>
    have := nav_step_free h (op := .addRoute rs) rfl
    cases hp
    unfold addRoute
    revert this
    cases d.navigator.addRoute rs with
    | mk n err => cases err <;> exact fun h => h
  | removeRoute id =>
    have := nav_step_free h (op := .removeRoute id) rfl
    cases hp
    unfold removeRoute
    revert this
    cases d.navigator.removeRoute id with
    | mk n err => cases err <;> exact fun h => h
  | removeTrack rid tid =>
    have := nav_step_free h (op := .removeTrack rid tid) rfl
    cases hp
    unfold removeTrack
    revert this
    cases d.navigator.removeTrack rid tid with
    | mk n err => cases err <;> exact fun h => h
  | resetRoutes =>
    have := nav_step_free h (op := .resetRoutes) rfl
    cases hp
    unfold resetRoutes
    revert this
    cases d.navigator.resetRoutes with
    | mk n err => cases err <;> exact fun h => h
  | move m =>
    obtain ⟨⟨n, b⟩, hn, hd⟩ := map_eq_ok hp
    cases hd
    exact nav_step_free h hn
  | onRoute i rop => cases hp; exact h
  | addSensor ss =>
    cases hp
    unfold addSensor
    split
    · exact h
    · simp only
      split <;> exact h
  | removeSensor id =>
    cases hp
    unfold removeSensor
    split
    · exact h
    · simp only
      split <;> exact h
  | resetSensors => cases hp; exact h
  | sensorNext i t =>
    obtain ⟨x, hn, hd⟩ := map_eq_ok hp
    cases hd
    unfold onSensorNext at hn
    split at hn
    · cases hn; exact h
    · obtain ⟨y, _, hn⟩ := bind_eq_ok hn
      cases hn
      exact h
  | sensorShuffle i draws => cases hp; exact h
  | next t rnd =>
    obtain ⟨⟨x, b⟩, hn, hd⟩ := map_eq_ok hp
    cases hd
    have := next_nav hn
    unfold OffFree
    rw [this.1, this.2]
    exact h
  | skipTick => cases hp; exact h
  | update =>
    obtain ⟨x, hn, hd⟩ := map_eq_ok hp
    cases hd
    obtain ⟨st, -, rfl⟩ := update_eq hn
    exact h
  | setModel m =>
    cases hp
    unfold setModel
    cases newModel m <;> exact h
  | setUserID m => cases hp; exact h
  | setDescription m => cases hp; exact h
  | setColor c => cases hp; cases c <;> exact h
  | fromSnapshot m => exact absurd rfl (hf m)

/-- One operation on twins. -/
theorem twin_perform {d d' : Device F} (h : Twin d d') (op : DevOp F) :
    TwinOutcome (d.perform op) (d'.perform op) := by
  obtain ⟨o, s, ho, rfl⟩ := h
  by_cases hf : ∃ m, op = .fromSnapshot m
  · obtain ⟨m, rfl⟩ := hf
    have : (d.like o s).perform (.fromSnapshot m) = d.perform (.fromSnapshot m) := rfl
    rw [this]
    cases d.perform (.fromSnapshot m) with
    | error e => exact Or.inr ⟨e, rfl, rfl⟩
    | ok p => exact Or.inl ⟨p.1, p.1, p.2, rfl, rfl, Twin.refl _⟩
  · have hf' : ∀ m, op ≠ .fromSnapshot m := fun m hm => hf ⟨m, hm⟩
    rw [perform_like ho op hf']
    cases hp : d.perform op with
    | error e => exact Or.inr ⟨e, rfl, rfl⟩
    | ok p => exact Or.inl ⟨p.1, p.1.like o s, p.2, rfl, rfl, o, s, perform_offFree ho hf' hp, rfl⟩

/-- Answers of a history. -/
def answers (d : Device F) : List (DevOp F) → Go (Device F × List Answer)
  | [] => .ok (d, [])
  | op :: ops => do
    let (d, a) ← d.perform op
    let (d, as) ← answers d ops
    return (d, a :: as)

theorem twin_answers {d d' : Device F} (h : Twin d d') (ops : List (DevOp F)) :
    (∃ e e' as, answers d ops = .ok (e, as) ∧ answers d' ops = .ok (e', as) ∧ Twin e e') ∨
    (∃ p, answers d ops = .error p ∧ answers d' ops = .error p) := by
  induction ops generalizing d d' with
  | nil => exact Or.inl ⟨d, d', [], rfl, rfl, h⟩
  | cons op ops ih =>
    unfold answers
    rcases twin_perform h op with ⟨n1, m1, a, h1, h2, h3⟩ | ⟨e, h1, h2⟩
    · rw [h1, h2]
      simp only [ok_bind]
      rcases ih h3 with ⟨n2, m2, as, h4, h5, h6⟩ | ⟨e, h4, h5⟩
      · left; rw [h4, h5]; exact ⟨n2, m2, a :: as, rfl, rfl, h6⟩
      · right; rw [h4, h5]; exact ⟨e, rfl, rfl⟩
    · right; rw [h1, h2]; exact ⟨e, rfl, rfl⟩

end Device
end GpsGen
