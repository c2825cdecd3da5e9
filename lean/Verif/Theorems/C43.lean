import Verif.Theorems.C42
/-!
# C43: OnNext is never called more often than ticks, and no tick goes unannounced

For every interleaving, with an OnNext callback installed.
-/

namespace GpsGen
namespace C43
open Run C41

/-! ## Invariant -/

def b2n (b : Bool) : Nat := if b then 1 else 0

/-- Notifications on their way to a call. -/
def pending (s : GS) : Nat := b2n s.nextCh + (match s.notifier with | .got => 1 | _ => 0)

theorem run_effect {c : Cfg} {s s' : GS} (h : runStep c s = some s') :
    s'.notifier = s.notifier ∧ s'.nexts = s.nexts ∧ s'.announced = s.announced ∧
    (s'.ticks = s.ticks ∧ s'.nextCh = s.nextCh ∨ s'.ticks = s.ticks + 1 ∧ s'.nextCh = true) := by
  unfold runStep at h
  cases hr : s.run <;> rw [hr] at h <;> simp only at h <;>
    first
    | (cases h <;> exact ⟨rfl, rfl, rfl, Or.inl ⟨rfl, rfl⟩⟩)
    | (cases h <;> exact ⟨rfl, rfl, rfl, Or.inr ⟨rfl, rfl⟩⟩)
    | (split at h <;> first
        | (cases h <;> exact ⟨rfl, rfl, rfl, Or.inl ⟨rfl, rfl⟩⟩)
        | (split at h <;> first
          | (cases h <;> exact ⟨rfl, rfl, rfl, Or.inl ⟨rfl, rfl⟩⟩)
          | (split at h <;> (cases h <;> exact ⟨rfl, rfl, rfl, Or.inl ⟨rfl, rfl⟩⟩))))

theorem count_inv {c : Cfg} {s : GS} (h : Reach c s) : s.nexts + pending s ≤ s.ticks ∧ s.announced ≤ s.ticks := by
  induction h with
  | init devs => exact ⟨Nat.le_refl _, Nat.le_refl _⟩
  | @step s s' a hs hf ih =>
    cases a with
    | close => cases hf; exact ih
    | ticker => simp only [fire] at hf; split at hf <;> cases hf; exact ih
    | attach p => simp only [fire] at hf; split at hf <;> cases hf; exact ih
    | detach i => simp only [fire] at hf; split at hf <;> cases hf; exact ih
    | run =>
      obtain ⟨e1, e2, e3, e4⟩ := run_effect hf
      unfold pending at ih ⊢
      rw [e1, e2, e3]
      rcases e4 with ⟨e4, e5⟩ | ⟨e4, e5⟩
      · rw [e4, e5]; exact ih
      · rw [e4, e5]
        simp only [b2n, if_true]
        omega
    | worker i stop =>
      obtain ⟨w, r, hw, hr, rfl, e1, e2, e3, e4, e5, e6, e7, e8, e9, e10, e11, e12, e13, e14⟩ := worker_effect hf
      unfold pending at ih ⊢
      simp only [e7, e8, e12, e13, e14]
      exact ih
    | notifier stop =>
      simp only [fire] at hf
      unfold notifierStep at hf
      unfold pending at ih ⊢
      cases hn : s.notifier with
      | wait =>
        rw [hn] at hf ih; simp only at hf ih
        split at hf
        · split at hf <;> cases hf; exact ih
        · split at hf
          · rename_i hx
            rw [hx] at ih
            cases hf
            exact ih
          · cases hf
      | got =>
        rw [hn] at hf ih; simp only at hf ih
        split at hf <;> cases hf
        · simp only; omega
        · simp only; omega
      | call => rw [hn] at hf ih; cases hf; exact ih
      | done => rw [hn] at hf; cases hf

/-! ## Theorems -/

/-- **C43, upper bound.** There are never more OnNext calls than completed ticks. -/
theorem calls_le_ticks (c : Cfg) (s : GS) (h : Reach c s) : s.nexts ≤ s.ticks := by
  have := (count_inv h).1
  omega

/-- While an open generator has completed a tick after the start of the latest OnNext call, the notifier is
not blocked. -/
theorem unannounced_steps (c : Cfg) (s : GS) (h : Reach c s) (ho : s.closed = false)
    (hu : s.announced ≠ s.ticks) : fire c s (.notifier false) ≠ none := by
  have op := reach_open h ho
  rcases op.announced with e | e | e
  · exact absurd e.symm hu
  · cases hn : s.notifier with
    | wait => simp [fire, notifierStep, hn, e]
    | got => simp [fire, notifierStep, hn, ho]
    | call => simp [fire, notifierStep, hn]
    | done => exact absurd hn op.notifier
  · simp [fire, notifierStep, e, ho]

/-- Notifier steps left until the tick numbered `t` is announced. -/
def left (t : Nat) (s : GS) : Nat :=
  if t ≤ s.announced then 0 else match s.notifier with
    | .got => 1
    | .wait => 2
    | .call => 3
    | .done => 0

/-- Steps of the notifier. -/
def isNotifier : Act → Bool
  | .notifier _ => true
  | _ => false

theorem left_step {c : Cfg} {s s' : GS} {a : Act} {t : Nat} (h : Reach c s) (ho' : s'.closed = false)
    (ht : t ≤ s.ticks) (hs : fire c s a = some s') :
    t ≤ s'.ticks ∧ left t s' ≤ left t s - b2n (isNotifier a) := by
  have ho := C42.open_before hs ho'
  have op := reach_open h ho
  have same : s'.ticks = s.ticks → s'.announced = s.announced → s'.notifier = s.notifier →
      b2n (isNotifier a) = 0 → t ≤ s'.ticks ∧ left t s' ≤ left t s - b2n (isNotifier a) := by
    intro e1 e2 e3 e4
    unfold left
    rw [e1, e2, e3, e4]
    exact ⟨ht, Nat.le_refl _⟩
  cases a with
  | close => cases hs; cases ho'
  | ticker => simp only [fire] at hs; split at hs <;> cases hs; exact same rfl rfl rfl rfl
  | attach p => simp only [fire] at hs; split at hs <;> cases hs; exact same rfl rfl rfl rfl
  | detach i => simp only [fire] at hs; split at hs <;> cases hs; exact same rfl rfl rfl rfl
  | run =>
    obtain ⟨e1, e2, e3, e4⟩ := run_effect hs
    unfold left
    rw [e1, e3]
    refine ⟨?_, Nat.le_refl _⟩
    rcases e4 with e4 | e4 <;> omega
  | worker i stop =>
    obtain ⟨w, r, hw, hr, rfl, e1, e2, e3, e4, e5, e6, e7, e8, e9, e10, e11, e12, e13, e14⟩ := worker_effect hs
    exact same e12 e14 e8 rfl
  | notifier stop =>
    simp only [fire] at hs
    unfold notifierStep at hs
    cases hn : s.notifier with
    | wait =>
      rw [hn] at hs; simp only [ho] at hs
      split at hs
      · cases hs
      · split at hs <;> cases hs
        unfold left
        rw [hn]
        simp only [b2n, isNotifier, if_true]
        refine ⟨ht, ?_⟩
        split <;> omega
    | got =>
      rw [hn] at hs; simp only at hs
      rw [if_neg (by simp [ho])] at hs
      cases hs
      refine ⟨ht, ?_⟩
      unfold left
      simp only [ht, if_true]
      omega
    | call =>
      rw [hn] at hs
      cases hs
      refine ⟨ht, ?_⟩
      unfold left
      rw [hn]
      simp only [b2n, isNotifier, if_true]
      split <;> omega
    | done => exact absurd hn op.notifier

/-- **C43, no tick unannounced.** Take any reachable state, any continuation that stays open, whatever the
other goroutines and clients do: once the notifier has taken three steps, an OnNext call has started after
all ticks that were complete in that state. -/
theorem tick_announced (c : Cfg) (s : GS) (h : Reach c s) (as : List Act) (s' : GS)
    (he : exec c s as = some s') (ho : s'.closed = false) (h3 : 3 ≤ as.countP isNotifier) :
    s.ticks ≤ s'.announced := by
  have key : ∀ (as : List Act) (s : GS) (t : Nat), Reach c s → t ≤ s.ticks → exec c s as = some s' →
      left t s' ≤ left t s - as.countP isNotifier ∧ t ≤ s'.ticks ∧ Reach c s' := by
    intro as
    induction as with
    | nil => intro s t h ht he; cases he; exact ⟨Nat.le_refl _, ht, h⟩
    | cons a as ih =>
      intro s t h ht he
      unfold exec at he
      obtain ⟨s1, h1, h2⟩ := Option.bind_eq_some_iff.mp he
      have ho1 : s1.closed = false := by
        clear ih h3 ht h1 he
        induction as generalizing s1 with
        | nil => cases h2; exact ho
        | cons b bs ihb =>
          unfold exec at h2
          obtain ⟨s2, k1, k2⟩ := Option.bind_eq_some_iff.mp h2
          exact C42.open_before k1 (ihb s2 k2)
      obtain ⟨k1, k2⟩ := left_step h ho1 ht h1
      obtain ⟨j1, j2⟩ := ih s1 t (Reach.step a h h1) k1 h2
      refine ⟨?_, j2⟩
      rw [List.countP_cons]
      unfold b2n at k2
      omega
  obtain ⟨k1, k2, k3⟩ := key as s s.ticks h (Nat.le_refl _) he
  have op := reach_open k3 ho
  have hl : left s.ticks s ≤ 3 := by
    unfold left
    split
    · omega
    · split <;> omega
  have h0 : left s.ticks s' = 0 := by omega
  unfold left at h0
  split at h0
  · assumption
  · exfalso
    cases hn : s'.notifier with
    | done => exact op.notifier hn
    | _ => rw [hn] at h0; cases h0

/-- In a quiescent state of an open generator all ticks are announced. -/
theorem quiescent_announced (s : GS) (h : Quiescent s) : s.announced = s.ticks := h.announced

/-! Non-vacuity: two ticks announced by one call. -/

example : (exec ⟨1, 4⟩ (GS.init ⟨1, 4⟩ []) ((List.replicate 2 ([Act.ticker] ++ List.replicate 5 .run ++
      List.replicate 3 (.worker 0 false) ++ List.replicate 3 .run)).flatten ++
      [.notifier false, .notifier false])).map (fun s => (s.ticks, s.nexts, s.announced, s.notifier)) =
    some (2, 1, 2, .call) := by decide +kernel

end C43
end GpsGen
