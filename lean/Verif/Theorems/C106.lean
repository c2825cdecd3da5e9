import Verif.Model.RandomSource
import Mathlib.Data.List.Nodup
import Mathlib.Data.List.Pairwise
/-!
# C106: Goroutines share the random sources

Whatever the goroutines of a program do at the same time, the values they get from the random sources are those of some
order of their calls one after the other, in which each goroutine makes its calls in its own order and calls that return
come before calls that start later. So no draw is handed out twice; and whatever has happened, also a panic of `Intn`,
every goroutine can still finish its calls.
-/

namespace GpsGen
namespace C106
open RandomSource

variable {σ α : Type}

/-! ## Specification -/

/-- The states of the sources after calls made one after the other. -/
def statesAfter (src : Source σ α) (s : Nat → σ) : List (Nat × Nat × Call) → Nat → σ
  | [] => s
  | (_, k, c) :: rest =>
    match src.draw c (s k) with
    | none => statesAfter src s rest
    | some (_, s') => statesAfter src (fun j => if j = k then s' else s j) rest

/-- What calls made one after the other return, each with the goroutine that made it. -/
def returned (src : Source σ α) (s : Nat → σ) : List (Nat × Nat × Call) → List (Nat × Option α)
  | [] => []
  | (g, k, c) :: rest =>
    match src.draw c (s k) with
    | none => (g, none) :: returned src s rest
    | some (v, s') => (g, some v) :: returned src (fun j => if j = k then s' else s j) rest

/-- The values of the goroutine `g`. -/
def valuesOf (g : Nat) (l : List (Nat × Option α)) : List (Option α) :=
  (l.filter fun x => x.1 = g).map (·.2)

/-- The calls of the goroutine `g`. -/
def callsOf (g : Nat) (l : List (Nat × Nat × Call)) : List (Nat × Call) :=
  (l.filter fun x => x.1 = g).map (·.2)

/-- The order explains what the goroutines have seen so far: each has made the first of its calls, in its order, and a
goroutine between two calls has the values that it gets if the calls are made one after the other. -/
structure Explains (src : Source σ α) (s : Nat → σ) (prog : Nat → List (Nat × Call)) (w : World σ α)
    (order : List (Nat × Nat × Call)) : Prop where
  calls : ∀ g, callsOf g order <+: prog g
  values : ∀ g, (w.gors g).got <+: valuesOf g (returned src s order)
  between : ∀ g, (w.gors g).pc = .ready →
    (w.gors g).got = valuesOf g (returned src s order) ∧ callsOf g order ++ (w.gors g).todo = prog g

/-- A source that hands out tickets: its number, and a number that it raises with every draw. -/
def tickets : Source (Nat × Nat) (Nat × Nat) where
  draw
    | .intn n, s => if n ≤ 0 then none else some (s, s.1, s.2 + 1)
    | _, s => some (s, s.1, s.2 + 1)

/-! ## Lemmas -/

theorem statesAfter_append (src : Source σ α) (s : Nat → σ) (a b : List (Nat × Nat × Call)) :
    statesAfter src s (a ++ b) = statesAfter src (statesAfter src s a) b := by
  induction a generalizing s with
  | nil => rfl
  | cons x a ih =>
    obtain ⟨g, k, c⟩ := x
    simp only [List.cons_append, statesAfter]
    split <;> exact ih _

theorem returned_append (src : Source σ α) (s : Nat → σ) (a b : List (Nat × Nat × Call)) :
    returned src s (a ++ b) = returned src s a ++ returned src (statesAfter src s a) b := by
  induction a generalizing s with
  | nil => rfl
  | cons x a ih =>
    obtain ⟨g, k, c⟩ := x
    simp only [List.cons_append, statesAfter, returned]
    split <;> simp [ih]

theorem valuesOf_append (g : Nat) (a b : List (Nat × Option α)) :
    valuesOf g (a ++ b) = valuesOf g a ++ valuesOf g b := by simp [valuesOf]

theorem callsOf_append (g : Nat) (a b : List (Nat × Nat × Call)) :
    callsOf g (a ++ b) = callsOf g a ++ callsOf g b := by simp [callsOf]

/-- What holds of the goroutine `g` at every moment of a program. -/
def Fits (src : Source σ α) (s : Nat → σ) (prog : Nat → List (Nat × Call)) (w : World σ α)
    (order : List (Nat × Nat × Call)) (g : Nat) : Prop :=
  let r := w.gors g
  let vs := valuesOf g (returned src s order)
  match r.pc with
  | .ready => r.got = vs ∧ callsOf g order ++ r.todo = prog g ∧ ∀ k, w.owner k ≠ some g
  | .locked => r.got = vs ∧ callsOf g order ++ r.todo = prog g ∧
      ∃ k c rest, r.todo = (k, c) :: rest ∧ ∀ j, w.owner j = some g ↔ j = k
  | .loaded x => r.got = vs ∧ callsOf g order ++ r.todo = prog g ∧
      ∃ k c rest, r.todo = (k, c) :: rest ∧ (∀ j, w.owner j = some g ↔ j = k) ∧ w.state k = x
  | .drawn v => r.got ++ [v] = vs ∧ ∃ k c rest, r.todo = (k, c) :: rest ∧ callsOf g order ++ rest = prog g ∧
      ∀ j, w.owner j = some g ↔ j = k

/-- What holds at every moment of a program. -/
structure Inv (src : Source σ α) (s : Nat → σ) (prog : Nat → List (Nat × Call)) (w : World σ α)
    (order : List (Nat × Nat × Call)) : Prop where
  states : w.state = statesAfter src s order
  fits : ∀ g, Fits src s prog w order g

theorem inv_start (src : Source σ α) (s : Nat → σ) (prog : Nat → List (Nat × Call)) :
    Inv src s prog (start s prog) [] := by
  refine ⟨rfl, fun g => ?_⟩
  simp [Fits, start, valuesOf, returned, callsOf]

/-- The calls whose draw happens in one step. -/
def drawnBy (w : World σ α) (g : Nat) : List (Nat × Nat × Call) :=
  match (w.gors g).todo, (w.gors g).pc with
  | (k, c) :: _, .loaded _ => [(g, k, c)]
  | _, _ => []

theorem put_same {β : Type} (f : Nat → β) (i : Nat) (v : β) : put f i v i = v := by simp [put]

theorem put_other {β : Type} (f : Nat → β) {i j : Nat} (v : β) (h : j ≠ i) : put f i v j = f j := by simp [put, h]

theorem fits_other (src : Source σ α) (s : Nat → σ) (prog : Nat → List (Nat × Call)) {w w' : World σ α}
    {order order' : List (Nat × Nat × Call)} {h : Nat} (hg : w'.gors h = w.gors h)
    (ho : ∀ j, w'.owner j = some h ↔ w.owner j = some h) (hs : ∀ k, w.owner k = some h → w'.state k = w.state k)
    (hc : callsOf h order' = callsOf h order)
    (hv : valuesOf h (returned src s order') = valuesOf h (returned src s order)) (hf : Fits src s prog w order h) :
    Fits src s prog w' order' h := by
  unfold Fits at hf ⊢
  rw [hg]
  cases e : (w.gors h).pc <;> simp only [e, hc, hv, ne_eq, ho] at hf ⊢
  · exact hf
  · exact hf
  · obtain ⟨h1, h2, k, c, rest, h3, h4, h5⟩ := hf
    exact ⟨h1, h2, k, c, rest, h3, h4, by rw [hs k ((h4 k).2 rfl), h5]⟩
  · exact hf

theorem inv_step (src : Source σ α) (s : Nat → σ) (prog : Nat → List (Nat × Call)) (w : World σ α)
    (order : List (Nat × Nat × Call)) (g : Nat) (h : Inv src s prog w order) :
    Inv src s prog (step src w g) (order ++ drawnBy w g) := by
  have hg := h.fits g
  unfold Fits at hg
  cases ht : (w.gors g).todo with
  | nil => simpa [step, drawnBy, ht] using h
  | cons x rest =>
    obtain ⟨k, c⟩ := x
    cases hp : (w.gors g).pc with
    | ready =>
      simp only [hp] at hg
      obtain ⟨h1, h2, h3⟩ := hg
      cases ho : w.owner k with
      | some o => simpa [step, drawnBy, ht, hp, ho] using h
      | none =>
        have e : step src w g = { w with
            owner := put w.owner k (some g), gors := put w.gors g { w.gors g with pc := .locked } } := by
          simp [step, ht, hp, ho]
        have e2 : drawnBy w g = [] := by simp [drawnBy, ht, hp]
        rw [e, e2, List.append_nil]
        refine ⟨h.states, fun i => ?_⟩
        by_cases hi : i = g
        · subst hi
          simp only [Fits, put_same]
          refine ⟨h1, h2, k, c, rest, ht, fun j => ?_⟩
          by_cases hj : j = k
          · simp [hj, put_same]
          · simp [put_other _ _ hj, hj, h3 j]
        · refine fits_other src s prog (put_other _ _ hi) (fun j => ?_) (fun _ _ => rfl) rfl rfl (h.fits i)
          by_cases hj : j = k
          · simp [hj, put_same, ho, Ne.symm hi]
          · simp [put_other _ _ hj]
    | locked =>
      simp only [hp] at hg
      obtain ⟨h1, h2, k', c', rest', h3, h4⟩ := hg
      have e : step src w g = { w with gors := put w.gors g { w.gors g with pc := .loaded (w.state k) } } := by
        simp [step, ht, hp]
      have e2 : drawnBy w g = [] := by simp [drawnBy, ht, hp]
      rw [e, e2, List.append_nil]
      obtain ⟨⟨rfl, rfl⟩, rfl⟩ : (k = k' ∧ c = c') ∧ rest = rest' := by simpa [ht] using h3
      refine ⟨h.states, fun i => ?_⟩
      by_cases hi : i = g
      · subst hi
        simp only [Fits, put_same]
        exact ⟨h1, h2, k, c, rest, ht, h4, rfl⟩
      · exact fits_other src s prog (put_other _ _ hi) (fun j => Iff.rfl) (fun _ _ => rfl) rfl rfl (h.fits i)
    | loaded x =>
      simp only [hp] at hg
      obtain ⟨h1, h2, k', c', rest', h3, h4, h5⟩ := hg
      obtain ⟨⟨rfl, rfl⟩, rfl⟩ : (k = k' ∧ c = c') ∧ rest = rest' := by simpa [ht] using h3
      have e2 : drawnBy w g = [(g, k, c)] := by simp [drawnBy, ht, hp]
      have hx : statesAfter src s order k = x := by rw [← h.states, h5]
      have hcg : callsOf g [(g, k, c)] = [(k, c)] := by simp [callsOf]
      have hci : ∀ i, i ≠ g → callsOf i [(g, k, c)] = [] := fun i hi => by simp [callsOf, Ne.symm hi]
      have hcalls : callsOf g (order ++ [(g, k, c)]) ++ rest = prog g := by
        rw [callsOf_append, hcg, ← h2, ht, List.append_assoc]; rfl
      rw [e2]
      cases hd : src.draw c x with
      | none =>
        have e : step src w g = { w with gors := put w.gors g { w.gors g with pc := .drawn none } } := by
          simp [step, ht, hp, hd]
        have hr : returned src s (order ++ [(g, k, c)]) = returned src s order ++ [(g, none)] := by
          rw [returned_append]; simp [returned, hx, hd]
        rw [e]
        refine ⟨?_, fun i => ?_⟩
        · rw [statesAfter_append]; simp [statesAfter, hx, hd, h.states]
        · by_cases hi : i = g
          · subst hi
            simp only [Fits, put_same]
            refine ⟨?_, k, c, rest, ht, hcalls, h4⟩
            rw [hr, valuesOf_append, h1]; simp [valuesOf]
          · refine fits_other src s prog (put_other _ _ hi) (fun j => Iff.rfl) (fun _ _ => rfl) ?_ ?_ (h.fits i)
            · rw [callsOf_append, hci i hi, List.append_nil]
            · rw [hr, valuesOf_append]; simp [valuesOf, Ne.symm hi]
      | some y =>
        obtain ⟨v, s'⟩ := y
        have e : step src w g = { w with
            state := put w.state k s', gors := put w.gors g { w.gors g with pc := .drawn (some v) } } := by
          simp [step, ht, hp, hd]
        have hr : returned src s (order ++ [(g, k, c)]) = returned src s order ++ [(g, some v)] := by
          rw [returned_append]; simp [returned, hx, hd]
        rw [e]
        refine ⟨?_, fun i => ?_⟩
        · rw [statesAfter_append]; simp [statesAfter, hx, hd, h.states]; rfl
        · by_cases hi : i = g
          · subst hi
            simp only [Fits, put_same]
            refine ⟨?_, k, c, rest, ht, hcalls, h4⟩
            rw [hr, valuesOf_append, h1]; simp [valuesOf]
          · refine fits_other src s prog (put_other _ _ hi) (fun j => Iff.rfl) (fun j hj => ?_) ?_ ?_ (h.fits i)
            · refine put_other _ _ fun hjk => hi ?_
              have := (h4 k).2 rfl
              rw [hjk, this] at hj
              exact (Option.some.inj hj).symm
            · rw [callsOf_append, hci i hi, List.append_nil]
            · rw [hr, valuesOf_append]; simp [valuesOf, Ne.symm hi]
    | drawn v =>
      simp only [hp] at hg
      obtain ⟨h1, k', c', rest', h3, h2, h4⟩ := hg
      obtain ⟨⟨rfl, rfl⟩, rfl⟩ : (k = k' ∧ c = c') ∧ rest = rest' := by simpa [ht] using h3
      have e2 : drawnBy w g = [] := by simp [drawnBy, ht, hp]
      have e : step src w g = { w with
          owner := put w.owner k none,
          gors := put w.gors g { todo := rest, pc := .ready, got := (w.gors g).got ++ [v] } } := by
        simp [step, ht, hp]
      rw [e, e2, List.append_nil]
      refine ⟨h.states, fun i => ?_⟩
      by_cases hi : i = g
      · subst hi
        simp only [Fits, put_same]
        refine ⟨h1, h2, fun j => ?_⟩
        by_cases hj : j = k
        · simp [hj, put_same]
        · rw [put_other _ _ hj]; exact fun hh => hj ((h4 j).1 hh)
      · refine fits_other src s prog (put_other _ _ hi) (fun j => ?_) (fun _ _ => rfl) rfl rfl (h.fits i)
        by_cases hj : j = k
        · subst hj
          simp [put_same, (h4 j).2 rfl, Ne.symm hi]
        · simp [put_other _ _ hj]

/-- The calls in the order of their draws. -/
def drawOrder (src : Source σ α) (w : World σ α) : List Nat → List (Nat × Nat × Call)
  | [] => []
  | g :: gs => drawnBy w g ++ drawOrder src (step src w g) gs

theorem inv_exec (src : Source σ α) (s : Nat → σ) (prog : Nat → List (Nat × Call)) (sched : List Nat) :
    ∀ (w : World σ α) (order : List (Nat × Nat × Call)), Inv src s prog w order →
      Inv src s prog (exec src w sched) (order ++ drawOrder src w sched) := by
  induction sched with
  | nil => intro w order h; simpa [exec, drawOrder] using h
  | cons g gs ih =>
    intro w order h
    have := ih _ _ (inv_step src s prog w order g h)
    simpa [exec, drawOrder] using this

theorem drawOrder_append (src : Source σ α) (a b : List Nat) : ∀ w : World σ α,
    drawOrder src w (a ++ b) = drawOrder src w a ++ drawOrder src (exec src w a) b := by
  induction a with
  | nil => intro w; rfl
  | cons g gs ih => intro w; simp [drawOrder, ih, exec]

theorem inv_reach (src : Source σ α) (s : Nat → σ) (prog : Nat → List (Nat × Call)) (sched : List Nat) :
    Inv src s prog (exec src (start s prog) sched) (drawOrder src (start s prog) sched) := by
  simpa using inv_exec src s prog sched _ _ (inv_start src s prog)

theorem inv_explains {src : Source σ α} {s : Nat → σ} {prog : Nat → List (Nat × Call)} {w : World σ α}
    {order : List (Nat × Nat × Call)} (h : Inv src s prog w order) : Explains src s prog w order := by
  refine ⟨fun g => ?_, fun g => ?_, fun g hr => ?_⟩
  · have hg := h.fits g
    unfold Fits at hg
    cases e : (w.gors g).pc <;> simp only [e] at hg
    · exact ⟨_, hg.2.1⟩
    · exact ⟨_, hg.2.1⟩
    · exact ⟨_, hg.2.1⟩
    · obtain ⟨_, k, c, rest, _, h2, _⟩ := hg
      exact ⟨_, h2⟩
  · have hg := h.fits g
    unfold Fits at hg
    cases e : (w.gors g).pc <;> simp only [e] at hg
    · rw [hg.1]; exact List.prefix_rfl
    · rw [hg.1]; exact List.prefix_rfl
    · rw [hg.1]; exact List.prefix_rfl
    · exact ⟨_, hg.1⟩
  · have hg := h.fits g
    unfold Fits at hg
    simp only [hr] at hg
    exact ⟨hg.1, hg.2.1⟩

theorem ticket_draw (c : Call) (s : Nat × Nat) :
    tickets.draw c s = none ∨ tickets.draw c s = some (s, s.1, s.2 + 1) := by
  cases c with
  | intn n => by_cases h : n ≤ 0 <;> simp [tickets, h]
  | float => simp [tickets]
  | expFloat => simp [tickets]

theorem tickets_later (order : List (Nat × Nat × Call)) : ∀ s : Nat → Nat × Nat, (∀ k, (s k).1 = k) →
    ∀ x ∈ returned tickets s order, ∀ t, x.2 = some t → (s t.1).2 ≤ t.2 := by
  induction order with
  | nil => intro s _ x hx; simp [returned] at hx
  | cons y order ih =>
    obtain ⟨g, k, c⟩ := y
    intro s hs x hx t ht
    rcases ticket_draw c (s k) with hd | hd <;> simp only [returned, hd, List.mem_cons] at hx
    · rcases hx with rfl | hx
      · simp at ht
      · exact ih s hs x hx t ht
    · rcases hx with rfl | hx
      · obtain rfl : s k = t := by simpa using ht
        rw [hs k]; exact Nat.le_refl _
      · have := ih _ (fun j => by by_cases hj : j = k <;> simp [hj, hs]) x hx t ht
        by_cases hj : t.1 = k
        · simp only [hj, if_true] at this ⊢; omega
        · simpa only [hj, if_false] using this

theorem tickets_pairwise (order : List (Nat × Nat × Call)) : ∀ s : Nat → Nat × Nat, (∀ k, (s k).1 = k) →
    (returned tickets s order).Pairwise fun x y => ∀ t, x.2 = some t → y.2 ≠ some t := by
  induction order with
  | nil => intro s _; exact List.Pairwise.nil
  | cons y order ih =>
    obtain ⟨g, k, c⟩ := y
    intro s hs
    rcases ticket_draw c (s k) with hd | hd <;> simp only [returned, hd, List.pairwise_cons]
    · exact ⟨fun _ _ t ht => by simp at ht, ih s hs⟩
    · have hs' : ∀ j, (if j = k then ((s k).1, (s k).2 + 1) else s j).1 = j := fun j => by
        by_cases hj : j = k <;> simp [hj, hs]
      refine ⟨fun y hy t ht hyt => ?_, ih _ hs'⟩
      obtain rfl : s k = t := by simpa using ht
      have := tickets_later order _ hs' y hy _ hyt
      simp only [hs k, if_true] at this
      omega

theorem exec_append (src : Source σ α) (w : World σ α) (a b : List Nat) :
    exec src w (a ++ b) = exec src (exec src w a) b := by simp [exec]

/-- A goroutine within a call can finish it. -/
theorem ends (src : Source σ α) {s : Nat → σ} {prog : Nat → List (Nat × Call)} {w : World σ α}
    {order : List (Nat × Nat × Call)} (h : Inv src s prog w order) (g : Nat) (hp : (w.gors g).pc ≠ .ready) :
    ∃ k c rest n, (w.gors g).todo = (k, c) :: rest ∧ w.owner k = some g ∧
      let w' := exec src w (List.replicate n g)
      w'.owner = put w.owner k none ∧ (w'.gors g).todo = rest ∧ (w'.gors g).pc = .ready ∧
      ∀ i, i ≠ g → w'.gors i = w.gors i := by
  have hg := h.fits g
  unfold Fits at hg
  obtain ⟨k, c, rest, ht, ho⟩ : ∃ k c rest, (w.gors g).todo = (k, c) :: rest ∧ w.owner k = some g := by
    cases e : (w.gors g).pc <;> simp only [e] at hg
    · exact absurd e hp
    · obtain ⟨_, _, k, c, rest, h3, h4⟩ := hg; exact ⟨k, c, rest, h3, (h4 k).2 rfl⟩
    · obtain ⟨_, _, k, c, rest, h3, h4, _⟩ := hg; exact ⟨k, c, rest, h3, (h4 k).2 rfl⟩
    · obtain ⟨_, k, c, rest, h3, _, h4⟩ := hg; exact ⟨k, c, rest, h3, (h4 k).2 rfl⟩
  have last : ∀ w' : World σ α, (w'.gors g).todo = (k, c) :: rest → ∀ v, (w'.gors g).pc = .drawn v →
      w'.owner = w.owner → (∀ i, i ≠ g → w'.gors i = w.gors i) →
      (step src w' g).owner = put w.owner k none ∧ ((step src w' g).gors g).todo = rest ∧
      ((step src w' g).gors g).pc = .ready ∧ ∀ i, i ≠ g → (step src w' g).gors i = w.gors i := by
    intro w' h1 v h2 h3 h4
    have e : step src w' g = { w' with
        owner := put w'.owner k none,
        gors := put w'.gors g { todo := rest, pc := .ready, got := (w'.gors g).got ++ [v] } } := by
      simp [step, h1, h2]
    rw [e]
    exact ⟨by rw [h3], by simp [put_same], by simp [put_same], fun i hi => by simp [put_other _ _ hi, h4 i hi]⟩
  have mid : ∀ w' : World σ α, (w'.gors g).todo = (k, c) :: rest → ∀ x, (w'.gors g).pc = .loaded x →
      w'.owner = w.owner → (∀ i, i ≠ g → w'.gors i = w.gors i) →
      ((step src w' g).gors g).todo = (k, c) :: rest ∧ (∃ v, ((step src w' g).gors g).pc = .drawn v) ∧
      (step src w' g).owner = w.owner ∧ ∀ i, i ≠ g → (step src w' g).gors i = w.gors i := by
    intro w' h1 x h2 h3 h4
    cases hd : src.draw c x with
    | none =>
      have e : step src w' g = { w' with gors := put w'.gors g { w'.gors g with pc := .drawn none } } := by
        simp [step, h1, h2, hd]
      rw [e]
      exact ⟨by simp [put_same, h1], ⟨none, by simp [put_same]⟩, h3, fun i hi => by
        simp [put_other _ _ hi, h4 i hi]⟩
    | some y =>
      have e : step src w' g = { w' with
          state := put w'.state k y.2, gors := put w'.gors g { w'.gors g with pc := .drawn (some y.1) } } := by
        simp [step, h1, h2, hd]
      rw [e]
      exact ⟨by simp [put_same, h1], ⟨some y.1, by simp [put_same]⟩, h3, fun i hi => by
        simp [put_other _ _ hi, h4 i hi]⟩
  refine ⟨k, c, rest, ?_⟩
  cases e : (w.gors g).pc with
  | ready => exact absurd e hp
  | drawn v => exact ⟨1, ht, ho, last w ht v e rfl fun _ _ => rfl⟩
  | loaded x =>
    obtain ⟨h1, ⟨v, h2⟩, h3, h4⟩ := mid w ht x e rfl fun _ _ => rfl
    exact ⟨2, ht, ho, last _ h1 v h2 h3 h4⟩
  | locked =>
    have e1 : step src w g = { w with gors := put w.gors g { w.gors g with pc := .loaded (w.state k) } } := by
      simp [step, ht, e]
    obtain ⟨h1, ⟨v, h2⟩, h3, h4⟩ := mid (step src w g) (by simp [e1, put_same, ht]) (w.state k)
      (by simp [e1, put_same]) (by rw [e1]) fun i hi => by simp [e1, put_other _ _ hi]
    exact ⟨3, ht, ho, last _ h1 v h2 h3 h4⟩

theorem inv_more {src : Source σ α} {s : Nat → σ} {prog : Nat → List (Nat × Call)} {w : World σ α}
    (h : ∃ order, Inv src s prog w order) (sched : List Nat) : ∃ order, Inv src s prog (exec src w sched) order :=
  h.elim fun order h => ⟨_, inv_exec src s prog sched w order h⟩

theorem all_end (src : Source σ α) {s : Nat → σ} {prog : Nat → List (Nat × Call)} (g : Nat) (n : Nat) :
    ∀ w : World σ α, (∃ order, Inv src s prog w order) → (w.gors g).pc = .ready → (w.gors g).todo.length = n →
    ∃ more, ((exec src w more).gors g).todo = [] ∧ ((exec src w more).gors g).pc = .ready := by
  induction n with
  | zero => intro w _ hp hn; exact ⟨[], List.eq_nil_of_length_eq_zero hn, hp⟩
  | succ n ih =>
    have free : ∀ (w : World σ α) (k : Nat) (c : Call) (rest : List (Nat × Call)), (∃ order, Inv src s prog w order) →
        (w.gors g).pc = .ready → (w.gors g).todo = (k, c) :: rest → rest.length = n → w.owner k = none →
        ∃ more, ((exec src w more).gors g).todo = [] ∧ ((exec src w more).gors g).pc = .ready := by
      intro w k c rest hi hp ht hn ho
      have e : step src w g = { w with
          owner := put w.owner k (some g), gors := put w.gors g { w.gors g with pc := .locked } } := by
        simp [step, ht, hp, ho]
      obtain ⟨order, hi'⟩ := inv_more hi [g]
      have hp' : ((exec src w [g]).gors g).pc = .locked := by simp [exec, e, put_same]
      have ht' : ((exec src w [g]).gors g).todo = (k, c) :: rest := by simp [exec, e, put_same, ht]
      obtain ⟨k', c', rest', m, h1, _, _, h2, h3, _⟩ := ends src hi' g (by rw [hp']; simp)
      obtain ⟨⟨rfl, rfl⟩, rfl⟩ : (k = k' ∧ c = c') ∧ rest = rest' := by simpa [ht'] using h1
      obtain ⟨more, h4⟩ := ih (exec src (exec src w [g]) (List.replicate m g))
        (inv_more ⟨order, hi'⟩ _) h3 (by rw [h2, hn])
      exact ⟨[g] ++ (List.replicate m g ++ more), by rw [exec_append, exec_append]; exact h4⟩
    intro w hi hp hn
    cases ht : (w.gors g).todo with
    | nil => simp [ht] at hn
    | cons x rest =>
      obtain ⟨k, c⟩ := x
      have hr : rest.length = n := by simpa [ht] using hn
      cases ho : w.owner k with
      | none => exact free w k c rest hi hp ht hr ho
      | some o =>
        obtain ⟨order, hi'⟩ := hi
        have hne : (w.gors o).pc ≠ .ready := fun hh => by
          have := hi'.fits o
          simp only [Fits, hh] at this
          exact this.2.2 k ho
        have hog : g ≠ o := fun hh => hne (hh ▸ hp)
        obtain ⟨k', c', rest', m, h1, h2, h3, _, _, h4⟩ := ends src hi' o hne
        have hk : k = k' := by
          have := hi'.fits o
          unfold Fits at this
          cases e : (w.gors o).pc <;> simp only [e] at this
          · exact absurd e hne
          · obtain ⟨_, _, a, _, _, _, h5⟩ := this; rw [(h5 k).1 ho, (h5 k').1 h2]
          · obtain ⟨_, _, a, _, _, _, h5, _⟩ := this; rw [(h5 k).1 ho, (h5 k').1 h2]
          · obtain ⟨_, a, _, _, _, _, h5⟩ := this; rw [(h5 k).1 ho, (h5 k').1 h2]
        obtain ⟨more, h6⟩ := free (exec src w (List.replicate m o)) k c rest (inv_more ⟨order, hi'⟩ _)
          (by rw [h4 g hog, hp]) (by rw [h4 g hog, ht]) hr (by rw [h3, hk, put_same])
        exact ⟨List.replicate m o ++ more, by rw [exec_append]; exact h6⟩

/-! ## Theorems -/

/-- Whatever the sources compute, whatever calls the goroutines make and however they are interleaved: at each moment some
order of the calls, one after the other, explains what the goroutines have seen. As the program goes on, calls are only
added at the end of this order. -/
theorem one_after_the_other (src : Source σ α) (s : Nat → σ) (prog : Nat → List (Nat × Call)) :
    ∃ order : List Nat → List (Nat × Nat × Call),
      (∀ sched, Explains src s prog (exec src (start s prog) sched) (order sched)) ∧
      ∀ sched more, order sched <+: order (sched ++ more) :=
  ⟨drawOrder src (start s prog), fun sched => inv_explains (inv_reach src s prog sched), fun a b =>
    ⟨_, (drawOrder_append src a b _).symm⟩⟩

/-- No draw is handed out twice, neither to the same goroutine nor to two of them: if sources hand out tickets, all the
tickets are different. -/
theorem no_draw_twice (prog : Nat → List (Nat × Call)) (sched : List Nat) :
    let w := exec tickets (start (fun k => (k, 0)) prog) sched
    (∀ g, ((w.gors g).got.filterMap id).Nodup) ∧
      ∀ g h t, g ≠ h → some t ∈ (w.gors g).got → some t ∉ (w.gors h).got := by
  intro w
  obtain ⟨order, he, -⟩ := one_after_the_other tickets (fun k => (k, 0)) prog
  have hv := (he sched).values
  have hp := tickets_pairwise (order sched) (fun k => (k, 0)) fun _ => rfl
  refine ⟨fun g => ?_, fun g h t hne hg hh => ?_⟩
  · refine List.Nodup.sublist ((hv g).sublist.filterMap id) ?_
    unfold valuesOf
    rw [List.Nodup, List.pairwise_filterMap, List.pairwise_map]
    refine (hp.filter _).imp fun hab t ht u hu htu => ?_
    subst htu
    exact hab t ht hu
  · obtain ⟨x, hx, hxt⟩ := List.mem_map.1 ((hv g).subset hg)
    obtain ⟨y, hy, hyt⟩ := List.mem_map.1 ((hv h).subset hh)
    simp only [List.mem_filter, decide_eq_true_eq] at hx hy
    have hxy : x ≠ y := fun e => hne (by rw [← hx.2, ← hy.2, e])
    have : Std.Symm fun x y : Nat × Option (Nat × Nat) => ∀ t, x.2 = some t → y.2 ≠ some t :=
      ⟨fun _ _ hab t hb ha => hab t ha hb⟩
    exact hp.forall hx.1 hy.1 hxy t hxt hyt

/-- Whatever has happened so far, every goroutine can finish: the program can go on such that it has made all its
calls. -/
theorem can_finish (src : Source σ α) (s : Nat → σ) (prog : Nat → List (Nat × Call)) (sched : List Nat) (g : Nat) :
    ∃ more, let w := exec src (start s prog) (sched ++ more)
      (w.gors g).todo = [] ∧ (w.gors g).got.length = (prog g).length := by
  have hi : ∃ order, Inv src s prog (exec src (start s prog) sched) order := ⟨_, inv_reach src s prog sched⟩
  have goal : ∃ more, let w := exec src (start s prog) (sched ++ more)
      (w.gors g).todo = [] ∧ (w.gors g).pc = .ready := by
    by_cases hp : ((exec src (start s prog) sched).gors g).pc = .ready
    · obtain ⟨more, h⟩ := all_end src g _ _ hi hp rfl
      exact ⟨more, by rw [exec_append]; exact h⟩
    · obtain ⟨order, hi'⟩ := hi
      obtain ⟨k, c, rest, n, _, _, _, h2, h3, _⟩ := ends src hi' g hp
      obtain ⟨more, h⟩ := all_end src g _ _ (inv_more ⟨order, hi'⟩ (List.replicate n g)) h3 rfl
      exact ⟨List.replicate n g ++ more, by rw [exec_append, exec_append]; exact h⟩
  obtain ⟨more, h1, h2⟩ := goal
  refine ⟨more, h1, ?_⟩
  have he := (inv_explains (inv_reach src s prog (sched ++ more))).between g h2
  have hl : ∀ (order : List (Nat × Nat × Call)) (s : Nat → σ),
      (valuesOf g (returned src s order)).length = (callsOf g order).length := by
    intro order
    induction order with
    | nil => intro s; rfl
    | cons x order ih =>
      obtain ⟨i, k, c⟩ := x
      intro s
      simp only [valuesOf, callsOf, List.length_map] at ih
      by_cases hi : i = g <;> simp only [returned, valuesOf, callsOf] <;> split <;>
        simp [hi, ih]
  rw [he.1, hl, ← he.2, h1, List.append_nil]

/-! ## Examples -/

/-- Two goroutines with two draws each, the second one with an `Intn(0)` in between. -/
def twoGors : Nat → List (Nat × Call)
  | 0 => [(0, .float), (1, .float)]
  | 1 => [(0, .intn 62), (0, .intn 0), (0, .expFloat)]
  | _ => []

example :
    let w := exec tickets (start (fun k => (k, 0)) twoGors)
      [0, 1, 0, 1, 0, 1, 0, 1, 1, 0, 0, 1, 1, 0, 1, 1, 1, 1, 0, 1, 1, 1, 1, 1, 0, 1]
    (w.gors 0).got = [some (0, 0), some (1, 0)] ∧ (w.gors 1).got = [some (0, 1), none, some (0, 2)] := by decide

/-- While the first goroutine holds the mutex, the second one waits. -/
example :
    let w := exec tickets (start (fun k => (k, 0)) twoGors) [0, 1, 1, 1, 1, 1]
    (w.gors 1).pc = .ready ∧ (w.gors 1).got = [] := by decide

example : returned tickets (fun k => (k, 0)) [(0, 0, .float), (1, 0, .intn 62), (1, 0, .intn 0), (0, 1, .float)] =
    [(0, some (0, 0)), (1, some (0, 1)), (1, none), (0, some (1, 0))] := by decide

end C106
end GpsGen
