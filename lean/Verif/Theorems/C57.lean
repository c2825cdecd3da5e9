import Verif.Model.DeviceRead
import Verif.Model.NumReal
import Verif.Lemmas.Toy
import Verif.Lemmas.Basic
/-!
# C57: methods that take only the read lock do not change the device

Any number type. All but one of the 34 methods have the property (`read_only_partial`), so that reads by any
number of readers in any order give the same values (`reads_agree_partial`). The exception is `IsFinish`, which clears
the mark of a completed lap (`isFinish_writes`, `read_only_fails`). As the read lock admits several readers at once, all
of them may see the same mark (`finish_seen_by_all`), while one after the other only the first does
(`finish_seen_once`).
-/

namespace GpsGen
variable {F : Type}

namespace C57
open Device

/-- **C57.** A method with the read lock other than `IsFinish` leaves the device as it is. Missing for the full
property: `IsFinish`, see `read_only_fails`. -/
theorem read_only_partial [GoFloat F] (d d' : Device F) (g : Getter) (v : Reading F) (hg : g ≠ .isFinish)
    (h : d.read g = .ok (d', v)) : d' = d := by
  have hbind : ∀ {α : Type} (x : Go α) (f : α → Reading F),
      (do return (d, f (← x)) : Go (Device F × Reading F)) = .ok (d', v) → d' = d := by
    intro α x f h
    cases x with
    | error e => cases h
    | ok a => cases h; rfl
  cases g
  case isFinish => exact absurd rfl hg
  case currentBearing => exact hbind _ _ h
  case routeDistance => exact hbind _ _ h
  case trackDistance => exact hbind _ _ h
  case segmentDistance => exact hbind _ _ h
  case currentRoute => exact hbind _ _ h
  case currentTrack => exact hbind _ _ h
  case currentSegment => exact hbind _ _ h
  all_goals cases h; rfl

/-- **C57, several readers.** Reads without `IsFinish` leave the device as it is, and each gives the value it gives
alone; so neither their order nor other readers matter. -/
theorem reads_agree_partial [GoFloat F] (d d' : Device F) (gs : List Getter) (vs : List (Reading F))
    (hg : .isFinish ∉ gs) (h : d.reads gs = .ok (d', vs)) :
    d' = d ∧ vs.length = gs.length ∧
    ∀ (i : Nat) (g : Getter) (v : Reading F), gs[i]? = some g → vs[i]? = some v → d.read g = .ok (d, v) := by
  induction gs generalizing d' vs with
  | nil =>
    cases h
    exact ⟨rfl, rfl, fun i g v hi _ => by (simp at hi)⟩
  | cons g gs ih =>
    simp only [reads] at h
    cases h1 : d.read g with
    | error e => rw [h1] at h; cases h
    | ok p =>
      obtain ⟨d1, v1⟩ := p
      have := read_only_partial d d1 g v1 (fun hc => hg (by simp [hc])) h1
      subst this
      rw [h1, ok_bind] at h
      simp only at h
      cases h2 : d1.reads gs with
      | error e => rw [h2] at h; cases h
      | ok p =>
        obtain ⟨d2, vs2⟩ := p
        rw [h2, ok_bind] at h
        cases h
        obtain ⟨h3, h4, h5⟩ := ih _ _ (fun hc => hg (by simp [hc])) h2
        subst h3
        refine ⟨rfl, by simp [h4], ?_⟩
        intro i g' v' hi hv
        cases i with
        | zero =>
          simp only [List.getElem?_cons_zero, Option.some.injEq] at hi hv
          subst hi; subst hv; exact h1
        | succ i => exact h5 i g' v' hi hv

/-- **C57, `IsFinish`.** Over the reals it changes the device exactly when it returns true; it then sets the
distance covered from 0.1 to 0. -/
theorem isFinish_writes (d d' : Device ℝ) (b : Bool) (h : d.read .isFinish = .ok (d', .bool b)) :
    (d' ≠ d ↔ b = true) ∧
    (b = true → d.navigator.currentDistance = 1 / 10 ∧ d'.navigator.currentDistance = 0 ∧
      d' = { d with navigator := { d.navigator with currentDistance := 0 } }) := by
  simp only [Device.read, Except.ok.injEq, Prod.mk.injEq, Reading.bool.injEq] at h
  obtain ⟨rfl, rfl⟩ := h
  unfold Navigator.isFinish
  split
  · rename_i hc
    simp only [Bool.and_eq_true, beq_iff_eq, real_eq, decide_eq_true_eq, real_lit] at hc
    have hd : d.navigator.currentDistance = 1 / 10 := by simpa using hc.2
    have h0 : (lit 0 : ℝ) = 0 := by simp
    refine ⟨⟨fun _ => rfl, fun _ heq => ?_⟩, fun _ => ⟨hd, h0, by rw [h0]⟩⟩
    have := congrArg (fun d : Device ℝ => d.navigator.currentDistance) heq
    simp only [h0] at this
    rw [hd] at this
    norm_num at this
  · exact ⟨⟨fun hne => absurd rfl hne, fun hb => by (cases hb)⟩, fun hb => by (cases hb)⟩

/-! ## `IsFinish` by several readers at once -/

theorem isFinish_true [GoFloat F] {n : Navigator F} (h : n.isFinish.2 = true) :
    n.isFinish.1 = { n with currentDistance := lit 0 } := by
  unfold Navigator.isFinish at h ⊢
  split at h
  · rename_i hc; rw [if_pos hc]
  · cases h

theorem check_all [GoFloat F] (n : Navigator F) (h : n.isFinish.2 = true) (pre : List FinishPc) (k : Nat) :
    FinishState.run ⟨n, pre ++ List.replicate k .start⟩ (List.range' pre.length k) =
      ⟨n, pre ++ List.replicate k .checked⟩ := by
  induction k generalizing pre with
  | zero => rfl
  | succ k ih =>
    unfold FinishState.run at ih ⊢
    rw [List.range'_succ, List.foldl_cons]
    have hs : FinishState.step ⟨n, pre ++ List.replicate (k + 1) .start⟩ pre.length =
        ⟨n, (pre ++ [.checked]) ++ List.replicate k .start⟩ := by
      unfold FinishState.step
      simp [h, List.replicate_succ]
    rw [hs]
    have := ih (pre ++ [.checked])
    rw [List.length_append] at this
    simpa [List.replicate_succ] using this

theorem clear_all [GoFloat F] (n : Navigator F) (pre : List FinishPc) (k : Nat) :
    (FinishState.run ⟨n, pre ++ List.replicate k .checked⟩ (List.range' pre.length k)).pcs =
      pre ++ List.replicate k (.done true) := by
  induction k generalizing pre n with
  | zero => rfl
  | succ k ih =>
    unfold FinishState.run at ih ⊢
    rw [List.range'_succ, List.foldl_cons]
    have hs : FinishState.step ⟨n, pre ++ List.replicate (k + 1) .checked⟩ pre.length =
        ⟨{ n with currentDistance := lit 0 }, (pre ++ [.done true]) ++ List.replicate k .checked⟩ := by
      unfold FinishState.step
      simp [List.replicate_succ]
    rw [hs]
    have := ih { n with currentDistance := lit 0 } (pre ++ [.done true])
    rw [List.length_append] at this
    simpa [List.replicate_succ] using this

/-- **C57, a mark seen twice.** Any number of readers may all be told about the same completed lap. -/
theorem finish_seen_by_all [GoFloat F] (n : Navigator F) (h : n.isFinish.2 = true) (k : Nat) :
    ∃ sched, (FinishState.run ⟨n, List.replicate k .start⟩ sched).pcs = List.replicate k (.done true) := by
  refine ⟨List.range' 0 k ++ List.range' 0 k, ?_⟩
  have h1 := check_all n h [] k
  have h2 := clear_all n [] k
  simp only [List.nil_append, List.length_nil] at h1 h2
  unfold FinishState.run at h1 h2 ⊢
  rw [List.foldl_append, h1]
  exact h2

theorem later_false [GoFloat F] (n : Navigator F) (h : n.isFinish.2 = false) (pre : List FinishPc) (k : Nat) :
    (FinishState.run ⟨n, pre ++ List.replicate k .start⟩ ((List.range' pre.length k).flatMap fun i => [i, i])).pcs =
      pre ++ List.replicate k (.done false) := by
  induction k generalizing pre with
  | zero => rfl
  | succ k ih =>
    unfold FinishState.run at ih ⊢
    rw [List.range'_succ, List.flatMap_cons, List.foldl_append]
    have hs : List.foldl FinishState.step ⟨n, pre ++ List.replicate (k + 1) .start⟩ [pre.length, pre.length] =
        ⟨n, (pre ++ [.done false]) ++ List.replicate k .start⟩ := by
      simp [FinishState.step, h, List.replicate_succ]
    rw [hs]
    have := ih (pre ++ [.done false])
    rw [List.length_append] at this
    simpa [List.replicate_succ] using this

/-- **C57, one after the other.** Only the first reader is told. -/
theorem finish_seen_once [GoFloat F] (n : Navigator F) (h : n.isFinish.2 = true)
    (hz : ((lit 0 : F) ==. lit (1/10)) = false) (k : Nat) :
    (FinishState.run ⟨n, List.replicate (k + 1) .start⟩ ((List.range (k + 1)).flatMap fun i => [i, i])).pcs =
      .done true :: List.replicate k (.done false) := by
  have hcleared : ({ n with currentDistance := lit 0 } : Navigator F).isFinish.2 = false := by
    unfold Navigator.isFinish
    split
    · rename_i hc
      simp only [Bool.and_eq_true] at hc
      rw [hz] at hc
      exact absurd hc.2 (by simp)
    · rfl
  have := later_false { n with currentDistance := lit 0 } hcleared [.done true] k
  unfold FinishState.run at this ⊢
  rw [List.range_eq_range', List.range'_succ, List.flatMap_cons, List.foldl_append]
  have hs : List.foldl FinishState.step ⟨n, List.replicate (k + 1) .start⟩ [0, 0] =
      ⟨{ n with currentDistance := lit 0 }, [.done true] ++ List.replicate k .start⟩ := by
    simp [FinishState.step, h, List.replicate_succ]
  rw [hs]
  exact this

/-! ## The full claim is false -/

/-- A device that drives at constant speed 1. -/
def slow (ops : List (DevOp Toy)) : Option (Device Toy) :=
  match Device.new Toy.rnd (some { Toy.opts with speedMin := Toy.of 1, speedMax := Toy.of 1 }) with
  | .error _ => none
  | .ok d => match d.run ops with
    | .ok d => some d
    | .error _ => none

/-- The values of a sequence of reads. -/
def values (d : Option (Device Toy)) (gs : List Getter) : List (Reading Toy) :=
  match d with
  | none => []
  | some d => match d.reads gs with
    | .ok (_, vs) => vs
    | .error _ => []

/-- A device that can be reached through the API. -/
def slowOps : List (DevOp Toy) := [.addRoute [some Toy.route], .next (Toy.of (1/10)) Toy.nextRnd]

/-- After a first step of a tenth of a metre `IsFinish` changes what `CurrentDistance` and `IsFinish` itself return. -/
theorem finish_changes_readings :
    values (slow slowOps) [.currentDistance, .isFinish, .currentDistance, .isFinish] =
      [.num (Toy.of (1/10)), .bool true, .num (Toy.of 0), .bool false] := by
  decide +kernel

/-- The full claim fails: a method with the read lock changes a device reached through the API. -/
theorem read_only_fails : ∃ d d' v, slow slowOps = some d ∧ d.read .isFinish = .ok (d', v) ∧ d' ≠ d := by
  have h := finish_changes_readings
  cases hs : slow slowOps with
  | none => rw [hs] at h; simp [values] at h
  | some d =>
    refine ⟨d, _, _, rfl, rfl, fun heq => ?_⟩
    rw [hs] at h
    have h2 : d.read .isFinish = .ok (d, .bool d.navigator.isFinish.2) := by
      simp only [Device.read]; rw [heq]
    have h1 : d.read .currentDistance = .ok (d, .num d.navigator.currentDistance) := rfl
    simp only [values, Device.reads, h1, h2, ok_bind] at h
    simp only [pure_eq_ok, ok_bind, List.cons.injEq, Reading.num.injEq] at h
    exact absurd (h.1.symm.trans h.2.2.1) (by decide +kernel)

/-- Concrete case of `reads_agree_partial`: a device on its route. -/
example : values (slow slowOps)
    [.numRoutes, .routeIndex, .currentDistance, .isOffline, .currentDistance] =
    [.int 1, .int 0, .num (Toy.of (1/10)), .bool false, .num (Toy.of (1/10))] := by
  decide +kernel

/-- Concrete case of `finish_seen_by_all`: two readers, interleaved and one after the other. -/
example : (match slow slowOps with
    | none => ([], [])
    | some d => ((FinishState.run ⟨d.navigator, [.start, .start]⟩ [0, 1, 0, 1]).pcs,
        (FinishState.run ⟨d.navigator, [.start, .start]⟩ [0, 0, 1, 1]).pcs)) =
    ([.done true, .done true], [.done true, .done false]) := by
  decide +kernel

end C57
end GpsGen
