import Verif.Lemmas.RoundTrip
import Verif.Lemmas.DeviceNext
import Verif.Lemmas.Toy
/-!
# C29: evaluating a curve does not change it

Any number type, any curve, any sequence of evaluations. `Point` overwrites scratch storage (the `vp`
fields); the theorems say that no evaluation can observe it.
-/

namespace GpsGen
variable {F : Type}

namespace C29

/-- The control points of a curve, without the scratch storage. -/
def control (c : Curve F) : List (Pt F) := c.points.map (·.cp)

/-- The value of one evaluation. -/
def eval [GoFloat F] (c : Curve F) (t : F) : Go (Pt F) := (c.point t).map (·.2)

/-- Evaluate at several parameters, one after the other, on the same curve object. -/
def evals [GoFloat F] (c : Curve F) : List F → Go (Curve F × List (Pt F))
  | [] => .ok (c, [])
  | t :: ts => do
    let (c, p) ← c.point t
    let (c, ps) ← evals c ts
    return (c, p :: ps)

variable [GoFloat F]

theorem scaleFrom_control (t u : F) (ps : List (CP F)) :
    (scaleFrom t u ps).map (·.cp) = ps.map (·.cp) := by
  induction ps generalizing u with
  | nil => rfl
  | cons p ps ih => simp only [scaleFrom, List.map_cons, ih]

theorem scaleFrom_congr (t u : F) {ps qs : List (CP F)} (h : ps.map (·.cp) = qs.map (·.cp)) :
    scaleFrom t u ps = scaleFrom t u qs := by
  induction ps generalizing u qs with
  | nil => cases qs with
    | nil => rfl
    | cons q qs => cases h
  | cons p ps ih =>
    cases qs with
    | nil => cases h
    | cons q qs =>
      simp only [List.map_cons, List.cons.injEq] at h
      obtain ⟨h1, h2⟩ := h
      simp only [scaleFrom, h1, ih _ h2]

/-- The value depends only on the control points and the parameter. -/
theorem eval_depends_on_control (c c' : Curve F) (h : control c = control c') (t : F) :
    eval c t = eval c' t := by
  obtain ⟨ps, m, a, b⟩ := c
  obtain ⟨qs, m', a', b'⟩ := c'
  simp only [control] at h
  simp only [eval, Curve.point]
  cases ps with
  | nil => cases qs with
    | nil => rfl
    | cons q qs => cases h
  | cons p ps =>
    cases qs with
    | nil => cases h
    | cons q qs =>
      simp only [List.map_cons, List.cons.injEq] at h
      obtain ⟨h1, h2⟩ := h
      simp only [h1, scaleFrom_congr t t h2, List.reverse_cons]
      generalize (scaleFrom t t qs).reverse = l
      cases l <;> rfl

/-- An evaluation changes neither the control points nor the bounds and the mode. -/
theorem point_preserves (c c' : Curve F) (t : F) (p : Pt F) (h : c.point t = .ok (c', p)) :
    control c' = control c ∧ c'.min = c.min ∧ c'.max = c.max ∧ c'.mode = c.mode ∧
      eval c t = .ok p := by
  refine ⟨?_, ?_, ?_, ?_, by rw [eval, h]; rfl⟩
  all_goals
    unfold Curve.point at h
    split at h
    · cases h
    · rename_i p0 ps hp
      simp only at h
      split at h
      · cases h
      · cases h
        first
        | rfl
        | simp only [control, hp, List.map_cons, scaleFrom_control]

/-- **C29.** Evaluating a curve at any sequence of parameters gives, at each position, the value that
the original curve has at that parameter. -/
theorem evals_independent (c : Curve F) (ts : List F) :
    (evals c ts).map (·.2) = ts.mapM (eval c) := by
  have key : ∀ c' : Curve F, control c' = control c → (evals c' ts).map (·.2) = ts.mapM (eval c) := by
    induction ts with
    | nil => intro _ _; rfl
    | cons t ts ih =>
      intro c' h'
      rw [List.mapM_cons, evals]
      cases hp : c'.point t with
      | error e =>
        have : eval c t = .error e := by
          rw [← eval_depends_on_control c' c h' t, eval, hp]; rfl
        rw [this]; rfl
      | ok q =>
        obtain ⟨c1, p⟩ := q
        obtain ⟨h1, -, -, -, h2⟩ := point_preserves c' c1 t p hp
        rw [← eval_depends_on_control c' c h' t, h2]
        have := ih c1 (h1.trans h')
        simp only [ok_bind]
        rw [← this]
        cases evals c1 ts <;> rfl
  exact key c rfl

/-- After any sequence of evaluations the curve still has the same value everywhere. -/
theorem eval_after_evals (c c' : Curve F) (ts : List F) (ps : List (Pt F))
    (h : evals c ts = .ok (c', ps)) (t : F) : eval c' t = eval c t := by
  have key : control c' = control c := by
    induction ts generalizing c ps with
    | nil => cases h; rfl
    | cons s ts ih =>
      obtain ⟨⟨c1, p⟩, h1, h⟩ := bind_eq_ok h
      obtain ⟨⟨c2, ps'⟩, h2, h⟩ := bind_eq_ok h
      cases h
      rw [ih c1 ps' h2, (point_preserves c c1 s p h1).1]
  exact eval_depends_on_control _ _ key t

/-- The order of evaluations does not matter: reordering the parameters reorders the values. -/
theorem evals_order (c : Curve F) (ts : List F) (cs : Curve F) (ps : List (Pt F))
    (h : evals c ts = .ok (cs, ps)) (i : Nat) (t : F) (hi : ts[i]? = some t) :
    ∃ p, ps[i]? = some p ∧ eval c t = .ok p := by
  have hm : ts.mapM (eval c) = .ok ps := by
    rw [← evals_independent, h]; rfl
  clear h
  induction ts generalizing i ps with
  | nil => cases hi
  | cons s ts ih =>
    rw [List.mapM_cons] at hm
    obtain ⟨p, h1, hm⟩ := bind_eq_ok hm
    obtain ⟨ps', h2, hm⟩ := bind_eq_ok hm
    cases hm
    cases i with
    | zero => cases hi; exact ⟨p, rfl, h1⟩
    | succ i => exact ih ps' i hi h2

/-- Evaluations before and after taking a snapshot and restoring it agree, whatever was evaluated
before. -/
theorem eval_after_snapshot (c c' : Curve F) (ts : List F) (ps : List (Pt F))
    (h : evals c ts = .ok (c', ps)) :
    ∃ r, Curve.fromSnapshot (some c'.snapshot) = .ok r ∧ ∀ t, eval r t = eval c t :=
  ⟨c', curve_round_trip c', eval_after_evals c c' ts ps h⟩

/-- Non-vacuity: a curve whose scratch storage does change, evaluated in two orders. -/
def sample : Curve Toy := Curve.new (Toy.of 0) (Toy.of 10) 4 0 (fun i => Toy.of (i / 4))

example : (sample.point (Toy.of (1/2))).map (fun r => decide (r.1 = sample)) = .ok false := by
  decide +kernel

example : (evals sample [Toy.of (1/2), Toy.of 0, Toy.of 1]).map
    (fun r => r.2.map (fun p => (p.x.val, p.y.val))) =
    .ok [(3/2, 15/4), (0, 0), (3, 15/2)] := by decide +kernel

example : (evals sample [Toy.of 1, Toy.of (1/2)]).map
    (fun r => r.2.map (fun p => (p.x.val, p.y.val))) =
    .ok [(3, 15/2), (3/2, 15/4)] := by decide +kernel

end C29
end GpsGen
