import Verif.Lemmas.SensorReal
import Verif.Lemmas.RoundTrip
import Verif.Lemmas.Toy
/-!
# C28 Sensor and elevation values stay within their bounds

Exact arithmetic. A sensor is created by `NewSensor` or `RestoreSensor`, then stepped, shuffled and
saved and restored in any order; the elevation of a navigator is such a sensor. `C28` is completed at
the level of whole devices in `Verif.Theorems.C28Device`.
-/

namespace GpsGen
namespace C28

/-! ## Specification -/

/-- What a client does with a sensor; `reload` is a snapshot followed by a restore. -/
inductive Op where
  | next (t : ℝ)
  | shuffle (draws : ℕ → ℝ)
  | reload

noncomputable def step (s : Sensor ℝ) : Op → Go (Sensor ℝ)
  | .next t => s.next t
  | .shuffle draws => .ok (s.shuffle draws)
  | .reload => Sensor.fromSnapshot (some s.snapshot)

noncomputable def run (s : Sensor ℝ) : List Op → Go (Sensor ℝ)
  | [] => .ok s
  | op :: ops => step s op >>= fun s' => run s' ops

/-- Random numbers lie in the unit interval. Parameters of earlier steps are arbitrary. -/
def Legal : Op → Prop
  | .shuffle draws => UnitDraws draws
  | _ => True

/-- The bits 14 and 13 of the mode. -/
def startAtMin (mode : UInt16) : Prop := mode.toNat.testBit 14 = true
def endAtMin (mode : UInt16) : Prop := mode.toNat.testBit 13 = true

/-- `s` was created with these parameters and driven by a legal history. -/
def From (mn mx : ℝ) (amp : Int) (mode : UInt16) (s : Sensor ℝ) : Prop :=
  ∃ s0 draws ops, UnitDraws draws ∧ (∀ op ∈ ops, Legal op) ∧
    ((∃ uid name, Sensor.new uid draws name mn mx amp mode = .ok s0) ∨
      (∃ uid name, Sensor.restore uid draws name mn mx amp mode = .ok s0)) ∧
    run s0 ops = .ok s

/-! ## Proof -/

/-- The invariant. -/
def Inv (mn mx : ℝ) (amp : Int) (mode : UInt16) (s : Sensor ℝ) : Prop :=
  GoodCurve s.gen (amp.toNat - 1) ∧ s.min = mn ∧ s.max = mx ∧ s.gen.min = mn ∧ s.gen.max = mx ∧
    s.gen.mode = normSensorMode mode

theorem step_inv {mn mx : ℝ} {amp : Int} {mode : UInt16} {s s' : Sensor ℝ} {op : Op} (hl : Legal op)
    (h : Inv mn mx amp mode s) (hs : step s op = .ok s') : Inv mn mx amp mode s' := by
  obtain ⟨hg, h1, h2, h3, h4, h5⟩ := h
  cases op with
  | next t =>
    obtain ⟨g, p, hp, rfl⟩ := sensor_next_eq hs
    obtain ⟨a, b, c, d, -⟩ := good_point hg hp
    exact ⟨a, h1, h2, b.trans h3, c.trans h4, d.trans h5⟩
  | shuffle draws =>
    cases hs
    exact ⟨good_shuffle hg hl, h1, h2, h3, h4, h5⟩
  | reload =>
    simp only [step, sensor_round_trip] at hs
    cases hs
    exact ⟨hg, h1, h2, h3, h4, h5⟩

theorem from_inv {mn mx : ℝ} {amp : Int} {mode : UInt16} {s : Sensor ℝ} (h : From mn mx amp mode s) :
    4 ≤ amp ∧ Inv mn mx amp mode s := by
  obtain ⟨s0, draws, ops, hd, hl, h0, hr⟩ := h
  have hi : 4 ≤ amp ∧ Inv mn mx amp mode s0 := by
    have mk : ∀ uid name, 4 ≤ amp → Inv mn mx amp mode
        ⟨uid, name, mn, mx, lit 0, lit 0, Curve.new mn mx amp (normSensorMode mode) draws⟩ :=
      fun uid name ha => ⟨good_new _ _ _ _ _ (by omega) hd, rfl, rfl, rfl, rfl, rfl⟩
    rcases h0 with ⟨uid, name, h0⟩ | ⟨uid, name, h0⟩
    · obtain ⟨ha, -, rfl⟩ := sensor_new_eq h0
      exact ⟨ha, mk _ _ ha⟩
    · obtain ⟨_, -, ha, -, rfl⟩ := sensor_restore_eq h0
      exact ⟨ha, mk _ _ ha⟩
  refine ⟨hi.1, ?_⟩
  replace hi := hi.2
  clear h0
  induction ops generalizing s0 with
  | nil => cases hr; exact hi
  | cons op ops ih =>
    obtain ⟨s1, h1, hr⟩ := bind_eq_ok hr
    exact ih s1 (fun o ho => hl o (List.mem_cons_of_mem _ ho)) hr
      (step_inv (hl op List.mem_cons_self) hi h1)

theorem norm_bit {mode : UInt16} {k : ℕ} (h : mode.toNat.testBit k = true) :
    hasBit (normSensorMode mode) k = true := by
  have hpos : mode > 0 := by
    rw [gt_iff_lt, UInt16.lt_iff_toNat_lt]
    rcases Nat.eq_zero_or_pos mode.toNat with h0 | h0
    · rw [h0] at h; simp at h
    · exact h0
  rw [Nat.testBit_eq_decide_div_mod_eq] at h
  simp only [decide_eq_true_eq] at h
  unfold hasBit normSensorMode
  rw [if_pos hpos, beq_iff_eq]
  exact_mod_cast h

/-- A step with a parameter in the unit interval succeeds; the value lies between the bounds, the
X value is `(amplitude - 1) * t`, and the mode fixes the values at both ends. -/
theorem sensor_value (mn mx : ℝ) (amp : Int) (mode : UInt16) (s : Sensor ℝ)
    (h : From mn mx amp mode s) (t : ℝ) (h0 : 0 ≤ t) (h1 : t ≤ 1) :
    ∃ s', s.next t = .ok s' ∧ min mn mx ≤ s'.valY ∧ s'.valY ≤ max mn mx ∧
      s'.valX = (amp - 1) * t ∧ (startAtMin mode → t = 0 → s'.valY = mn) ∧
      (endAtMin mode → t = 1 → s'.valY = mn) := by
  obtain ⟨ha, hg, -, -, e1, e2, e3⟩ := from_inv h
  obtain ⟨c', p, hp⟩ := good_point_ok hg t
  refine ⟨{ s with gen := c', valX := p.x, valY := p.y }, ?_, ?_⟩
  · unfold Sensor.next
    rw [hp]
    rfl
  · obtain ⟨-, -, -, -, hx, hy, hs, he⟩ := good_point hg hp
    rw [e1, e2] at hy
    rw [e1, e3] at hs he
    refine ⟨(hy h0 h1).1, (hy h0 h1).2, ?_, fun hm => hs (norm_bit hm), fun hm => he (norm_bit hm)⟩
    show p.x = (amp - 1) * t
    rw [hx]
    congr 1
    have : ((amp.toNat - 1 : ℕ) : ℤ) = amp - 1 := by omega
    exact_mod_cast congrArg (Int.cast (R := ℝ)) this

/-- For ordered bounds. -/
theorem sensor_value_ordered (mn mx : ℝ) (hle : mn ≤ mx) (amp : Int) (mode : UInt16) (s : Sensor ℝ)
    (h : From mn mx amp mode s) (t : ℝ) (h0 : 0 ≤ t) (h1 : t ≤ 1) :
    ∃ s', s.next t = .ok s' ∧ mn ≤ s'.valY ∧ s'.valY ≤ mx := by
  obtain ⟨s', hs, a, b, -⟩ := sensor_value mn mx amp mode s h t h0 h1
  rw [min_eq_left hle] at a
  rw [max_eq_right hle] at b
  exact ⟨s', hs, a, b⟩

/-- A sensor with equal bounds is constant. -/
theorem sensor_constant (v : ℝ) (amp : Int) (mode : UInt16) (s : Sensor ℝ)
    (h : From v v amp mode s) (t : ℝ) (h0 : 0 ≤ t) (h1 : t ≤ 1) :
    ∃ s', s.next t = .ok s' ∧ s'.valY = v := by
  obtain ⟨s', hs, a, b⟩ := sensor_value_ordered v v le_rfl amp mode s h t h0 h1
  exact ⟨s', hs, le_antisymm b a⟩

/-! Non-vacuity: a sensor in start and end mode, stepped, shuffled and reloaded, is covered; and the
same computation on rationals shows a value strictly between the bounds. -/

example : ∃ s s', From 2 8 4 (16384 + 8192) s ∧ s.next 1 = .ok s' ∧ s'.valY = 2 := by
  have hf : From 2 8 4 (16384 + 8192)
      (Sensor.shuffle ⟨"u", "fuel", 2, 8, lit 0, lit 0,
        Curve.new 2 8 4 (normSensorMode (16384 + 8192)) (fun _ => 1 / 2)⟩ (fun _ => 1)) := by
    refine ⟨_, fun _ => 1 / 2, [.shuffle (fun _ => 1), .reload], fun _ => by norm_num, ?_,
      Or.inl ⟨"u", "fuel", rfl⟩, ?_⟩
    · intro op ho
      rcases List.mem_cons.mp ho with rfl | ho
      · exact fun _ => by norm_num
      · rw [List.mem_singleton.mp ho]; trivial
    · simp only [run, step, ok_bind, sensor_round_trip]
  obtain ⟨s', hs, -, -, -, -, he⟩ := sensor_value _ _ _ _ _ hf 1 (by norm_num) le_rfl
  exact ⟨_, s', hf, hs, he (show (16384 + 8192 : UInt16).toNat.testBit 13 = true by decide) rfl⟩

def toySensor : Option (Sensor Toy) :=
  (Sensor.new "u" (fun i => Toy.of (i / 4)) "fuel" (Toy.of 2) (Toy.of 8) 4 16384).toOption

example : (toySensor.map (fun s => ((s.next (Toy.of 0)).map (·.valY.val), (s.next (Toy.of (1/2))).map
    (fun s => (s.valX.val, decide (2 < s.valY.val ∧ s.valY.val < 8)))))) =
    some (.ok 2, .ok (3 / 2, true)) := by decide +kernel

end C28
end GpsGen
