import Verif.Theorems.C97
import Verif.Theorems.C12Double
import Verif.Theorems.C95Double
/-!
# C97 in IEEE doubles

Devices without offline mode, with the rounding of `float64` and any mathematical library: if the least speed is above
the rounding errors and not tiny against the longest segment, laps are completed for ever.
-/

namespace GpsGen
namespace C97

/-! ## The average time of a lap -/

section
variable {F : Type} [GoMath F]
open Device Navigator

/-- The average time was computed from the present length of the routes. Every change of the routes does that. -/
def Settled (d : Device F) : Prop :=
  d.avgT = d.navigator.distance /. ((d.speed.min +. d.speed.max) /. lit 2)

theorem speed_bounds {s s' : Speed F} {t : F} (h : s.next t = .ok s') : s'.min = s.min ∧ s'.max = s.max := by
  unfold Speed.next at h
  split at h
  · cases h; exact ⟨rfl, rfl⟩
  · obtain ⟨_, _, h⟩ := bind_eq_ok h
    cases h
    exact ⟨rfl, rfl⟩

theorem location_distance {n n' : Navigator F} {t s : F} {x : UInt32} {b : Bool}
    (h : n.nextLocation t s x = .ok (n', b)) : n'.distance = n.distance := by
  refine nextLocation_preserves (fun m => m.distance = n.distance)
    (fun m hm _ _ => hm) (fun m r hm _ _ => hm) (fun m r hm _ => ?_) (fun m k hm => hm) rfl h
  unfold leaveTrack
  split
  · exact hm
  · split <;> exact hm

theorem settled_next {d d' : Device F} (hs : Settled d) {tick : F} {rnd : NextRnd F} {b : Bool}
    (h : d.next tick rnd = .ok (d', b)) : Settled d' ∧ d'.avgT = d.avgT := by
  have hp : ∀ n1, d.powered (d.seconds tick) rnd.low = .ok n1 → n1.distance = d.navigator.distance := by
    intro n1 h1
    rcases powered_step h1 with rfl | h1
    · rfl
    · rcases toOffline_cases h1 with ⟨-, rfl⟩ | ⟨-, _, -, rfl⟩ <;> rfl
  have hf : ∀ n : Navigator F, n.isFinish.1.distance = n.distance := by
    intro n; unfold isFinish; split <;> rfl
  unfold Settled at hs ⊢
  cases next_outcome h with
  | idle _ => exact ⟨hs, rfl⟩
  | halted _ n1 n2 v h1 h2 h3 h4 =>
    obtain ⟨e1, e2⟩ := speed_bounds h2
    refine ⟨?_, rfl⟩
    show d.avgT = n2.isFinish.1.distance /. ((v.min +. v.max) /. lit 2)
    rw [hf, location_distance h3, hp n1 h1, e1, e2, hs]
  | lap _ n1 n2 v d' h1 h2 h3 h4 h5 =>
    obtain ⟨e1, e2⟩ := speed_bounds h2
    obtain ⟨st, -, rfl⟩ := updateState_eq h5
    refine ⟨?_, rfl⟩
    show d.avgT = n2.isFinish.1.distance /. ((v.min +. v.max) /. lit 2)
    rw [hf, location_distance h3, hp n1 h1, e1, e2, hs]
  | moved _ n1 n2 n3 v ss d2 d' h1 h2 h3 h4 h5 hd2 h6 =>
    obtain ⟨e1, e2⟩ := speed_bounds h2
    obtain ⟨st, -, rfl⟩ := updateState_eq h6
    have e3 : n3.distance = n2.distance := by
      unfold nextElevation at h4
      obtain ⟨_, _, h4⟩ := bind_eq_ok h4
      cases h4
      rfl
    have key : d.avgT = n3.distance /. ((v.min +. v.max) /. lit 2) := by
      rw [e3, location_distance h3, hp n1 h1, e1, e2, hs]
    subst hd2
    simp only [refreshed]
    split
    · exact ⟨rfl, key.symm⟩
    · exact ⟨key, rfl⟩

end

namespace Double
open F64 Device Navigator Trip C28.Double C27.Double C12.Double

attribute [local irreducible] Round64.rndQ Round64.pow2

theorem tick_ge (last t : Int) : ((lit 1 : F64) <=. tickOf last t) = true := by
  have hn := C95.Double.seconds_ne_nan (last - t)
  unfold tickOf
  simp only
  split
  · exact F64.le_refl (round_ne_nan _ _)
  · rename_i h
    refine le_of_not_lt ?_ (round_ne_nan _ _) h
    generalize (durSeconds (last - t) : F64) = x at *
    cases x with
    | nan => exact absurd rfl hn
    | inf s => nofun
    | fin s q h => cases s <;> nofun

theorem seconds_ge [MathLib] (d : Device F64) (last t : Int) : ((lit 1 : F64) <=. d.seconds (tickOf last t)) = true := by
  have h1 := tick_ge last t
  have h0 : ((lit 0 : F64) <=. lit (d.tick.toNat : ℚ)) = true := lit_nonneg (by positivity)
  have h2 := C95.Double.tick_nonneg last t
  refine F64.le_trans h1 ?_
  unfold seconds
  rcases nonneg_cases h0 with ⟨s, p, hp, e, k0⟩ | e
  · rw [e]
    rcases nonneg_cases h2 with ⟨s', q, hq, e', k1⟩ | e'
    · rw [e']
      exact fin_le_round _ (by linarith)
    · rw [e']
      rfl
  · rw [e]
    rcases nonneg_cases h2 with ⟨s', q, hq, e', k1⟩ | e' <;> rw [e'] <;> rfl

theorem at_least {v z : F64} {w ε : ℚ} (hv : Is v w) (hw : ε ≤ w) (h : (v <=. z) = true) : AtLeast ε z := by
  obtain ⟨s, r, rfl⟩ := hv
  cases z with
  | nan => rw [le_nan] at h; cases h
  | inf s =>
    cases s with
    | false => rfl
    | true => exact absurd (le_bot h) nofun
  | fin s q r' =>
    rw [fin_le, decide_eq_true_eq] at h
    exact hw.trans h

theorem product_ge {x v : F64} {w ε : ℚ} (hx : ((lit 1 : F64) <=. x) = true) (hv : Is v w) (hw : ε ≤ w) (h0 : 0 < w) :
    AtLeast ε (x *. v) := by
  obtain ⟨s, r, rfl⟩ := hv
  have h1 := mul_mono (hc := r) hx h0
  obtain ⟨r1, e1⟩ := lit_nat (q := 1) 1 (by norm_num) (by norm_num) (by norm_num)
  rw [e1, fin_mul, one_mul] at h1
  refine at_least (w := w) ⟨s, r, rfl⟩ hw (F64.le_trans ?_ h1)
  exact fin_le_round _ le_rfl

/-- **C97 in doubles (partial).** A device with offline mode disabled, created with speed options from `a` to `b` and then
operated; its least speed `a` exceeds the rounding error `tol b` by at least `ε`, and no segment is longer than
`2 ^ 51 * ε`. With any mathematical library, any ticker and any draws it completes laps for ever.

Missing for the full property: offline mode (see `forever_partial` for exact arithmetic), and steps that are lost against
the length of a segment (false, `C12.Double.claim_fails`). -/
theorem no_offline_partial [MathLib] (mn mx : F64) (a b ε M : ℚ) (ha : Is mn a) (hb : Is mx b) (p : Prop)
    (d : Device F64) (h : C27.Double.Driven mn mx p d) (hl : C54.Live d) (hr : d.navigator.routes ≠ [])
    (hk : d.navigator.skipOffline = true) (hset : Settled d) (hav : Positive d.avgT)
    (hε : (bounds a b).1 = (bounds a b).2 ∧ ε ≤ (bounds a b).1 ∨ ε ≤ (bounds a b).1 - tol (bounds a b).2)
    (hM : M * 2 ^ (-51 : ℤ) ≤ ε) (he : 2 ^ (-1074 : ℤ) ≤ ε) (hs : Segments (AtMost M) d.navigator)
    (hc : AtLeast 0 d.navigator.currentSegmentDistance) (start : Int) (t : ℕ → Int) (x : ℕ → NextRnd F64)
    (hu : ∀ k i, Unit ((x k).speed i)) : Forever d start t x := by
  obtain ⟨i1, i2, i3, -⟩ := driven_inv ha hb h
  have hpos : 0 < ε := lt_of_lt_of_le (by positivity) he
  have hsafe := C54.live_safe hl
  refine laps_skip (double_counts M ε hM he) tenth d start t x
    (fun _ e => Ok (bounds a b).1 (bounds a b).2 e.speed ∧ ((lit 0 : F64) <=. e.state.duration) = true ∧ Settled e ∧
      Positive e.avgT) ⟨i1, i3, hset, hav⟩ ⟨hr, hsafe.nav.index, Or.inl hk, hc, hs⟩ hsafe hk ?_ ?_
  · rintro k e e' m ⟨j1, j2, j3, j4⟩ hne hx
    obtain ⟨g1, g2, -⟩ := next_parts j1 i2 j2 (C95.Double.tick_nonneg _ _) (hu k) (fun _ => j4) hx
    obtain ⟨g3, g4⟩ := settled_next j3 hx
    exact ⟨g1, g2, g3, by rw [g4]; exact j4⟩
  · rintro k e v ⟨j1, j2, j3, j4⟩ hne hv
    obtain ⟨w, hw, w1, -, w3⟩ := ok_value j1 i2
      (phase_unit j2 (seconds_nonneg e (C95.Double.tick_nonneg _ _)) j4) hv
    have hwe : ε ≤ w := by
      rcases hε with ⟨e1, e2⟩ | e1
      · rw [w3 e1]; exact e2
      · linarith
    exact product_ge (seconds_ge e _ _) hw hwe (by linarith)

end Double
end C97
end GpsGen
