import Verif.Theorems.C33
import Verif.Lemmas.F64Order
/-!
# C33 in IEEE doubles

Doubles compare small natural numbers correctly, so the preset constructors do not fail with them either.
-/

namespace GpsGen
namespace C33
namespace Double
open F64

attribute [local irreducible] Round64.rndQ Round64.pow2

theorem smallNumbers_double : SmallNumbers F64 := by
  have key : ∀ m : ℕ, m ≤ 50000 → ∃ r, (lit (m : ℚ) : F64) = .fin false m r := by
    intro m hm
    refine lit_nat (m : ℤ) (by norm_cast) ?_ (by omega)
    rw [abs_of_nonneg (by omega)]
    omega
  refine ⟨?_, ?_, ?_⟩ <;> intro m n hm hn <;> obtain ⟨r, e⟩ := key m hm <;> obtain ⟨r', e'⟩ := key n hn <;> rw [e, e']
  · rw [fin_lt]; exact decide_eq_decide.mpr (by exact_mod_cast Iff.rfl)
  · rw [fin_le]; exact decide_eq_decide.mpr (by exact_mod_cast Iff.rfl)
  · rw [fin_eq]; exact decide_eq_decide.mpr (by exact_mod_cast Iff.rfl)

/-- **C33 in doubles.** No preset constructor returns nil, whatever the random choices. -/
theorem presets_created (p : Preset) (rnd : DeviceRnd F64) : (p.create rnd).isSome = true :=
  C33.presets_created smallNumbers_double p rnd

/-- The drone of doubles has the speeds of the preset. -/
example : (Preset.drone.create (F := F64) ⟨"id", "1", "#000000", some, "s", fun _ => lit (1 / 2), fun _ => lit (1 / 2)⟩).map
    (fun d => (d.speed.min ==. lit 5, d.speed.max ==. lit 150, d.speed.min ==. lit 6)) = some (true, true, false) := by
  decide +kernel

end Double
end C33
end GpsGen
