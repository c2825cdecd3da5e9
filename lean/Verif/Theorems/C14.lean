import Verif.Lemmas.Frame
import Verif.Lemmas.New
import Verif.Lemmas.GeoReal
/-!
# C14: a navigator created with `SkipOfflineMode` never goes offline
-/

namespace GpsGen
variable {F : Type}

namespace C14
open Navigator

theorem skip_apply (opts : List (NavOption F)) (o : NavOptions F)
    (h : o.skipOffline = true ∨ NavOption.skipOffline ∈ opts) :
    (opts.foldl NavOptions.apply o).skipOffline = true := by
  induction opts generalizing o with
  | nil => simpa using h
  | cons a opts ih =>
    rw [List.foldl_cons]
    apply ih
    rcases h with h | h
    · left; cases a <;> simp [NavOptions.apply, h]
    · rcases List.mem_cons.mp h with h | h
      · left; subst h; rfl
      · exact Or.inr h

theorem new_skip [GoFloat F] (uid : String) (draws : Nat → F) (opts : List (NavOption F))
    (n : Navigator F) (hn : Navigator.new uid draws opts = .ok n) :
    n.skipOffline = (opts.foldl NavOptions.apply NavOptions.default).skipOffline ∧
    n.offlineIndex = 0 := by
  obtain ⟨o1, o2, s, h1, h2, -, rfl⟩ := new_cases hn
  exact ⟨(validateElevation_frame h2).1.trans (validateOffline_frame h1).1, rfl⟩

/-- **C14.** For every number type: a navigator created with `SkipOfflineMode` among its options is
not offline after any history of operations, and `OfflineDuration()` is 0. -/
theorem skip_never_offline [GoMath F] (uid : String) (draws : Nat → F) (opts : List (NavOption F))
    (hs : NavOption.skipOffline ∈ opts) (n : Navigator F)
    (hn : Navigator.new uid draws opts = .ok n) (ops : List (NavOp F)) (n' : Navigator F)
    (h : n.run ops = .ok n') : n'.isOffline = false ∧ n'.offlineIndex = 0 := by
  have h0 := new_skip uid draws opts n hn
  rw [skip_apply opts _ (Or.inr hs)] at h0
  have := run_induction (fun n : Navigator F => n.skipOffline = true ∧ n.offlineIndex = 0)
    (fun n n' op hP hst => by
      have hf := step_offline_frame hst
      refine ⟨hf.skip.trans hP.1, ?_⟩
      cases hf.change with
      | keep h => exact h.trans hP.2
      | zero h => exact h
      | dec h1 _ _ => rw [hP.1] at h1; cases h1
      | draw h1 _ _ _ _ => rw [hP.1] at h1; cases h1) n n' ops h0 h
  exact ⟨by simp [isOffline, this.2], this.2⟩

/-- Non-vacuity: such a navigator exists, accepts routes, and an explicit `ToOffline` is ignored. -/
example : ∃ n' : Navigator ℝ,
    Navigator.new "" (fun _ => (0 : ℝ)) [.skipOffline] = .ok (freshNav true) ∧
    (freshNav true).run [.addRoute [some (eqRoute "r" "t" "#000000" 0 1)], .toOffline 7,
      .moveToRoute 0] = .ok n' ∧ n'.isOffline = false ∧ n'.routes.length = 1 := by
  refine ⟨_, freshNav_new true, rfl, rfl, rfl⟩

end C14
end GpsGen
