import Verif.Lemmas.Frame
import Verif.Lemmas.GeoReal
/-!
# C13: offline periods freeze the device for exactly their duration
-/

namespace GpsGen
variable {F : Type}

namespace C13
open Navigator

/-- Call `NextLocation` once per entry of the list (tick, speed, random draw), collecting the
results. -/
def ticks [GoMath F] (n : Navigator F) : List (F × F × UInt32) → Go (Navigator F × List Bool)
  | [] => .ok (n, [])
  | (t, s, x) :: rest => do
    let (n, b) ← n.nextLocation t s x
    let (n, bs) ← ticks n rest
    return (n, b :: bs)

/-- **C13.** While `OfflineDuration() = k > 0` (and the navigator holds routes), any `j ≤ k` calls
of `NextLocation`, with any ticks, speeds and random draws, all return `false` and leave the whole
navigator unchanged except that `OfflineDuration()` decreases by one per call. -/
theorem offline_freezes [GoMath F] (n : Navigator F) (hr : n.routes ≠ [])
    (hs : n.skipOffline = false) (calls : List (F × F × UInt32))
    (hk : (calls.length : Int) ≤ n.offlineIndex) :
    ticks n calls =
      .ok ({ n with offlineIndex := n.offlineIndex - calls.length },
           List.replicate calls.length false) := by
  induction calls generalizing n with
  | nil => simp [ticks]
  | cons c rest ih =>
    obtain ⟨t, s, x⟩ := c
    simp only [List.length_cons, Int.natCast_add, Int.natCast_one] at hk
    have hoff : n.nextOffline.2 = true := by rw [nextOffline_eq, hs]; simp; omega
    simp only [ticks, nextLocation_offline n t s x hr hoff, ok_bind]
    rw [ih]
    · simp only [ok_bind, pure_eq_ok, List.length_cons, List.replicate_succ, Except.ok.injEq,
        Prod.mk.injEq, and_true]
      congr 1
      omega
    · exact hr
    · exact hs
    · simp only; omega

/-- **C13, end of the period.** After exactly `k` calls the navigator is online, at the unchanged
position, and not before. -/
theorem offline_exact [GoMath F] (n : Navigator F) (hr : n.routes ≠ [])
    (hs : n.skipOffline = false) (calls : List (F × F × UInt32))
    (hj : (calls.length : Int) ≤ n.offlineIndex) :
    ∃ n' bs, ticks n calls = .ok (n', bs) ∧ (∀ b ∈ bs, b = false) ∧
      n'.point = n.point ∧ n'.routeIndex = n.routeIndex ∧ n'.trackIndex = n.trackIndex ∧
      n'.segmentIndex = n.segmentIndex ∧ n'.currentDistance = n.currentDistance ∧
      (n'.isOffline = false ↔ (calls.length : Int) = n.offlineIndex) := by
  refine ⟨_, _, offline_freezes n hr hs calls hj, ?_, rfl, rfl, rfl, rfl, rfl, ?_⟩
  · intro b hb; exact (List.mem_replicate.mp hb).2
  · simp [isOffline]; omega

/-- Without any route `NextLocation` changes nothing at all, also when offline. -/
theorem offline_no_routes [GoMath F] (n : Navigator F) (hr : n.routes = []) (t s : F) (x : UInt32) :
    n.nextLocation t s x = .ok (n, false) := by simp [nextLocation, hr]

/-- Non-vacuity: a navigator can become offline for a positive time (draw `2^31`, settings 1..10
gives 5), and then is frozen for 5 calls. -/
example : ∃ n : Navigator ℝ,
    ({ freshNav false with routes := [eqRoute "r" "t" "#000000" 0 1] } : Navigator ℝ).toOffline
      2147483648 = .ok n ∧ n.offlineIndex = 5 ∧ n.skipOffline = false ∧ n.routes ≠ [] := by
  refine ⟨_, rfl, ?_, rfl, ?_⟩
  · decide
  · simp

end C13
end GpsGen
