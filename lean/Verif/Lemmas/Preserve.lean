import Verif.Lemmas.Frame
/-!
# Helper lemma: invariants of `NextLocation` from its elementary actions
-/

namespace GpsGen
variable {F : Type}

namespace Navigator

theorem nextLocation_preserves [GoMath F] (P : Navigator F → Prop) {n n' : Navigator F}
    {tick speed : F} {x : UInt32} {b : Bool}
    (hadv : ∀ m, P m → m.curSeg.isEmpty = false → ¬ m.AtLast → P m.advanceSegment)
    (hland : ∀ m r, P m → m.route? = some r → m.Fits (tick *. speed) → P (m.land (tick *. speed)))
    (hleave : ∀ m r, P m → m.route? = some r → P (m.leaveTrack r))
    (hoff : ∀ m k, P m → P { m with offlineIndex := k })
    (h0 : P n) (h : n.nextLocation tick speed x = .ok (n', b)) : P n' := by
  rcases nextLocation_cases n n' tick speed x b h with ⟨-, rfl, -⟩ | ⟨ho, rfl, -⟩ | ⟨r, hr, -, j, hj, he⟩
  · exact h0
  · exact hoff _ _ h0
  have hs : ∀ i ≤ j, P (n.skipTo i) := by
    intro i
    induction i with
    | zero => intro _; exact h0
    | succ i ih =>
      intro hi
      rw [skipTo_succ]
      exact hadv _ (ih (by omega)) (hj i (by omega)).2.1 (hj i (by omega)).2.2.1
  have hPj := hs j (Nat.le_refl _)
  have hrj : (n.skipTo j).route? = some r := by rw [skipTo_route?]; exact hr
  have off : ∀ m n'', P m → m.toOffline x = .ok n'' → P n'' := by
    intro m n'' hm ho
    rcases toOffline_cases ho with ⟨-, rfl⟩ | ⟨_, _, _, rfl⟩
    · exact hm
    · exact hoff _ _ hm
  generalize hres : (Except.ok (n', b) : Go (Navigator F × Bool)) = res at he
  cases he with
  | land hf => cases hres; exact hland _ r hPj hrj hf
  | unrelated h1 h2 h3 h4 =>
    cases ho : ((n.skipTo j).advanceSegment.toOffline x) with
    | error e => rw [ho] at hres; cases hres
    | ok m => rw [ho] at hres; cases hres; exact off _ _ (hadv _ hPj h2 h3) ho
  | leave h1 h2 =>
    cases ho : (((n.skipTo j).leaveTrack r).toOffline x) with
    | error e => rw [ho] at hres; cases hres
    | ok m => rw [ho] at hres; cases hres; exact off _ _ (hleave _ r hPj hrj) ho

end Navigator
end GpsGen
