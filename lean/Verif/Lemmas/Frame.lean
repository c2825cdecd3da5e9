import Verif.Lemmas.LoopOutcome
import Verif.Lemmas.Moves
/-!
# Helper lemmas: what each operation leaves unchanged
-/

namespace GpsGen
variable {F : Type}

namespace Navigator

/-- How one operation may change the offline counter. -/
inductive OfflineChange (n n' : Navigator F) : Prop
  | keep (h : n'.offlineIndex = n.offlineIndex)
  | zero (h : n'.offlineIndex = 0)
  | dec (h1 : n.skipOffline = false) (h2 : n.offlineIndex > 0)
      (h3 : n'.offlineIndex = n.offlineIndex - 1)
  | draw (h1 : n.skipOffline = false) (r : Random) (x : UInt32) (h2 : n.offline = some r)
      (h3 : n'.offlineIndex = r.value x)

/-- The offline settings are kept, and the counter changes only as listed. -/
structure OfflineFrame (n n' : Navigator F) : Prop where
  offline : n'.offline = n.offline
  skip : n'.skipOffline = n.skipOffline
  change : OfflineChange n n'

theorem OfflineFrame.refl (n : Navigator F) : OfflineFrame n n := ⟨rfl, rfl, .keep rfl⟩

theorem toOffline_frame {n n' : Navigator F} {x : UInt32} (h : n.toOffline x = .ok n') :
    OfflineFrame n n' := by
  rcases toOffline_cases h with ⟨-, rfl⟩ | ⟨hs, r, hr, rfl⟩
  · exact .refl _
  · exact ⟨rfl, rfl, .draw hs r x hr rfl⟩

theorem moveToSegment_frame [GoFloat F] {n n' : Navigator F} {a b c : Int} {ok : Bool}
    (h : n.moveToSegment a b c = .ok (n', ok)) : OfflineFrame n n' := by
  rcases moveToSegment_cases h with ⟨rfl, -⟩ | ⟨s, -, -, rfl, -⟩
  · exact .refl _
  · exact ⟨rfl, rfl, .zero rfl⟩

theorem skipTo_offline [GoFloat F] (n : Navigator F) (j : Nat) :
    (n.skipTo j).offline = n.offline ∧ (n.skipTo j).skipOffline = n.skipOffline ∧
    (n.skipTo j).offlineIndex = n.offlineIndex := by cases j <;> exact ⟨rfl, rfl, rfl⟩

theorem OfflineFrame.of_eq {n m n' : Navigator F} (h1 : m.offline = n.offline)
    (h2 : m.skipOffline = n.skipOffline) (h3 : m.offlineIndex = n.offlineIndex)
    (h : OfflineFrame m n') : OfflineFrame n n' := by
  refine ⟨h.offline.trans h1, h.skip.trans h2, ?_⟩
  cases h.change with
  | keep h => exact .keep (h.trans h3)
  | zero h => exact .zero h
  | dec a b c => exact .dec (by rw [← h2]; exact a) (by rw [← h3]; exact b) (by rw [← h3]; exact c)
  | draw a r x b c => exact .draw (by rw [← h2]; exact a) r x (by rw [← h1]; exact b) c

theorem leaveTrack_offline [GoFloat F] (n : Navigator F) (r : Route F) :
    (n.leaveTrack r).offline = n.offline ∧ (n.leaveTrack r).skipOffline = n.skipOffline ∧
    (n.leaveTrack r).offlineIndex = n.offlineIndex := by
  unfold leaveTrack
  split
  · exact ⟨rfl, rfl, rfl⟩
  · split <;> exact ⟨rfl, rfl, rfl⟩

theorem nextLocation_frame [GoMath F] {n n' : Navigator F} {tick speed : F} {x : UInt32} {b : Bool}
    (h : n.nextLocation tick speed x = .ok (n', b)) : OfflineFrame n n' := by
  rcases nextLocation_cases n n' tick speed x b h with ⟨-, rfl, -⟩ | ⟨ho, rfl, -⟩ | ⟨r, -, -, j, -, he⟩
  · exact .refl _
  · rw [nextOffline_eq] at ho
    simp at ho
    exact ⟨rfl, rfl, .dec ho.1 ho.2 rfl⟩
  · obtain ⟨e1, e2, e3⟩ := skipTo_offline n j
    generalize hres : (Except.ok (n', b) : Go (Navigator F × Bool)) = res at he
    cases he with
    | land hf => cases hres; exact ⟨e1, e2, .keep e3⟩
    | unrelated h1 h2 h3 h4 =>
      cases ho : ((n.skipTo j).advanceSegment.toOffline x) with
      | error e => rw [ho] at hres; cases hres
      | ok m =>
        rw [ho] at hres; cases hres
        exact .of_eq e1 e2 e3 (.of_eq (m := (n.skipTo j).advanceSegment) rfl rfl rfl (toOffline_frame ho))
    | leave h1 h2 =>
      cases ho : (((n.skipTo j).leaveTrack r).toOffline x) with
      | error e => rw [ho] at hres; cases hres
      | ok m =>
        rw [ho] at hres; cases hres
        obtain ⟨l1, l2, l3⟩ := leaveTrack_offline (n.skipTo j) r
        exact .of_eq e1 e2 e3 (.of_eq l1 l2 l3 (toOffline_frame ho))

theorem map_fst_ok {g : Go (Navigator F × Bool)} {n' : Navigator F} (h : g.map (·.1) = .ok n') :
    ∃ b, g = .ok (n', b) := by
  cases g with
  | error e => cases h
  | ok p => cases h; exact ⟨p.2, rfl⟩

theorem destinationTo_offline [GoMath F] (n : Navigator F) (m : F) :
    (n.destinationTo m).1.offline = n.offline ∧ (n.destinationTo m).1.skipOffline = n.skipOffline ∧
    (n.destinationTo m).1.offlineIndex = n.offlineIndex ∧ (n.destinationTo m).1.routes = n.routes ∧
    (n.destinationTo m).1.distance = n.distance ∧ (n.destinationTo m).1.version = n.version ∧
    (n.destinationTo m).1.elevation = n.elevation := by
  unfold destinationTo
  generalize (if (n.distance <. m) = true then n.distance else m) = d
  simp only
  split
  · exact ⟨rfl, rfl, rfl, rfl, rfl, rfl, rfl⟩
  split
  · exact ⟨rfl, rfl, rfl, rfl, rfl, rfl, rfl⟩
  split
  · exact ⟨rfl, rfl, rfl, rfl, rfl, rfl, rfl⟩
  split
  exact ⟨rfl, rfl, rfl, rfl, rfl, rfl, rfl⟩
  exact ⟨rfl, rfl, rfl, rfl, rfl, rfl, rfl⟩

theorem step_offline_frame [GoMath F] {n n' : Navigator F} {op : NavOp F}
    (h : n.step op = .ok n') : OfflineFrame n n' := by
  have keep : ∀ {m : Navigator F}, m.offline = n.offline → m.skipOffline = n.skipOffline →
      m.offlineIndex = n.offlineIndex → OfflineFrame n m := fun a b c => ⟨a, b, .keep c⟩
  cases op with
  | addRoute rs =>
    cases h
    unfold addRoute
    split
    · exact .refl _
    · simp only; split <;> exact keep rfl rfl rfl
  | removeRoute id =>
    cases h
    unfold removeRoute
    split
    · exact .refl _
    · simp only; split
      · exact keep rfl rfl rfl
      · exact .refl _
  | removeTrack rid tid =>
    cases h
    unfold removeTrack
    split
    · exact .refl _
    · split
      · exact .refl _
      · simp only; split <;> exact keep rfl rfl rfl
  | resetRoutes =>
    cases h
    unfold resetRoutes
    split
    · exact .refl _
    · exact keep rfl rfl rfl
  | reset => cases h; exact keep rfl rfl rfl
  | moveToSegment _ _ _ | moveToRoute _ | moveToTrack _ _ | moveToRouteByID _ | moveToTrackByID _ _
  | toNextRoute | toPrevRoute =>
    rcases move_cases h trivial with rfl | ⟨_, _, _, _, h⟩
    · exact .refl _
    · exact moveToSegment_frame h
  | destinationTo m =>
    cases h
    obtain ⟨h1, h2, h3, -⟩ := destinationTo_offline n m
    exact keep h1 h2 h3
  | toOffline x => exact toOffline_frame h
  | nextLocation tick speed x => obtain ⟨b, h⟩ := map_fst_ok h; exact nextLocation_frame h
  | isFinish =>
    cases h
    unfold isFinish
    split <;> exact keep rfl rfl rfl
  | nextElevation t =>
    simp only [step, nextElevation] at h
    cases he : n.elevation.next t with
    | error e => rw [he] at h; cases h
    | ok s => rw [he] at h; cases h; exact keep rfl rfl rfl
  | shuffleElevation draws => cases h; exact keep rfl rfl rfl
  | onRoute i op => cases h; exact keep rfl rfl rfl

/-- Operations that only move the device: they neither change the set of routes nor mutate a route. -/
def Moving : NavOp F → Prop
  | .addRoute .. | .removeRoute .. | .removeTrack .. | .resetRoutes | .reset | .onRoute .. => False
  | _ => True

theorem nextLocation_routes [GoMath F] {n n' : Navigator F} {tick speed : F} {x : UInt32} {b : Bool}
    (h : n.nextLocation tick speed x = .ok (n', b)) :
    n'.routes = n.routes ∧ n'.distance = n.distance ∧ n'.version = n.version ∧
      n'.elevation = n.elevation := by
  rcases nextLocation_cases n n' tick speed x b h with ⟨-, rfl, -⟩ | ⟨ho, rfl, -⟩ | ⟨r, -, -, j, -, he⟩
  · exact ⟨rfl, rfl, rfl, rfl⟩
  · exact ⟨rfl, rfl, rfl, rfl⟩
  · have hs : (n.skipTo j).routes = n.routes ∧ (n.skipTo j).distance = n.distance ∧
        (n.skipTo j).version = n.version ∧ (n.skipTo j).elevation = n.elevation := by
      cases j <;> exact ⟨rfl, rfl, rfl, rfl⟩
    generalize hres : (Except.ok (n', b) : Go (Navigator F × Bool)) = res at he
    cases he with
    | land hf => cases hres; exact hs
    | unrelated h1 h2 h3 h4 =>
      cases ho : ((n.skipTo j).advanceSegment.toOffline x) with
      | error e => rw [ho] at hres; cases hres
      | ok m =>
        rw [ho] at hres; cases hres
        rcases toOffline_cases ho with ⟨-, rfl⟩ | ⟨_, _, _, rfl⟩ <;> exact hs
    | leave h1 h2 =>
      cases ho : (((n.skipTo j).leaveTrack r).toOffline x) with
      | error e => rw [ho] at hres; cases hres
      | ok m =>
        rw [ho] at hres; cases hres
        have hl : ((n.skipTo j).leaveTrack r).routes = (n.skipTo j).routes ∧
            ((n.skipTo j).leaveTrack r).distance = (n.skipTo j).distance ∧
            ((n.skipTo j).leaveTrack r).version = (n.skipTo j).version ∧
            ((n.skipTo j).leaveTrack r).elevation = (n.skipTo j).elevation := by
          unfold leaveTrack
          split
          · exact ⟨rfl, rfl, rfl, rfl⟩
          · split <;> exact ⟨rfl, rfl, rfl, rfl⟩
        rcases toOffline_cases ho with ⟨-, rfl⟩ | ⟨_, _, _, rfl⟩
        · exact ⟨hl.1.trans hs.1, hl.2.1.trans hs.2.1, hl.2.2.1.trans hs.2.2.1, hl.2.2.2.trans hs.2.2.2⟩
        · exact ⟨hl.1.trans hs.1, hl.2.1.trans hs.2.1, hl.2.2.1.trans hs.2.2.1, hl.2.2.2.trans hs.2.2.2⟩

theorem step_routes_frame [GoMath F] {n n' : Navigator F} {op : NavOp F} (hop : Moving op)
    (h : n.step op = .ok n') :
    n'.routes = n.routes ∧ n'.distance = n.distance ∧ n'.version = n.version := by
  cases op with
  | moveToSegment _ _ _ | moveToRoute _ | moveToTrack _ _ | moveToRouteByID _ | moveToTrackByID _ _
  | toNextRoute | toPrevRoute =>
    rcases move_cases h trivial with rfl | ⟨_, _, _, _, h⟩
    · exact ⟨rfl, rfl, rfl⟩
    · rcases moveToSegment_cases h with ⟨rfl, -⟩ | ⟨s, -, -, rfl, -⟩ <;> exact ⟨rfl, rfl, rfl⟩
  | destinationTo m =>
    cases h
    obtain ⟨-, -, -, h1, h2, h3, -⟩ := destinationTo_offline n m
    exact ⟨h1, h2, h3⟩
  | toOffline x =>
    rcases toOffline_cases h with ⟨-, rfl⟩ | ⟨_, _, _, rfl⟩ <;> exact ⟨rfl, rfl, rfl⟩
  | nextLocation tick speed x =>
    obtain ⟨b, h⟩ := map_fst_ok h
    obtain ⟨h1, h2, h3, -⟩ := nextLocation_routes h
    exact ⟨h1, h2, h3⟩
  | isFinish =>
    cases h
    unfold isFinish
    split <;> exact ⟨rfl, rfl, rfl⟩
  | nextElevation t =>
    simp only [step, nextElevation] at h
    cases he : n.elevation.next t with
    | error e => rw [he] at h; cases h
    | ok s => rw [he] at h; cases h; exact ⟨rfl, rfl, rfl⟩
  | shuffleElevation draws => cases h; exact ⟨rfl, rfl, rfl⟩
  | addRoute _ => exact hop.elim
  | removeRoute _ => exact hop.elim
  | removeTrack _ _ => exact hop.elim
  | resetRoutes => exact hop.elim
  | reset => exact hop.elim
  | onRoute _ _ => exact hop.elim

/-- Induction over histories. -/
theorem run_induction [GoMath F] (P : Navigator F → Prop)
    (hstep : ∀ n n' op, P n → n.step op = .ok n' → P n') (n n' : Navigator F) (ops : List (NavOp F))
    (h0 : P n) (h : n.run ops = .ok n') : P n' := by
  induction ops generalizing n with
  | nil => cases h; exact h0
  | cons op ops ih =>
    simp only [run] at h
    cases hs : n.step op with
    | error e => rw [hs] at h; cases h
    | ok m => rw [hs] at h; exact ih m (hstep n m op h0 hs) h

end Navigator
end GpsGen
