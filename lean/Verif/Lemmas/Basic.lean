import Verif.Model.NavHistory
/-!
# Helper lemmas: the `Go` monad, slices, current route/track/segment
-/

namespace GpsGen
variable {F : Type}

@[simp] theorem ok_bind {ε α β : Type} (a : α) (f : α → Except ε β) :
    ((Except.ok a : Except ε α) >>= f) = f a := rfl
@[simp] theorem error_bind {ε α β : Type} (e : ε) (f : α → Except ε β) :
    ((Except.error e : Except ε α) >>= f) = .error e := rfl
@[simp] theorem pure_eq_ok {ε α : Type} (a : α) : (pure a : Except ε α) = .ok a := rfl
@[simp] theorem map_ok {ε α β : Type} (a : α) (f : α → β) :
    (Except.ok a : Except ε α).map f = .ok (f a) := rfl
@[simp] theorem map_error {ε α β : Type} (e : ε) (f : α → β) :
    (Except.error e : Except ε α).map f = .error e := rfl
@[simp] theorem fmap_ok {ε α β : Type} (a : α) (f : α → β) :
    f <$> (Except.ok a : Except ε α) = .ok (f a) := rfl
@[simp] theorem fmap_error {ε α β : Type} (e : ε) (f : α → β) :
    f <$> (Except.error e : Except ε α) = .error e := rfl

theorem goIndex_ok {α : Type} {l : List α} {i : Int} (h0 : 0 ≤ i) (h1 : i < l.length) :
    ∃ a, l[i.toNat]? = some a ∧ goIndex l i = .ok a := by
  have h : i.toNat < l.length := by omega
  refine ⟨l[i.toNat], List.getElem?_eq_getElem h, ?_⟩
  simp [goIndex, h0, List.getElem?_eq_getElem h]

theorem goIndex_eq_ok {α : Type} {l : List α} {i : Int} {a : α} :
    goIndex l i = .ok a ↔ goAt? l i = some a := by
  unfold goIndex goAt?
  split
  · rcases h : l[i.toNat]? with _ | b <;> simp
  · simp

theorem goIndex_error {α : Type} {l : List α} {i : Int} :
    goIndex l i = .error .indexOutOfRange ↔ goAt? l i = none := by
  unfold goIndex goAt?
  split
  · rcases h : l[i.toNat]? with _ | b <;> simp
  · simp

theorem goAt?_eq_some {α : Type} {l : List α} {i : Int} {a : α} :
    goAt? l i = some a ↔ 0 ≤ i ∧ l[i.toNat]? = some a := by
  unfold goAt?; split <;> simp_all; omega

theorem goAt?_isSome {α : Type} {l : List α} {i : Int} :
    (goAt? l i).isSome ↔ 0 ≤ i ∧ i < l.length := by
  unfold goAt?
  split
  · simp; omega
  · simp; omega

theorem goAt?_eq_none {α : Type} {l : List α} {i : Int} :
    goAt? l i = none ↔ i < 0 ∨ l.length ≤ i := by
  unfold goAt?
  split
  · simp; omega
  · simp; omega

theorem goAt?_natCast {α : Type} (l : List α) (i : Nat) : goAt? l (i : Int) = l[i]? := by
  simp [goAt?]

theorem zero_isEmpty [GoFloat F] : (Segment.zero : Segment F).isEmpty = true :=
  GoFloat.zero_eq_zero

namespace Navigator

/-- The current route as a partial function of the state (no panics). -/
def route? (n : Navigator F) : Option (Route F) := goAt? n.routes n.routeIndex

/-- The current track. -/
def track? (n : Navigator F) : Option (Track F) := n.route?.bind fun r => goAt? r.tracks n.trackIndex

/-- The current segment, empty ones included. -/
def seg? (n : Navigator F) : Option (Segment F) := n.track?.bind fun t => goAt? t.segments n.segmentIndex

/-- The route index is usable. -/
def IndexOk (n : Navigator F) : Prop := n.routes = [] ∨ (0 ≤ n.routeIndex ∧ n.routeIndex < n.routes.length)

theorem currentRoute_eq (n : Navigator F) (h : n.IndexOk) : n.currentRoute = .ok n.route? := by
  unfold currentRoute route?
  rcases h with h | ⟨h0, h1⟩
  · simp [h, goAt?]
  · obtain ⟨a, ha, hb⟩ := goIndex_ok h0 h1
    have : n.routes.isEmpty = false := by
      cases hr : n.routes with
      | nil => rw [hr] at h1; simp at h1; omega
      | cons _ _ => rfl
    rw [this, hb]; simp [goAt?, h0, ha]

theorem currentTrack_eq (n : Navigator F) (h : n.IndexOk) : n.currentTrack = .ok n.track? := by
  unfold currentTrack track?
  rw [currentRoute_eq n h]
  rcases n.route? with _ | r <;> simp [Route.trackAt]

theorem currentSegment_eq [GoFloat F] (n : Navigator F) (h : n.IndexOk) :
    n.currentSegment = .ok (match n.seg? with
      | some s => if s.isEmpty then Segment.zero else s
      | none => Segment.zero) := by
  unfold currentSegment seg? track?
  rw [currentRoute_eq n h]
  rcases n.route? with _ | r
  · simp
  · simp only [ok_bind, Route.trackAt, Option.bind_some]
    rcases goAt? r.tracks n.trackIndex with _ | t
    · simp
    · unfold Track.segmentAt
      simp only [Option.bind_some]
      cases goAt? t.segments n.segmentIndex <;> simp

end Navigator
end GpsGen
