import Mathlib.Data.List.Forall2
import Verif.Theorems.C24
import Verif.Theorems.C21
import Verif.Model.JsonText
import Verif.Lemmas.JsonF64
import Verif.Model.F64Bits
/-!
# C87: decoding routes does not report what it cannot restore

Any number type, any parsed protobuf message. `RouteFromSnapshot` returns an error for properties that are not a JSON
object and for names of wrong length, but `DecodeRoutes` (io.go:94) and the navigator (navigator.go:584) drop it. So the
claim "data that cannot be restored is reported" is false: such a route becomes a blank one, without id and tracks.
The theorems say exactly what comes out of every message.
-/

namespace GpsGen
variable {F : Type}

namespace C87
open Device Navigator C21

/-! ## Specification -/

/-- The values of a JSON object: of several equal names the last one counts. -/
def valueOf (o : JObj F) (k : String) : Option (JVal F) := ((o.filter fun e => e.1 = k).getLast?).map (·.2)

/-- A JSON scalar as a property value. -/
def asValue : JVal F → PVal F
  | .null => .null
  | .bool b => .bool b
  | .str s => .str s
  | .num f => .float f

/-- The property map made from the bytes; `absent` if there are none. -/
def PropsOf (absent : Option (PMap F)) : RawProps F → Option (PMap F) → Prop
  | .empty, p => p = absent
  | .null, p => p = absent
  | .object o, p => ∃ m, p = some m ∧ (m.map (·.1)).Nodup ∧ ∀ k, m.get? k = (valueOf o k).map asValue
  | .invalid, p => p = some []

/-- The segment of a message with both ends. -/
def SegmentOf (m : SegmentMsg F) (s : Segment F) : Prop :=
  m.pointA = some ⟨s.pointA.lon, s.pointA.lat⟩ ∧ m.pointB = some ⟨s.pointB.lon, s.pointB.lat⟩ ∧ s.dist = m.distance ∧
    s.bearing = m.bearing ∧ s.index = m.index ∧ s.rel = m.rel

/-- The track of a message. Neither its name nor its properties are checked. -/
structure TrackOf (absent : Option (PMap F)) (m : TrackMsg F) (t : Track F) : Prop where
  id : t.id = m.id
  color : t.color = m.color
  name : t.name = m.name
  dist : t.dist = m.distance
  closed : t.isClosed = m.isClosed
  version : t.version = m.version
  segments : List.Forall₂ SegmentOf m.segments t.segments
  props : PropsOf absent m.props t.props

/-- The route of a message. -/
structure RouteOf (absent : Option (PMap F)) (m : RouteMsg F) (r : Route F) : Prop where
  id : r.id = m.id
  color : r.color = m.color
  name : r.name = m.name
  dist : r.dist = m.distance
  version : r.version = m.version
  tracks : List.Forall₂ (TrackOf absent) m.tracks r.tracks
  props : PropsOf absent m.props r.props

/-- The message can be restored: its properties are not broken, and it has no name or one of 3 to 256 bytes. -/
def Restorable (m : RouteMsg F) : Prop := m.props ≠ .invalid ∧ (m.name = "" ∨ (3 ≤ goLen m.name ∧ goLen m.name ≤ 256))

/-- A route without anything. -/
def Blank [GoFloat F] (absent : Option (PMap F)) (r : Route F) : Prop :=
  r = { id := "", dist := lit 0, color := "", name := "", tracks := [], props := absent, version := 0 }

/-- What becomes of a message. -/
def Decoded [GoFloat F] (absent : Option (PMap F)) (m : RouteMsg F) (r : Route F) : Prop :=
  (Restorable m ∧ RouteOf absent m r) ∨ (¬ Restorable m ∧ Blank absent r)

/-! ## Proof -/

theorem get_set (m : PMap F) (k k' : String) (v : PVal F) :
    (m.set k v).get? k' = if k' = k then some v else m.get? k' := by
  unfold PMap.set PMap.get?
  split
  · rename_i h
    induction m with
    | nil => simp at h
    | cons e m ih =>
      rw [List.map_cons, List.find?_cons]
      by_cases he : e.1 = k
      · have e1 : (e.1 == k) = true := by simpa using he
        simp only [e1, if_true]
        by_cases hk : k' = k
        · subst hk; simp
        · have e2 : (k == k') = false := by simpa using fun h => hk h.symm
          have e3 : (e.1 == k') = false := by rw [he]; exact e2
          simp only [e2, hk, if_false, List.find?_cons, e3]
          by_cases hm : m.any (fun e => e.1 == k) = true
          · have := ih hm
            simpa [hk] using this
          · have : m.map (fun e => if (e.1 == k) = true then (k, v) else e) = m := by
              conv_rhs => rw [← List.map_id m]
              refine List.map_congr_left fun a ha => ?_
              rw [if_neg]
              · rfl
              · intro h; exact hm (List.any_eq_true.mpr ⟨a, ha, h⟩)
            rw [this]
      · have e1 : (e.1 == k) = false := by simpa using he
        have hm : m.any (fun e => e.1 == k) = true := by simpa [e1] using h
        simp only [e1, Bool.false_eq_true, if_false, List.find?_cons]
        by_cases hk : e.1 = k'
        · have e2 : (e.1 == k') = true := by simpa using hk
          have : ¬ k' = k := fun h => he (hk.trans h)
          simp [e2, this]
        · have e2 : (e.1 == k') = false := by simpa using hk
          simp only [e2]
          exact ih hm
  · rename_i h
    rw [List.find?_append]
    by_cases hk : k' = k
    · subst hk
      have : m.find? (fun e => e.1 == k') = none := by
        rw [List.find?_eq_none]
        intro a ha h'
        exact h (List.any_eq_true.mpr ⟨a, ha, h'⟩)
      simp [this]
    · have : (k == k') = false := by simpa using fun h => hk h.symm
      simp [this, hk]

theorem keys_set (m : PMap F) (k : String) (v : PVal F) (h : (m.map (·.1)).Nodup) : ((m.set k v).map (·.1)).Nodup := by
  unfold PMap.set
  split
  · have : (m.map (fun e => if (e.1 == k) = true then (k, v) else e)).map (·.1) = m.map (·.1) := by
      rw [List.map_map]
      refine List.map_congr_left fun a _ => ?_
      show (if (a.1 == k) = true then (k, v) else a).1 = a.1
      split
      · rename_i h'; exact (by simpa using h' : a.1 = k).symm
      · rfl
    rw [this]; exact h
  · rename_i h'
    rw [List.map_append, List.nodup_append]
    refine ⟨h, by simp, ?_⟩
    intro a ha b hb hab
    simp only [List.map_cons, List.map_nil, List.mem_singleton] at hb
    obtain ⟨e, he, rfl⟩ := List.mem_map.mp ha
    exact h' (List.any_eq_true.mpr ⟨e, he, by simpa using hab.trans hb⟩)

theorem unmarshal_spec [GoFloat F] (o : JObj F) :
    (o.unmarshal.map (·.1)).Nodup ∧ ∀ k, o.unmarshal.get? k = (valueOf o k).map asValue := by
  suffices h : ∀ (m : PMap F), (m.map (·.1)).Nodup →
      ((o.foldl (fun m e => m.set e.1 e.2.toPVal) m).map (·.1)).Nodup ∧
      ∀ k, (o.foldl (fun m e => m.set e.1 e.2.toPVal) m).get? k = ((valueOf o k).map asValue).or (m.get? k) by
    obtain ⟨h1, h2⟩ := h PMap.make (by simp [PMap.make])
    refine ⟨h1, fun k => ?_⟩
    have := h2 k
    rw [show (PMap.make : PMap F).get? k = none from rfl, Option.or_none] at this
    exact this
  induction o with
  | nil => intro m hm; exact ⟨hm, fun k => by simp [valueOf]⟩
  | cons e o ih =>
    intro m hm
    obtain ⟨h1, h2⟩ := ih (m.set e.1 e.2.toPVal) (keys_set m _ _ hm)
    refine ⟨h1, fun k => ?_⟩
    rw [List.foldl_cons, h2 k, get_set]
    have hv : e.2.toPVal = asValue e.2 := by cases e.2 <;> rfl
    unfold valueOf
    by_cases hk : k = e.1
    · subst hk
      rw [if_pos rfl, List.filter_cons_of_pos (by simp), List.getLast?_cons, hv]
      cases (o.filter fun x => x.1 = e.1).getLast? <;> simp
    · rw [if_neg hk, List.filter_cons_of_neg (by simpa using fun h => hk h.symm)]

theorem mapM_forall₂ {ε α β : Type} {f : α → Except ε β} {R : α → β → Prop} (hf : ∀ a b, f a = .ok b → R a b)
    {l : List α} {r : List β} (h : l.mapM f = .ok r) : List.Forall₂ R l r := by
  induction l generalizing r with
  | nil => cases h; exact .nil
  | cons a l ih =>
    rw [List.mapM_cons] at h
    obtain ⟨b, h1, h⟩ := bind_eq_ok h
    obtain ⟨bs, h2, h⟩ := bind_eq_ok h
    cases h
    exact .cons (hf a b h1) (ih h2)

theorem load_props [GoFloat F] (p : RawProps F) : PropsOf none p p.load.1 := by
  cases p with
  | empty => rfl
  | null => rfl
  | object o => exact ⟨_, rfl, unmarshal_spec o⟩
  | invalid => rfl

theorem load_ok [GoFloat F] (p : RawProps F) : p.load.2 = true ↔ p ≠ .invalid := by
  cases p <;> simp [RawProps.load]

theorem deref_eq {α : Type} {o : Option α} {a : α} (h : deref o = .ok a) : o = some a := by
  cases o with
  | none => cases h
  | some b => cases h; rfl

theorem segment_of {m : SegmentMsg F} {s : Segment F} (h : Segment.fromSnapshot m = .ok s) : SegmentOf m s := by
  unfold Segment.fromSnapshot at h
  obtain ⟨a, h1, h⟩ := bind_eq_ok h
  obtain ⟨b, h2, h⟩ := bind_eq_ok h
  cases h
  exact ⟨deref_eq h1, deref_eq h2, rfl, rfl, rfl, rfl⟩

theorem track_of [GoFloat F] {m : TrackMsg F} {t : Track F} (h : Track.fromSnapshot m = .ok t) : TrackOf none m t := by
  unfold Track.fromSnapshot at h
  obtain ⟨a, h1, h⟩ := bind_eq_ok h
  cases h
  exact ⟨rfl, rfl, rfl, rfl, rfl, rfl, mapM_forall₂ (fun _ _ => segment_of) h1, load_props _⟩

theorem name_empty (s : String) (h : ¬ goLen s > 0) : s = "" := by
  by_contra hc
  exact h ((goLen_pos_iff s).mpr hc)

/-- **One route.** `RouteFromSnapshot` on a new route returns no error exactly for the messages that can be restored, and
then the route is the one of the message. Otherwise the route stays blank and the error says what is wrong. -/
theorem route_exact [GoFloat F] (m : RouteMsg F) (r : Route F) (e : Option Err)
    (h : Route.fromSnapshot m = .ok (r, e)) :
    (Restorable m ∧ e = none ∧ RouteOf none m r) ∨
    (m.props = .invalid ∧ e = some .invalidProps ∧ Blank none r) ∨
    (m.props ≠ .invalid ∧ 0 < goLen m.name ∧ goLen m.name < 3 ∧ e = some .nameTooShort ∧ Blank none r) ∨
    (m.props ≠ .invalid ∧ 256 < goLen m.name ∧ e = some .nameTooLong ∧ Blank none r) := by
  unfold Route.fromSnapshot at h
  obtain ⟨ts, h1, h⟩ := bind_eq_ok h
  have hts := mapM_forall₂ (fun _ _ => track_of) h1
  simp only at h
  by_cases hp : m.props.load.2 = true
  · have hi := (load_ok _).mp hp
    rw [hp] at h
    simp only [Bool.not_true, Bool.false_eq_true, if_false] at h
    by_cases hn : goLen m.name > 0
    · rw [if_pos hn] at h
      unfold parseName at h
      by_cases h3 : goLen m.name < 3
      · rw [if_pos h3] at h; cases h
        exact Or.inr (Or.inr (Or.inl ⟨hi, hn, h3, rfl, rfl⟩))
      · rw [if_neg h3] at h
        by_cases h4 : goLen m.name > 256
        · rw [if_pos h4] at h; cases h
          exact Or.inr (Or.inr (Or.inr ⟨hi, h4, rfl, rfl⟩))
        · rw [if_neg h4] at h; cases h
          exact Or.inl ⟨⟨hi, Or.inr ⟨by omega, by omega⟩⟩, rfl, rfl, rfl, rfl, rfl, rfl, hts, load_props _⟩
    · rw [if_neg hn] at h; cases h
      have he := name_empty _ hn
      exact Or.inl ⟨⟨hi, Or.inl he⟩, rfl, rfl, rfl, he.symm, rfl, rfl, hts, load_props _⟩
  · have hi : m.props = .invalid := by
      by_contra hc; exact hp ((load_ok _).mpr hc)
    have hp : m.props.load.2 = false := by simpa using hp
    rw [hp] at h
    simp only [Bool.not_false, if_true] at h
    cases h
    exact Or.inr (Or.inl ⟨hi, rfl, rfl⟩)

theorem decoded_of [GoFloat F] {m : RouteMsg F} {r : Route F}
    (h : (do let (r, _) ← Route.fromSnapshot m; return r : Go (Route F)) = .ok r) : Decoded none m r := by
  obtain ⟨⟨r', e⟩, h1, h⟩ := bind_eq_ok h
  cases h
  rcases route_exact m r e h1 with ⟨a, -, b⟩ | ⟨a, -, b⟩ | ⟨-, a1, a2, -, b⟩ | ⟨-, a, -, b⟩
  · exact Or.inl ⟨a, b⟩
  · exact Or.inr ⟨fun h => h.1 a, b⟩
  · refine Or.inr ⟨fun h => ?_, b⟩
    rcases h.2 with h | h
    · rw [h] at a1; exact absurd a1 (by decide)
    · omega
  · refine Or.inr ⟨fun h => ?_, b⟩
    rcases h.2 with h | h
    · rw [h] at a; exact absurd a (by decide)
    · omega

/-! ## The claim -/

/-- Full claim for routes: what is returned without an error was restored. -/
def RoutesClaim (F : Type) [GoFloat F] : Prop := ∀ (ms : List (RouteMsg F)) (rs : List (Route F)),
  decodeRoutes ms = .ok rs → List.Forall₂ (RouteOf none) ms rs

/-- **C87, routes.** (Full statement: `RoutesClaim`. Missing: messages that cannot be restored, for which it is false.)
`DecodeRoutes` returns one route for every message, in order: the route of the message if it can be restored and a blank
route otherwise. -/
theorem routes_partial [GoFloat F] (ms : List (RouteMsg F)) (rs : List (Route F)) (h : decodeRoutes ms = .ok rs) :
    List.Forall₂ (Decoded none) ms rs := mapM_forall₂ (fun _ _ => decoded_of) h

/-- So the claim holds as long as every message can be restored. -/
theorem routes_restored_partial [GoFloat F] (ms : List (RouteMsg F)) (rs : List (Route F)) (h : decodeRoutes ms = .ok rs)
    (hm : ∀ m ∈ ms, Restorable m) : List.Forall₂ (RouteOf none) ms rs := by
  have := routes_partial ms rs h
  clear h
  induction this with
  | nil => exact .nil
  | cons h _ ih =>
    refine .cons ?_ (ih fun m hm' => hm m (List.mem_cons_of_mem _ hm'))
    rcases h with h | h
    · exact h.2
    · exact absurd (hm _ List.mem_cons_self) h.1

/-- What `EncodeRoutes` writes for routes made through the API can be restored. -/
theorem own_restorable [GoMath F] (r : Route F) (h : ApiRoute r) : Restorable r.snapshot := by
  refine ⟨?_, (api_route h).1⟩
  show rawProps r.props ≠ .invalid
  unfold rawProps
  split
  · simp
  · split <;> simp

/-- The route that was lost: its length is counted nowhere, its points are gone. -/
theorem blank_lost [GoFloat F] (m : RouteMsg F) (r : Route F) (h : Decoded none m r) (hm : ¬ Restorable m) :
    r.id = "" ∧ r.tracks = [] ∧ r.dist = lit 0 := by
  rcases h with h | h
  · exact absurd h.1 hm
  · rw [h.2]; exact ⟨rfl, rfl, rfl⟩

/-- **The claim is false** for every number type: a route whose name has two bytes comes back blank. -/
theorem routes_claim_fails [GoFloat F] : ¬ RoutesClaim F := by
  intro h
  have := h [⟨"r", lit 1, "", [], .empty, "ab", 0⟩] _ rfl
  cases this with
  | cons h _ =>
    have h : "" = "r" := h.id
    exact absurd h (by decide)

/-! ## Trackers -/

theorem touch_props {a : Option (PMap F)} (ha : a.getD [] = []) (p : RawProps F) (q : Option (PMap F))
    (h : PropsOf a p q) : PropsOf (some []) p (some (q.getD [])) := by
  cases p with
  | empty => cases h; exact congrArg some ha
  | null => cases h; exact congrArg some ha
  | object o => obtain ⟨m, rfl, hm⟩ := h; exact ⟨m, rfl, hm⟩
  | invalid => cases h; rfl

theorem forall₂_map_right {α β γ : Type} {R : α → β → Prop} {S : α → γ → Prop} {f : β → γ} (h : ∀ a b, R a b → S a (f b))
    {l : List α} {r : List β} (hr : List.Forall₂ R l r) : List.Forall₂ S l (r.map f) := by
  induction hr with
  | nil => exact .nil
  | cons h' _ ih => exact .cons (h _ _ h') ih

theorem track_touch {a : Option (PMap F)} (ha : a.getD [] = []) {m : TrackMsg F} {t : Track F} (h : TrackOf a m t) :
    TrackOf (some []) m t.propsOf.1 := by
  have hp := touch_props ha _ _ h.props
  have : t.propsOf.1 = { t with props := some (t.props.getD []) } := by
    unfold Track.propsOf
    obtain ⟨id, segments, color, name, props, dist, isClosed, version⟩ := t
    cases props <;> rfl
  rw [this]
  exact ⟨h.id, h.color, h.name, h.dist, h.closed, h.version, h.segments, hp⟩

theorem touch_eq (r : Route F) : touchRoute r =
    { r with props := some (r.props.getD []), tracks := r.tracks.map fun t => t.propsOf.1 } := by
  unfold touchRoute Route.propsOf
  obtain ⟨id, dist, color, name, tracks, props, version⟩ := r
  cases props <;> rfl

theorem route_touch [GoFloat F] {a : Option (PMap F)} (ha : a.getD [] = []) {m : RouteMsg F} {r : Route F}
    (h : Decoded a m r) : Decoded (some []) m (touchRoute r) := by
  rcases h with ⟨h1, h2⟩ | ⟨h1, h2⟩
  · rw [touch_eq]
    exact Or.inl ⟨h1, h2.id, h2.color, h2.name, h2.dist, h2.version,
      forall₂_map_right (f := fun t : Track F => t.propsOf.1) (fun _ _ h => track_touch ha h) h2.tracks,
      touch_props ha _ _ h2.props⟩
  · refine Or.inr ⟨h1, ?_⟩
    unfold Blank at h2
    rw [h2, touch_eq]
    simp [Blank, ha]

theorem navigator_of [GoFloat F] {skip : Bool} {o : Option Random} {m : NavMsg F} {n : Navigator F}
    (h : Navigator.fromSnapshotOnto skip o m = .ok n) :
    List.Forall₂ (Decoded none) m.routes n.routes ∧ n.distance = m.distance ∧ n.routeIndex = m.routeIndex := by
  unfold Navigator.fromSnapshotOnto at h
  obtain ⟨rs, h1, h⟩ := bind_eq_ok h
  obtain ⟨pt, h2, h⟩ := bind_eq_ok h
  obtain ⟨el, h3, h⟩ := bind_eq_ok h
  cases h
  exact ⟨mapM_forall₂ (fun _ _ => decoded_of) h1, rfl, rfl⟩

/-- Full claim for trackers: a device that is returned has all its routes. -/
def TrackerClaim (F : Type) [GoMath F] : Prop := ∀ (m : SnapMsg F) (nm : NavMsg F) (d : Device F),
  m.navigator = some nm → decodeTracker m = .ok d → List.Forall₂ (RouteOf (some [])) nm.routes d.navigator.routes

/-- **C87, trackers.** (Full statement: `TrackerClaim`. Missing: messages with routes that cannot be restored, for which
it is false.) `DecodeTracker` returns a device with one route for every message, in order: the route of the message if it
can be restored and a blank route otherwise. The total distance is the one of the message in any case. -/
theorem tracker_partial [GoMath F] (m : SnapMsg F) (nm : NavMsg F) (d : Device F) (hn : m.navigator = some nm)
    (h : decodeTracker m = .ok d) :
    List.Forall₂ (Decoded (some [])) nm.routes d.navigator.routes ∧ d.navigator.distance = nm.distance ∧
      d.navigator.routeIndex = nm.routeIndex := by
  unfold decodeTracker at h
  obtain ⟨d0, h0, h⟩ := bind_eq_ok h
  obtain ⟨n, speed, battery, sensors, d1, h1, h2, h3, h4, h5, rfl⟩ := fromSnapshotOnto_eq h0
  rw [hn] at h1
  obtain ⟨k1, k2, k3⟩ := navigator_of (skip := false) (o := none) h1
  obtain ⟨st, -, rfl⟩ := updateState_eq h5
  unfold Device.update at h
  obtain ⟨d2, h6, h⟩ := bind_eq_ok h
  obtain ⟨st2, -, rfl⟩ := updateState_eq h6
  cases h
  have k4 := forall₂_map_right (S := Decoded (some [])) (f := touchRoute) (fun _ _ h => route_touch rfl h) k1
  exact ⟨forall₂_map_right (S := Decoded (some [])) (f := touchRoute) (fun _ _ h => route_touch rfl h) k4, k2, k3⟩

/-- So the claim holds as long as every route can be restored. -/
theorem tracker_restored_partial [GoMath F] (m : SnapMsg F) (nm : NavMsg F) (d : Device F) (hn : m.navigator = some nm)
    (h : decodeTracker m = .ok d) (hm : ∀ r ∈ nm.routes, Restorable r) :
    List.Forall₂ (RouteOf (some [])) nm.routes d.navigator.routes := by
  have := (tracker_partial m nm d hn h).1
  generalize d.navigator.routes = rs at this
  clear hn h
  generalize nm.routes = ms at this hm
  induction this with
  | nil => exact .nil
  | cons h _ ih =>
    refine .cons ?_ (ih fun m hm' => hm m (List.mem_cons_of_mem _ hm'))
    rcases h with h | h
    · exact h.2
    · exact absurd (hm _ List.mem_cons_self) h.1

/-- A curve without points. -/
def bareCurve [GoFloat F] : CurveMsg F := ⟨[], 0, lit 0, lit 0⟩

/-- A tracker with one route whose properties are broken. -/
def broken [GoFloat F] : SnapMsg F where
  id := "d"
  userId := ""
  tick := lit 0
  duration := lit 0
  model := ""
  descr := ""
  status := 0
  color := ""
  navigator := some {
    routes := [⟨"r", lit 5, "", [⟨"t", [], "", .empty, lit 5, false, "", 1⟩], .invalid, "", 1⟩]
    routeIndex := 0, trackIndex := 0, segmentIndex := 0
    currentSegmentDistance := lit 0, currentRouteDistance := lit 0, currentTrackDistance := lit 0, currentDistance := lit 0
    offlineIndex := 0, point := some ⟨lit 0, lit 0⟩, elevation := some ⟨"e", lit 0, lit 0, lit 0, lit 0, "", some bareCurve⟩
    offlineMin := 1, offlineMax := 2, distance := lit 5, skipOffline := false, version := 1 }
  speed := some ⟨lit 0, lit 1, lit 0, some bareCurve⟩
  battery := some ⟨lit 0, lit 1, 1, lit 1⟩
  sensors := []

/-- It is decoded: the device has a blank route, but still the total distance of the lost one. -/
theorem broken_decoded [GoMath F] : ∃ d : Device F, decodeTracker broken = .ok d ∧
    (∃ r, d.navigator.routes = [r] ∧ Blank (some []) r) ∧ d.navigator.distance = lit 5 := by
  have hc : C24.CurveComplete (some (bareCurve : CurveMsg F)) := ⟨_, rfl, fun p hp => by cases hp⟩
  have : C24.Returns (decodeTracker (broken : SnapMsg F)) := by
    rw [C24.decodeTracker_iff_partial]
    refine ⟨⟨_, rfl, ?_, by simp, ⟨_, rfl, hc⟩, Or.inr ⟨Int.le_refl 0, by simp⟩⟩, ⟨_, rfl, hc⟩, by simp [broken], ?_⟩
    · intro r hr t ht s hs
      cases List.mem_singleton.mp hr
      cases List.mem_singleton.mp ht
      cases hs
    · intro s hs; cases hs
  obtain ⟨d, hd⟩ := this
  obtain ⟨h1, h2, -⟩ := tracker_partial _ _ d rfl hd
  refine ⟨d, hd, ?_, h2⟩
  generalize d.navigator.routes = rs at h1
  cases h1 with
  | cons h h' =>
    cases h'
    rcases h with h | h
    · exact absurd rfl h.1.1
    · exact ⟨_, rfl, h.2⟩

/-- **The claim is false** for trackers as well, for every number type. -/
theorem tracker_claim_fails [GoMath F] : ¬ TrackerClaim F := by
  intro h
  obtain ⟨d, hd, ⟨r, hr, hb⟩, -⟩ := broken_decoded (F := F)
  have := h _ _ d rfl hd
  rw [hr] at this
  cases this with
  | cons h' _ =>
    have := h'.id
    rw [hb] at this
    exact absurd this (by show ¬ ("" = "r"); decide)

/-! ## Examples -/

/-- The bytes of a route with the id `r` and the name `ab`: no error, a blank route. -/
example : decodeRoutesText (F := F64) [0x0a, 7, 0x0a, 1, 114, 0x32, 2, 97, 98] =
    .ok (some [⟨"", lit 0, "", "", [], none, 0⟩]) := by decide +kernel

/-- With the name `abc` it is restored. -/
example : decodeRoutesText (F := F64) [0x0a, 8, 0x0a, 1, 114, 0x32, 3, 97, 98, 99] =
    .ok (some [⟨"r", lit 0, "", "abc", [], none, 0⟩]) := by decide +kernel

/-- Properties `{` of a route lose the route. -/
example : decodeRoutesText (F := F64) [0x0a, 6, 0x0a, 1, 114, 0x2a, 1, 123] =
    .ok (some [⟨"", lit 0, "", "", [], none, 0⟩]) := by decide +kernel

/-- The same properties of a track lose only themselves. -/
example : decodeRoutesText (F := F64) [0x0a, 11, 0x0a, 1, 114, 0x22, 6, 0x0a, 1, 116, 0x22, 1, 123] =
    .ok (some [⟨"r", lit 0, "", "", [⟨"t", [], "", "", some [], lit 0, false, 0⟩], none, 0⟩]) := by decide +kernel

end C87
end GpsGen
