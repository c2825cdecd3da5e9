import Verif.Lemmas.Basic
import Verif.Model.Snapshot
/-!
# Helper lemmas: snapshot round trips of the parts
-/

namespace GpsGen
variable {F : Type}

theorem mapM_ok_of {ε α β : Type} (f : α → Except ε β) (g : α → β) (l : List α)
    (h : ∀ a ∈ l, f a = .ok (g a)) : l.mapM f = .ok (l.map g) := by
  induction l with
  | nil => rfl
  | cons a l ih =>
    have h1 := h a (by simp)
    have h2 := ih (fun b hb => h b (by simp [hb]))
    simp only [List.mapM_cons, h1, h2, List.map_cons]
    rfl

theorem mapM_map_ok {ε α β γ : Type} (f : β → Except ε γ) (s : α → β) (g : α → γ) (l : List α)
    (h : ∀ a ∈ l, f (s a) = .ok (g a)) : (l.map s).mapM f = .ok (l.map g) := by
  rw [List.mapM_map]
  exact mapM_ok_of _ g l h

theorem curve_round_trip (c : Curve F) : Curve.fromSnapshot (some c.snapshot) = .ok c := by
  have h : (c.points.map (fun p => (⟨some ⟨p.vp.x, p.vp.y⟩, some ⟨p.cp.x, p.cp.y⟩⟩ :
      ControlPointMsg F))).mapM CP.fromMsg = .ok (c.points.map id) :=
    mapM_map_ok _ _ _ _ (fun _ _ => rfl)
  simp only [Curve.fromSnapshot, Curve.snapshot, deref, ok_bind, h]
  simp

theorem sensor_round_trip (s : Sensor F) : Sensor.fromSnapshot (some s.snapshot) = .ok s := by
  simp only [Sensor.fromSnapshot, Sensor.snapshot, deref, ok_bind, curve_round_trip, pure_eq_ok]

theorem speed_round_trip (s : Speed F) : Speed.fromSnapshot (some s.snapshot) = .ok s := by
  simp only [Speed.fromSnapshot, Speed.snapshot, deref, ok_bind, curve_round_trip, pure_eq_ok]

theorem battery_round_trip (b : Battery F) : Battery.fromSnapshot (some b.snapshot) = .ok b := rfl

theorem segment_round_trip (s : Segment F) : Segment.fromSnapshot s.snapshot = .ok s := rfl

variable [GoFloat F]

/-- The value that a property has after being written to JSON and read back. -/
def PVal.json : PVal F → PVal F
  | .int i => .float (lit i)
  | .int32 i => .float (lit i)
  | .int64 i => .float (lit i)
  | v => v

/-- Whether `json.Marshal` accepts a value. -/
def PVal.supported : PVal F → Bool
  | .other _ => false
  | _ => true

/-- The properties read back from a snapshot: gone if some value cannot be marshalled. -/
def jsonProps (p : Option (PMap F)) : Option (PMap F) :=
  p.bind fun m => if m.all (fun e => e.2.supported) then some (m.map (fun e => (e.1, e.2.json)))
    else none

theorem marshal_some (m : PMap F) (h : m.all (fun e => e.2.supported) = true) :
    ∃ o, m.marshal = some o ∧ o.map (fun e => (e.1, e.2.toPVal)) = m.map (fun e => (e.1, e.2.json)) := by
  induction m with
  | nil => exact ⟨[], rfl, rfl⟩
  | cons e m ih =>
    simp only [List.all_cons, Bool.and_eq_true] at h
    obtain ⟨o, h1, h2⟩ := ih h.2
    obtain ⟨k, v⟩ := e
    have hv : ∃ j, v.toJson = some j ∧ j.toPVal = v.json := by
      cases v with
      | other n => simp [PVal.supported] at h
      | _ => exact ⟨_, rfl, rfl⟩
    obtain ⟨j, hj1, hj2⟩ := hv
    refine ⟨(k, j) :: o, ?_, by simp [h2, hj2]⟩
    unfold PMap.marshal at h1 ⊢
    simp [List.mapM_cons, hj1, h1]

theorem marshal_none (m : PMap F) (h : m.all (fun e => e.2.supported) = false) : m.marshal = none := by
  induction m with
  | nil => simp at h
  | cons e m ih =>
    obtain ⟨k, v⟩ := e
    unfold PMap.marshal at ih ⊢
    simp only [List.all_cons, Bool.and_eq_false_iff] at h
    rcases h with h | h
    · cases v <;> simp [PVal.supported] at h
      simp [List.mapM_cons, PVal.toJson]
    · simp only [List.mapM_cons, ih h]
      cases v.toJson <;> rfl

omit [GoFloat F] in
theorem foldl_set_nodup (l acc : PMap F) (h : ((acc ++ l).map (·.1)).Nodup) :
    l.foldl (fun m e => m.set e.1 e.2) acc = acc ++ l := by
  induction l generalizing acc with
  | nil => simp
  | cons e l ih =>
    have hk : ¬ acc.any (fun x => x.1 == e.1) = true := by
      intro hc
      simp only [List.any_eq_true, beq_iff_eq] at hc
      obtain ⟨x, hx, he⟩ := hc
      simp only [List.map_append, List.map_cons, List.nodup_append] at h
      exact h.2.2 x.1 (List.mem_map_of_mem hx) e.1 (by simp) he
    have hs : PMap.set acc e.1 e.2 = acc ++ [e] := by
      unfold PMap.set
      rw [if_neg hk]
    rw [List.foldl_cons, hs, ih (acc ++ [e]) (by simpa using h)]
    simp

omit [GoFloat F] in
theorem unmarshal_nodup (o : JObj F) (h : (o.map (·.1)).Nodup) :
    o.unmarshal = o.map (fun e => (e.1, e.2.toPVal)) := by
  have := foldl_set_nodup (o.map (fun e => (e.1, e.2.toPVal))) []
    (by simpa [List.map_map, Function.comp_def] using h)
  rw [List.foldl_map] at this
  simpa [JObj.unmarshal, PMap.make] using this

/-- The keys of a property map are pairwise different, as in every Go map. -/
def KeysUnique (p : Option (PMap F)) : Prop := ∀ m, p = some m → (m.map (·.1)).Nodup

theorem props_load (p : Option (PMap F)) (h : KeysUnique p) :
    (rawProps p).load = (jsonProps p, true) := by
  cases p with
  | none => rfl
  | some m =>
    simp only [rawProps, jsonProps, Option.bind]
    cases hm : m.all (fun e => e.2.supported) with
    | false => rw [marshal_none m hm]; rfl
    | true =>
      obtain ⟨o, h1, h2⟩ := marshal_some m hm
      rw [h1]
      have hk : (o.map (·.1)).Nodup := by
        have : o.map (·.1) = m.map (·.1) := by
          have := congrArg (List.map (·.1)) h2
          simpa [List.map_map, Function.comp_def] using this
        rw [this]; exact h m rfl
      simp only [RawProps.load, unmarshal_nodup o hk, h2, if_true]

/-- What a track becomes. -/
def Track.reloaded (t : Track F) : Track F := { t with props := jsonProps t.props }

theorem track_round_trip (t : Track F) (h : KeysUnique t.props) :
    Track.fromSnapshot t.snapshot = .ok t.reloaded := by
  have hseg : (t.segments.map Segment.snapshot).mapM Segment.fromSnapshot = .ok (t.segments.map id) :=
    mapM_map_ok _ _ _ _ (fun _ _ => rfl)
  simp only [Track.fromSnapshot, Track.snapshot, hseg, ok_bind, props_load _ h, pure_eq_ok, List.map_id]
  rfl

/-- What a route becomes. -/
def Route.reloaded (r : Route F) : Route F :=
  { r with props := jsonProps r.props, tracks := r.tracks.map Track.reloaded }

/-- A route name accepted by `ParseName`, or no name. -/
def NameOk (name : String) : Prop := name = "" ∨ (3 ≤ goLen name ∧ goLen name ≤ 256)

theorem goLen_pos_iff (s : String) : goLen s > 0 ↔ s ≠ "" := by
  unfold goLen
  have := String.utf8ByteSize_eq_zero_iff (s := s)
  constructor
  · intro h hc; rw [this.mpr hc] at h; omega
  · intro h; rcases Nat.eq_zero_or_pos s.utf8ByteSize with h0 | h0
    · exact absurd (this.mp h0) h
    · exact h0

theorem route_round_trip (r : Route F) (hn : NameOk r.name) (h : KeysUnique r.props)
    (ht : ∀ t ∈ r.tracks, KeysUnique t.props) :
    Route.fromSnapshot r.snapshot = .ok (r.reloaded, none) := by
  have htr : (r.tracks.map Track.snapshot).mapM Track.fromSnapshot =
      .ok (r.tracks.map Track.reloaded) :=
    mapM_map_ok _ _ _ _ (fun t hm => track_round_trip t (ht t hm))
  simp only [Route.fromSnapshot, Route.snapshot, htr, ok_bind, props_load _ h]
  rcases hn with hn | ⟨h1, h2⟩
  · have : ¬ goLen r.name > 0 := by rw [hn]; decide
    simp only [this, Bool.not_true, Bool.false_eq_true, if_false, pure_eq_ok]
    simp only [Route.reloaded]
    rw [← hn]
  · have hp : parseName r.name = .ok r.name := by
      unfold parseName
      rw [if_neg (by omega), if_neg (by omega)]
    have : goLen r.name > 0 := by omega
    simp only [this, Bool.not_true, Bool.false_eq_true, if_false, if_true, hp, pure_eq_ok]
    rfl

end GpsGen
