import Verif.Lemmas.JsonText
import Verif.Lemmas.DeviceNext
import Verif.Theorems.C52
import Verif.Lemmas.JsonF64
import Verif.Model.F64Bits
/-!
# C69: properties survive as JSON text

Any number type with decimal numbers that read as they were written. Property maps are written as JSON text into the
bytes of a snapshot and read from there. `props_round`: every key comes back with its value, integers as floats.
`tracker_text` and `routes_text` compose this with the wire format (C52): decoding the bytes of a device or of routes is
decoding their message trees, to which C21 to C24 apply. `unwritable_lost` is the limit: one value without a JSON form loses
the whole map.
-/

namespace GpsGen
variable {F : Type}

namespace C69

/-! ## Specification -/

/-- A value that has a JSON form: no channel, function, NaN or infinity; integers are those of Go. -/
def Plain [GoFloat F] [JsonFloat F] : PVal F → Prop
  | .int i | .int32 i | .int64 i => -2 ^ 63 ≤ i ∧ i < 2 ^ 63
  | .float f => ∃ l, JsonFloat.write f = some l
  | .other _ => False
  | _ => True

/-- The value that comes back: the same, an integer as the nearest float. -/
def back [GoFloat F] : PVal F → PVal F
  | .int i | .int32 i | .int64 i => .float (lit i)
  | v => v

/-- A Go map: no key twice. -/
def IsMap (m : PMap F) : Prop := (m.map (·.1)).Nodup

/-- The map `json.Unmarshal` leaves when reading these bytes, if it reports no error. -/
def readBack [GoFloat F] [JsonFloat F] (bs : Bytes) : Option (Option (PMap F)) :=
  if (readProps (F := F) bs).load.2 then some (readProps (F := F) bs).load.1 else none

/-! ## Sorting -/

theorem insert_perm (e : String × PVal F) (m : PMap F) : (PMap.insertKey e m).Perm (e :: m) := by
  induction m with
  | nil => exact List.Perm.refl _
  | cons x m ih =>
    unfold PMap.insertKey
    split
    · exact List.Perm.refl _
    · exact (ih.cons x).trans (List.Perm.swap e x m)

theorem sorted_perm (m : PMap F) : m.sorted.Perm m := by
  induction m with
  | nil => exact List.Perm.refl _
  | cons e m ih => exact (insert_perm e _).trans (ih.cons e)

theorem get_mem {m : PMap F} (h : IsMap m) (k : String) (v : PVal F) : m.get? k = some v ↔ (k, v) ∈ m := by
  induction m with
  | nil => simp [PMap.get?]
  | cons e m ih =>
    unfold IsMap at h ih
    simp only [List.map_cons, List.nodup_cons] at h
    have ih := ih h.2
    by_cases he : e.1 = k
    · have : PMap.get? (e :: m) k = some e.2 := by simp [PMap.get?, he]
      rw [this]
      constructor
      · rintro ⟨⟩; rw [← he]; exact List.mem_cons_self
      · intro hm
        rcases List.mem_cons.mp hm with hm | hm
        · rw [← hm]
        · exact absurd (List.mem_map.mpr ⟨_, hm, he.symm⟩) h.1
    · have : PMap.get? (e :: m) k = PMap.get? m k := by simp [PMap.get?, he]
      rw [this, ih]
      constructor
      · exact List.mem_cons_of_mem _
      · intro hm
        rcases List.mem_cons.mp hm with hm | hm
        · exact absurd (congrArg Prod.fst hm.symm) he
        · exact hm

theorem get_perm {m m' : PMap F} (hp : m'.Perm m) (h : IsMap m) (k : String) : m'.get? k = m.get? k := by
  have h' : IsMap m' := (hp.map _).nodup_iff.mpr h
  apply Option.ext
  intro v
  rw [get_mem h', get_mem h, hp.mem_iff]

/-- The keys are written in increasing order. -/
theorem sorted_keys (m : PMap F) : m.sorted.Pairwise (fun a b => ¬ b.1 < a.1) := by
  induction m with
  | nil => exact List.Pairwise.nil
  | cons e m ih =>
    show (PMap.insertKey e (PMap.sorted m)).Pairwise _
    generalize PMap.sorted m = l at ih
    induction l with
    | nil => exact List.pairwise_singleton _ _
    | cons x l ihl =>
      unfold PMap.insertKey
      rw [List.pairwise_cons] at ih
      split
      · rename_i hlt
        refine List.pairwise_cons.mpr ⟨?_, List.pairwise_cons.mpr ih⟩
        intro y hy
        rcases List.mem_cons.mp hy with rfl | hy
        · exact fun h => absurd h (String.lt_asymm hlt)
        · exact fun h => ih.1 y hy (String.lt_trans h hlt)
      · rename_i hlt
        refine List.pairwise_cons.mpr ⟨?_, ihl ih.2⟩
        intro y hy
        rcases List.mem_cons.mp ((insert_perm e l).mem_iff.mp hy) with rfl | hy
        · exact hlt
        · exact ih.1 y hy

/-! ## Properties -/

variable [GoFloat F] [JsonFloat F]

theorem plain_fits {v : PVal F} (h : Plain v) : Json.Fits v := by
  cases v <;> first | exact h | trivial

theorem plain_text {v : PVal F} (h : Plain v) : ∃ cs, v.text = some cs := by
  cases v with
  | float f =>
    obtain ⟨l, hl⟩ := h
    exact ⟨l.text, by rw [PVal.text, hl]; rfl⟩
  | other n => exact h.elim
  | _ => exact ⟨_, rfl⟩

theorem plain_json {v : PVal F} (h : Plain v) : ∃ j, v.toJson = some j ∧ j.toPVal = back v := by
  cases v with
  | other n => exact h.elim
  | _ => exact ⟨_, rfl, rfl⟩

theorem members_some (m : PMap F) (h : ∀ e ∈ m, Plain e.2) : ∃ cs, m.members = some cs := by
  induction m with
  | nil => exact ⟨_, rfl⟩
  | cons e m ih =>
    obtain ⟨v, hv⟩ := plain_text (h e List.mem_cons_self)
    cases m with
    | nil => exact ⟨_, by unfold PMap.members; rw [hv]; rfl⟩
    | cons e' m =>
      obtain ⟨r, hr⟩ := ih (fun x hx => h x (List.mem_cons_of_mem _ hx))
      exact ⟨_, by unfold PMap.members; rw [hv, hr]⟩

theorem members_none (m : PMap F) (e : String × PVal F) (he : e ∈ m) (h : e.2.text = none) : m.members = none := by
  induction m with
  | nil => cases he
  | cons x m ih =>
    cases m with
    | nil =>
      obtain rfl : e = x := by simpa using he
      unfold PMap.members
      rw [h]; rfl
    | cons x' m =>
      unfold PMap.members
      rcases List.mem_cons.mp he with rfl | he
      · rw [h]
      · rw [ih he]
        cases x.2.text <;> rfl

/-- **C69, as trees.** What is read from the bytes of a map is the tree of the map. -/
theorem props_bytes (p : Option (PMap F)) (h : ∀ m, p = some m → ∀ e ∈ m, Plain e.2) :
    readProps (F := F) (writeProps p) = rawProps (p.map PMap.sorted) := by
  cases p with
  | none => rfl
  | some m =>
    have hs : ∀ e ∈ m.sorted, Plain e.2 := fun e he => h m rfl e ((sorted_perm m).mem_iff.mp he)
    obtain ⟨cs, hcs⟩ := members_some m.sorted hs
    have ht : m.sorted.text = some ('{' :: (cs ++ ['}'])) := by unfold PMap.text; rw [hcs]; rfl
    obtain ⟨o, ho, hr⟩ := Json.readProps_text m.sorted (fun e he => plain_fits (hs e he)) _ ht
    show readProps (match m.sorted.text with | none => [] | some cs => utf8 (String.ofList cs)) = _
    rw [ht]
    show readProps (utf8 _) = match m.sorted.marshal with | none => RawProps.empty | some o => .object o
    rw [hr, ho]

omit [GoFloat F] [JsonFloat F] in
theorem unmarshal_go (o : JObj F) (acc : PMap F) (h : ((acc.map (·.1)) ++ o.map (·.1)).Nodup) :
    o.foldl (fun m e => m.set e.1 e.2.toPVal) acc = acc ++ o.map (fun e => (e.1, e.2.toPVal)) := by
  induction o generalizing acc with
  | nil => simp
  | cons e o ih =>
    have hne : ¬ acc.any (fun x => x.1 == e.1) := by
      intro ha
      obtain ⟨x, hx, hk⟩ := List.any_eq_true.mp ha
      have hk : x.1 = e.1 := by simpa using hk
      have := (List.nodup_append.mp h).2.2 x.1 (List.mem_map.mpr ⟨x, hx, rfl⟩) e.1 (by simp)
      exact this hk
    have hset : PMap.set acc e.1 e.2.toPVal = acc ++ [(e.1, e.2.toPVal)] := by
      unfold PMap.set
      rw [if_neg hne]
    rw [List.foldl_cons, hset, ih]
    · simp
    · simpa using h

omit [JsonFloat F] in
theorem marshal_map (m : PMap F) (o : JObj F) (h : m.marshal = some o) :
    o.map (·.1) = m.map (·.1) ∧ ∀ e ∈ m, ∃ j, e.2.toJson = some j ∧ (e.1, j) ∈ o := by
  induction m generalizing o with
  | nil => cases h; exact ⟨rfl, nofun⟩
  | cons e m ih =>
    unfold PMap.marshal at h ih
    rw [List.mapM_cons] at h
    cases hj : e.2.toJson with
    | none => rw [hj] at h; cases h
    | some j =>
      cases ho : List.mapM (fun e : String × PVal F => Option.map (fun j => (e.1, j)) e.2.toJson) m with
      | none => rw [hj, ho] at h; cases h
      | some o' =>
        rw [hj, ho] at h
        cases h
        obtain ⟨a, b⟩ := ih o' ho
        refine ⟨by simp only [List.map_cons, a], ?_⟩
        intro x hx
        rcases List.mem_cons.mp hx with rfl | hx
        · exact ⟨j, hj, List.mem_cons_self⟩
        · obtain ⟨j', h1, h2⟩ := b x hx
          exact ⟨j', h1, List.mem_cons_of_mem _ h2⟩

/-- **C69.** A map of plain values is read from the bytes it was written to: no error, the same keys, every value the
one that was stored, integers as floats. -/
theorem props_round (m : PMap F) (hm : IsMap m) (h : ∀ e ∈ m, Plain e.2) :
    ∃ m', readBack (F := F) (writeProps (some m)) = some (some m') ∧ IsMap m' ∧
      ∀ k, m'.get? k = (m.get? k).map back := by
  have hs : ∀ e ∈ m.sorted, Plain e.2 := fun e he => h e ((sorted_perm m).mem_iff.mp he)
  have hsm : IsMap m.sorted := ((sorted_perm m).map _).nodup_iff.mpr hm
  obtain ⟨cs, hcs⟩ := members_some m.sorted hs
  have ht : m.sorted.text = some ('{' :: (cs ++ ['}'])) := by unfold PMap.text; rw [hcs]; rfl
  obtain ⟨o, ho, -⟩ := Json.readProps_text m.sorted (fun e he => plain_fits (hs e he)) _ ht
  have hr : readProps (F := F) (writeProps (some m)) = .object o := by
    rw [props_bytes (some m) (by rintro _ ⟨⟩; exact h)]
    show (match m.sorted.marshal with | none => RawProps.empty | some o => .object o) = _
    rw [ho]
  obtain ⟨hk, hv⟩ := marshal_map _ _ ho
  have hu : o.unmarshal = o.map (fun e => (e.1, e.2.toPVal)) := by
    have := unmarshal_go o [] (by rw [hk]; exact hsm)
    simpa [JObj.unmarshal, PMap.make] using this
  have hi : IsMap o.unmarshal := by
    unfold IsMap
    rw [hu, List.map_map]
    show (o.map (·.1)).Nodup
    rw [hk]; exact hsm
  refine ⟨o.unmarshal, by unfold readBack; rw [hr]; rfl, hi, fun k => ?_⟩
  cases hg : m.get? k with
  | some v =>
    have hmem := (sorted_perm m).mem_iff.mpr ((get_mem hm k v).mp hg)
    obtain ⟨j, hj, hjo⟩ := hv _ hmem
    obtain ⟨j', hj', hb⟩ := plain_json (hs _ hmem)
    rw [hj'] at hj
    cases hj
    show _ = some (back v)
    rw [get_mem hi, hu, ← show j.toPVal = back v from hb]
    exact List.mem_map.mpr ⟨_, hjo, rfl⟩
  | none =>
    show _ = none
    cases hx : PMap.get? o.unmarshal k with
    | none => rfl
    | some v =>
      have hmem := (get_mem hi k v).mp hx
      have hkm : k ∈ m.sorted.map (·.1) := by
        rw [← hk]
        rw [hu] at hmem
        obtain ⟨e, he, heq⟩ := List.mem_map.mp hmem
        cases heq
        exact List.mem_map.mpr ⟨e, he, rfl⟩
      obtain ⟨e, he, hek⟩ := List.mem_map.mp hkm
      have := (get_mem hm e.1 e.2).mpr ((sorted_perm m).mem_iff.mp he)
      rw [hek, hg] at this
      cases this

/-- **C69, limit.** One value without a JSON form, in particular NaN, loses the whole map: no bytes are written, and a
nil map is read. -/
theorem unwritable_lost (m : PMap F) (e : String × PVal F) (he : e ∈ m)
    (hp : (∃ n, e.2 = .other n) ∨ ∃ f, e.2 = .float f ∧ JsonFloat.write f = none) :
    writeProps (some m) = [] ∧ readBack (F := F) (writeProps (some m)) = some none := by
  have ht : e.2.text = none := by
    rcases hp with ⟨n, hn⟩ | ⟨f, hf, hw⟩
    · rw [hn]; rfl
    · rw [hf, PVal.text, hw]; rfl
  have : writeProps (some m) = [] := by
    show (match (m.sorted.members.map fun cs => '{' :: (cs ++ ['}'])) with
      | none => []
      | some cs => utf8 (String.ofList cs)) = []
    rw [members_none m.sorted e ((sorted_perm m).mem_iff.mpr he) ht]
    rfl
  exact ⟨this, by rw [this]; rfl⟩

/-! ## Strings -/

omit [GoFloat F] [JsonFloat F] in
theorem hexChar_plain (n : Nat) (h : n < 16) : escapedU (hexChar n) = false := by
  have : ∀ m : Fin 16, escapedU (hexChar m.val) = false := by decide +kernel
  exact this ⟨n, h⟩

omit [GoFloat F] [JsonFloat F] in
/-- **C69, strings.** The text of a string contains no control characters and none of `<`, `>`, `&`, U+2028 and U+2029,
so it can be put into HTML and JavaScript; and it reads as the string. -/
theorem string_text (s : String) (rest : List Char) :
    (∀ c ∈ jsonString s, 32 ≤ c.toNat ∧ c ≠ '<' ∧ c ≠ '>' ∧ c ≠ '&' ∧ c.toNat ≠ 0x2028 ∧ c.toNat ≠ 0x2029) ∧
    ∃ t, jsonString s = '"' :: t ∧ readStr (t ++ rest) = some (s, rest) := by
  have plain : ∀ c, escapedU c = false →
      32 ≤ c.toNat ∧ c ≠ '<' ∧ c ≠ '>' ∧ c ≠ '&' ∧ c.toNat ≠ 0x2028 ∧ c.toNat ≠ 0x2029 := by
    intro c h
    unfold escapedU at h
    simp only [Bool.or_eq_false_iff, decide_eq_false_iff_not, beq_eq_false_iff_ne, ne_eq] at h
    exact ⟨by omega, h.1.1.1.1.2, h.1.1.1.2, h.1.1.2, h.1.2, h.2⟩
  constructor
  · intro c hc
    apply plain
    unfold jsonString at hc
    simp only [List.mem_cons, List.mem_append, List.mem_flatMap, List.not_mem_nil, or_false] at hc
    rcases hc with rfl | ⟨x, -, hx⟩ | rfl
    · decide
    · unfold escapeChar at hx
      split at hx
      · simp only [List.mem_cons, List.not_mem_nil, or_false] at hx; rcases hx with rfl | rfl <;> decide
      split at hx
      · simp only [List.mem_cons, List.not_mem_nil, or_false] at hx; rcases hx with rfl | rfl <;> decide
      split at hx
      · simp only [List.mem_cons, List.not_mem_nil, or_false] at hx; rcases hx with rfl | rfl <;> decide
      split at hx
      · simp only [List.mem_cons, List.not_mem_nil, or_false] at hx; rcases hx with rfl | rfl <;> decide
      split at hx
      · simp only [List.mem_cons, List.not_mem_nil, or_false] at hx; rcases hx with rfl | rfl <;> decide
      split at hx
      · simp only [escapeU, List.mem_cons, List.not_mem_nil, or_false] at hx
        rcases hx with rfl | rfl | rfl | rfl | rfl | rfl
        · decide
        · decide
        all_goals exact hexChar_plain _ (Nat.mod_lt _ (by decide))
      · rename_i h
        obtain rfl : c = x := by simpa using hx
        simpa using h
    · decide
  · refine ⟨_, rfl, ?_⟩
    rw [List.append_assoc]
    exact Json.readStr_text s rest

/-! ## Devices and routes through bytes -/

omit [GoFloat F] [JsonFloat F] in
/-- The same track; the entries of its property map, which has no order, in the order of their keys. -/
def sortTrack (t : Track F) : Track F := { t with props := t.props.map PMap.sorted }

omit [GoFloat F] [JsonFloat F] in
@[inherit_doc sortTrack]
def sortRoute (r : Route F) : Route F := { r with props := r.props.map PMap.sorted, tracks := r.tracks.map sortTrack }

omit [GoFloat F] [JsonFloat F] in
@[inherit_doc sortTrack]
def sortNav (n : Navigator F) : Navigator F := { n with routes := n.routes.map sortRoute }

omit [GoFloat F] [JsonFloat F] in
@[inherit_doc sortTrack]
def sortDevice (d : Device F) : Device F := { d with navigator := sortNav d.navigator }

/-- All properties of a route are plain. -/
structure PlainRoute (r : Route F) : Prop where
  own : ∀ m, r.props = some m → ∀ e ∈ m, Plain e.2
  tracks : ∀ t ∈ r.tracks, ∀ m, t.props = some m → ∀ e ∈ m, Plain e.2

theorem track_bytes (t : Track F) (h : ∀ m, t.props = some m → ∀ e ∈ m, Plain e.2) :
    t.snapshotBytes.mapProps readProps = (sortTrack t).snapshot := by
  unfold Track.snapshotBytes Track.snapshot TrackMsg.mapProps sortTrack
  simp only [props_bytes t.props h]

theorem route_bytes (r : Route F) (h : PlainRoute r) :
    r.snapshotBytes.mapProps readProps = (sortRoute r).snapshot := by
  unfold Route.snapshotBytes Route.snapshot RouteMsg.mapProps sortRoute
  simp only [props_bytes r.props h.own, List.map_map]
  have : r.tracks.map ((fun x : TrackMsg F Bytes => x.mapProps readProps) ∘ Track.snapshotBytes) =
      r.tracks.map (Track.snapshot ∘ sortTrack) :=
    List.map_congr_left fun t ht => track_bytes t (h.tracks t ht)
  rw [this]

theorem device_bytes (d : Device F) (h : ∀ r ∈ d.navigator.routes, PlainRoute r) :
    d.snapshotBytes.mapProps readProps = (sortDevice d).snapshot := by
  have hr : d.navigator.routes.map ((fun x : RouteMsg F Bytes => x.mapProps readProps) ∘ Route.snapshotBytes) =
      d.navigator.routes.map (Route.snapshot ∘ sortRoute) :=
    List.map_congr_left fun t ht => route_bytes t (h t ht)
  unfold Device.snapshotBytes Device.snapshot SnapMsg.mapProps Navigator.snapshotBytes NavMsg.mapProps sortDevice sortNav
    Navigator.snapshot
  simp only [Option.map_some, List.map_map, hr]

/-- **C69, devices.** Decoding the bytes of `EncodeTracker` is decoding the message tree of the device. -/
theorem tracker_text {F : Type} [GoMath F] [JsonFloat F] [WireFloat F] (d d' : Device F) (bs : Bytes)
    (h : encodeTrackerText d = .ok (d', bs)) (hp : ∀ r ∈ d'.navigator.routes, PlainRoute r)
    (hk : OkSnap d'.snapshotBytes) (hl : bs.length < 2 ^ 63) :
    d.update = .ok d' ∧ decodeTrackerText bs = (decodeTracker (sortDevice d').snapshot).map some := by
  unfold encodeTrackerText at h
  obtain ⟨d1, h1, h2⟩ := bind_eq_ok h
  cases h2
  refine ⟨h1, ?_⟩
  unfold decodeTrackerText decodeTrackerBytes
  rw [C52.snapFromBytes_partial _ hk hl (by
    intro hz
    have := congrArg SnapMsg.status hz
    simp [Device.snapshotBytes, SnapMsg.mapProps, Device.snapshot, C52.zeroSnap, Status.stopped] at this)]
  simp only
  rw [device_bytes d' hp]

/-- **C69, routes.** -/
theorem routes_text [WireFloat F] (rs : List (Route F)) (bs : Bytes) (h : encodeRoutesText rs = .ok bs)
    (hp : ∀ r ∈ rs, PlainRoute r) (hk : ∀ r ∈ rs, OkRoute r.snapshotBytes) (hl : bs.length < 2 ^ 63) :
    decodeRoutesText bs = (decodeRoutes (rs.map (fun r => (sortRoute r).snapshot))).map some := by
  unfold encodeRoutesText encodeRoutes at h
  split at h
  · cases h
  · rename_i hne
    obtain rfl : protoMarshal encRoutes ⟨rs.map Route.snapshotBytes⟩ = bs := Except.ok.inj h
    have hok : OkRoutes (⟨rs.map Route.snapshotBytes⟩ : RoutesMsg F) := by
      intro a ha
      obtain ⟨s, hs, rfl⟩ := List.mem_map.mp ha
      exact hk s hs
    have hr := C52.routes_round _ hok hl
    have hmap : (rs.map Route.snapshotBytes).map (·.mapProps readProps) = rs.map (fun r => (sortRoute r).snapshot) := by
      rw [List.map_map]
      exact List.map_congr_left fun r hr => route_bytes r (hp r hr)
    unfold decodeRoutesText decodeRoutesBytes routesFromBytes
    rw [if_neg, hr]
    · simp only
      rw [hmap]
    · intro e
      rw [List.length_eq_zero_iff.mp e] at hr
      have := congrArg RoutesMsg.routes (Option.some.inj hr)
      exact hne (by simpa using (congrArg List.length this).symm)

/-! ## Doubles -/

/-- **C69, doubles.** The values without a JSON form are those of unsupported types, NaN and infinities. -/
theorem plain_double (f : F64) : Plain (.float f) ↔ f ≠ .nan ∧ ∀ s, f ≠ .inf s := by
  have h := F64.toLit_none f
  constructor
  · rintro ⟨l, hl⟩
    have hl : F64.toLit f = some l := hl
    constructor
    · intro e; rw [h.mpr (Or.inl e)] at hl; cases hl
    · intro s e; rw [h.mpr (Or.inr ⟨s, e⟩)] at hl; cases hl
  · rintro ⟨h1, h2⟩
    cases hl : F64.toLit f with
    | none =>
      rcases h.mp hl with e | ⟨s, e⟩
      · exact absurd e h1
      · exact absurd e (h2 s)
    | some l => exact ⟨l, hl⟩

/-! Examples. -/

/-- Properties of every kind. -/
def exProps : PMap F64 :=
  [("name", .str "a<b\n\"é"), ("x", .float (F64.round false (3 / 2))), ("n", .int (2 ^ 53 + 1)), ("ok", .bool true),
    ("", .null)]

example : exProps.marshalText.map String.ofList =
    some "{\"\":null,\"n\":9007199254740993,\"name\":\"a\\u003cb\\n\\\"é\",\"ok\":true,\"x\":15e-1}" := by
  decide +kernel

example : readBack (F := F64) (writeProps (some exProps)) =
    some (some [("", .null), ("n", .float (F64.round false (2 ^ 53))), ("name", .str "a<b\n\"é"), ("ok", .bool true),
      ("x", .float (F64.round false (3 / 2)))]) := by decide +kernel

/-- Text of other programs: white space, escapes, surrogates, exponents. -/
example : readDoc (F := F64) " {\"a\\u0041\\ud83d\\ude00\" :-0.25E+1 , \"b\":[".toList = .invalid ∧
    readDoc (F := F64) " {\"a\\u0041\\ud83d\\ude00\\ud83d\" :-0.25E+1 , \"b\":\"\\/\"}\n".toList =
      .object [("aA😀\ufffd", .num (F64.round false (-5 / 2))), ("b", .str "/")] ∧
    readDoc (F := F64) "{\"a\":01}".toList = .invalid ∧ readDoc (F := F64) "{\"a\":1e999}".toList = .invalid ∧
    readDoc (F := F64) "null".toList = .null := by decide +kernel

example : readBack (F := F64) (writeProps (some (("y", .float .nan) :: exProps))) = some none := by decide +kernel

/-- A route with properties. -/
def exRoute : Route F64 := ⟨"r", F64.round false 0, "#ff0000", "", [], some exProps, 3⟩

example : PlainRoute exRoute := by
  refine ⟨?_, nofun⟩
  rintro m ⟨⟩ e he
  simp only [exProps, List.mem_cons, List.not_mem_nil, or_false] at he
  rcases he with rfl | rfl | rfl | rfl | rfl
  · trivial
  · exact (plain_double _).mpr ⟨by decide +kernel, by intro s; cases s <;> decide +kernel⟩
  · exact ⟨by norm_num, by norm_num⟩
  · trivial
  · trivial

/-- Id, version and number of properties of the routes that are read from the bytes of `exRoute`. -/
def exBack : Option (List (String × Int × Option Nat)) :=
  match encodeRoutesText [exRoute] with
  | .ok bs => match decodeRoutesText (F := F64) bs with
    | .ok (some rs) => some (rs.map fun r => (r.id, (r.version : Int), r.props.map List.length))
    | _ => none
  | .error _ => none

example : exBack = some [("r", 3, some 5)] := by decide +kernel

end C69
end GpsGen
