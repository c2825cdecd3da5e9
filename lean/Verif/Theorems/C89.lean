import Verif.Lemmas.XmlText
import Verif.Theorems.C45
import Verif.Theorems.C53
/-!
# C89: GPX files as text

`Decode` of the text that `Encode` makes gives what C45 says, if the keys of the route properties are XML names. Keys are
written as they are, so the claim fails without this: with a key like `a b` the text cannot be read at all, a key like
`a="" id` makes two attributes of one property and replaces the id of the route, a prefix before a colon is lost and so is
the property with the empty key. Characters that XML does not allow become U+FFFD.

Any number type, any text form of floats and coordinates that reads what it writes.
-/

namespace GpsGen
variable {F : Type}

namespace C89
open C21 (ApiTrack ApiRoute GoMap)
open C44 (contents)
open C45 XmlText

/-! ## Specification -/

/-- The beginning of a name. -/
def NameStart (N : NameChars) (c : Char) : Prop :=
  c.isAlpha = true ∨ c = '_' ∨ (128 ≤ c.toNat ∧ N.first c = true)

/-- The rest of a name. -/
def NamePart (N : NameChars) (c : Char) : Prop :=
  NameStart N c ∨ c.isDigit = true ∨ c = '-' ∨ c = '.' ∨ (128 ≤ c.toNat ∧ N.more c = true)

/-- An XML name without a colon. -/
def KeyName (N : NameChars) (k : String) : Prop :=
  ∃ c cs, k.toList = c :: cs ∧ NameStart N c ∧ ∀ x ∈ cs, NamePart N x

/-- Characters of XML documents only. -/
def XmlOnly (s : String) : Prop :=
  ∀ c ∈ s.toList, c = '\t' ∨ c = '\n' ∨ c = '\r' ∨ (32 ≤ c.toNat ∧ c.toNat ≠ 0xFFFE ∧ c.toNat ≠ 0xFFFF)

/-- Not empty, no white space at the ends. -/
def Trimmed (s : String) : Prop :=
  ∃ c d, s.toList.head? = some c ∧ s.toList.getLast? = some d ∧ c.isWhitespace = false ∧ d.isWhitespace = false

/-- Files are indented with blanks or tabs, coordinates are read as they were written. -/
structure LayoutOk (L : GpxLayout F) (T : GpxText F) : Prop where
  indent : ∀ c ∈ L.indent.toList, c = ' ' ∨ c = '\t'
  parse : ∀ x, T.parseFloat (L.coord x) = some (T.coord x)
  some : ∀ x, L.coord x ≠ ""
  legal : ∀ x, XmlOnly (L.coord x)

/-- Routes whose ids and tracks can be written as text and whose texts have characters of XML only. -/
structure TextOk (T : GpxText F) (r : Route F) : Prop where
  tracks : r.tracks ≠ []
  ids : ∀ t ∈ r.tracks, Trimmed t.id
  own : XmlOnly r.id ∧ XmlOnly r.name ∧ XmlOnly r.color ∧ XmlOnly (T.f2s r.dist)
  props : ∀ e ∈ contents r.props, XmlOnly (T.print e.2)
  ofTracks : ∀ t ∈ r.tracks, XmlOnly t.id ∧ XmlOnly t.name ∧ XmlOnly t.color ∧ XmlOnly (T.f2s t.dist)

/-- The claim: routes come back from the text as C45 says. -/
def Claim [GoMath F] (N : NameChars) (L : GpxLayout F) (T : GpxText F) : Prop :=
  ∀ (gen : Nat → Nat → String × String) (rs : List (Route F)), rs ≠ [] →
    (∀ r ∈ rs, ApiRoute r ∧ Plain T r ∧ TextOk T r) →
    ∃ text rs', gpxEncodeText L T rs = .ok text ∧ gpxDecodeText N T gen text = .ok (some (.ok rs')) ∧
      List.Forall₂ (RouteBack T) rs rs'

/-! ## Names and characters -/

theorem start_first {N : NameChars} {c : Char} (h : NameStart N c) : isFirst N c = true ∧ c ≠ ':' := by
  unfold isFirst
  rcases h with h | rfl | ⟨h1, h2⟩
  · have hlt : c.toNat < 128 := by
      simp only [Char.isAlpha, Char.isUpper, Char.isLower, Bool.or_eq_true, Bool.and_eq_true, decide_eq_true_eq] at h
      have : c.toNat = c.val.toNat := rfl
      rcases h with h | h
      · have := h.2; have h3 : c.val.toNat ≤ 90 := by simpa using UInt32.le_iff_toNat_le.mp this
        omega
      · have := h.2; have h3 : c.val.toNat ≤ 122 := by simpa using UInt32.le_iff_toNat_le.mp this
        omega
    rw [if_pos hlt]
    refine ⟨by simp [h], ?_⟩
    rintro rfl
    revert h
    decide
  · exact ⟨by rw [if_pos (by decide)]; decide, by decide⟩
  · rw [if_neg (by omega)]
    refine ⟨h2, ?_⟩
    rintro rfl
    exact absurd h1 (by decide)

theorem part_more {N : NameChars} {c : Char} (h : NamePart N c) : isMore N c = true ∧ c ≠ ':' := by
  unfold isMore
  rcases h with h | h | rfl | rfl | ⟨h1, h2⟩
  · obtain ⟨h1, h2⟩ := start_first h
    exact ⟨by simp [h1], h2⟩
  · have hlt : c.toNat < 128 := by
      simp only [Char.isDigit, Bool.and_eq_true, decide_eq_true_eq] at h
      have : c.toNat = c.val.toNat := rfl
      have h3 : c.val.toNat ≤ 57 := by simpa using UInt32.le_iff_toNat_le.mp h.2
      omega
    rw [if_pos hlt]
    refine ⟨by simp [h], ?_⟩
    rintro rfl
    revert h
    decide
  · exact ⟨by rw [if_pos (by decide)]; simp, by decide⟩
  · exact ⟨by rw [if_pos (by decide)]; simp, by decide⟩
  · rw [if_neg (by omega)]
    refine ⟨by simp [h2], ?_⟩
    rintro rfl
    exact absurd h1 (by decide)

theorem key_isName {N : NameChars} {k : String} (h : KeyName N k) : isName N k.toList = true ∧ ':' ∉ k.toList := by
  obtain ⟨c, cs, e, h1, h2⟩ := h
  have hc : ':' ∉ k.toList := by
    rw [e]
    intro hc
    rcases List.mem_cons.mp hc with h | h
    · exact (start_first h1).2 h.symm
    · exact (part_more (h2 _ h)).2 rfl
  refine ⟨?_, hc⟩
  have hcount : (c :: cs).count ':' = 0 := List.count_eq_zero.mpr (by rw [← e]; exact hc)
  rw [e]
  simp only [isName, Bool.and_eq_true, List.all_eq_true, decide_eq_true_eq]
  exact ⟨⟨(start_first h1).1, fun x hx => (part_more (h2 x hx)).1⟩, by omega⟩

theorem local_plain (k : String) (h : ':' ∉ k.toList) : localName k = k := by
  have : k.toList.dropWhile (· != ':') = [] := by
    revert h
    generalize k.toList = l
    intro h
    induction l with
    | nil => rfl
    | cons c l ih =>
      have hc : (c != ':') = true := by
        simp only [bne_iff_ne, ne_eq]
        rintro rfl
        exact h (by simp)
      rw [List.dropWhile_cons, if_pos hc]
      exact ih fun hm => h (by simp [hm])
  unfold localName
  simp [this]

/-- Words of letters are names. -/
theorem word (N : NameChars) (s : String) (h : (decide (s.toList ≠ []) && s.toList.all Char.isAlpha) = true) :
    isName N s.toList = true := by
  simp only [Bool.and_eq_true, decide_eq_true_eq, List.all_eq_true] at h
  obtain ⟨h1, h2⟩ := h
  obtain ⟨c, cs, e⟩ := List.exists_cons_of_ne_nil h1
  refine (key_isName (N := N) ⟨c, cs, e, Or.inl (h2 c (by simp [e])), fun x hx => Or.inl (Or.inl (h2 x (by simp [e, hx])))⟩).1

theorem xmlOnly_legal {s : String} (h : XmlOnly s) : Legal s := by
  intro c hc
  unfold xmlChar
  rcases h c hc with rfl | rfl | rfl | ⟨h1, h2, h3⟩
  · decide
  · decide
  · decide
  · have n1 : c ≠ '￾' := by rintro rfl; exact h2 (by decide)
    have n2 : c ≠ '￿' := by rintro rfl; exact h3 (by decide)
    simp [h1, n1, n2]

theorem trimmed_ne {s : String} (h : Trimmed s) : s ≠ "" := by
  rintro rfl
  obtain ⟨c, d, h, -⟩ := h
  cases h

/-! ## Trees -/

theorem goodAll_lines (N : NameChars) (L : GpxLayout F) (hL : ∀ c ∈ L.indent.toList, c = ' ' ∨ c = '\t') (d : Nat) (ks : List Xml)
    (h : ∀ k ∈ ks, Good N k ∧ isChars k = false) (rest : List Xml) (hr : GoodAll N rest) :
    GoodAll N (ks.flatMap (fun k => [gpxLine L d, k]) ++ rest) := by
  have hline : Good N (gpxLine L d) := by
    unfold gpxLine
    simp only [Good]
    refine ⟨?_, ?_⟩
    · intro hc
      have := congrArg String.toList hc
      simp at this
    · intro c hc
      rw [String.toList_ofList] at hc
      rcases List.mem_cons.mp hc with rfl | hc
      · exact Or.inr (Or.inr rfl)
      · obtain ⟨l, hl, hc⟩ := List.mem_flatten.mp hc
        rw [List.eq_of_mem_replicate hl] at hc
        rcases hL c hc with h | h
        · exact Or.inl h
        · exact Or.inr (Or.inl h)
  induction ks with
  | nil => exact hr
  | cons k ks ih =>
    have ih := ih fun x hx => h x (by simp [hx])
    obtain ⟨h1, h2⟩ := h k (by simp)
    simp only [List.flatMap_cons, List.cons_append, List.nil_append, GoodAll]
    refine ⟨hline, ?_, h1, ?_, ih⟩
    · intro _ x hx
      cases hx
      exact h2
    · intro hc
      rw [h2] at hc
      cases hc

theorem good_line (N : NameChars) (L : GpxLayout F) (hL : ∀ c ∈ L.indent.toList, c = ' ' ∨ c = '\t') (d : Nat) :
    GoodAll N [gpxLine L d] := by
  have := goodAll_lines N L hL d [.elem "a" [] []] (by
    intro k hk
    simp only [List.mem_singleton] at hk
    subst hk
    exact ⟨by simp only [Good, GoodAll]; exact ⟨rfl, by simp, trivial⟩, rfl⟩) [] trivial
  simp only [List.flatMap_cons, List.flatMap_nil, List.append_nil, GoodAll] at this
  exact ⟨this.1, by simp, trivial⟩

theorem good_lines (N : NameChars) (L : GpxLayout F) (hL : ∀ c ∈ L.indent.toList, c = ' ' ∨ c = '\t') (d : Nat) (ks : List Xml)
    (h : ∀ k ∈ ks, Good N k ∧ isChars k = false) : GoodAll N (gpxLines L d ks) := by
  unfold gpxLines
  split
  · trivial
  · exact goodAll_lines N L hL (d + 1) ks h _ (good_line N L hL d)

theorem plainAll_map (ks : List Xml) : plainAll ks = ks.map plain := by
  induction ks with
  | nil => rfl
  | cons k ks ih => rw [plainAll, ih]; rfl

theorem elems_append (a b : List Xml) : elems (a ++ b) = elems a ++ elems b := by
  induction a with
  | nil => rfl
  | cons k a ih => cases k <;> simp [elems, ih]

theorem named_append (s : String) (a b : List Xml) : elemsNamed s (a ++ b) = elemsNamed s a ++ elemsNamed s b := by
  induction a with
  | nil => rfl
  | cons k a ih =>
    cases k with
    | elem n as ks =>
      by_cases h : localName n = s
      · simp [elemsNamed, h, ih]
      · simp [elemsNamed, h, ih]
    | text t => simp [elemsNamed, ih]
    | space t => simp [elemsNamed, ih]

theorem elems_lines (L : GpxLayout F) (d : Nat) (ks : List Xml) : elems (plainAll (gpxLines L d ks)) = elems (plainAll ks) := by
  unfold gpxLines
  split
  · rename_i h; rw [h]
  · rw [plainAll_map, List.map_append, elems_append, plainAll_map]
    have : elems ([gpxLine L d].map plain) = [] := rfl
    rw [this, List.append_nil]
    clear this
    induction ks with
    | nil => rfl
    | cons k ks ih =>
      rw [List.flatMap_cons, List.map_append, elems_append]
      by_cases h : ks = []
      · subst h
        show elems [plain (gpxLine L (d + 1)), plain k] ++ [] = elems [plain k]
        rw [List.append_nil]
        rfl
      · rw [ih h]
        show elems [plain (gpxLine L (d + 1)), plain k] ++ elems (ks.map plain) = elems ([plain k] ++ ks.map plain)
        rw [elems_append]
        rfl

theorem named_lines (s : String) (L : GpxLayout F) (d : Nat) (ks : List Xml) :
    elemsNamed s (plainAll (gpxLines L d ks)) = elemsNamed s (plainAll ks) := by
  unfold gpxLines
  split
  · rename_i h; rw [h]
  · rw [plainAll_map, List.map_append, named_append, plainAll_map]
    have : elemsNamed s ([gpxLine L d].map plain) = [] := rfl
    rw [this, List.append_nil]
    clear this
    induction ks with
    | nil => rfl
    | cons k ks ih =>
      rw [List.flatMap_cons, List.map_append, named_append]
      by_cases h : ks = []
      · subst h
        show elemsNamed s [plain (gpxLine L (d + 1)), plain k] ++ [] = elemsNamed s [plain k]
        rw [List.append_nil]
        rfl
      · rw [ih h]
        show elemsNamed s [plain (gpxLine L (d + 1)), plain k] ++ elemsNamed s (ks.map plain) =
          elemsNamed s ([plain k] ++ ks.map plain)
        rw [named_append]
        rfl

theorem named_map {α : Type} (s n : String) (as : α → Attrs) (ks : α → List Xml) (l : List α) :
    elemsNamed s (l.map fun x => .elem n (as x) (ks x)) = if localName n = s then l.map fun x => (as x, ks x) else [] := by
  induction l with
  | nil => split <;> rfl
  | cons a l ih =>
    rw [List.map_cons, elemsNamed, ih]
    split <;> rfl

theorem elems_map {α : Type} (n : String) (as : α → Attrs) (ks : α → List Xml) (l : List α) :
    elems (l.map fun x => .elem n (as x) (ks x)) = l.map fun x => (localName n, as x, ks x) := by
  induction l with
  | nil => rfl
  | cons a l ih => rw [List.map_cons, elems, ih]; rfl

theorem readList_map {α β γ : Type} (f : β → Option γ) (g : α → β) (h : α → γ) (l : List α) (hl : ∀ a ∈ l, f (g a) = some (h a)) :
    gpxReadList f (l.map g) = some (l.map h) := by
  induction l with
  | nil => rfl
  | cons a l ih =>
    rw [List.map_cons, gpxReadList, hl a (by simp), ih fun x hx => hl x (by simp [hx])]
    rfl

/-! ## The document -/

theorem good_point (N : NameChars) (L : GpxLayout F) (p : LatLon F) : Good N (gpxPointXml L p) ∧ isChars (gpxPointXml L p) = false := by
  unfold gpxPointXml
  refine ⟨?_, rfl⟩
  simp only [Good, GoodAll, and_true]
  refine ⟨rfl, ?_⟩
  intro a ha
  simp only [List.mem_cons, List.not_mem_nil, or_false] at ha
  rcases ha with rfl | rfl
  · exact Or.inr (word N "lat" (by decide))
  · exact Or.inr (word N "lon" (by decide))

theorem good_seg (N : NameChars) (L : GpxLayout F) (hL : ∀ c ∈ L.indent.toList, c = ' ' ∨ c = '\t') (t : Track F) :
    Good N (gpxSegXml L t) ∧ isChars (gpxSegXml L t) = false := by
  unfold gpxSegXml
  refine ⟨?_, rfl⟩
  simp only [Good]
  refine ⟨rfl, by simp, good_lines N L hL 2 _ ?_⟩
  intro k hk
  obtain ⟨p, -, rfl⟩ := List.mem_map.mp hk
  exact good_point N L p

theorem good_trk (N : NameChars) (L : GpxLayout F) (hL : ∀ c ∈ L.indent.toList, c = ' ' ∨ c = '\t') (r : Route F) :
    Good N (gpxTrkXml L r) ∧ isChars (gpxTrkXml L r) = false := by
  unfold gpxTrkXml
  refine ⟨?_, rfl⟩
  simp only [Good]
  refine ⟨rfl, by simp, good_lines N L hL 1 _ ?_⟩
  intro k hk
  obtain ⟨t, -, rfl⟩ := List.mem_map.mp hk
  exact good_seg N L hL t

/-- Keys are names, perhaps with a prefix, or empty; tracks have ids. -/
structure NodesOk (N : NameChars) (r : Route F) : Prop where
  keys : ∀ e ∈ contents r.props, e.1 = "" ∨ isName N e.1.toList = true
  ids : ∀ t ∈ r.tracks, t.id ≠ ""

theorem own_attrs (N : NameChars) (a b c d e : String) :
    ∀ x ∈ ([("id", a), ("name", b), ("color", c), ("distance", d), ("units", e)] : Attrs), GoodAttr N x := by
  intro x hx
  simp only [List.mem_cons, List.not_mem_nil, or_false] at hx
  rcases hx with rfl | rfl | rfl | rfl | rfl
  · exact Or.inr (word N "id" (by decide))
  · exact Or.inr (word N "name" (by decide))
  · exact Or.inr (word N "color" (by decide))
  · exact Or.inr (word N "distance" (by decide))
  · exact Or.inr (word N "units" (by decide))

theorem track_attrs (N : NameChars) (b c d : String) :
    ∀ x ∈ ([("name", b), ("color", c), ("distance", d)] : Attrs), GoodAttr N x := by
  intro x hx
  simp only [List.mem_cons, List.not_mem_nil, or_false] at hx
  rcases hx with rfl | rfl | rfl
  · exact Or.inr (word N "name" (by decide))
  · exact Or.inr (word N "color" (by decide))
  · exact Or.inr (word N "distance" (by decide))

theorem good_track (N : NameChars) (T : GpxText F) (t : Track F) (h : t.id ≠ "") :
    Good N (gpxTrackXml (gpxTrackNode T t)) ∧ isChars (gpxTrackXml (gpxTrackNode T t)) = false := by
  unfold gpxTrackXml gpxTrackNode
  refine ⟨?_, rfl⟩
  simp only [Good, GoodAll]
  exact ⟨rfl, track_attrs N _ _ _, h, by simp, trivial⟩

theorem route_attrs (N : NameChars) (T : GpxText F) (r : Route F)
    (h : ∀ e ∈ contents r.props, e.1 = "" ∨ isName N e.1.toList = true) : ∀ x ∈ (gpxRouteNode T r).attrs, GoodAttr N x := by
  intro x hx
  rcases List.mem_append.mp hx with hx | hx
  · exact own_attrs N _ _ _ _ _ x hx
  · rw [C44.contents_route] at hx
    obtain ⟨e, he, rfl⟩ := List.mem_map.mp hx
    exact h e he

theorem good_route (N : NameChars) (L : GpxLayout F) (hL : ∀ c ∈ L.indent.toList, c = ' ' ∨ c = '\t') (T : GpxText F) (r : Route F)
    (h : NodesOk N r) : Good N (gpxRouteXml L (gpxRouteNode T r)) ∧ isChars (gpxRouteXml L (gpxRouteNode T r)) = false := by
  unfold gpxRouteXml
  refine ⟨?_, rfl⟩
  simp only [Good]
  refine ⟨rfl, route_attrs N T r h.keys, good_lines N L hL 3 _ ?_⟩
  intro k hk
  obtain ⟨n, hn, rfl⟩ := List.mem_map.mp hk
  obtain ⟨t, ht, rfl⟩ := List.mem_map.mp hn
  exact good_track N T t (h.ids t ht)

/-- The element that holds the routes. -/
def gpsgenXml (L : GpxLayout F) (T : GpxText F) (rs : List (Route F)) : Xml :=
  .elem "gpsgen" [] (gpxLines L 2 (rs.map fun r => gpxRouteXml L (gpxRouteNode T r)))

/-- The extensions of the document. -/
def extXml (L : GpxLayout F) (T : GpxText F) (rs : List (Route F)) : Xml := .elem "extensions" [] (gpxLines L 1 [gpsgenXml L T rs])

/-- The metadata of the document. -/
def metaXml (L : GpxLayout F) : Xml :=
  .elem "metadata" [] (gpxLines L 1 [.elem "author" [] (gpxLines L 2 [.elem "name" [] [.text "go-gpsgen"]])])

theorem kids_eq (L : GpxLayout F) (T : GpxText F) (rs : List (Route F)) :
    gpxKids L T rs = gpxLines L 0 ((metaXml L :: rs.map (gpxTrkXml L)) ++ [extXml L T rs]) := rfl

theorem good_meta (N : NameChars) (L : GpxLayout F) (hL : ∀ c ∈ L.indent.toList, c = ' ' ∨ c = '\t') :
    Good N (metaXml L) ∧ isChars (metaXml L) = false := by
  unfold metaXml
  refine ⟨?_, rfl⟩
  simp only [Good]
  refine ⟨rfl, by simp, good_lines N L hL 1 _ ?_⟩
  intro k hk
  simp only [List.mem_singleton] at hk
  subst hk
  refine ⟨?_, rfl⟩
  simp only [Good]
  refine ⟨rfl, by simp, good_lines N L hL 2 _ ?_⟩
  intro k hk
  simp only [List.mem_singleton] at hk
  subst hk
  refine ⟨?_, rfl⟩
  simp only [Good, GoodAll]
  exact ⟨rfl, by simp, by simp, by simp, trivial⟩

theorem good_kids (N : NameChars) (L : GpxLayout F) (hL : ∀ c ∈ L.indent.toList, c = ' ' ∨ c = '\t') (T : GpxText F)
    (rs : List (Route F)) (h : ∀ r ∈ rs, NodesOk N r) : GoodAll N (gpxKids L T rs) := by
  rw [kids_eq]
  apply good_lines N L hL
  intro k hk
  rcases List.mem_append.mp hk with hk | hk
  · rcases List.mem_cons.mp hk with rfl | hk
    · exact good_meta N L hL
    · obtain ⟨r, -, rfl⟩ := List.mem_map.mp hk
      exact good_trk N L hL r
  · simp only [List.mem_singleton] at hk
    subst hk
    refine ⟨?_, rfl⟩
    simp only [extXml, Good]
    refine ⟨rfl, by simp, good_lines N L hL 1 _ ?_⟩
    intro k hk
    simp only [List.mem_singleton] at hk
    subst hk
    refine ⟨?_, rfl⟩
    simp only [gpsgenXml, Good]
    refine ⟨rfl, by simp, good_lines N L hL 2 _ ?_⟩
    intro k hk
    obtain ⟨r, hr, rfl⟩ := List.mem_map.mp hk
    exact good_route N L hL T r (h r hr)

/-! ## The root element -/

theorem attrs_space (N : NameChars) (f : Nat) (cs : List Char) : readAttrs N f (' ' :: cs) = readAttrs N f cs := by
  cases f with
  | zero => rfl
  | succ f =>
    have : skipSpace (' ' :: cs) = skipSpace cs := rfl
    rw [readAttrs, readAttrs, this]

theorem gpx_attrs (N : NameChars) : ∀ a ∈ gpxAttrs, GoodAttr N a := by
  intro a ha
  simp only [gpxAttrs, List.mem_cons, List.not_mem_nil, or_false] at ha
  rcases ha with rfl | rfl | rfl <;> exact Or.inr (word N _ (by decide))

theorem root_elem (N : NameChars) (g : Nat) (cs : List Char) :
    readElem N (g + 1) ("gpx".toList ++ ' ' :: (gpxAttrs.flatMap attrText ++ '>' :: cs)) =
      (readKids N g cs).bind fun x => (readEnd N "gpx" x.2).map fun r => (.elem "gpx" (cleanAttrs gpxAttrs) x.1, r) := by
  have hl := attrs_length gpxAttrs
  rw [readElem, read_name N "gpx" rfl _ (by intro c hc; cases hc; decide)]
  simp only [Option.bind_some, attrs_space]
  rw [read_attrs N gpxAttrs (gpx_attrs N) _ (by simp only [List.length_append, List.length_cons]; omega)]
  rfl

theorem root_text (N : NameChars) (cs : List Char) : parseXml N (gpxHeader ++ cs) =
    (readElem N (2 * (cs.length + 5)) ("gpx".toList ++ ' ' :: cs)).map fun x => x.1 := by
  unfold parseXml
  have hlen : (gpxHeader ++ cs).length + 1 = (cs.length + 42) + 3 := by
    have : gpxHeader.length = 44 := by decide
    rw [List.length_append, this]
    omega
  rw [hlen, readRoot, if_neg (by intro h; cases h)]
  have h1 : (gpxHeader ++ cs).head? = some '<' := rfl
  have h2 : (gpxHeader ++ cs).tail.head? = some '?' := rfl
  have h3 : skipInst (gpxHeader ++ cs).tail.tail = some ('\n' :: '<' :: ("gpx".toList ++ ' ' :: cs)) := rfl
  rw [if_pos h1, if_pos h2, h3, Option.bind_some, readRoot, if_neg (by intro h; cases h), if_neg (by simp)]
  have h4 : ('\n' :: '<' :: ("gpx".toList ++ ' ' :: cs)).takeWhile (· != '<') = ['\n'] := rfl
  have h5 : ('\n' :: '<' :: ("gpx".toList ++ ' ' :: cs)).dropWhile (· != '<') = '<' :: ("gpx".toList ++ ' ' :: cs) := rfl
  have h6 : decodeText ['\n'] = some "\n" := by decide
  rw [h4, h5, if_neg (by decide), h6, Option.bind_some, readRoot, if_neg (by intro h; cases h)]
  have h7 : ¬ ('<' :: ("gpx".toList ++ ' ' :: cs)).tail.head? = some '?' := by simp
  have h8 : ('<' :: ("gpx".toList ++ ' ' :: cs)).length = cs.length + 5 := by simp
  have h9 : ('<' :: ("gpx".toList ++ ' ' :: cs)).head? = some '<' := rfl
  rw [if_pos h9, if_neg h7, h8]
  rfl

theorem root_read (N : NameChars) (ks : List Xml) (h : GoodAll N ks) :
    parseXml N (gpxHeader ++ (gpxAttrs.flatMap attrText ++ '>' :: (Xml.writeAll ks ++ "</gpx>".toList))) =
      some (.elem "gpx" (cleanAttrs gpxAttrs) (plainAll ks)) := by
  rw [root_text]
  have hn := needAll_length N ks h
  obtain ⟨g, hg⟩ : ∃ g, 2 * ((gpxAttrs.flatMap attrText ++ '>' :: (Xml.writeAll ks ++ "</gpx>".toList)).length + 5) = g + 1 :=
    ⟨_, rfl⟩
  have hfuel : needAll ks ≤ g := by
    simp only [List.length_append, List.length_cons] at hg
    omega
  rw [hg, root_elem, read_all N ks h g hfuel "</gpx>".toList (Or.inr ⟨_, rfl⟩)]
  have : readEnd N "gpx" "</gpx>".toList = some [] := read_end N "gpx" rfl []
  rw [Option.bind_some, this]
  rfl

/-! ## Reading the document -/

/-- Attributes as they are seen in the text. -/
def seen (as : Attrs) : Attrs := (as.filter fun a => a.1 != "").map fun a => (localName a.1, clean a.2)

/-- An extension node as it is seen in the text. -/
def seenNode (n : GpxRouteNode) : GpxRouteNode := ⟨seen n.attrs, n.nodes.map fun t => ⟨seen t.attrs, clean t.data⟩⟩

theorem seen_eq (as : Attrs) : localAttrs (cleanAttrs as) = seen as := by
  unfold localAttrs cleanAttrs seen
  rw [List.map_map]
  rfl

theorem read_coord [GoFloat F] (L : GpxLayout F) (T : GpxText F) (hL : LayoutOk L T) (p : LatLon F) :
    gpxReadPoint T (cleanAttrs [("lat", L.coord p.lat), ("lon", L.coord p.lon)]) = some ⟨T.coord p.lat, T.coord p.lon⟩ := by
  have e : cleanAttrs [("lat", L.coord p.lat), ("lon", L.coord p.lon)] = [("lat", L.coord p.lat), ("lon", L.coord p.lon)] := by
    simp [cleanAttrs, clean_legal (xmlOnly_legal (hL.legal _))]
  have l1 : localName "lat" = "lat" := by decide
  have l2 : localName "lon" = "lon" := by decide
  have e2 : localAttrs [("lat", L.coord p.lat), ("lon", L.coord p.lon)] = [("lat", L.coord p.lat), ("lon", L.coord p.lon)] := by
    simp [localAttrs, l1, l2]
  have h1 : gpxReadCoord T [("lat", L.coord p.lat), ("lon", L.coord p.lon)] "lat" = some (T.coord p.lat) := by
    unfold gpxReadCoord
    rw [e2]
    simp [hL.some, hL.parse]
  have h2 : gpxReadCoord T [("lat", L.coord p.lat), ("lon", L.coord p.lon)] "lon" = some (T.coord p.lon) := by
    unfold gpxReadCoord
    rw [e2]
    simp [hL.some, hL.parse]
  rw [e, gpxReadPoint, h1, h2]
  rfl

theorem read_points [GoFloat F] (L : GpxLayout F) (T : GpxText F) (hL : LayoutOk L T) (t : Track F) :
    gpxReadPoints T "trkpt" (plainAll (gpxLines L 2 ((Track.points t.segments).map (gpxPointXml L)))) = some (gpxPoints T t) := by
  have hn : localName "trkpt" = "trkpt" := by decide
  have e : plainAll ((Track.points t.segments).map (gpxPointXml L)) = (Track.points t.segments).map fun p =>
      .elem "trkpt" (cleanAttrs [("lat", L.coord p.lat), ("lon", L.coord p.lon)]) [] := by
    rw [plainAll_map, List.map_map]
    apply List.map_congr_left
    intro p _
    simp only [Function.comp, gpxPointXml, plain, plainAll]
  unfold gpxReadPoints
  rw [named_lines, e, named_map, if_pos hn]
  exact readList_map _ _ _ _ fun p _ => read_coord L T hL p

theorem read_segs [GoFloat F] (L : GpxLayout F) (T : GpxText F) (hL : LayoutOk L T) (r : Route F) :
    gpxReadList (fun e => gpxReadPoints T "trkpt" e.2) (elemsNamed "trkseg" (plainAll (gpxLines L 1 (r.tracks.map (gpxSegXml L))))) =
      some (r.tracks.map (gpxPoints T)) := by
  have hn : localName "trkseg" = "trkseg" := by decide
  have e : plainAll (r.tracks.map (gpxSegXml L)) = r.tracks.map fun t => .elem "trkseg" (cleanAttrs [])
      (plainAll (gpxLines L 2 ((Track.points t.segments).map (gpxPointXml L)))) := by
    rw [plainAll_map, List.map_map]
    apply List.map_congr_left
    intro t _
    simp only [Function.comp, gpxSegXml, plain]
  rw [named_lines, e, named_map, if_pos hn]
  exact readList_map _ _ _ _ fun t _ => read_points L T hL t

theorem read_node (L : GpxLayout F) (n : GpxRouteNode) :
    readRouteNode ("route", cleanAttrs n.attrs, plainAll (gpxLines L 3 (n.nodes.map gpxTrackXml))) = seenNode n := by
  have e : plainAll (n.nodes.map gpxTrackXml) = n.nodes.map fun t => .elem "track" (cleanAttrs t.attrs) [.text (clean t.data)] := by
    rw [plainAll_map, List.map_map]
    apply List.map_congr_left
    intro t _
    simp only [Function.comp, gpxTrackXml, plain, plainAll]
  unfold readRouteNode seenNode
  simp only [elems_lines, e, elems_map, seen_eq, List.map_map]
  congr 1
  apply List.map_congr_left
  intro t _
  simp only [Function.comp, readTrackNode, seen_eq, charData, String.append_empty]

theorem read_routes (L : GpxLayout F) (T : GpxText F) (rs : List (Route F)) :
    (elems (plainAll (gpxLines L 2 (rs.map fun r => gpxRouteXml L (gpxRouteNode T r))))).map readRouteNode =
      rs.map fun r => seenNode (gpxRouteNode T r) := by
  have hn : localName "route" = "route" := by decide
  have e : plainAll (rs.map fun r => gpxRouteXml L (gpxRouteNode T r)) = rs.map fun r => .elem "route"
      (cleanAttrs (gpxRouteNode T r).attrs) (plainAll (gpxLines L 3 ((gpxRouteNode T r).nodes.map gpxTrackXml))) := by
    rw [plainAll_map, List.map_map]
    apply List.map_congr_left
    intro t _
    simp only [Function.comp, gpxRouteXml, plain]
  rw [elems_lines, e, elems_map, List.map_map]
  apply List.map_congr_left
  intro r _
  simp only [Function.comp, hn]
  exact read_node L _

theorem named_kids (s : String) (L : GpxLayout F) (T : GpxText F) (rs : List (Route F)) (hm : s ≠ "metadata") :
    elemsNamed s (plainAll (gpxKids L T rs)) =
      (if "trk" = s then rs.map fun r => (cleanAttrs [], plainAll (gpxLines L 1 (r.tracks.map (gpxSegXml L)))) else []) ++
      (if "extensions" = s then [(cleanAttrs [], plainAll (gpxLines L 1 [gpsgenXml L T rs]))] else []) := by
  have l1 : localName "metadata" = "metadata" := by decide
  have l2 : localName "trk" = "trk" := by decide
  have l3 : localName "extensions" = "extensions" := by decide
  have e : (rs.map (gpxTrkXml L)).map plain = rs.map fun r => .elem "trk" (cleanAttrs [])
      (plainAll (gpxLines L 1 (r.tracks.map (gpxSegXml L)))) := by
    rw [List.map_map]
    apply List.map_congr_left
    intro t _
    simp only [Function.comp, gpxTrkXml, plain]
  have e1 : ∀ l, elemsNamed s (plain (metaXml L) :: l) = elemsNamed s l := by
    intro l
    simp only [metaXml, plain, elemsNamed, l1, if_neg hm.symm]
  have e3 : elemsNamed s [plain (extXml L T rs)] =
      if "extensions" = s then [(cleanAttrs [], plainAll (gpxLines L 1 [gpsgenXml L T rs]))] else [] := by
    simp only [extXml, plain, elemsNamed, l3]
  rw [kids_eq, named_lines, plainAll_map, List.map_append, List.map_cons, named_append, e1, e, named_map, l2]
  congr 1

/-- **C89, document.** The document that `Decode` sees in the text of `Encode`: the points as gpxgo wrote them, and the
attributes without those that have no name, with the local part of their names and with illegal characters replaced. -/
theorem document_text [GoFloat F] (N : NameChars) (L : GpxLayout F) (T : GpxText F) (hL : LayoutOk L T) (rs : List (Route F))
    (hne : rs ≠ []) (h : ∀ r ∈ rs, NodesOk N r) :
    ∃ text, gpxEncodeText L T rs = .ok text ∧ text ≠ [] ∧ gpxParse N T text =
      some ⟨[], rs.map fun r => r.tracks.map (gpxPoints T), [], [("gpsgen", rs.map fun r => seenNode (gpxRouteNode T r))]⟩ := by
  have hl : ¬ rs.length = 0 := fun hc => hne (List.length_eq_zero_iff.mp hc)
  refine ⟨_, by rw [gpxEncodeText, if_neg hl], (by intro hc; cases hc), ?_⟩
  unfold gpxParse
  rw [root_read N _ (good_kids N L hL.indent T rs h)]
  have l1 : localName "gpx" = "gpx" := by decide
  have l2 : localName "gpsgen" = "gpsgen" := by decide
  have k1 : elemsNamed "rte" (plainAll (gpxKids L T rs)) = [] := by
    rw [named_kids "rte" L T rs (by decide), if_neg (by decide), if_neg (by decide)]; rfl
  have k2 : elemsNamed "wpt" (plainAll (gpxKids L T rs)) = [] := by
    rw [named_kids "wpt" L T rs (by decide), if_neg (by decide), if_neg (by decide)]; rfl
  have k3 : elemsNamed "trk" (plainAll (gpxKids L T rs)) =
      rs.map fun r => (cleanAttrs [], plainAll (gpxLines L 1 (r.tracks.map (gpxSegXml L)))) := by
    rw [named_kids "trk" L T rs (by decide), if_pos rfl, if_neg (by decide), List.append_nil]
  have k4 : elemsNamed "extensions" (plainAll (gpxKids L T rs)) = [(cleanAttrs [], plainAll (gpxLines L 1 [gpsgenXml L T rs]))] := by
    rw [named_kids "extensions" L T rs (by decide), if_neg (by decide), if_pos rfl]; rfl
  have k5 : elems (plainAll (gpxLines L 1 [gpsgenXml L T rs])) =
      [("gpsgen", cleanAttrs [], plainAll (gpxLines L 2 (rs.map fun r => gpxRouteXml L (gpxRouteNode T r))))] := by
    rw [elems_lines]
    simp only [gpsgenXml, plainAll, plain, elems, l2]
  have k6 : gpxReadList (fun e : Attrs × List Xml => gpxReadList (fun e : Attrs × List Xml => gpxReadPoints T "trkpt" e.2)
      (elemsNamed "trkseg" e.2)) (rs.map fun r => (cleanAttrs [], plainAll (gpxLines L 1 (r.tracks.map (gpxSegXml L))))) =
      some (rs.map fun r => r.tracks.map (gpxPoints T)) := readList_map _ _ _ _ fun r _ => read_segs L T hL r
  have k7 := read_routes L T rs
  have k8 : gpxReadPoints T "wpt" (plainAll (gpxKids L T rs)) = some [] := by
    unfold gpxReadPoints
    rw [k2]
    rfl
  simp only [l1, if_true, k1, k3, k4, k8, gpxReadList, Option.bind_some]
  rw [k6]
  simp only [Option.bind_some, Option.map_some, List.flatMap_cons, List.flatMap_nil, List.append_nil, k5, List.map_cons,
    List.map_nil, k7]

/-! ## Routes -/

theorem seen_same (as : Attrs) (h : ∀ a ∈ as, a.1 ≠ "" ∧ ':' ∉ a.1.toList ∧ XmlOnly a.2) : seen as = as := by
  unfold seen
  rw [List.filter_eq_self.mpr fun a ha => by simpa using (h a ha).1]
  conv => rhs; rw [← List.map_id as]
  apply List.map_congr_left
  intro a ha
  obtain ⟨-, h2, h3⟩ := h a ha
  rw [local_plain _ h2, clean_legal (xmlOnly_legal h3)]
  rfl

theorem meters : XmlOnly "meters" := by
  intro c hc
  have : c ∈ ['m', 'e', 't', 'e', 'r', 's'] := hc
  simp only [List.mem_cons, List.not_mem_nil, or_false] at this
  rcases this with rfl | rfl | rfl | rfl | rfl | rfl <;> decide

theorem node_same (N : NameChars) (T : GpxText F) (r : Route F) (h : TextOk T r) (hk : ∀ e ∈ contents r.props, KeyName N e.1) :
    seenNode (gpxRouteNode T r) = gpxRouteNode T r := by
  have h1 : seen (gpxRouteNode T r).attrs = (gpxRouteNode T r).attrs := by
    apply seen_same
    intro a ha
    obtain ⟨o1, o2, o3, o4⟩ := h.own
    rcases List.mem_append.mp ha with ha | ha
    · simp only [List.mem_cons, List.not_mem_nil, or_false] at ha
      rcases ha with rfl | rfl | rfl | rfl | rfl
      · exact ⟨(by decide : "id" ≠ ""), (by decide : ':' ∉ "id".toList), o1⟩
      · exact ⟨(by decide : "name" ≠ ""), (by decide : ':' ∉ "name".toList), o2⟩
      · exact ⟨(by decide : "color" ≠ ""), (by decide : ':' ∉ "color".toList), o3⟩
      · exact ⟨(by decide : "distance" ≠ ""), (by decide : ':' ∉ "distance".toList), o4⟩
      · exact ⟨(by decide : "units" ≠ ""), (by decide : ':' ∉ "units".toList), meters⟩
    · rw [C44.contents_route] at ha
      obtain ⟨e, he, rfl⟩ := List.mem_map.mp ha
      obtain ⟨n1, n2⟩ := key_isName (hk e he)
      exact ⟨good_ne (a := (e.1, "")) n1, n2, h.props e he⟩
  have h2 : (gpxRouteNode T r).nodes.map (fun t => (⟨seen t.attrs, clean t.data⟩ : GpxTrackNode)) = (gpxRouteNode T r).nodes := by
    conv => rhs; rw [← List.map_id (gpxRouteNode T r).nodes]
    apply List.map_congr_left
    intro n hn
    obtain ⟨t, ht, rfl⟩ := List.mem_map.mp hn
    obtain ⟨o1, o2, o3, o4⟩ := h.ofTracks t ht
    have : seen (gpxTrackNode T t).attrs = (gpxTrackNode T t).attrs := by
      apply seen_same
      intro a ha
      simp only [gpxTrackNode, List.mem_cons, List.not_mem_nil, or_false] at ha
      rcases ha with rfl | rfl | rfl
      · exact ⟨(by decide : "name" ≠ ""), (by decide : ':' ∉ "name".toList), o2⟩
      · exact ⟨(by decide : "color" ≠ ""), (by decide : ':' ∉ "color".toList), o3⟩
      · exact ⟨(by decide : "distance" ≠ ""), (by decide : ':' ∉ "distance".toList), o4⟩
    rw [this, clean_legal (xmlOnly_legal (s := (gpxTrackNode T t).data) o1)]
    rfl
  unfold seenNode
  rw [h1, h2]

/-- **C89, routes.** If the keys of the route properties are XML names, `Decode` of the text that `Encode` makes gives the
routes as C45 describes them. -/
theorem routes_text_partial [GoMath F] (N : NameChars) (L : GpxLayout F) (T : GpxText F) (hL : LayoutOk L T)
    (gen : Nat → Nat → String × String) (rs : List (Route F)) (hne : rs ≠ [])
    (h : ∀ r ∈ rs, ApiRoute r ∧ Plain T r ∧ TextOk T r) (hk : ∀ r ∈ rs, ∀ e ∈ contents r.props, KeyName N e.1) :
    ∃ text rs', gpxEncodeText L T rs = .ok text ∧ gpxDecodeText N T gen text = .ok (some (.ok rs')) ∧
      List.Forall₂ (RouteBack T) rs rs' := by
  obtain ⟨text, h1, h2, h3⟩ := document_text N L T hL rs hne fun r hr =>
    ⟨fun e he => Or.inr (key_isName (hk r hr e he)).1, fun t ht => trimmed_ne ((h r hr).2.2.ids t ht)⟩
  obtain ⟨d, rs', h4, h5, h6⟩ := routes_back T gen rs hne fun r hr => ⟨(h r hr).1, (h r hr).2.1⟩
  have hl : ¬ rs.length = 0 := fun hc => hne (List.length_eq_zero_iff.mp hc)
  have hn : (rs.map fun r => seenNode (gpxRouteNode T r)) = rs.map (gpxRouteNode T) :=
    List.map_congr_left fun r hr => node_same N T r (h r hr).2.2 (hk r hr)
  rw [hn] at h3
  simp only [gpxEncode, if_neg hl] at h4
  have h4 := Except.ok.inj h4
  rw [h4] at h3
  refine ⟨text, rs', h1, ?_, ?_⟩
  · unfold gpxDecodeText
    rw [if_neg h2, h3]
    simp only [h5]
    rfl
  · have : (rs.filter fun r => !r.tracks.isEmpty) = rs := List.filter_eq_self.mpr fun r hr => by
      simpa using (h r hr).2.2.tracks
    rwa [this] at h6

/-- **C89, panics.** `Decode` does not panic, whatever the text. -/
theorem text_never_panics [GoMath F] (N : NameChars) (T : GpxText F) (gen : Nat → Nat → String × String) (cs : List Char) :
    ∃ x, gpxDecodeText N T gen cs = .ok x := by
  unfold gpxDecodeText
  split
  · exact ⟨_, rfl⟩
  · split
    · exact ⟨_, rfl⟩
    · rename_i d _
      obtain ⟨x, hx⟩ := C53.decode_never_panics T gen d
      rw [hx]
      exact ⟨_, rfl⟩

/-! ## Keys that are not names -/

/-- A node that cannot be read. -/
def BadNode (N : NameChars) (k : Xml) : Prop := ∃ n as ks, k = .elem n as ks ∧ isName N n.toList = true ∧
  ∀ rest, Bad N (n.toList ++ (as.flatMap attrText ++ '>' :: (Xml.writeAll ks ++ rest)))

theorem writeAll_append (a b : List Xml) : Xml.writeAll (a ++ b) = Xml.writeAll a ++ Xml.writeAll b := by
  induction a with
  | nil => rfl
  | cons k a ih => simp [Xml.writeAll, ih]

theorem bad_lines (N : NameChars) (L : GpxLayout F) (hL : ∀ c ∈ L.indent.toList, c = ' ' ∨ c = '\t') (d : Nat) (a b : List Xml)
    (ha : ∀ k ∈ a, Good N k ∧ isChars k = false) (k : Xml) (hk : BadNode N k) (rest : List Char) :
    BadAll N (Xml.writeAll (gpxLines L d (a ++ k :: b)) ++ rest) := by
  obtain ⟨n, as, ks, rfl, hn, hb⟩ := hk
  have e : gpxLines L d (a ++ .elem n as ks :: b) =
      (a.flatMap (fun k => [gpxLine L (d + 1), k]) ++ [gpxLine L (d + 1)]) ++
        (.elem n as ks :: (b.flatMap (fun k => [gpxLine L (d + 1), k]) ++ [gpxLine L d])) := by
    simp [gpxLines]
  obtain ⟨c, cs, ec, -, -, c1, c2, -⟩ := name_head N _ hn
  rw [e, writeAll_append, List.append_assoc, Xml.writeAll, List.append_assoc, elem_text]
  have hbad := hb ('<' :: '/' :: (n.toList ++ '>' ::
    (Xml.writeAll (b.flatMap (fun k => [gpxLine L (d + 1), k]) ++ [gpxLine L d]) ++ rest)))
  rw [ec] at hbad ⊢
  exact bad_after N _ (goodAll_lines N L hL (d + 1) a ha _ (good_line N L hL (d + 1))) c _
    ⟨c1, c2⟩ hbad

theorem bad_parent (N : NameChars) (L : GpxLayout F) (hL : ∀ c ∈ L.indent.toList, c = ' ' ∨ c = '\t') (n : String)
    (hn : isName N n.toList = true) (d : Nat) (a b : List Xml) (ha : ∀ k ∈ a, Good N k ∧ isChars k = false) (k : Xml)
    (hk : BadNode N k) : BadNode N (.elem n [] (gpxLines L d (a ++ k :: b))) :=
  ⟨n, [], _, rfl, hn, fun rest => bad_inside N n hn [] (by simp) _ (bad_lines N L hL d a b ha k hk rest)⟩

/-- A key that is a name followed by a blank and something that is neither white space nor `=`. -/
def SpacedKey (N : NameChars) (k : String) : Prop :=
  ∃ (n : String) (c : Char) (cs : List Char), isName N n.toList = true ∧ k.toList = n.toList ++ ' ' :: c :: cs ∧
    isSpace c = false ∧ c ≠ '='

theorem bad_route (N : NameChars) (L : GpxLayout F) (T : GpxText F) (r : Route F) (ps qs : List (String × PVal F))
    (e : String × PVal F) (hc : contents r.props = ps ++ e :: qs)
    (hp : ∀ e ∈ ps, e.1 = "" ∨ isName N e.1.toList = true) (he : SpacedKey N e.1) :
    BadNode N (gpxRouteXml L (gpxRouteNode T r)) := by
  obtain ⟨n, c, cs, h1, h2, h3, h4⟩ := he
  refine ⟨"route", _, _, rfl, rfl, fun rest => ?_⟩
  have hne : e.1 ≠ "" := by
    intro h0
    rw [h0] at h2
    have := congrArg List.length h2
    simp at this
  have hat : ∃ as : Attrs, (∀ a ∈ as, GoodAttr N a) ∧ ∃ tail, (gpxRouteNode T r).attrs.flatMap attrText =
      as.flatMap attrText ++ ' ' :: (n.toList ++ ' ' :: c :: tail) := by
    refine ⟨[("id", r.id), ("name", r.name), ("color", r.color), ("distance", T.f2s r.dist), ("units", "meters")] ++ makeAttrs T ps,
      ?_, ?_⟩
    · intro a ha
      rcases List.mem_append.mp ha with ha | ha
      · exact own_attrs N _ _ _ _ _ a ha
      · obtain ⟨x, hx, rfl⟩ := List.mem_map.mp ha
        exact hp x hx
    refine ⟨cs ++ '=' :: '"' :: ((T.print e.2).toList.flatMap (escChar true) ++ '"' :: (makeAttrs T qs).flatMap attrText), ?_⟩
    have hm : makeAttrs T r.propsOf.2 = makeAttrs T ps ++ (e.1, T.print e.2) :: makeAttrs T qs := by
      rw [C44.contents_route, hc]
      simp [makeAttrs]
    have ht : attrText (e.1, T.print e.2) = ' ' :: (n.toList ++ ' ' :: c :: (cs ++ '=' :: '"' ::
        ((T.print e.2).toList.flatMap (escChar true) ++ ['"']))) := by
      unfold attrText
      rw [if_neg hne]
      simp [h2]
    show ([_, _, _, _, _] ++ makeAttrs T r.propsOf.2 : Attrs).flatMap attrText = _
    rw [hm, ← List.append_assoc, List.flatMap_append, List.flatMap_cons, ht]
    simp
  obtain ⟨as, has, tail, hat⟩ := hat
  have hs : Stops ((gpxRouteNode T r).attrs.flatMap attrText ++ '>' ::
      (Xml.writeAll (gpxLines L 3 ((gpxRouteNode T r).nodes.map gpxTrackXml)) ++ rest)) := attrs_stop _ _
  refine bad_elem N "route" rfl _ hs fun f => ?_
  rw [hat, List.append_assoc, List.cons_append, List.append_assoc, List.cons_append, List.cons_append]
  exact bad_key N as has n h1 c _ h3 h4 f

/-- **C89, unreadable.** If the first property key that is not a name is a name followed by a blank and something else, as in
`max speed`, then `Encode` makes a text without an error, but `Decode` cannot read it: all routes of the file are lost. -/
theorem spaced_key_unreadable [GoMath F] (N : NameChars) (L : GpxLayout F) (T : GpxText F) (hL : LayoutOk L T)
    (gen : Nat → Nat → String × String) (rs rs' : List (Route F)) (r : Route F) (h : ∀ r ∈ rs, NodesOk N r)
    (ps qs : List (String × PVal F)) (e : String × PVal F) (hc : contents r.props = ps ++ e :: qs)
    (hp : ∀ e ∈ ps, e.1 = "" ∨ isName N e.1.toList = true) (he : SpacedKey N e.1) :
    ∃ text, gpxEncodeText L T (rs ++ r :: rs') = .ok text ∧ gpxDecodeText N T gen text = .ok none := by
  have hl : ¬ (rs ++ r :: rs').length = 0 := by simp
  refine ⟨_, by rw [gpxEncodeText, if_neg hl], ?_⟩
  have b1 := bad_route N L T r ps qs e hc hp he
  have b2 : BadNode N (gpsgenXml L T (rs ++ r :: rs')) := by
    have := bad_parent N L hL.indent "gpsgen" rfl 2 (rs.map fun r => gpxRouteXml L (gpxRouteNode T r))
      (rs'.map fun r => gpxRouteXml L (gpxRouteNode T r)) (by
        intro k hk
        obtain ⟨x, hx, rfl⟩ := List.mem_map.mp hk
        exact good_route N L hL.indent T x (h x hx)) _ b1
    rw [← List.map_cons (f := fun r => gpxRouteXml L (gpxRouteNode T r)), ← List.map_append] at this
    exact this
  have b3 : BadNode N (extXml L T (rs ++ r :: rs')) := bad_parent N L hL.indent "extensions" rfl 1 [] [] (by simp) _ b2
  have b4 := bad_lines N L hL.indent 0 (metaXml L :: (rs ++ r :: rs').map (gpxTrkXml L)) [] (by
    intro k hk
    rcases List.mem_cons.mp hk with rfl | hk
    · exact good_meta N L hL.indent
    · obtain ⟨x, -, rfl⟩ := List.mem_map.mp hk
      exact good_trk N L hL.indent x) _ b3
  rw [← kids_eq] at b4
  have hx : parseXml N (gpxHeader ++ (gpxAttrs.flatMap attrText ++ '>' ::
      (Xml.writeAll (gpxKids L T (rs ++ r :: rs')) ++ "</gpx>".toList))) = none := by
    rw [root_text]
    obtain ⟨g, hg⟩ : ∃ g, 2 * ((gpxAttrs.flatMap attrText ++ '>' ::
        (Xml.writeAll (gpxKids L T (rs ++ r :: rs')) ++ "</gpx>".toList)).length + 5) = g + 1 := ⟨_, rfl⟩
    rw [hg, root_elem, b4 _ g]
    rfl
  unfold gpxDecodeText
  rw [if_neg (by intro hc; cases hc)]
  unfold gpxParse
  rw [hx]

/-- **C89, the claim fails**, whatever the characters of names, the layout and the number type. -/
theorem claim_fails [GoMath F] (N : NameChars) (L : GpxLayout F) (T : GpxText F) (hL : LayoutOk L T) (hb : TextStable T "r")
    (hf : ∀ x, XmlOnly (T.f2s x)) (a b : LatLon F) : ¬ Claim N L T := by
  intro hc
  obtain ⟨t, ht⟩ : ∃ t, Track.new "t" "" [a, b] = .ok t := ⟨_, rfl⟩
  have hid : t.id = "t" ∧ t.name = "" ∧ t.color = "" := by cases ht; exact ⟨rfl, rfl, rfl⟩
  let r : Route F := (Route.restore "r" "" (some [("max speed", .str "x")])).addTrack (some t)
  have hcont : contents r.props = [("max speed", .str "x")] := rfl
  have htr : r.tracks = [t] := rfl
  have hapi : ApiRoute r := .addTrack (.restore _ _ _ (by intro m hm; cases hm; simp [GoMap])) (.new ht)
  have hpl : Plain T r := by
    refine ⟨hb, ?_, ?_⟩
    · rw [hcont]
      intro e he
      simp only [List.mem_singleton] at he
      rw [he]
      simp [Reserved]
    · rw [htr]
      intro x hx
      simp only [List.mem_singleton] at hx
      rw [hx, hid.1]
      decide
  have one : ∀ c : Char, 32 ≤ c.toNat → c.toNat < 128 → XmlOnly (String.ofList [c]) := by
    intro c h1 h2 d hd
    simp only [String.toList_ofList, List.mem_singleton] at hd
    subst hd
    exact Or.inr (Or.inr (Or.inr ⟨h1, by omega, by omega⟩))
  have none : XmlOnly "" := by intro c hc; cases hc
  have htx : TextOk T r := by
    refine ⟨by rw [htr]; simp, ?_, ⟨one 'r' (by decide) (by decide), none, none, hf _⟩, ?_, ?_⟩
    · rw [htr]
      intro x hx
      simp only [List.mem_singleton] at hx
      rw [hx, hid.1]
      exact ⟨'t', 't', rfl, rfl, by decide, by decide⟩
    · rw [hcont]
      intro e he
      simp only [List.mem_singleton] at he
      rw [he]
      exact one 'x' (by decide) (by decide)
    · rw [htr]
      intro x hx
      simp only [List.mem_singleton] at hx
      rw [hx, hid.1, hid.2.1, hid.2.2]
      exact ⟨one 't' (by decide) (by decide), none, none, hf _⟩
  obtain ⟨text, rs', h1, h2, -⟩ := hc (fun _ _ => ("", "")) [r] (by simp) (by simpa using ⟨hapi, hpl, htx⟩)
  obtain ⟨text', h3, h4⟩ := spaced_key_unreadable N L T hL (fun _ _ => ("", "")) [] [] r (by simp) [] [] _ hcont (by simp)
    ⟨"max", 's', "peed".toList, word N "max" (by decide), (by decide : "max speed".toList = "max".toList ++ ' ' :: 's' :: "peed".toList),
      by decide, by decide⟩
  rw [List.nil_append, h1] at h3
  cases h3
  rw [h2] at h4
  cases h4

theorem same_text (L : GpxLayout F) (T : GpxText F) (r r' : Route F) (ht : r.tracks = r'.tracks)
    (ha : (gpxRouteNode T r).attrs.flatMap attrText = (gpxRouteNode T r').attrs.flatMap attrText) :
    gpxEncodeText L T [r] = gpxEncodeText L T [r'] := by
  have hlines : ∀ d (l : List Xml) (x y : Xml), Xml.write x = Xml.write y →
      Xml.writeAll (gpxLines L d (l ++ [x])) = Xml.writeAll (gpxLines L d (l ++ [y])) := by
    intro d l x y h
    simp [gpxLines, writeAll_append, Xml.writeAll, h]
  have hel : ∀ (s : String) (as bs : Attrs) (k l : List Xml), as.flatMap attrText = bs.flatMap attrText →
      Xml.writeAll k = Xml.writeAll l → Xml.write (.elem s as k) = Xml.write (.elem s bs l) := by
    intro s as bs k l h h'
    simp only [Xml.write, h, h']
  have h1 : gpxTrkXml L r = gpxTrkXml L r' := by unfold gpxTrkXml; rw [ht]
  have h2 : (gpxRouteNode T r).nodes = (gpxRouteNode T r').nodes := by unfold gpxRouteNode; simp only [ht]
  have h3 : Xml.write (gpxRouteXml L (gpxRouteNode T r)) = Xml.write (gpxRouteXml L (gpxRouteNode T r')) := by
    unfold gpxRouteXml
    rw [h2]
    exact hel _ _ _ _ _ ha rfl
  have h4 : Xml.write (gpsgenXml L T [r]) = Xml.write (gpsgenXml L T [r']) := hel _ _ _ _ _ rfl (hlines 2 [] _ _ h3)
  have h5 : Xml.write (extXml L T [r]) = Xml.write (extXml L T [r']) := hel _ _ _ _ _ rfl (hlines 1 [] _ _ h4)
  have h6 : Xml.writeAll (gpxKids L T [r]) = Xml.writeAll (gpxKids L T [r']) := by
    rw [kids_eq, kids_eq, List.map_singleton, List.map_singleton, h1]
    exact hlines 0 _ _ _ h5
  simp only [gpxEncodeText, List.length_singleton, Nat.one_ne_zero, if_false, h6]

/-- **C89, forged.** The key `n="v" m` writes the attribute `n` as well as `m`: the text of a route with this one property is the
text of the route with two. With `m` being `id` the route gets another id. -/
theorem forged (L : GpxLayout F) (T : GpxText F) (r : Route F) (n m v w : String) (hn : n ≠ "") (hm : m ≠ "") (ps : PMap F) :
    gpxEncodeText L T [{ r with props := some ((String.ofList (n.toList ++ '=' :: '"' ::
      (v.toList.flatMap (escChar true) ++ '"' :: ' ' :: m.toList)), .str w) :: ps) }] =
    gpxEncodeText L T [{ r with props := some ((n, .str v) :: (m, .str w) :: ps) }] := by
  have ht : attrText (String.ofList (n.toList ++ '=' :: '"' :: (v.toList.flatMap (escChar true) ++ '"' :: ' ' :: m.toList)), w) =
      attrText (n, v) ++ attrText (m, w) := by
    simp [attrText, hn, hm]
  refine same_text L T _ _ rfl ?_
  simp only [gpxRouteNode, Route.propsOf, makeAttrs, List.map_cons, List.flatMap_append, List.flatMap_cons, GpxText.print, ht,
    List.append_assoc]

/-! ## Concrete cases -/

/-- Names of ASCII characters. -/
def ascii : NameChars := ⟨fun _ => false, fun _ => false⟩

/-- Integers as text. -/
def toyText : GpxText Toy := { C45.toyText with parseFloat := fun s => (parseInt64 s).map fun i => Toy.of i }

/-- Two blanks, integers. -/
def toyLayout : GpxLayout Toy := ⟨"  ", fun x => showInt x.val.num⟩

/-- Encode to text and decode. -/
def textTrip (rs : List (Route Toy)) : Option (List (Route Toy)) :=
  match gpxEncodeText toyLayout toyText rs with
  | .error _ => none
  | .ok text => match gpxDecodeText ascii toyText (fun _ _ => ("new", "#123456")) text with
    | .ok (some (.ok rs)) => some rs
    | _ => none

/-- The route of C45 with other properties. -/
def withProps (ps : PMap Toy) : Route Toy := { C45.sample with props := some ps }

/-- The properties that come back. -/
def propsTrip (ps : PMap Toy) : Option (List (String × List (String × PVal Toy))) :=
  (textTrip [withProps ps]).map fun rs => rs.map fun r => (r.id, contents r.props)

theorem by_chars {x : Option (List Char)} {l : List Char} (h : x = some l) : x.map String.ofList = some (String.ofList l) := by
  rw [h]; rfl

set_option maxRecDepth 20000 in
example : (gpxEncodeText toyLayout toyText [C45.sample]).toOption.map String.ofList = some "<?xml version=\"1.0\" encoding=\"UTF-8\"?>
<gpx  xmlns=\"http://www.topografix.com/GPX/1/1\" version=\"1.1\" creator=\"https://github.com/tkrajina/gpxgo\">
  <metadata>
    <author>
      <name>go-gpsgen</name>
    </author>
  </metadata>
  <trk>
    <trkseg>
      <trkpt lat=\"0\" lon=\"0\"></trkpt>
      <trkpt lat=\"0\" lon=\"1\"></trkpt>
      <trkpt lat=\"0\" lon=\"2\"></trkpt>
    </trkseg>
    <trkseg>
      <trkpt lat=\"0\" lon=\"0\"></trkpt>
      <trkpt lat=\"0\" lon=\"1\"></trkpt>
      <trkpt lat=\"1\" lon=\"1\"></trkpt>
      <trkpt lat=\"0\" lon=\"0\"></trkpt>
    </trkseg>
  </trk>
  <extensions>
    <gpsgen>
      <route id=\"r\" name=\"My route\" color=\"#00ff00\" distance=\"x\" units=\"meters\" a=\"b\" c=\"true\" d=\"-42\">
        <track name=\"\" color=\"#000000\" distance=\"x\">t</track>
        <track name=\"\" color=\"#ffffff\" distance=\"x\">u</track>
      </route>
    </gpsgen>
  </extensions>
</gpx>" := by
  refine by_chars ?_
  decide +kernel

example : (textTrip [C45.sample, C45.sample]).map (fun rs => rs.map fun r => (r.id, r.color, r.name)) =
    some [("r", "#00ff00", "My route"), ("r", "#00ff00", "My route")] := by
  decide +kernel

example : (textTrip [C45.sample]).map (fun rs => rs.map (·.tracks.map (·.segments))) = some [C45.sample.tracks.map (·.segments)] := by
  decide +kernel

/-- Markup in values is escaped and comes back. -/
example : propsTrip [("a", .str "<x a=\"'\">\t\n\r&amp;]]>")] = some [("r", [("a", .str "<x a=\"'\">\t\n\r&amp;]]>")])] := by
  decide +kernel

/-- Prefixes and empty keys are lost, other characters are replaced. -/
example : propsTrip [("a:b", .str "c")] = some [("r", [("b", .str "c")])] := by decide +kernel
example : propsTrip [("", .str "c")] = some [("r", [])] := by decide +kernel
example : propsTrip [("a", .str "\x00")] = some [("r", [("a", .str "\uFFFD")])] := by decide +kernel

/-- Keys that cannot be read. -/
example : propsTrip [("max speed", .int 5)] = none ∧ propsTrip [("1", .int 5)] = none ∧ propsTrip [("a&b", .int 5)] = none ∧
    propsTrip [("a:b:c", .int 5)] = none := by
  decide +kernel

/-- A key that changes the id and adds a property. -/
example : propsTrip [("a=\"1\" id", .str "other")] = some [("other", [("a", .int64 1)])] := by
  decide +kernel

end C89
end GpsGen
