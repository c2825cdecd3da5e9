import Verif.Model.Random
import Verif.Model.NumX
import Verif.Lemmas.DeviceNext
import Verif.Theorems.C01
import Verif.Lemmas.Toy
import Mathlib.Tactic.Linarith
import Batteries.Data.Char.AsciiCasing
/-!
# C50: random geography stays in range

Coordinates in exact arithmetic; polygons and routes for every number type, closedness in exact arithmetic
with NaN. As stated the property is false: `Polygon(0)` panics, and if all draws of a polygon are zero its
points are NaN and the track is not closed.
-/

namespace GpsGen
namespace C50

variable {F : Type}

/-! ## Specification -/

/-- A draw of `Float64()`. -/
def Unit01 (u : ℝ) : Prop := 0 ≤ u ∧ u < 1

/-- A valid coordinate. -/
def ValidPoint (p : LatLon ℝ) : Prop := (-90 ≤ p.lat ∧ p.lat ≤ 90) ∧ (-180 ≤ p.lon ∧ p.lon ≤ 180)

/-- The same letter in upper or lower case (the codes have upper-case letters). -/
def SameLetter (x a : Char) : Prop := x = a ∨ x.toNat = a.toNat + 32

/-- The same two letters in any case. -/
def SameCode (s c : String) : Prop :=
  ∃ x y a b, s.toList = [x, y] ∧ c.toList = [a, b] ∧ SameLetter x a ∧ SameLetter y b

/-- The point lies in the box. -/
def Inside (b : BBox ℝ) (p : LatLon ℝ) : Prop :=
  (b.minLat ≤ p.lat ∧ p.lat ≤ b.maxLat) ∧ (b.minLon ≤ p.lon ∧ p.lon ≤ b.maxLon)

/-! ## The tables -/

/-- A box in hundredths of a degree. -/
def boxOk (b : String × (Int × Int × Int × Int)) : Bool :=
  decide (-18000 ≤ b.2.1 ∧ b.2.1 < b.2.2.2.1 ∧ b.2.2.2.1 ≤ 18000 ∧
    -9000 ≤ b.2.2.1 ∧ b.2.2.1 < b.2.2.2.2 ∧ b.2.2.2.2 ≤ 9000)

/-- Two upper-case letters. -/
def codeOk (s : String) : Bool :=
  match s.toList with
  | [a, b] => decide (65 ≤ a.toNat ∧ a.toNat ≤ 90 ∧ 65 ≤ b.toNat ∧ b.toNat ≤ 90)
  | _ => false

theorem tables_match : countries.map (·.1) = boxes.map (·.1) := by decide +kernel
theorem boxes_ok : boxes.all boxOk = true := by decide +kernel
theorem codes_ok : (boxes.map (·.1)).all codeOk = true := by decide +kernel

/-! ## Strings -/

theorem len_two (x y : Char) : goLen (String.ofList [x, y]) = x.utf8Size + y.utf8Size := by
  have e : String.ofList [x, y] = String.singleton x ++ String.singleton y := by
    rw [← String.toList_inj]; simp
  rw [e]
  unfold goLen
  rw [String.utf8ByteSize_append, String.utf8ByteSize_singleton, String.utf8ByteSize_singleton]

theorem size_one (x : Char) (h : x.toNat < 128) : x.utf8Size = 1 := by
  unfold Char.utf8Size
  have : x.val ≤ 127 := by
    rw [UInt32.le_iff_toNat_le]; show x.toNat ≤ 127; omega
  rw [if_pos (by exact_mod_cast this)]

theorem upper_letter (a x : Char) (ha : 65 ≤ a.toNat ∧ a.toNat ≤ 90) (h : SameLetter x a) : x.toUpper = a := by
  have hb : ∀ n : Fin 26, (Char.ofNat (65 + n)).toUpper = Char.ofNat (65 + n) ∧
      (Char.ofNat (97 + n)).toUpper = Char.ofNat (65 + n) := by decide
  have e : a = Char.ofNat (65 + (a.toNat - 65)) := by
    rw [show 65 + (a.toNat - 65) = a.toNat by omega, Char.ofNat_toNat]
  obtain ⟨h1, h2⟩ := hb ⟨a.toNat - 65, by omega⟩
  simp only at h1 h2
  rcases h with rfl | h
  · rw [← e] at h1; exact h1
  · have e2 : x = Char.ofNat (97 + (a.toNat - 65)) := by
      rw [show 97 + (a.toNat - 65) = x.toNat by omega, Char.ofNat_toNat]
    rw [← e2, ← e] at h2; exact h2

theorem letter_bound {x a : Char} (ha : a.toNat ≤ 90) (h : SameLetter x a) : x.toNat < 128 := by
  rcases h with rfl | h <;> omega

theorem code_upper {s c : String} (hc : codeOk c = true) (h : SameCode s c) : goLen s = 2 ∧ upper s = c := by
  obtain ⟨x, y, a, b, hs, hcl, hx, hy⟩ := h
  unfold codeOk at hc
  rw [hcl] at hc
  simp only [decide_eq_true_eq] at hc
  obtain ⟨a1, a2, b1, b2⟩ := hc
  have es : s = String.ofList [x, y] := by rw [← hs, String.ofList_toList]
  have ec : c = String.ofList [a, b] := by rw [← hcl, String.ofList_toList]
  constructor
  · rw [es, len_two, size_one x (letter_bound a2 hx), size_one y (letter_bound b2 hy)]
  · unfold upper
    rw [hs, ec]
    simp only [List.map_cons, List.map_nil]
    rw [upper_letter a x ⟨a1, a2⟩ hx, upper_letter b y ⟨b1, b2⟩ hy]

theorem lookup_mem {α : Type} {l : List (String × α)} {k : String} (h : k ∈ l.map (·.1)) :
    ∃ v, lookup? l k = some v ∧ (k, v) ∈ l := by
  unfold lookup?
  cases hf : l.find? (fun e => e.1 == k) with
  | none =>
    obtain ⟨e, he, rfl⟩ := List.mem_map.mp h
    have := List.find?_eq_none.mp hf e he
    simp at this
  | some e =>
    have h1 := List.find?_some hf
    have h2 := List.mem_of_find?_eq_some hf
    refine ⟨e.2, rfl, ?_⟩
    simp only [beq_iff_eq] at h1
    rw [← h1]; exact h2

theorem lookup_some {α : Type} {l : List (String × α)} {k : String} {v : α} (h : lookup? l k = some v) :
    (k, v) ∈ l := by
  unfold lookup? at h
  rw [Option.map_eq_some_iff] at h
  obtain ⟨e, he, rfl⟩ := h
  have h1 := List.find?_some he
  simp only [beq_iff_eq] at h1
  rw [← h1]
  exact List.mem_of_find?_eq_some he

theorem same_self {c : String} (h : codeOk c = true) : SameCode c c := by
  unfold codeOk at h
  split at h
  · rename_i a b hl
    exact ⟨a, b, a, b, hl, hl, Or.inl rfl, Or.inl rfl⟩
  · cases h

/-! ## Coordinates -/

/-- **C50, anywhere.** -/
theorem latLon_valid (u v : ℝ) (hu : Unit01 u) (hv : Unit01 v) : ValidPoint (latLon u v) := by
  obtain ⟨u0, u1⟩ := hu
  obtain ⟨v0, v1⟩ := hv
  unfold ValidPoint latLon
  simp only [real_sub, real_mul, real_lit]
  push_cast
  refine ⟨⟨?_, ?_⟩, ?_, ?_⟩ <;> linarith

theorem box_of {s : String} {b : BBox ℝ} (h : boundingBox s = some b) :
    (-90 ≤ b.minLat ∧ b.minLat < b.maxLat ∧ b.maxLat ≤ 90) ∧
    (-180 ≤ b.minLon ∧ b.minLon < b.maxLon ∧ b.maxLon ≤ 180) := by
  unfold boundingBox at h
  split at h
  · cases h
  · rw [Option.map_eq_some_iff] at h
    obtain ⟨x, hx, rfl⟩ := h
    have hok := List.all_eq_true.mp boxes_ok _ (lookup_some hx)
    unfold boxOk at hok
    simp only [decide_eq_true_eq] at hok
    obtain ⟨h1, h2, h3, h4, h5, h6⟩ := hok
    have c1 : (-18000 : ℝ) ≤ x.1 := by exact_mod_cast h1
    have c2 : (x.1 : ℝ) < x.2.2.1 := by exact_mod_cast h2
    have c3 : (x.2.2.1 : ℝ) ≤ 18000 := by exact_mod_cast h3
    have c4 : (-9000 : ℝ) ≤ x.2.1 := by exact_mod_cast h4
    have c5 : (x.2.1 : ℝ) < x.2.2.2 := by exact_mod_cast h5
    have c6 : (x.2.2.2 : ℝ) ≤ 9000 := by exact_mod_cast h6
    simp only [cents, real_lit]
    push_cast
    refine ⟨⟨?_, ?_, ?_⟩, ?_, ?_, ?_⟩ <;> linarith

theorem toUpper_twice (ch : Char) : ch.toUpper.toUpper = ch.toUpper :=
  Char.toUpper_toUpper_eq_toUpper ch

theorem upper_upper {c : String} (hc : codeOk c = true) : goLen c = 2 ∧ upper c = c := code_upper hc (same_self hc)

/-- Any string that some table entry answers for. -/
theorem byCountry_box (s : String) (u v : ℝ) (p : LatLon ℝ) (hu : Unit01 u) (hv : Unit01 v)
    (h : latLonByCountry s u v = some p) :
    ∃ b, boundingBox s = some b ∧ Inside b p ∧ ValidPoint p ∧ b.contains p = true := by
  unfold latLonByCountry at h
  split at h
  · cases h
  · rename_i hlen
    cases hb : (boundingBox (upper s) : Option (BBox ℝ)) with
    | none => rw [hb] at h; cases h
    | some b =>
      have hbox := box_of hb
      rw [hb] at h
      cases h
      have hs : boundingBox s = some b := by
        unfold boundingBox at hb ⊢
        rw [if_neg hlen]
        split at hb
        · cases hb
        · rw [Option.map_eq_some_iff] at hb
          obtain ⟨x, hx, e⟩ := hb
          have hm := List.mem_map_of_mem (f := (·.1)) (lookup_some hx)
          have hc := (upper_upper (List.all_eq_true.mp codes_ok _ hm)).2
          have hc' : upper (upper s) = upper s := by
            unfold upper
            rw [String.toList_ofList, List.map_map]
            congr 2
            funext ch
            exact toUpper_twice ch
          rw [hc'] at hx
          rw [hx, ← e]; rfl
      obtain ⟨⟨a1, a2, a3⟩, b1, b2, b3⟩ := hbox
      obtain ⟨u0, u1⟩ := hu
      obtain ⟨v0, v1⟩ := hv
      have i1 : b.minLat ≤ v * (b.maxLat - b.minLat) + b.minLat := by nlinarith
      have i2 : v * (b.maxLat - b.minLat) + b.minLat ≤ b.maxLat := by nlinarith
      have i3 : b.minLon ≤ u * (b.maxLon - b.minLon) + b.minLon := by nlinarith
      have i4 : u * (b.maxLon - b.minLon) + b.minLon ≤ b.maxLon := by nlinarith
      refine ⟨b, hs, ⟨⟨i1, i2⟩, i3, i4⟩, ⟨⟨a1.trans i1, i2.trans a3⟩, b1.trans i3, i4.trans b3⟩, ?_⟩
      simp only [BBox.contains, real_le, real_add, real_mul, real_sub, Bool.and_eq_true, decide_eq_true_eq]
      exact ⟨⟨⟨i3, i1⟩, i4⟩, i2⟩

/-- **C50, countries.** For every country `EachCountry` reports, in any letter case: it has a name and a
bounding box, and `LatLonByCountry` succeeds with a valid point of that box. -/
theorem country_point (c name : String) (hc : (c, name) ∈ countries) (s : String) (hs : SameCode s c) (u v : ℝ)
    (hu : Unit01 u) (hv : Unit01 v) :
    (∃ n, countryName s = some n ∧ (c, n) ∈ countries) ∧
    ∃ b p, boundingBox s = some b ∧ latLonByCountry s u v = some p ∧ Inside b p ∧ ValidPoint p := by
  have hm : c ∈ boxes.map (·.1) := by
    rw [← tables_match]; exact List.mem_map_of_mem (f := (·.1)) hc
  have hok := List.all_eq_true.mp codes_ok c hm
  obtain ⟨hl, hu'⟩ := code_upper hok hs
  obtain ⟨hl2, hu2⟩ := upper_upper hok
  constructor
  · obtain ⟨n, hn, hmem⟩ := lookup_mem (List.mem_map_of_mem (f := (·.1)) hc)
    refine ⟨n, ?_, hmem⟩
    unfold countryName
    rw [if_neg (by simp [hl]), hu']; exact hn
  · obtain ⟨x, hx, -⟩ := lookup_mem hm
    have hp : ∃ p, latLonByCountry s u v = some p := by
      unfold latLonByCountry boundingBox
      rw [if_neg (by simp [hl]), hu', if_neg (by simp [hl2]), hu2, hx]
      exact ⟨_, rfl⟩
    obtain ⟨p, hp⟩ := hp
    obtain ⟨b, h1, h2, h3, -⟩ := byCountry_box s u v p hu hv hp
    exact ⟨b, p, h1, hp, h2, h3⟩

theorem names_ok : countries.all (fun e => decide (e.2.toList ≠ [])) = true := by decide +kernel
theorem codes_nodup : (countries.map (·.1)).Nodup := by decide +kernel

theorem lookup_unique {α : Type} {l : List (String × α)} (hn : (l.map (·.1)).Nodup) {k : String} {v w : α}
    (h1 : (k, v) ∈ l) (h2 : (k, w) ∈ l) : v = w := by
  induction l with
  | nil => cases h1
  | cons e l ih =>
    rw [List.map_cons, List.nodup_cons] at hn
    rcases List.mem_cons.mp h1 with a | a <;> rcases List.mem_cons.mp h2 with b | b
    · rw [← a] at b; exact (Prod.mk.inj b).2.symm
    · rw [← a] at hn
      exact absurd (List.mem_map_of_mem (f := (·.1)) b) hn.1
    · rw [← b] at hn
      exact absurd (List.mem_map_of_mem (f := (·.1)) a) hn.1
    · exact ih hn.2 a b

/-- **C50, names.** `CountryName` returns for the code of a country, in any letter case, the name that
`EachCountry` reports with it. The name is not empty. -/
theorem country_name (c name : String) (hc : (c, name) ∈ countries) (s : String) (hs : SameCode s c) :
    countryName s = some name ∧ name.toList ≠ [] := by
  obtain ⟨⟨n, h1, h2⟩, -⟩ := country_point c name hc s hs 0 0 ⟨le_refl _, zero_lt_one⟩ ⟨le_refl _, zero_lt_one⟩
  have hn := List.all_eq_true.mp names_ok _ hc
  exact ⟨by rw [h1, lookup_unique codes_nodup h2 hc], of_decide_eq_true hn⟩

/-- The centre of a box lies in it. -/
theorem center_inside (s : String) (b : BBox ℝ) (h : boundingBox s = some b) : Inside b b.center := by
  obtain ⟨⟨a1, a2, a3⟩, b1, b2, b3⟩ := box_of h
  unfold Inside BBox.center
  simp only [real_add, real_div, real_lit]
  push_cast
  refine ⟨⟨?_, ?_⟩, ?_, ?_⟩ <;> linarith

/-! ## Random strings -/

theorem mapM_ok {α β : Type} {f : α → Go β} {g : α → β} {l : List α} (h : ∀ a ∈ l, f a = .ok (g a)) :
    l.mapM f = .ok (l.map g) := by
  induction l with
  | nil => rfl
  | cons a l ih =>
    rw [List.mapM_cons, h a (by simp), ih (fun b hb => h b (by simp [hb]))]
    rfl

/-- **C50, strings.** The requested length over the charset. -/
theorem string_over_charset (length : Int) (chars : String) (draws : Nat → Nat)
    (h : ∀ i, draws i < chars.toList.length) :
    ∃ s, stringWithCharset length chars draws = .ok s ∧ s.toList.length = length.toNat ∧
      ∀ ch ∈ s.toList, ch ∈ chars.toList := by
  unfold stringWithCharset
  split
  · rename_i hl
    exact ⟨"", rfl, by simp; omega, by simp⟩
  · refine ⟨String.ofList ((List.range length.toNat).map (fun i => chars.toList[draws i]'(h i))), ?_, ?_, ?_⟩
    · rw [mapM_ok (g := fun i => chars.toList[draws i]'(h i))]
      · rfl
      · intro i _
        unfold goIndex
        rw [if_pos (by omega)]
        simp only [Int.toNat_natCast]
        rw [List.getElem?_eq_getElem (h i)]
    · simp
    · intro ch hch
      rw [String.toList_ofList, List.mem_map] at hch
      obtain ⟨i, -, rfl⟩ := hch
      exact List.getElem_mem _

/-- With the default charset. -/
theorem string_valid (length : Int) (draws : Nat → Nat) (h : ∀ i, draws i < 62) :
    ∃ s, randomString length draws = .ok s ∧ s.toList.length = length.toNat ∧ ∀ ch ∈ s.toList, ch.isAlphanum := by
  obtain ⟨s, h1, h2, h3⟩ := string_over_charset length charset draws (by
    intro i; have : charset.toList.length = 62 := by decide +kernel
    rw [this]; exact h i)
  refine ⟨s, h1, h2, fun ch hch => ?_⟩
  have : charset.toList.all Char.isAlphanum = true := by decide +kernel
  exact List.all_eq_true.mp this ch (h3 ch hch)

/-! ## Polygons -/

/-- The number of sides: 16 for a negative argument. -/
def sides (points : Int) : Nat := if points < 0 then 16 else points.toNat

/-- The zoom in effect. -/
def clampZoom [GoFloat F] (zoom : F) : F :=
  if (lit 1000 <. if (zoom <. lit 0) = true then lit 0 else zoom) = true then lit 1000
  else if (zoom <. lit 0) = true then lit 0 else zoom

theorem polygon_eq [GoMath F] (points : Int) (zoom : F) (u e : Nat → F) (h : points ≠ 0) :
    polygon points zoom u e = .ok ((List.range (sides points)).map
      (fun i => polygonPoint (clampZoom zoom) (polygonOffset u (sides points - 1)) (polygonOffset u i) (e i)) ++
      [polygonPoint (clampZoom zoom) (polygonOffset u (sides points - 1)) (polygonOffset u 0) (e 0)]) := by
  have hn : 1 ≤ sides points := by unfold sides; split <;> omega
  unfold polygon
  have e1 : (if points < 0 then 16 else points).toNat = sides points := by
    unfold sides; split <;> rfl
  simp only [e1]
  have h1 : goIndex ((List.range (sides points)).map (polygonOffset u))
      ((((List.range (sides points)).map (polygonOffset u)).length : Int) - 1) =
      .ok (polygonOffset u (sides points - 1)) := by
    unfold goIndex
    rw [List.length_map, List.length_range, if_pos (by omega)]
    have : ((sides points : Int) - 1).toNat = sides points - 1 := by omega
    rw [this, List.getElem?_map, List.getElem?_range (by omega)]
    rfl
  rw [h1]
  show (goIndex _ 0 >>= _) = _
  unfold goIndex
  rw [if_pos (by omega)]
  simp only [Int.toNat_zero]
  rw [List.getElem?_map, List.getElem?_range (by omega)]
  rfl

/-- **C50, polygons.** A closed line with the requested number of sides, for any number of points but
zero. -/
theorem polygon_closed_partial [GoMath F] (points : Int) (zoom : F) (u e : Nat → F) (h : points ≠ 0) :
    ∃ l, polygon points zoom u e = .ok l ∧ l.length = sides points + 1 ∧ l.head? = l.getLast? := by
  have hz := polygon_eq points zoom u e h
  have hn : 1 ≤ sides points := by unfold sides; split <;> omega
  refine ⟨_, hz, by simp, ?_⟩
  rw [List.getLast?_append]
  have : List.range (sides points) ≠ [] := by simp; omega
  obtain ⟨n, hn'⟩ : ∃ n, sides points = n + 1 := ⟨sides points - 1, by omega⟩
  rw [hn', List.range_succ_eq_map]
  simp

/-- **C50 fails** for zero points: `Polygon` panics. -/
theorem polygon_zero [GoMath F] (zoom : F) (u e : Nat → F) :
    polygon 0 zoom u e = .error .indexOutOfRange := rfl

/-! ## Random routes -/

/-- The draws of the name. -/
def NameOk (draws : Nat → Nat) : Prop := ∀ i, draws i < 62

theorem changeName_track (t : Track F) (n : String) : (t.changeName n).1.isClosed = t.isClosed ∧
    (t.changeName n).1.segments = t.segments ∧ (t.changeName n).1.id = t.id := by
  unfold Track.changeName
  cases parseName n <;> exact ⟨rfl, rfl, rfl⟩

theorem raw_length [GoMath F] (i : Int) (pts : List (LatLon F)) : (rawSegments i pts).length = pts.length - 1 := by
  induction pts generalizing i with
  | nil => rfl
  | cons a pts ih =>
    cases pts with
    | nil => rfl
    | cons b rest =>
      rw [rawSegments, List.length_cons, ih]; simp

theorem relate_length [GoFloat F] (i : Int) (p : Segment F) (l : List (Segment F)) :
    (relateSegments i p l).length = l.length + 1 := by
  induction l generalizing i p with
  | nil => rfl
  | cons q l ih =>
    rw [relateSegments]
    split <;> simp [ih]

theorem new_ok [GoMath F] (uid color : String) (pts : List (LatLon F)) (h : 2 ≤ pts.length) :
    ∃ t, Track.new uid color pts = .ok t ∧ t.isClosed = isClosedPts pts ∧ t.segments.length = pts.length - 1 := by
  have hm : ∃ segs d, makeSegments pts = .ok (segs, d) ∧ segs.length = pts.length - 1 := by
    unfold makeSegments
    rw [if_neg (by omega)]
    have hl := raw_length 0 pts
    simp only
    split
    · rename_i he
      rw [he] at hl
      exact ⟨_, _, rfl, hl⟩
    · rename_i p rest he
      rw [he, List.length_cons] at hl
      exact ⟨_, _, rfl, by rw [relate_length]; omega⟩
  obtain ⟨segs, d, hm, hl⟩ := hm
  unfold Track.new
  rw [hm]
  exact ⟨_, rfl, rfl, hl⟩

/-- The corners of a random track: those of the polygon, moved to the given point. -/
def corners [GoMath F] (lat lon zoom : F) (rnd : TrackRnd F) : List (LatLon F) :=
  ((List.range 16 ++ [0]).map fun i =>
    let p := polygonPoint (clampZoom zoom) (polygonOffset rnd.u 15) (polygonOffset rnd.u i) (rnd.e i)
    ⟨p.1 +. lat, p.2 +. lon⟩)

/-- The name of a random track or route is a valid name. -/
theorem name_ok (pre s : String) (hp : goLen pre = 6) (hs : s.toList.length = 8)
    (hc : ∀ ch ∈ s.toList, ch.isAlphanum) : parseName (pre ++ s) = .ok (pre ++ s) := by
  have hs' : goLen s = s.toList.length := by
    have key : ∀ l : List Char, (∀ ch ∈ l, ch.isAlphanum) → (String.ofList l).utf8ByteSize = l.length := by
      intro l
      induction l with
      | nil => intro _; rfl
      | cons ch l ih =>
        intro h
        have h1 : ch.utf8Size = 1 := by
          have := h ch (by simp)
          rw [Char.utf8Size_eq_one_iff]
          simp only [Char.isAlphanum, Char.isAlpha, Char.isUpper, Char.isLower, Char.isDigit, Bool.or_eq_true,
            Bool.and_eq_true, decide_eq_true_eq, UInt32.le_iff_toNat_le] at this ⊢
          have e1 : ('A' : Char).val.toNat = 65 := rfl
          have e2 : ('Z' : Char).val.toNat = 90 := rfl
          have e3 : ('a' : Char).val.toNat = 97 := rfl
          have e4 : ('z' : Char).val.toNat = 122 := rfl
          have e5 : ('0' : Char).val.toNat = 48 := rfl
          have e6 : ('9' : Char).val.toNat = 57 := rfl
          have e7 : (127 : UInt32).toNat = 127 := rfl
          omega
        rw [String.ofList_cons, String.utf8ByteSize_append, String.utf8ByteSize_singleton, h1,
          ih (fun c hc => h c (by simp [hc])), List.length_cons]
        omega
    have := key s.toList hc
    rwa [String.ofList_toList] at this
  have hl : goLen (pre ++ s) = 14 := by
    unfold goLen at *
    rw [String.utf8ByteSize_append]
    omega
  unfold parseName
  rw [hl]
  rfl

/-- A random track has 16 segments through the corners of the polygon and a random name. Its last point is its
first one: it is closed unless a coordinate differs from itself, that is, is NaN. -/
theorem random_track [GoMath F] (lat lon zoom : F) (rnd : TrackRnd F) (hn : NameOk rnd.name) :
    ∃ t s, randomTrack lat lon zoom rnd = .ok t ∧ t.segments.length = 16 ∧
      (let p := polygonPoint (clampZoom zoom) (polygonOffset rnd.u 15) (polygonOffset rnd.u 0) (rnd.e 0)
      t.isClosed = (((p.2 +. lon) ==. (p.2 +. lon)) && ((p.1 +. lat) ==. (p.1 +. lat)))) ∧
      C01.readBack t.segments = corners lat lon zoom rnd ∧
      randomString 8 rnd.name = .ok s ∧ t.id = rnd.uid ∧ t.color = rnd.color ∧ t.name = "Track-" ++ s := by
  have hz := polygon_eq 16 zoom rnd.u rnd.e (by decide)
  have hs : sides 16 = 16 := rfl
  rw [hs] at hz
  set p := polygonPoint (clampZoom zoom) (polygonOffset rnd.u (16 - 1)) (polygonOffset rnd.u 0) (rnd.e 0) with hp
  set pts := normalizeCoordinates lat lon ((List.range 16).map
    (fun i => polygonPoint (clampZoom zoom) (polygonOffset rnd.u (16 - 1)) (polygonOffset rnd.u i) (rnd.e i)) ++ [p]) with hpts
  have hlen : pts.length = 17 := by rw [hpts]; simp [normalizeCoordinates]
  have hhead : pts.head? = some ⟨p.1 +. lat, p.2 +. lon⟩ := by
    rw [hpts, List.range_succ_eq_map]
    simp [normalizeCoordinates, hp]
  have hlast : pts.getLast? = some ⟨p.1 +. lat, p.2 +. lon⟩ := by
    rw [hpts]
    unfold normalizeCoordinates
    rw [List.map_append, List.map_singleton, List.getLast?_concat]
  obtain ⟨t, ht, hc, hsl⟩ := new_ok rnd.uid rnd.color pts (by omega)
  obtain ⟨t', ht', hid, hcol, -, hrb⟩ := (C01.newTrack_polyline rnd.uid rnd.color pts).1 (by omega)
  rw [ht] at ht'
  cases ht'
  obtain ⟨s, hstr, hl8, hch⟩ := string_valid 8 rnd.name hn
  have hok : parseName ("Track-" ++ s) = .ok ("Track-" ++ s) := name_ok "Track-" s (by decide) hl8 hch
  have hcn : (t.changeName ("Track-" ++ s)).1 = { t with name := "Track-" ++ s, version := t.version + 1 } := by
    unfold Track.changeName
    rw [hok]
  refine ⟨(t.changeName ("Track-" ++ s)).1, s, ?_, ?_, ?_, ?_, hstr, ?_, ?_, ?_⟩
  · unfold randomTrack
    rw [hz]
    show (match Track.new rnd.uid rnd.color pts with
      | .error _ => Except.error Panic.nilDeref
      | .ok track => do
        let name ← randomString 8 rnd.name
        return (track.changeName ("Track-" ++ name)).1) = _
    rw [ht]
    simp only
    rw [hstr]
    rfl
  · rw [(changeName_track t _).2.1, hsl, hlen]
  · rw [(changeName_track t _).1, hc]
    unfold isClosedPts
    rw [hlen, hhead, hlast]
    rfl
  · rw [(changeName_track t _).2.1, hrb, hpts]
    unfold normalizeCoordinates corners
    rw [List.map_append, List.map_append, List.map_map]
    rfl
  · rw [hcn]; exact hid
  · rw [hcn]; exact hcol
  · rw [hcn]

theorem random_tracks [GoMath F] (lat lon zoom : F) (rnd : Nat → TrackRnd F) (hn : ∀ i, NameOk (rnd i).name)
    (n : Nat) (r : Route F) : ∃ r' ts, randomTracks lat lon zoom rnd n r = .ok r' ∧ r'.tracks = r.tracks ++ ts ∧
      r'.id = r.id ∧ r'.color = r.color ∧ r'.name = r.name ∧ ts.length = n ∧
      ∀ (k : Nat) t, ts[k]? = some t → randomTrack lat lon zoom (rnd (n - 1 - k)) = .ok t := by
  induction n generalizing r with
  | zero => exact ⟨r, [], rfl, by simp, rfl, rfl, rfl, rfl, by simp⟩
  | succ n ih =>
    obtain ⟨t, -, ht, -⟩ := random_track lat lon zoom (rnd n) (hn n)
    obtain ⟨r', ts, h1, h2, h3, h4, h5, h6, h7⟩ := ih (r.addTrack (some t))
    refine ⟨r', t :: ts, ?_, ?_, h3, h4, h5, by simp [h6], ?_⟩
    · unfold randomTracks
      rw [ht]; exact h1
    · rw [h2]
      simp [Route.addTrack, Route.updateState]
    · intro k t' ht'
      cases k with
      | zero =>
        rw [List.getElem?_cons_zero] at ht'
        cases ht'
        exact ht
      | succ k =>
        rw [List.getElem?_cons_succ] at ht'
        have := h7 k t' ht'
        rw [show n + 1 - 1 - (k + 1) = n - 1 - k by omega]
        exact this

/-- The number of tracks: 1 for a negative argument. -/
def tracksOf (numTrack : Int) : Nat := if numTrack < 0 then 1 else numTrack.toNat

/-- The level of a random route: between 10 and 600. -/
def levelOf (level : Int) : Int := max 10 (min 600 level)

/-- **C50, routes, part one.** `RandomRoute` always succeeds. The route has a random name and the requested
number of tracks, each made by the loop body from draws of its own. -/
theorem route_tracks [GoMath F] (lon lat : F) (numTrack level : Int) (uid color : String) (name : Nat → Nat)
    (rnd : Nat → TrackRnd F) (hname : NameOk name) (hn : ∀ i, NameOk (rnd i).name) :
    ∃ r s, randomRoute lon lat numTrack level uid color name rnd = .ok r ∧ r.tracks.length = tracksOf numTrack ∧
      randomString 8 name = .ok s ∧ r.id = uid ∧ r.color = color ∧ r.name = "Route-" ++ s ∧
      ∀ (k : Nat) t, r.tracks[k]? = some t →
        randomTrack lat lon (lit (levelOf level)) (rnd (tracksOf numTrack - 1 - k)) = .ok t := by
  obtain ⟨s, hs, hlen, hch⟩ := string_valid 8 name hname
  unfold randomRoute
  rw [hs]
  have e : (if numTrack < 0 then 1 else numTrack).toNat = tracksOf numTrack := by
    unfold tracksOf; split <;> rfl
  have el : (if (if level < 10 then 10 else level) > 600 then 600 else if level < 10 then 10 else level : Int) =
      levelOf level := by
    unfold levelOf; split <;> split <;> omega
  show ∃ r s', randomTracks lat lon (lit ((if (if level < 10 then 10 else level) > 600 then 600
    else if level < 10 then 10 else level : Int) : Rat)) rnd (if numTrack < 0 then 1 else numTrack).toNat _ = .ok r ∧ _
  rw [e, el]
  obtain ⟨r', ts, h1, h2, h3, h4, h5, h6, h7⟩ := random_tracks lat lon (lit ((levelOf level : Int) : Rat)) rnd hn
    (tracksOf numTrack) ((Route.new uid color).changeName ("Route-" ++ s)).1
  have hok : parseName ("Route-" ++ s) = .ok ("Route-" ++ s) := name_ok "Route-" s (by decide) hlen hch
  have h0 : ((Route.new uid color : Route F).changeName ("Route-" ++ s)).1 =
      { (Route.new uid color : Route F) with name := "Route-" ++ s, version := 1 } := by
    unfold Route.changeName
    rw [hok]; rfl
  rw [h0] at h1 h2 h3 h4 h5
  refine ⟨r', s, by rw [h0]; exact h1, by rw [h2, ← h6]; rfl, rfl, h3, h4, h5, fun k t ht => ?_⟩
  rw [h2] at ht
  exact h7 k t ht

/-- **C50, levels.** The levels below `RouteLevelS` make the routes of `RouteLevelS`, so `RouteLevelXS` (1) does not differ from it. -/
theorem small_levels_alike [GoMath F] (lon lat : F) (numTrack level : Int) (uid color : String) (name : Nat → Nat)
    (rnd : Nat → TrackRnd F) (h : level ≤ 10) :
    randomRoute lon lat numTrack level uid color name rnd = randomRoute lon lat numTrack 10 uid color name rnd := by
  unfold randomRoute
  have e : (if level < 10 then (10 : Int) else level) = 10 := by split <;> omega
  simp only [e]
  rfl

example [GoMath F] (lon lat : F) (uid color : String) (name : Nat → Nat) (rnd : Nat → TrackRnd F) :
    randomRoute lon lat 3 1 uid color name rnd = randomRoute lon lat 3 10 uid color name rnd :=
  small_levels_alike lon lat 3 1 uid color name rnd (by decide)

theorem offset_fin (a : Nat → ℝ) (n : Nat) :
    polygonOffset (fun i => (.fin (a i) : XNum ℝ)) n = .fin (((List.range (n + 1)).map a).sum) := by
  induction n with
  | zero => simp [polygonOffset]
  | succ n ih =>
    rw [polygonOffset, ih, List.range_succ (n := n + 1)]
    simp

/-- The first point of a polygon, from finite draws with a non-zero sum, is finite. -/
theorem point_fin (z x d e : ℝ) (hd : d ≠ 0) : ∃ a b, polygonPoint (.fin z) (.fin d) (.fin x) (.fin e) =
    ((.fin a, .fin b) : XNum ℝ × XNum ℝ) := by
  unfold polygonPoint
  simp only [phi, randFactor, XNum.lit_eq, XNum.fin_mul, XNum.fin_add, XNum.fin_sub, XNum.fin_div, hd, if_false]
  split <;> exact ⟨_, _, rfl⟩

/-- **C50, routes, part two.** A random track is closed if its centre and draws are finite numbers and the
draws do not add up to zero. -/
theorem track_closed_partial (lat lon zoom : ℝ) (rnd : TrackRnd (XNum ℝ)) (hn : NameOk rnd.name) (a e : Nat → ℝ)
    (hu : ∀ i, rnd.u i = .fin (a i)) (he : ∀ i, rnd.e i = .fin (e i)) (hsum : ((List.range 16).map a).sum ≠ 0)
    (t : Track (XNum ℝ)) (ht : randomTrack (.fin lat) (.fin lon) (.fin zoom) rnd = .ok t) : t.isClosed = true := by
  obtain ⟨t', -, h', -, hc, -⟩ := random_track (.fin lat) (.fin lon) (.fin zoom) rnd hn
  rw [ht] at h'
  cases h'
  have hu' : rnd.u = fun i => .fin (a i) := funext hu
  rw [hu', offset_fin, offset_fin, he 0] at hc
  have hz : ∃ z, clampZoom (.fin zoom : XNum ℝ) = .fin z := by
    unfold clampZoom
    by_cases h1 : ((.fin zoom : XNum ℝ) <. lit 0) = true
    · rw [if_pos h1]; split <;> exact ⟨_, rfl⟩
    · rw [if_neg h1]; split <;> exact ⟨_, rfl⟩
  obtain ⟨z, hz⟩ := hz
  rw [hz] at hc
  obtain ⟨p, q, hp⟩ := point_fin z (((List.range (0 + 1)).map a).sum) _ (e 0) hsum
  rw [hp] at hc
  rw [hc]
  simp

/-- **C50 fails** if all draws of a polygon are zero: the track consists of NaN and is not closed. -/
theorem zero_draws_open (lat lon zoom : XNum ℝ) (rnd : TrackRnd (XNum ℝ)) (hn : NameOk rnd.name)
    (hu : ∀ i, rnd.u i = .fin 0) (t : Track (XNum ℝ)) (ht : randomTrack lat lon zoom rnd = .ok t) :
    t.isClosed = false := by
  obtain ⟨t', -, h', -, hc, -⟩ := random_track lat lon zoom rnd hn
  rw [ht] at h'
  cases h'
  have hu' : rnd.u = fun _ => .fin 0 := funext hu
  have ho : ∀ n, polygonOffset rnd.u n = .fin 0 := by
    intro n; rw [hu', offset_fin]; simp
  rw [ho, ho] at hc
  have hp : (polygonPoint (clampZoom zoom) (.fin 0) (.fin 0) (rnd.e 0) : XNum ℝ × XNum ℝ) = (.nan, .nan) := by
    have hcur : ((.fin 0 : XNum ℝ) *. lit 6 *. phi) /. .fin 0 = .nan := by
      unfold phi
      rw [XNum.lit_eq, XNum.lit_eq, XNum.fin_mul, XNum.fin_mul, XNum.fin_div]
      simp
    have hm : ∀ x : XNum ℝ, x *. .nan = .nan := by intro x; cases x <;> rfl
    unfold polygonPoint
    simp only [hcur]
    have hs : (GoMath.sin (.nan : XNum ℝ)) = .nan := rfl
    have hco : (GoMath.cos (.nan : XNum ℝ)) = .nan := rfl
    rw [hs, hco, hm, hm, ite_self]
  rw [hp] at hc
  rw [hc]
  have ha : ∀ x : XNum ℝ, (.nan : XNum ℝ) +. x = .nan := by intro x; cases x <;> rfl
  simp only [ha, XNum.nan_eq, Bool.and_self]

/-- **C50, routes.** A random route around a finite point has the requested number of tracks, all of them
closed, provided the draws of each polygon do not add up to zero. -/
theorem route_closed_partial (lon lat : ℝ) (numTrack level : Int) (uid color : String) (name : Nat → Nat)
    (rnd : Nat → TrackRnd (XNum ℝ)) (hname : NameOk name) (hn : ∀ i, NameOk (rnd i).name) (a e : Nat → Nat → ℝ)
    (hu : ∀ i j, (rnd i).u j = .fin (a i j)) (he : ∀ i j, (rnd i).e j = .fin (e i j))
    (hsum : ∀ i, ((List.range 16).map (a i)).sum ≠ 0) :
    ∃ r, randomRoute (.fin lon) (.fin lat) numTrack level uid color name rnd = .ok r ∧
      r.tracks.length = tracksOf numTrack ∧ ∀ t ∈ r.tracks, t.isClosed = true := by
  obtain ⟨r, s, h1, h2, -, -, -, -, h3⟩ :=
    route_tracks (.fin lon : XNum ℝ) (.fin lat) numTrack level uid color name rnd hname hn
  refine ⟨r, h1, h2, fun t ht => ?_⟩
  obtain ⟨k, hk⟩ := List.getElem?_of_mem ht
  exact track_closed_partial lat lon _ (rnd _) (hn _) (a _) (e _) (hu _) (he _) (hsum _) t (h3 k t hk)

/-! ## Examples -/

/-- Draws for a track. -/
def exTrack (i : Nat) : TrackRnd Toy := ⟨fun j => .of (1 / (j + 1)), fun _ => .of 1, s!"t{i}", "red", fun j => j⟩

def exRoute : Go (Route Toy) := randomRoute (.of 20) (.of 10) 3 100 "r" "blue" (fun _ => 7) exTrack

example : (exRoute.toOption.map fun r => (r.name, r.tracks.map fun t => (t.name, t.segments.length, t.isClosed))) =
    some ("Route-hhhhhhhh", List.replicate 3 ("Track-abcdefgh", 16, true)) := by decide +kernel

example : (latLonByCountry "ru" (.of (1 / 2)) (.of (1 / 4)) : Option (LatLon Toy)).isSome = true ∧
    (latLonByCountry "xx" (.of (1 / 2)) (.of (1 / 4)) : Option (LatLon Toy)).isSome = false ∧
    (latLonByCountry "rus" (.of (1 / 2)) (.of (1 / 4)) : Option (LatLon Toy)).isSome = false := by decide +kernel

example : countryName "zW" = some "Zimbabwe" ∧ countryName "zwe" = none ∧ countryName "qq" = none := by decide +kernel

example : (polygon 5 (.of 2) (fun j => .of (j + 1)) (fun _ => .of 1) : Go (List (Toy × Toy))).toOption.map List.length
    = some 6 := by decide +kernel

example : (randomString 5 (fun i => 61 - i)).toOption = some "98765" := by decide +kernel

end C50
end GpsGen
