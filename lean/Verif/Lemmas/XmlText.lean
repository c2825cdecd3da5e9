import Verif.Model.XmlText
/-!
# Reading what was written as XML

A tree of nodes that is written and read comes back with its layout as texts and with illegal characters replaced, if names are
names and no two texts are neighbours.
-/

namespace GpsGen
namespace XmlText

/-! ## Characters -/

/-- A character after it was written and read. -/
def cleanChar (c : Char) : Char := if xmlChar c then c else '\uFFFD'

/-- A text after it was written and read. -/
def clean (s : String) : String := String.ofList (s.toList.map cleanChar)

/-- Only characters of XML documents. -/
def Legal (s : String) : Prop := ∀ c ∈ s.toList, xmlChar c = true

theorem clean_legal {s : String} (h : Legal s) : clean s = s := by
  unfold clean
  have : s.toList.map cleanChar = s.toList := by
    conv => rhs; rw [← List.map_id s.toList]
    apply List.map_congr_left
    intro c hc
    unfold cleanChar
    rw [if_pos (h c hc)]
    rfl
  rw [this, String.ofList_toList]

theorem cleanChar_legal (c : Char) : xmlChar (cleanChar c) = true := by
  unfold cleanChar
  split
  · assumption
  · decide

theorem esc_cases (attr : Bool) (c : Char) :
    (c = '"' ∨ c = '\'' ∨ c = '&' ∨ c = '<' ∨ c = '>' ∨ c = '\t' ∨ c = '\n' ∨ c = '\r') ∨
    (escChar attr c = [cleanChar c] ∧ cleanChar c ≠ '"' ∧ cleanChar c ≠ '&' ∧ cleanChar c ≠ '<' ∧ cleanChar c ≠ '>' ∧
      cleanChar c ≠ '\r') := by
  by_cases h1 : c = '"'; · simp [h1]
  by_cases h2 : c = '\''; · simp [h2]
  by_cases h3 : c = '&'; · simp [h3]
  by_cases h4 : c = '<'; · simp [h4]
  by_cases h5 : c = '>'; · simp [h5]
  by_cases h6 : c = '\t'; · simp [h6]
  by_cases h7 : c = '\n'; · simp [h7]
  by_cases h8 : c = '\r'; · simp [h8]
  right
  unfold escChar cleanChar
  simp only [if_neg h1, if_neg h2, if_neg h3, if_neg h4, if_neg h5, if_neg h6, if_neg h7, if_neg h8]
  split
  · exact ⟨rfl, h1, h3, h4, h5, h8⟩
  · decide

theorem esc_plain (attr : Bool) (c : Char) :
    ∀ x ∈ escChar attr c, x ≠ '"' ∧ x ≠ '<' ∧ x ≠ '>' ∧ x ≠ '\r' := by
  rcases esc_cases attr c with h | ⟨h, h1, h2, h3, h4, h5⟩
  · rcases h with rfl | rfl | rfl | rfl | rfl | rfl | rfl | rfl <;> cases attr <;> decide
  · rw [h]
    simpa using ⟨h1, h3, h4, h5⟩

theorem text_plain (attr : Bool) (s : List Char) :
    ∀ x ∈ s.flatMap (escChar attr), x ≠ '"' ∧ x ≠ '<' ∧ x ≠ '>' ∧ x ≠ '\r' := by
  intro x hx
  obtain ⟨c, -, hx⟩ := List.mem_flatMap.mp hx
  exact esc_plain attr c x hx

theorem unescape_esc (attr : Bool) (c : Char) (rest : List Char) :
    unescape none (escChar attr c ++ rest) = (unescape none rest).map (cleanChar c :: ·) := by
  rcases esc_cases attr c with h | ⟨h, h1, h2, h3, h4, h5⟩
  · rcases h with rfl | rfl | rfl | rfl | rfl | rfl | rfl | rfl <;> cases attr <;> rfl
  · rw [h]
    simp only [List.cons_append, List.nil_append, unescape, if_neg h2]

theorem unescape_text (attr : Bool) (s : List Char) :
    unescape none (s.flatMap (escChar attr)) = some (s.map cleanChar) := by
  induction s with
  | nil => rfl
  | cons c s ih => rw [List.flatMap_cons, unescape_esc, ih]; rfl

theorem newlines_id (l : List Char) (h : ∀ x ∈ l, x ≠ '\r') : newlines l = l := by
  induction l with
  | nil => rfl
  | cons c l ih =>
    have hc : c ≠ '\r' := h c (by simp)
    rw [newlines, ih fun x hx => h x (by simp [hx])]
    · intro cs e; exact absurd e hc
    · intro e; exact hc e

theorem decode_text (attr : Bool) (s : String) :
    decodeText (s.toList.flatMap (escChar attr)) = some (clean s) := by
  unfold decodeText
  rw [newlines_id _ fun x hx => (text_plain attr _ x hx).2.2.2, unescape_text, Option.bind_some, if_pos]
  · rfl
  · rw [List.all_map, List.all_eq_true]
    intro c _
    exact cleanChar_legal c

theorem unescape_plain (l : List Char) (h : ∀ x ∈ l, x ≠ '&') : unescape none l = some l := by
  induction l with
  | nil => rfl
  | cons c l ih => rw [unescape, if_neg (h c (by simp)), ih fun x hx => h x (by simp [hx])]; rfl

theorem decode_space (s : String) (h : ∀ c ∈ s.toList, c = ' ' ∨ c = '\t' ∨ c = '\n') : decodeText s.toList = some s := by
  unfold decodeText
  rw [newlines_id, unescape_plain, Option.bind_some, if_pos, String.ofList_toList]
  · rw [List.all_eq_true]
    intro c hc
    rcases h c hc with rfl | rfl | rfl <;> decide
  · intro c hc
    rcases h c hc with rfl | rfl | rfl <;> decide
  · intro c hc
    rcases h c hc with rfl | rfl | rfl <;> decide

theorem noCdEnd (l : List Char) (h : ∀ x ∈ l, x ≠ '>') : hasCdEnd l = false := by
  induction l with
  | nil => rfl
  | cons c l ih =>
    rw [hasCdEnd, ih fun x hx => h x (by simp [hx])]
    intro cs _ e
    have : '>' ∈ c :: l := by rw [e]; simp
    exact h _ this rfl

/-! ## Names -/

theorem isFirst_in (N : NameChars) (c : Char) (h : isFirst N c = true) : inName c = true := by
  unfold isFirst at h
  unfold inName
  split at h
  · simp only [Bool.or_eq_true, beq_iff_eq] at h
    rcases h with (h | h) | h
    · simp [Char.isAlphanum, h]
    · simp [h]
    · simp [h]
  · simp; omega

theorem isMore_in (N : NameChars) (c : Char) (h : isMore N c = true) : inName c = true := by
  unfold isMore at h
  rw [Bool.or_eq_true] at h
  rcases h with h | h
  · exact isFirst_in N c h
  · unfold inName
    split at h
    · simp only [Bool.or_eq_true, beq_iff_eq] at h
      rcases h with (h | h) | h
      · simp [Char.isAlphanum, h]
      · simp [h]
      · simp [h]
    · simp; omega

theorem name_in (N : NameChars) (s : List Char) (h : isName N s = true) : ∀ c ∈ s, inName c = true := by
  cases s with
  | nil => cases h
  | cons c cs =>
    simp only [isName, Bool.and_eq_true, List.all_eq_true] at h
    intro x hx
    rcases List.mem_cons.mp hx with rfl | hx
    · exact isFirst_in N _ h.1.1
    · exact isMore_in N x (h.1.2 x hx)

/-- Stops a name. -/
def Stops (cs : List Char) : Prop := ∀ c, cs.head? = some c → inName c = false

theorem span_stop (p : Char → Bool) (a b : List Char) (h : ∀ c ∈ a, p c = true) (hb : ∀ c, b.head? = some c → p c = false) :
    (a ++ b).takeWhile p = a ∧ (a ++ b).dropWhile p = b := by
  induction a with
  | nil =>
    cases b with
    | nil => exact ⟨rfl, rfl⟩
    | cons c b =>
      have := hb c rfl
      simp [this]
  | cons c a ih =>
    obtain ⟨h1, h2⟩ := ih fun x hx => h x (by simp [hx])
    simp [h c (by simp), h1, h2]

theorem read_name (N : NameChars) (s : String) (h : isName N s.toList = true) (rest : List Char) (hr : Stops rest) :
    readName N (s.toList ++ rest) = some (s, rest) := by
  obtain ⟨h1, h2⟩ := span_stop inName s.toList rest (name_in N _ h) hr
  unfold readName
  rw [h1, h2, if_pos h, String.ofList_toList]

theorem name_head (N : NameChars) (s : List Char) (h : isName N s = true) :
    ∃ c cs, s = c :: cs ∧ isSpace c = false ∧ c ≠ '>' ∧ c ≠ '/' ∧ c ≠ '?' ∧ c ≠ '=' := by
  cases s with
  | nil => cases h
  | cons c cs =>
    refine ⟨c, cs, rfl, ?_⟩
    have hc := name_in N _ h c (by simp)
    refine ⟨?_, ?_, ?_, ?_, ?_⟩
    · cases hs : isSpace c with
      | false => rfl
      | true =>
        unfold isSpace at hs
        simp only [Bool.or_eq_true, beq_iff_eq] at hs
        rcases hs with ((rfl | rfl) | rfl) | rfl <;> revert hc <;> decide
    all_goals (rintro rfl; revert hc; decide)

theorem skip_none (cs : List Char) (h : ∀ c, cs.head? = some c → isSpace c = false) : skipSpace cs = cs :=
  (span_stop isSpace [] cs (by simp) h).2

/-! ## Start tags -/

/-- An attribute with a name, or one that is not written. -/
def GoodAttr (N : NameChars) (a : String × String) : Prop := a.1 = "" ∨ isName N a.1.toList = true

/-- Attributes after they were written and read. -/
def cleanAttrs (as : Attrs) : Attrs := (as.filter fun a => a.1 != "").map fun a => (a.1, clean a.2)

theorem read_value (s : String) (rest : List Char) :
    readValue ('"' :: (s.toList.flatMap (escChar true) ++ '"' :: rest)) = some (clean s, rest) := by
  obtain ⟨h1, h2⟩ := span_stop (· != '"') (s.toList.flatMap (escChar true)) ('"' :: rest)
    (fun c hc => by simpa using (text_plain true _ c hc).1) (by simp)
  have h3 : '<' ∉ s.toList.flatMap (escChar true) := fun hc => (text_plain true _ _ hc).2.1 rfl
  simp only [readValue, h1, h2]
  rw [if_pos (by simp), if_neg h3, decode_text]
  rfl

theorem good_ne {N : NameChars} {a : String × String} (h : isName N a.1.toList = true) : a.1 ≠ "" := by
  intro hc
  rw [hc] at h
  cases h

theorem read_attr (N : NameChars) (a : String × String) (h : isName N a.1.toList = true) (fuel : Nat) (rest : List Char) :
    readAttrs N (fuel + 1) (attrText a ++ rest) =
      (readAttrs N fuel rest).map fun x => ((a.1, clean a.2) :: x.1, x.2.1, x.2.2) := by
  obtain ⟨c, cs, e, h1, h2, h3, -, -⟩ := name_head N _ h
  have ht : attrText a ++ rest =
      ' ' :: (a.1.toList ++ '=' :: '"' :: (a.2.toList.flatMap (escChar true) ++ '"' :: rest)) := by
    simp [attrText, good_ne h]
  have hs : skipSpace (attrText a ++ rest) =
      a.1.toList ++ '=' :: '"' :: (a.2.toList.flatMap (escChar true) ++ '"' :: rest) := by
    rw [ht]
    show skipSpace (a.1.toList ++ _) = _
    apply skip_none
    rw [e]
    simpa using h1
  have hhead : (a.1.toList ++ '=' :: '"' :: (a.2.toList.flatMap (escChar true) ++ '"' :: rest)).head? = some c := by
    rw [e]; rfl
  have hq : skipSpace ('=' :: '"' :: (a.2.toList.flatMap (escChar true) ++ '"' :: rest)) =
      '=' :: '"' :: (a.2.toList.flatMap (escChar true) ++ '"' :: rest) := skip_none _ (by simp; decide)
  have hq2 : skipSpace ('"' :: (a.2.toList.flatMap (escChar true) ++ '"' :: rest)) =
      '"' :: (a.2.toList.flatMap (escChar true) ++ '"' :: rest) := skip_none _ (by simp; decide)
  rw [readAttrs]
  simp only [hs, hhead, Option.some.injEq, if_neg h2, if_neg h3]
  rw [read_name N a.1 h _ (by intro x hx; cases hx; decide)]
  simp only [Option.bind_some, hq, List.head?_cons, if_true, List.tail_cons, hq2, read_value]

theorem read_attrs (N : NameChars) (as : Attrs) (h : ∀ a ∈ as, GoodAttr N a) (fuel : Nat)
    (hf : (as.filter fun a => a.1 != "").length < fuel) (rest : List Char) :
    readAttrs N fuel (as.flatMap attrText ++ '>' :: rest) = some (cleanAttrs as, false, rest) := by
  induction as generalizing fuel with
  | nil =>
    obtain ⟨f, rfl⟩ : ∃ f, fuel = f + 1 := ⟨fuel - 1, by simp at hf; omega⟩
    have hs : skipSpace ('>' :: rest) = '>' :: rest := skip_none _ (by simp; decide)
    simp only [List.flatMap_nil, List.nil_append, readAttrs, hs, List.head?_cons, if_true, List.tail_cons]
    rfl
  | cons a as ih =>
    rw [List.flatMap_cons, List.append_assoc]
    have ih := ih fun x hx => h x (by simp [hx])
    rcases h a (by simp) with h0 | h1
    · have : cleanAttrs (a :: as) = cleanAttrs as := by simp [cleanAttrs, h0]
      rw [this, attrText, if_pos h0]
      exact ih fuel (by simpa [h0] using hf)
    · obtain ⟨f, rfl⟩ : ∃ f, fuel = f + 1 := ⟨fuel - 1, by omega⟩
      have : cleanAttrs (a :: as) = (a.1, clean a.2) :: cleanAttrs as := by simp [cleanAttrs, good_ne h1]
      rw [read_attr N a h1, ih f (by rw [List.filter_cons_of_pos (by simpa using good_ne h1)] at hf; simpa using hf), this]
      rfl

theorem attrs_head (as : Attrs) (rest : List Char) :
    ∀ c, (as.flatMap attrText ++ '>' :: rest).head? = some c → c = ' ' ∨ c = '>' := by
  induction as with
  | nil => intro c hc; cases hc; exact Or.inr rfl
  | cons a as ih =>
    rw [List.flatMap_cons, List.append_assoc]
    by_cases h0 : a.1 = ""
    · rw [attrText, if_pos h0]
      exact ih
    · rw [attrText, if_neg h0]
      intro c hc
      cases hc
      exact Or.inl rfl

theorem attrs_stop (as : Attrs) (rest : List Char) : Stops (as.flatMap attrText ++ '>' :: rest) := by
  intro c hc
  rcases attrs_head as rest c hc with rfl | rfl <;> decide

/-- The number of attributes that are written. -/
theorem attrs_length (as : Attrs) : (as.filter fun a => a.1 != "").length ≤ (as.flatMap attrText).length := by
  induction as with
  | nil => simp
  | cons a as ih =>
    rw [List.flatMap_cons, List.length_append]
    by_cases h0 : a.1 = ""
    · simp only [h0, List.filter_cons, bne_self_eq_false, Bool.false_eq_true, if_false]
      omega
    · rw [List.filter_cons_of_pos (by simpa using h0)]
      simp only [attrText, if_neg h0, List.length_cons]
      omega

/-! ## Trees -/

/-- Text or layout. -/
def isChars : Xml → Bool
  | .elem _ _ _ => false
  | _ => true

mutual
/-- A tree that can be written and read: names are names, texts are not empty, no two of them are neighbours. -/
def Good (N : NameChars) : Xml → Prop
  | .elem n as ks => isName N n.toList = true ∧ (∀ a ∈ as, GoodAttr N a) ∧ GoodAll N ks
  | .text s => s ≠ ""
  | .space s => s ≠ "" ∧ ∀ c ∈ s.toList, c = ' ' ∨ c = '\t' ∨ c = '\n'
def GoodAll (N : NameChars) : List Xml → Prop
  | [] => True
  | k :: ks => Good N k ∧ (isChars k = true → ∀ x, ks.head? = some x → isChars x = false) ∧ GoodAll N ks
end

mutual
/-- A node after it was written and read. -/
def plain : Xml → Xml
  | .elem n as ks => .elem n (cleanAttrs as) (plainAll ks)
  | .text s => .text (clean s)
  | .space s => .text s
def plainAll : List Xml → List Xml
  | [] => []
  | k :: ks => plain k :: plainAll ks
end

mutual
/-- How deep reading goes at most. -/
def need : Xml → Nat
  | .elem _ _ ks => needAll ks + 1
  | .text _ => 1
  | .space _ => 1
def needAll : List Xml → Nat
  | [] => 1
  | k :: ks => need k + needAll ks + 1
end

theorem read_end (N : NameChars) (n : String) (h : isName N n.toList = true) (rest : List Char) :
    readEnd N n ('<' :: '/' :: (n.toList ++ '>' :: rest)) = some rest := by
  have hs : skipSpace ('>' :: rest) = '>' :: rest := skip_none _ (by simp; decide)
  simp only [readEnd, List.head?_cons, List.tail_cons, and_self, if_true]
  rw [read_name N n h _ (by intro c hc; cases hc; decide)]
  simp only [Option.bind_some, hs, List.head?_cons, and_self, if_true, List.tail_cons]

/-- Where a list of nodes ends: an end tag or the end of the text. -/
def AtEnd (cs : List Char) : Prop := cs = [] ∨ ∃ r, cs = '<' :: '/' :: r

theorem read_chars (N : NameChars) (f : Nat) (raw rest : List Char) (s : String) (h0 : raw ≠ [])
    (h1 : ∀ c ∈ raw, c ≠ '<' ∧ c ≠ '>') (h2 : decodeText raw = some s) (hr : ∀ c, rest.head? = some c → c = '<') :
    readKids N (f + 1) (raw ++ rest) = (readKids N f rest).map fun x => (.text s :: x.1, x.2) := by
  obtain ⟨t1, t2⟩ := span_stop (· != '<') raw rest (fun c hc => by simpa using (h1 c hc).1)
    (fun c hc => by rw [hr c hc]; decide)
  obtain ⟨c, cs, rfl⟩ := List.exists_cons_of_ne_nil h0
  have hc : c ≠ '<' := (h1 c (by simp)).1
  rw [readKids, if_neg (by simp), if_neg (by simpa using hc)]
  simp only [t1, t2, noCdEnd _ fun x hx => (h1 x hx).2, h2, Option.bind_some]
  rfl

theorem text_ne (attr : Bool) (s : String) (h : s ≠ "") : s.toList.flatMap (escChar attr) ≠ [] := by
  intro hc
  rw [List.flatMap_eq_nil_iff] at hc
  cases hl : s.toList with
  | nil => exact h (by rw [← String.ofList_toList (s := s), hl])
  | cons c cs =>
    have := hc c (by rw [hl]; simp)
    rcases esc_cases attr c with h | ⟨h, -⟩
    · rcases h with rfl | rfl | rfl | rfl | rfl | rfl | rfl | rfl <;> cases attr <;> cases this
    · rw [h] at this; cases this

theorem elem_text (n : String) (as : Attrs) (ks : List Xml) (rest : List Char) :
    Xml.write (.elem n as ks) ++ rest = '<' :: (n.toList ++ (as.flatMap attrText ++ '>' ::
      (Xml.writeAll ks ++ '<' :: '/' :: (n.toList ++ '>' :: rest)))) := by
  simp [Xml.write]

theorem head_write (N : NameChars) (ks : List Xml) (h : GoodAll N ks) (hk : ∀ x, ks.head? = some x → isChars x = false)
    (rest : List Char) (hr : AtEnd rest) : ∀ c, (Xml.writeAll ks ++ rest).head? = some c → c = '<' := by
  intro c hc
  cases ks with
  | nil =>
    rcases hr with rfl | ⟨r, rfl⟩
    · cases hc
    · cases hc; rfl
  | cons k ks =>
    cases k with
    | elem n as l => rw [Xml.writeAll, List.append_assoc, elem_text] at hc; cases hc; rfl
    | text s => exact absurd (hk _ rfl) (by simp [isChars])
    | space s => exact absurd (hk _ rfl) (by simp [isChars])

mutual
theorem read_elem (N : NameChars) (x : Xml) (h : Good N x) (f : Nat) (hf : need x ≤ f) (rest : List Char) :
    match x with
    | .elem n as ks => readElem N f (n.toList ++ (as.flatMap attrText ++ '>' ::
        (Xml.writeAll ks ++ '<' :: '/' :: (n.toList ++ '>' :: rest)))) = some (plain (.elem n as ks), rest)
    | _ => True := by
  cases x with
  | text s => trivial
  | space s => trivial
  | elem n as ks =>
    simp only [Good] at h
    obtain ⟨h1, h2, h3⟩ := h
    simp only [need] at hf
    obtain ⟨g, rfl⟩ : ∃ g, f = g + 1 := ⟨f - 1, by omega⟩
    have hl := attrs_length as
    show readElem N (g + 1) _ = _
    rw [readElem, read_name N n h1 _ (attrs_stop _ _)]
    simp only [Option.bind_some]
    rw [read_attrs N as h2 _ (by simp only [List.length_append, List.length_cons]; omega)]
    simp only [Option.bind_some, Bool.false_eq_true, if_false]
    rw [read_all N ks h3 g (by omega) _ (Or.inr ⟨_, rfl⟩)]
    simp only [Option.bind_some]
    rw [read_end N n h1]
    rfl
theorem read_all (N : NameChars) (ks : List Xml) (h : GoodAll N ks) (f : Nat) (hf : needAll ks ≤ f) (rest : List Char)
    (hr : AtEnd rest) : readKids N f (Xml.writeAll ks ++ rest) = some (plainAll ks, rest) := by
  cases ks with
  | nil =>
    simp only [needAll] at hf
    obtain ⟨g, rfl⟩ : ∃ g, f = g + 1 := ⟨f - 1, by omega⟩
    rcases hr with rfl | ⟨r, rfl⟩
    · rfl
    · simp [Xml.writeAll, readKids, plainAll]
  | cons k ks =>
    simp only [needAll] at hf
    obtain ⟨g, rfl⟩ : ∃ g, f = g + 1 := ⟨f - 1, by omega⟩
    simp only [GoodAll] at h
    obtain ⟨h1, h2, h3⟩ := h
    have ih := read_all N ks h3 g (by omega) rest hr
    cases k with
    | elem n as l =>
      have ihx := read_elem N (.elem n as l) h1 g (by omega) (Xml.writeAll ks ++ rest)
      obtain ⟨c, cs, e, -, -, hc1, hc2, -⟩ := name_head N _ (by simp only [Good] at h1; exact h1.1)
      rw [Xml.writeAll, List.append_assoc, elem_text, readKids, if_neg (by simp)]
      have hd : ∀ r, (n.toList ++ r).head? = some c := fun r => by rw [e]; rfl
      simp only [List.head?_cons, if_true, List.tail_cons, hd, Option.some.injEq, if_neg hc1, if_neg hc2]
      simp only at ihx
      rw [ihx]
      simp only [Option.bind_some, ih]
      rfl
    | text s =>
      simp only [Good] at h1
      rw [Xml.writeAll, List.append_assoc]
      show readKids N (g + 1) (s.toList.flatMap (escChar false) ++ _) = _
      rw [read_chars N g _ _ _ (text_ne false s h1)
        (fun c hc => ⟨(text_plain false _ c hc).2.1, (text_plain false _ c hc).2.2.1⟩) (decode_text false s)
        (head_write N ks h3 (h2 rfl) rest hr), ih]
      rfl
    | space s =>
      simp only [Good] at h1
      rw [Xml.writeAll, List.append_assoc]
      show readKids N (g + 1) (s.toList ++ _) = _
      have hne : s.toList ≠ [] := fun hc => h1.1 (by rw [← String.ofList_toList (s := s), hc])
      rw [read_chars N g _ _ _ hne
        (fun c hc => by rcases h1.2 c hc with rfl | rfl | rfl <;> decide) (decode_space s h1.2)
        (head_write N ks h3 (h2 rfl) rest hr), ih]
      rfl
end

mutual
theorem need_length (N : NameChars) (x : Xml) (h : Good N x) : need x + 1 ≤ 2 * (Xml.write x).length := by
  cases x with
  | elem n as ks =>
    simp only [Good] at h
    have := needAll_length N ks h.2.2
    simp only [need, Xml.write, List.length_cons, List.length_append]
    omega
  | text s =>
    simp only [Good] at h
    have := List.length_pos_iff.mpr (text_ne false s h)
    simp only [need, Xml.write]
    omega
  | space s =>
    simp only [Good] at h
    have hne : s.toList ≠ [] := fun hc => h.1 (by rw [← String.ofList_toList (s := s), hc])
    have := List.length_pos_iff.mpr hne
    simp only [need, Xml.write]
    omega
theorem needAll_length (N : NameChars) (ks : List Xml) (h : GoodAll N ks) : needAll ks ≤ 2 * (Xml.writeAll ks).length + 1 := by
  cases ks with
  | nil => simp [needAll]
  | cons k ks =>
    simp only [GoodAll] at h
    have h1 := need_length N k h.1
    have h2 := needAll_length N ks h.2.2
    simp only [needAll, Xml.writeAll, List.length_append]
    omega
end

/-! ## Texts that cannot be read -/

theorem more_fuel (N : NameChars) (f : Nat) :
    (∀ cs y, readElem N f cs = some y → readElem N (f + 1) cs = some y) ∧
    (∀ cs y, readKids N f cs = some y → readKids N (f + 1) cs = some y) := by
  induction f with
  | zero =>
    constructor
    · intro _ _ h; cases h
    · intro _ _ h; cases h
  | succ f ih =>
    constructor
    · intro cs y h
      rw [readElem] at h ⊢
      obtain ⟨a, h1, h⟩ := Option.bind_eq_some_iff.mp h
      refine Option.bind_eq_some_iff.mpr ⟨a, h1, ?_⟩
      obtain ⟨⟨as, e, r⟩, h2, h⟩ := Option.bind_eq_some_iff.mp h
      refine Option.bind_eq_some_iff.mpr ⟨⟨as, e, r⟩, h2, ?_⟩
      cases e with
      | true => exact h
      | false =>
        simp only [Bool.false_eq_true, if_false] at h ⊢
        obtain ⟨c, h3, h⟩ := Option.bind_eq_some_iff.mp h
        exact Option.bind_eq_some_iff.mpr ⟨c, ih.2 _ _ h3, h⟩
    · intro cs y h
      rw [readKids] at h ⊢
      split at h
      · rename_i h0; rw [if_pos h0]; exact h
      rename_i h0
      rw [if_neg h0]
      split at h
      · rename_i h1
        rw [if_pos h1]
        split at h
        · rename_i h2; rw [if_pos h2]; exact h
        rename_i h2
        rw [if_neg h2]
        split at h
        · rename_i h3
          rw [if_pos h3]
          obtain ⟨a, h4, h⟩ := Option.bind_eq_some_iff.mp h
          exact Option.bind_eq_some_iff.mpr ⟨a, h4, ih.2 _ _ h⟩
        · rename_i h3
          rw [if_neg h3]
          obtain ⟨a, h4, h⟩ := Option.bind_eq_some_iff.mp h
          refine Option.bind_eq_some_iff.mpr ⟨a, ih.1 _ _ h4, ?_⟩
          obtain ⟨b, h5, h⟩ := Option.map_eq_some_iff.mp h
          exact Option.map_eq_some_iff.mpr ⟨b, ih.2 _ _ h5, h⟩
      · rename_i h1
        rw [if_neg h1]
        simp only at h ⊢
        split at h
        · cases h
        · rename_i h2
          rw [if_neg h2]
          obtain ⟨a, h4, h⟩ := Option.bind_eq_some_iff.mp h
          refine Option.bind_eq_some_iff.mpr ⟨a, h4, ?_⟩
          obtain ⟨b, h5, h⟩ := Option.map_eq_some_iff.mp h
          exact Option.map_eq_some_iff.mpr ⟨b, ih.2 _ _ h5, h⟩

theorem much_fuel (N : NameChars) (f g : Nat) (hg : f ≤ g) (cs : List Char) (y : Xml × List Char)
    (h : readElem N f cs = some y) : readElem N g cs = some y := by
  induction hg with
  | refl => exact h
  | step _ ih => exact (more_fuel N _).1 _ _ ih

/-- However much fuel there is, an element is read as it was written or not at all. -/
theorem elem_only (N : NameChars) (n : String) (as : Attrs) (ks : List Xml) (h : Good N (.elem n as ks)) (f : Nat)
    (rest : List Char) (y : Xml × List Char)
    (hy : readElem N f (n.toList ++ (as.flatMap attrText ++ '>' ::
        (Xml.writeAll ks ++ '<' :: '/' :: (n.toList ++ '>' :: rest)))) = some y) : y.2 = rest := by
  have h1 := read_elem N (.elem n as ks) h (max f (need (.elem n as ks))) (Nat.le_max_right _ _) rest
  simp only at h1
  rw [much_fuel N f _ (Nat.le_max_left _ _) _ _ hy] at h1
  cases h1
  rfl

/-- Text that cannot be read as the rest of an element. -/
def Bad (N : NameChars) (cs : List Char) : Prop := ∀ f, readElem N f cs = none

/-- Text that cannot be read as a list of nodes. -/
def BadAll (N : NameChars) (cs : List Char) : Prop := ∀ f, readKids N f cs = none

theorem bad_after (N : NameChars) (ks : List Xml) (h : GoodAll N ks) (c : Char) (cs : List Char) (hc : c ≠ '/' ∧ c ≠ '?')
    (hb : Bad N (c :: cs)) : BadAll N (Xml.writeAll ks ++ '<' :: c :: cs) := by
  induction ks with
  | nil =>
    intro f
    cases f with
    | zero => rfl
    | succ f =>
      show readKids N (f + 1) ('<' :: c :: cs) = none
      rw [readKids, if_neg (by simp)]
      simp only [List.head?_cons, if_true, List.tail_cons, Option.some.injEq, if_neg hc.1, if_neg hc.2]
      rw [hb f]
      rfl
  | cons k ks ih =>
    simp only [GoodAll] at h
    obtain ⟨h1, h2, h3⟩ := h
    have ih := ih h3
    intro f
    cases f with
    | zero => rfl
    | succ f =>
      have hh : (∀ x, ks.head? = some x → isChars x = false) →
          ∀ d, (Xml.writeAll ks ++ '<' :: c :: cs).head? = some d → d = '<' := by
        intro hk d hd
        cases ks with
        | nil => cases hd; rfl
        | cons k ks =>
          cases k with
          | elem n as l => rw [Xml.writeAll, List.append_assoc, elem_text] at hd; cases hd; rfl
          | text s => exact absurd (hk _ rfl) (by simp [isChars])
          | space s => exact absurd (hk _ rfl) (by simp [isChars])
      cases k with
      | elem n as l =>
        obtain ⟨d, ds, e, -, -, hd1, hd2, -⟩ := name_head N _ (by simp only [Good] at h1; exact h1.1)
        have hd : ∀ r, (n.toList ++ r).head? = some d := fun r => by rw [e]; rfl
        rw [Xml.writeAll, List.append_assoc, elem_text, readKids, if_neg (by simp)]
        simp only [List.head?_cons, if_true, List.tail_cons, hd, Option.some.injEq, if_neg hd1, if_neg hd2]
        cases hy : readElem N f (n.toList ++ (as.flatMap attrText ++ '>' ::
            (Xml.writeAll l ++ '<' :: '/' :: (n.toList ++ '>' :: (Xml.writeAll ks ++ '<' :: c :: cs))))) with
        | none => rfl
        | some y =>
          have := elem_only N n as l h1 f _ y hy
          rw [Option.bind_some, this, ih f]
          rfl
      | text s =>
        simp only [Good] at h1
        rw [Xml.writeAll, List.append_assoc]
        show readKids N (f + 1) (s.toList.flatMap (escChar false) ++ _) = _
        rw [read_chars N f _ _ _ (text_ne false s h1)
          (fun c hc => ⟨(text_plain false _ c hc).2.1, (text_plain false _ c hc).2.2.1⟩) (decode_text false s)
          (hh (h2 rfl)), ih f]
        rfl
      | space s =>
        simp only [Good] at h1
        rw [Xml.writeAll, List.append_assoc]
        show readKids N (f + 1) (s.toList ++ _) = _
        have hne : s.toList ≠ [] := fun hc => h1.1 (by rw [← String.ofList_toList (s := s), hc])
        rw [read_chars N f _ _ _ hne
          (fun c hc => by rcases h1.2 c hc with rfl | rfl | rfl <;> decide) (decode_space s h1.2)
          (hh (h2 rfl)), ih f]
        rfl

theorem bad_inside (N : NameChars) (n : String) (hn : isName N n.toList = true) (as : Attrs) (ha : ∀ a ∈ as, GoodAttr N a)
    (cs : List Char) (hb : BadAll N cs) : Bad N (n.toList ++ (as.flatMap attrText ++ '>' :: cs)) := by
  intro f
  cases f with
  | zero => rfl
  | succ f =>
    have hl := attrs_length as
    rw [readElem, read_name N n hn _ (attrs_stop _ _)]
    simp only [Option.bind_some]
    rw [read_attrs N as ha _ (by simp only [List.length_append, List.length_cons]; omega)]
    simp only [Option.bind_some, Bool.false_eq_true, if_false, hb f, Option.bind_none]

/-- A name of an attribute that is a name followed by white space and something else. -/
theorem bad_key (N : NameChars) (as : Attrs) (ha : ∀ a ∈ as, GoodAttr N a) (k : String) (hk : isName N k.toList = true)
    (c : Char) (cs : List Char) (h1 : isSpace c = false) (h2 : c ≠ '=') (fuel : Nat) :
    readAttrs N fuel (as.flatMap attrText ++ ' ' :: (k.toList ++ ' ' :: c :: cs)) = none := by
  induction as generalizing fuel with
  | nil =>
    cases fuel with
    | zero => rfl
    | succ f =>
      obtain ⟨d, ds, e, hs, hd1, hd2, -, -⟩ := name_head N _ hk
      have hsk : skipSpace (' ' :: (k.toList ++ ' ' :: c :: cs)) = k.toList ++ ' ' :: c :: cs := by
        show skipSpace (k.toList ++ _) = _
        apply skip_none
        rw [e]
        simpa using hs
      have hd : ∀ r, (k.toList ++ r).head? = some d := fun r => by rw [e]; rfl
      have hs2 : skipSpace (' ' :: c :: cs) = c :: cs := by
        show skipSpace (c :: cs) = _
        apply skip_none
        simpa using h1
      show readAttrs N (f + 1) (' ' :: (k.toList ++ ' ' :: c :: cs)) = none
      rw [readAttrs]
      simp only [hsk, hd, Option.some.injEq, if_neg hd1, if_neg hd2]
      rw [read_name N k hk _ (by intro x hx; cases hx; decide)]
      simp only [Option.bind_some, hs2, List.head?_cons, Option.some.injEq, if_neg h2]
  | cons a as ih =>
    rw [List.flatMap_cons, List.append_assoc]
    have ih := ih fun x hx => ha x (by simp [hx])
    rcases ha a (by simp) with h0 | h1
    · rw [attrText, if_pos h0]
      exact ih fuel
    · cases fuel with
      | zero => rfl
      | succ f => rw [read_attr N a h1, ih f]; rfl

theorem bad_elem (N : NameChars) (n : String) (hn : isName N n.toList = true) (cs : List Char) (hs : Stops cs)
    (h : ∀ f, readAttrs N f cs = none) : Bad N (n.toList ++ cs) := by
  intro f
  cases f with
  | zero => rfl
  | succ f =>
    rw [readElem, read_name N n hn _ hs, Option.bind_some]
    simp only [h, Option.bind_none]

end XmlText
end GpsGen
