import Verif.Model.XmlText
import Verif.Theorems.C69Strings
import Mathlib.Data.List.Forall2
import Mathlib.Data.List.TakeWhile
/-!
# C89: GPX files written by other programs

The reader of GPX files accepts exactly the XML texts of the grammar below and reads the elements, attributes and texts
they stand for. The grammar is that of the XML recommendation without comments, CDATA sections, document types and
entities of one's own (see `Model/XmlText.lean`), and with two liberties of encoding/xml: no white space is needed between
the value of an attribute and the next attribute, and the text after the root element is not looked at.
-/

namespace GpsGen
namespace C89Grammar
open C69Strings (Digit charHex_iff)
open XmlText

/-! ## Specification -/

/-- White space. -/
def Ws (w : List Char) : Prop := ∀ c ∈ w, c = ' ' ∨ c = '\t' ∨ c = '\n' ∨ c = '\r'

/-- The beginning of a name. -/
def Start (N : NameChars) (c : Char) : Prop :=
  c.isAlpha = true ∨ c = '_' ∨ c = ':' ∨ (128 ≤ c.toNat ∧ N.first c = true)

/-- The rest of a name. -/
def Part (N : NameChars) (c : Char) : Prop :=
  Start N c ∨ c.isDigit = true ∨ c = '-' ∨ c = '.' ∨ (128 ≤ c.toNat ∧ N.more c = true)

/-- A name, with at most one colon. -/
def Name (N : NameChars) (s : List Char) : Prop :=
  ∃ c cs, s = c :: cs ∧ Start N c ∧ (∀ x ∈ cs, Part N x) ∧ s.count ':' ≤ 1

/-- Ends of lines become newlines. -/
inductive Lines : List Char → List Char → Prop
  | nil : Lines [] []
  | crlf {cs ds} (h : Lines cs ds) : Lines ('\r' :: '\n' :: cs) ('\n' :: ds)
  | cr {cs ds} (hn : cs.head? ≠ some '\n') (h : Lines cs ds) : Lines ('\r' :: cs) ('\n' :: ds)
  | other {c cs ds} (hc : c ≠ '\r') (h : Lines cs ds) : Lines (c :: cs) (c :: ds)

/-- The digits `ds` write the number `n` in base `b`. -/
def Number (b : Nat) (ds : List Char) (n : Nat) : Prop :=
  ∃ vs, List.Forall₂ (fun c v => Digit c v ∧ v < b) ds vs ∧ n = vs.foldl (fun a v => b * a + v) 0

/-- The character with the number `n`; U+FFFD for surrogates. -/
def Coded (n : Nat) (c : Char) : Prop := c.toNat = n ∨ (0xD800 ≤ n ∧ n ≤ 0xDFFF ∧ c.toNat = 0xFFFD)

/-- What stands between `&` and `;`. -/
inductive Ref : List Char → Char → Prop
  | lt : Ref ['l', 't'] '<'
  | gt : Ref ['g', 't'] '>'
  | amp : Ref ['a', 'm', 'p'] '&'
  | apos : Ref ['a', 'p', 'o', 's'] '\''
  | quot : Ref ['q', 'u', 'o', 't'] '"'
  | hex {ds n c} (h : ds ≠ []) (hn : Number 16 ds n) (hc : Coded n c) : Ref ('#' :: 'x' :: ds) c
  | dec {ds n c} (h : ds ≠ []) (hn : Number 10 ds n) (hc : Coded n c) : Ref ('#' :: ds) c

/-- Characters and references. -/
inductive Chars : List Char → List Char → Prop
  | nil : Chars [] []
  | plain {c cs ds} (hc : c ≠ '&') (h : Chars cs ds) : Chars (c :: cs) (c :: ds)
  | ref {e x cs ds} (hr : Ref e x) (h : Chars cs ds) : Chars ('&' :: (e ++ ';' :: cs)) (x :: ds)

/-- A character of XML documents. -/
def Legal (c : Char) : Prop :=
  c = '\t' ∨ c = '\n' ∨ c = '\r' ∨ (32 ≤ c.toNat ∧ c.toNat ≠ 0xFFFE ∧ c.toNat ≠ 0xFFFF)

/-- `raw` stands for the text `s`. -/
def Decoded (raw : List Char) (s : String) : Prop :=
  ∃ mid, Lines raw mid ∧ Chars mid s.toList ∧ ∀ c ∈ s.toList, Legal c

/-- The value of an attribute in quotes. -/
def Value (t : List Char) (v : String) : Prop :=
  ∃ q raw, (q = '"' ∨ q = '\'') ∧ t = q :: (raw ++ [q]) ∧ q ∉ raw ∧ '<' ∉ raw ∧ Decoded raw v

/-- The rest of a start tag after its name; the last argument tells whether it ends with `/>`, the first whether white
space is needed before an attribute. -/
inductive TagRest (N : NameChars) : Bool → List Char → Attrs → Bool → Prop
  | close {b w} (hw : Ws w) : TagRest N b (w ++ ['>']) [] false
  | empty {b w} (hw : Ws w) : TagRest N b (w ++ ['/', '>']) [] true
  | attr {b w k w1 w2 vt v cs as e} (hw : Ws w) (hb : b = true → w ≠ []) (hk : Name N (String.toList k)) (h1 : Ws w1)
      (h2 : Ws w2) (hv : Value vt v) (hs : TagRest N false cs as e) :
      TagRest N b (w ++ (String.toList k ++ (w1 ++ '=' :: (w2 ++ (vt ++ cs))))) ((k, v) :: as) e

/-- Text between tags. -/
def Text (raw : List Char) (s : String) : Prop :=
  raw ≠ [] ∧ '<' ∉ raw ∧ ¬ [']', ']', '>'] <:+: raw ∧ Decoded raw s

mutual
/-- An element after its `<`. -/
inductive Elem (N : NameChars) : List Char → Xml → Prop
  /-- `<k … />` -/
  | empty {k at' as} (hk : Name N (String.toList k)) (ha : TagRest N true at' as true) :
      Elem N (String.toList k ++ at') (.elem k as [])
  /-- `<k … > … </k >` -/
  | full {k at' as kt ks w} (hk : Name N (String.toList k)) (ha : TagRest N true at' as false) (hc : Kids N kt ks) (hw : Ws w) :
      Elem N (String.toList k ++ (at' ++ (kt ++ '<' :: '/' :: (String.toList k ++ (w ++ ['>']))))) (.elem k as ks)
/-- What stands between start tag and end tag. -/
inductive Kids (N : NameChars) : List Char → List Xml → Prop
  | nil : Kids N [] []
  /-- `<? … ?>` -/
  | inst {b cs xs} (hb : ¬ ['?', '>'] <:+: b) (hs : Kids N cs xs) : Kids N ('<' :: '?' :: (b ++ '?' :: '>' :: cs)) xs
  | elem {t x cs xs} (hx : Elem N t x) (hs : Kids N cs xs) : Kids N ('<' :: (t ++ cs)) (x :: xs)
  | text {raw s cs xs} (ht : Text raw s) (hs : Kids N cs xs) (hc : ∀ c, cs.head? = some c → c = '<') :
      Kids N (raw ++ cs) (.text s :: xs)
end

/-- What stands before the root element. -/
inductive Prolog : List Char → Prop
  | nil : Prolog []
  | inst {b cs} (hb : ¬ ['?', '>'] <:+: b) (hs : Prolog cs) : Prolog ('<' :: '?' :: (b ++ '?' :: '>' :: cs))
  | text {raw s cs} (ht : Text raw s) (hs : Prolog cs) (hc : ∀ c, cs.head? = some c → c = '<') : Prolog (raw ++ cs)

/-- A document with the root element `x`. -/
def XmlDoc (N : NameChars) (cs : List Char) (x : Xml) : Prop :=
  ∃ p t rest, cs = p ++ '<' :: (t ++ rest) ∧ Prolog p ∧ Elem N t x

/-! ## Names -/

theorem alpha_lt {c : Char} (h : c.isAlpha = true) : c.toNat < 128 := by
  simp only [Char.isAlpha, Char.isUpper, Char.isLower, Bool.or_eq_true, Bool.and_eq_true, decide_eq_true_eq] at h
  have : c.toNat = c.val.toNat := rfl
  rcases h with h | h
  · have := UInt32.le_iff_toNat_le.mp h.2; simp at this; omega
  · have := UInt32.le_iff_toNat_le.mp h.2; simp at this; omega

theorem digit_lt {c : Char} (h : c.isDigit = true) : c.toNat < 128 := by
  simp only [Char.isDigit, Bool.and_eq_true, decide_eq_true_eq] at h
  have : c.toNat = c.val.toNat := rfl
  have := UInt32.le_iff_toNat_le.mp h.2; simp at this; omega

theorem first_iff (N : NameChars) (c : Char) : isFirst N c = true ↔ Start N c := by
  unfold isFirst Start
  by_cases h : c.toNat < 128
  · rw [if_pos h]
    have : ¬ 128 ≤ c.toNat := by omega
    simp [this, or_assoc]
  · rw [if_neg h]
    constructor
    · intro h1; exact .inr (.inr (.inr ⟨by omega, h1⟩))
    · rintro (h1 | rfl | rfl | h1)
      · exact absurd (alpha_lt h1) h
      · exact absurd (by decide) h
      · exact absurd (by decide) h
      · exact h1.2

theorem more_iff (N : NameChars) (c : Char) : isMore N c = true ↔ Part N c := by
  unfold isMore Part
  rw [Bool.or_eq_true, first_iff]
  by_cases h : c.toNat < 128
  · rw [if_pos h]
    have : ¬ 128 ≤ c.toNat := by omega
    simp [this, or_assoc]
  · rw [if_neg h]
    constructor
    · rintro (h1 | h1)
      · exact .inl h1
      · exact .inr (.inr (.inr (.inr ⟨by omega, h1⟩)))
    · rintro (h1 | h1 | rfl | rfl | h1)
      · exact .inl h1
      · exact absurd (digit_lt h1) h
      · exact absurd (by decide) h
      · exact absurd (by decide) h
      · exact .inr h1.2

theorem name_iff (N : NameChars) (s : List Char) : isName N s = true ↔ Name N s := by
  cases s with
  | nil =>
    constructor
    · intro h; cases h
    · rintro ⟨c, cs, e, -⟩; cases e
  | cons c cs =>
    unfold isName Name
    simp only [Bool.and_eq_true, List.all_eq_true, decide_eq_true_eq, first_iff, more_iff]
    constructor
    · rintro ⟨⟨h1, h2⟩, h3⟩; exact ⟨c, cs, rfl, h1, h2, h3⟩
    · rintro ⟨c', cs', e, h1, h2, h3⟩; cases e; exact ⟨⟨h1, h2⟩, h3⟩

theorem start_in {N : NameChars} {c : Char} (h : Start N c) : inName c = true := by
  unfold inName Char.isAlphanum
  rcases h with h | rfl | rfl | h
  · simp [h]
  · decide
  · decide
  · simp [h.1]

theorem part_in {N : NameChars} {c : Char} (h : Part N c) : inName c = true := by
  rcases h with h | h | rfl | rfl | h
  · exact start_in h
  · unfold inName Char.isAlphanum; simp [h]
  · decide
  · decide
  · unfold inName; simp [h.1]

theorem name_in {N : NameChars} {s : List Char} (h : Name N s) : ∀ c ∈ s, inName c = true := by
  obtain ⟨c, cs, rfl, h1, h2, -⟩ := h
  intro x hx
  rcases List.mem_cons.mp hx with rfl | hx
  · exact start_in h1
  · exact part_in (h2 x hx)

/-- Reading a name stops here. -/
def Stops (cs : List Char) : Prop := ∀ c, cs.head? = some c → inName c = false

theorem span_stop (p : Char → Bool) (a b : List Char) (h : ∀ c ∈ a, p c = true) (hb : ∀ c, b.head? = some c → p c = false) :
    (a ++ b).takeWhile p = a ∧ (a ++ b).dropWhile p = b := by
  induction a with
  | nil =>
    cases b with
    | nil => exact ⟨rfl, rfl⟩
    | cons c b => simp [hb c rfl]
  | cons c a ih =>
    obtain ⟨h1, h2⟩ := ih fun x hx => h x (by simp [hx])
    simp [h c (by simp), h1, h2]

theorem drop_head (p : Char → Bool) (l : List Char) : ∀ c, (l.dropWhile p).head? = some c → p c = false := by
  intro c h
  induction l with
  | nil => cases h
  | cons x l ih =>
    rw [List.dropWhile_cons] at h
    split at h
    · exact ih h
    · rename_i hx
      cases h
      simpa using hx

theorem readName_some {N : NameChars} {cs r : List Char} {k : String} (h : XmlText.readName N cs = some (k, r)) :
    cs = k.toList ++ r ∧ Name N k.toList ∧ Stops r := by
  unfold XmlText.readName at h
  split at h
  · rename_i hn
    cases h
    rw [String.toList_ofList]
    exact ⟨List.takeWhile_append_dropWhile.symm, (name_iff N _).mp hn, drop_head _ _⟩
  · cases h

theorem readName_of {N : NameChars} {k : String} (h : Name N k.toList) {r : List Char} (hr : Stops r) :
    XmlText.readName N (k.toList ++ r) = some (k, r) := by
  obtain ⟨h1, h2⟩ := span_stop inName k.toList r (name_in h) hr
  unfold XmlText.readName
  rw [h1, h2, if_pos ((name_iff N _).mpr h), String.ofList_toList]

/-! ## White space -/

theorem space_iff (c : Char) : isSpace c = true ↔ (c = ' ' ∨ c = '\t' ∨ c = '\n' ∨ c = '\r') := by
  unfold isSpace; simp [or_assoc]

theorem skip_some (cs : List Char) : ∃ w, Ws w ∧ cs = w ++ skipSpace cs :=
  ⟨cs.takeWhile isSpace, fun c hc => (space_iff c).mp (by simpa using List.mem_takeWhile_imp hc),
    List.takeWhile_append_dropWhile.symm⟩

theorem skip_of {w : List Char} (h : Ws w) {r : List Char} (hr : ∀ c, r.head? = some c → isSpace c = false) :
    skipSpace (w ++ r) = r := (span_stop isSpace w r (fun c hc => (space_iff c).mpr (h c hc)) hr).2

theorem ws_stops {w r : List Char} (h : Ws w) (hr : Stops r) : Stops (w ++ r) := by
  cases w with
  | nil => exact hr
  | cons c w =>
    intro x hx
    cases hx
    rcases h c (by simp) with rfl | rfl | rfl | rfl <;> decide

theorem char_stops {c : Char} (h : inName c = false) (r : List Char) : Stops (c :: r) := by
  intro x hx; cases hx; exact h

theorem in_not_space {c : Char} (h : inName c = true) : isSpace c = false := by
  cases hs : isSpace c with
  | false => rfl
  | true => rcases (space_iff c).mp hs with rfl | rfl | rfl | rfl <;> (revert h; decide)

/-! ## Text -/

theorem lines_newlines (raw : List Char) : Lines raw (newlines raw) := by
  induction raw using newlines.induct with
  | case1 => exact .nil
  | case2 cs ih => rw [newlines]; exact .crlf ih
  | case3 cs hn ih =>
    rw [newlines]
    · refine .cr (fun h => ?_) ih
      cases cs with
      | nil => cases h
      | cons c cs => cases h; exact hn cs rfl
    · exact hn
  | case4 c cs h1 h2 ih =>
    rw [newlines]
    · exact .other (fun h => h2 h) ih
    · exact h1
    · exact h2

theorem lines_iff (raw mid : List Char) : newlines raw = mid ↔ Lines raw mid := by
  constructor
  · rintro rfl; exact lines_newlines raw
  · intro h
    induction h with
    | nil => rfl
    | crlf h ih => rw [newlines, ih]
    | @cr cs ds hn h ih =>
      rw [newlines, ih]
      rintro cs' rfl
      exact hn rfl
    | @other c cs ds hc h ih =>
      rw [newlines, ih]
      · rintro cs' rfl; exact absurd rfl hc
      · exact hc

theorem hexVal_eq (c : Char) : hexVal c = charHex c := by
  unfold hexVal charHex
  have e : c.toNat = c.val.toNat := rfl
  have h1 : ∀ d : Char, d ≤ c ↔ d.toNat ≤ c.toNat := fun d => by
    rw [Char.le_def, UInt32.le_iff_toNat_le]; rfl
  have h2 : ∀ d : Char, c ≤ d ↔ c.toNat ≤ d.toNat := fun d => by
    rw [Char.le_def, UInt32.le_iff_toNat_le]; rfl
  simp only [h1, h2]
  rfl

theorem readBase_iff (b : Nat) (ds : List Char) (a n : Nat) : readBase b a ds = some n ↔
    ∃ vs, List.Forall₂ (fun c v => Digit c v ∧ v < b) ds vs ∧ n = vs.foldl (fun a v => b * a + v) a := by
  induction ds generalizing a with
  | nil =>
    constructor
    · intro h; cases h; exact ⟨[], .nil, rfl⟩
    · rintro ⟨vs, h, e⟩; cases h; rw [e]; rfl
  | cons c ds ih =>
    unfold readBase
    rw [Option.bind_eq_some_iff]
    constructor
    · rintro ⟨d, hd, h⟩
      split at h
      · rename_i hlt
        obtain ⟨vs, h1, h2⟩ := (ih _).mp h
        exact ⟨d :: vs, .cons ⟨(charHex_iff c d).mp (by rw [← hexVal_eq]; exact hd), hlt⟩ h1, h2⟩
      · cases h
    · rintro ⟨vs, h, e⟩
      cases h with
      | @cons _ v _ vs hv hvs =>
        refine ⟨v, by rw [hexVal_eq]; exact (charHex_iff c v).mpr hv.1, ?_⟩
        rw [if_pos hv.2]
        exact (ih _).mpr ⟨vs, hvs, e⟩

theorem ofCode_iff (n : Nat) (c : Char) : ofCode n = some c ↔ Coded n c := by
  unfold ofCode Coded
  have hc : c.toNat.isValidChar := c.valid
  have hin : ∀ d : Char, c.toNat = d.toNat → c = d := fun d h => by
    rw [← Char.ofNat_toNat c, ← Char.ofNat_toNat d, h]
  constructor
  · intro h
    split at h
    · rename_i hv
      cases h
      exact .inl (C69Strings.toNat_ofNat hv)
    · split at h
      · rename_i hv hle
        cases h
        refine .inr ⟨?_, ?_, rfl⟩
        all_goals (unfold Nat.isValidChar at hv; omega)
      · cases h
  · rintro (h | ⟨h1, h2, h3⟩)
    · rw [← h, if_pos hc, Char.ofNat_toNat]
    · rw [if_neg (by unfold Nat.isValidChar; omega), if_pos (by omega)]
      rw [hin '\uFFFD' h3]

theorem entity_iff (e : List Char) (x : Char) : entity e = some x ↔ Ref e x := by
  constructor
  · intro h
    unfold entity at h
    split at h
    · rename_i he; rw [he]; cases h; exact .lt
    split at h
    · rename_i he; rw [he]; cases h; exact .gt
    split at h
    · rename_i he; rw [he]; cases h; exact .amp
    split at h
    · rename_i he; rw [he]; cases h; exact .apos
    split at h
    · rename_i he; rw [he]; cases h; exact .quot
    split at h
    · split at h
      · cases h
      · rename_i hd
        rw [Option.bind_eq_some_iff] at h
        obtain ⟨n, h1, h2⟩ := h
        exact .hex hd ((readBase_iff _ _ _ _).mp h1) ((ofCode_iff _ _).mp h2)
    · split at h
      · cases h
      · rename_i hd
        rw [Option.bind_eq_some_iff] at h
        obtain ⟨n, h1, h2⟩ := h
        exact .dec hd ((readBase_iff _ _ _ _).mp h1) ((ofCode_iff _ _).mp h2)
    · cases h
  · intro h
    cases h with
    | lt => rfl
    | gt => rfl
    | amp => rfl
    | apos => rfl
    | quot => rfl
    | @hex ds n _ hd hn hc =>
      unfold entity
      rw [if_neg (by simp), if_neg (by simp), if_neg (by simp), if_neg (by simp), if_neg (by simp)]
      show (if ds = [] then none else (readBase 16 0 ds).bind ofCode) = _
      rw [if_neg hd, (readBase_iff _ _ _ _).mpr hn]
      exact (ofCode_iff _ _).mpr hc
    | @dec ds n _ hd hn hc =>
      unfold entity
      rw [if_neg (by simp), if_neg (by simp), if_neg (by simp), if_neg (by simp), if_neg (by simp)]
      have hx : ∀ l, ds ≠ 'x' :: l := by
        rintro l rfl
        obtain ⟨vs, hf, -⟩ := hn
        cases hf with
        | cons hv _ =>
          have := (charHex_iff _ _).mpr hv.1
          exact absurd this (by simp [charHex])
      split
      · rename_i e; exact absurd (List.cons.inj e).2 (hx _)
      · rename_i e
        cases e
        rw [if_neg hd, (readBase_iff _ _ _ _).mpr hn]
        exact (ofCode_iff _ _).mpr hc
      · rename_i h1 h2; exact absurd rfl (h2 ds)

theorem ref_plain {e : List Char} {x : Char} (h : Ref e x) : ';' ∉ e := by
  have key : ∀ b ds n, Number b ds n → ';' ∉ ds := by
    rintro b ds n ⟨vs, hf, -⟩ hm
    clear h
    induction hf with
    | nil => cases hm
    | @cons c v cs vs hv _ ih =>
      rcases List.mem_cons.mp hm with rfl | hm
      · have := (charHex_iff _ _).mpr hv.1
        exact absurd this (by simp [charHex])
      · exact ih hm
  cases h with
  | lt => decide
  | gt => decide
  | amp => decide
  | apos => decide
  | quot => decide
  | hex hd hn hc =>
    intro hm
    simp at hm
    exact key _ _ _ hn hm
  | dec hd hn hc =>
    intro hm
    simp at hm
    exact key _ _ _ hn hm

theorem unescape_some (cs : List Char) : (∀ s, XmlText.unescape none cs = some s → Chars cs s) ∧
    (∀ e s, XmlText.unescape (some e) cs = some s → ∃ e2 rest x s', cs = e2 ++ ';' :: rest ∧ Ref (e.reverse ++ e2) x ∧
      Chars rest s' ∧ s = x :: s') := by
  induction cs with
  | nil => exact ⟨fun s h => by cases h; exact .nil, fun e s h => by cases h⟩
  | cons c cs ih =>
    refine ⟨fun s h => ?_, fun e s h => ?_⟩
    · unfold XmlText.unescape at h
      split at h
      · rename_i hc
        subst hc
        obtain ⟨e2, rest, x, s', h1, h2, h3, h4⟩ := ih.2 _ _ h
        rw [h1, h4]
        exact .ref h2 h3
      · rename_i hc
        rw [Option.map_eq_some_iff] at h
        obtain ⟨s', h1, rfl⟩ := h
        exact .plain hc (ih.1 _ h1)
    · unfold XmlText.unescape at h
      split at h
      · rename_i hc
        subst hc
        rw [Option.bind_eq_some_iff] at h
        obtain ⟨x, hx, h⟩ := h
        rw [Option.map_eq_some_iff] at h
        obtain ⟨s', h1, rfl⟩ := h
        exact ⟨[], cs, x, s', rfl, by rw [List.append_nil]; exact (entity_iff _ _).mp hx, ih.1 _ h1, rfl⟩
      · obtain ⟨e2, rest, x, s', h1, h2, h3, h4⟩ := ih.2 _ _ h
        refine ⟨c :: e2, rest, x, s', by rw [h1]; rfl, ?_, h3, h4⟩
        simpa using h2

theorem unescape_ref (e2 : List Char) (h : ';' ∉ e2) (e rest : List Char) :
    XmlText.unescape (some e) (e2 ++ ';' :: rest) = (entity (e.reverse ++ e2)).bind fun x => (XmlText.unescape none rest).map (x :: ·) := by
  induction e2 generalizing e with
  | nil =>
    rw [List.nil_append, List.append_nil]
    conv => lhs; unfold XmlText.unescape
    rw [if_pos rfl]
  | cons c e2 ih =>
    rw [List.cons_append]
    conv => lhs; unfold XmlText.unescape
    rw [if_neg (fun hc => h (by simp [hc])), ih (fun hm => h (by simp [hm]))]
    simp

theorem chars_iff (cs s : List Char) : XmlText.unescape none cs = some s ↔ Chars cs s := by
  constructor
  · exact (unescape_some cs).1 s
  · intro h
    induction h with
    | nil => rfl
    | plain hc h ih =>
      unfold XmlText.unescape
      rw [if_neg hc, ih]
      rfl
    | ref hr h ih =>
      unfold XmlText.unescape
      rw [if_pos rfl, unescape_ref _ (ref_plain hr), List.reverse_nil, List.nil_append, (entity_iff _ _).mpr hr, ih]
      rfl

theorem legal_iff (c : Char) : xmlChar c = true ↔ Legal c := by
  have hin : ∀ d : Char, c.toNat = d.toNat ↔ c = d := fun d => ⟨fun h => by
    rw [← Char.ofNat_toNat c, ← Char.ofNat_toNat d, h], fun h => by rw [h]⟩
  unfold xmlChar Legal
  have e1 : c.toNat = 0xFFFE ↔ c = '\uFFFE' := hin '\uFFFE'
  have e2 : c.toNat = 0xFFFF ↔ c = '\uFFFF' := hin '\uFFFF'
  rw [ne_eq, ne_eq, e1, e2]
  simp [or_assoc, and_assoc]

theorem decode_iff (raw : List Char) (s : String) : decodeText raw = some s ↔ Decoded raw s := by
  unfold decodeText Decoded
  rw [Option.bind_eq_some_iff]
  constructor
  · rintro ⟨l, h1, h2⟩
    split at h2
    · rename_i hl
      cases h2
      rw [String.toList_ofList]
      exact ⟨_, lines_newlines raw, (chars_iff _ _).mp h1, fun c hc => (legal_iff c).mp (List.all_eq_true.mp hl c hc)⟩
    · cases h2
  · rintro ⟨mid, h1, h2, h3⟩
    refine ⟨s.toList, by rw [(lines_iff _ _).mpr h1]; exact (chars_iff _ _).mpr h2, ?_⟩
    rw [if_pos (List.all_eq_true.mpr fun c hc => (legal_iff c).mpr (h3 c hc)), String.ofList_toList]

/-! ## Start tags -/

theorem readValue_some {cs r : List Char} {v : String} (h : readValue cs = some (v, r)) : ∃ t, cs = t ++ r ∧ Value t v := by
  unfold readValue at h
  split at h
  · cases h
  · rename_i q cs
    split at h
    · rename_i hq
      dsimp only at h
      split at h
      · cases h
      · rename_i c rest hd
        split at h
        · cases h
        · rename_i hlt
          rw [Option.map_eq_some_iff] at h
          obtain ⟨v', h1, h2⟩ := h
          cases h2
          have hc : c = q := by
            have := drop_head (· != q) cs c (by rw [hd]; rfl)
            simpa using this
          subst hc
          refine ⟨c :: (cs.takeWhile (· != c) ++ [c]), ?_, c, _, hq, rfl, ?_, hlt, (decode_iff _ _).mp h1⟩
          · simp only [List.cons_append, List.append_assoc, List.nil_append]
            rw [← hd, List.takeWhile_append_dropWhile]
          · intro hm
            have := List.mem_takeWhile_imp hm
            simp at this
    · cases h

theorem readValue_of {t : List Char} {v : String} (h : Value t v) (r : List Char) : readValue (t ++ r) = some (v, r) := by
  obtain ⟨q, raw, hq, rfl, h1, h2, h3⟩ := h
  obtain ⟨e1, e2⟩ := span_stop (· != q) raw (q :: r) (fun c hc => by
    simp only [bne_iff_ne, ne_eq]; rintro rfl; exact h1 hc) (fun c hc => by cases hc; simp)
  simp only [List.cons_append, List.append_assoc, List.nil_append]
  unfold readValue
  dsimp only
  rw [if_pos hq, e1, e2]
  dsimp only
  rw [if_neg h2, (decode_iff _ _).mpr h3]
  rfl

theorem head_cons {cs : List Char} {c : Char} (h : cs.head? = some c) : cs = c :: cs.tail := by
  cases cs with
  | nil => cases h
  | cons x cs => cases h; rfl

theorem attrs_some {N : NameChars} (fuel : Nat) (cs r : List Char) (as : Attrs) (e : Bool)
    (h : readAttrs N fuel cs = some (as, e, r)) : ∃ t, cs = t ++ r ∧ TagRest N false t as e := by
  induction fuel generalizing cs as with
  | zero => cases h
  | succ fuel ih =>
    obtain ⟨w, hw, e1⟩ := skip_some cs
    unfold readAttrs at h
    dsimp only at h
    split at h
    · rename_i hh
      cases h
      refine ⟨w ++ ['>'], ?_, .close hw⟩
      rw [List.append_assoc, List.singleton_append, ← head_cons hh]
      exact e1
    · split at h
      · rename_i hh
        split at h
        · rename_i hh2
          cases h
          refine ⟨w ++ ['/', '>'], ?_, .empty hw⟩
          rw [List.append_assoc]
          show cs = w ++ ('/' :: '>' :: (skipSpace cs).tail.tail)
          rw [← head_cons hh2, ← head_cons hh]
          exact e1
        · cases h
      · rw [Option.bind_eq_some_iff] at h
        obtain ⟨⟨k, cs1⟩, h1, h⟩ := h
        obtain ⟨e2, hk, -⟩ := readName_some h1
        obtain ⟨w1, hw1, e3⟩ := skip_some cs1
        dsimp only at h
        split at h
        · rename_i hh
          obtain ⟨w2, hw2, e4⟩ := skip_some (skipSpace cs1).tail
          rw [Option.bind_eq_some_iff] at h
          obtain ⟨⟨v, cs2⟩, h2, h⟩ := h
          obtain ⟨vt, e5, hv⟩ := readValue_some h2
          rw [Option.map_eq_some_iff] at h
          obtain ⟨⟨as', e', r'⟩, h3, h4⟩ := h
          cases h4
          obtain ⟨t, e6, ht⟩ := ih _ _ h3
          dsimp only at e6 ⊢
          refine ⟨_, ?_, .attr hw (fun h => by cases h) hk hw1 hw2 hv ht⟩
          rw [e1, e2, e3, head_cons hh, e4, e5, e6]
          simp
        · cases h

/-- After the name comes white space. -/
theorem tag_spaced {N : NameChars} {t r : List Char} {as : Attrs} {e : Bool} (h : TagRest N false t as e)
    (hs : Stops (t ++ r)) : TagRest N true t as e := by
  cases h with
  | close hw => exact .close hw
  | empty hw => exact .empty hw
  | @attr _ w k w1 w2 vt v cs as e hw hb hk h1 h2 hv ht =>
    refine .attr hw (fun _ hn => ?_) hk h1 h2 hv ht
    subst hn
    obtain ⟨c, ks, ek, hc, -⟩ := hk
    have := hs c (by rw [ek]; rfl)
    rw [start_in hc] at this
    cases this

theorem tag_stops {N : NameChars} {t : List Char} {as : Attrs} {e : Bool} (h : TagRest N true t as e) (r : List Char) :
    Stops (t ++ r) := by
  cases h with
  | close hw => rw [List.append_assoc]; exact ws_stops hw (char_stops (by decide) _)
  | empty hw => rw [List.append_assoc]; exact ws_stops hw (char_stops (by decide) _)
  | @attr _ w k w1 w2 vt v cs as e hw hb hk h1 h2 hv ht =>
    have := hb rfl
    cases w with
    | nil => exact absurd rfl this
    | cons c w =>
      have hc : Ws [c] := fun x hx => hw x (by simp at hx; simp [hx])
      intro x hx
      cases hx
      rcases hc c (by simp) with rfl | rfl | rfl | rfl <;> decide

theorem value_head {t : List Char} {v : String} (h : Value t v) : ∃ q l, t = q :: l ∧ isSpace q = false := by
  obtain ⟨q, raw, hq, rfl, -⟩ := h
  refine ⟨q, _, rfl, ?_⟩
  rcases hq with rfl | rfl <;> decide

theorem attrs_of {N : NameChars} {b : Bool} {t : List Char} {as : Attrs} {e : Bool} (h : TagRest N b t as e)
    (fuel : Nat) (hf : t.length ≤ fuel) (r : List Char) : readAttrs N fuel (t ++ r) = some (as, e, r) := by
  induction h generalizing fuel with
  | @close b w hw =>
    obtain ⟨f, rfl⟩ : ∃ f, fuel = f + 1 := ⟨fuel - 1, by simp at hf; omega⟩
    unfold readAttrs
    rw [List.append_assoc, skip_of hw (fun c hc => by cases hc; decide)]
    rfl
  | @empty b w hw =>
    obtain ⟨f, rfl⟩ : ∃ f, fuel = f + 1 := ⟨fuel - 1, by simp at hf; omega⟩
    unfold readAttrs
    rw [List.append_assoc, skip_of hw (fun c hc => by cases hc; decide)]
    rfl
  | @attr b w k w1 w2 vt v cs as e hw hb hk h1 h2 hv ht ih =>
    simp only [List.length_append, List.length_cons] at hf
    obtain ⟨f, rfl⟩ : ∃ f, fuel = f + 1 := ⟨fuel - 1, by omega⟩
    obtain ⟨c, ks, ek, hc, -⟩ := id hk
    obtain ⟨q, l, ev, hq⟩ := value_head hv
    have hci := start_in hc
    have e1 : skipSpace (w ++ (k.toList ++ (w1 ++ '=' :: (w2 ++ (vt ++ cs)))) ++ r) =
        k.toList ++ (w1 ++ '=' :: (w2 ++ (vt ++ (cs ++ r)))) := by
      rw [List.append_assoc, skip_of hw]
      · simp
      · intro x hx
        rw [ek] at hx
        cases hx
        exact in_not_space hci
    have e2 : skipSpace (w1 ++ '=' :: (w2 ++ (vt ++ (cs ++ r)))) = '=' :: (w2 ++ (vt ++ (cs ++ r))) :=
      skip_of h1 (fun x hx => by cases hx; decide)
    have e3 : skipSpace (w2 ++ (vt ++ (cs ++ r))) = vt ++ (cs ++ r) :=
      skip_of h2 (fun x hx => by rw [ev] at hx; cases hx; exact hq)
    have hne : ∀ d, inName d = false → (k.toList ++ (w1 ++ '=' :: (w2 ++ (vt ++ (cs ++ r))))).head? ≠ some d := by
      intro d hd hx
      rw [ek] at hx
      cases hx
      rw [hci] at hd
      cases hd
    unfold readAttrs
    rw [e1]
    dsimp only
    rw [if_neg (hne '>' (by decide)), if_neg (hne '/' (by decide)),
      readName_of hk (ws_stops h1 (char_stops (by decide) _))]
    dsimp only [Option.bind_some]
    rw [e2, if_pos (by simp)]
    dsimp only [List.tail_cons]
    rw [e3, readValue_of hv]
    dsimp only [Option.bind_some]
    rw [ih f (by omega)]
    rfl

/-! ## Elements -/

theorem inst_some {cs r : List Char} (h : skipInst cs = some r) : ∃ b, cs = b ++ '?' :: '>' :: r ∧ ¬ ['?', '>'] <:+: b := by
  induction cs using skipInst.induct with
  | case1 => cases h
  | case2 cs => rw [skipInst] at h; cases h; exact ⟨[], rfl, by simp⟩
  | case3 c cs hn ih =>
    rw [skipInst] at h
    · obtain ⟨b, e, hb⟩ := ih h
      refine ⟨c :: b, by rw [e]; rfl, ?_⟩
      rw [List.infix_cons_iff]
      rintro (hp | hi)
      · cases b with
        | nil => simp at hp
        | cons d b =>
          simp only [List.cons_prefix_cons] at hp
          obtain ⟨rfl, rfl, -⟩ := hp
          exact hn _ rfl e
      · exact hb hi
    · exact hn

theorem inst_of (b r : List Char) (hb : ¬ ['?', '>'] <:+: b) : skipInst (b ++ '?' :: '>' :: r) = some r := by
  induction b with
  | nil => rw [List.nil_append, skipInst]
  | cons c b ih =>
    rw [List.infix_cons_iff] at hb
    rw [List.cons_append, skipInst]
    · exact ih fun h => hb (.inr h)
    · intro cs hc e
      apply hb
      left
      cases b with
      | nil => cases e
      | cons d b =>
        cases e
        subst hc
        simp

theorem cdEnd_iff (l : List Char) : hasCdEnd l = true ↔ [']', ']', '>'] <:+: l := by
  induction l using hasCdEnd.induct with
  | case1 => simp [hasCdEnd]
  | case2 cs => rw [hasCdEnd]; simp only [true_iff]; exact ⟨[], cs, rfl⟩
  | case3 c cs hn ih =>
    rw [hasCdEnd, ih, List.infix_cons_iff]
    · constructor
      · exact .inr
      · rintro (hp | hi)
        · obtain ⟨t, e⟩ := hp
          cases e
          exact absurd rfl (hn t rfl)
        · exact hi
    · exact hn

theorem end_some {N : NameChars} {k : String} {cs r : List Char} (h : readEnd N k cs = some r) :
    ∃ w, Ws w ∧ cs = '<' :: '/' :: (k.toList ++ (w ++ '>' :: r)) := by
  unfold readEnd at h
  split at h
  · rename_i hh
    rw [Option.bind_eq_some_iff] at h
    obtain ⟨⟨n, cs1⟩, h1, h⟩ := h
    obtain ⟨e1, -, -⟩ := readName_some h1
    obtain ⟨w, hw, e2⟩ := skip_some cs1
    dsimp only at h
    split at h
    · rename_i hn
      cases h
      refine ⟨w, hw, ?_⟩
      rw [← head_cons hn.2, ← e2, ← hn.1, ← e1, ← head_cons hh.2, ← head_cons hh.1]
    · cases h
  · cases h

theorem end_of {N : NameChars} {k : String} (hk : Name N k.toList) {w : List Char} (hw : Ws w) (r : List Char) :
    readEnd N k ('<' :: '/' :: (k.toList ++ (w ++ '>' :: r))) = some r := by
  unfold readEnd
  rw [if_pos ⟨rfl, rfl⟩]
  dsimp only [List.tail_cons]
  rw [readName_of hk (ws_stops hw (char_stops (by decide) _))]
  dsimp only [Option.bind_some]
  rw [skip_of hw (fun c hc => by cases hc; decide), if_pos ⟨rfl, rfl⟩]
  rfl

/-- The end of the nodes of an element. -/
def AtEnd (r : List Char) : Prop := r = [] ∨ ∃ r', r = '<' :: '/' :: r'

theorem nodes_some {N : NameChars} (fuel : Nat) :
    (∀ cs r x, readElem N fuel cs = some (x, r) → ∃ t, cs = t ++ r ∧ Elem N t x) ∧
    (∀ cs r xs, readKids N fuel cs = some (xs, r) → ∃ t, cs = t ++ r ∧ Kids N t xs ∧ AtEnd r) := by
  induction fuel with
  | zero =>
    refine ⟨fun cs r x h => ?_, fun cs r xs h => ?_⟩
    · unfold readElem at h; cases h
    · unfold readKids at h; cases h
  | succ fuel ih =>
    obtain ⟨ih1, ih2⟩ := ih
    refine ⟨fun cs r x h => ?_, fun cs r xs h => ?_⟩
    · unfold readElem at h
      rw [Option.bind_eq_some_iff] at h
      obtain ⟨⟨k, cs1⟩, h1, h⟩ := h
      obtain ⟨e1, hk, hst⟩ := readName_some h1
      rw [Option.bind_eq_some_iff] at h
      obtain ⟨⟨as, e, cs2⟩, h2, h⟩ := h
      obtain ⟨t, e2, ht⟩ := attrs_some _ _ _ _ _ h2
      rw [e2] at hst
      have ht := tag_spaced ht hst
      dsimp only at h
      split at h
      · rename_i he
        cases h
        rw [he] at ht
        exact ⟨k.toList ++ t, by rw [e1, e2]; simp, .empty hk ht⟩
      · rename_i he
        rw [Option.bind_eq_some_iff] at h
        obtain ⟨⟨ks, cs3⟩, h3, h⟩ := h
        obtain ⟨kt, e3, hks, -⟩ := ih2 _ _ _ h3
        rw [Option.map_eq_some_iff] at h
        obtain ⟨r', h4, h5⟩ := h
        cases h5
        obtain ⟨w, hw, e4⟩ := end_some h4
        dsimp only at e4
        have he : e = false := by simpa using he
        rw [he] at ht
        exact ⟨_, by rw [e1, e2, e3, e4]; simp, .full hk ht hks hw⟩
    · unfold readKids at h
      split at h
      · rename_i hc
        cases h
        exact ⟨[], hc, .nil, .inl rfl⟩
      split at h
      · rename_i hh
        have e0 := head_cons hh
        split at h
        · rename_i hh2
          cases h
          exact ⟨[], rfl, .nil, .inr ⟨cs.tail.tail, by rw [← head_cons hh2]; exact e0⟩⟩
        split at h
        · rename_i hh2
          rw [Option.bind_eq_some_iff] at h
          obtain ⟨cs1, h1, h⟩ := h
          obtain ⟨b, e1, hb⟩ := inst_some h1
          obtain ⟨t, e2, ht, hr⟩ := ih2 _ _ _ h
          refine ⟨_, ?_, .inst hb ht, hr⟩
          rw [e0, head_cons hh2, e1, e2]
          simp
        · rw [Option.bind_eq_some_iff] at h
          obtain ⟨⟨x, cs1⟩, h1, h⟩ := h
          obtain ⟨t, e1, ht⟩ := ih1 _ _ _ h1
          rw [Option.map_eq_some_iff] at h
          obtain ⟨⟨xs', r'⟩, h2, h3⟩ := h
          cases h3
          obtain ⟨t2, e2, ht2, hr⟩ := ih2 _ _ _ h2
          refine ⟨_, ?_, .elem ht ht2, hr⟩
          rw [e0, e1, e2]
          simp
      · rename_i hne hh
        dsimp only at h
        split at h
        · cases h
        · rename_i hcd
          rw [Option.bind_eq_some_iff] at h
          obtain ⟨s, h1, h⟩ := h
          rw [Option.map_eq_some_iff] at h
          obtain ⟨⟨xs', r'⟩, h2, h3⟩ := h
          cases h3
          obtain ⟨t, e1, ht, hr⟩ := ih2 _ _ _ h2
          have hsplit : cs = cs.takeWhile (· != '<') ++ cs.dropWhile (· != '<') := List.takeWhile_append_dropWhile.symm
          refine ⟨cs.takeWhile (· != '<') ++ t, ?_, .text ⟨?_, ?_, ?_, (decode_iff _ _).mp h1⟩ ht ?_, hr⟩
          · rw [List.append_assoc, ← e1]; exact hsplit
          · intro hn
            cases cs with
            | nil => exact hne rfl
            | cons c cs =>
              rw [List.takeWhile_cons] at hn
              split at hn
              · cases hn
              · rename_i hc
                exact hh (by simp at hc; simp [hc])
          · intro hm
            have := List.mem_takeWhile_imp hm
            simp at this
          · intro hi; exact hcd ((cdEnd_iff _).mpr hi)
          · intro c hc
            have := drop_head (· != '<') cs c (by
              rw [e1]
              cases t with
              | nil => cases hc
              | cons d t => cases hc; rfl)
            simpa using this

theorem elem_head {N : NameChars} {t : List Char} {x : Xml} (h : Elem N t x) : ∃ c l, t = c :: l ∧ inName c = true := by
  have key : ∀ (k : String) (l : List Char), Name N k.toList → ∃ c l', k.toList ++ l = c :: l' ∧ inName c = true := by
    rintro k l ⟨c, cs, e, hc, -⟩
    exact ⟨c, cs ++ l, by rw [e]; rfl, start_in hc⟩
  cases h with
  | empty hk _ => exact key _ _ hk
  | full hk _ _ _ => exact key _ _ hk

theorem tag_pos {N : NameChars} {b : Bool} {t : List Char} {as : Attrs} {e : Bool} (h : TagRest N b t as e) :
    1 ≤ t.length := by
  cases h <;> (simp; try omega)

theorem nodes_of {N : NameChars} (n : Nat) :
    (∀ t x, t.length ≤ n → Elem N t x → ∀ fuel, 2 * t.length ≤ fuel → ∀ r, readElem N fuel (t ++ r) = some (x, r)) ∧
    (∀ t xs, t.length ≤ n → Kids N t xs → ∀ fuel, 2 * t.length + 1 ≤ fuel → ∀ r, AtEnd r →
      readKids N fuel (t ++ r) = some (xs, r)) := by
  induction n with
  | zero =>
    refine ⟨fun t x hn ht => ?_, fun t xs hn ht fuel hf r hr => ?_⟩
    · obtain ⟨c, l, e, -⟩ := elem_head ht
      rw [e] at hn
      simp at hn
    · obtain ⟨f, rfl⟩ : ∃ f, fuel = f + 1 := ⟨fuel - 1, by omega⟩
      have ht0 : t = [] := List.eq_nil_of_length_eq_zero (by omega)
      subst ht0
      have hxs : xs = [] := by
        generalize hg : ([] : List Char) = t at ht
        cases ht with
        | nil => rfl
        | inst _ _ => cases hg
        | elem _ _ => cases hg
        | text h _ _ => exact absurd (List.append_eq_nil_iff.mp hg.symm).1 h.1
      subst hxs
      rw [List.nil_append]
      unfold readKids
      rcases hr with rfl | ⟨r', rfl⟩
      · rfl
      · rw [if_neg (by simp), if_pos (by simp), if_pos (by simp)]
  | succ n ih =>
    obtain ⟨ih1, ih2⟩ := ih
    refine ⟨fun t x hn ht fuel hf r => ?_, fun t xs hn ht fuel hf r hr => ?_⟩
    · cases ht with
      | @empty k at' as hk ha =>
        have hp := tag_pos ha
        simp only [List.length_append] at hn hf
        obtain ⟨f, rfl⟩ : ∃ f, fuel = f + 1 := ⟨fuel - 1, by omega⟩
        rw [List.append_assoc]
        unfold readElem
        rw [readName_of hk (tag_stops ha r)]
        dsimp only [Option.bind_some]
        rw [attrs_of ha _ (by simp; omega)]
        rfl
      | @full k at' as kt ks w hk ha hc hw =>
        have hp := tag_pos ha
        simp only [List.length_append, List.length_cons] at hn hf
        obtain ⟨f, rfl⟩ : ∃ f, fuel = f + 1 := ⟨fuel - 1, by omega⟩
        have e0 : k.toList ++ (at' ++ (kt ++ '<' :: '/' :: (k.toList ++ (w ++ ['>'])))) ++ r =
            k.toList ++ (at' ++ (kt ++ '<' :: '/' :: (k.toList ++ (w ++ '>' :: r)))) := by simp
        rw [e0]
        unfold readElem
        rw [readName_of hk (tag_stops ha _)]
        dsimp only [Option.bind_some]
        rw [attrs_of ha _ (by simp; omega)]
        dsimp only [Option.bind_some]
        rw [if_neg (by simp), ih2 kt ks (by omega) hc f (by omega) _ (.inr ⟨_, rfl⟩)]
        dsimp only [Option.bind_some]
        rw [end_of hk hw]
        rfl
    · obtain ⟨f, rfl⟩ : ∃ f, fuel = f + 1 := ⟨fuel - 1, by omega⟩
      cases ht with
      | nil =>
        rw [List.nil_append]
        unfold readKids
        rcases hr with rfl | ⟨r', rfl⟩
        · rfl
        · rw [if_neg (by simp), if_pos (by simp), if_pos (by simp)]
      | @inst b cs _ hb hs =>
        simp only [List.length_append, List.length_cons] at hn hf
        unfold readKids
        simp only [List.cons_append, List.append_assoc]
        rw [if_neg (by simp), if_pos (by simp), if_neg (by simp), if_pos (by simp)]
        dsimp only [List.tail_cons]
        rw [inst_of _ _ hb]
        dsimp only [Option.bind_some]
        exact ih2 cs _ (by omega) hs f (by omega) r hr
      | @elem t x cs xs hx hs =>
        simp only [List.length_append, List.length_cons] at hn hf
        obtain ⟨c, l, e, hc⟩ := elem_head hx
        have h1 := ih1 t x (by omega) hx f (by omega) (cs ++ r)
        unfold readKids
        simp only [List.cons_append, List.append_assoc]
        rw [if_neg (by simp), if_pos (by simp), if_neg, if_neg]
        · dsimp only [List.tail_cons]
          rw [h1]
          dsimp only [Option.bind_some]
          rw [ih2 cs xs (by omega) hs f (by omega) r hr]
          rfl
        · rw [List.tail_cons, e]
          intro hq
          cases hq
          revert hc
          decide
        · rw [List.tail_cons, e]
          intro hq
          cases hq
          revert hc
          decide
      | @text raw s cs xs ht hs hcs =>
        obtain ⟨h0, h1, h2, h3⟩ := ht
        simp only [List.length_append] at hn hf
        have hl : 1 ≤ raw.length := by
          cases raw with
          | nil => exact absurd rfl h0
          | cons c l => simp
        have hstop : ∀ c, (cs ++ r).head? = some c → (c != '<') = false := by
          intro c hc
          cases cs with
          | nil =>
            rcases hr with rfl | ⟨r', rfl⟩
            · cases hc
            · cases hc; rfl
          | cons d cs =>
            cases hc
            rw [hcs _ rfl]; rfl
        obtain ⟨e1, e2⟩ := span_stop (· != '<') raw (cs ++ r) (fun c hc => by
          simp only [bne_iff_ne, ne_eq]; rintro rfl; exact h1 hc) hstop
        rw [List.append_assoc]
        unfold readKids
        rw [if_neg (by simp [h0]), if_neg]
        · dsimp only
          rw [e1, e2, if_neg (fun h => h2 ((cdEnd_iff _).mp h)), (decode_iff _ _).mpr h3]
          dsimp only [Option.bind_some]
          rw [ih2 cs xs (by omega) hs f (by omega) r hr]
          rfl
        · cases raw with
          | nil => exact absurd rfl h0
          | cons c l =>
            intro hh
            cases hh
            exact h1 (by simp)

/-! ## Documents -/

/-- **C89, files of other programs.** A text is read as a document with the root element `x` exactly if it is written
by the grammar. -/
theorem xml_grammar (N : NameChars) (cs : List Char) (x : Xml) : parseXml N cs = some x ↔ XmlDoc N cs x := by
  constructor
  · intro h
    have key : ∀ fuel cs, readRoot N fuel cs = some x → XmlDoc N cs x := by
      intro fuel
      induction fuel with
      | zero => intro cs h; cases h
      | succ fuel ih =>
        intro cs h
        unfold readRoot at h
        split at h
        · cases h
        rename_i hne
        split at h
        · rename_i hh
          have e0 := head_cons hh
          split at h
          · rename_i hh2
            rw [Option.bind_eq_some_iff] at h
            obtain ⟨cs1, h1, h⟩ := h
            obtain ⟨b, e1, hb⟩ := inst_some h1
            obtain ⟨p, t, rest, e2, hp, ht⟩ := ih _ h
            refine ⟨_, t, rest, ?_, .inst hb hp, ht⟩
            rw [e0, head_cons hh2, e1, e2]
            simp
          · rw [Option.map_eq_some_iff] at h
            obtain ⟨⟨x', r⟩, h1, h2⟩ := h
            cases h2
            obtain ⟨t, e1, ht⟩ := (nodes_some _).1 _ _ _ h1
            exact ⟨[], t, r, by rw [e0, e1]; rfl, .nil, ht⟩
        · rename_i hh
          split at h
          · cases h
          · rename_i hcd
            rw [Option.bind_eq_some_iff] at h
            obtain ⟨s, h1, h⟩ := h
            obtain ⟨p, t, rest, e2, hp, ht⟩ := ih _ h
            refine ⟨cs.takeWhile (· != '<') ++ p, t, rest, ?_, .text ⟨?_, ?_, ?_, (decode_iff _ _).mp h1⟩ hp ?_, ht⟩
            · rw [List.append_assoc, ← e2]; exact List.takeWhile_append_dropWhile.symm
            · intro hn
              cases cs with
              | nil => exact hne rfl
              | cons c cs =>
                rw [List.takeWhile_cons] at hn
                split at hn
                · cases hn
                · rename_i hc
                  exact hh (by simp at hc; simp [hc])
            · intro hm
              have := List.mem_takeWhile_imp hm
              simp at this
            · intro hi; exact hcd ((cdEnd_iff _).mpr hi)
            · intro c hc
              have := drop_head (· != '<') cs c (by
                rw [e2]
                cases p with
                | nil => cases hc
                | cons d p => cases hc; rfl)
              simpa using this
    exact key _ _ h
  · rintro ⟨p, t, rest, rfl, hp, ht⟩
    unfold parseXml
    obtain ⟨c, l, et, hc⟩ := elem_head ht
    have key : ∀ p, Prolog p → ∀ fuel, p.length < fuel → readRoot N fuel (p ++ '<' :: (t ++ rest)) = some x := by
      intro p hp
      induction hp with
      | nil =>
        intro fuel hf
        obtain ⟨f, rfl⟩ : ∃ f, fuel = f + 1 := ⟨fuel - 1, by omega⟩
        rw [List.nil_append]
        unfold readRoot
        rw [if_neg (by simp), if_pos (by simp), if_neg]
        · dsimp only [List.tail_cons]
          rw [(nodes_of t.length).1 t x (Nat.le_refl _) ht _ (by simp; omega)]
          rfl
        · rw [List.tail_cons, et]
          intro hq
          cases hq
          revert hc
          decide
      | @inst b cs hb hs ih =>
        intro fuel hf
        simp only [List.length_append, List.length_cons] at hf
        obtain ⟨f, rfl⟩ : ∃ f, fuel = f + 1 := ⟨fuel - 1, by omega⟩
        unfold readRoot
        simp only [List.cons_append, List.append_assoc]
        rw [if_neg (by simp), if_pos (by simp), if_pos (by simp)]
        dsimp only [List.tail_cons]
        rw [inst_of _ _ hb]
        exact ih f (by omega)
      | @text raw s cs htx hs hcs ih =>
        obtain ⟨h0, h1, h2, h3⟩ := htx
        intro fuel hf
        have hl : 1 ≤ raw.length := by
          cases raw with
          | nil => exact absurd rfl h0
          | cons c l => simp
        simp only [List.length_append] at hf
        obtain ⟨f, rfl⟩ : ∃ f, fuel = f + 1 := ⟨fuel - 1, by omega⟩
        have hstop : ∀ c, (cs ++ '<' :: (t ++ rest)).head? = some c → (c != '<') = false := by
          intro c hc
          cases cs with
          | nil => cases hc; rfl
          | cons d cs =>
            cases hc
            rw [hcs _ rfl]; rfl
        obtain ⟨e1, e2⟩ := span_stop (· != '<') raw (cs ++ '<' :: (t ++ rest)) (fun c hc => by
          simp only [bne_iff_ne, ne_eq]; rintro rfl; exact h1 hc) hstop
        rw [List.append_assoc]
        unfold readRoot
        rw [if_neg (by simp [h0]), if_neg]
        · rw [e1, e2, if_neg (fun h => h2 ((cdEnd_iff _).mp h)), (decode_iff _ _).mpr h3]
          exact ih f (by omega)
        · cases raw with
          | nil => exact absurd rfl h0
          | cons c l =>
            intro hh
            cases hh
            exact h1 (by simp)
    exact key p hp _ (by simp; omega)

/-- **C89, no XML.** A text that is not written by the grammar is an error of `Decode`. -/
theorem no_xml {F : Type} [GoMath F] (N : NameChars) (T : GpxText F) (gen : Nat → Nat → String × String) (cs : List Char)
    (hne : cs ≠ []) (h : ∀ x, ¬ XmlDoc N cs x) : gpxDecodeText N T gen cs = .ok none := by
  have hp : parseXml N cs = none := by
    cases hr : parseXml N cs with
    | none => rfl
    | some x => exact absurd ((xml_grammar N cs x).mp hr) (h x)
  unfold gpxDecodeText gpxParse
  rw [if_neg hne, hp]

/-- **C89, spelling does not matter.** Two files with the same root element are decoded alike. -/
theorem spelling {F : Type} [GoMath F] (N : NameChars) (T : GpxText F) (gen : Nat → Nat → String × String) (cs cs' : List Char)
    (x : Xml) (h : XmlDoc N cs x) (h' : XmlDoc N cs' x) : gpxDecodeText N T gen cs = gpxDecodeText N T gen cs' := by
  have hne : ∀ l, XmlDoc N l x → l ≠ [] := by
    rintro l ⟨p, t, rest, rfl, -⟩ hn
    simp at hn
  unfold gpxDecodeText gpxParse
  rw [if_neg (hne _ h), if_neg (hne _ h'), (xml_grammar N cs x).mpr h, (xml_grammar N cs' x).mpr h']

/-- Only letters of ASCII. -/
def ascii : NameChars := ⟨fun _ => false, fun _ => false⟩

/-- Single quotes, references, white space, an empty element, an instruction. -/
example : (match parseXml ascii "<?x?>\n<a b = '&lt;&#x41;&#66;'c=\"'\" ><d/>t&amp;\r\n</a >rest".toList with
    | some (.elem "a" [("b", b), ("c", c)] [.elem "d" [] [], .text s]) => b == "<AB" && c == "'" && s == "t&\n"
    | _ => false) = true := by decide +kernel

/-- Texts outside the grammar. -/
example : ["<a>", "<a></b>", "<a b=1/>", "<a b='<'/>", "<a>&nbsp;</a>", "<a>]]></a>", "<1/>", "<a:b:c/>", "a", "<a b/>",
    "<a>&#x110000;</a>", "<a></ a>", "< a/>"].all (fun s => (parseXml ascii s.toList).isNone) = true := by decide +kernel

end C89Grammar
end GpsGen
