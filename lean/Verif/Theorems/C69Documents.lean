import Verif.Theorems.C69Strings
import Verif.Lemmas.JsonText
import Verif.Lemmas.JsonF64
/-!
# C69: property texts written by other programs

The reader of property texts accepts exactly the JSON objects (RFC 8259) whose values are scalars, with any
white space, any spelling of numbers and strings, and reads the members in their order; it reads `null` as no
object and refuses everything else. Numbers out of range are refused.
-/

namespace GpsGen
namespace C69Documents
open C69Strings (Text)
open Json

variable {F : Type}

/-! ## Specification -/

/-- White space. -/
def Ws (cs : List Char) : Prop := ∀ c ∈ cs, c = ' ' ∨ c = '\t' ∨ c = '\n' ∨ c = '\r'

/-- The digits of a text. -/
def digits (ds : List (Fin 10)) : List Char := ds.map (fun d => Char.ofNat (48 + d.val))

/-- The number with these digits. -/
def value : List (Fin 10) → Nat
  | [] => 0
  | d :: ds => d.val * 10 ^ ds.length + value ds

def IntText (t : List Char) (n : Nat) : Prop :=
  ∃ ds, t = digits ds ∧ ds ≠ [] ∧ (ds.head? = some 0 → ds.length = 1) ∧ n = value ds

def FracText (t : List Char) (fr : List (Fin 10)) : Prop := t = [] ∧ fr = [] ∨ t = '.' :: digits fr ∧ fr ≠ []

def ExpText (t : List Char) (e : Option Int) : Prop :=
  t = [] ∧ e = none ∨
  ∃ m s ds, (m = 'e' ∨ m = 'E') ∧ ds ≠ [] ∧ t = m :: (s ++ digits ds) ∧
    ((s = [] ∨ s = ['+']) ∧ e = some (value ds : Int) ∨ s = ['-'] ∧ e = some (-(value ds : Int)))

/-- `t` spells the number `l`: `[ minus ] int [ frac ] [ exp ]`. -/
def NumText (t : List Char) (l : NumLit) : Prop :=
  ∃ s i f x, t = s ++ (i ++ (f ++ x)) ∧ (s = [] ∧ l.neg = false ∨ s = ['-'] ∧ l.neg = true) ∧
    IntText i l.int ∧ FracText f l.frac ∧ ExpText x l.exp

variable [GoFloat F] [JsonFloat F]

inductive ValText : List Char → JVal F → Prop
  | null : ValText "null".toList .null
  | true : ValText "true".toList (.bool true)
  | false : ValText "false".toList (.bool false)
  | str (t : List Char) (s : String) (h : Text t s.toList) : ValText ('"' :: (t ++ ['"'])) (.str s)
  | num (t : List Char) (l : NumLit) (f : F) (h : NumText t l) (hf : JsonFloat.read l = some f) : ValText t (.num f)

/-- A member `"name" : value` with white space. -/
def Member (cs : List Char) (m : String × JVal F) : Prop :=
  ∃ w1 w2 w3 w4 kt vt, Ws w1 ∧ Ws w2 ∧ Ws w3 ∧ Ws w4 ∧ Text kt m.1.toList ∧ ValText vt m.2 ∧
    cs = w1 ++ '"' :: (kt ++ '"' :: (w2 ++ ':' :: (w3 ++ (vt ++ w4))))

inductive Members : List Char → JObj F → Prop
  | one {cs m} (h : Member cs m) : Members cs [m]
  | more {cs ds m ms} (h : Member cs m) (hs : Members ds ms) : Members (cs ++ ',' :: ds) (m :: ms)

/-- A whole document with the object `o`. -/
def Doc (cs : List Char) (o : JObj F) : Prop :=
  ∃ w1 body w2, cs = w1 ++ '{' :: (body ++ '}' :: w2) ∧ Ws w1 ∧ Ws w2 ∧ (Ws body ∧ o = [] ∨ Members body o)

def NullDoc (cs : List Char) : Prop := ∃ w1 w2, cs = w1 ++ ("null".toList ++ w2) ∧ Ws w1 ∧ Ws w2

/-! ## Numbers -/

theorem digits_eq (ds : List (Fin 10)) : digits ds = ds.map digitChar := by
  unfold digits
  apply List.map_congr_left
  intro d _
  exact (by decide : ∀ d : Fin 10, Char.ofNat (48 + d.val) = digitChar d) d

theorem foldl_value (ds : List (Fin 10)) (n : Nat) :
    ds.foldl (fun n d => 10 * n + d.val) n = n * 10 ^ ds.length + value ds := by
  induction ds generalizing n with
  | nil => simp [value]
  | cons d ds ih =>
    rw [List.foldl_cons, ih, value, List.length_cons, Nat.pow_succ]
    rw [Nat.add_mul, Nat.mul_comm 10 n, Nat.mul_assoc, Nat.mul_comm 10 (10 ^ ds.length)]
    omega

theorem value_eq (ds : List (Fin 10)) : digitsNat ds = value ds := by
  unfold digitsNat
  rw [foldl_value]; omega

theorem charDigit_some {c : Char} {d : Fin 10} (h : charDigit c = some d) : c = digitChar d := by
  unfold charDigit at h
  split at h <;> first | (cases h; rfl) | cases h

/-- What `spanDigits` takes. -/
theorem spanDigits_eq (cs : List Char) : cs = digits (spanDigits cs).1 ++ (spanDigits cs).2 := by
  rw [digits_eq]
  induction cs with
  | nil => rfl
  | cons c cs ih =>
    unfold spanDigits
    split
    · rfl
    · rename_i d hd
      simp only [List.map_cons, List.cons_append]
      rw [← charDigit_some hd, ← ih]

theorem readFrac_some {cs r : List Char} {fr : List (Fin 10)} (h : readFrac cs = some (fr, r)) :
    ∃ t, cs = t ++ r ∧ FracText t fr := by
  unfold readFrac at h
  split at h
  · rename_i cs'
    have e := spanDigits_eq cs'
    split at h
    · cases h
    · rename_i d ds r' hsp
      cases h
      rw [hsp] at e
      exact ⟨'.' :: digits (d :: ds), by rw [e]; rfl, Or.inr ⟨rfl, by simp⟩⟩
  · cases h
    exact ⟨[], rfl, Or.inl ⟨rfl, rfl⟩⟩

theorem readExpDigits_some {neg : Bool} {cs r : List Char} {x : Option Int} (h : readExpDigits neg cs = some (x, r)) :
    ∃ ds, ds ≠ [] ∧ cs = digits ds ++ r ∧ x = some (if neg then -(value ds : Int) else value ds) := by
  unfold readExpDigits at h
  have e := spanDigits_eq cs
  split at h
  · cases h
  · rename_i d ds r' hsp
    cases h
    rw [hsp] at e
    exact ⟨d :: ds, by simp, e, by rw [value_eq]⟩

theorem readExpSign_some {cs r : List Char} {x : Option Int} (h : readExpSign cs = some (x, r)) :
    ∃ s ds, ds ≠ [] ∧ cs = s ++ (digits ds ++ r) ∧
      ((s = [] ∨ s = ['+']) ∧ x = some (value ds : Int) ∨ s = ['-'] ∧ x = some (-(value ds : Int))) := by
  unfold readExpSign at h
  split at h
  · obtain ⟨ds, h1, h2, h3⟩ := readExpDigits_some h
    exact ⟨['-'], ds, h1, by rw [h2]; rfl, Or.inr ⟨rfl, by simpa using h3⟩⟩
  · obtain ⟨ds, h1, h2, h3⟩ := readExpDigits_some h
    exact ⟨['+'], ds, h1, by rw [h2]; rfl, Or.inl ⟨Or.inr rfl, by simpa using h3⟩⟩
  · obtain ⟨ds, h1, h2, h3⟩ := readExpDigits_some h
    exact ⟨[], ds, h1, h2, Or.inl ⟨Or.inl rfl, by simpa using h3⟩⟩

theorem readExp_some {cs r : List Char} {x : Option Int} (h : readExp cs = some (x, r)) :
    ∃ t, cs = t ++ r ∧ ExpText t x := by
  unfold readExp at h
  split at h
  · obtain ⟨s, ds, h1, h2, h3⟩ := readExpSign_some h
    exact ⟨'e' :: (s ++ digits ds), by rw [h2]; simp, Or.inr ⟨'e', s, ds, Or.inl rfl, h1, rfl, h3⟩⟩
  · obtain ⟨s, ds, h1, h2, h3⟩ := readExpSign_some h
    exact ⟨'E' :: (s ++ digits ds), by rw [h2]; simp, Or.inr ⟨'E', s, ds, Or.inr rfl, h1, rfl, h3⟩⟩
  · cases h
    exact ⟨[], rfl, Or.inl ⟨rfl, rfl⟩⟩

theorem readUnsigned_some {neg : Bool} {cs r : List Char} {l : NumLit} (h : readUnsigned neg cs = some (l, r)) :
    ∃ i f x, cs = i ++ (f ++ (x ++ r)) ∧ l.neg = neg ∧ IntText i l.int ∧ FracText f l.frac ∧ ExpText x l.exp := by
  unfold readUnsigned at h
  have e := spanDigits_eq cs
  split at h
  · cases h
  · rename_i d ds r1 hsp
    rw [hsp] at e
    split at h
    · cases h
    · rename_i hz
      split at h
      · cases h
      · rename_i fr r2 hf
        obtain ⟨f, e2, hf'⟩ := readFrac_some hf
        split at h
        · cases h
        · rename_i ex r3 hx
          obtain ⟨x, e3, hx'⟩ := readExp_some hx
          cases h
          refine ⟨digits (d :: ds), f, x, by rw [e, e2, e3], rfl, ⟨d :: ds, rfl, by simp, ?_, value_eq _⟩, hf', hx'⟩
          intro h0
          rw [List.head?_cons, Option.some.injEq] at h0
          have : ds = [] := Decidable.of_not_not (fun hc => hz ⟨h0, hc⟩)
          rw [this]; rfl

theorem readNum_some {cs r : List Char} {l : NumLit} (h : readNum cs = some (l, r)) : ∃ t, cs = t ++ r ∧ NumText t l := by
  unfold readNum at h
  split at h
  · obtain ⟨i, f, x, e, hn, h1, h2, h3⟩ := readUnsigned_some h
    exact ⟨['-'] ++ (i ++ (f ++ x)), by rw [e]; simp, ['-'], i, f, x, rfl, Or.inr ⟨rfl, hn⟩, h1, h2, h3⟩
  · obtain ⟨i, f, x, e, hn, h1, h2, h3⟩ := readUnsigned_some h
    exact ⟨[] ++ (i ++ (f ++ x)), by rw [e]; simp, [], i, f, x, rfl, Or.inl ⟨rfl, hn⟩, h1, h2, h3⟩

theorem readExpDigits_of (neg : Bool) (ds : List (Fin 10)) (hd : ds ≠ []) {rest : List Char} (h : Ends rest) :
    readExpDigits neg (digits ds ++ rest) = some (some (if neg then -(value ds : Int) else value ds), rest) := by
  unfold readExpDigits
  rw [digits_eq, spanDigits_append _ _ (fun c cs e => (h c cs e).1)]
  cases ds with
  | nil => exact absurd rfl hd
  | cons d ds => simp only [value_eq]

theorem digits_head (ds : List (Fin 10)) (hd : ds ≠ []) : ∃ d t, digits ds = digitChar d :: t := by
  cases ds with
  | nil => exact absurd rfl hd
  | cons d ds => exact ⟨d, ds.map digitChar, by rw [digits_eq]; rfl⟩

theorem digit_not (d : Fin 10) : digitChar d ≠ '+' ∧ digitChar d ≠ '.' ∧ digitChar d ≠ 'e' ∧ digitChar d ≠ 'E' := by
  revert d; decide

theorem readExp_of {t : List Char} {x : Option Int} (hx : ExpText t x) {rest : List Char} (h : Ends rest) :
    readExp (t ++ rest) = some (x, rest) := by
  rcases hx with ⟨rfl, rfl⟩ | ⟨m, s, ds, hm, hd, rfl, hs⟩
  · exact readExp_none h
  · have key : readExpSign (s ++ (digits ds ++ rest)) = some (x, rest) := by
      rcases hs with ⟨rfl | rfl, rfl⟩ | ⟨rfl, rfl⟩
      · obtain ⟨d, u, hu⟩ := digits_head ds hd
        have := readExpDigits_of false ds hd h
        rw [List.nil_append]
        rw [hu] at this ⊢
        unfold readExpSign
        split
        · rename_i e; exact absurd (List.cons.inj e).1 (digitChar_ne d).1
        · rename_i e; exact absurd (List.cons.inj e).1 (digit_not d).1
        · rw [this]; simp
      · show readExpDigits false (digits ds ++ rest) = _
        rw [readExpDigits_of false ds hd h]; simp
      · show readExpDigits true (digits ds ++ rest) = _
        rw [readExpDigits_of true ds hd h]; simp
    rcases hm with rfl | rfl
    · show readExpSign ((s ++ digits ds) ++ rest) = _
      rw [List.append_assoc, key]
    · show readExpSign ((s ++ digits ds) ++ rest) = _
      rw [List.append_assoc, key]

/-- After the integer and the fraction. -/
theorem exp_next {t : List Char} {x : Option Int} (hx : ExpText t x) {rest : List Char} (h : Ends rest) (c : Char)
    (cs : List Char) (e : t ++ rest = c :: cs) : charDigit c = none ∧ c ≠ '.' := by
  rcases hx with ⟨rfl, -⟩ | ⟨m, s, ds, hm, -, rfl, -⟩
  · exact ⟨(h c cs e).1, (h c cs e).2.1⟩
  · have : m = c := (List.cons.inj e).1
    subst this
    rcases hm with rfl | rfl <;> decide

theorem readUnsigned_of (neg : Bool) (l : NumLit) (hn : l.neg = neg) {i f x : List Char} (hi : IntText i l.int)
    (hf : FracText f l.frac) (hx : ExpText x l.exp) {rest : List Char} (h : Ends rest) :
    readUnsigned neg (i ++ (f ++ (x ++ rest))) = some (l, rest) := by
  obtain ⟨ds, rfl, hd, hz, hv⟩ := hi
  have hfe : f = fracText l.frac := by
    unfold fracText
    rcases hf with ⟨rfl, e⟩ | ⟨rfl, e⟩
    · rw [if_pos e]
    · rw [if_neg e, digits_eq]
  subst hfe
  unfold readUnsigned
  rw [digits_eq, spanDigits_append _ _ (fun c cs e => frac_head _ _ (fun c cs e => (exp_next hx h c cs e).1) c cs e)]
  cases ds with
  | nil => exact absurd rfl hd
  | cons d ds =>
    simp only
    have hz' : ¬ (d = 0 ∧ ds ≠ []) := by
      rintro ⟨rfl, hne⟩
      have := hz rfl
      rw [List.length_cons] at this
      exact hne (List.length_eq_zero_iff.mp (by omega))
    rw [if_neg hz', readFrac_text _ (fun c cs e => (exp_next hx h c cs e).1) (fun c cs e => (exp_next hx h c cs e).2)]
    simp only
    rw [readExp_of hx h, value_eq, ← hv, ← hn]

theorem num_head {t : List Char} {l : NumLit} (h : NumText t l) : ∃ c cs, t = c :: cs ∧ (c = '-' ∨ ∃ d, c = digitChar d) := by
  obtain ⟨s, i, f, x, rfl, hs, ⟨ds, rfl, hd, -, -⟩, -, -⟩ := h
  rcases hs with ⟨rfl, -⟩ | ⟨rfl, -⟩
  · obtain ⟨d, u, hu⟩ := digits_head ds hd
    exact ⟨digitChar d, u ++ (f ++ x), by rw [hu]; rfl, Or.inr ⟨d, rfl⟩⟩
  · exact ⟨'-', _, rfl, Or.inl rfl⟩

theorem readNum_of {t : List Char} {l : NumLit} (ht : NumText t l) {rest : List Char} (h : Ends rest) :
    readNum (t ++ rest) = some (l, rest) := by
  obtain ⟨s, i, f, x, rfl, hs, hi, hf, hx⟩ := ht
  rcases hs with ⟨rfl, hn⟩ | ⟨rfl, hn⟩
  · have := readUnsigned_of false l hn hi hf hx h
    obtain ⟨ds, rfl, hd, -, -⟩ := hi
    obtain ⟨d, u, hu⟩ := digits_head ds hd
    simp only [List.nil_append, List.append_assoc]
    rw [hu] at this ⊢
    unfold readNum
    split
    · rename_i e; exact absurd (List.cons.inj e).1 (digitChar_ne d).1
    · exact this
  · simp only [List.append_assoc]
    exact readUnsigned_of true l hn hi hf hx h

/-! ## Values -/

theorem readVal_some {cs r : List Char} {v : JVal F} (h : readVal cs = some (v, r)) :
    ∃ t, cs = t ++ r ∧ ValText t v := by
  unfold readVal at h
  split at h
  · cases h; exact ⟨_, rfl, .null⟩
  · cases h; exact ⟨_, rfl, .true⟩
  · cases h; exact ⟨_, rfl, .false⟩
  · rw [Option.map_eq_some_iff] at h
    obtain ⟨⟨s, r'⟩, h1, h2⟩ := h
    cases h2
    obtain ⟨ts, e, ht⟩ := (C69Strings.string_grammar _ _ _).mp h1
    exact ⟨'"' :: (ts ++ ['"']), by rw [e]; simp, .str ts s ht⟩
  · split at h
    · cases h
    · rename_i l r' hn
      rw [Option.map_eq_some_iff] at h
      obtain ⟨f, h1, h2⟩ := h
      cases h2
      obtain ⟨t, e, ht⟩ := readNum_some hn
      exact ⟨t, e, .num t l f ht h1⟩

theorem readVal_of {t : List Char} {v : JVal F} (hv : ValText t v) {rest : List Char} (h : Ends rest) :
    readVal (t ++ rest) = some (v, rest) := by
  cases hv with
  | null => rfl
  | true => rfl
  | false => rfl
  | str ts s ht =>
    show readVal ('"' :: ((ts ++ ['"']) ++ rest)) = _
    have := (C69Strings.string_grammar (ts ++ '"' :: rest) s rest).mpr ⟨ts, rfl, ht⟩
    rw [List.append_assoc]
    show (readStr (ts ++ '"' :: rest)).map _ = _
    rw [this]; rfl
  | num _ l f ht hf =>
    have hr := readNum_of ht h
    obtain ⟨c, cs, e, hc⟩ := num_head ht
    have hne : c ≠ 'n' ∧ c ≠ 't' ∧ c ≠ 'f' ∧ c ≠ '"' ∧ c ≠ ' ' ∧ c ≠ '\t' ∧ c ≠ '\n' ∧ c ≠ '\r' := by
      rcases hc with rfl | ⟨d, rfl⟩
      · decide
      · exact (digitChar_ne d).2
    rw [e] at hr ⊢
    unfold readVal
    split
    · rename_i e; exact absurd (List.cons.inj e).1 hne.1
    · rename_i e; exact absurd (List.cons.inj e).1 hne.2.1
    · rename_i e; exact absurd (List.cons.inj e).1 hne.2.2.1
    · rename_i e; exact absurd (List.cons.inj e).1 hne.2.2.2.1
    · rw [hr]
      simp only [hf, Option.map_some]

/-- No value begins with white space. -/
theorem val_head {t : List Char} {v : JVal F} (hv : ValText t v) : ∃ c cs, t = c :: cs ∧
    ¬ (c = ' ' ∨ c = '\t' ∨ c = '\n' ∨ c = '\r') := by
  cases hv with
  | null => exact ⟨_, _, rfl, by decide⟩
  | true => exact ⟨_, _, rfl, by decide⟩
  | false => exact ⟨_, _, rfl, by decide⟩
  | str ts s ht => exact ⟨'"', _, rfl, by decide⟩
  | num _ l f ht hf =>
    obtain ⟨c, cs, e, hc⟩ := num_head ht
    refine ⟨c, cs, e, ?_⟩
    rcases hc with rfl | ⟨d, rfl⟩
    · decide
    · have := digitChar_ne d
      simp [this]

/-! ## White space -/

theorem ws_nil : Ws [] := by intro c h; cases h

theorem skipWs_eq (cs : List Char) : ∃ w, Ws w ∧ cs = w ++ skipWs cs := by
  induction cs with
  | nil => exact ⟨[], ws_nil, rfl⟩
  | cons c cs ih =>
    unfold skipWs
    split
    · rename_i h
      obtain ⟨w, hw, e⟩ := ih
      refine ⟨c :: w, ?_, by rw [List.cons_append, ← e]⟩
      intro x hx
      rcases List.mem_cons.mp hx with rfl | hx
      · exact h
      · exact hw x hx
    · exact ⟨[], ws_nil, rfl⟩

theorem skipWs_append {w : List Char} (hw : Ws w) (cs : List Char) : skipWs (w ++ cs) = skipWs cs := by
  induction w with
  | nil => rfl
  | cons c w ih =>
    rw [List.cons_append, skipWs, if_pos (hw c (by simp)), ih (fun x hx => hw x (by simp [hx]))]

theorem skipWs_stop {c : Char} (h : ¬ (c = ' ' ∨ c = '\t' ∨ c = '\n' ∨ c = '\r')) (cs : List Char) :
    skipWs (c :: cs) = c :: cs := by
  rw [skipWs, if_neg h]

theorem skipWs_ws {w : List Char} (hw : Ws w) : skipWs w = [] := by
  have := skipWs_append hw []
  rw [List.append_nil] at this
  rw [this]; rfl

theorem ws_of_skip {cs : List Char} (h : skipWs cs = []) : Ws cs := by
  obtain ⟨w, hw, e⟩ := skipWs_eq cs
  rw [h, List.append_nil] at e
  rw [e]; exact hw

/-- White space and punctuation end a number. -/
theorem ends_ws {w : List Char} (hw : Ws w) {c : Char} (hc : c = ',' ∨ c = '}') (cs : List Char) : Ends (w ++ c :: cs) := by
  intro x xs e
  cases w with
  | nil =>
    have : c = x := (List.cons.inj e).1
    subst this
    rcases hc with rfl | rfl <;> decide
  | cons y w =>
    have : y = x := (List.cons.inj e).1
    subst this
    rcases hw y (by simp) with rfl | rfl | rfl | rfl <;> decide

/-! ## Members -/

theorem readName_some {cs r : List Char} {k : String} (h : readName cs = some (k, r)) :
    ∃ kt w, Ws w ∧ Text kt k.toList ∧ cs = '"' :: (kt ++ '"' :: (w ++ ':' :: r)) := by
  unfold readName at h
  split at h
  · split at h
    · cases h
    · rename_i k' cs1 hs
      obtain ⟨kt, e, ht⟩ := (C69Strings.string_grammar _ _ _).mp hs
      obtain ⟨w, hw, e2⟩ := skipWs_eq cs1
      split at h
      · rename_i cs2 hsk
        cases h
        exact ⟨kt, w, hw, ht, by rw [e, e2, hsk]⟩
      · cases h
  · cases h

theorem readName_of {kt w : List Char} {k : String} (hw : Ws w) (ht : Text kt k.toList) (r : List Char) :
    readName ('"' :: (kt ++ '"' :: (w ++ ':' :: r))) = some (k, r) := by
  unfold readName
  simp only
  rw [(C69Strings.string_grammar _ _ _).mpr ⟨kt, rfl, ht⟩]
  simp only
  rw [skipWs_append hw, skipWs_stop (by decide)]
  rfl

theorem members_of_read : ∀ (fuel : Nat) (cs r : List Char) (o : JObj F), readMembers fuel cs = some (o, r) →
    ∃ body, cs = body ++ '}' :: r ∧ Members body o := by
  intro fuel
  induction fuel with
  | zero => intro cs r o h; cases h
  | succ f ih =>
    intro cs r o h
    unfold readMembers at h
    obtain ⟨w1, hw1, e1⟩ := skipWs_eq cs
    split at h
    · cases h
    · rename_i k cs1 hn
      obtain ⟨kt, w2, hw2, hkt, e2⟩ := readName_some hn
      obtain ⟨w3, hw3, e3⟩ := skipWs_eq cs1
      split at h
      · cases h
      · rename_i v cs2 hv
        obtain ⟨vt, e4, hvt⟩ := readVal_some hv
        obtain ⟨w4, hw4, e5⟩ := skipWs_eq cs2
        have hm : Member (w1 ++ '"' :: (kt ++ '"' :: (w2 ++ ':' :: (w3 ++ (vt ++ w4))))) (k, v) :=
          ⟨w1, w2, w3, w4, kt, vt, hw1, hw2, hw3, hw4, hkt, hvt, rfl⟩
        split at h
        · rename_i cs3 hsk
          rw [Option.map_eq_some_iff] at h
          obtain ⟨⟨o', r'⟩, h1, h2⟩ := h
          cases h2
          obtain ⟨body, e6, hb⟩ := ih _ _ _ h1
          refine ⟨_, ?_, .more hm hb⟩
          rw [e1, e2, e3, e4, e5, hsk, e6]
          simp
        · rename_i cs3 hsk
          cases h
          refine ⟨_, ?_, .one hm⟩
          rw [e1, e2, e3, e4, e5, hsk]
          simp
        · cases h

/-- One member is read. -/
theorem member_step {cs : List Char} {m : String × JVal F} (hm : Member cs m) {c : Char} (hc : c = ',' ∨ c = '}')
    (fuel : Nat) (r : List Char) :
    readMembers (F := F) (fuel + 1) (cs ++ c :: r) =
      (if c = ',' then (readMembers fuel r).map (fun x => (m :: x.1, x.2)) else some ([m], r)) := by
  obtain ⟨w1, w2, w3, w4, kt, vt, hw1, hw2, hw3, hw4, hkt, hvt, rfl⟩ := hm
  obtain ⟨x, xs, ev, hx⟩ := val_head hvt
  conv => lhs; unfold readMembers
  have e1 : skipWs ((w1 ++ '"' :: (kt ++ '"' :: (w2 ++ ':' :: (w3 ++ (vt ++ w4))))) ++ c :: r) =
      '"' :: (kt ++ '"' :: (w2 ++ ':' :: (w3 ++ (vt ++ (w4 ++ c :: r))))) := by
    rw [List.append_assoc, skipWs_append hw1]
    simp only [List.cons_append, List.append_assoc]
    rw [skipWs_stop (by decide)]
  have e2 : skipWs (w3 ++ (vt ++ (w4 ++ c :: r))) = vt ++ (w4 ++ c :: r) := by
    rw [skipWs_append hw3, ev, List.cons_append, skipWs_stop hx]
  have e3 : skipWs (w4 ++ c :: r) = c :: r := by
    rw [skipWs_append hw4]
    rcases hc with rfl | rfl <;> exact skipWs_stop (by decide) _
  rw [e1, readName_of hw2 hkt]
  simp only
  rw [e2, readVal_of hvt (ends_ws hw4 hc r)]
  simp only
  rw [e3]
  rcases hc with rfl | rfl
  · rfl
  · rfl

theorem member_length {cs : List Char} {m : String × JVal F} (hm : Member cs m) : 1 ≤ cs.length := by
  obtain ⟨w1, w2, w3, w4, kt, vt, -, -, -, -, -, -, rfl⟩ := hm
  simp
  omega

theorem read_of_members {body : List Char} {o : JObj F} (h : Members body o) (r : List Char) :
    ∀ fuel, body.length ≤ fuel → readMembers fuel (body ++ '}' :: r) = some (o, r) := by
  induction h with
  | @one cs m hm =>
    intro fuel hf
    obtain ⟨f, rfl⟩ : ∃ f, fuel = f + 1 := ⟨fuel - 1, by have := member_length hm; omega⟩
    rw [member_step hm (Or.inr rfl)]
    rfl
  | @more cs ds m ms hm hs ih =>
    intro fuel hf
    rw [List.length_append, List.length_cons] at hf
    obtain ⟨f, rfl⟩ : ∃ f, fuel = f + 1 := ⟨fuel - 1, by omega⟩
    rw [List.append_assoc, List.cons_append, member_step hm (Or.inl rfl), if_pos rfl, ih f (by omega)]
    rfl

theorem members_head {body : List Char} {o : JObj F} (h : Members body o) :
    ∃ w r, Ws w ∧ body = w ++ '"' :: r := by
  cases h with
  | one hm =>
    obtain ⟨w1, w2, w3, w4, kt, vt, hw1, -, -, -, -, -, e⟩ := hm
    exact ⟨w1, _, hw1, e⟩
  | more hm _ =>
    obtain ⟨w1, w2, w3, w4, kt, vt, hw1, -, -, -, -, -, e⟩ := hm
    exact ⟨w1, _, hw1, by rw [e, List.append_assoc]; rfl⟩

/-! ## Objects and documents -/

theorem readObject_iff (cs r : List Char) (o : JObj F) :
    readObject cs = some (o, r) ↔ ∃ body, cs = body ++ '}' :: r ∧ (Ws body ∧ o = [] ∨ Members body o) := by
  obtain ⟨w, hw, e⟩ := skipWs_eq cs
  constructor
  · intro h
    unfold readObject at h
    split at h
    · rename_i cs1 hsk
      cases h
      exact ⟨w, by rw [e, hsk], Or.inl ⟨hw, rfl⟩⟩
    · obtain ⟨body, e2, hb⟩ := members_of_read _ _ _ _ h
      refine ⟨w ++ body, by rw [e, e2, List.append_assoc], Or.inr ?_⟩
      cases hb with
      | one hm =>
        obtain ⟨w1, w2, w3, w4, kt, vt, hw1, h2, h3, h4, h5, h6, rfl⟩ := hm
        refine .one ⟨w ++ w1, w2, w3, w4, kt, vt, ?_, h2, h3, h4, h5, h6, by rw [List.append_assoc]⟩
        intro c hc
        rcases List.mem_append.mp hc with hc | hc
        · exact hw c hc
        · exact hw1 c hc
      | more hm hs =>
        obtain ⟨w1, w2, w3, w4, kt, vt, hw1, h2, h3, h4, h5, h6, rfl⟩ := hm
        rw [← List.append_assoc]
        refine .more ⟨w ++ w1, w2, w3, w4, kt, vt, ?_, h2, h3, h4, h5, h6, by rw [List.append_assoc]⟩ hs
        intro c hc
        rcases List.mem_append.mp hc with hc | hc
        · exact hw c hc
        · exact hw1 c hc
  · rintro ⟨body, rfl, ⟨hb, rfl⟩ | hm⟩
    · unfold readObject
      rw [skipWs_append hb, skipWs_stop (by decide)]
      rfl
    · obtain ⟨w1, t, hw1, e1⟩ := members_head hm
      have hsk : skipWs (body ++ '}' :: r) = '"' :: (t ++ '}' :: r) := by
        rw [e1, List.append_assoc, skipWs_append hw1, List.cons_append, skipWs_stop (by decide)]
      -- The members without their leading white space.
      have hm' : Members ('"' :: t) o := by
        have drop : ∀ {cs : List Char} {m : String × JVal F}, Member cs m → ∃ w t, Ws w ∧ cs = w ++ '"' :: t ∧
            Member ('"' :: t) m := by
          rintro cs m ⟨w1, w2, w3, w4, kt, vt, hw1, h2, h3, h4, h5, h6, rfl⟩
          exact ⟨w1, _, hw1, rfl, [], w2, w3, w4, kt, vt, ws_nil, h2, h3, h4, h5, h6, rfl⟩
        have same : ∀ {w w' t t' : List Char}, Ws w → Ws w' → w ++ '"' :: t = w' ++ '"' :: t' → t = t' := by
          intro w w' t t' hw hw' e
          have := congrArg skipWs e
          rw [skipWs_append hw, skipWs_append hw', skipWs_stop (by decide), skipWs_stop (by decide)] at this
          exact (List.cons.inj this).2
        cases hm with
        | one h =>
          obtain ⟨w, t', hw, e, h'⟩ := drop h
          rw [e] at e1
          rw [← same hw hw1 e1]
          exact .one h'
        | more h hs =>
          obtain ⟨w, t', hw, e, h'⟩ := drop h
          rw [e, List.append_assoc, List.cons_append] at e1
          rw [← same hw hw1 e1, ← List.cons_append]
          exact .more h' hs
      unfold readObject
      rw [hsk]
      split
      · rename_i e2; exact absurd (List.cons.inj e2).1 (by decide)
      · exact read_of_members hm' r _ (by simp; omega)

/-- **C69, objects of other programs.** A property text is read as the object `o` exactly if it is a JSON
object with these members. -/
theorem doc_grammar (cs : List Char) (o : JObj F) : readDoc cs = .object o ↔ Doc cs o := by
  obtain ⟨w, hw, e⟩ := skipWs_eq cs
  constructor
  · intro h
    unfold readDoc at h
    split at h
    · rename_i cs1 hsk
      split at h
      · rename_i o' cs2 ho
        split at h
        · rename_i hend
          cases h
          obtain ⟨body, e2, hb⟩ := (readObject_iff _ _ _).mp ho
          exact ⟨w, body, cs2, by rw [e, hsk, e2], hw, ws_of_skip hend, hb⟩
        · cases h
      · cases h
    · split at h <;> cases h
    · cases h
  · rintro ⟨w1, body, w2, rfl, h1, h2, hb⟩
    unfold readDoc
    rw [skipWs_append h1, skipWs_stop (by decide)]
    simp only
    rw [(readObject_iff _ _ _).mpr ⟨body, rfl, hb⟩]
    simp only
    rw [if_pos (skipWs_ws h2)]

/-- **C69, null.** -/
theorem null_grammar (cs : List Char) : (readDoc cs : RawProps F) = .null ↔ NullDoc cs := by
  obtain ⟨w, hw, e⟩ := skipWs_eq cs
  constructor
  · intro h
    unfold readDoc at h
    split at h
    · split at h
      · split at h <;> cases h
      · cases h
    · rename_i cs1 hsk
      split at h
      · rename_i hend
        exact ⟨w, cs1, by rw [e, hsk]; rfl, hw, ws_of_skip hend⟩
      · cases h
    · cases h
  · rintro ⟨w1, w2, rfl, h1, h2⟩
    unfold readDoc
    have e2 : skipWs ("null".toList ++ w2) = 'n' :: 'u' :: 'l' :: 'l' :: w2 := skipWs_stop (by decide) _
    rw [skipWs_append h1, e2]
    show (if skipWs w2 = [] then RawProps.null else RawProps.invalid) = _
    rw [if_pos (skipWs_ws h2)]

/-- **C69, everything else is refused.** -/
theorem refused (cs : List Char) : (readDoc cs : RawProps F) = .invalid ↔ (∀ o : JObj F, ¬ Doc cs o) ∧ ¬ NullDoc cs := by
  have hcases : (readDoc cs : RawProps F) = .invalid ∨ (readDoc cs : RawProps F) = .null ∨
      ∃ o, (readDoc cs : RawProps F) = .object o := by
    unfold readDoc
    split
    · split
      · split
        · exact Or.inr (Or.inr ⟨_, rfl⟩)
        · exact Or.inl rfl
      · exact Or.inl rfl
    · split
      · exact Or.inr (Or.inl rfl)
      · exact Or.inl rfl
    · exact Or.inl rfl
  constructor
  · intro h
    refine ⟨fun o ho => ?_, fun hn => ?_⟩
    · rw [(doc_grammar cs o).mpr ho] at h; cases h
    · rw [(null_grammar cs).mpr hn] at h; cases h
  · rintro ⟨h1, h2⟩
    rcases hcases with h | h | ⟨o, h⟩
    · exact h
    · exact absurd ((null_grammar cs).mp h) h2
    · exact absurd ((doc_grammar cs o).mp h) (h1 o)

/-! ## Examples -/

/-- The text of another program is a document with these members. -/
example : Doc (F := F64) "\t{ \"h\" :\n-0.25E+1, \"\\u00E9\":\"\\/\",\"h\":null }\r\n".toList
    [("h", .num (F64.round false (-5 / 2))), ("é", .str "/"), ("h", .null)] :=
  (doc_grammar _ _).mp (by decide +kernel)

/-- A comma too many, a leading zero, a number that is no double. -/
example : (∀ o, ¬ Doc (F := F64) "{\"a\":1,}".toList o) ∧ (∀ o, ¬ Doc (F := F64) "{\"a\":00}".toList o) ∧
    ∀ o, ¬ Doc (F := F64) "{\"a\":1e400}".toList o :=
  ⟨((refused _).mp (by decide +kernel)).1, ((refused _).mp (by decide +kernel)).1,
    ((refused _).mp (by decide +kernel)).1⟩

end C69Documents
end GpsGen
