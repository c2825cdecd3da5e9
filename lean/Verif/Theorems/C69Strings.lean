import Verif.Model.JsonText
/-!
# C69: strings written by other programs

C69 shows that strings which this program writes are read back. The snapshot and the documents may come from
other programs, which escape as they like. `string_grammar` describes all strings the reader accepts and what
it reads, by the grammar of RFC 8259 chapter 7 and the rule of encoding/json for surrogates that have no
partner.
-/

namespace GpsGen
namespace C69Strings

/-! ## Specification -/

/-- `ch` is a hexadecimal digit of value `v`, in either letter case. -/
def Digit (ch : Char) (v : Nat) : Prop :=
  ("0123456789abcdef".toList)[v]? = some ch ∨ ("0123456789ABCDEF".toList)[v]? = some ch

/-- `t` is the escape `\uXXXX` of the number `n`. -/
def IsCode (t : List Char) (n : Nat) : Prop :=
  ∃ a b c d va vb vc vd, t = ['\\', 'u', a, b, c, d] ∧ Digit a va ∧ Digit b vb ∧ Digit c vc ∧ Digit d vd ∧
    n = va * 4096 + vb * 256 + vc * 16 + vd

/-- The short escapes and their characters. -/
def shorts : List (Char × Nat) :=
  [('"', 0x22), ('\\', 0x5C), ('/', 0x2F), ('b', 8), ('f', 0x0C), ('n', 0x0A), ('r', 0x0D), ('t', 9)]

def High (n : Nat) : Prop := 0xD800 ≤ n ∧ n ≤ 0xDBFF
def Low (n : Nat) : Prop := 0xDC00 ≤ n ∧ n ≤ 0xDFFF

/-- The ways to write a character. -/
inductive Writes : Char → List Char → Prop
  | plain (c : Char) (h : 0x20 ≤ c.toNat) (hq : c ≠ '"') (hb : c ≠ '\\') : Writes c [c]
  | short (c e : Char) (h : (e, c.toNat) ∈ shorts) : Writes c ['\\', e]
  | code (c : Char) (t : List Char) (h : IsCode t c.toNat) : Writes c t
  | pair (c : Char) (t u : List Char) (n m : Nat) (ht : IsCode t n) (hu : IsCode u m) (hn : High n) (hm : Low m)
      (h : c.toNat = 0x10000 + (n - 0xD800) * 0x400 + (m - 0xDC00)) : Writes c (t ++ u)

/-- The text goes on with the escape of a low surrogate. -/
def GoesOnLow (ts : List Char) : Prop := ∃ u m rest, ts = u ++ rest ∧ IsCode u m ∧ Low m

/-- `Text ts cs`: the text `ts` between two quotes stands for the characters `cs`. A surrogate without partner
stands for U+FFFD. -/
inductive Text : List Char → List Char → Prop
  | nil : Text [] []
  | cons {c t ts cs} (h : Writes c t) (hs : Text ts cs) : Text (t ++ ts) (c :: cs)
  | lone {t n ts cs} (h : IsCode t n) (hn : High n ∧ ¬ GoesOnLow ts ∨ Low n) (hs : Text ts cs) :
      Text (t ++ ts) (Char.ofNat 0xFFFD :: cs)

/-! ## Proof -/

theorem charHex_iff (ch : Char) (v : Nat) : charHex ch = some v ↔ Digit ch v := by
  constructor
  · intro h
    have hc : ch = Char.ofNat ch.toNat := (Char.ofNat_toNat ch).symm
    have key : ∀ n < 128, ∀ v, charHex (Char.ofNat n) = some v → Digit (Char.ofNat n) v := by
      have : ∀ n : Fin 128, (match charHex (Char.ofNat n.val) with
          | none => true
          | some v => decide (("0123456789abcdef".toList)[v]? = some (Char.ofNat n.val) ∨
              ("0123456789ABCDEF".toList)[v]? = some (Char.ofNat n.val))) = true := by decide +kernel
      intro n hn v hv
      have := this ⟨n, hn⟩
      simp only [hv, decide_eq_true_eq] at this
      exact this
    have hlt : ch.toNat < 128 := by
      unfold charHex at h
      simp only at h
      split at h
      · omega
      · split at h
        · omega
        · split at h
          · omega
          · cases h
    rw [hc] at h ⊢
    exact key _ hlt v h
  · have key : ∀ v : Fin 16, charHex (("0123456789abcdef".toList)[v.val]?.getD ' ') = some v.val ∧
        charHex (("0123456789ABCDEF".toList)[v.val]?.getD ' ') = some v.val := by decide +kernel
    intro h
    have hv : v < 16 := by
      rcases h with h | h <;> exact (List.getElem?_eq_some_iff.mp h).1
    have := key ⟨v, hv⟩
    simp only at this
    rcases h with h | h
    · rw [h] at this; exact this.1
    · rw [h] at this; exact this.2

theorem hex4_iff (a b c d : Char) (n : Nat) : hex4 a b c d = some n ↔ IsCode ['\\', 'u', a, b, c, d] n := by
  unfold hex4
  constructor
  · intro h
    split at h
    · rename_i va vb vc vd ha hb hc hd
      cases h
      exact ⟨a, b, c, d, va, vb, vc, vd, rfl, (charHex_iff _ _).mp ha, (charHex_iff _ _).mp hb, (charHex_iff _ _).mp hc,
        (charHex_iff _ _).mp hd, rfl⟩
    · cases h
  · rintro ⟨a', b', c', d', va, vb, vc, vd, e, ha, hb, hc, hd, rfl⟩
    cases e
    rw [(charHex_iff _ _).mpr ha, (charHex_iff _ _).mpr hb, (charHex_iff _ _).mpr hc, (charHex_iff _ _).mpr hd]

theorem digit_lt {ch : Char} {v : Nat} (h : Digit ch v) : v < 16 := by
  rcases h with h | h <;> exact (List.getElem?_eq_some_iff.mp h).1

theorem code_lt {t : List Char} {n : Nat} (h : IsCode t n) : n < 65536 := by
  obtain ⟨a, b, c, d, va, vb, vc, vd, -, ha, hb, hc, hd, rfl⟩ := h
  have := digit_lt ha
  have := digit_lt hb
  have := digit_lt hc
  have := digit_lt hd
  omega

theorem code_form {t : List Char} {n : Nat} (h : IsCode t n) : ∃ a b c d, t = ['\\', 'u', a, b, c, d] ∧ hex4 a b c d = some n := by
  obtain ⟨a, b, c, d, va, vb, vc, vd, e, hr⟩ := h
  exact ⟨a, b, c, d, e, (hex4_iff _ _ _ _ _).mpr ⟨a, b, c, d, va, vb, vc, vd, rfl, hr⟩⟩

theorem code_unique {t : List Char} {n m : Nat} (h : IsCode t n) (h' : IsCode t m) : n = m := by
  obtain ⟨a, b, c, d, rfl, h1⟩ := code_form h
  obtain ⟨a', b', c', d', e, h2⟩ := code_form h'
  cases e
  rw [h1] at h2
  exact Option.some.inj h2

theorem unescape_iff (e c : Char) : unescape e = some c ↔ (e, c.toNat) ∈ shorts := by
  constructor
  · intro h
    unfold unescape at h
    split at h <;> first | (cases h; decide) | cases h
  · intro h
    have hc : c = Char.ofNat c.toNat := (Char.ofNat_toNat c).symm
    generalize c.toNat = n at *
    subst hc
    simp only [shorts, List.mem_cons, Prod.mk.injEq, List.not_mem_nil, or_false] at h
    rcases h with ⟨rfl, rfl⟩ | ⟨rfl, rfl⟩ | ⟨rfl, rfl⟩ | ⟨rfl, rfl⟩ | ⟨rfl, rfl⟩ | ⟨rfl, rfl⟩ | ⟨rfl, rfl⟩ | ⟨rfl, rfl⟩ <;> rfl

/-- What `readEsc` accepts. -/
theorem readEsc_cases {cs cs' : List Char} {e : Esc} (h : readEsc cs = some (e, cs')) :
    (∃ t n, '\\' :: cs = t ++ cs' ∧ IsCode t n ∧ e = .code n) ∨
    (∃ x c, cs = x :: cs' ∧ unescape x = some c ∧ e = .char c) := by
  unfold readEsc at h
  split at h
  · rename_i a b c d cs0
    rw [Option.map_eq_some_iff] at h
    obtain ⟨n, hn, h⟩ := h
    cases h
    exact Or.inl ⟨['\\', 'u', a, b, c, d], n, rfl, (hex4_iff _ _ _ _ _).mp hn, rfl⟩
  · rename_i x cs0 _
    rw [Option.map_eq_some_iff] at h
    obtain ⟨c, hc, h⟩ := h
    cases h
    exact Or.inr ⟨x, c, rfl, hc, rfl⟩
  · cases h

theorem readEsc_code {t : List Char} {n : Nat} (h : IsCode t n) (cs : List Char) :
    ∃ t', t = '\\' :: t' ∧ readEsc (t' ++ cs) = some (.code n, cs) ∧ t'.length = 5 := by
  obtain ⟨a, b, c, d, rfl, h1⟩ := code_form h
  refine ⟨['u', a, b, c, d], rfl, ?_, rfl⟩
  show readEsc ('u' :: a :: b :: c :: d :: cs) = _
  simp only [readEsc, h1, Option.map_some]

theorem readEsc_short {e c : Char} (h : unescape e = some c) (cs : List Char) : readEsc (e :: cs) = some (.char c, cs) := by
  have hu : e ≠ 'u' := by
    rintro rfl
    cases h
  unfold readEsc
  split
  · rename_i heq
    cases heq
    exact absurd rfl hu
  · rename_i heq
    cases heq
    rw [h]; rfl
  · rename_i heq
    cases heq

theorem readLow_some {cs cs' : List Char} {m : Nat} (h : readLow cs = some (m, cs')) :
    ∃ u, cs = u ++ cs' ∧ IsCode u m ∧ Low m := by
  unfold readLow at h
  split at h
  · split at h
    · rename_i hr
      split at h
      · rename_i hm
        cases h
        rcases readEsc_cases hr with ⟨t, n, h1, h2, h3⟩ | ⟨x, c, -, -, h3⟩
        · cases h3
          exact ⟨t, h1, h2, by unfold Low; omega⟩
        · cases h3
      · cases h
    · cases h
  · cases h

theorem readLow_code {u : List Char} {m : Nat} (h : IsCode u m) (hm : Low m) (cs : List Char) :
    readLow (u ++ cs) = some (m, cs) := by
  obtain ⟨t', rfl, hr, -⟩ := readEsc_code h cs
  show readLow ('\\' :: (t' ++ cs)) = _
  unfold readLow
  simp only [hr]
  unfold Low at hm
  rw [if_pos (by omega)]

theorem readLow_none {ts : List Char} (h : ¬ GoesOnLow ts) : readLow ts = none := by
  cases hr : readLow ts with
  | none => rfl
  | some r =>
    obtain ⟨m, cs'⟩ := r
    obtain ⟨u, h1, h2, h3⟩ := readLow_some hr
    exact absurd ⟨u, m, cs', h1, h2, h3⟩ h

/-- No quote in an escape. -/
theorem code_no_quote {u : List Char} {m : Nat} (h : IsCode u m) : '"' ∉ u := by
  obtain ⟨a, b, c, d, va, vb, vc, vd, rfl, ha, hb, hc, hd, -⟩ := h
  have nq : ∀ ch v, Digit ch v → ch ≠ '"' := by
    rintro ch v (h | h) rfl
    · exact absurd (List.mem_of_getElem? h) (by decide)
    · exact absurd (List.mem_of_getElem? h) (by decide)
  have := nq _ _ ha
  have := nq _ _ hb
  have := nq _ _ hc
  have := nq _ _ hd
  simp only [List.mem_cons, List.not_mem_nil, or_false, not_or]
  exact ⟨by decide, by decide, Ne.symm ‹a ≠ '"'›, Ne.symm ‹b ≠ '"'›, Ne.symm ‹c ≠ '"'›, Ne.symm ‹d ≠ '"'›⟩

/-- The quote after the text does not complete an escape. -/
theorem goesOn_quote (ts rest : List Char) : GoesOnLow (ts ++ '"' :: rest) ↔ GoesOnLow ts := by
  constructor
  · rintro ⟨u, m, r, h1, h2, h3⟩
    rcases List.append_eq_append_iff.mp h1 with ⟨as, e1, e2⟩ | ⟨bs, e1, e2⟩
    · cases as with
      | nil => exact ⟨u, m, [], by simp at e1; simp [e1], h2, h3⟩
      | cons a as =>
        rw [List.cons_append, List.cons.injEq] at e2
        exact absurd (by rw [e1, ← e2.1]; simp) (code_no_quote h2)
    · exact ⟨u, m, bs, e1, h2, h3⟩
  · rintro ⟨u, m, r, h1, h2, h3⟩
    exact ⟨u, m, r ++ '"' :: rest, by rw [h1, List.append_assoc], h2, h3⟩

theorem toNat_ofNat {n : Nat} (h : n.isValidChar) : (Char.ofNat n).toNat = n := by
  unfold Char.ofNat
  rw [dif_pos h]
  rfl

theorem char_code_valid (c : Char) : ¬ (0xD800 ≤ c.toNat ∧ c.toNat < 0xE000) := by
  have := c.valid
  unfold UInt32.isValidChar Nat.isValidChar at this
  show ¬ (0xD800 ≤ c.val.toNat ∧ c.val.toNat < 0xE000)
  omega

theorem isSurr_iff (n : Nat) : isSurr n = true ↔ High n ∨ Low n := by
  unfold isSurr High Low
  rw [decide_eq_true_eq]
  omega

/-- Accepting. -/
theorem read_text {ts cs : List Char} (h : Text ts cs) (rest : List Char) :
    ∀ fuel, ts.length < fuel → readStrAux fuel (ts ++ '"' :: rest) = some (cs, rest) := by
  induction h with
  | nil =>
    intro fuel hf
    obtain ⟨f, rfl⟩ : ∃ f, fuel = f + 1 := ⟨fuel - 1, by simp at hf; omega⟩
    simp [readStrAux]
  | @cons c t ts cs hw hs ih =>
    intro fuel hf
    obtain ⟨f, rfl⟩ : ∃ f, fuel = f + 1 := ⟨fuel - 1, by omega⟩
    rw [List.length_append] at hf
    rw [List.append_assoc]
    cases hw with
    | plain h hq hb =>
      show readStrAux (f + 1) (c :: (ts ++ '"' :: rest)) = _
      rw [readStrAux, if_neg hq, if_neg hb, if_neg (by omega), ih f (by simp at hf; omega)]
      rfl
    | short e h =>
      show readStrAux (f + 1) ('\\' :: e :: (ts ++ '"' :: rest)) = _
      rw [readStrAux, if_neg (by decide), if_pos rfl, readEsc_short ((unescape_iff _ _).mpr h)]
      simp only
      rw [ih f (by simp at hf; omega)]
      rfl
    | code _ h =>
      obtain ⟨t', rfl, hr, hl⟩ := readEsc_code h (ts ++ '"' :: rest)
      show readStrAux (f + 1) ('\\' :: (t' ++ (ts ++ '"' :: rest))) = _
      rw [readStrAux, if_neg (by decide), if_pos rfl, hr]
      have : ¬ isSurr c.toNat = true := by
        rw [isSurr_iff]
        have := char_code_valid c
        unfold High Low
        omega
      simp only [this]
      rw [if_neg (by simp), ih f (by simp at hf; omega), Char.ofNat_toNat]
      rfl
    | pair t u n m ht hu hn hm h =>
      rw [List.append_assoc]
      obtain ⟨t', rfl, hr, hl⟩ := readEsc_code ht (u ++ (ts ++ '"' :: rest))
      show readStrAux (f + 1) ('\\' :: (t' ++ (u ++ (ts ++ '"' :: rest)))) = _
      rw [readStrAux, if_neg (by decide), if_pos rfl, hr]
      have h1 : isSurr n = true := (isSurr_iff n).mpr (Or.inl hn)
      have h2 : n < 0xDC00 := by unfold High at hn; omega
      simp only [h1, if_true, if_pos h2, readLow_code hu hm]
      rw [ih f (by simp at hf; omega), ← h, Char.ofNat_toNat]
      rfl
  | @lone t n ts cs hc hn hs ih =>
    intro fuel hf
    obtain ⟨f, rfl⟩ : ∃ f, fuel = f + 1 := ⟨fuel - 1, by omega⟩
    rw [List.length_append] at hf
    rw [List.append_assoc]
    obtain ⟨t', rfl, hr, hl⟩ := readEsc_code hc (ts ++ '"' :: rest)
    show readStrAux (f + 1) ('\\' :: (t' ++ (ts ++ '"' :: rest))) = _
    rw [readStrAux, if_neg (by decide), if_pos rfl, hr]
    have h1 : isSurr n = true := (isSurr_iff n).mpr (hn.imp (·.1) id)
    have h2 : (if n < 0xDC00 then readLow (ts ++ '"' :: rest) else none) = none := by
      split
      · rcases hn with ⟨-, hg⟩ | hl
        · exact readLow_none (fun hc => hg ((goesOn_quote _ _).mp hc))
        · unfold Low at hl; omega
      · rfl
    simp only [h1, if_true, h2]
    rw [ih f (by simp at hf; omega)]
    rfl

/-- Only that. -/
theorem text_read : ∀ (fuel : Nat) (cs : List Char) (out rest : List Char), readStrAux fuel cs = some (out, rest) →
    ∃ ts, cs = ts ++ '"' :: rest ∧ Text ts out := by
  intro fuel
  induction fuel with
  | zero => intro cs out rest h; cases cs <;> cases h
  | succ f ih =>
    intro cs out rest h
    cases cs with
    | nil => cases h
    | cons c cs =>
      rw [readStrAux] at h
      split at h
      · rename_i hq
        cases h
        exact ⟨[], by rw [hq]; rfl, .nil⟩
      · rename_i hq
        split at h
        · rename_i hb
          subst hb
          split at h
          · cases h
          · rename_i ch cs1 hr
            rw [Option.map_eq_some_iff] at h
            obtain ⟨⟨o, r⟩, h1, h2⟩ := h
            cases h2
            obtain ⟨ts, e, ht⟩ := ih _ _ _ h1
            rcases readEsc_cases hr with ⟨t, n, -, -, h3⟩ | ⟨x, c', e2, e3, h3⟩
            · cases h3
            · cases h3
              exact ⟨['\\', x] ++ ts, by rw [e2, e]; rfl, .cons (.short _ _ ((unescape_iff _ _).mp e3)) ht⟩
          · rename_i n cs1 hr
            rcases readEsc_cases hr with ⟨t, n', e1, e2, h3⟩ | ⟨x, c', -, -, h3⟩
            rotate_left
            · cases h3
            cases h3
            split at h
            · rename_i hsur
              have hsur := (isSurr_iff n).mp hsur
              split at h
              · rename_i m cs2 hl
                split at hl
                rotate_left
                · cases hl
                rename_i hlt
                obtain ⟨u, e3, e4, e5⟩ := readLow_some hl
                rw [Option.map_eq_some_iff] at h
                obtain ⟨⟨o, r⟩, h1, h2⟩ := h
                cases h2
                obtain ⟨ts, e, ht⟩ := ih _ _ _ h1
                have hh : High n := by
                  rcases hsur with h | h
                  · exact h
                  · unfold Low at h; omega
                refine ⟨(t ++ u) ++ ts, by rw [e1, e3, e]; simp, .cons (.pair _ t u n m e2 e4 hh e5 ?_) ht⟩
                unfold High at hh
                unfold Low at e5
                rw [toNat_ofNat]
                unfold Nat.isValidChar
                omega
              · rename_i hl
                rw [Option.map_eq_some_iff] at h
                obtain ⟨⟨o, r⟩, h1, h2⟩ := h
                cases h2
                obtain ⟨ts, e, ht⟩ := ih _ _ _ h1
                refine ⟨t ++ ts, by rw [e1, e, List.append_assoc], .lone e2 ?_ ht⟩
                rcases hsur with hh | hh
                · refine Or.inl ⟨hh, ?_⟩
                  rw [if_pos (by unfold High at hh; omega)] at hl
                  rintro ⟨u, m, r', h5, h6, h7⟩
                  rw [e, h5, List.append_assoc, readLow_code h6 h7] at hl
                  cases hl
                · exact Or.inr hh
            · rename_i hsur
              rw [isSurr_iff] at hsur
              rw [Option.map_eq_some_iff] at h
              obtain ⟨⟨o, r⟩, h1, h2⟩ := h
              cases h2
              obtain ⟨ts, e, ht⟩ := ih _ _ _ h1
              have hlt := code_lt e2
              refine ⟨t ++ ts, by rw [e1, e, List.append_assoc], .cons (.code _ t ?_) ht⟩
              rw [toNat_ofNat]
              · exact e2
              · unfold High Low at hsur
                unfold Nat.isValidChar
                omega
        · rename_i hb
          split at h
          · cases h
          · rename_i h32
            rw [Option.map_eq_some_iff] at h
            obtain ⟨⟨o, r⟩, h1, h2⟩ := h
            cases h2
            obtain ⟨ts, e, ht⟩ := ih _ _ _ h1
            exact ⟨[c] ++ ts, by rw [e]; rfl, .cons (.plain c (by omega) hq hb) ht⟩

/-- **C69, strings of other programs.** After an opening quote the reader reads the string `s` and stops before
`rest` exactly if the text up to the closing quote is a JSON string standing for `s`. -/
theorem string_grammar (cs : List Char) (s : String) (rest : List Char) :
    readStr cs = some (s, rest) ↔ ∃ ts, cs = ts ++ '"' :: rest ∧ Text ts s.toList := by
  unfold readStr
  rw [Option.map_eq_some_iff]
  constructor
  · rintro ⟨⟨o, r⟩, h1, h2⟩
    cases h2
    obtain ⟨ts, e, ht⟩ := text_read _ _ _ _ h1
    exact ⟨ts, e, by rw [String.toList_ofList]; exact ht⟩
  · rintro ⟨ts, rfl, ht⟩
    refine ⟨(s.toList, rest), read_text ht rest _ (by simp; omega), ?_⟩
    rw [String.ofList_toList]

/-! ## Examples -/

/-- Clef and snowman as other programs write them. -/
example : readStr "\\uD834\\udd1E\\u2603/\\/\", 1".toList = some ("𝄞☃//", ", 1".toList) := by decide +kernel

/-- A high surrogate followed by a private character, not by a low one. -/
example : readStr "\\ud83d\\uE000\"".toList = some (String.ofList [Char.ofNat 0xFFFD, Char.ofNat 0xE000], []) := by
  decide +kernel

example : Text "\\ud83d\\uE000".toList [Char.ofNat 0xFFFD, Char.ofNat 0xE000] := by
  have : readStr "\\ud83d\\uE000\"".toList = some (String.ofList [Char.ofNat 0xFFFD, Char.ofNat 0xE000], []) := by
    decide +kernel
  obtain ⟨ts, h1, h2⟩ := (string_grammar _ _ _).mp this
  rw [String.toList_ofList] at h2
  have e : ts = "\\ud83d\\uE000".toList := by
    have := congrArg List.dropLast h1
    simp only [List.dropLast_concat] at this
    exact this.symm
  rw [← e]; exact h2

end C69Strings
end GpsGen
