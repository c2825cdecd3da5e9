import Verif.Model.JsonText
import Verif.Lemmas.Wire
/-!
# Reading the JSON text that was written
-/

namespace GpsGen
namespace Json

variable {F : Type}

/-! ## Numbers -/

theorem charDigit_digitChar (d : Fin 10) : charDigit (digitChar d) = some d := by
  revert d; decide

theorem digitsNat_snoc (ds : List (Fin 10)) (d : Fin 10) : digitsNat (ds ++ [d]) = 10 * digitsNat ds + d.val := by
  simp [digitsNat]

theorem digitsNat_natDigits (n : Nat) : digitsNat (natDigits n) = n := by
  induction n using Nat.strongRecOn with
  | ind n ih =>
    unfold natDigits
    split
    · rename_i h
      simp [digitsNat, Fin.ofNat, Nat.mod_eq_of_lt h]
    · rename_i h
      rw [digitsNat_snoc, ih (n / 10) (by omega)]
      simp [Fin.ofNat]
      omega

/-- Decimal digits do not begin with zero, except for zero. -/
theorem natDigits_head (n : Nat) : ∃ d ds, natDigits n = d :: ds ∧ (d = 0 → ds = []) := by
  induction n using Nat.strongRecOn with
  | ind n ih =>
    unfold natDigits
    split
    · exact ⟨_, [], rfl, fun _ => rfl⟩
    · rename_i h
      obtain ⟨d, ds, e, hd⟩ := ih (n / 10) (by omega)
      refine ⟨d, ds ++ [Fin.ofNat 10 n], by rw [e]; rfl, fun h0 => ?_⟩
      have := digitsNat_natDigits (n / 10)
      rw [e, h0, hd h0] at this
      simp [digitsNat] at this
      omega

/-- The text after a number does not go on with it. -/
def Ends (rest : List Char) : Prop :=
  ∀ c cs, rest = c :: cs → charDigit c = none ∧ c ≠ '.' ∧ c ≠ 'e' ∧ c ≠ 'E'

theorem spanDigits_append (ds : List (Fin 10)) (rest : List Char)
    (h : ∀ c cs, rest = c :: cs → charDigit c = none) : spanDigits (ds.map digitChar ++ rest) = (ds, rest) := by
  induction ds with
  | nil =>
    cases rest with
    | nil => rfl
    | cons c cs =>
      show spanDigits (c :: cs) = _
      unfold spanDigits
      rw [h c cs rfl]
  | cons d ds ih =>
    show spanDigits (digitChar d :: (ds.map digitChar ++ rest)) = _
    unfold spanDigits
    rw [charDigit_digitChar]
    simp only [ih]

theorem readExp_none {rest : List Char} (h : Ends rest) : readExp rest = some (none, rest) := by
  unfold readExp
  split
  · exact absurd rfl (h _ _ rfl).2.2.1
  · exact absurd rfl (h _ _ rfl).2.2.2
  · rfl

theorem readExpDigits_text (neg : Bool) (n : Nat) {rest : List Char} (h : Ends rest) :
    readExpDigits neg (natText n ++ rest) = some (some (if neg then -(n : Int) else n), rest) := by
  unfold readExpDigits natText
  rw [spanDigits_append _ _ (fun c cs e => (h c cs e).1)]
  obtain ⟨d, ds, e, -⟩ := natDigits_head n
  have hn := digitsNat_natDigits n
  rw [e] at hn ⊢
  simp only [hn]

theorem readFrac_text (frac : List (Fin 10)) {rest : List Char} (h : ∀ c cs, rest = c :: cs → charDigit c = none)
    (hd : ∀ c cs, rest = c :: cs → c ≠ '.') :
    readFrac (fracText frac ++ rest) = some (frac, rest) := by
  cases frac with
  | nil =>
    show readFrac rest = _
    unfold readFrac
    split
    · exact absurd rfl (hd _ _ rfl)
    · rfl
  | cons d ds =>
    show readFrac ('.' :: ((d :: ds).map digitChar ++ rest)) = _
    unfold readFrac
    simp only
    rw [spanDigits_append _ _ h]

theorem readExp_text (exp : Option Int) {rest : List Char} (h : Ends rest) :
    readExp (expText exp ++ rest) = some (exp, rest) := by
  cases exp with
  | none => exact readExp_none h
  | some e =>
    by_cases he : e < 0
    · simp only [expText, if_pos he]
      show readExpDigits true (natText e.natAbs ++ rest) = _
      rw [readExpDigits_text true _ h, if_pos rfl]
      rw [show (-(e.natAbs : Int)) = e by omega]
    · simp only [expText, if_neg he]
      show readExpDigits false (natText e.natAbs ++ rest) = _
      rw [readExpDigits_text false _ h, if_neg (by decide)]
      rw [show (e.natAbs : Int) = e by omega]

theorem exp_head (exp : Option Int) {rest : List Char} (h : Ends rest) (c : Char) (cs : List Char)
    (e : expText exp ++ rest = c :: cs) :
    charDigit c = none ∧ c ≠ '.' := by
  cases exp with
  | none => exact ⟨(h c cs e).1, (h c cs e).2.1⟩
  | some x =>
    obtain rfl : 'e' = c := (List.cons.inj e).1
    decide

theorem frac_head (frac : List (Fin 10)) (rest : List Char) (h : ∀ c cs, rest = c :: cs → charDigit c = none) (c : Char)
    (cs : List Char) (e : fracText frac ++ rest = c :: cs) :
    charDigit c = none := by
  cases frac with
  | nil => exact h c cs e
  | cons d ds =>
    obtain rfl : '.' = c := (List.cons.inj e).1
    decide

theorem readUnsigned_text (neg : Bool) (l : NumLit) (hn : l.neg = neg) {rest : List Char} (h : Ends rest) :
    readUnsigned neg (natText l.int ++ (fracText l.frac ++ (expText l.exp ++ rest))) = some (l, rest) := by
  unfold readUnsigned natText
  rw [spanDigits_append _ _ (fun c cs e => frac_head _ _ (fun c cs e => (exp_head _ h c cs e).1) c cs e)]
  obtain ⟨d, ds, e, hz⟩ := natDigits_head l.int
  have hd := digitsNat_natDigits l.int
  rw [e] at hd ⊢
  simp only
  rw [if_neg (fun hc => hc.2 (hz hc.1)), readFrac_text _ (fun c cs e => (exp_head _ h c cs e).1)
    (fun c cs e => (exp_head _ h c cs e).2)]
  simp only
  rw [readExp_text _ h, hd, ← hn]

theorem natText_head (n : Nat) : ∃ d cs, natText n = digitChar d :: cs := by
  obtain ⟨d, ds, e, -⟩ := natDigits_head n
  exact ⟨d, ds.map digitChar, by unfold natText; rw [e]; rfl⟩

theorem digitChar_ne (d : Fin 10) : digitChar d ≠ '-' ∧ digitChar d ≠ 'n' ∧ digitChar d ≠ 't' ∧ digitChar d ≠ 'f' ∧
    digitChar d ≠ '"' ∧ digitChar d ≠ ' ' ∧ digitChar d ≠ '\t' ∧ digitChar d ≠ '\n' ∧ digitChar d ≠ '\r' := by
  revert d; decide

/-- **A number reads as it was written.** -/
theorem readNum_text (l : NumLit) {rest : List Char} (h : Ends rest) : readNum (l.text ++ rest) = some (l, rest) := by
  unfold NumLit.text
  rw [List.append_assoc, List.append_assoc, List.append_assoc]
  cases hn : l.neg with
  | true => exact readUnsigned_text true l hn h
  | false =>
    rw [if_neg (by decide), List.nil_append]
    unfold readNum
    split
    · rename_i cs e
      obtain ⟨d, t, ht⟩ := natText_head l.int
      rw [ht] at e
      exact absurd (List.cons.inj e).1 (digitChar_ne d).1
    · exact readUnsigned_text false l hn h

/-- The first character of a number. -/
theorem text_head (l : NumLit) : ∃ c cs, l.text = c :: cs ∧ (c = '-' ∨ ∃ d, c = digitChar d) := by
  unfold NumLit.text
  cases l.neg with
  | true => exact ⟨'-', _, rfl, Or.inl rfl⟩
  | false =>
    obtain ⟨d, t, ht⟩ := natText_head l.int
    rw [if_neg (by decide), List.nil_append, ht]
    exact ⟨digitChar d, _, rfl, Or.inr ⟨d, rfl⟩⟩

/-! ## Strings -/

theorem charHex_hexChar (n : Nat) (h : n < 16) : charHex (hexChar n) = some n := by
  have : ∀ m : Fin 16, charHex (hexChar m.val) = some m.val := by decide +kernel
  exact this ⟨n, h⟩

theorem readEsc_u (n : Nat) (h : n < 65536) (cs : List Char) :
    readEsc ('u' :: hexChar (n / 4096 % 16) :: hexChar (n / 256 % 16) :: hexChar (n / 16 % 16) :: hexChar (n % 16) :: cs)
      = some (.code n, cs) := by
  unfold readEsc hex4
  simp only
  rw [charHex_hexChar _ (Nat.mod_lt _ (by decide)), charHex_hexChar _ (Nat.mod_lt _ (by decide)),
    charHex_hexChar _ (Nat.mod_lt _ (by decide)), charHex_hexChar _ (Nat.mod_lt _ (by decide))]
  simp only [Option.map_some, Option.some.injEq, Prod.mk.injEq, and_true, Esc.code.injEq]
  omega

theorem escapedU_small {c : Char} (h : escapedU c = true) : c.toNat < 0xD800 := by
  unfold escapedU at h
  simp only [Bool.or_eq_true, decide_eq_true_eq, beq_iff_eq] at h
  rcases h with ((((h | h) | h) | h) | h) | h
  · omega
  · subst h; decide
  · subst h; decide
  · subst h; decide
  · omega
  · omega

theorem escape_length (c : Char) : 1 ≤ (escapeChar c).length := by
  unfold escapeChar escapeU
  repeat' split
  all_goals simp

theorem readStrAux_char (fuel : Nat) (c : Char) (cs : List Char) :
    readStrAux (fuel + 1) (escapeChar c ++ cs) = (readStrAux fuel cs).map fun r => (c :: r.1, r.2) := by
  unfold escapeChar
  split
  · rename_i h; subst h; rfl
  split
  · rename_i h; subst h; rfl
  split
  · rename_i h; subst h; rfl
  split
  · rename_i h; subst h; rfl
  split
  · rename_i h; subst h; rfl
  split
  · rename_i h
    have hs := escapedU_small h
    show readStrAux (fuel + 1) ('\\' :: _) = _
    rw [readStrAux.eq_3, if_neg (by decide), if_pos rfl]
    rw [show ([  'u', hexChar (c.toNat / 4096 % 16), hexChar (c.toNat / 256 % 16), hexChar (c.toNat / 16 % 16),
      hexChar (c.toNat % 16)].append cs) = 'u' :: hexChar (c.toNat / 4096 % 16) :: hexChar (c.toNat / 256 % 16) ::
      hexChar (c.toNat / 16 % 16) :: hexChar (c.toNat % 16) :: cs from rfl, readEsc_u c.toNat (by omega)]
    simp only
    rw [if_neg (by simp [isSurr]; omega), Char.ofNat_toNat]
  · rename_i h1 h2 _ _ _ h3
    show readStrAux (fuel + 1) (c :: cs) = _
    rw [readStrAux.eq_3, if_neg h1, if_neg h2, if_neg]
    intro h4
    apply h3
    unfold escapedU
    simp [h4]

theorem readStrAux_text (s : List Char) (fuel : Nat) (h : s.length < fuel) (rest : List Char) :
    readStrAux fuel (s.flatMap escapeChar ++ '"' :: rest) = some (s, rest) := by
  induction s generalizing fuel with
  | nil =>
    cases fuel with
    | zero => cases h
    | succ fuel => rfl
  | cons c s ih =>
    cases fuel with
    | zero => cases h
    | succ fuel =>
      rw [List.flatMap_cons, List.append_assoc, readStrAux_char, ih fuel (by simpa using h)]
      rfl

theorem flatMap_length (s : List Char) : s.length ≤ (s.flatMap escapeChar).length := by
  induction s with
  | nil => exact Nat.le_refl _
  | cons c s ih =>
    have := escape_length c
    simp only [List.flatMap_cons, List.length_append, List.length_cons]
    omega

/-- **A string reads as it was written.** -/
theorem readStr_text (s : String) (rest : List Char) :
    readStr (s.toList.flatMap escapeChar ++ '"' :: rest) = some (s, rest) := by
  unfold readStr
  rw [readStrAux_text s.toList _ (by
    have := flatMap_length s.toList
    simp only [List.length_append, List.length_cons]
    omega)]
  simp

/-! ## Values and objects -/

theorem skipWs_cons {c : Char} (h : c ≠ ' ' ∧ c ≠ '\t' ∧ c ≠ '\n' ∧ c ≠ '\r') (cs : List Char) :
    skipWs (c :: cs) = c :: cs := by
  unfold skipWs
  rw [if_neg]
  rintro (e | e | e | e)
  · exact h.1 e
  · exact h.2.1 e
  · exact h.2.2.1 e
  · exact h.2.2.2 e

variable [GoFloat F] [JsonFloat F]

/-- The value can be written and is read back: integers fit into 64 bits. -/
def Fits : PVal F → Prop
  | .int i | .int32 i | .int64 i => -2 ^ 63 ≤ i ∧ i < 2 ^ 63
  | _ => True

theorem readVal_num (l : NumLit) (f : F) (hl : JsonFloat.read l = some f) {rest : List Char} (h : Ends rest) :
    skipWs (l.text ++ rest) = l.text ++ rest ∧ readVal (F := F) (l.text ++ rest) = some (.num f, rest) := by
  obtain ⟨c, cs, e, hc⟩ := text_head l
  have hne : c ≠ 'n' ∧ c ≠ 't' ∧ c ≠ 'f' ∧ c ≠ '"' ∧ c ≠ ' ' ∧ c ≠ '\t' ∧ c ≠ '\n' ∧ c ≠ '\r' := by
    rcases hc with rfl | ⟨d, rfl⟩
    · decide
    · exact (digitChar_ne d).2
  refine ⟨by rw [e]; exact skipWs_cons hne.2.2.2.2 _, ?_⟩
  have hr := readNum_text l h
  rw [e] at hr ⊢
  unfold readVal
  split
  · rename_i e; exact absurd (List.cons.inj e).1 hne.1
  · rename_i e; exact absurd (List.cons.inj e).1 hne.2.1
  · rename_i e; exact absurd (List.cons.inj e).1 hne.2.2.1
  · rename_i e; exact absurd (List.cons.inj e).1 hne.2.2.2.1
  · rw [hr]
    simp only [hl, Option.map_some]

/-- **A value reads as it was written**, integers as floats. -/
theorem readVal_text (v : PVal F) (hv : Fits v) (cs : List Char) (h : v.text = some cs) {rest : List Char}
    (hr : Ends rest) : ∃ j, v.toJson = some j ∧ skipWs (cs ++ rest) = cs ++ rest ∧
      readVal (F := F) (cs ++ rest) = some (j, rest) := by
  cases v with
  | null => cases h; exact ⟨_, rfl, rfl, rfl⟩
  | str s =>
    cases h
    refine ⟨_, rfl, rfl, ?_⟩
    show (readStr ((s.toList.flatMap escapeChar ++ ['"']) ++ rest)).map _ = _
    rw [List.append_assoc]
    show (readStr (s.toList.flatMap escapeChar ++ '"' :: rest)).map _ = _
    rw [readStr_text]; rfl
  | bool b => cases b <;> cases h <;> exact ⟨_, rfl, rfl, rfl⟩
  | int i => cases h; exact ⟨_, rfl, readVal_num _ _ (JsonFloat.read_int i hv.1 hv.2) hr⟩
  | int32 i => cases h; exact ⟨_, rfl, readVal_num _ _ (JsonFloat.read_int i hv.1 hv.2) hr⟩
  | int64 i => cases h; exact ⟨_, rfl, readVal_num _ _ (JsonFloat.read_int i hv.1 hv.2) hr⟩
  | float f =>
    cases hw : JsonFloat.write f with
    | none => rw [PVal.text, hw] at h; cases h
    | some l =>
      rw [PVal.text, hw] at h
      cases h
      exact ⟨_, rfl, readVal_num _ _ (JsonFloat.read_write f l hw) hr⟩
  | other n => cases h

theorem ends_comma (cs : List Char) : Ends (',' :: cs) := by
  intro c cs e; cases e; decide

theorem ends_brace (cs : List Char) : Ends ('}' :: cs) := by
  intro c cs e; cases e; decide

omit [GoFloat F] [JsonFloat F] in
theorem readName_text (k : String) (cs : List Char) :
    readName (jsonString k ++ ':' :: cs) = some (k, cs) := by
  unfold jsonString
  show readName ('"' :: ((k.toList.flatMap escapeChar ++ ['"']) ++ ':' :: cs)) = _
  unfold readName
  simp only [List.append_assoc, List.cons_append, List.nil_append]
  rw [readStr_text]
  rfl

omit [JsonFloat F] in
theorem marshal_cons (e : String × PVal F) (m : PMap F) (j : JVal F) (o : JObj F) (hj : e.2.toJson = some j)
    (ho : PMap.marshal m = some o) : PMap.marshal (e :: m) = some ((e.1, j) :: o) := by
  unfold PMap.marshal at ho ⊢
  rw [List.mapM_cons, hj, ho]
  rfl

/-- **The members of an object read as they were written.** -/
theorem readMembers_text (m : PMap F) (hne : m ≠ []) (hf : ∀ e ∈ m, Fits e.2) (cs : List Char)
    (h : m.members = some cs) (fuel : Nat) (hl : m.length ≤ fuel) (rest : List Char) :
    ∃ o, m.marshal = some o ∧ readMembers (F := F) fuel (cs ++ '}' :: rest) = some (o, rest) := by
  induction m generalizing cs fuel with
  | nil => exact absurd rfl hne
  | cons e m ih =>
    cases fuel with
    | zero => cases hl
    | succ fuel =>
      cases m with
      | nil =>
        unfold PMap.members at h
        obtain ⟨v, hv, rfl⟩ := Option.map_eq_some_iff.mp h
        obtain ⟨j, hj, hw, hr⟩ := readVal_text e.2 (hf e (by simp)) v hv (ends_brace rest)
        refine ⟨[(e.1, j)], marshal_cons e [] j [] hj rfl, ?_⟩
        unfold readMembers
        rw [List.append_assoc, show (jsonString e.1 ++ (':' :: v ++ '}' :: rest)) =
          '"' :: (e.1.toList.flatMap escapeChar ++ ['"'] ++ (':' :: v ++ '}' :: rest)) from rfl,
          skipWs_cons (by decide)]
        have hn := readName_text e.1 (v ++ '}' :: rest)
        rw [show (jsonString e.1 ++ ':' :: (v ++ '}' :: rest)) =
          '"' :: (e.1.toList.flatMap escapeChar ++ ['"'] ++ (':' :: v ++ '}' :: rest)) from rfl] at hn
        rw [hn]
        simp only
        rw [hw, hr]
        simp only
        rw [skipWs_cons (by decide)]
        rfl
      | cons e' m =>
        unfold PMap.members at h
        cases hv : e.2.text with
        | none => rw [hv] at h; cases h
        | some v =>
          cases hm : PMap.members (e' :: m) with
          | none => rw [hv, hm] at h; cases h
          | some r =>
            rw [hv, hm] at h
            cases h
            obtain ⟨j, hj, hw, hr⟩ := readVal_text e.2 (hf e (by simp)) v hv (ends_comma (r ++ '}' :: rest))
            obtain ⟨o, ho, hro⟩ := ih nofun (fun x hx => hf x (List.mem_cons_of_mem _ hx)) r hm fuel
              (by simpa using hl)
            refine ⟨_, marshal_cons e _ j o hj ho, ?_⟩
            unfold readMembers
            have hcs : jsonString e.1 ++ ':' :: (v ++ ',' :: r) ++ '}' :: rest =
                jsonString e.1 ++ ':' :: (v ++ (',' :: (r ++ '}' :: rest))) := by simp
            have hn := readName_text e.1 (v ++ (',' :: (r ++ '}' :: rest)))
            rw [hcs]
            rw [show (jsonString e.1 ++ ':' :: (v ++ (',' :: (r ++ '}' :: rest)))) =
              '"' :: (e.1.toList.flatMap escapeChar ++ ['"'] ++ ':' :: (v ++ (',' :: (r ++ '}' :: rest)))) from rfl] at hn ⊢
            rw [skipWs_cons (by decide), hn]
            simp only
            rw [hw, hr]
            simp only
            rw [skipWs_cons (by decide)]
            simp only [hro, Option.map_some]

theorem members_length (m : PMap F) (cs : List Char) (h : m.members = some cs) : m.length ≤ cs.length := by
  induction m generalizing cs with
  | nil => exact Nat.zero_le _
  | cons e m ih =>
    cases m with
    | nil =>
      unfold PMap.members at h
      obtain ⟨v, hv, rfl⟩ := Option.map_eq_some_iff.mp h
      simp [jsonString]
    | cons e' m =>
      unfold PMap.members at h
      cases hv : e.2.text with
      | none => rw [hv] at h; cases h
      | some v =>
        cases hm : PMap.members (e' :: m) with
        | none => rw [hv, hm] at h; cases h
        | some r =>
          rw [hv, hm] at h
          cases h
          have := ih r hm
          simp only [List.length_cons, List.length_append, jsonString] at this ⊢
          omega

theorem members_head (e : String × PVal F) (m : PMap F) (cs : List Char) (h : PMap.members (e :: m) = some cs) :
    ∃ t, cs = '"' :: t := by
  cases m with
  | nil =>
    unfold PMap.members at h
    obtain ⟨v, hv, rfl⟩ := Option.map_eq_some_iff.mp h
    exact ⟨_, rfl⟩
  | cons e' m =>
    unfold PMap.members at h
    split at h
    · cases h; exact ⟨_, rfl⟩
    · cases h

/-- **A document reads as it was written.** -/
theorem readDoc_text (m : PMap F) (hf : ∀ e ∈ m, Fits e.2) (cs : List Char) (h : m.text = some cs) :
    ∃ o, m.marshal = some o ∧ readDoc (F := F) cs = .object o := by
  unfold PMap.text at h
  obtain ⟨t, ht, rfl⟩ := Option.map_eq_some_iff.mp h
  cases m with
  | nil =>
    cases ht
    exact ⟨[], rfl, rfl⟩
  | cons e m =>
    have hl := members_length _ _ ht
    obtain ⟨o, ho, hr⟩ := readMembers_text (e :: m) nofun hf t ht ((t ++ ['}']).length + 1)
      (by simp only [List.length_append]; omega) []
    refine ⟨o, ho, ?_⟩
    obtain ⟨t', rfl⟩ := members_head e m t ht
    unfold readDoc
    rw [skipWs_cons (by decide)]
    simp only
    unfold readObject
    rw [List.cons_append, skipWs_cons (by decide)]
    rw [List.cons_append] at hr
    show (match readMembers (F := F) _ _ with
      | some (o, cs) => if skipWs cs = [] then RawProps.object o else .invalid
      | none => .invalid) = _
    rw [hr]
    rfl

/-- **A document reads as it was written, as bytes.** -/
theorem readProps_text (m : PMap F) (hf : ∀ e ∈ m, Fits e.2) (cs : List Char) (h : m.text = some cs) :
    ∃ o, m.marshal = some o ∧ readProps (F := F) (utf8 (String.ofList cs)) = .object o := by
  obtain ⟨o, ho, hr⟩ := readDoc_text m hf cs h
  refine ⟨o, ho, ?_⟩
  unfold readProps
  rw [if_neg, utf8_valid]
  · simp only [String.toList_ofList, hr]
  · intro h0
    have : String.ofList cs = "" := by
      have h1 : (String.ofList cs).utf8ByteSize = 0 := by
        exact h0
      exact String.utf8ByteSize_eq_zero_iff.mp h1
    unfold PMap.text at h
    obtain ⟨t, -, rfl⟩ := Option.map_eq_some_iff.mp h
    have := congrArg String.toList this
    simp at this

end Json
end GpsGen
