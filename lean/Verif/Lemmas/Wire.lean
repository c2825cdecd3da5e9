import Verif.Model.Wire
import Mathlib.Tactic.Linarith
/-! # Lemmas about the wire format -/

namespace GpsGen

variable {F : Type} {α : Type}

/-! ## Primitives -/

theorem toUInt8_toNat (n : Nat) (h : n < 256) : n.toUInt8.toNat = n := by
  show (UInt8.ofNat n).toNat = n
  rw [UInt8.toNat_ofNat']; exact Nat.mod_eq_of_lt h

theorem putVarint_small {n : Nat} (h : n < 128) : putVarint n = [n.toUInt8] := by
  rw [putVarint, if_pos h]

theorem putVarint_big {n : Nat} (h : ¬ n < 128) :
    putVarint n = (n % 128 + 128).toUInt8 :: putVarint (n / 128) := by
  rw [putVarint, if_neg h]

theorem getVarintAux_put (k n : Nat) (rest : Bytes) (h : n < 2 * 128 ^ k) :
    getVarintAux k (putVarint n ++ rest) = some (n, rest) := by
  induction k generalizing n with
  | zero =>
    rw [putVarint_small (by omega)]
    simp only [List.singleton_append, getVarintAux]
    rw [toUInt8_toNat n (by omega), if_pos (by omega)]
  | succ k ih =>
    by_cases hs : n < 128
    · rw [putVarint_small hs]
      simp only [List.singleton_append, getVarintAux]
      rw [toUInt8_toNat n (by omega), if_pos hs]
    · rw [putVarint_big hs]
      simp only [List.cons_append, getVarintAux]
      have hb : n % 128 < 128 := Nat.mod_lt _ (by decide)
      rw [toUInt8_toNat _ (by omega), if_neg (by omega), ih (n / 128) (by
        rw [Nat.div_lt_iff_lt_mul (by decide)]; rw [pow_succ] at h; linarith)]
      simp only [Option.some.injEq, Prod.mk.injEq, and_true]
      omega

theorem getVarint_put (n : Nat) (rest : Bytes) (h : n < 2 ^ 64) :
    getVarint (putVarint n ++ rest) = some (n, rest) :=
  getVarintAux_put 9 n rest (by norm_num at h ⊢; exact h)

theorem putVarint_length_pos (n : Nat) : 0 < (putVarint n).length := by
  rw [putVarint]; split <;> simp

theorem getFixed_put (k n : Nat) (rest : Bytes) (h : n < 256 ^ k) :
    getFixed k (putFixed k n ++ rest) = some (n, rest) := by
  induction k generalizing n with
  | zero =>
    simp only [putFixed, List.nil_append, getFixed, Option.some.injEq, Prod.mk.injEq, and_true]
    simp at h; exact h.symm
  | succ k ih =>
    simp only [putFixed, List.cons_append, getFixed]
    rw [ih (n / 256) (by rw [Nat.div_lt_iff_lt_mul (by decide)]; rwa [pow_succ] at h)]
    have hb : n % 256 < 256 := Nat.mod_lt _ (by decide)
    rw [toUInt8_toNat _ hb]
    simp only [Option.some.injEq, Prod.mk.injEq, and_true]
    omega

/-! ## Records -/

/-- A record that can be written: valid field number, values in range. -/
def RecOk : Rec → Prop
  | (n, .varint v) => (1 ≤ n ∧ n < 2 ^ 29) ∧ v < 2 ^ 64
  | (n, .fixed64 v) => (1 ≤ n ∧ n < 2 ^ 29) ∧ v < 2 ^ 64
  | (n, .bytes _) => 1 ≤ n ∧ n < 2 ^ 29
  | (n, .fixed32 v) => (1 ≤ n ∧ n < 2 ^ 29) ∧ v < 2 ^ 32

theorem parseRec_print (r : Rec) (rest : Bytes) (h : RecOk r) (hl : (printRec r).length < 2 ^ 63) :
    parseRec (printRec r ++ rest) = some (r, rest) := by
  obtain ⟨n, v⟩ := r
  cases v with
  | varint v =>
    obtain ⟨⟨h1, h2⟩, h3⟩ := h
    simp only [printRec, List.append_assoc, parseRec]
    rw [getVarint_put _ _ (by omega)]
    simp only
    rw [if_pos (by omega), show n * 8 % 8 = 0 by omega, show n * 8 / 8 = n by omega]
    simp only [parseVal]
    rw [getVarint_put _ _ h3]
    rfl
  | fixed64 v =>
    obtain ⟨⟨h1, h2⟩, h3⟩ := h
    simp only [printRec, List.append_assoc, parseRec]
    rw [getVarint_put _ _ (by omega)]
    simp only
    rw [if_pos (by omega), show (n * 8 + 1) % 8 = 1 by omega, show (n * 8 + 1) / 8 = n by omega]
    simp only [parseVal]
    rw [getFixed_put 8 v _ (by norm_num at h3 ⊢; exact h3)]
    rfl
  | bytes b =>
    obtain ⟨h1, h2⟩ := h
    have hb : b.length < 2 ^ 63 := by
      simp only [printRec, List.length_append] at hl; omega
    simp only [printRec, List.append_assoc, parseRec]
    rw [getVarint_put _ _ (by omega)]
    simp only
    rw [if_pos (by omega), show (n * 8 + 2) % 8 = 2 by omega, show (n * 8 + 2) / 8 = n by omega]
    simp only [parseVal]
    rw [getVarint_put _ _ (by omega)]
    simp only
    rw [if_pos (by simp)]
    simp
  | fixed32 v =>
    obtain ⟨⟨h1, h2⟩, h3⟩ := h
    simp only [printRec, List.append_assoc, parseRec]
    rw [getVarint_put _ _ (by omega)]
    simp only
    rw [if_pos (by omega), show (n * 8 + 5) % 8 = 5 by omega, show (n * 8 + 5) / 8 = n by omega]
    simp only [parseVal]
    rw [getFixed_put 4 v _ (by norm_num at h3 ⊢; exact h3)]
    rfl

theorem printRec_length_pos (r : Rec) : 0 < (printRec r).length := by
  obtain ⟨n, v⟩ := r
  cases v <;> simp only [printRec, List.length_append] <;>
    exact Nat.lt_of_lt_of_le (putVarint_length_pos _) (Nat.le_add_right _ _)

theorem parseAux_print (rs : List Rec) (k : Nat) (hk : rs.length ≤ k) (h : ∀ r ∈ rs, RecOk r)
    (hl : ∀ r ∈ rs, (printRec r).length < 2 ^ 63) (tail : Bytes) (ts : List Rec)
    (ht : parseAux (k - rs.length) tail = some ts) : parseAux k (printRecs rs ++ tail) = some (rs ++ ts) := by
  induction rs generalizing k with
  | nil => simpa [printRecs] using ht
  | cons r rs ih =>
    obtain ⟨k, rfl⟩ : ∃ j, k = j + 1 := ⟨k - 1, by simp at hk; omega⟩
    have hp := parseRec_print r (printRecs rs ++ tail) (h r (by simp)) (hl r (by simp))
    have e : printRecs (r :: rs) ++ tail = printRec r ++ (printRecs rs ++ tail) := by
      simp [printRecs]
    rw [e]
    cases hc : printRec r ++ (printRecs rs ++ tail) with
    | nil =>
      have := congrArg List.length hc
      simp only [List.length_append, List.length_nil] at this
      have := printRec_length_pos r
      omega
    | cons b bs =>
      rw [hc] at hp
      simp only [parseAux]
      rw [hp]
      simp only
      rw [ih k (by simpa using hk) (fun r' hr => h r' (by simp [hr])) (fun r' hr => hl r' (by simp [hr]))
        (by simpa using ht)]
      rfl

theorem printRecs_length_le (rs : List Rec) : rs.length ≤ (printRecs rs).length := by
  induction rs with
  | nil => simp
  | cons r rs ih =>
    have e : printRecs (r :: rs) = printRec r ++ printRecs rs := by simp [printRecs]
    rw [e, List.length_append, List.length_cons]
    have := printRec_length_pos r
    omega

theorem printRec_le {r : Rec} {rs : List Rec} (h : r ∈ rs) : (printRec r).length ≤ (printRecs rs).length := by
  induction rs with
  | nil => simp at h
  | cons r' rs ih =>
    have e : printRecs (r' :: rs) = printRec r' ++ printRecs rs := by simp [printRecs]
    rw [e, List.length_append]
    rcases List.mem_cons.mp h with rfl | h
    · omega
    · have := ih h; omega

/-- What was written is read back. -/
theorem parseRecs_print (rs : List Rec) (h : ∀ r ∈ rs, RecOk r) (hl : (printRecs rs).length < 2 ^ 63) :
    parseRecs (printRecs rs) = some rs := by
  have := parseAux_print rs (printRecs rs).length (printRecs_length_le rs) h
    (fun r hr => lt_of_le_of_lt (printRec_le hr) hl) [] [] (by cases (printRecs rs).length - rs.length <;> rfl)
  simpa [parseRecs] using this

/-! ## Fields -/

@[simp] theorem sel_append (n : Nat) (a b : List Rec) : sel n (a ++ b) = sel n a ++ sel n b := by
  simp [sel]

theorem sel_field_same (n : Nat) (vs : List WireVal) : sel n (field n vs) = vs := by
  induction vs with
  | nil => rfl
  | cons v vs ih =>
    simp only [sel, field, List.map_cons, List.filter_cons, beq_self_eq_true, if_true, List.map_cons] at ih ⊢
    rw [ih]

theorem sel_field_ne {n k : Nat} (h : (k == n) = false) (vs : List WireVal) : sel n (field k vs) = [] := by
  induction vs with
  | nil => rfl
  | cons v vs ih =>
    simp only [sel, field, List.map_cons, List.filter_cons, h] at ih ⊢
    exact ih

@[simp] theorem sel_field (n k : Nat) (vs : List WireVal) : sel n (field k vs) = if k = n then vs else [] := by
  by_cases h : k = n
  · rw [if_pos h, h]; exact sel_field_same n vs
  · rw [if_neg h]; exact sel_field_ne (by simpa using h) vs

@[simp] theorem getDbl_vals [WireFloat F] (x : F) : getDbl (dblVals x) = some x := by
  unfold getDbl dblVals
  by_cases h : WireFloat.bits x = 0
  · rw [if_pos h]
    simp only [fixeds, List.filterMap_nil, List.getLast?_nil, Option.getD_none]
    rw [show (0 : Nat).toUInt64 = WireFloat.bits x by rw [h]; rfl, WireFloat.ofBits_bits]
  · rw [if_neg h]
    simp only [fixeds, List.filterMap_cons, List.filterMap_nil, List.getLast?_singleton, Option.getD_some]
    rw [show (WireFloat.bits x).toNat.toUInt64 = WireFloat.bits x from UInt64.ofNat_toNat, WireFloat.ofBits_bits]

/-- An `int64`. -/
def Int64Ok (i : Int) : Prop := -2 ^ 63 ≤ i ∧ i < 2 ^ 63

@[simp] theorem getInt_vals (i : Int) (h : Int64Ok i) : getInt (intVals i) = some i := by
  unfold getInt intVals
  obtain ⟨h1, h2⟩ := h
  by_cases h0 : i = 0
  · rw [if_pos h0]; subst h0; rfl
  · rw [if_neg h0]
    have e : (varints [.varint (i % 2 ^ 64).toNat]).getLast?.getD 0 = (i % 2 ^ 64).toNat := rfl
    simp only
    rw [e, Option.some.injEq]
    by_cases hc : (i % 2 ^ 64).toNat < 2 ^ 63
    · rw [if_pos hc]; omega
    · rw [if_neg hc]; omega

@[simp] theorem getBool_vals (b : Bool) : getBool (boolVals b) = some b := by cases b <;> rfl

@[simp] theorem getBytes_vals (b : Bytes) : getBytes (bytesVals b) = some b := by
  unfold getBytes bytesVals
  by_cases h : b = []
  · subst h; rfl
  · rw [if_neg h]; simp [blobs]

theorem utf8_valid (s : String) : String.fromUTF8? ⟨(utf8 s).toArray⟩ = some s := by
  have e : (⟨(utf8 s).toArray⟩ : ByteArray) = s.toByteArray := by
    unfold utf8; simp
  rw [e]
  unfold String.fromUTF8?
  rw [dif_pos s.isValidUTF8]
  rfl

@[simp] theorem getStr_vals (s : String) : getStr (strVals s) = some s := by
  unfold getStr strVals
  by_cases h : s = ""
  · subst h; rfl
  · rw [if_neg h]
    simp only [blobs, List.filterMap_cons, List.filterMap_nil, List.foldlM_cons, List.foldlM_nil]
    rw [utf8_valid]; rfl

/-- The printed form of a value is short enough. -/
def Short (vs : List WireVal) : Prop := ∀ b, .bytes b ∈ vs → b.length < 2 ^ 63

theorem getMsg_vals {enc : α → List Rec} {dec : List Rec → Option α} {o : Option α}
    (hok : ∀ a, o = some a → ∀ r ∈ enc a, RecOk r) (hs : Short (msgVals enc o))
    (h : ∀ a, o = some a → (printRecs (enc a)).length < 2 ^ 63 → dec (enc a) = some a) :
    getMsg dec (msgVals enc o) = some o := by
  cases o with
  | none => rfl
  | some a =>
    have hl : (printRecs (enc a)).length < 2 ^ 63 := hs _ (by simp [msgVals])
    simp only [getMsg, msgVals, blobs, List.filterMap_cons, List.filterMap_nil, List.mapM_cons, List.mapM_nil]
    rw [parseRecs_print _ (hok a rfl) hl]
    simp only [Option.bind_eq_bind, Option.bind_some, Option.pure_def, List.flatten_cons, List.flatten_nil,
      List.append_nil]
    rw [h a rfl hl]
    rfl

theorem getRep_vals {enc : α → List Rec} {dec : List Rec → Option α} {l : List α}
    (hok : ∀ a ∈ l, ∀ r ∈ enc a, RecOk r) (hs : Short (repVals enc l))
    (h : ∀ a ∈ l, (printRecs (enc a)).length < 2 ^ 63 → dec (enc a) = some a) :
    getRep dec (repVals enc l) = some l := by
  induction l with
  | nil => rfl
  | cons a l ih =>
    have hl : (printRecs (enc a)).length < 2 ^ 63 := hs _ (by simp [repVals])
    have ih' := ih (fun b hb => hok b (by simp [hb])) (fun b hb => hs b (by
      unfold repVals at hb ⊢; rw [List.map_cons]; exact List.mem_cons_of_mem _ hb)) (fun b hb => h b (by simp [hb]))
    unfold getRep at ih' ⊢
    have e : blobs (repVals enc (a :: l)) = printRecs (enc a) :: blobs (repVals enc l) := rfl
    rw [e, List.mapM_cons, ih', parseRecs_print _ (hok a (by simp)) hl]
    simp only [Option.bind_eq_bind, Option.bind_some]
    rw [h a (by simp) hl]
    rfl

/-! ## Records of fields are in range -/

/-- The values of a field are in range. -/
def ValOk : WireVal → Prop
  | .varint v => v < 2 ^ 64
  | .fixed64 v => v < 2 ^ 64
  | .bytes _ => True
  | .fixed32 v => v < 2 ^ 32

theorem field_ok {n : Nat} {vs : List WireVal} (hn : 1 ≤ n ∧ n < 2 ^ 29) (h : ∀ v ∈ vs, ValOk v) :
    ∀ r ∈ field n vs, RecOk r := by
  intro r hr
  obtain ⟨v, hv, rfl⟩ := List.mem_map.mp hr
  have := h v hv
  cases v with
  | varint v => exact ⟨hn, this⟩
  | fixed64 v => exact ⟨hn, this⟩
  | bytes b => exact hn
  | fixed32 v => exact ⟨hn, this⟩

theorem append_ok {a b : List Rec} (ha : ∀ r ∈ a, RecOk r) (hb : ∀ r ∈ b, RecOk r) : ∀ r ∈ a ++ b, RecOk r := by
  intro r hr
  rcases List.mem_append.mp hr with h | h
  · exact ha r h
  · exact hb r h

theorem dblVals_ok [WireFloat F] (x : F) : ∀ v ∈ dblVals x, ValOk v := by
  unfold dblVals
  split
  · simp
  · intro v hv
    rw [List.mem_singleton.mp hv]
    exact (WireFloat.bits x).toNat_lt

theorem intVals_ok (i : Int) : ∀ v ∈ intVals i, ValOk v := by
  unfold intVals
  split
  · simp
  · intro v hv
    rw [List.mem_singleton.mp hv]
    show (i % 2 ^ 64).toNat < 2 ^ 64
    omega

theorem boolVals_ok (b : Bool) : ∀ v ∈ boolVals b, ValOk v := by
  cases b
  · simp [boolVals]
  · intro v hv
    rw [show v = .varint 1 by simpa [boolVals] using hv]
    show 1 < 2 ^ 64
    norm_num

theorem bytesVals_ok (b : Bytes) : ∀ v ∈ bytesVals b, ValOk v := by
  unfold bytesVals
  split
  · simp
  · intro v hv
    rw [List.mem_singleton.mp hv]; trivial

theorem strVals_ok (s : String) : ∀ v ∈ strVals s, ValOk v := by
  unfold strVals
  split
  · simp
  · intro v hv
    rw [List.mem_singleton.mp hv]; trivial

theorem msgVals_ok (enc : α → List Rec) (o : Option α) : ∀ v ∈ msgVals enc o, ValOk v := by
  cases o with
  | none => simp [msgVals]
  | some a =>
    intro v hv
    rw [List.mem_singleton.mp hv]; trivial

theorem repVals_ok (enc : α → List Rec) (l : List α) : ∀ v ∈ repVals enc l, ValOk v := by
  intro v hv
  obtain ⟨a, -, rfl⟩ := List.mem_map.mp hv
  trivial

/-! ## Lengths -/

theorem printRecs_append (a b : List Rec) : printRecs (a ++ b) = printRecs a ++ printRecs b := by
  simp [printRecs]

theorem mem_of_sel {rs : List Rec} {n : Nat} {v : WireVal} (h : v ∈ sel n rs) : (n, v) ∈ rs := by
  obtain ⟨r, hr, rfl⟩ := List.mem_map.mp h
  obtain ⟨h1, h2⟩ := List.mem_filter.mp hr
  rw [← beq_iff_eq.mp h2]
  exact h1

theorem short_of_sel {rs : List Rec} (n : Nat) {vs : List WireVal} (hl : (printRecs rs).length < 2 ^ 63)
    (h : sel n rs = vs) : Short vs := by
  intro b hb
  rw [← h] at hb
  have := printRec_le (mem_of_sel hb)
  simp only [printRec, List.length_append] at this
  omega

end GpsGen
