import Verif.Model.GeoText
import Verif.Lemmas.JsonText
import Verif.Lemmas.GeoJson
/-!
# Helper lemmas: JSON documents as text
-/

namespace GpsGen
variable {F : Type}

namespace Json
variable [GoFloat F] [JsonFloat F]

omit [JsonFloat F] in
mutual
/-- The tree that is read. -/
def tree : WVal F → GVal F
  | .null => .null
  | .str s => .str s
  | .bool b => .bool b
  | .int i => .num (lit i)
  | .num f => .num f
  | .arr l => .arr (trees l)
  | .obj m => .obj (asMap (entries m))
def trees : List (WVal F) → List (GVal F)
  | [] => []
  | v :: l => tree v :: trees l
def entries : List (String × WVal F) → GMap F
  | [] => []
  | (k, v) :: m => (k, tree v) :: entries m
end

mutual
/-- All integers are those of Go. -/
def WFits : WVal F → Prop
  | .int i => -2 ^ 63 ≤ i ∧ i < 2 ^ 63
  | .arr l => allFit l
  | .obj m => membersFit m
  | .null => True
  | .str _ => True
  | .bool _ => True
  | .num _ => True
def allFit : List (WVal F) → Prop
  | [] => True
  | v :: l => WFits v ∧ allFit l
def membersFit : List (String × WVal F) → Prop
  | [] => True
  | (_, v) :: m => WFits v ∧ membersFit m
end

/-- A character that begins a value. -/
def Begins (c : Char) : Prop :=
  c ≠ ' ' ∧ c ≠ '\t' ∧ c ≠ '\n' ∧ c ≠ '\r' ∧ c ≠ ']' ∧ c ≠ '}'

theorem ends_bracket (cs : List Char) : Ends (']' :: cs) := by
  intro c cs e; cases e; decide

theorem ends_nil : Ends [] := by
  intro c cs e; cases e

theorem num_begins (l : NumLit) : ∃ c cs, l.text = c :: cs ∧ Begins c ∧ c ≠ '[' ∧ c ≠ '{' := by
  obtain ⟨c, cs, e, hc⟩ := text_head l
  refine ⟨c, cs, e, ?_⟩
  rcases hc with rfl | ⟨d, rfl⟩
  · unfold Begins; decide
  · clear e; revert d; unfold Begins; decide

theorem text_begins (w : WVal F) (cs : List Char) (h : w.text = some cs) : ∃ c t, cs = c :: t ∧ Begins c := by
  cases w with
  | null => cases h; exact ⟨_, _, rfl, by unfold Begins; decide⟩
  | str s => cases h; exact ⟨_, _, rfl, by unfold Begins; decide⟩
  | bool b => cases b <;> cases h <;> exact ⟨_, _, rfl, by unfold Begins; decide⟩
  | int i =>
    rw [WVal.text] at h; cases h
    obtain ⟨c, t, e, hb, -⟩ := num_begins (NumLit.ofInt i)
    exact ⟨c, t, e, hb⟩
  | num f =>
    rw [WVal.text] at h
    obtain ⟨l, -, rfl⟩ := Option.map_eq_some_iff.mp h
    obtain ⟨c, t, e, hb, -⟩ := num_begins l
    exact ⟨c, t, e, hb⟩
  | arr l =>
    cases l with
    | nil => cases h; exact ⟨_, _, rfl, by unfold Begins; decide⟩
    | cons v l =>
      rw [WVal.text] at h
      split at h
      · cases h; exact ⟨_, _, rfl, by unfold Begins; decide⟩
      · cases h
  | obj m =>
    cases m with
    | nil => cases h; exact ⟨_, _, rfl, by unfold Begins; decide⟩
    | cons e m =>
      obtain ⟨k, v⟩ := e
      rw [WVal.text] at h
      split at h
      · cases h; exact ⟨_, _, rfl, by unfold Begins; decide⟩
      · cases h

theorem skip_begins {c : Char} (h : Begins c) (cs : List Char) : skipWs (c :: cs) = c :: cs :=
  skipWs_cons ⟨h.1, h.2.1, h.2.2.1, h.2.2.2.1⟩ cs

/-- A scalar is read as such. -/
theorem readTree_scalar (fuel : Nat) (c : Char) (cs : List Char) (h1 : c ≠ '[') (h2 : c ≠ '{') :
    readTree (F := F) (fuel + 1) (c :: cs) = (readVal (F := F) (c :: cs)).map fun r => (r.1.toGVal, r.2) := by
  unfold readTree
  split
  · rename_i e; cases e
  · rename_i e; exact absurd (List.cons.inj e).1 h1
  · rename_i e; exact absurd (List.cons.inj e).1 h2
  · rfl

theorem readTree_num (fuel : Nat) (l : NumLit) (f : F) (hl : JsonFloat.read l = some f) {rest : List Char}
    (h : Ends rest) : readTree (F := F) (fuel + 1) (l.text ++ rest) = some (.num f, rest) := by
  obtain ⟨c, cs, e, -, h1, h2⟩ := num_begins l
  have hr := (readVal_num l f hl h).2
  rw [e] at hr ⊢
  show readTree (fuel + 1) (c :: (cs ++ rest)) = _
  rw [readTree_scalar fuel c _ h1 h2]
  rw [show c :: cs ++ rest = c :: (cs ++ rest) from rfl] at hr
  rw [hr]; rfl

mutual
/-- **A value reads as it was written.** -/
theorem readTree_text (w : WVal F) (hw : WFits w) (cs : List Char) (h : w.text = some cs) (fuel : Nat)
    (hf : cs.length ≤ fuel) (rest : List Char) (hr : Ends rest) :
    readTree fuel (cs ++ rest) = some (tree w, rest) := by
  obtain ⟨c0, t0, hc0, -⟩ := text_begins w cs h
  obtain ⟨fuel, rfl⟩ : ∃ g, fuel = g + 1 := by
    cases fuel with
    | zero => rw [hc0] at hf; cases hf
    | succ g => exact ⟨g, rfl⟩
  cases w with
  | null =>
    cases h
    show readTree (fuel + 1) ('n' :: _) = _
    rw [readTree_scalar _ _ _ (by decide) (by decide), tree]
    rfl
  | str s =>
    cases h
    show readTree (fuel + 1) ('"' :: ((s.toList.flatMap escapeChar ++ ['"']) ++ rest)) = _
    rw [readTree_scalar _ _ _ (by decide) (by decide), tree]
    show ((readStr ((s.toList.flatMap escapeChar ++ ['"']) ++ rest)).map _).map _ = _
    rw [List.append_assoc]
    show ((readStr (s.toList.flatMap escapeChar ++ '"' :: rest)).map _).map _ = _
    rw [readStr_text]; rfl
  | bool b =>
    cases b
    · cases h
      show readTree (fuel + 1) ('f' :: _) = _
      rw [readTree_scalar _ _ _ (by decide) (by decide), tree]; rfl
    · cases h
      show readTree (fuel + 1) ('t' :: _) = _
      rw [readTree_scalar _ _ _ (by decide) (by decide), tree]; rfl
  | int i =>
    rw [WVal.text] at h; cases h
    rw [WFits] at hw
    rw [tree]
    exact readTree_num fuel _ _ (JsonFloat.read_int i hw.1 hw.2) hr
  | num f =>
    rw [WVal.text] at h
    obtain ⟨l, hl, rfl⟩ := Option.map_eq_some_iff.mp h
    rw [tree]
    exact readTree_num fuel _ _ (JsonFloat.read_write f l hl) hr
  | arr l =>
    cases l with
    | nil => cases h; rw [tree, trees]; rfl
    | cons v l =>
      rw [WVal.text] at h
      split at h
      case h_2 => cases h
      case h_1 a b ha hb =>
      cases h
      rw [WFits, allFit] at hw
      obtain ⟨c, t, hc, hbg⟩ := text_begins v a ha
      simp only [List.length_cons, List.length_append] at hf
      have hb0 : b ≠ [] := by
        cases l with
        | nil => cases hb; decide
        | cons x l =>
          rw [WVal.restText] at hb
          split at hb <;> cases hb
          simp
      have h1 := readTree_text v hw.1 a ha fuel (by omega) (b ++ rest) (rest_ends l b hb rest)
      have h2 := readRest_text l hw.2 b hb fuel (by rw [hc] at hf; simp at hf; omega) rest
      show readTree (fuel + 1) ('[' :: ((a ++ b) ++ rest)) = _
      rw [List.append_assoc]
      have hsk : skipWs (a ++ (b ++ rest)) = a ++ (b ++ rest) := by
        rw [hc]; exact skip_begins hbg _
      unfold readTree
      simp only
      rw [hsk]
      split
      · rename_i e
        rw [hc] at e
        exact absurd (List.cons.inj e).1 hbg.2.2.2.2.1
      · rw [h1]
        simp only
        rw [h2, tree, trees]
        rfl
  | obj m =>
    cases m with
    | nil => cases h; rw [tree, entries]; rfl
    | cons e m =>
      obtain ⟨k, v⟩ := e
      rw [WVal.text] at h
      split at h
      case h_2 => cases h
      case h_1 a b ha hb =>
      cases h
      rw [WFits, membersFit] at hw
      obtain ⟨c, t, hc, hbg⟩ := text_begins v a ha
      simp only [List.length_cons, List.length_append] at hf
      have h1 := readTree_text v hw.1 a ha fuel (by omega) (b ++ rest) (more_ends m b hb rest)
      have h2 := readMore_text m hw.2 b hb fuel (by omega) rest
      have hsk : skipWs (a ++ (b ++ rest)) = a ++ (b ++ rest) := by
        rw [hc]; exact skip_begins hbg _
      have hn := readName_text k (a ++ (b ++ rest))
      have e1 : jsonString k ++ ':' :: (a ++ b) ++ rest = jsonString k ++ ':' :: (a ++ (b ++ rest)) := by simp
      show readTree (fuel + 1) ('{' :: (jsonString k ++ ':' :: (a ++ b) ++ rest)) = _
      rw [e1]
      have hj : jsonString k ++ ':' :: (a ++ (b ++ rest)) =
        '"' :: (k.toList.flatMap escapeChar ++ ['"'] ++ ':' :: (a ++ (b ++ rest))) := rfl
      rw [hj] at hn ⊢
      unfold readTree
      simp only
      rw [skipWs_cons (by decide)]
      split
      · rename_i e; exact absurd (List.cons.inj e).1 (by decide)
      rw [hn]
      simp only
      rw [hsk, h1]
      simp only
      rw [h2, tree, entries]
      rfl
theorem rest_ends (l : List (WVal F)) (b : List Char) (h : WVal.restText l = some b) (rest : List Char) :
    Ends (b ++ rest) := by
  cases l with
  | nil => cases h; exact ends_bracket _
  | cons v l =>
    rw [WVal.restText] at h
    split at h <;> cases h
    exact ends_comma _
theorem more_ends (m : List (String × WVal F)) (b : List Char) (h : WVal.membersText m = some b) (rest : List Char) :
    Ends (b ++ rest) := by
  cases m with
  | nil => cases h; exact ends_brace _
  | cons e m =>
    obtain ⟨k, v⟩ := e
    rw [WVal.membersText] at h
    split at h <;> cases h
    exact ends_comma _
theorem readRest_text (l : List (WVal F)) (hl : allFit l) (b : List Char) (h : WVal.restText l = some b) (fuel : Nat)
    (hf : b.length ≤ fuel) (rest : List Char) : readRest fuel (b ++ rest) = some (trees l, rest) := by
  cases l with
  | nil =>
    cases h
    cases fuel with
    | zero => cases hf
    | succ fuel => rfl
  | cons v l =>
    rw [WVal.restText] at h
    split at h
    case h_2 => cases h
    case h_1 a b ha hb =>
    cases h
    rw [allFit] at hl
    simp only [List.length_cons, List.length_append] at hf
    cases fuel with
    | zero => cases hf
    | succ fuel =>
      obtain ⟨c, t, hc, hbg⟩ := text_begins v a ha
      have h1 := readTree_text v hl.1 a ha fuel (by omega) (b ++ rest) (rest_ends l b hb rest)
      have h2 := readRest_text l hl.2 b hb fuel (by omega) rest
      show readRest (fuel + 1) (',' :: ((a ++ b) ++ rest)) = _
      rw [List.append_assoc]
      have hsk : skipWs (a ++ (b ++ rest)) = a ++ (b ++ rest) := by
        rw [hc]; exact skip_begins hbg _
      unfold readRest
      rw [skipWs_cons (by decide)]
      simp only
      rw [hsk, h1]
      simp only
      rw [h2, trees]
      rfl
theorem readMore_text (m : List (String × WVal F)) (hm : membersFit m) (b : List Char)
    (h : WVal.membersText m = some b) (fuel : Nat) (hf : b.length ≤ fuel) (rest : List Char) :
    readMore fuel (b ++ rest) = some (entries m, rest) := by
  cases m with
  | nil =>
    cases h
    cases fuel with
    | zero => cases hf
    | succ fuel => rfl
  | cons e m =>
    obtain ⟨k, v⟩ := e
    rw [WVal.membersText] at h
    split at h
    case h_2 => cases h
    case h_1 a b ha hb =>
    cases h
    rw [membersFit] at hm
    simp only [List.length_cons, List.length_append] at hf
    cases fuel with
    | zero => cases hf
    | succ fuel =>
      obtain ⟨c, t, hc, hbg⟩ := text_begins v a ha
      have h1 := readTree_text v hm.1 a ha fuel (by omega) (b ++ rest) (more_ends m b hb rest)
      have h2 := readMore_text m hm.2 b hb fuel (by omega) rest
      have hsk : skipWs (a ++ (b ++ rest)) = a ++ (b ++ rest) := by
        rw [hc]; exact skip_begins hbg _
      have hn := readName_text k (a ++ (b ++ rest))
      have e1 : jsonString k ++ ':' :: (a ++ b) ++ rest = jsonString k ++ ':' :: (a ++ (b ++ rest)) := by simp
      show readMore (fuel + 1) (',' :: (jsonString k ++ ':' :: (a ++ b) ++ rest)) = _
      rw [e1]
      have hj : jsonString k ++ ':' :: (a ++ (b ++ rest)) =
        '"' :: (k.toList.flatMap escapeChar ++ ['"'] ++ ':' :: (a ++ (b ++ rest))) := rfl
      rw [hj] at hn ⊢
      unfold readMore
      rw [skipWs_cons (by decide)]
      simp only
      rw [skipWs_cons (by decide), hn]
      simp only
      rw [hsk, h1]
      simp only
      rw [h2, entries]
      rfl
end

/-- **A document reads as it was written.** -/
theorem readJson_text (w : WVal F) (hw : WFits w) (cs : List Char) (h : w.text = some cs) :
    readJson cs = some (tree w) := by
  obtain ⟨c, t, hc, hb⟩ := text_begins w cs h
  have h1 := readTree_text w hw cs h (cs.length + 1) (by omega) [] ends_nil
  rw [List.append_nil] at h1
  unfold readJson
  rw [show skipWs cs = cs by rw [hc]; exact skip_begins hb t, h1]
  rfl

/-! ## Which values have a text -/

theorem rest_writes (l : List (WVal F)) : (WVal.restText l).isSome = true ↔ ∀ v ∈ l, v.text.isSome = true := by
  induction l with
  | nil => simp [WVal.restText]
  | cons v l ih =>
    rw [WVal.restText, List.forall_mem_cons, ← ih]
    cases v.text <;> cases WVal.restText l <;> simp

theorem more_writes (m : List (String × WVal F)) :
    (WVal.membersText m).isSome = true ↔ ∀ e ∈ m, e.2.text.isSome = true := by
  induction m with
  | nil => simp [WVal.membersText]
  | cons e m ih =>
    obtain ⟨k, v⟩ := e
    rw [WVal.membersText, List.forall_mem_cons, ← ih]
    cases v.text <;> cases WVal.membersText m <;> simp

theorem arr_writes (l : List (WVal F)) : (WVal.arr l).text.isSome = true ↔ ∀ v ∈ l, v.text.isSome = true := by
  cases l with
  | nil => simp [WVal.text]
  | cons v l =>
    rw [WVal.text, List.forall_mem_cons, ← rest_writes]
    cases v.text <;> cases WVal.restText l <;> simp

theorem obj_writes (m : List (String × WVal F)) :
    (WVal.obj m).text.isSome = true ↔ ∀ e ∈ m, e.2.text.isSome = true := by
  cases m with
  | nil => simp [WVal.text]
  | cons e m =>
    obtain ⟨k, v⟩ := e
    rw [WVal.text, List.forall_mem_cons, ← more_writes]
    cases v.text <;> cases WVal.membersText m <;> simp

theorem num_writes (f : F) : (WVal.num f).text.isSome = true ↔ (JsonFloat.write f).isSome = true := by
  rw [WVal.text]
  cases JsonFloat.write f <;> simp

omit [GoFloat F] [JsonFloat F] in
theorem allFit_iff (l : List (WVal F)) : allFit l ↔ ∀ v ∈ l, WFits v := by
  induction l with
  | nil => simp [allFit]
  | cons v l ih => rw [allFit, List.forall_mem_cons, ih]

omit [GoFloat F] [JsonFloat F] in
theorem membersFit_iff (m : List (String × WVal F)) : membersFit m ↔ ∀ e ∈ m, WFits e.2 := by
  induction m with
  | nil => simp [membersFit]
  | cons e m ih =>
    obtain ⟨k, v⟩ := e
    rw [membersFit, List.forall_mem_cons, ih]

omit [JsonFloat F] in
theorem trees_eq (l : List (WVal F)) : trees l = l.map tree := by
  induction l with
  | nil => rfl
  | cons v l ih => rw [trees, ih, List.map_cons]

omit [JsonFloat F] in
theorem entries_eq (m : List (String × WVal F)) : entries m = m.map fun e => (e.1, tree e.2) := by
  induction m with
  | nil => rfl
  | cons e m ih =>
    obtain ⟨k, v⟩ := e
    rw [entries, ih, List.map_cons]

omit [JsonFloat F] in
theorem tree_arr (l : List (WVal F)) : tree (.arr l) = .arr (l.map tree) := by rw [tree, trees_eq]

omit [JsonFloat F] in
/-- The tree of a map: no key twice. -/
theorem tree_obj (m : List (String × WVal F)) (h : (m.map (·.1)).Nodup) :
    tree (.obj m) = .obj (m.map fun e => (e.1, tree e.2)) := by
  rw [tree, entries_eq]
  have := gfoldl_set_nodup (m.map fun e => (e.1, tree e.2)) [] (by
    simpa [List.map_map, Function.comp_def] using h)
  unfold asMap
  rw [this, List.nil_append]

/-! ## Sorting -/

omit [GoFloat F] [JsonFloat F]

theorem insert_perm {α : Type} (e : String × α) (m : List (String × α)) : (insertEntry e m).Perm (e :: m) := by
  induction m with
  | nil => exact List.Perm.refl _
  | cons x m ih =>
    unfold insertEntry
    split
    · exact List.Perm.refl _
    · exact (ih.cons x).trans (List.Perm.swap e x m)

theorem sort_perm {α : Type} (m : List (String × α)) : (sortEntries m).Perm m := by
  induction m with
  | nil => exact List.Perm.refl _
  | cons e m ih => exact (insert_perm e _).trans (ih.cons e)

theorem setEntry_fold {α : Type} (l acc : List (String × α)) (h : ((acc ++ l).map (·.1)).Nodup) :
    l.foldl (fun m e => setEntry m e.1 e.2) acc = acc ++ l := by
  induction l generalizing acc with
  | nil => simp
  | cons e l ih =>
    have hk : ¬ acc.any (fun x => x.1 == e.1) = true := by
      intro hc
      simp only [List.any_eq_true, beq_iff_eq] at hc
      obtain ⟨x, hx, he⟩ := hc
      simp only [List.map_append, List.map_cons, List.nodup_append] at h
      exact h.2.2 x.1 (List.mem_map_of_mem hx) e.1 (by simp) he
    have hs : setEntry acc e.1 e.2 = acc ++ [e] := by
      unfold setEntry
      rw [if_neg hk]
    rw [List.foldl_cons, hs, ih (acc ++ [e]) (by simpa using h)]
    simp

theorem gget_mem {m : GMap F} (h : (m.map (·.1)).Nodup) (k : String) (v : GVal F) :
    GMap.get? m k = some v ↔ (k, v) ∈ m := by
  induction m with
  | nil => simp [GMap.get?]
  | cons e m ih =>
    simp only [List.map_cons, List.nodup_cons] at h
    have ih := ih h.2
    by_cases he : e.1 = k
    · have : GMap.get? (e :: m) k = some e.2 := by simp [GMap.get?, he]
      rw [this]
      constructor
      · rintro ⟨⟩; rw [← he]; exact List.mem_cons_self
      · intro hm
        rcases List.mem_cons.mp hm with hm | hm
        · rw [← hm]
        · exact absurd (List.mem_map.mpr ⟨_, hm, he.symm⟩) h.1
    · have : GMap.get? (e :: m) k = GMap.get? m k := by simp [GMap.get?, he]
      rw [this, ih]
      constructor
      · exact List.mem_cons_of_mem _
      · intro hm
        rcases List.mem_cons.mp hm with hm | hm
        · exact absurd (congrArg Prod.fst hm.symm) he
        · exact hm

theorem gget_perm {m m' : GMap F} (hp : m'.Perm m) (h : (m.map (·.1)).Nodup) (k : String) :
    GMap.get? m' k = GMap.get? m k := by
  have h' : (m'.map (·.1)).Nodup := (hp.map _).nodup_iff.mpr h
  apply Option.ext
  intro v
  rw [gget_mem h', gget_mem h, hp.mem_iff]

end Json
end GpsGen
