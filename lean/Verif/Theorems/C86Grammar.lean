import Verif.Theorems.C69Documents
import Verif.Model.GeoText
/-!
# C86: GeoJSON texts written by other programs

The reader of GeoJSON documents accepts exactly the JSON texts of RFC 8259, with any nesting, white space and
spelling, and reads the value they stand for; of members with the same name the last one counts. Everything
else is an error of `Decode`.

As in the model (`Model/GeoText.lean`), nesting is not limited, and a number out of range is an error wherever it stands;
encoding/json stops at depth 10000 and does not look at numbers in members that it skips.
-/

namespace GpsGen
namespace C86Grammar
open C69Strings (Text)
open C69Documents
open Json

variable {F : Type} [GoFloat F] [JsonFloat F]

/-! ## Specification -/

mutual
/-- `Tree t v`: the text `t` stands for the value `v`. -/
inductive Tree : List Char → GVal F → Prop
  | null : Tree "null".toList .null
  | true : Tree "true".toList (.bool true)
  | false : Tree "false".toList (.bool false)
  | str {t s} (h : Text t (String.toList s)) : Tree ('"' :: (t ++ ['"'])) (.str s)
  | num {t l f} (h : NumText t l) (hf : JsonFloat.read l = some f) : Tree t (.num f)
  /-- `[ ]` -/
  | arr0 {w} (h : Ws w) : Tree ('[' :: (w ++ [']'])) (.arr [])
  /-- `[ v , … ]` -/
  | arr {w t v cs l} (h : Ws w) (ht : Tree t v) (hs : Tail cs l) : Tree ('[' :: (w ++ (t ++ (cs ++ [']'])))) (.arr (v :: l))
  /-- `{ }` -/
  | obj0 {w} (h : Ws w) : Tree ('{' :: (w ++ ['}'])) (.obj [])
  /-- `{ "k" : v , … }` -/
  | obj {w1 w2 w3 kt t cs k v m} (h1 : Ws w1) (h2 : Ws w2) (h3 : Ws w3) (hk : Text kt (String.toList k)) (ht : Tree t v)
      (hs : MTail cs m) :
      Tree ('{' :: (w1 ++ '"' :: (kt ++ '"' :: (w2 ++ ':' :: (w3 ++ (t ++ (cs ++ ['}']))))))) (.obj (asMap ((k, v) :: m)))
/-- What follows an element of an array. -/
inductive Tail : List Char → List (GVal F) → Prop
  | nil {w} (h : Ws w) : Tail w []
  | cons {w1 w2 t v cs l} (h1 : Ws w1) (h2 : Ws w2) (ht : Tree t v) (hs : Tail cs l) :
      Tail (w1 ++ ',' :: (w2 ++ (t ++ cs))) (v :: l)
/-- What follows a member of an object. -/
inductive MTail : List Char → GMap F → Prop
  | nil {w} (h : Ws w) : MTail w []
  | cons {w0 w1 w2 w3 kt t cs k v m} (h0 : Ws w0) (h1 : Ws w1) (h2 : Ws w2) (h3 : Ws w3) (hk : Text kt (String.toList k))
      (ht : Tree t v) (hs : MTail cs m) :
      MTail (w0 ++ ',' :: (w1 ++ '"' :: (kt ++ '"' :: (w2 ++ ':' :: (w3 ++ (t ++ cs)))))) ((k, v) :: m)
end

/-- A JSON text with white space around it. -/
def JsonDoc (cs : List Char) (v : GVal F) : Prop := ∃ w1 t w2, cs = w1 ++ (t ++ w2) ∧ Ws w1 ∧ Ws w2 ∧ Tree t v

/-- The last member with a name. -/
def lastOf (m : GMap F) (k : String) : Option (GVal F) := (m.reverse.find? (fun e => e.1 == k)).map (·.2)

/-! ## Reading gives a text of the grammar -/

theorem tree_of_val {t : List Char} {v : JVal F} (h : ValText t v) : Tree t v.toGVal := by
  cases h with
  | null => exact .null
  | true => exact .true
  | false => exact .false
  | str t s h => exact .str h
  | num t l f h hf => exact .num h hf

theorem trees_read (fuel : Nat) :
    (∀ (cs r : List Char) (v : GVal F), readTree fuel cs = some (v, r) → ∃ t, cs = t ++ r ∧ Tree t v) ∧
    (∀ (cs r : List Char) (l : List (GVal F)), readRest fuel cs = some (l, r) → ∃ b, cs = b ++ ']' :: r ∧ Tail b l) ∧
    (∀ (cs r : List Char) (m : GMap F), readMore fuel cs = some (m, r) → ∃ b, cs = b ++ '}' :: r ∧ MTail b m) := by
  induction fuel with
  | zero =>
    refine ⟨fun cs r v h => ?_, fun cs r l h => ?_, fun cs r m h => ?_⟩
    · unfold readTree at h; cases h
    · unfold readRest at h; cases h
    · unfold readMore at h; cases h
  | succ f ih =>
    obtain ⟨ih1, ih2, ih3⟩ := ih
    refine ⟨fun cs r v h => ?_, fun cs r l h => ?_, fun cs r m h => ?_⟩
    · unfold readTree at h
      split at h
      · rename_i e; cases e
      · rename_i f' cs' e
        cases e
        obtain ⟨w, hw, e1⟩ := skipWs_eq cs'
        split at h
        · rename_i cs1 hsk
          cases h
          exact ⟨'[' :: (w ++ [']']), by rw [e1, hsk]; simp, .arr0 hw⟩
        · split at h
          · cases h
          · rename_i v' cs1 hv
            obtain ⟨t, e2, ht⟩ := ih1 _ _ _ hv
            rw [Option.map_eq_some_iff] at h
            obtain ⟨⟨l, r'⟩, h1, h2⟩ := h
            cases h2
            obtain ⟨b, e3, hb⟩ := ih2 _ _ _ h1
            exact ⟨'[' :: (w ++ (t ++ (b ++ [']']))), by rw [e1, e2, e3]; simp, .arr hw ht hb⟩
      · rename_i f' cs' e
        cases e
        obtain ⟨w, hw, e1⟩ := skipWs_eq cs'
        split at h
        · rename_i cs1 hsk
          cases h
          exact ⟨'{' :: (w ++ ['}']), by rw [e1, hsk]; simp, .obj0 hw⟩
        · split at h
          · cases h
          · rename_i k cs1 hk
            obtain ⟨kt, w2, hw2, hkt, e2⟩ := readName_some hk
            obtain ⟨w3, hw3, e3⟩ := skipWs_eq cs1
            split at h
            · cases h
            · rename_i v' cs2 hv
              obtain ⟨t, e4, ht⟩ := ih1 _ _ _ hv
              rw [Option.map_eq_some_iff] at h
              obtain ⟨⟨m, r'⟩, h1, h2⟩ := h
              cases h2
              obtain ⟨b, e5, hb⟩ := ih3 _ _ _ h1
              exact ⟨_, by rw [e1, e2, e3, e4, e5]; simp, .obj hw hw2 hw3 hkt ht hb⟩
      · rw [Option.map_eq_some_iff] at h
        obtain ⟨⟨v', r'⟩, h1, h2⟩ := h
        cases h2
        obtain ⟨t, e, ht⟩ := readVal_some h1
        exact ⟨t, e, tree_of_val ht⟩
    · unfold readRest at h
      obtain ⟨w, hw, e1⟩ := skipWs_eq cs
      split at h
      · rename_i cs1 hsk
        cases h
        exact ⟨w, by rw [e1, hsk], .nil hw⟩
      · rename_i cs1 hsk
        obtain ⟨w2, hw2, e2⟩ := skipWs_eq cs1
        split at h
        · cases h
        · rename_i v' cs2 hv
          obtain ⟨t, e3, ht⟩ := ih1 _ _ _ hv
          rw [Option.map_eq_some_iff] at h
          obtain ⟨⟨l', r'⟩, h1, h2⟩ := h
          cases h2
          obtain ⟨b, e4, hb⟩ := ih2 _ _ _ h1
          exact ⟨_, by rw [e1, hsk, e2, e3, e4]; simp, .cons hw hw2 ht hb⟩
      · cases h
    · unfold readMore at h
      obtain ⟨w, hw, e1⟩ := skipWs_eq cs
      split at h
      · rename_i cs1 hsk
        cases h
        exact ⟨w, by rw [e1, hsk], .nil hw⟩
      · rename_i cs1 hsk
        obtain ⟨w1, hw1, e2⟩ := skipWs_eq cs1
        split at h
        · cases h
        · rename_i k cs2 hk
          obtain ⟨kt, w2, hw2, hkt, e3⟩ := readName_some hk
          obtain ⟨w3, hw3, e4⟩ := skipWs_eq cs2
          split at h
          · cases h
          · rename_i v' cs3 hv
            obtain ⟨t, e5, ht⟩ := ih1 _ _ _ hv
            rw [Option.map_eq_some_iff] at h
            obtain ⟨⟨m', r'⟩, h1, h2⟩ := h
            cases h2
            obtain ⟨b, e6, hb⟩ := ih3 _ _ _ h1
            exact ⟨_, by rw [e1, hsk, e2, e3, e4, e5, e6]; simp, .cons hw hw1 hw2 hw3 hkt ht hb⟩
      · cases h

/-! ## Texts of the grammar are read -/

/-- The first character. -/
theorem tree_head {t : List Char} {v : GVal F} (h : Tree t v) : ∃ c cs, t = c :: cs ∧
    ¬ (c = ' ' ∨ c = '\t' ∨ c = '\n' ∨ c = '\r') ∧ c ≠ ']' := by
  cases h with
  | null => exact ⟨_, _, rfl, by decide, by decide⟩
  | true => exact ⟨_, _, rfl, by decide, by decide⟩
  | false => exact ⟨_, _, rfl, by decide, by decide⟩
  | str h => exact ⟨'"', _, rfl, by decide, by decide⟩
  | num h hf =>
    obtain ⟨c, cs, e, hc⟩ := num_head h
    refine ⟨c, cs, e, ?_⟩
    rcases hc with rfl | ⟨d, rfl⟩
    · decide
    · exact (by decide : ∀ d : Fin 10, ¬ (digitChar d = ' ' ∨ digitChar d = '\t' ∨ digitChar d = '\n' ∨
        digitChar d = '\r') ∧ digitChar d ≠ ']') d
  | arr0 h => exact ⟨'[', _, rfl, by decide, by decide⟩
  | arr _ _ _ => exact ⟨'[', _, rfl, by decide, by decide⟩
  | obj0 h => exact ⟨'{', _, rfl, by decide, by decide⟩
  | obj _ _ _ _ _ _ => exact ⟨'{', _, rfl, by decide, by decide⟩

theorem ends_of {w : List Char} (hw : Ws w) {r : List Char} (hr : Ends r) : Ends (w ++ r) := by
  cases w with
  | nil => exact hr
  | cons y w =>
    intro x xs e
    have : y = x := (List.cons.inj e).1
    subst this
    rcases hw y (by simp) with rfl | rfl | rfl | rfl <;> decide

theorem ends_char {c : Char} (hc : c = ',' ∨ c = '}' ∨ c = ']') (cs : List Char) : Ends (c :: cs) := by
  intro x xs e
  have : c = x := (List.cons.inj e).1
  subst this
  rcases hc with rfl | rfl | rfl <;> decide

theorem tail_ends {cs : List Char} {l : List (GVal F)} (h : Tail cs l) (r : List Char) : Ends (cs ++ ']' :: r) := by
  cases h with
  | nil h => exact ends_of h (ends_char (by simp) _)
  | cons h1 _ _ _ =>
    rw [List.append_assoc]
    exact ends_of h1 (ends_char (by simp) _)

theorem mtail_ends {cs : List Char} {m : GMap F} (h : MTail cs m) (r : List Char) : Ends (cs ++ '}' :: r) := by
  cases h with
  | nil h => exact ends_of h (ends_char (by simp) _)
  | cons h1 _ _ _ _ _ _ =>
    rw [List.append_assoc]
    exact ends_of h1 (ends_char (by simp) _)

theorem readTree_scalar (fuel : Nat) (c : Char) (cs : List Char) (h1 : c ≠ '[') (h2 : c ≠ '{') :
    readTree (F := F) (fuel + 1) (c :: cs) = (readVal (F := F) (c :: cs)).map fun r => (r.1.toGVal, r.2) := by
  unfold readTree
  split
  · rename_i e; cases e
  · rename_i e; exact absurd (List.cons.inj e).1 h1
  · rename_i e; exact absurd (List.cons.inj e).1 h2
  · rfl

/-- A scalar. -/
theorem read_scalar {t : List Char} {v : JVal F} (h : ValText t v) {rest : List Char} (hr : Ends rest) (fuel : Nat) :
    readTree (fuel + 1) (t ++ rest) = some (v.toGVal, rest) := by
  have hv := readVal_of h hr
  have hh : ∃ c cs, t = c :: cs ∧ c ≠ '[' ∧ c ≠ '{' := by
    cases h with
    | null => exact ⟨_, _, rfl, by decide, by decide⟩
    | true => exact ⟨_, _, rfl, by decide, by decide⟩
    | false => exact ⟨_, _, rfl, by decide, by decide⟩
    | str t s h => exact ⟨'"', _, rfl, by decide, by decide⟩
    | num t l f h hf =>
      obtain ⟨c, cs, e, hc⟩ := num_head h
      refine ⟨c, cs, e, ?_⟩
      rcases hc with rfl | ⟨d, rfl⟩
      · decide
      · exact (by decide : ∀ d : Fin 10, digitChar d ≠ '[' ∧ digitChar d ≠ '{') d
  obtain ⟨c, cs, e, h1, h2⟩ := hh
  rw [e, List.cons_append] at hv ⊢
  rw [readTree_scalar fuel c _ h1 h2, hv]
  rfl

theorem trees_of (n : Nat) :
    (∀ (t : List Char) (v : GVal F), t.length ≤ n → Tree t v → ∀ fuel, t.length ≤ fuel → ∀ r, Ends r →
      readTree fuel (t ++ r) = some (v, r)) ∧
    (∀ (cs : List Char) (l : List (GVal F)), cs.length ≤ n → Tail cs l → ∀ fuel, cs.length < fuel → ∀ r,
      readRest fuel (cs ++ ']' :: r) = some (l, r)) ∧
    (∀ (cs : List Char) (m : GMap F), cs.length ≤ n → MTail cs m → ∀ fuel, cs.length < fuel → ∀ r,
      readMore fuel (cs ++ '}' :: r) = some (m, r)) := by
  induction n with
  | zero =>
    refine ⟨fun t v hn ht => ?_, fun cs l hn hs fuel hf r => ?_, fun cs m hn hs fuel hf r => ?_⟩
    · obtain ⟨c, cs, e, -⟩ := tree_head ht
      rw [e] at hn
      simp at hn
    · obtain ⟨f, rfl⟩ : ∃ f, fuel = f + 1 := ⟨fuel - 1, by omega⟩
      cases hs with
      | nil hw =>
        unfold readRest
        rw [skipWs_append hw, skipWs_stop (by decide)]
        rfl
      | cons _ _ _ _ => simp at hn
    · obtain ⟨f, rfl⟩ : ∃ f, fuel = f + 1 := ⟨fuel - 1, by omega⟩
      cases hs with
      | nil hw =>
        unfold readMore
        rw [skipWs_append hw, skipWs_stop (by decide)]
        rfl
      | cons _ _ _ _ _ _ _ => simp at hn
  | succ n ih =>
    obtain ⟨ih1, ih2, ih3⟩ := ih
    refine ⟨fun t v hn ht fuel hf r hr => ?_, fun cs l hn hs fuel hf r => ?_, fun cs m hn hs fuel hf r => ?_⟩
    · obtain ⟨f, rfl⟩ : ∃ f, fuel = f + 1 := by
        obtain ⟨c, cs, e, -⟩ := tree_head ht
        rw [e, List.length_cons] at hf
        exact ⟨fuel - 1, by omega⟩
      cases ht with
      | null => exact read_scalar (F := F) .null hr f
      | true => exact read_scalar (F := F) .true hr f
      | false => exact read_scalar (F := F) .false hr f
      | str h => exact read_scalar (F := F) (.str _ _ h) hr f
      | num h hx => exact read_scalar (F := F) (.num _ _ _ h hx) hr f
      | @arr0 w hw =>
        simp only [List.cons_append, List.append_assoc, List.nil_append]
        rw [readTree]
        rw [skipWs_append hw, skipWs_stop (by decide)]
        rfl
      | @arr w t v cs l hw ht hs =>
        simp only [List.length_cons, List.length_append, List.length_nil] at hn hf
        simp only [List.cons_append, List.append_assoc, List.nil_append]
        obtain ⟨c, x, e, hc, hc'⟩ := tree_head ht
        have h1 := ih1 t v (by omega) ht f (by omega) (cs ++ ']' :: r) (tail_ends hs r)
        have h2 := ih2 cs l (by omega) hs f (by omega) r
        have e1 : skipWs (w ++ (t ++ (cs ++ ']' :: r))) = t ++ (cs ++ ']' :: r) := by
          rw [skipWs_append hw, e, List.cons_append, skipWs_stop hc]
        rw [readTree]
        rw [e1]
        split
        · rename_i e2
          rw [e, List.cons_append] at e2
          exact absurd (List.cons.inj e2).1 hc'
        · rw [h1]
          simp only
          rw [h2]
          rfl
      | @obj0 w hw =>
        simp only [List.cons_append, List.append_assoc, List.nil_append]
        rw [readTree]
        rw [skipWs_append hw, skipWs_stop (by decide)]
        rfl
      | @obj w1 w2 w3 kt t cs k v m hw1 hw2 hw3 hk ht hs =>
        simp only [List.length_cons, List.length_append, List.length_nil] at hn hf
        simp only [List.cons_append, List.append_assoc, List.nil_append]
        obtain ⟨c, x, e, hc, -⟩ := tree_head ht
        have h1 := ih1 t v (by omega) ht f (by omega) (cs ++ '}' :: r) (mtail_ends hs r)
        have h2 := ih3 cs m (by omega) hs f (by omega) r
        have e1 : skipWs (w3 ++ (t ++ (cs ++ '}' :: r))) = t ++ (cs ++ '}' :: r) := by
          rw [skipWs_append hw3, e, List.cons_append, skipWs_stop hc]
        rw [readTree]
        rw [skipWs_append hw1, skipWs_stop (by decide)]
        split
        · rename_i e2
          exact absurd (List.cons.inj e2).1 (by decide)
        · rw [readName_of hw2 hk]
          simp only
          rw [e1, h1]
          simp only
          rw [h2]
          rfl
    · obtain ⟨f, rfl⟩ : ∃ f, fuel = f + 1 := ⟨fuel - 1, by omega⟩
      cases hs with
      | nil hw =>
        unfold readRest
        rw [skipWs_append hw, skipWs_stop (by decide)]
        rfl
      | @cons w1 w2 t v cs l hw1 hw2 ht hs =>
        simp only [List.length_cons, List.length_append] at hn hf
        obtain ⟨c, x, e, hc, -⟩ := tree_head ht
        have h1 := ih1 t v (by omega) ht f (by omega) (cs ++ ']' :: r) (tail_ends hs r)
        have h2 := ih2 cs l (by omega) hs f (by omega) r
        have e1 : skipWs (w2 ++ (t ++ (cs ++ ']' :: r))) = t ++ (cs ++ ']' :: r) := by
          rw [skipWs_append hw2, e, List.cons_append, skipWs_stop hc]
        simp only [List.cons_append, List.append_assoc]
        conv => lhs; unfold readRest
        rw [skipWs_append hw1, skipWs_stop (by decide)]
        simp only
        rw [e1, h1]
        simp only
        rw [h2]
        rfl
    · obtain ⟨f, rfl⟩ : ∃ f, fuel = f + 1 := ⟨fuel - 1, by omega⟩
      cases hs with
      | nil hw =>
        unfold readMore
        rw [skipWs_append hw, skipWs_stop (by decide)]
        rfl
      | @cons w0 w1 w2 w3 kt t cs k v m hw0 hw1 hw2 hw3 hk ht hs =>
        simp only [List.length_cons, List.length_append] at hn hf
        obtain ⟨c, x, e, hc, -⟩ := tree_head ht
        have h1 := ih1 t v (by omega) ht f (by omega) (cs ++ '}' :: r) (mtail_ends hs r)
        have h2 := ih3 cs m (by omega) hs f (by omega) r
        have e1 : skipWs (w3 ++ (t ++ (cs ++ '}' :: r))) = t ++ (cs ++ '}' :: r) := by
          rw [skipWs_append hw3, e, List.cons_append, skipWs_stop hc]
        simp only [List.cons_append, List.append_assoc]
        conv => lhs; unfold readMore
        rw [skipWs_append hw0, skipWs_stop (by decide)]
        simp only
        rw [skipWs_append hw1, skipWs_stop (by decide), readName_of hw2 hk]
        simp only
        rw [e1, h1]
        simp only
        rw [h2]
        rfl

/-- **C86, texts of other programs.** A text is read as the value `v` exactly if it is a JSON text standing for
`v`. -/
theorem json_grammar (cs : List Char) (v : GVal F) : readJson cs = some v ↔ JsonDoc cs v := by
  obtain ⟨w, hw, e⟩ := skipWs_eq cs
  constructor
  · intro h
    unfold readJson at h
    split at h
    · rename_i v' cs1 hr
      split at h
      · rename_i hend
        cases h
        obtain ⟨t, e2, ht⟩ := (trees_read _).1 _ _ _ hr
        exact ⟨w, t, cs1, by rw [e, e2], hw, ws_of_skip hend, ht⟩
      · cases h
    · cases h
  · rintro ⟨w1, t, w2, rfl, h1, h2, ht⟩
    obtain ⟨c, x, e1, hc, -⟩ := tree_head ht
    have e2 : skipWs (w1 ++ (t ++ w2)) = t ++ w2 := by
      rw [skipWs_append h1, e1, List.cons_append, skipWs_stop hc]
    have hr : Ends w2 := by
      have := ends_of h2 (r := []) (by intro c cs e; cases e)
      rwa [List.append_nil] at this
    unfold readJson
    rw [e2, (trees_of t.length).1 t v le_rfl ht _ (by simp; omega) w2 hr]
    simp only
    rw [if_pos (skipWs_ws h2)]

omit [GoFloat F] [JsonFloat F] in
theorem set_get (m : GMap F) (k : String) (v : GVal F) (k' : String) :
    GMap.get? (m.set k v) k' = if k' = k then some v else GMap.get? m k' := by
  unfold GMap.set GMap.get?
  split
  · rename_i h
    induction m with
    | nil => simp at h
    | cons e m ih =>
      by_cases he : e.1 = k
      · by_cases hk : k' = k
        · simp [he, hk]
        · have h1 : ¬ k = k' := fun h => hk h.symm
          have h2 : (k == k') = false := by simpa using h1
          simp only [List.map_cons, List.find?_cons, he, beq_self_eq_true, if_pos, h2, if_neg hk]
          by_cases h3 : (m.any fun e => e.1 == k) = true
          · have := ih h3
            rw [if_neg hk] at this
            exact this
          · have : (m.map fun e => if e.1 == k then (k, v) else e) = m := by
              conv_rhs => rw [← List.map_id m]
              apply List.map_congr_left
              intro x hx
              rw [if_neg]
              · rfl
              · intro hc
                exact h3 (List.any_eq_true.mpr ⟨x, hx, hc⟩)
            rw [this]
      · have h3 : (m.any fun e => e.1 == k) = true := by
          simpa [he] using h
        have := ih h3
        have h4 : (e.1 == k) = false := by simpa using he
        simp only [List.map_cons, List.find?_cons, h4, Bool.false_eq_true, if_false]
        by_cases h5 : e.1 = k'
        · have : ¬ k' = k := fun h => he (h5.trans h)
          simp [h5, this]
        · have h6 : (e.1 == k') = false := by simpa using h5
          simp only [h6]
          exact this
  · rename_i h
    rw [List.find?_append]
    have hno : ∀ e ∈ m, ¬ (e.1 == k) = true := by
      intro e he hc
      exact h (List.any_eq_true.mpr ⟨e, he, hc⟩)
    by_cases hk : k' = k
    · subst hk
      rw [List.find?_eq_none.mpr hno]
      simp
    · have h1 : (k == k') = false := by simpa using fun h : k = k' => hk h.symm
      rw [if_neg hk]
      simp [h1]

omit [GoFloat F] [JsonFloat F] in
/-- **C86, repeated names.** Of members with the same name the last one counts. -/
theorem last_counts (m : GMap F) (k : String) : GMap.get? (asMap m) k = lastOf m k := by
  have key : ∀ (m acc : GMap F), GMap.get? (m.foldl (fun m e => m.set e.1 e.2) acc) k =
      match lastOf m k with | some v => some v | none => GMap.get? acc k := by
    intro m
    induction m with
    | nil => intro acc; rfl
    | cons e m ih =>
      intro acc
      rw [List.foldl_cons, ih, set_get]
      unfold lastOf
      rw [List.reverse_cons, List.find?_append]
      cases h : List.find? (fun e => e.1 == k) m.reverse with
      | some x => rfl
      | none =>
        by_cases hk : k = e.1
        · subst hk; simp
        · have : (e.1 == k) = false := by simpa using fun h : e.1 = k => hk h.symm
          simp [hk, this]
  unfold asMap
  rw [key]
  cases lastOf m k <;> rfl

/-- **C86, no JSON.** A text that is no JSON text is an error of `Decode` and of `ParseFeatureCollection`. -/
theorem no_json {F : Type} [GoMath F] [JsonFloat F] (gen : Nat → Nat → String × String) (s : String)
    (h : ∀ v : GVal F, ¬ JsonDoc s.toList v) :
    geoDecodeText (F := F) gen (utf8 s) = .ok none ∧ parseFeatureCollection (F := F) (utf8 s) = none := by
  have : readGeo (F := F) (utf8 s) = none := by
    unfold readGeo
    rw [utf8_valid]
    have hn : readJson (F := F) s.toList = none := by
      cases hr : readJson (F := F) s.toList with
      | none => rfl
      | some v => exact absurd ((json_grammar _ _).mp hr) (h v)
    show (readJson s.toList).bind readCollection = none
    rw [hn]; rfl
  unfold geoDecodeText parseFeatureCollection
  rw [this]
  exact ⟨rfl, rfl⟩

/-- **C86, spelling does not matter.** Two documents that stand for the same value are decoded alike. -/
theorem spelling {F : Type} [GoMath F] [JsonFloat F] (gen : Nat → Nat → String × String) (s s' : String) (v : GVal F)
    (h : JsonDoc s.toList v) (h' : JsonDoc s'.toList v) :
    geoDecodeText (F := F) gen (utf8 s) = geoDecodeText gen (utf8 s') := by
  have key : ∀ s : String, JsonDoc s.toList v → readGeo (F := F) (utf8 s) = readCollection v := by
    intro s hs
    unfold readGeo
    rw [utf8_valid]
    show (readJson s.toList).bind readCollection = _
    rw [(json_grammar _ _).mpr hs]
    rfl
  unfold geoDecodeText
  rw [key s h, key s' h']

/-- White space, an escaped name, a repeated name. -/
example : (match readJson (F := F64) "{ \"a\" : [ true , null ] ,\n \"\\u0062\":\"x\", \"a\":{} }".toList with
    | some (.obj [("a", .obj []), ("b", .str s)]) => s == "x"
    | _ => false) = true := by decide +kernel

/-- Texts that are no JSON. -/
example : ["[1,]", "{\"a\":1,}", "[1 2]", "{a:1}", "[", "[]]", "", "[01]", "{\"a\" 1}"].all
    (fun s => (readJson (F := F64) s.toList).isNone) = true := by decide +kernel

example : JsonDoc (F := F64) " [ ]".toList (.arr []) := by
  refine ⟨[' '], "[ ]".toList, [], rfl, by simp [Ws], ws_nil, ?_⟩
  exact .arr0 (w := [' ']) (by simp [Ws])

end C86Grammar
end GpsGen
