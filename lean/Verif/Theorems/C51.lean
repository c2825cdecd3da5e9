import Verif.Model.Properties
import Verif.Lemmas.Toy
import Mathlib.Data.List.Nodup
/-!
# C51: properties behave as a typed map

The specification is a function from keys to optional values, with the updates defined pointwise.
-/

namespace GpsGen
namespace C51

variable {F : Type}

/-! ## Specification -/

/-- An abstract map. -/
abbrev Fun (F : Type) := String → Option (PVal F)

/-- One call on a `Properties` value. -/
inductive Op (F : Type) where
  | set (k : String) (v : PVal F)
  | remove (k : String)
  | merge (other : PMap F)
  | reset

/-- The call on the abstract map. -/
def Op.spec : Op F → Fun F → Fun F
  | .set k v, f => fun k' => if k' = k then some v else f k'
  | .remove k, f => fun k' => if k' = k then none else f k'
  | .merge other, f => fun k' => match other.get? k' with
    | some v => some v
    | none => f k'
  | .reset, _ => fun _ => none

/-- The call on the Go map. -/
def Op.run : Op F → PMap F → PMap F
  | .set k v, m => m.set k v
  | .remove k, m => m.remove k
  | .merge other, m => m.merge other
  | .reset, _ => PMap.make

/-- The keys of a Go map are different. -/
def Keys (m : PMap F) : Prop := (m.map (·.1)).Nodup

/-- The argument of `Merge` is a Go map. -/
def Op.ok : Op F → Prop
  | .merge other => Keys other
  | _ => True

/-! ## Lemmas -/

theorem get?_nil (k : String) : PMap.get? ([] : PMap F) k = none := rfl

theorem get?_cons (e : String × PVal F) (m : PMap F) (k : String) :
    PMap.get? (e :: m) k = if e.1 = k then some e.2 else PMap.get? m k := by
  unfold PMap.get?
  by_cases h : e.1 = k
  · rw [List.find?_cons_of_pos (by simpa using h), if_pos h]; rfl
  · rw [List.find?_cons_of_neg (by simpa using h), if_neg h]

theorem get?_append (m n : PMap F) (k : String) :
    PMap.get? (m ++ n) k = (PMap.get? m k).or (PMap.get? n k) := by
  induction m with
  | nil => simp [get?_nil]
  | cons e m ih =>
    rw [List.cons_append, get?_cons, get?_cons, ih]
    split <;> rfl

theorem get?_none {m : PMap F} {k : String} : PMap.get? m k = none ↔ k ∉ m.map (·.1) := by
  induction m with
  | nil => simp [get?_nil]
  | cons e m ih =>
    rw [get?_cons]
    by_cases h : e.1 = k
    · rw [if_pos h]; simp [h]
    · rw [if_neg h, ih]; simp [Ne.symm h]

theorem get?_map (m : PMap F) (k k' : String) (v : PVal F) :
    PMap.get? (m.map (fun e => if e.1 == k then (k, v) else e)) k' =
      if k' = k then (PMap.get? m k).map (fun _ => v) else PMap.get? m k' := by
  induction m with
  | nil => simp [get?_nil]
  | cons e m ih =>
    rw [List.map_cons, get?_cons, ih, get?_cons, get?_cons]
    by_cases h : e.1 = k
    · simp only [h, beq_self_eq_true, if_true]
      by_cases h2 : k' = k
      · simp [h2]
      · simp [h2, Ne.symm h2]
    · simp only [beq_iff_eq, h, if_false]
      by_cases h2 : k' = k
      · subst h2; simp [h]
      · simp [h2]

theorem has_iff (m : PMap F) (k : String) : m.any (fun e => e.1 == k) = true ↔ k ∈ m.map (·.1) := by
  simp [List.any_eq_true]

/-! ## Theorems -/

/-- `Set`: the key has the new value, other keys are untouched. -/
theorem set_get (m : PMap F) (k k' : String) (v : PVal F) :
    (m.set k v).get? k' = if k' = k then some v else m.get? k' := by
  unfold PMap.set
  split
  · rename_i h
    rw [get?_map]
    split
    · have : PMap.get? m k ≠ none := by
        intro hn
        exact get?_none.mp hn ((has_iff m k).mp h)
      obtain ⟨w, hw⟩ := Option.ne_none_iff_exists'.mp this
      rw [hw]; rfl
    · rfl
  · rename_i h
    rw [get?_append, get?_cons, get?_nil]
    by_cases h2 : k' = k
    · subst h2
      have : PMap.get? m k' = none := get?_none.mpr (fun hm => h ((has_iff m k').mpr hm))
      rw [this]; simp
    · rw [if_neg h2, if_neg (Ne.symm h2), Option.or_none]

/-- `Remove`: the key is gone, other keys are untouched. -/
theorem remove_get (m : PMap F) (k k' : String) :
    (m.remove k).get? k' = if k' = k then none else m.get? k' := by
  unfold PMap.remove
  induction m with
  | nil => simp [get?_nil]
  | cons e m ih =>
    by_cases h : e.1 = k
    · rw [List.filter_cons_of_neg (by simpa using h), ih, get?_cons]
      by_cases h2 : k' = k
      · rw [if_pos h2, if_pos h2]
      · rw [if_neg h2, if_neg h2, if_neg (by rw [h]; exact Ne.symm h2)]
    · rw [List.filter_cons_of_pos (by simpa using h), get?_cons, ih, get?_cons]
      by_cases h2 : k' = k
      · rw [if_pos h2, if_pos h2, if_neg (by rw [h2]; exact h)]
      · rw [if_neg h2, if_neg h2]

/-- `Merge`: keys of the argument take its values, other keys are untouched. -/
theorem merge_get (m other : PMap F) (ho : Keys other) (k' : String) :
    (m.merge other).get? k' = (match other.get? k' with | some v => some v | none => m.get? k') := by
  unfold PMap.merge
  induction other generalizing m with
  | nil => rfl
  | cons e other ih =>
    obtain ⟨h1, h2⟩ := List.nodup_cons.mp ho
    rw [List.foldl_cons, ih _ h2, set_get, get?_cons]
    by_cases h : e.1 = k'
    · subst h
      rw [get?_none.mpr h1]
      simp
    · rw [if_neg h, if_neg (Ne.symm h)]

/-- `Make` and `Reset`: nothing is left. -/
theorem make_get (k : String) : (PMap.make : PMap F).get? k = none := rfl

/-- Keys stay different, so the list keeps representing a Go map. -/
theorem keys_kept (m : PMap F) (op : Op F) (h : Keys m) : Keys (op.run m) := by
  have hset : ∀ (m : PMap F) (k : String) (v : PVal F), Keys m → Keys (m.set k v) := by
    intro m k v h
    unfold PMap.set
    split
    · unfold Keys
      rw [List.map_map]
      have : ((fun x => x.1) ∘ fun e : String × PVal F => if (e.1 == k) = true then (k, v) else e) = (·.1) := by
        funext e
        simp only [Function.comp]
        split
        · rename_i he; simpa using (by simpa using he : e.1 = k).symm
        · rfl
      rw [this]
      exact h
    · rename_i hn
      unfold Keys
      rw [List.map_append]
      refine List.Nodup.append h (by simp) ?_
      simp only [List.map_cons, List.map_nil, List.disjoint_singleton]
      intro hm
      exact hn ((has_iff m k).mpr hm)
  cases op with
  | set k v => exact hset m k v h
  | remove k => exact h.sublist (List.Sublist.map _ List.filter_sublist)
  | merge other =>
    show Keys (PMap.merge m other)
    unfold PMap.merge
    induction other generalizing m with
    | nil => exact h
    | cons e other ih => exact ih _ (hset m e.1 e.2 h)
  | reset => exact List.nodup_nil

/-- **C51, updates.** After any sequence of calls the stored value of every key is the one of the abstract
map. -/
theorem map_laws (ops : List (Op F)) (hok : ∀ op ∈ ops, op.ok) (m : PMap F) (k : String) :
    (ops.foldl (fun m op => op.run m) m).get? k = ops.foldl (fun f op => op.spec f) m.get? k := by
  induction ops generalizing m with
  | nil => rfl
  | cons op ops ih =>
    have hstep : (op.run m).get? = op.spec m.get? := by
      funext k'
      cases op with
      | set k v => exact set_get m k k' v
      | remove k => exact remove_get m k k'
      | merge other => exact merge_get m other (hok _ (List.mem_cons_self ..)) k'
      | reset => rfl
    rw [List.foldl_cons, List.foldl_cons, ih (fun o ho => hok o (List.mem_cons_of_mem _ ho)), hstep]

/-- **C51, getters.** A typed getter succeeds exactly when the key has a value of that type, which it
returns; otherwise it returns the zero value. -/
theorem string_iff (m : PMap F) (k : String) (s : String) (b : Bool) :
    m.getString k = (s, b) ↔
      (b = true ∧ m.get? k = some (.str s)) ∨ (b = false ∧ s = "" ∧ ∀ t, m.get? k ≠ some (.str t)) := by
  unfold PMap.getString
  cases h : m.get? k with
  | none => simp [and_comm]
  | some v => cases v <;> simp [and_comm]

theorem bool_iff (m : PMap F) (k : String) (x : Bool) (b : Bool) :
    m.getBool k = (x, b) ↔
      (b = true ∧ m.get? k = some (.bool x)) ∨ (b = false ∧ x = false ∧ ∀ t, m.get? k ≠ some (.bool t)) := by
  unfold PMap.getBool
  cases h : m.get? k with
  | none => simp [and_comm]
  | some v => cases v <;> simp [and_comm]

theorem float_iff [GoFloat F] (m : PMap F) (k : String) (x : F) (b : Bool) :
    m.getFloat k = (x, b) ↔
      (b = true ∧ m.get? k = some (.float x)) ∨ (b = false ∧ x = lit 0 ∧ ∀ t, m.get? k ≠ some (.float t)) := by
  unfold PMap.getFloat
  cases h : m.get? k with
  | none => simp [and_comm]; tauto
  | some v => cases v <;> simp [and_comm] <;> tauto

/-- A stored integer of one of the types the getter accepts. -/
def IsInt (v : Option (PVal F)) (i : Int) : Prop :=
  v = some (.int i) ∨ v = some (.int32 i) ∨ v = some (.int64 i)

theorem int_iff (m : PMap F) (k : String) (i : Int) (b : Bool) :
    m.getInt k = (i, b) ↔
      (b = true ∧ IsInt (m.get? k) i) ∨ (b = false ∧ i = 0 ∧ ∀ j, ¬ IsInt (m.get? k) j) := by
  unfold PMap.getInt IsInt
  cases h : m.get? k with
  | none => simp [and_comm]; tauto
  | some v => cases v <;> simp [and_comm] <;> tauto

/-! Non-vacuity. -/

/-- Four calls: two sets, a merge that overrides one of the keys, a removal. -/
def calls : List (Op Toy) := [.set "a" (.int 1), .set "b" (.bool true),
  .merge [("a", .str "x"), ("c", .int32 7)], .remove "b"]

example : ((calls.foldl (fun m op => op.run m) PMap.make : PMap Toy)) = [("a", .str "x"), ("c", .int32 7)] := by
  decide +kernel

example : (PMap.getInt ([("a", .str "x"), ("c", .int32 7)] : PMap Toy) "c",
    PMap.getInt ([("a", .str "x"), ("c", .int32 7)] : PMap Toy) "a") = ((7, true), (0, false)) := by decide +kernel

end C51
end GpsGen
