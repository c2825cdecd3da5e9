import Verif.Model.PropertyMaps
import Verif.Theorems.C51
/-!
# C105: The properties of a route or track are its own

Writing through `Props()` changes that route or track and no other; it never panics. Full claim:

* what is written through a variable that came from `o.Props()` is a property of `o`, and no other object changes;
* `Reset` through such a variable clears the properties of `o`.

Both parts are false: `RestoreRoute` keeps the map of its caller (`shared`), and `Reset` gives the variable a new map
(`reset_keeps`, `reset_fails`). The first part is proved for programs that do not give a map of their own to
`RestoreRoute`.
-/

namespace GpsGen
namespace C105
open PropStore

variable {F : Type}

/-! ## Specification -/

/-- The property `k` of the object `o`. -/
def prop (s : PropStore F) (o : Nat) (k : String) : Option (PVal F) := (s.content (s.obj o)).get? k

/-- The entry `k` of the map in the variable `x`. -/
def entry (s : PropStore F) (x : Nat) (k : String) : Option (PVal F) := (s.content (s.var x)).get? k

/-- `x` is a variable for the properties of `o`. -/
def Handle (s : PropStore F) (x o : Nat) : Prop := ∃ r, s.var x = some r ∧ s.obj o = some r

/-- The statements that write the map in the variable `x`. -/
def Writes (x : Nat) : PropOp F → Prop
  | .set y _ _ => y = x
  | .remove y _ => y = x
  | .merge y _ => y = x
  | _ => False

/-- The statements that give a map of the program to a route. -/
def Gives : PropOp F → Prop
  | .restored _ => True
  | _ => False

/-- The statements that can change an existing variable. -/
def Assigns (x : Nat) : PropOp F → Prop
  | .reset y => y = x
  | _ => False

/-- What Go programs can reach. -/
inductive Reach : PropStore F → Prop
  | start : Reach {}
  | step {s s' op} (h : Reach s) (he : s.step op = .ok s') : Reach s'

/-- What programs reach that do not give their maps to routes. -/
inductive Own : PropStore F → Prop
  | start : Own {}
  | step {s s' op} (h : Own s) (hg : ¬ Gives op) (he : s.step op = .ok s') : Own s'

/-! ## Addresses exist -/

/-- Every address belongs to a map. -/
def Valid (s : PropStore F) : Prop :=
  (∀ r, some r ∈ s.objs → r < s.maps.length) ∧ (∀ r, some r ∈ s.vars → r < s.maps.length)

theorem var_mem {s : PropStore F} {x r : Nat} (h : s.var x = some r) : some r ∈ s.vars := by
  unfold PropStore.var at h
  cases hx : s.vars[x]? with
  | none => rw [hx] at h; cases h
  | some y => rw [hx] at h; cases h; exact List.mem_of_getElem? hx

theorem obj_mem {s : PropStore F} {o r : Nat} (h : s.obj o = some r) : some r ∈ s.objs := by
  unfold PropStore.obj at h
  cases hx : s.objs[o]? with
  | none => rw [hx] at h; cases h
  | some y => rw [hx] at h; cases h; exact List.mem_of_getElem? hx

theorem valid_step {s s' : PropStore F} {op : PropOp F} (h : Valid s) (he : s.step op = .ok s') : Valid s' := by
  obtain ⟨h1, h2⟩ := h
  cases op with
  | new =>
    cases he
    exact ⟨fun r hr => by simp at hr; exact h1 r hr, h2⟩
  | restored x =>
    cases he
    refine ⟨fun r hr => ?_, h2⟩
    simp only [List.mem_append, List.mem_singleton] at hr
    rcases hr with hr | hr
    · exact h1 r hr
    · exact h2 r (var_mem hr.symm)
  | decoded m =>
    cases m with
    | none =>
      cases he
      exact ⟨fun r hr => by simp at hr; exact h1 r hr, h2⟩
    | some m =>
      cases he
      refine ⟨fun r hr => ?_, fun r hr => ?_⟩
      · simp only [List.mem_append, List.mem_singleton, Option.some.injEq] at hr
        simp only [List.length_append, List.length_singleton]
        rcases hr with hr | rfl
        · have := h1 r hr; omega
        · omega
      · have := h2 r hr
        simp only [List.length_append, List.length_singleton]; omega
  | props o =>
    unfold PropStore.step at he
    dsimp only at he
    split at he
    · cases he
    · cases he
      refine ⟨fun r hr => ?_, fun r hr => ?_⟩
      · simp only [List.length_append, List.length_singleton]
        rcases List.mem_or_eq_of_mem_set hr with hr | hr
        · have := h1 r hr; omega
        · cases hr; omega
      · simp only [List.mem_append, List.mem_singleton, Option.some.injEq] at hr
        simp only [List.length_append, List.length_singleton]
        rcases hr with hr | rfl
        · have := h2 r hr; omega
        · omega
    · rename_i r0 hr0
      cases he
      refine ⟨h1, fun r hr => ?_⟩
      simp only [List.mem_append, List.mem_singleton, Option.some.injEq] at hr
      rcases hr with hr | rfl
      · exact h2 r hr
      · exact h1 r (List.mem_of_getElem? hr0)
  | make =>
    cases he
    refine ⟨fun r hr => ?_, fun r hr => ?_⟩
    · have := h1 r hr
      simp only [List.length_append, List.length_singleton]; omega
    · simp only [List.mem_append, List.mem_singleton, Option.some.injEq] at hr
      simp only [List.length_append, List.length_singleton]
      rcases hr with hr | rfl
      · have := h2 r hr; omega
      · omega
  | declare =>
    cases he
    exact ⟨h1, fun r hr => by simp at hr; exact h2 r hr⟩
  | copy x =>
    cases he
    refine ⟨h1, fun r hr => ?_⟩
    simp only [List.mem_append, List.mem_singleton] at hr
    rcases hr with hr | hr
    · exact h2 r hr
    · exact h2 r (var_mem hr.symm)
  | set x k v =>
    unfold PropStore.step PropStore.write at he
    dsimp only at he
    split at he
    · cases he
    · cases he
      exact ⟨fun r hr => by simpa using h1 r hr, fun r hr => by simpa using h2 r hr⟩
  | remove x k =>
    unfold PropStore.step at he
    dsimp only at he
    split at he
    · cases he; exact ⟨h1, h2⟩
    · cases he
      exact ⟨fun r hr => by simpa using h1 r hr, fun r hr => by simpa using h2 r hr⟩
  | merge x y =>
    unfold PropStore.step at he
    dsimp only at he
    split at he
    · cases he; exact ⟨h1, h2⟩
    · unfold PropStore.write at he
      split at he
      · cases he
      · cases he
        exact ⟨fun r hr => by simpa using h1 r hr, fun r hr => by simpa using h2 r hr⟩
  | reset x =>
    cases he
    refine ⟨fun r hr => ?_, fun r hr => ?_⟩
    · have := h1 r hr
      simp only [List.length_append, List.length_singleton]; omega
    · simp only [List.length_append, List.length_singleton]
      rcases List.mem_or_eq_of_mem_set hr with hr | hr
      · have := h2 r hr; omega
      · cases hr; omega

theorem reach_valid {s : PropStore F} (h : Reach s) : Valid s := by
  induction h with
  | start => exact ⟨fun r hr => by simp at hr, fun r hr => by simp at hr⟩
  | step _ he ih => exact valid_step ih he

theorem own_reach {s : PropStore F} (h : Own s) : Reach s := by
  induction h with
  | start => exact .start
  | step _ _ he ih => exact .step ih he

/-! ## Contents -/

theorem content_append {s : PropStore F} (m : PMap F) {r : Option Nat} (hr : ∀ n, r = some n → n < s.maps.length)
    (objs vars : List (Option Nat)) : PropStore.content ⟨s.maps ++ [m], objs, vars⟩ r = s.content r := by
  cases r with
  | none => rfl
  | some n =>
    unfold PropStore.content
    dsimp only
    rw [List.getElem?_append_left (hr n rfl)]

theorem content_modify {s : PropStore F} (n : Nat) (f : PMap F → PMap F) (r : Option Nat) (hv : n < s.maps.length) :
    PropStore.content { s with maps := s.maps.modify n f } r =
      if r = some n then f (s.content r) else s.content r := by
  cases r with
  | none => rfl
  | some m =>
    unfold PropStore.content
    dsimp only
    rw [List.getElem?_modify]
    by_cases h : n = m
    · subst h
      simp [hv]
    · have : ¬ (some m : Option Nat) = some n := fun e => h (Option.some.inj e).symm
      rw [if_neg this]
      simp [h]

theorem obj_lt {s : PropStore F} (h : Valid s) (o : Nat) : ∀ n, s.obj o = some n → n < s.maps.length :=
  fun _ e => h.1 _ (obj_mem e)

theorem var_lt {s : PropStore F} (h : Valid s) (x : Nat) : ∀ n, s.var x = some n → n < s.maps.length :=
  fun _ e => h.2 _ (var_mem e)

/-! ## Theorems -/

/-- **C105, writing.** `o.Props()` of an existing object does not panic, gives a map that can be written and shows the
properties of `o`, and changes no properties. -/
theorem props_handle {s : PropStore F} (h : Reach s) {o : Nat} (ho : o < s.objs.length) :
    ∃ s', s.step (.props o) = .ok s' ∧ Handle s' s.vars.length o ∧ (∀ o' k, prop s' o' k = prop s o' k) ∧
      (∀ k, entry s' s.vars.length k = prop s o k) ∧ (∀ x, x < s.vars.length → s'.var x = s.var x) := by
  have hv := reach_valid h
  have e : s.objs[o]? = some s.objs[o] := List.getElem?_eq_getElem ho
  unfold PropStore.step
  dsimp only
  rw [e]
  cases hc : s.objs[o] with
  | none =>
    rw [hc] at e
    refine ⟨_, rfl, ⟨s.maps.length, ?_, ?_⟩, fun o' k => ?_, fun k => ?_, fun x hx => ?_⟩
    · simp [PropStore.var]
    · simp [PropStore.obj, ho]
    · unfold prop
      by_cases hoo : o' = o
      · subst hoo
        simp [PropStore.obj, ho, hc, PropStore.content, PMap.make]
      · have e2 : PropStore.obj (F := F) ⟨s.maps ++ [PMap.make], s.objs.set o (some s.maps.length),
            s.vars ++ [some s.maps.length]⟩ o' = s.obj o' := by
          unfold PropStore.obj
          dsimp only
          rw [List.getElem?_set_ne (fun h => hoo h.symm)]
        rw [e2, content_append _ (obj_lt hv o')]
    · simp [entry, prop, PropStore.var, PropStore.obj, e, PropStore.content, PMap.make]
    · unfold PropStore.var
      dsimp only
      rw [List.getElem?_append_left hx]
  | some r =>
    rw [hc] at e
    refine ⟨_, rfl, ⟨r, ?_, ?_⟩, fun o' k => rfl, fun k => ?_, fun x hx => ?_⟩
    · simp [PropStore.var]
    · simp [PropStore.obj, e]
    · simp [entry, prop, PropStore.var, PropStore.obj, e, PropStore.content]
    · unfold PropStore.var
      dsimp only
      rw [List.getElem?_append_left hx]

/-- **C105, writing.** `Set` through a variable for the properties of `o` sets that property of `o`. -/
theorem set_through {s : PropStore F} (h : Reach s) {x o : Nat} (hh : Handle s x o) (k : String) (v : PVal F) :
    ∃ s', s.step (.set x k v) = .ok s' ∧ Handle s' x o ∧
      ∀ k', prop s' o k' = if k' = k then some v else prop s o k' := by
  obtain ⟨r, hx, ho⟩ := hh
  have hv := reach_valid h
  have he : s.step (.set x k v) = .ok { s with maps := s.maps.modify r (·.set k v) } := by
    unfold PropStore.step PropStore.write
    dsimp only
    rw [hx]
  refine ⟨_, he, ⟨r, hx, ho⟩, fun k' => ?_⟩
  unfold prop
  have e2 : PropStore.obj { s with maps := s.maps.modify r (·.set k v) } o = s.obj o := rfl
  rw [e2, content_modify r _ _ (var_lt hv x r hx), if_pos ho, C51.set_get]

/-- **C105, writing.** `Remove` through such a variable removes that property of `o`. -/
theorem remove_through {s : PropStore F} (h : Reach s) {x o : Nat} (hh : Handle s x o) (k : String) :
    ∃ s', s.step (.remove x k) = .ok s' ∧ Handle s' x o ∧
      ∀ k', prop s' o k' = if k' = k then none else prop s o k' := by
  obtain ⟨r, hx, ho⟩ := hh
  have hv := reach_valid h
  have he : s.step (.remove x k) = .ok { s with maps := s.maps.modify r (·.remove k) } := by
    unfold PropStore.step
    dsimp only
    rw [hx]
  refine ⟨_, he, ⟨r, hx, ho⟩, fun k' => ?_⟩
  unfold prop
  have e2 : PropStore.obj { s with maps := s.maps.modify r (·.remove k) } o = s.obj o := rfl
  rw [e2, content_modify r _ _ (var_lt hv x r hx), if_pos ho, C51.remove_get]

/-- **C105, writing.** `Merge` through such a variable gives `o` the entries of the other map (whose keys differ, as in
every Go map); its other properties stay. -/
theorem merge_through {s : PropStore F} (h : Reach s) {x o : Nat} (hh : Handle s x o) (y : Nat)
    (hk : C51.Keys (s.content (s.var y))) : ∃ s', s.step (.merge x y) = .ok s' ∧ Handle s' x o ∧
      ∀ k, prop s' o k = match entry s y k with | some v => some v | none => prop s o k := by
  obtain ⟨r, hx, ho⟩ := hh
  have hv := reach_valid h
  unfold PropStore.step
  dsimp only
  split
  · rename_i hn
    refine ⟨s, rfl, ⟨r, hx, ho⟩, fun k => ?_⟩
    unfold entry
    rw [hn]
    rfl
  · unfold PropStore.write
    rw [hx]
    refine ⟨_, rfl, ⟨r, hx, ho⟩, fun k => ?_⟩
    unfold prop
    have e2 : PropStore.obj { s with maps := s.maps.modify r (·.merge (s.content (s.var y))) } o = s.obj o := rfl
    rw [e2, content_modify r _ _ (var_lt hv x r hx), if_pos ho, C51.merge_get _ _ hk]
    rfl

/-- **C105, variables.** A variable for the properties of `o` stays one, whatever else happens, until it is reset. -/
theorem handle_stays {s s' : PropStore F} {x o : Nat} (hh : Handle s x o) {op : PropOp F} (ha : ¬ Assigns x op)
    (he : s.step op = .ok s') : Handle s' x o := by
  obtain ⟨r, hx, ho⟩ := hh
  have hxl : x < s.vars.length := by
    unfold PropStore.var at hx
    rcases Nat.lt_or_ge x s.vars.length with h | h
    · exact h
    · rw [List.getElem?_eq_none h] at hx; cases hx
  have hol : o < s.objs.length := by
    unfold PropStore.obj at ho
    rcases Nat.lt_or_ge o s.objs.length with h | h
    · exact h
    · rw [List.getElem?_eq_none h] at ho; cases ho
  have hva : ∀ l : List (Option Nat), ((s.vars ++ l)[x]?).join = some r := by
    intro l; rw [List.getElem?_append_left hxl]; exact hx
  have hoa : ∀ l : List (Option Nat), ((s.objs ++ l)[o]?).join = some r := by
    intro l; rw [List.getElem?_append_left hol]; exact ho
  cases op with
  | new => cases he; exact ⟨r, hx, hoa _⟩
  | restored y => cases he; exact ⟨r, hx, hoa _⟩
  | decoded m => cases m <;> (cases he; exact ⟨r, hx, hoa _⟩)
  | props o' =>
    unfold PropStore.step at he
    dsimp only at he
    split at he
    · cases he
    · rename_i hn
      cases he
      refine ⟨r, hva _, ?_⟩
      have hoo : o' ≠ o := by
        rintro rfl
        unfold PropStore.obj at ho
        rw [hn] at ho
        cases ho
      unfold PropStore.obj
      dsimp only
      rw [List.getElem?_set_ne hoo]
      exact ho
    · cases he; exact ⟨r, hva _, ho⟩
  | make => cases he; exact ⟨r, hva _, ho⟩
  | declare => cases he; exact ⟨r, hva _, ho⟩
  | copy y => cases he; exact ⟨r, hva _, ho⟩
  | set y k v =>
    unfold PropStore.step PropStore.write at he
    dsimp only at he
    split at he <;> cases he
    exact ⟨r, hx, ho⟩
  | remove y k =>
    unfold PropStore.step at he
    dsimp only at he
    split at he <;> (cases he; exact ⟨r, hx, ho⟩)
  | merge y z =>
    unfold PropStore.step at he
    dsimp only at he
    split at he
    · cases he; exact ⟨r, hx, ho⟩
    · unfold PropStore.write at he
      split at he <;> cases he
      exact ⟨r, hx, ho⟩
  | reset y =>
    cases he
    refine ⟨r, ?_, ho⟩
    unfold PropStore.var
    dsimp only
    rw [List.getElem?_set_ne (fun h => ha h)]
    exact hx

/-- **C105, variables**, over any program. -/
theorem handle_kept {s s' : PropStore F} {x o : Nat} (hh : Handle s x o) (ops : List (PropOp F))
    (ha : ∀ op ∈ ops, ¬ Assigns x op) (he : s.run ops = .ok s') : Handle s' x o := by
  induction ops generalizing s with
  | nil => cases he; exact hh
  | cons op ops ih =>
    unfold PropStore.run at he
    cases h1 : s.step op with
    | error e => rw [h1] at he; cases he
    | ok s1 =>
      rw [h1] at he
      exact ih (handle_stays hh (ha op (by simp)) h1) (fun q hq => ha q (by simp [hq])) he

/-- Objects have different maps. -/
theorem own_maps {s : PropStore F} (h : Own s) : ∀ o o' r, s.obj o = some r → s.obj o' = some r → o = o' := by
  induction h with
  | start => intro o o' r h1; simp [PropStore.obj] at h1
  | @step s s' op hs hg he ih =>
    have hv := reach_valid (own_reach hs)
    have happ : ∀ q : Option Nat, (∀ r, q = some r → r = s.maps.length) →
        ∀ o o' r : Nat, ((s.objs ++ [q])[o]?).join = some r → ((s.objs ++ [q])[o']?).join = some r → o = o' := by
      intro q hq o o' r h1 h2
      have key : ∀ o : Nat, ((s.objs ++ [q])[o]?).join = some r →
          (s.obj o = some r ∧ r < s.maps.length) ∨ (o = s.objs.length ∧ r = s.maps.length) := by
        intro o h1
        rcases Nat.lt_trichotomy o s.objs.length with hl | hl | hl
        · rw [List.getElem?_append_left hl] at h1
          exact .inl ⟨h1, obj_lt hv o r h1⟩
        · subst hl
          rw [List.getElem?_append_right (Nat.le_refl _)] at h1
          simp at h1
          exact .inr ⟨rfl, hq r h1⟩
        · rw [List.getElem?_eq_none (by simp; omega)] at h1
          cases h1
      rcases key o h1 with ⟨a, b⟩ | ⟨a, b⟩ <;> rcases key o' h2 with ⟨c, d⟩ | ⟨c, d⟩
      · exact ih o o' r a c
      · omega
      · omega
      · omega
    cases op with
    | new => cases he; exact happ none (fun r h => by cases h)
    | restored y => exact absurd trivial hg
    | decoded m =>
      cases m with
      | none => cases he; exact happ none (fun r h => by cases h)
      | some m => cases he; exact happ (some s.maps.length) (fun r h => (Option.some.inj h).symm)
    | props p =>
      unfold PropStore.step at he
      dsimp only at he
      split at he
      · cases he
      · cases he
        intro o o' r h1 h2
        have key : ∀ o : Nat, ((s.objs.set p (some s.maps.length))[o]?).join = some r →
            (s.obj o = some r ∧ r < s.maps.length) ∨ (o = p ∧ r = s.maps.length) := by
          intro o h1
          by_cases hp : p = o
          · subst hp
            rw [List.getElem?_set_self'] at h1
            cases hx : s.objs[p]? with
            | none => rw [hx] at h1; cases h1
            | some y => rw [hx] at h1; cases h1; exact .inr ⟨rfl, rfl⟩
          · rw [List.getElem?_set_ne hp] at h1
            exact .inl ⟨h1, obj_lt hv o r h1⟩
        rcases key o h1 with ⟨a, b⟩ | ⟨a, b⟩ <;> rcases key o' h2 with ⟨c, d⟩ | ⟨c, d⟩
        · exact ih o o' r a c
        · omega
        · omega
        · omega
      · cases he; exact ih
    | make => cases he; exact ih
    | declare => cases he; exact ih
    | copy y => cases he; exact ih
    | set y k v =>
      unfold PropStore.step PropStore.write at he
      dsimp only at he
      split at he <;> cases he
      exact ih
    | remove y k =>
      unfold PropStore.step at he
      dsimp only at he
      split at he <;> (cases he; exact ih)
    | merge y z =>
      unfold PropStore.step at he
      dsimp only at he
      split at he
      · cases he; exact ih
      · unfold PropStore.write at he
        split at he <;> cases he
        exact ih
    | reset y => cases he; exact ih

/-- **C105, own.** What is written through a variable for the properties of `o` changes no other object, in programs
that do not give their own maps to `RestoreRoute`. -/
theorem isolated_partial {s s' : PropStore F} (h : Own s) {x o : Nat} (hh : Handle s x o) {op : PropOp F}
    (hw : Writes x op) (he : s.step op = .ok s') (o' : Nat) (hne : o' ≠ o) (k : String) :
    prop s' o' k = prop s o' k := by
  obtain ⟨r, hx, ho⟩ := hh
  have hv := reach_valid (own_reach h)
  have hd : s.obj o' ≠ some r := fun e => hne (own_maps h o' o r e ho)
  have key : ∀ f, prop { s with maps := s.maps.modify r f } o' k = prop s o' k := by
    intro f
    unfold prop
    have e2 : PropStore.obj { s with maps := s.maps.modify r f } o' = s.obj o' := rfl
    rw [e2, content_modify r _ _ (var_lt hv x r hx), if_neg hd]
  cases op with
  | set y k v =>
    cases hw
    unfold PropStore.step PropStore.write at he
    dsimp only at he
    rw [hx] at he
    cases he
    exact key _
  | remove y k =>
    cases hw
    unfold PropStore.step at he
    dsimp only at he
    rw [hx] at he
    cases he
    exact key _
  | merge y z =>
    cases hw
    unfold PropStore.step at he
    dsimp only at he
    split at he
    · cases he; rfl
    · unfold PropStore.write at he
      rw [hx] at he
      cases he
      exact key _
  | _ => exact absurd hw id

/-- **C105, Reset.** `Reset` empties the map in the variable, and no object loses or gains a property. -/
theorem reset_keeps {s s' : PropStore F} (h : Reach s) {x : Nat} (he : s.step (.reset x) = .ok s') :
    (∀ o k, prop s' o k = prop s o k) ∧ (x < s.vars.length → ∀ k, entry s' x k = none) := by
  have hv := reach_valid h
  cases he
  refine ⟨fun o k => ?_, fun hx k => ?_⟩
  · unfold prop
    have e2 : PropStore.obj (F := F) ⟨s.maps ++ [PMap.make], s.objs, s.vars.set x (some s.maps.length)⟩ o = s.obj o := rfl
    rw [e2, content_append _ (obj_lt hv o)]
  · simp [entry, PropStore.var, hx, PropStore.content, PMap.make, PMap.get?]

/-- **C105, panics.** Exactly these statements panic: `Set` through a nil variable, `Merge` of something into one, and
`Props` of no object. -/
theorem panics_iff (s : PropStore F) (op : PropOp F) : (∃ p, s.step op = .error p) ↔
    (∃ x k v, op = .set x k v ∧ s.var x = none) ∨
    (∃ x y, op = .merge x y ∧ s.var x = none ∧ s.content (s.var y) ≠ []) ∨
    (∃ o, op = .props o ∧ s.objs.length ≤ o) := by
  constructor
  · rintro ⟨p, hp⟩
    cases op with
    | set x k v =>
      refine .inl ⟨x, k, v, rfl, ?_⟩
      unfold PropStore.step PropStore.write at hp
      dsimp only at hp
      split at hp
      · assumption
      · cases hp
    | merge x y =>
      refine .inr (.inl ⟨x, y, rfl, ?_⟩)
      unfold PropStore.step at hp
      dsimp only at hp
      split at hp
      · cases hp
      · rename_i hm
        unfold PropStore.write at hp
        split at hp
        · rename_i hn
          exact ⟨hn, hm⟩
        · cases hp
    | props o =>
      refine .inr (.inr ⟨o, rfl, ?_⟩)
      unfold PropStore.step at hp
      dsimp only at hp
      split at hp
      · rename_i hn; exact List.getElem?_eq_none_iff.mp hn
      · cases hp
      · cases hp
    | remove x k =>
      unfold PropStore.step at hp
      dsimp only at hp
      split at hp <;> cases hp
    | decoded m => cases m <;> cases hp
    | _ => cases hp
  · rintro (⟨x, k, v, rfl, hx⟩ | ⟨x, y, rfl, hx, hy⟩ | ⟨o, rfl, ho⟩)
    · exact ⟨.nilDeref, by unfold PropStore.step PropStore.write; dsimp only; rw [hx]⟩
    · refine ⟨.nilDeref, ?_⟩
      unfold PropStore.step
      dsimp only
      split
      · contradiction
      · unfold PropStore.write; rw [hx]
    · refine ⟨.nilDeref, ?_⟩
      unfold PropStore.step
      dsimp only
      rw [List.getElem?_eq_none ho]

/-- **C105, own: false in general.** Two routes made by `RestoreRoute` from one map share their properties: setting one
of the first also sets it for the second. -/
theorem shared : ∃ s s' : PropStore Toy, Reach s ∧ Handle s 1 0 ∧ s.step (.set 1 "k" (.bool true)) = .ok s' ∧
    prop s 1 "k" = none ∧ prop s' 1 "k" = some (.bool true) := by
  refine ⟨⟨[[]], [some 0, some 0], [some 0, some 0]⟩, ⟨[[("k", .bool true)]], [some 0, some 0], [some 0, some 0]⟩,
    ?_, ⟨0, rfl, rfl⟩, rfl, rfl, rfl⟩
  exact .step (op := .props 0) (.step (op := .restored 0) (.step (op := .restored 0)
    (.step (op := .make) .start rfl) rfl) rfl) rfl

/-- **C105, Reset: false.** After `p := r.Props(); p.Reset()` the route still has its properties. -/
theorem reset_fails : ∃ s s' : PropStore Toy, Own s ∧ Handle s 0 0 ∧ s.step (.reset 0) = .ok s' ∧
    prop s' 0 "k" = some (.bool true) ∧ entry s' 0 "k" = none := by
  refine ⟨⟨[[("k", .bool true)]], [some 0], [some 0]⟩, ⟨[[("k", .bool true)], []], [some 0], [some 1]⟩,
    ?_, ⟨0, rfl, rfl⟩, rfl, rfl, rfl⟩
  exact .step (op := .set 0 "k" (.bool true)) (.step (op := .props 0) (.step (op := .new) .start id rfl) id rfl) id rfl

/-- Two new routes keep apart. -/
example : (PropStore.run (F := Toy) {} [.new, .new, .props 0, .props 1, .set 0 "a" (.int 1), .set 1 "a" (.int 2),
    .merge 0 1, .remove 1 "a"]).map (fun s => (prop s 0 "a", prop s 1 "a")) = .ok (some (.int 2), none) := by
  rfl

/-- A nil map. -/
example : PropStore.run (F := Toy) {} [.declare, .set 0 "a" (.int 1)] = .error .nilDeref := rfl

end C105
end GpsGen
