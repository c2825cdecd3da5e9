import Verif.Model.Slices
/-!
# C109: lists handed out do not change behind anybody's back

Navigators, routes, devices and generators keep their elements in slices that they change in place. Any
program over any number of such lists and any number of slices held by the client, whatever the runtime
does when a slice must grow: every list behaves like a list of its own, and a slice that `Routes()` or
`Sensors()` returned shows what it showed when it was returned, until the client writes into it. Such a
write changes no list of the library.
-/

namespace GpsGen
namespace C109
open Slices

/-! ## Specification: lists as values -/

/-- What a reader of the documentation expects: plain lists, shared by nobody. -/
structure Lists where
  owned : Nat → List Nat
  held : List (List Cell)

/-- Adding one argument: nil and known ids are left out. -/
def addNew (key : Nat → String) (l : List Nat) : Cell → List Nat
  | none => l
  | some p => if l.any (key · == key p) then l else l ++ [p]

def Lists.change (a : Lists) (k : Nat) (l : List Nat) : Lists :=
  { a with owned := fun j => if j = k then l else a.owned j }

def Lists.step (key : Nat → String) (a : Lists) : Op → Lists
  | .add k c => a.change k (((a.held[c]?).getD []).foldl (addNew key) (a.owned k))
  | .push k p => a.change k (a.owned k ++ [p])
  | .remove k id => a.change k ((a.owned k).eraseP (key · == id))
  | .reset k _ => a.change k []
  | .list k => { a with held := a.held ++ [(a.owned k).map some] }
  | .mine xs => { a with held := a.held ++ [xs] }
  | .write c i x => { a with held := a.held.modify c (·.set i x) }

def Lists.run (key : Nat → String) (ops : List Op) : Lists :=
  ops.foldl (Lists.step key) ⟨fun _ => [], []⟩

/-! ## Proof: slices -/

theorem view_length (h : Heap) (s : Slice) : (h.view s).length = s.len := by simp [Heap.view]

theorem view_get (h : Heap) (s : Slice) (i : Nat) (hi : i < (h.view s).length) :
    (h.view s)[i] = h.cells s.arr (s.off + i) := by simp [Heap.view]

theorem view_zero (h : Heap) (s : Slice) (h0 : s.len = 0) : h.view s = [] := by simp [Heap.view, h0]

theorem view_congr {h h' : Heap} {s : Slice} (e : ∀ i, h'.cells s.arr i = h.cells s.arr i) :
    h'.view s = h.view s := by simp [Heap.view, e]

/-- The slice fits into its array, and the array is allocated. -/
def Ok (h : Heap) (s : Slice) : Prop := s.len ≤ s.cap ∧ (0 < s.cap → s.arr < h.next)

/-- No cell belongs to both. -/
def Apart (s t : Slice) : Prop := s.cap = 0 ∨ t.cap = 0 ∨ s.arr ≠ t.arr

/-- What every function does to the slice `s` it is given, and to nothing else. -/
structure Did (h : Heap) (s : Slice) (h' : Heap) (s' : Slice) : Prop where
  next : h.next ≤ h'.next
  frame : ∀ a, a < h.next → a ≠ s.arr ∨ s.cap = 0 → ∀ i, h'.cells a i = h.cells a i
  ok : Ok h' s'
  place : s'.cap = 0 ∨ h.next ≤ s'.arr ∨ (s'.arr = s.arr ∧ 0 < s.cap)

theorem did_refl {h : Heap} {s : Slice} (k : Ok h s) : Did h s h s := by
  refine ⟨Nat.le_refl _, fun _ _ _ _ => rfl, k, ?_⟩
  by_cases h0 : s.cap = 0
  · exact Or.inl h0
  · exact Or.inr (Or.inr ⟨rfl, by omega⟩)

theorem did_trans {h h1 h2 : Heap} {s s1 s2 : Slice} (p : Did h s h1 s1) (q : Did h1 s1 h2 s2) :
    Did h s h2 s2 := by
  refine ⟨Nat.le_trans p.next q.next, ?_, q.ok, ?_⟩
  · intro a ha hs i
    rw [q.frame a (by have := p.next; omega) ?_ i, p.frame a ha hs i]
    rcases p.place with e | e | ⟨e, e'⟩
    · exact Or.inr e
    · exact Or.inl (by omega)
    · rcases hs with hs | hs
      · exact Or.inl (by omega)
      · omega
  · have := p.next
    rcases q.place with e | e | ⟨e, e'⟩
    · exact Or.inl e
    · exact Or.inr (Or.inl (by omega))
    · rcases p.place with f | f | ⟨f, f'⟩
      · omega
      · exact Or.inr (Or.inl (by omega))
      · exact Or.inr (Or.inr ⟨e.trans f, f'⟩)

/-- Slices apart from the one worked on are not affected. -/
theorem did_view {h h' : Heap} {s s' t : Slice} (p : Did h s h' s') (k : Ok h t) (a : Apart s t) :
    h'.view t = h.view t := by
  by_cases h0 : t.cap = 0
  · have : t.len = 0 := by have := k.1; omega
    rw [view_zero _ _ this, view_zero _ _ this]
  · refine view_congr (p.frame _ (k.2 (by omega)) ?_)
    rcases a with a | a | a
    · exact Or.inr a
    · exact absurd a h0
    · exact Or.inl (Ne.symm a)

theorem did_apart {h h' : Heap} {s s' t : Slice} (p : Did h s h' s') (k : Ok h t) (a : Apart s t) :
    Apart s' t := by
  unfold Apart at *
  by_cases h0 : t.cap = 0
  · exact Or.inr (Or.inl h0)
  · have := k.2 (by omega)
    rcases p.place with e | e | ⟨e, e'⟩
    · exact Or.inl e
    · exact Or.inr (Or.inr (by omega))
    · rcases a with a | a | a
      · omega
      · exact absurd a h0
      · exact Or.inr (Or.inr (by rw [e]; exact a))

theorem ok_mono {h h' : Heap} {t : Slice} (k : Ok h t) (n : h.next ≤ h'.next) : Ok h' t :=
  ⟨k.1, fun h0 => Nat.lt_of_lt_of_le (k.2 h0) n⟩

theorem put_get (h : Heap) (a i j : Nat) (xs : List Cell) (hj : j < xs.length) :
    (h.put a i xs).cells a (i + j) = xs[j] := by
  simp only [Heap.put]
  rw [if_pos ⟨trivial, by omega, by omega⟩]
  simp [show i + j - i = j by omega, List.getD_eq_getElem?_getD, hj]

theorem put_other (h : Heap) (a i b j : Nat) (xs : List Cell) (hj : b ≠ a ∨ j < i ∨ i + xs.length ≤ j) :
    (h.put a i xs).cells b j = h.cells b j := by
  simp only [Heap.put]
  rw [if_neg (by omega)]

theorem view_put_all (h : Heap) (s : Slice) (xs : List Cell) (e : s.len = xs.length) :
    (h.put s.arr s.off xs).view s = xs := by
  apply List.ext_getElem
  · rw [view_length, e]
  · intro i h1 h2
    rw [view_get, put_get _ _ _ _ _ h2]

/-- `append` appends, and touches nothing else. -/
theorem append_spec (grow : Nat → Nat → Nat) {h : Heap} {s : Slice} (k : Ok h s) (xs : List Cell) :
    Did h s (h.append grow s xs).1 (h.append grow s xs).2 ∧
    (h.append grow s xs).1.view (h.append grow s xs).2 = h.view s ++ xs := by
  unfold Heap.append
  split
  · rename_i hc
    refine ⟨⟨Nat.le_refl _, ?_, ⟨hc, k.2⟩, ?_⟩, ?_⟩
    · intro a _ hs i
      refine put_other _ _ _ _ _ _ ?_
      rcases hs with hs | hs
      · exact Or.inl hs
      · omega
    · by_cases h0 : s.cap = 0
      · exact Or.inl h0
      · exact Or.inr (Or.inr ⟨rfl, by omega⟩)
    · apply List.ext_getElem
      · simp [view_length]
      · intro i h1 h2
        rw [view_get]
        by_cases hi : i < s.len
        · rw [List.getElem_append_left (by rw [view_length]; exact hi), view_get]
          exact put_other _ _ _ _ _ _ (Or.inr (Or.inl (by show s.off + i < s.off + s.len; omega)))
        · rw [List.getElem_append_right (by rw [view_length]; omega)]
          simp only [view_length] at h1 ⊢
          rw [show s.off + i = s.off + s.len + (i - s.len) by omega, put_get _ _ _ _ _ (by omega)]
  · refine ⟨⟨by simp [Heap.make, Heap.put], ?_, ⟨by simp [Heap.make], by simp [Heap.make, Heap.put]⟩, ?_⟩, ?_⟩
    · intro a ha _ i
      rw [put_other _ _ _ _ _ _ (Or.inl (by simp only [Heap.make]; omega))]
      simp only [Heap.make]
      rw [if_neg (by omega)]
    · exact Or.inr (Or.inl (Nat.le_refl _))
    · exact view_put_all _ (h.make _ _).2 _ (by simp [Heap.make, view_length])

/-- The nil slice. -/
def nilSlice : Slice := ⟨0, 0, 0, 0⟩

theorem make_spec (h : Heap) (n c : Nat) (hn : n ≤ c) : Did h nilSlice (h.make n c).1 (h.make n c).2 := by
  refine ⟨by simp [Heap.make], ?_, ⟨hn, by simp [Heap.make]⟩, Or.inr (Or.inl (Nat.le_refl _))⟩
  intro a ha _ i
  simp only [Heap.make]
  rw [if_neg (by omega)]

theorem fill_spec (h : Heap) (n : Nat) (xs : List Cell) (e : n = xs.length) :
    Did h nilSlice ((h.make n n).1.put (h.make n n).2.arr 0 xs) (h.make n n).2 ∧
    ((h.make n n).1.put (h.make n n).2.arr 0 xs).view (h.make n n).2 = xs := by
  refine ⟨⟨by simp [Heap.make, Heap.put], ?_, ⟨Nat.le_refl _, by simp [Heap.make, Heap.put]⟩,
    Or.inr (Or.inl (Nat.le_refl _))⟩, view_put_all _ (h.make n n).2 _ e⟩
  intro a ha hs i
  rw [put_other _ _ _ _ _ _ (Or.inl (by simp only [Heap.make]; omega))]
  exact (make_spec h n n (Nat.le_refl _)).frame a ha hs i

theorem listOf_spec (h : Heap) {s : Slice} (k : Ok h s) :
    Did h nilSlice (h.listOf s).1 (h.listOf s).2 ∧ (h.listOf s).1.view (h.listOf s).2 = h.view s := by
  have e : (h.make s.len s.len).1.view s = h.view s :=
    did_view (make_spec h s.len s.len (Nat.le_refl _)) k (Or.inl rfl)
  have t : ((h.make s.len s.len).1.view s).take (h.make s.len s.len).2.len = h.view s := by
    rw [e]
    exact List.take_of_length_le (by simp [view_length, Heap.make])
  have := fill_spec h s.len (h.view s) (view_length h s).symm
  unfold Heap.listOf Heap.copy
  simp only [t]
  exact this

theorem has_eq (h : Heap) (key : Nat → String) (s : Slice) (id : String) (l : List Nat)
    (hv : h.view s = l.map some) : h.has key s id = l.any (key · == id) := by
  unfold Heap.has
  rw [hv, List.any_map]
  rfl

theorem addLoop_spec (grow : Nat → Nat → Nat) (key : Nat → String) (args : Slice) (n : Nat) :
    ∀ (h : Heap) (s : Slice) (l : List Nat), Ok h s → Ok h args → Apart s args → n ≤ args.len →
      h.view s = l.map some →
      Did h s (h.addLoop grow key s args n).1 (h.addLoop grow key s args n).2 ∧
      (h.addLoop grow key s args n).1.view (h.addLoop grow key s args n).2 =
        (((h.view args).drop (args.len - n)).foldl (addNew key) l).map some := by
  induction n with
  | zero =>
    intro h s l k _ _ _ hv
    refine ⟨did_refl k, ?_⟩
    rw [List.drop_of_length_le (by rw [view_length]; omega)]
    exact hv
  | succ n ih =>
    intro h s l k ka ap hn hv
    have hd : (h.view args).drop (args.len - (n + 1)) =
        h.cells args.arr (args.off + (args.len - (n + 1))) :: (h.view args).drop (args.len - n) := by
      rw [List.drop_eq_getElem_cons (by rw [view_length]; omega), view_get,
        show args.len - (n + 1) + 1 = args.len - n by omega]
    rw [hd]
    unfold Heap.addLoop
    cases hc : h.cells args.arr (args.off + (args.len - (n + 1))) with
    | none => exact ih h s l k ka ap (by omega) hv
    | some p =>
      simp only [List.foldl_cons, addNew]
      rw [has_eq h key s _ l hv]
      split
      · exact ih h s l k ka ap (by omega) hv
      · obtain ⟨d1, v1⟩ := append_spec grow k [some p]
        have va := did_view d1 ka ap
        obtain ⟨d2, v2⟩ := ih _ _ (l ++ [p]) d1.ok (ok_mono ka d1.next) (did_apart d1 ka ap) (by omega)
          (by rw [v1, hv]; simp)
        rw [va] at v2
        exact ⟨did_trans d1 d2, v2⟩

theorem removeLoop_spec (grow : Nat → Nat → Nat) (key : Nat → String) (id : String) {h : Heap} {s : Slice}
    (k : Ok h s) (n : Nat) : ∀ (l r : List Nat), n ≤ s.len → h.view s = (l ++ r).map some → r.length = n →
      Did h s (h.removeLoop grow key s id n).1 (h.removeLoop grow key s id n).2 ∧
      (h.removeLoop grow key s id n).1.view (h.removeLoop grow key s id n).2 =
        (l ++ r.eraseP (key · == id)).map some := by
  induction n with
  | zero =>
    intro l r _ hv hr
    rw [List.length_eq_zero_iff.mp hr] at hv ⊢
    exact ⟨did_refl k, hv⟩
  | succ n ih =>
    intro l r hn hv hr
    match r, hr with
    | p :: r, hr =>
    have hlen : s.len = l.length + (n + 1) := by
      have := congrArg List.length hv
      simp only [view_length, List.length_map, List.length_append, hr] at this
      exact this
    have hi : s.len - (n + 1) = l.length := by omega
    have hc : h.cells s.arr (s.off + l.length) = some p := by
      have h1 : l.length < (h.view s).length := by rw [view_length]; omega
      rw [← view_get h s l.length h1]
      simp [hv]
    unfold Heap.removeLoop
    simp only [hi, hc]
    by_cases hk : key p = id
    · rw [if_pos hk]
      have ku : Ok h (s.upTo l.length) := ⟨by have := k.1; simp only [Slice.upTo]; omega, k.2⟩
      obtain ⟨d, v⟩ := append_spec grow ku (h.view (s.from (l.length + 1)))
      refine ⟨⟨d.next, d.frame, d.ok, d.place⟩, ?_⟩
      rw [v]
      have e1 : h.view (s.upTo l.length) = l.map some := by
        have : h.view (s.upTo l.length) = (h.view s).take l.length := by
          apply List.ext_getElem
          · simp only [view_length, List.length_take, Slice.upTo]; omega
          · intro i h1 h2
            rw [List.getElem_take, view_get, view_get]
            rfl
        rw [this, hv]
        simp
      have e2 : h.view (s.from (l.length + 1)) = r.map some := by
        have : h.view (s.from (l.length + 1)) = (h.view s).drop (l.length + 1) := by
          apply List.ext_getElem
          · simp only [view_length, List.length_drop, Slice.from]
          · intro i h1 h2
            rw [List.getElem_drop, view_get, view_get]
            simp only [Slice.from]
            congr 1
            omega
        rw [this, hv, List.map_append, List.map_cons, List.drop_append]
        simp
      rw [e1, e2]
      simp [hk]
    · rw [if_neg hk]
      have := ih (l ++ [p]) r (by omega) (by simpa using hv) (by simpa using hr)
      simpa [List.eraseP_cons, hk] using this

/-! ## Proof: programs -/

/-- The slices of a program: the lists of the library and the slices of the client. -/
def slot (w : World) : Nat ⊕ Nat → Option Slice
  | .inl k => some (w.owned k)
  | .inr c => w.held[c]?

/-- The slices fit and share nothing. -/
structure Sound (w : World) : Prop where
  ok : ∀ x s, slot w x = some s → Ok w.heap s
  apart : ∀ x y s t, x ≠ y → slot w x = some s → slot w y = some t → Apart s t

/-- Replacing the slice in one slot by what a function made of a slice apart from all other slots. -/
theorem sound_change {w w' : World} {x : Nat ⊕ Nat} {s s' : Slice} (h : Sound w)
    (ha : ∀ y t, y ≠ x → slot w y = some t → Apart s t) (d : Did w.heap s w'.heap s')
    (hx : slot w' x = some s') (hy : ∀ y, y ≠ x → slot w' y = slot w y) :
    Sound w' ∧ ∀ y t, y ≠ x → slot w y = some t → w'.heap.view t = w.heap.view t := by
  have key : ∀ y t, y ≠ x → slot w' y = some t → Ok w.heap t ∧ Apart s t ∧ Apart s' t := by
    intro y t hne ht
    rw [hy y hne] at ht
    exact ⟨h.ok y t ht, ha y t hne ht, did_apart d (h.ok y t ht) (ha y t hne ht)⟩
  refine ⟨⟨?_, ?_⟩, ?_⟩
  · intro y t ht
    by_cases e : y = x
    · rw [e, hx] at ht; cases ht; exact d.ok
    · exact ok_mono (key y t e ht).1 d.next
  · intro y z t u hne ht hu
    by_cases ey : y = x
    · have ez : z ≠ x := fun ez => hne (ey.trans ez.symm)
      rw [ey, hx] at ht; cases ht
      exact (key z u ez hu).2.2
    · by_cases ez : z = x
      · rw [ez, hx] at hu; cases hu
        have := (key y t ey ht).2.2
        unfold Apart at *
        rcases this with e | e | e
        · exact Or.inr (Or.inl e)
        · exact Or.inl e
        · exact Or.inr (Or.inr (Ne.symm e))
      · rw [hy y ey] at ht
        rw [hy z ez] at hu
        exact h.apart y z t u hne ht hu
  · intro y t hne ht
    exact did_view d (h.ok y t ht) (ha y t hne ht)

/-- The program shows what the specification says. -/
def Shows (w : World) (a : Lists) : Prop :=
  (∀ k, w.heap.view (w.owned k) = (a.owned k).map some) ∧ w.held.map w.heap.view = a.held

theorem own_change {w : World} {a : Lists} {k : Nat} {h' : Heap} {s s' : Slice} {l : List Nat}
    (h : Sound w) (sh : Shows w a) (ha : ∀ y t, y ≠ .inl k → slot w y = some t → Apart s t)
    (d : Did w.heap s h' s') (hv : h'.view s' = l.map some) :
    Sound { w with heap := h', owned := fun j => if j = k then s' else w.owned j } ∧
    Shows { w with heap := h', owned := fun j => if j = k then s' else w.owned j } (a.change k l) := by
  obtain ⟨h1, h2⟩ := sound_change (x := .inl k)
    (w' := { w with heap := h', owned := fun j => if j = k then s' else w.owned j }) h ha d
    (by simp [slot]) (by
      rintro (j | c) hne
      · have : j ≠ k := fun e => hne (by rw [e])
        simp [slot, this]
      · rfl)
  refine ⟨h1, ?_, ?_⟩
  · intro j
    simp only [Lists.change]
    by_cases e : j = k
    · simpa [e] using hv
    · simp only [e, if_false]
      rw [← sh.1 j]
      exact h2 (.inl j) _ (by simpa using e) rfl
  · rw [show (a.change k l).held = a.held from rfl, ← sh.2]
    apply List.map_congr_left
    intro t ht
    obtain ⟨c, hc⟩ := List.mem_iff_getElem?.mp ht
    exact h2 (.inr c) t (by simp) hc

theorem held_more {w : World} {a : Lists} {h' : Heap} {s' : Slice} {xs : List Cell}
    (h : Sound w) (sh : Shows w a) (d : Did w.heap nilSlice h' s') (hv : h'.view s' = xs) :
    Sound { w with heap := h', held := w.held ++ [s'] } ∧
    Shows { w with heap := h', held := w.held ++ [s'] } { a with held := a.held ++ [xs] } := by
  obtain ⟨h1, h2⟩ := sound_change (x := .inr w.held.length)
    (w' := { w with heap := h', held := w.held ++ [s'] }) h (fun _ _ _ _ => Or.inl rfl) d
    (by simp [slot]) (by
      rintro (j | c) hne
      · rfl
      · have : c ≠ w.held.length := fun e => hne (by rw [e])
        simp only [slot, List.getElem?_append]
        split
        · rfl
        · rw [List.getElem?_eq_none (l := w.held) (by omega), List.getElem?_eq_none]
          simp only [List.length_cons, List.length_nil]
          omega)
  refine ⟨h1, fun k => ?_, ?_⟩
  · rw [← sh.1 k]
    exact h2 (.inl k) _ (by simp) rfl
  · simp only [List.map_append, List.map_cons, List.map_nil, hv]
    rw [← sh.2]
    congr 1
    apply List.map_congr_left
    intro t ht
    obtain ⟨c, hc⟩ := List.mem_iff_getElem?.mp ht
    refine h2 (.inr c) t ?_ hc
    intro e
    have hlt := (List.getElem?_eq_some_iff.mp hc).1
    have := Sum.inr.inj e
    omega

theorem write_spec {h : Heap} {s : Slice} (k : Ok h s) (i : Nat) (x : Cell) (hi : i < s.len) :
    Did h s (h.put s.arr (s.off + i) [x]) s ∧ (h.put s.arr (s.off + i) [x]).view s = (h.view s).set i x := by
  have hc : 0 < s.cap := by have := k.1; omega
  refine ⟨⟨Nat.le_refl _, ?_, k, Or.inr (Or.inr ⟨rfl, hc⟩)⟩, ?_⟩
  · intro a _ hs j
    exact put_other _ _ _ _ _ _ (Or.inl (by omega))
  · apply List.ext_getElem
    · simp [view_length]
    · intro j h1 h2
      rw [view_get, List.getElem_set]
      split
      · rename_i e
        subst e
        exact put_get h s.arr (s.off + i) 0 [x] (by simp)
      · rw [view_get]
        exact put_other _ _ _ _ _ _ (by simp only [List.length_cons, List.length_nil]; omega)

theorem step_sound (grow : Nat → Nat → Nat) (key : Nat → String) {w : World} {a : Lists} (h : Sound w)
    (sh : Shows w a) (op : Op) : Sound (w.step grow key op) ∧ Shows (w.step grow key op) (a.step key op) := by
  have own : ∀ k, Ok w.heap (w.owned k) := fun k => h.ok (.inl k) _ rfl
  have others : ∀ k y t, y ≠ .inl k → slot w y = some t → Apart (w.owned k) t :=
    fun k y t hne ht => h.apart (.inl k) y _ t (Ne.symm hne) rfl ht
  have hheld : ∀ c : Nat, a.held[c]? = (w.held[c]?).map w.heap.view := by
    intro c; rw [← sh.2, List.getElem?_map]
  cases op with
  | add k c =>
    simp only [World.step, Lists.step, hheld]
    cases hc : w.held[c]? with
    | none =>
      refine ⟨h, ?_, sh.2⟩
      intro j
      simp only [Lists.change, Option.map_none, Option.getD_none, List.foldl_nil]
      split
      · rename_i e; rw [e]; exact sh.1 k
      · exact sh.1 j
    | some args =>
      have ka : Ok w.heap args := h.ok (.inr c) args hc
      obtain ⟨d, v⟩ := addLoop_spec grow key args args.len w.heap (w.owned k) (a.owned k) (own k) ka
        (others k (.inr c) args (by simp) hc) (Nat.le_refl _) (sh.1 k)
      simp only [Nat.sub_self, List.drop_zero] at v
      exact own_change h sh (others k) d v
  | push k p =>
    obtain ⟨d, v⟩ := append_spec grow (own k) [some p]
    have v' := v.trans (show _ = (a.owned k ++ [p]).map some by rw [sh.1 k]; simp)
    exact own_change h sh (others k) d v'
  | remove k id =>
    have hl : (a.owned k).length = (w.owned k).len := by
      have := congrArg List.length (sh.1 k)
      simpa [view_length] using this.symm
    obtain ⟨d, v⟩ := removeLoop_spec grow key id (own k) (w.owned k).len [] (a.owned k) (Nat.le_refl _)
      (by simpa using sh.1 k) hl
    exact own_change h sh (others k) d (by simpa using v)
  | reset k cap =>
    exact own_change h sh (s := nilSlice) (fun _ _ _ _ => Or.inl rfl) (make_spec w.heap 0 cap (Nat.zero_le _))
      (by rw [view_zero _ _ rfl]; rfl)
  | list k =>
    obtain ⟨d, v⟩ := listOf_spec w.heap (own k)
    exact held_more h sh d (v.trans (sh.1 k))
  | mine xs =>
    obtain ⟨d, v⟩ := fill_spec w.heap xs.length xs rfl
    exact held_more h sh d v
  | write c i x =>
    simp only [World.step, Lists.step]
    cases hc : w.held[c]? with
    | none =>
      have : a.held.modify c (·.set i x) = a.held := by
        apply List.modify_eq_self
        have := hheld c
        rw [hc] at this
        exact List.getElem?_eq_none_iff.mp this
      exact ⟨h, by rw [this]; exact sh⟩
    | some s =>
      have hac : a.held[c]? = some (w.heap.view s) := by rw [hheld, hc]; rfl
      simp only
      split
      · rename_i hi
        obtain ⟨d, v⟩ := write_spec (h.ok (.inr c) s hc) i x hi
        obtain ⟨h1, h2⟩ := sound_change (x := .inr c)
          (w' := { w with heap := w.heap.put s.arr (s.off + i) [x] }) h
          (fun y t hne ht => h.apart (.inr c) y s t (Ne.symm hne) hc ht) d hc (fun _ _ => rfl)
        refine ⟨h1, fun k => ?_, ?_⟩
        · rw [← sh.1 k]
          exact h2 (.inl k) _ (by simp) rfl
        · apply List.ext_getElem?
          intro j
          rw [List.getElem?_modify, List.getElem?_map, hheld]
          by_cases e : c = j
          · subst e
            simp [hc, v]
          · cases hj : w.held[j]? with
            | none => simp
            | some t =>
              simp only [Option.map_some, e, if_false]
              rw [h2 (.inr j) t (by simpa using Ne.symm e) hj]
              rfl
      · rename_i hi
        refine ⟨h, sh.1, ?_⟩
        rw [sh.2]
        apply List.ext_getElem?
        intro j
        rw [List.getElem?_modify]
        by_cases e : c = j
        · subst e
          simp only [hac, if_true]
          rw [Option.map_eq_map, Option.map_some, List.set_eq_of_length_le (by rw [view_length]; omega)]
        · simp [e]

theorem init_sound : Sound World.init ∧ Shows World.init ⟨fun _ => [], []⟩ := by
  refine ⟨⟨?_, ?_⟩, fun _ => rfl, rfl⟩
  · rintro (k | c) s hs
    · cases hs; exact ⟨Nat.le_refl _, fun h => absurd h (by simp [World.init])⟩
    · simp [slot, World.init] at hs
  · rintro (k | c) y s t _ hs _
    · cases hs; exact Or.inl rfl
    · simp [slot, World.init] at hs

theorem run_sound (grow : Nat → Nat → Nat) (key : Nat → String) (ops : List Op) :
    Sound (World.run grow key ops) ∧ Shows (World.run grow key ops) (Lists.run key ops) := by
  unfold World.run Lists.run
  have : ∀ (w : World) (a : Lists), Sound w ∧ Shows w a →
      Sound (ops.foldl (World.step grow key) w) ∧
      Shows (ops.foldl (World.step grow key) w) (ops.foldl (Lists.step key) a) := by
    induction ops with
    | nil => intro w a h; exact h
    | cons op ops ih => intro w a h; exact ih _ _ (step_sound grow key h.1 h.2 op)
  exact this _ _ init_sound

/-! ## The claim -/

/-- **C109.** After any program every list of the library and every slice of the client shows exactly
what it would show if lists were values. In particular no list ever holds nil. -/
theorem like_values (grow : Nat → Nat → Nat) (key : Nat → String) (ops : List Op) :
    let w := World.run grow key ops
    (∀ k, w.heap.view (w.owned k) = ((Lists.run key ops).owned k).map some) ∧
    w.held.map w.heap.view = (Lists.run key ops).held :=
  (run_sound grow key ops).2

/-- **C109, snapshots.** A slice in the hands of the client shows the same after any further calls, as
long as the client itself does not write into it. -/
theorem handed_out_stays (grow : Nat → Nat → Nat) (key : Nat → String) (ops more : List Op) (c : Nat)
    (s : Slice) (hs : (World.run grow key ops).held[c]? = some s)
    (hw : ∀ i x, Op.write c i x ∉ more) :
    (World.run grow key (ops ++ more)).held[c]? = some s ∧
    (World.run grow key (ops ++ more)).heap.view s = (World.run grow key ops).heap.view s := by
  have keep : ∀ (more : List Op) (a : Lists), (∀ i x, Op.write c i x ∉ more) → c < a.held.length →
      (more.foldl (Lists.step key) a).held[c]? = a.held[c]? := by
    intro more
    induction more with
    | nil => intro a _ _; rfl
    | cons op more ih =>
      intro a hw hc
      have one : (a.step key op).held[c]? = a.held[c]? ∧ c < (a.step key op).held.length := by
        cases op with
        | list k => simp [Lists.step, List.getElem?_append, hc]; omega
        | mine xs => simp [Lists.step, List.getElem?_append, hc]; omega
        | write d i x =>
          have : d ≠ c := fun e => hw i x (by rw [e]; exact List.mem_cons_self)
          refine ⟨?_, by simpa [Lists.step] using hc⟩
          simp [Lists.step, this]
        | _ => exact ⟨rfl, hc⟩
      rw [List.foldl_cons, ih _ (fun i x hm => hw i x (List.mem_cons_of_mem _ hm)) one.2, one.1]
  have keepS : ∀ (more : List Op) (w : World), w.held[c]? = some s →
      (more.foldl (World.step grow key) w).held[c]? = some s := by
    intro more
    induction more with
    | nil => intro w h; exact h
    | cons op more ih =>
      intro w h
      refine ih _ ?_
      have hlt := (List.getElem?_eq_some_iff.mp h).1
      cases op with
      | list k => simp only [World.step]; rw [List.getElem?_append_left hlt]; exact h
      | mine xs => simp only [World.step]; rw [List.getElem?_append_left hlt]; exact h
      | write d i x => simp only [World.step]; split <;> (try split) <;> exact h
      | add k d => simp only [World.step]; split <;> exact h
      | _ => exact h
  have h1 : (World.run grow key (ops ++ more)).held[c]? = some s := by
    unfold World.run
    rw [List.foldl_append]
    exact keepS more _ hs
  refine ⟨h1, ?_⟩
  have e1 := congrArg (·[c]?) (like_values grow key (ops ++ more)).2
  have e2 := congrArg (·[c]?) (like_values grow key ops).2
  simp only [List.getElem?_map, h1, hs, Option.map_some] at e1 e2
  have hc : c < (Lists.run key ops).held.length := (List.getElem?_eq_some_iff.mp e2.symm).1
  have e3 : (Lists.run key (ops ++ more)).held[c]? = (Lists.run key ops).held[c]? := by
    unfold Lists.run
    rw [List.foldl_append]
    exact keep more _ hw hc
  rw [e3, ← e2] at e1
  exact Option.some.inj e1

/-- **C109, privacy.** Nothing the client does with its own slices changes a list of the library. -/
theorem client_harmless (grow : Nat → Nat → Nat) (key : Nat → String) (ops : List Op) (c i k : Nat) (x : Cell) :
    let w := World.run grow key ops
    let w' := World.run grow key (ops ++ [.write c i x])
    w'.heap.view (w'.owned k) = w.heap.view (w.owned k) := by
  have e1 := (like_values grow key (ops ++ [.write c i x])).1 k
  have e2 := (like_values grow key ops).1 k
  simp only at e1 e2 ⊢
  rw [e1, e2]
  unfold Lists.run
  rw [List.foldl_append]
  rfl

/-! ## A concrete case -/

/-- Pointers 1 to 4, pointer 4 with the id of pointer 2. -/
def ids : Nat → String
  | 1 => "a" | 2 => "b" | 3 => "c" | 4 => "b" | _ => "z"

/-- Four routes are offered, one of them nil and one with a known id; the list is handed out; the first
route is removed in place; the client overwrites its own slice; a route is added again. -/
def demo : List Op :=
  [.mine [some 1, none, some 2, some 4, some 3], .add 0 0, .list 0, .remove 0 "a", .list 0,
   .write 2 0 none, .push 0 1]

def shown (ops : List Op) : List Cell × List (List Cell) :=
  let w := World.run (fun c _ => c) ids ops
  (w.heap.view (w.owned 0), w.held.map w.heap.view)

example : shown (demo.take 3) = ([some 1, some 2, some 3],
    [[some 1, none, some 2, some 4, some 3], [some 1, some 2, some 3]]) := by decide +kernel
example : shown demo = ([some 2, some 3, some 1],
    [[some 1, none, some 2, some 4, some 3], [some 1, some 2, some 3], [none, some 3]]) := by decide +kernel

/-- A program that hands out the slice itself instead of a copy would break both theorems: after the
removal in place the slice handed out shows route 3 twice. -/
example :
    let w := World.run (fun c _ => c) ids (demo.take 2)
    let s := w.owned 0
    let h := (w.heap.removeLoop (fun c _ => c) ids s "a" s.len).1
    (w.heap.view s, h.view s) = ([some 1, some 2, some 3], [some 2, some 3, some 3]) := by decide +kernel

end C109
end GpsGen
