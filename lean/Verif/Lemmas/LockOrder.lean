import Verif.Model.Locks

/-!
Lemmas about the locks of devices and generators: they are taken in an order, so nobody waits forever.
-/

namespace GpsGen
namespace Locks

/-- All goroutines are finished and hold nothing. -/
def Finished (s : List Thread) : Prop := ∀ t ∈ s, t.prog = .done ∧ t.held = []

/-- Nobody can do anything. -/
def Stuck (s : List Thread) : Prop := ∀ s', ¬ Step s s'

/-- The number of lock operations of a program, each counted twice, both branches of `TryLock` together. -/
def ops : Prog → Nat
  | .done => 0
  | .acq _ _ k => ops k + 2
  | .rel _ k => ops k + 2
  | .try _ a b => ops a + ops b + 2

/-! ## The order of the locks -/

/-- Generator before packet before device. -/
def rank : Lock → Nat
  | .gen => 0
  | .packet => 1
  | .dev _ => 2

/-- The program takes locks in order, gives back the last one first, and ends with none. -/
def Ordered : List (Lock × Mode) → Prog → Prop
  | held, .done => held = []
  | held, .acq l m k => (∀ p ∈ held, rank p.1 < rank l) ∧ Ordered ((l, m) :: held) k
  | held, .rel l k => ∃ m held', held = (l, m) :: held' ∧ Ordered held' k
  | held, .try l a b => Ordered ((l, .write) :: held) a ∧ Ordered held b

/-- The program takes locks above `held` only and gives all of them back: afterwards `held` is as it was. -/
def Balanced (held : List (Lock × Mode)) (p : Prog) : Prop := ∀ q, Ordered held q → Ordered held (p.seq q)

theorem balanced_done (held) : Balanced held .done := fun _ h => h

theorem seq_assoc (p q r : Prog) : (p.seq q).seq r = p.seq (q.seq r) := by
  induction p with
  | done => rfl
  | acq l m k ih => simp only [Prog.seq, ih]
  | rel l k ih => simp only [Prog.seq, ih]
  | «try» l a b iha ihb => simp only [Prog.seq, iha, ihb]

theorem seq_done (p : Prog) : p.seq .done = p := by
  induction p with
  | done => rfl
  | acq l m k ih => simp only [Prog.seq, ih]
  | rel l k ih => simp only [Prog.seq, ih]
  | «try» l a b iha ihb => simp only [Prog.seq, iha, ihb]

theorem balanced_seq {held p q} (hp : Balanced held p) (hq : Balanced held q) : Balanced held (p.seq q) := by
  intro r hr
  rw [seq_assoc]
  exact hp _ (hq _ hr)

theorem balanced_all {held} {ps : List Prog} (h : ∀ p ∈ ps, Balanced held p) : Balanced held (.all ps) := by
  induction ps with
  | nil => exact balanced_done held
  | cons p ps ih =>
    exact balanced_seq (h p (List.mem_cons_self ..)) (ih fun q hq => h q (List.mem_cons_of_mem _ hq))

theorem balanced_under {held l m body} (hr : ∀ p ∈ held, rank p.1 < rank l) (hb : Balanced ((l, m) :: held) body) :
    Balanced held (.under l m body) := by
  intro q hq
  refine ⟨hr, ?_⟩
  change Ordered _ ((body.seq (.rel l .done)).seq q)
  rw [seq_assoc]
  exact hb _ ⟨m, held, rfl, hq⟩

theorem balanced_dev (c : DevCall) {held : List (Lock × Mode)} (hr : ∀ p ∈ held, rank p.1 < 2) :
    Balanced held c.prog := by
  rcases c with d | d | d | ⟨d, _ | _⟩
  · exact balanced_under hr (balanced_done _)
  · exact balanced_under hr (balanced_done _)
  · intro q hq
    exact ⟨⟨_, _, rfl, hq⟩, hq⟩
  · exact balanced_done _
  · exact balanced_under hr (balanced_done _)

theorem balanced_ids (ds : List Nat) {held : List (Lock × Mode)} (hr : ∀ p ∈ held, rank p.1 < 2) :
    Balanced held (ids ds) := by
  apply balanced_all
  intro p hp
  obtain ⟨d, -, rfl⟩ := List.mem_map.mp hp
  exact balanced_dev (.reader d) hr

theorem balanced_store (ds : List Nat) {held : List (Lock × Mode)} (hr : ∀ p ∈ held, rank p.1 < 1) :
    Balanced held (store ds) := by
  apply balanced_all
  intro p hp
  obtain ⟨d, -, rfl⟩ := List.mem_map.mp hp
  refine balanced_under hr (balanced_dev (.reader d) ?_)
  intro p hp
  rcases List.mem_cons.mp hp with rfl | h
  · decide
  · exact Nat.lt_succ_of_lt (hr p h)

theorem only_gen {m : Mode} {n : Nat} (hn : 0 < n) : ∀ p ∈ [((Lock.gen, m) : Lock × Mode)], rank p.1 < n := by
  intro p hp
  rw [List.mem_singleton] at hp
  subst hp
  exact hn

theorem balanced_gen (c : GenCall) : Balanced [] c.prog := by
  have hn : ∀ l, ∀ p ∈ ([] : List (Lock × Mode)), rank p.1 < rank l := fun l p hp => absurd hp (List.not_mem_nil)
  rcases c with ds | d | ⟨ds, _ | d⟩ | body | ds | _ | _ | ⟨ds, st⟩ | st | _ | _
  · exact balanced_under (hn _) (balanced_ids ds (only_gen (by decide)))
  · exact balanced_under (hn _) (balanced_dev (.writer d) (only_gen (by decide)))
  · exact balanced_under (hn _) (balanced_ids ds (only_gen (by decide)))
  · exact balanced_under (hn _) (balanced_seq (balanced_ids ds (only_gen (by decide)))
      (balanced_dev (.writer d) (only_gen (by decide))))
  · refine balanced_under (hn _) (balanced_all ?_)
    intro p hp
    obtain ⟨c, -, rfl⟩ := List.mem_map.mp hp
    exact balanced_dev c (only_gen (by decide))
  · exact balanced_under (hn _) (balanced_ids ds (only_gen (by decide)))
  · exact balanced_under (hn _) (balanced_done _)
  · exact balanced_under (hn _) (balanced_done _)
  · refine balanced_under (hn _) (balanced_seq (balanced_all ?_) (balanced_store st (only_gen (by decide))))
    intro p hp
    obtain ⟨d, -, rfl⟩ := List.mem_map.mp hp
    exact balanced_dev (.next d) (only_gen (by decide))
  · exact balanced_under (hn _) (balanced_store st (only_gen (by decide)))
  · exact balanced_under (hn _) (balanced_done _)
  · exact balanced_under (hn _) (balanced_done _)

theorem calls_ordered (cs : List Call) : Ordered [] (calls cs) := by
  have h : Balanced [] (calls cs) := by
    apply balanced_all
    intro p hp
    obtain ⟨c, -, rfl⟩ := List.mem_map.mp hp
    rcases c with c | c
    · exact balanced_dev c (fun p hp => absurd hp (List.not_mem_nil))
    · exact balanced_gen c
  have h' := h .done rfl
  rwa [seq_done] at h'

/-! ## Executions -/

theorem mem_set_cases {s : List Thread} {i : Nat} {a t : Thread} (h : t ∈ s.set i a) : t ∈ s ∨ t = a := by
  rcases List.mem_or_eq_of_mem_set h with h | h
  · exact .inl h
  · exact .inr h

theorem mem_of_get {s : List Thread} {i : Nat} {t : Thread} (h : s[i]? = some t) : t ∈ s :=
  List.mem_of_getElem? h

/-- Every goroutine keeps to the order with what it holds. -/
def AllOrdered (s : List Thread) : Prop := ∀ t ∈ s, Ordered t.held t.prog

theorem step_ordered {s s'} (h : Step s s') (ho : AllOrdered s) : AllOrdered s' := by
  have key : ∀ {i : Nat} {a : Thread}, Ordered a.held a.prog → AllOrdered (s.set i a) := by
    intro i a ha t ht
    rcases mem_set_cases ht with h | rfl
    · exact ho t h
    · exact ha
  cases h with
  | rlock h hp hf =>
    have := ho _ (mem_of_get h)
    rw [hp] at this
    exact key this.2
  | @wait _ t _ _ h hp hw => exact key (a := { t with waiting := true }) (ho t (mem_of_get h))
  | lock h hp hw hf =>
    have := ho _ (mem_of_get h)
    rw [hp] at this
    exact key this.2
  | unlock h hp =>
    have := ho _ (mem_of_get h)
    rw [hp] at this
    obtain ⟨m, held', e, hk⟩ := this
    refine key ?_
    simpa [e] using hk
  | tryOk h hp hf =>
    have := ho _ (mem_of_get h)
    rw [hp] at this
    exact key this.1
  | tryFail h hp hf =>
    have := ho _ (mem_of_get h)
    rw [hp] at this
    exact key this.2

theorem start_ordered {ps : List Prog} (h : ∀ p ∈ ps, Ordered [] p) : AllOrdered (start ps) := by
  intro t ht
  obtain ⟨p, hp, rfl⟩ := List.mem_map.mp ht
  exact h p hp

theorem steps_ordered {s n s'} (h : Steps s n s') (ho : AllOrdered s) : AllOrdered s' := by
  induction h with
  | refl => exact ho
  | tail _ hs ih => exact step_ordered hs ih

theorem rank_le (l : Lock) : rank l ≤ 2 := by cases l <;> simp [rank]

/-- A goroutine of a stuck state is finished or asks for a lock that somebody holds. -/
theorem stuck_asks {s} (hs : Stuck s) {t} (ht : t ∈ s) :
    t.prog = .done ∨ ∃ l m k, t.prog = .acq l m k ∧ Held s l := by
  obtain ⟨i, hi⟩ := List.getElem?_of_mem ht
  have waiter : ∀ u ∈ s, ∀ l k, u.prog = .acq l .write k → Held s l := by
    intro u hu l k hp
    obtain ⟨j, hj⟩ := List.getElem?_of_mem hu
    by_cases hw : u.waiting = true
    · by_cases hh : Held s l
      · exact hh
      · exact absurd (Step.lock hj hp hw hh) (hs _)
    · exact absurd (Step.wait hj hp (by simpa using hw)) (hs _)
  cases hp : t.prog with
  | done => exact .inl rfl
  | acq l m k =>
    refine .inr ⟨l, m, k, rfl, ?_⟩
    cases m with
    | write => exact waiter t ht l k hp
    | read =>
      by_cases hf : ∀ u ∈ s, (l, Mode.write) ∉ u.held ∧ ¬ u.waits l
      · exact absurd (Step.rlock hi hp hf) (hs _)
      · obtain ⟨u, hu'⟩ := Classical.not_forall.mp hf
        obtain ⟨hu, hn⟩ := Classical.not_imp.mp hu'
        by_cases hh : (l, Mode.write) ∈ u.held
        · exact ⟨u, hu, .write, hh⟩
        · have : u.waits l := Classical.byContradiction fun h => hn ⟨hh, h⟩
          obtain ⟨-, k', hk'⟩ := this
          exact waiter u hu l k' hk'
  | rel l k => exact absurd (Step.unlock hi hp) (hs _)
  | «try» l a b =>
    by_cases hh : Held s l
    · exact absurd (Step.tryFail hi hp (.inl hh)) (hs _)
    · exact absurd (Step.tryOk hi hp hh) (hs _)

theorem stuck_higher {s} (ho : AllOrdered s) (hs : Stuck s) {l} (h : Held s l) :
    ∃ l', rank l < rank l' ∧ Held s l' := by
  obtain ⟨t, ht, m, hm⟩ := h
  have hot := ho t ht
  rcases stuck_asks hs ht with hd | ⟨l', m', k, hp, hh⟩
  · rw [hd] at hot
    have : t.held = [] := hot
    rw [this] at hm
    exact absurd hm (List.not_mem_nil)
  · rw [hp] at hot
    exact ⟨l', hot.1 _ hm, hh⟩

theorem stuck_nothing_held {s} (ho : AllOrdered s) (hs : Stuck s) (l : Lock) : ¬ Held s l := by
  intro h
  obtain ⟨l1, h1, hh1⟩ := stuck_higher ho hs h
  obtain ⟨l2, h2, hh2⟩ := stuck_higher ho hs hh1
  obtain ⟨l3, h3, -⟩ := stuck_higher ho hs hh2
  have := rank_le l3
  omega

theorem stuck_finished {s} (ho : AllOrdered s) (hs : Stuck s) : Finished s := by
  intro t ht
  rcases stuck_asks hs ht with hd | ⟨l, m, k, hp, hh⟩
  · have := ho t ht
    rw [hd] at this
    exact ⟨hd, this⟩
  · exact absurd hh (stuck_nothing_held ho hs l)

/-- What a goroutine has still to do. -/
def left (t : Thread) : Nat := ops t.prog - (if t.waiting then 1 else 0)

theorem left_step {s s'} (h : Step s s') : (s'.map left).sum < (s.map left).sum := by
  have key : ∀ {i : Nat} {t a : Thread}, s[i]? = some t → left a < left t →
      ((s.set i a).map left).sum < (s.map left).sum := by
    clear h
    intro i t a h hl
    induction s generalizing i with
    | nil => simp at h
    | cons b s ih =>
      cases i with
      | zero =>
        simp only [List.getElem?_cons_zero, Option.some.injEq] at h
        subst h
        simpa using hl
      | succ i =>
        simp only [List.getElem?_cons_succ] at h
        have := ih h
        simpa using this
  have big : ∀ {t : Thread}, ops t.prog - 1 ≤ left t := by
    intro t
    unfold left
    split <;> omega
  cases h with
  | @rlock _ t l k h hp hf =>
    have := big (t := t)
    rw [hp] at this
    exact key h (by simp only [left, ops] at *; simp; omega)
  | @wait _ t l k h hp hw => exact key h (by simp [left, hp, hw, ops])
  | @lock _ t l k h hp hw hf =>
    have := big (t := t)
    rw [hp] at this
    exact key h (by simp only [left, ops] at *; simp; omega)
  | @unlock _ t l k h hp =>
    have := big (t := t)
    rw [hp] at this
    exact key h (by simp only [left, ops] at *; simp; omega)
  | @tryOk _ t l a b h hp hf =>
    have := big (t := t)
    rw [hp] at this
    exact key h (by simp only [left, ops] at *; simp; omega)
  | @tryFail _ t l a b h hp hf =>
    have := big (t := t)
    rw [hp] at this
    exact key h (by simp only [left, ops] at *; simp; omega)

theorem steps_left {s n s'} (h : Steps s n s') : n + (s'.map left).sum ≤ (s.map left).sum := by
  induction h with
  | refl => omega
  | tail _ hs ih =>
    have := left_step hs
    omega

theorem start_left (ps : List Prog) : ((start ps).map left).sum = (ps.map ops).sum := by
  induction ps with
  | nil => rfl
  | cons p ps ih =>
    have e : left ⟨p, [], false⟩ = ops p := rfl
    simp only [start, List.map_cons, List.sum_cons, e] at ih ⊢
    rw [ih]

/-! ## Readers and writers -/

/-- Who holds a lock for writing holds it alone. -/
def Alone (s : List Thread) : Prop :=
  ∀ (i j : Nat) (t u : Thread) (l : Lock) (m : Mode), s[i]? = some t → s[j]? = some u → (l, .write) ∈ t.held →
    (l, m) ∈ u.held → i = j

theorem get_set_cases {s : List Thread} {i j : Nat} {a t : Thread} (h : (s.set i a)[j]? = some t) :
    (j = i ∧ t = a) ∨ (j ≠ i ∧ s[j]? = some t) := by
  by_cases e : i = j
  · subst e
    by_cases hl : i < s.length
    · rw [List.getElem?_set_self hl] at h
      exact .inl ⟨rfl, (Option.some.inj h).symm⟩
    · rw [List.getElem?_eq_none (by simpa using Nat.le_of_not_lt hl)] at h
      exact absurd h (by simp)
  · rw [List.getElem?_set_ne e] at h
    exact .inr ⟨fun h => e h.symm, h⟩

/-- Taking a lock keeps `Alone` if it was free for that. -/
theorem alone_take {s : List Thread} {i : Nat} {t : Thread} (h : s[i]? = some t) (ha : Alone s) (k : Prog) (l : Lock)
    (m : Mode) (hr : ∀ u ∈ s, (l, .write) ∉ u.held) (hw : m = .write → ¬ Held s l) :
    Alone (s.set i ⟨k, (l, m) :: t.held, false⟩) := by
  intro a b u v x y hu hv hxu hxv
  rcases get_set_cases hu with ⟨rfl, rfl⟩ | ⟨na, hu'⟩
  · rcases get_set_cases hv with ⟨rfl, rfl⟩ | ⟨nb, hv'⟩
    · rfl
    · rcases List.mem_cons.mp hxu with e | hx
      · obtain ⟨rfl, e2⟩ := Prod.mk.inj e
        exact absurd ⟨v, mem_of_get hv', y, hxv⟩ (hw e2.symm)
      · exact ha _ _ _ _ _ _ h hv' hx hxv
  · rcases get_set_cases hv with ⟨rfl, rfl⟩ | ⟨nb, hv'⟩
    · rcases List.mem_cons.mp hxv with e | hx
      · obtain ⟨rfl, -⟩ := Prod.mk.inj e
        exact absurd hxu (hr u (mem_of_get hu'))
      · exact ha _ _ _ _ _ _ hu' h hxu hx
    · exact ha _ _ _ _ _ _ hu' hv' hxu hxv

/-- Keeping or giving back locks keeps `Alone`. -/
theorem alone_keep {s : List Thread} {i : Nat} {t a : Thread} (h : s[i]? = some t) (ha : Alone s)
    (hs : ∀ p ∈ a.held, p ∈ t.held) : Alone (s.set i a) := by
  intro c b u v x y hu hv hxu hxv
  rcases get_set_cases hu with ⟨rfl, rfl⟩ | ⟨na, hu'⟩
  · rcases get_set_cases hv with ⟨rfl, rfl⟩ | ⟨nb, hv'⟩
    · rfl
    · exact ha _ _ _ _ _ _ h hv' (hs _ hxu) hxv
  · rcases get_set_cases hv with ⟨rfl, rfl⟩ | ⟨nb, hv'⟩
    · exact ha _ _ _ _ _ _ hu' h hxu (hs _ hxv)
    · exact ha _ _ _ _ _ _ hu' hv' hxu hxv

theorem step_alone {s s'} (h : Step s s') (ha : Alone s) : Alone s' := by
  cases h with
  | rlock h hp hf => exact alone_take h ha _ _ _ (fun u hu => (hf u hu).1) (fun e => absurd e (by decide))
  | wait h hp hw => exact alone_keep h ha (fun p hp => hp)
  | lock h hp hw hf => exact alone_take h ha _ _ _ (fun u hu hm => hf ⟨u, hu, _, hm⟩) (fun _ => hf)
  | unlock h hp => exact alone_keep h ha (fun p hp => List.mem_of_mem_eraseP hp)
  | tryOk h hp hf => exact alone_take h ha _ _ _ (fun u hu hm => hf ⟨u, hu, _, hm⟩) (fun _ => hf)
  | tryFail h hp hf => exact alone_keep h ha (fun p hp => hp)

theorem start_alone (ps : List Prog) : Alone (start ps) := by
  intro i j t u l m ht hu htm
  obtain ⟨p, hp, rfl⟩ := List.mem_map.mp (mem_of_get ht)
  exact absurd htm (List.not_mem_nil)

theorem steps_alone {s n s'} (h : Steps s n s') (ha : Alone s) : Alone s' := by
  induction h with
  | refl => exact ha
  | tail _ hs ih => exact step_alone hs ih

end Locks
end GpsGen
