import Verif.Model.LockPanics
import Verif.Lemmas.LockOrder

/-!
Lemmas about locks and panics.
-/

namespace GpsGen
namespace Locks

theorem rels_seq (ds : List Lock) (k q : Prog) : (rels ds k).seq q = rels ds (k.seq q) := by
  induction ds with
  | nil => rfl
  | cons l ls ih => simp only [rels, Prog.seq, ih]

theorem prog_seq (s : Script) : ∀ (ds : List Lock) (ret : Bool → Prog) (q : Prog),
    (s.prog ds ret).seq q = s.prog ds (fun b => (ret b).seq q) := by
  induction s with
  | done => intro ds ret q; exact rels_seq ..
  | work p k ih =>
    intro ds ret q
    cases p
    · exact ih ds ret q
    · exact rels_seq ..
  | acq l m k ih => intro ds ret q; simp only [Script.prog, Prog.seq, ih]
  | dfr l k ih => intro ds ret q; exact ih ..
  | rel l k ih => intro ds ret q; simp only [Script.prog, Prog.seq, ih]
  | «try» l a b iha ihb => intro ds ret q; simp only [Script.prog, Prog.seq, iha, ihb]
  | call body k ihb ihk =>
    intro ds ret q
    simp only [Script.prog, ihb]
    congr 1
    funext b
    cases b
    · exact ihk ..
    · exact rels_seq ..

/-- The call is not a `Snapshot` that panics in its loop over the sensors. -/
def DevPanic.Safe : DevPanic → Prop
  | .snapshot _ true false true => False
  | _ => True

theorem dev_ordered (c : DevPanic) (hc : c.Safe) {held : List (Lock × Mode)} (hr : ∀ p ∈ held, rank p.1 < 2)
    {ret : Bool → Prog} (h : ∀ b, Ordered held (ret b)) : Ordered held (c.script.prog [] ret) := by
  rcases c with ⟨d, _ | _⟩ | ⟨d, _ | _⟩ | ⟨d, _ | _⟩ | ⟨d, _ | _, _ | _, _ | _⟩
  case snapshot.true.false.true => exact hc.elim
  all_goals first
    | exact ⟨hr, _, _, rfl, h _⟩
    | exact ⟨⟨_, _, rfl, h _⟩, h _⟩
    | exact h _

theorem scripts_ordered (cs : List DevPanic) (hc : ∀ c ∈ cs, c.Safe) (p : Bool) (m : Mode) {ret : Bool → Prog}
    (h : ∀ b, Ordered [] (ret b)) : Ordered [(.gen, m)] ((scriptsThen cs p).prog [.gen] ret) := by
  have hrel : ∀ b, Ordered [(.gen, m)] (rels [.gen] (ret b)) := fun b => ⟨_, _, rfl, h b⟩
  induction cs with
  | nil => cases p <;> exact hrel _
  | cons c cs ih =>
    refine dev_ordered c (hc c (List.mem_cons_self ..)) (only_gen (by decide)) ?_
    intro b
    cases b
    · exact ih fun c h => hc c (List.mem_cons_of_mem _ h)
    · exact hrel _

/-- No `Snapshot` inside that panics in its loop over the sensors. -/
def PCall.Safe : PCall → Prop
  | .dev c => c.Safe
  | .gen (.writer body _) => ∀ c ∈ body, c.Safe
  | .gen (.reader body _) => ∀ c ∈ body, c.Safe
  | .own _ => True

theorem pcall_balanced (c : PCall) (hc : c.Safe) : Balanced [] c.prog := by
  have hn : ∀ n, ∀ p ∈ ([] : List (Lock × Mode)), rank p.1 < n := fun l p hp => absurd hp (List.not_mem_nil)
  rcases c with c | ⟨body, p⟩ | c
  · intro q hq
    change Ordered [] ((c.script.prog [] _).seq q)
    rw [prog_seq]
    exact dev_ordered c hc (hn _) fun _ => hq
  · intro q hq
    change Ordered [] (((GenPanic.writer body p).script.prog [] _).seq q)
    rw [prog_seq]
    exact ⟨hn _, scripts_ordered body hc p .write fun _ => hq⟩
  · rename_i body p
    intro q hq
    change Ordered [] (((GenPanic.reader body p).script.prog [] _).seq q)
    rw [prog_seq]
    exact ⟨hn _, scripts_ordered body hc p .read fun _ => hq⟩
  · exact balanced_gen _

theorem pcalls_ordered (cs : List PCall) (hc : ∀ c ∈ cs, c.Safe) : Ordered [] (pcalls cs) := by
  have h : Balanced [] (pcalls cs) := by
    apply balanced_all
    intro p hp
    obtain ⟨c, h, rfl⟩ := List.mem_map.mp hp
    exact pcall_balanced c (hc c h)
  have h' := h .done rfl
  rwa [seq_done] at h'

/-- A goroutine that has come to its end stays as it is. -/
theorem step_dead {s s' : List Thread} (h : Step s s') {i : Nat} {t : Thread} (ht : s[i]? = some t)
    (hd : t.prog = .done) : s'[i]? = some t := by
  have key : ∀ (j : Nat) (u a : Thread), s[j]? = some u → u.prog ≠ .done → (s.set j a)[i]? = some t := by
    intro j u a hu hn
    have : j ≠ i := by
      rintro rfl
      rw [hu] at ht
      cases ht
      exact hn hd
    rw [List.getElem?_set_ne this, ht]
  cases h with
  | rlock h hp _ => exact key _ _ _ h (by rw [hp]; simp)
  | wait h hp _ => exact key _ _ _ h (by rw [hp]; simp)
  | lock h hp _ _ => exact key _ _ _ h (by rw [hp]; simp)
  | unlock h hp => exact key _ _ _ h (by rw [hp]; simp)
  | tryOk h hp _ => exact key _ _ _ h (by rw [hp]; simp)
  | tryFail h hp _ => exact key _ _ _ h (by rw [hp]; simp)

theorem steps_dead {s n s'} (h : Steps s n s') {i : Nat} {t : Thread} (ht : s[i]? = some t) (hd : t.prog = .done) :
    s'[i]? = some t := by
  induction h with
  | refl => exact ht
  | tail _ hs ih => exact step_dead hs ih hd

end Locks
end GpsGen
