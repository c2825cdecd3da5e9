import Verif.Model.Shared
import Verif.Lemmas.Frame
import Verif.Lemmas.New
import Verif.Lemmas.Toy
import Mathlib.Data.List.Nodup
/-!
# C77: navigators do not influence each other

Routes and tracks are held by pointer, so navigators may share them. The full claim is that a call of one navigator
leaves all others as they were. It fails for `RemoveTrack`. Everything else leaves the routes alone, so that any number of
navigators can drive the same routes, each as if it had them for itself (`as_if_alone_partial`).

`sharing_simulated` shows what a navigator sees of the rest of the program: a history of its own operations and of
mutations of the routes it holds, as in `NavHistory`. So everything proved of such histories holds for navigators that
share routes, and routes that share tracks.
-/

namespace GpsGen.C77

open GpsGen GpsGen.Navigator

variable {F : Type}

/-! ## Specification -/

/-- The navigator a call belongs to; none for calls of a route or track. -/
def actor : MemOp F → Option Nat
  | .addRoute a _ | .removeRoute a _ | .removeTrack a _ _ | .resetRoutes a | .drive a _ => some a
  | _ => none

/-- The route object at `p` may be changed by the call. -/
def HitsRoute (m : Memory F) (p : Nat) : MemOp F → Prop
  | .removeTrack a rid _ => p ∈ (m.navs a).refs ∧ (m.routes p).body.id = rid
  | .addTrack p' _ | .dropTrack p' _ | .editRoute p' _ => p = p'
  | _ => False

/-- The track object at `q` may be changed by the call. -/
def HitsTrack (q : Nat) : MemOp F → Prop
  | .editTrack q' _ => q = q'
  | _ => False

/-- The call may change an object the navigator `b` can reach. -/
def Hits (m : Memory F) (b : Nat) (op : MemOp F) : Prop :=
  ∃ p ∈ (m.navs b).refs, HitsRoute m p op ∨ ∃ q ∈ (m.routes p).refs, HitsTrack q op

/-- The full claim: a call of a navigator leaves every other navigator as it was. -/
def Claim (F : Type) [GoMath F] : Prop :=
  ∀ (m m' : Memory F) (op : MemOp F) (a b : Nat), actor op = some a → a ≠ b → m.step op = .ok m' → m'.view b = m.view b

/-- Calls of navigators other than `RemoveTrack`. -/
def Harmless : MemOp F → Prop
  | .addRoute .. | .removeRoute .. | .resetRoutes .. => True
  | .drive _ op => op.reads = true
  | _ => False

/-- What the navigator `b` is asked to do, with the routes as they are in `m`. -/
def own (m : Memory F) (b : Nat) : MemOp F → List (NavOp F)
  | .addRoute a ps => if a = b then [.addRoute (ps.map (·.map m.routeView))] else []
  | .removeRoute a id => if a = b then [.removeRoute id] else []
  | .removeTrack a rid tid => if a = b then [.removeTrack rid tid] else []
  | .resetRoutes a => if a = b then [.resetRoutes] else []
  | .drive a op => if a = b ∧ op.reads = true then [op] else []
  | _ => []

/-! ## Lists of addresses -/

theorem cellSet_same {α : Type} (f : Nat → α) (p : Nat) (v : α) : cellSet f p v p = v := by simp [cellSet]

theorem cellSet_ne {α : Type} (f : Nat → α) {p q : Nat} (v : α) (h : q ≠ p) : cellSet f p v q = f q := by simp [cellSet, h]

theorem removeFirst_map {α β : Type} (f : α → β) (P : β → Bool) (l : List α) :
    removeFirst P (l.map f) = ((removeFirst (fun a => P (f a)) l).1.map f, (removeFirst (fun a => P (f a)) l).2) := by
  induction l with
  | nil => rfl
  | cons a l ih =>
    simp only [List.map_cons, removeFirst]
    split
    · rfl
    · rw [ih]; rfl

/-- Operations `E p` for the object at `p`, at all positions where `p` occurs. -/
def spread {β : Type} (E : Nat → List β) (refs : List Nat) : List (Nat × β) :=
  refs.zipIdx.flatMap fun e => (E e.1).map (e.2, ·)

theorem foldl_modify_at {α β : Type} (g : α → β → α) (es : List β) (l : List α) (i : Nat) :
    (es.map (i, ·)).foldl (fun l e => l.modify e.1 (g · e.2)) l = l.modify i (fun a => es.foldl g a) := by
  induction es generalizing l with
  | nil => exact (List.modify_id i l).symm
  | cons e es ih =>
    simp only [List.map_cons, List.foldl_cons, ih]
    rw [List.modify_modify_eq]
    rfl

theorem modify_middle {α : Type} (f : α → α) (pre post : List α) (a : α) :
    (pre ++ a :: post).modify pre.length f = pre ++ f a :: post := by
  induction pre with
  | nil => rfl
  | cons b pre ih => simp [ih]

theorem spread_aux {α β : Type} (g : α → β → α) (E : Nat → List β) (f : Nat → α) (refs : List Nat) (pre : List α) :
    ((refs.zipIdx pre.length).flatMap fun e => (E e.1).map (e.2, ·)).foldl (fun l e => l.modify e.1 (g · e.2))
      (pre ++ refs.map f) = pre ++ refs.map fun p => (E p).foldl g (f p) := by
  induction refs generalizing pre with
  | nil => rfl
  | cons p refs ih =>
    simp only [List.zipIdx_cons, List.flatMap_cons, List.foldl_append, List.map_cons]
    rw [foldl_modify_at]
    have : (pre ++ f p :: refs.map f).modify pre.length (fun a => (E p).foldl g a) =
        (pre ++ [(E p).foldl g (f p)]) ++ refs.map f := by
      rw [modify_middle]; simp
    rw [this]
    have hl : pre.length + 1 = (pre ++ [(E p).foldl g (f p)]).length := by simp
    rw [hl, ih]
    simp

theorem spread_foldl {α β : Type} (g : α → β → α) (E : Nat → List β) (f : Nat → α) (refs : List Nat) :
    (spread E refs).foldl (fun l e => l.modify e.1 (g · e.2)) (refs.map f) = refs.map fun p => (E p).foldl g (f p) := by
  simpa [spread] using spread_aux g E f refs []

/-- Operations on held routes, one after the other. -/
def edits (es : List (Nat × RouteOp F)) : List (NavOp F) := es.map fun e => .onRoute e.1 e.2

theorem run_edits [GoMath F] (n : Navigator F) (es : List (Nat × RouteOp F)) :
    n.run (edits es) = .ok { n with routes := es.foldl (fun l e => l.modify e.1 (Route.apply · e.2)) n.routes } := by
  induction es generalizing n with
  | nil => rfl
  | cons e es ih =>
    show (n.step (.onRoute e.1 e.2) >>= fun n' => n'.run (edits es)) = _
    simp only [step]
    show Navigator.run _ (edits es) = _
    rw [ih]
    rfl

theorem route_run_tracks [GoFloat F] (r : Route F) (es : List (Nat × TrackOp F)) :
    (es.map fun e => RouteOp.onTrack e.1 e.2).foldl Route.apply r =
      { r with tracks := es.foldl (fun l e => l.modify e.1 (Track.apply · e.2)) r.tracks } := by
  induction es generalizing r with
  | nil => rfl
  | cons e es ih =>
    simp only [List.map_cons, List.foldl_cons]
    rw [ih]
    rfl

/-! ## Routes in memory -/

/-- A route object with its tracks. -/
def rview (ts : Nat → Track F) (r : RouteObj F) : Route F := { r.body with tracks := r.refs.map ts }

theorem rview_withTracks [GoFloat F] (ts : Nat → Track F) (r : RouteObj F) (refs : List Nat) :
    rview ts (r.withTracks ts refs) = { rview ts r with tracks := refs.map ts
                                                        dist := (refs.map ts).foldl (fun d t => d +. t.dist) (lit 0)
                                                        version := r.body.version + 1 } := by
  simp [rview, RouteObj.withTracks, List.foldl_map]

theorem rview_addTrack [GoFloat F] (ts : Nat → Track F) (r : RouteObj F) (q : Option Nat) :
    rview ts (r.addTrack ts q) = (rview ts r).addTrack (q.map ts) := by
  cases q with
  | none => rfl
  | some q =>
    simp only [RouteObj.addTrack, rview_withTracks, Option.map_some, Route.addTrack, Route.updateState]
    simp [rview]

theorem rview_removeTrack [GoFloat F] (ts : Nat → Track F) (r : RouteObj F) (id : String) :
    rview ts (r.removeTrack ts id).1 = ((rview ts r).removeTrack id).1 ∧
      (r.removeTrack ts id).2 = ((rview ts r).removeTrack id).2 := by
  unfold RouteObj.removeTrack Route.removeTrack
  split
  · exact ⟨rfl, rfl⟩
  · have h : removeFirst (fun t : Track F => t.id == id) (rview ts r).tracks = _ :=
      removeFirst_map ts (fun t : Track F => t.id == id) r.refs
    rw [h]
    dsimp only
    split
    · exact ⟨by rw [rview_withTracks]; rfl, rfl⟩
    · exact ⟨rfl, rfl⟩

/-- The operation on values that belongs to an edit. -/
def editOp : RouteEdit F → RouteOp F
  | .changeColor c => .changeColor c
  | .changeName s => .changeName s
  | .setProps m => .setProps m
  | .trackByID id => .trackByID id

theorem rview_edit [GoFloat F] (ts : Nat → Track F) (r : RouteObj F) (e : RouteEdit F) :
    rview ts (r.edit ts e) = (rview ts r).apply (editOp e) := by
  cases e with
  | changeColor c => cases c <;> rfl
  | changeName s =>
    simp only [RouteObj.edit, editOp, Route.apply, Route.changeName]
    cases parseName s <;> rfl
  | setProps m => rfl
  | trackByID id =>
    simp only [RouteObj.edit, editOp, Route.apply, Route.trackByID]
    split
    · rfl
    · have h : (rview ts r).tracks.find? (fun t => t.id == id) = (r.refs.find? (fun q => (ts q).id == id)).map ts := by
        show (r.refs.map ts).find? _ = _
        rw [List.find?_map]
        rfl
      rw [h]
      cases r.refs.find? (fun q => (ts q).id == id) <;> rfl

/-- What a call does to the route at `p`, as operations on its value. -/
def effect (m : Memory F) (p : Nat) : MemOp F → List (RouteOp F)
  | .removeTrack a rid tid =>
    if ¬ (goLen rid = 0 ∨ goLen rid > 36) ∧ (m.navs a).refs.find? (fun p => (m.routes p).body.id == rid) = some p
    then [.removeTrack tid] else []
  | .addTrack p' q => if p = p' then [.addTrack (q.map m.tracks)] else []
  | .dropTrack p' id => if p = p' then [.removeTrack id] else []
  | .editRoute p' e => if p = p' then [editOp e] else []
  | .editTrack q op =>
    (spread (fun q' => if q' = q then [op] else []) (m.routes p).refs).map fun e => .onTrack e.1 e.2
  | _ => []

theorem routeView_cellSet (m : Memory F) (nv : Nat → NavObj F) (p p' : Nat) (r : RouteObj F) :
    (Memory.routeView ⟨m.tracks, cellSet m.routes p' r, nv⟩ p) = if p = p' then rview m.tracks r else m.routeView p := by
  unfold Memory.routeView cellSet
  by_cases h : p = p'
  · simp [h, rview]
  · simp [h]

/-- Every route changes by the operations listed, and only by them. -/
theorem routes_after [GoMath F] {m m' : Memory F} {op : MemOp F} (h : m.step op = .ok m') (p : Nat) :
    m'.routeView p = (effect m p op).foldl Route.apply (m.routeView p) := by
  cases op with
  | addRoute a ps =>
    simp only [Memory.step] at h
    split at h
    · cases h; rfl
    · split at h <;> cases h <;> rfl
  | removeRoute a id =>
    simp only [Memory.step] at h
    split at h
    · cases h; rfl
    · split at h <;> cases h <;> rfl
  | removeTrack a rid tid =>
    simp only [Memory.step] at h
    split at h
    case isTrue hbad =>
      cases h
      simp only [effect]
      split
      case isTrue hg =>
        have ht : goLen tid = 0 ∨ goLen tid > 36 := by
          rcases hbad with h | h | h
          · exact (hg.1 (.inl h)).elim
          · exact (hg.1 (.inr h)).elim
          · exact h
        simp [Route.apply, Route.removeTrack, ht]
      · rfl
    case isFalse hgood =>
      have hgr : ¬ (goLen rid = 0 ∨ goLen rid > 36) := fun h => hgood (h.elim .inl fun h => .inr (.inl h))
      split at h
      case h_1 hf => cases h; simp [effect, hf]
      case h_2 p' hf =>
        have hv := rview_removeTrack m.tracks (m.routes p') tid
        by_cases hp : p = p'
        · subst hp
          have he : effect m p (.removeTrack a rid tid) = [.removeTrack tid] := by
            simp only [effect]; rw [if_pos ⟨hgr, hf⟩]
          rw [he]
          split at h
          · cases h
            rw [routeView_cellSet, if_pos rfl]
            exact hv.1
          · rename_i hok
            cases h
            have : ((rview m.tracks (m.routes p)).removeTrack tid).2 = false := by rw [← hv.2]; simpa using hok
            have keep : ∀ r : Route F, (r.removeTrack tid).2 = false → (r.removeTrack tid).1 = r := by
              intro r
              unfold Route.removeTrack
              split
              · intro; rfl
              · dsimp only
                split
                · intro h; cases h
                · intro; rfl
            exact (keep _ this).symm
        · have he : effect m p (.removeTrack a rid tid) = [] := by
            simp only [effect]
            rw [if_neg]
            rintro ⟨-, h⟩
            rw [hf] at h
            exact hp (Option.some.inj h).symm
          rw [he]
          split at h
          · cases h
            rw [routeView_cellSet, if_neg hp]
            rfl
          · cases h; rfl
  | resetRoutes a =>
    simp only [Memory.step] at h
    split at h <;> cases h <;> rfl
  | drive a op =>
    simp only [Memory.step] at h
    split at h
    · cases hs : (m.view a).step op with
      | error e => rw [hs] at h; cases h
      | ok n => rw [hs] at h; cases h; rfl
    · cases h; rfl
  | addTrack p' q =>
    cases h
    rw [routeView_cellSet]
    simp only [effect]
    split
    · rename_i hp; subst hp; exact rview_addTrack m.tracks (m.routes p) q
    · rfl
  | dropTrack p' id =>
    cases h
    rw [routeView_cellSet]
    simp only [effect]
    split
    · rename_i hp; subst hp; exact (rview_removeTrack m.tracks (m.routes p) id).1
    · rfl
  | editRoute p' e =>
    cases h
    rw [routeView_cellSet]
    simp only [effect]
    split
    · rename_i hp; subst hp; exact rview_edit m.tracks (m.routes p) e
    · rfl
  | editTrack q op =>
    cases h
    simp only [effect]
    rw [route_run_tracks]
    have := spread_foldl (Track.apply (F := F)) (fun q' => if q' = q then [op] else []) m.tracks (m.routes p).refs
    simp only [Memory.routeView]
    rw [this]
    congr 1
    apply List.map_congr_left
    intro q' _
    by_cases hq : q' = q
    · subst hq; simp [cellSet]
    · simp [cellSet, hq]

/-! ## Navigators -/

/-- A navigator object with its routes. -/
def nview (V : Nat → Route F) (n : NavObj F) : Navigator F := { n.body with routes := n.refs.map V }

theorem view_eq (m : Memory F) (a : Nat) : m.view a = nview m.routeView (m.navs a) := rfl

theorem view_cellSet (m : Memory F) (ts : Nat → Track F) (rs : Nat → RouteObj F) (a : Nat) (n : NavObj F) :
    Memory.view ⟨ts, rs, cellSet m.navs a n⟩ a = nview (Memory.routeView ⟨ts, rs, cellSet m.navs a n⟩) n := by
  rw [view_eq]
  show nview _ (cellSet m.navs a n a) = _
  rw [cellSet_same]

/-- No call touches the fields and the list of routes of a navigator but its own. -/
theorem navs_after [GoMath F] {m m' : Memory F} {op : MemOp F} (h : m.step op = .ok m') {b : Nat}
    (hb : actor op ≠ some b) : m'.navs b = m.navs b := by
  cases op with
  | addRoute a ps =>
    have hab : b ≠ a := fun e => hb (by rw [e]; rfl)
    simp only [Memory.step] at h
    split at h
    · cases h; rfl
    · split at h <;> cases h
      · exact cellSet_ne _ _ hab
      · rfl
  | removeRoute a id =>
    have hab : b ≠ a := fun e => hb (by rw [e]; rfl)
    simp only [Memory.step] at h
    split at h
    · cases h; rfl
    · split at h <;> cases h
      · exact cellSet_ne _ _ hab
      · rfl
  | removeTrack a rid tid =>
    have hab : b ≠ a := fun e => hb (by rw [e]; rfl)
    simp only [Memory.step] at h
    split at h
    · cases h; rfl
    · split at h
      · cases h; rfl
      · split at h <;> cases h
        · exact cellSet_ne _ _ hab
        · rfl
  | resetRoutes a =>
    have hab : b ≠ a := fun e => hb (by rw [e]; rfl)
    simp only [Memory.step] at h
    split at h <;> cases h
    · rfl
    · exact cellSet_ne _ _ hab
  | drive a op =>
    have hab : b ≠ a := fun e => hb (by rw [e]; rfl)
    simp only [Memory.step] at h
    split at h
    · cases hs : (m.view a).step op with
      | error e => rw [hs] at h; cases h
      | ok n => rw [hs] at h; cases h; exact cellSet_ne _ _ hab
    · cases h; rfl
  | addTrack p q => cases h; rfl
  | dropTrack p id => cases h; rfl
  | editRoute p e => cases h; rfl
  | editTrack q op => cases h; rfl

/-- **What others do, seen by a navigator**: mutations of its routes, at all positions where it holds them. -/
theorem seen_foreign [GoMath F] {m m' : Memory F} {op : MemOp F} (h : m.step op = .ok m') {b : Nat}
    (hb : actor op ≠ some b) :
    (m.view b).run (edits (spread (fun p => effect m p op) (m.navs b).refs)) = .ok (m'.view b) := by
  rw [run_edits]
  congr 1
  have hr := spread_foldl (Route.apply (F := F)) (fun p => effect m p op) m.routeView (m.navs b).refs
  show ({ m.view b with routes := (spread _ _).foldl _ ((m.navs b).refs.map m.routeView) } : Navigator F) = _
  have hm : (m.navs b).refs.map m'.routeView =
      (m.navs b).refs.map fun p => (effect m p op).foldl Route.apply (m.routeView p) :=
    List.map_congr_left fun p _ => routes_after h p
  rw [hr, view_eq m', navs_after h hb, ← hm]
  rfl

/-! ## A navigator's own calls -/

theorem addLoop_view (m : Memory F) (held : List Nat) (k : Nat) (ps : List (Option Nat)) :
    Navigator.addLoop (held.map m.routeView) k (ps.map (·.map m.routeView)) =
      ((m.addLoop held k ps).1.map m.routeView, (m.addLoop held k ps).2) := by
  induction ps generalizing held k with
  | nil => rfl
  | cons p ps ih =>
    cases p with
    | none => simpa [Memory.addLoop, Navigator.addLoop] using ih held k
    | some p =>
      simp only [List.map_cons, Option.map_some, Navigator.addLoop, Memory.addLoop, hasRoute, List.any_map]
      have hc : (held.any ((fun r : Route F => (m.routeView p).id == r.id) ∘ m.routeView)) =
          held.any fun q => (m.routes p).body.id == (m.routes q).body.id := rfl
      rw [hc]
      split
      · exact ih held k
      · have := ih (held ++ [p]) (k + 1)
        rwa [List.map_append] at this

theorem view_resetTo [GoMath F] (m : Memory F) (a : Nat) (refs : List Nat) :
    Memory.view ⟨m.tracks, m.routes, cellSet m.navs a (m.resetTo (m.navs a) refs)⟩ a =
      (({ m.view a with routes := refs.map m.routeView } : Navigator F).reset).nextVersion := by
  rw [view_cellSet]
  have hr : (Memory.routeView ⟨m.tracks, m.routes, cellSet m.navs a (m.resetTo (m.navs a) refs)⟩) = m.routeView := rfl
  have hd : refs.foldl (fun d p => d +. (m.routes p).body.dist) (lit 0) =
      (refs.map m.routeView).foldl (fun d r => d +. r.dist) (lit 0) := by rw [List.foldl_map]; rfl
  rw [hr]
  unfold Memory.resetTo
  rw [hd]
  rfl

/-- The routes a navigator holds have different ids. -/
def Distinct (m : Memory F) (b : Nat) : Prop := ((m.navs b).refs.map fun p => (m.routes p).body.id).Nodup

theorem updateFirst_map {α β : Type} (f : α → β) (P : β → Bool) (g : β → β) (l : List α) (a : α) [DecidableEq α]
    (hf : l.find? (fun x => P (f x)) = some a) (hn : l.Nodup) :
    updateFirst P g (l.map f) = l.map fun x => if x = a then g (f x) else f x := by
  induction l with
  | nil => cases hf
  | cons x l ih =>
    simp only [List.map_cons, updateFirst]
    by_cases hx : P (f x) = true
    · rw [if_pos hx]
      rw [List.find?_cons_of_pos (by simpa using hx)] at hf
      cases hf
      rw [if_pos rfl]
      congr 1
      apply List.map_congr_left
      intro y hy
      have : y ≠ a := fun e => (List.nodup_cons.mp hn).1 (e ▸ hy)
      simp [this]
    · rw [if_neg hx]
      rw [List.find?_cons_of_neg (by simpa using hx)] at hf
      have hxa : x ≠ a := by
        rintro rfl
        have := List.find?_some hf
        exact hx this
      rw [if_neg hxa, ih hf (List.nodup_cons.mp hn).2]

/-- **What a navigator does itself**, on values. -/
theorem seen_own [GoMath F] {m m' : Memory F} {op : MemOp F} (h : m.step op = .ok m') {b : Nat} (hd : Distinct m b)
    (hb : actor op = some b) : (m.view b).run (own m b op) = .ok (m'.view b) := by
  have one : ∀ (n : Navigator F) (o : NavOp F), n.run [o] = n.step o := by
    intro n o
    show (n.step o >>= fun n' => Except.ok n') = _
    cases n.step o <;> rfl
  cases op with
  | addRoute a ps =>
    obtain rfl : a = b := Option.some.inj hb
    simp only [own, if_true, one, Navigator.step]
    congr 1
    simp only [Memory.step] at h
    simp only [Navigator.addRoute, List.length_map]
    split at h
    case isTrue h0 => cases h; rw [if_pos h0]
    case isFalse h0 =>
      rw [if_neg h0]
      have := addLoop_view m (m.navs a).refs 0 ps
      rw [show (m.view a).routes = (m.navs a).refs.map m.routeView from rfl, this]
      dsimp only
      split at h
      case isTrue hk => cases h; rw [if_pos hk, view_resetTo]
      case isFalse hk =>
        cases h
        rw [if_neg hk]
        have keep : ∀ (ps : List (Option Nat)) (held : List Nat) (k : Nat), k ≤ (m.addLoop held k ps).2 ∧
            ((m.addLoop held k ps).2 = k → (m.addLoop held k ps).1 = held) := by
          intro ps
          induction ps with
          | nil => intro held k; exact ⟨Nat.le_refl _, fun _ => rfl⟩
          | cons p ps ih =>
            intro held k
            cases p with
            | none => exact ih held k
            | some p =>
              simp only [Memory.addLoop]
              split
              · exact ih held k
              · obtain ⟨h1, -⟩ := ih (held ++ [p]) (k + 1)
                exact ⟨by omega, fun h => by omega⟩
        have hk0 : (m.addLoop (m.navs a).refs 0 ps).2 = 0 := by omega
        rw [(keep ps _ 0).2 hk0]
        rfl
  | removeRoute a id =>
    obtain rfl : a = b := Option.some.inj hb
    simp only [own, if_true, one, Navigator.step]
    congr 1
    simp only [Memory.step] at h
    simp only [Navigator.removeRoute]
    split at h
    case isTrue h0 => cases h; rw [if_pos h0]
    case isFalse h0 =>
      rw [if_neg h0]
      have := removeFirst_map m.routeView (fun r : Route F => r.id == id) (m.navs a).refs
      rw [show (m.view a).routes = (m.navs a).refs.map m.routeView from rfl, this]
      dsimp only
      have hc : (fun p => (m.routeView p).id == id) = fun p => (m.routes p).body.id == id := rfl
      rw [hc]
      split at h
      case isTrue hk => cases h; rw [if_pos hk, view_resetTo]; rfl
      case isFalse hk => cases h; rw [if_neg hk]
  | removeTrack a rid tid =>
    obtain rfl : a = b := Option.some.inj hb
    simp only [own, if_true, one, Navigator.step]
    congr 1
    have hra := fun p => routes_after h p
    simp only [Memory.step] at h
    simp only [Navigator.removeTrack]
    split at h
    case isTrue h0 => cases h; rw [if_pos h0]
    case isFalse h0 =>
      rw [if_neg h0]
      have hgr : ¬ (goLen rid = 0 ∨ goLen rid > 36) := fun h => h0 (h.elim .inl fun h => .inr (.inl h))
      have hf : (m.view a).routes.find? (fun r => r.id == rid) =
          ((m.navs a).refs.find? (fun p => (m.routes p).body.id == rid)).map m.routeView := by
        show ((m.navs a).refs.map m.routeView).find? _ = _
        rw [List.find?_map]; rfl
      unfold routeByID
      rw [if_neg hgr, hf]
      split at h
      case h_1 hn => cases h; rw [hn]; rfl
      case h_2 p hn =>
        rw [hn]
        dsimp only [Option.map_some]
        have hv := rview_removeTrack m.tracks (m.routes p) tid
        have hu := updateFirst_map m.routeView (fun r : Route F => r.id == rid) (fun r => (r.removeTrack tid).1)
          (m.navs a).refs p hn (List.Nodup.of_map _ hd)
        have hmap : (m.navs a).refs.map m'.routeView = (m.navs a).refs.map fun x =>
            if x = p then ((m.routeView x).removeTrack tid).1 else m.routeView x := by
          apply List.map_congr_left
          intro x _
          rw [hra x]
          by_cases hx : x = p
          · subst hx
            simp only [effect]
            rw [if_pos ⟨hgr, hn⟩, if_pos trivial]
            rfl
          · simp only [effect]
            rw [if_neg hx, if_neg]
            · rfl
            · rintro ⟨-, h⟩
              rw [hn] at h
              exact hx (Option.some.inj h).symm
        rw [show (m.view a).routes = (m.navs a).refs.map m.routeView from rfl, hu, ← hmap]
        have hb2 : ((m.routeView p).removeTrack tid).2 = ((m.routes p).removeTrack m.tracks tid).2 := hv.2.symm
        rw [hb2]
        split at h
        case isTrue hk =>
          cases h
          rw [if_pos hk]
          rw [view_cellSet]
          rfl
        case isFalse hk =>
          cases h
          rw [if_neg hk]
          rfl
  | resetRoutes a =>
    obtain rfl : a = b := Option.some.inj hb
    simp only [own, if_true, one, Navigator.step]
    congr 1
    simp only [Memory.step] at h
    have hl : (m.view a).routes.length = (m.navs a).refs.length := by simp [Memory.view]
    simp only [Navigator.resetRoutes, hl]
    split at h
    case isTrue h0 => cases h; rw [if_pos h0]
    case isFalse h0 => cases h; rw [if_neg h0, view_resetTo]; rfl
  | drive a op =>
    obtain rfl : a = b := Option.some.inj hb
    simp only [Memory.step] at h
    simp only [own, true_and]
    split at h
    case isTrue h0 =>
      rw [if_pos h0, one]
      cases hs : (m.view a).step op with
      | error e => rw [hs] at h; cases h
      | ok n =>
        rw [hs] at h
        cases h
        congr 1
        have hr : n.routes = (m.view a).routes := by
          by_cases hm : Moving op
          · exact (step_routes_frame hm hs).1
          · cases op <;> first | exact (hm trivial).elim | (cases h0; done) | skip
            cases hs; rfl
        rw [view_cellSet]
        unfold nview
        dsimp only
        show n = ({ n with routes := (m.view a).routes } : Navigator F)
        rw [← hr]
    case isFalse h0 => cases h; rw [if_neg h0]; rfl
  | addTrack p q => cases hb
  | dropTrack p id => cases hb
  | editRoute p e => cases hb
  | editTrack q op => cases hb

/-! ## Histories -/

/-- No call changes the id of a route. -/
theorem ids_after [GoMath F] {m m' : Memory F} {op : MemOp F} (h : m.step op = .ok m') (p : Nat) :
    (m'.routes p).body.id = (m.routes p).body.id := by
  have key : ∀ (es : List (RouteOp F)) (r : Route F), (es.foldl Route.apply r).id = r.id := by
    intro es
    induction es with
    | nil => intro r; rfl
    | cons e es ih =>
      intro r
      rw [List.foldl_cons, ih]
      cases e with
      | addTrack t => cases t <;> rfl
      | removeTrack id =>
        simp only [Route.apply, Route.removeTrack]
        split
        · rfl
        · split <;> rfl
      | trackByID id =>
        simp only [Route.apply, Route.trackByID]
        split
        · rfl
        · split <;> rfl
      | changeColor c => cases c <;> rfl
      | changeName s =>
        simp only [Route.apply, Route.changeName]
        cases parseName s <;> rfl
      | setProps _ => rfl
      | onTrack _ _ => rfl
  have := congrArg Route.id (routes_after h p)
  rw [key] at this
  exact this

theorem removeFirst_sublist {α : Type} (P : α → Bool) (l : List α) : (removeFirst P l).1.Sublist l := by
  induction l with
  | nil => exact List.Sublist.refl _
  | cons a l ih =>
    simp only [removeFirst]
    split
    · exact List.sublist_cons_self a l
    · exact ih.cons_cons a

theorem distinct_after [GoMath F] {m m' : Memory F} {op : MemOp F} (h : m.step op = .ok m') {b : Nat}
    (hd : Distinct m b) : Distinct m' b := by
  have hid : (fun p => (m'.routes p).body.id) = fun p => (m.routes p).body.id := funext (ids_after h)
  unfold Distinct
  rw [hid]
  by_cases hb : actor op = some b
  · cases op with
    | addRoute a ps =>
      obtain rfl : a = b := Option.some.inj hb
      simp only [Memory.step] at h
      split at h
      · cases h; exact hd
      · split at h <;> cases h
        · show ((cellSet m.navs a _ a).refs.map _).Nodup
          rw [cellSet_same]
          have key : ∀ (ps : List (Option Nat)) (held : List Nat) (k : Nat),
              (held.map fun p => (m.routes p).body.id).Nodup →
                ((m.addLoop held k ps).1.map fun p => (m.routes p).body.id).Nodup := by
            intro ps
            induction ps with
            | nil => intro held k h; exact h
            | cons p ps ih =>
              intro held k h
              cases p with
              | none => exact ih held k h
              | some p =>
                simp only [Memory.addLoop]
                split
                case isTrue => exact ih held k h
                case isFalse hn =>
                  apply ih
                  rw [List.map_append, List.nodup_append]
                  refine ⟨h, by simp, ?_⟩
                  intro x hx y hy e
                  obtain ⟨q, hq, rfl⟩ := List.mem_map.mp hx
                  simp only [List.map_cons, List.map_nil, List.mem_singleton] at hy
                  subst hy
                  apply hn
                  rw [List.any_eq_true]
                  exact ⟨q, hq, by simp [e]⟩
          exact key ps _ 0 hd
        · exact hd
    | removeRoute a id =>
      obtain rfl : a = b := Option.some.inj hb
      simp only [Memory.step] at h
      split at h
      · cases h; exact hd
      · split at h <;> cases h
        · show ((cellSet m.navs a _ a).refs.map _).Nodup
          rw [cellSet_same]
          exact List.Nodup.sublist ((removeFirst_sublist _ _).map _) hd
        · exact hd
    | removeTrack a rid tid =>
      obtain rfl : a = b := Option.some.inj hb
      simp only [Memory.step] at h
      split at h
      · cases h; exact hd
      · split at h
        · cases h; exact hd
        · split at h <;> cases h
          · show ((cellSet m.navs a _ a).refs.map _).Nodup
            rw [cellSet_same]
            exact hd
          · exact hd
    | resetRoutes a =>
      obtain rfl : a = b := Option.some.inj hb
      simp only [Memory.step] at h
      split at h <;> cases h
      · exact hd
      · show ((cellSet m.navs a _ a).refs.map _).Nodup
        rw [cellSet_same]
        exact List.nodup_nil
    | drive a op =>
      obtain rfl : a = b := Option.some.inj hb
      simp only [Memory.step] at h
      split at h
      · cases hs : (m.view a).step op with
        | error e => rw [hs] at h; cases h
        | ok n =>
          rw [hs] at h; cases h
          show ((cellSet m.navs a _ a).refs.map _).Nodup
          rw [cellSet_same]
          exact hd
      · cases h; exact hd
    | addTrack p q => cases hb
    | dropTrack p id => cases hb
    | editRoute p e => cases hb
    | editTrack q op => cases hb
  · rw [navs_after h hb]
    exact hd

/-- What the navigator `b` sees of a program: its own calls, and mutations of its routes by other calls. -/
def trace [GoMath F] (b : Nat) : Memory F → List (MemOp F) → List (NavOp F)
  | _, [] => []
  | m, op :: ops =>
    (if actor op = some b then own m b op else edits (spread (fun p => effect m p op) (m.navs b).refs)) ++
      match m.step op with
      | .ok m' => trace b m' ops
      | .error _ => []

theorem run_append [GoMath F] (n : Navigator F) (l l' : List (NavOp F)) :
    n.run (l ++ l') = n.run l >>= fun n' => n'.run l' := by
  induction l generalizing n with
  | nil => rfl
  | cons o l ih =>
    simp only [List.cons_append, Navigator.run]
    cases n.step o with
    | error e => rfl
    | ok n' => exact ih n'

/-- **Sharing is simulated by mutation.** For every program on navigators without routes at the beginning, whatever they
share: what a navigator holds at the end is the result of the history `trace` on values. -/
theorem sharing_simulated [GoMath F] (m m' : Memory F) (ops : List (MemOp F)) (b : Nat) (hd : Distinct m b)
    (h : m.run ops = .ok m') : (m.view b).run (trace b m ops) = .ok (m'.view b) := by
  induction ops generalizing m with
  | nil => cases h; rfl
  | cons op ops ih =>
    simp only [Memory.run] at h
    cases hs : m.step op with
    | error e => rw [hs] at h; cases h
    | ok m1 =>
      rw [hs] at h
      have h1 : (m.view b).run (if actor op = some b then own m b op
          else edits (spread (fun p => effect m p op) (m.navs b).refs)) = .ok (m1.view b) := by
        split
        · exact seen_own hs hd (by assumption)
        · exact seen_foreign hs (by assumption)
      simp only [trace, hs, run_append, h1]
      exact ih m1 (distinct_after hs hd) h

/-- Everything that operations on values keep holds of navigators that share routes. -/
theorem invariant_shared [GoMath F] (P : Navigator F → Prop) (hP : ∀ n n' op, P n → n.step op = .ok n' → P n')
    (m m' : Memory F) (ops : List (MemOp F)) (b : Nat) (h0 : (m.navs b).refs = []) (hm : P (m.view b))
    (h : m.run ops = .ok m') : P (m'.view b) :=
  run_induction P hP _ _ _ hm (sharing_simulated m m' ops b (by simp [Distinct, h0]) h)

/-! ## The property -/

theorem effect_nil {m : Memory F} {p : Nat} {op : MemOp F} (h1 : ¬ HitsRoute m p op)
    (h2 : ∀ q ∈ (m.routes p).refs, ¬ HitsTrack q op) : effect m p op = [] := by
  cases op with
  | removeTrack a rid tid =>
    simp only [effect]
    rw [if_neg]
    rintro ⟨-, hf⟩
    exact h1 ⟨List.mem_of_find?_eq_some hf, by simpa using List.find?_some hf⟩
  | addTrack p' q => exact if_neg h1
  | dropTrack p' id => exact if_neg h1
  | editRoute p' e => exact if_neg h1
  | editTrack q op =>
    simp only [effect, List.map_eq_nil_iff, spread, List.flatMap_eq_nil_iff]
    intro e he
    have : e.1 ∈ (m.routes p).refs := by
      obtain ⟨e1, e2⟩ := e
      exact (List.mem_zipIdx he).2.2 ▸ List.getElem_mem _
    have hq : ¬ e.1 = q := h2 _ this
    simp [hq]
  | addRoute _ _ => rfl
  | removeRoute _ _ => rfl
  | resetRoutes _ => rfl
  | drive _ _ => rfl

/-- A call of somebody else that changes nothing the navigator can reach leaves it as it was. -/
theorem untouched [GoMath F] {m m' : Memory F} {op : MemOp F} (h : m.step op = .ok m') {b : Nat}
    (hb : actor op ≠ some b) (hh : ¬ Hits m b op) : m'.view b = m.view b := by
  have hm : (m.navs b).refs.map m'.routeView = (m.navs b).refs.map m.routeView := by
    apply List.map_congr_left
    intro p hp
    rw [routes_after h p, effect_nil (fun h => hh ⟨p, hp, .inl h⟩) (fun q hq h => hh ⟨p, hp, .inr ⟨q, hq, h⟩⟩)]
    rfl
  rw [view_eq, view_eq, navs_after h hb]
  unfold nview
  rw [hm]

theorem harmless_routes [GoMath F] {m m' : Memory F} {op : MemOp F} (ho : Harmless op) (h : m.step op = .ok m') :
    m'.routeView = m.routeView := by
  funext p
  rw [routes_after h p, effect_nil]
  · rfl
  · cases op <;> first | exact id | exact ho.elim
  · intro q _
    cases op <;> first | exact id | exact ho.elim

/-- **C77, one call.** A call of a navigator other than `RemoveTrack` leaves every other navigator as it was, even if
they share routes. -/
theorem others_unchanged_partial [GoMath F] {m m' : Memory F} {op : MemOp F} (ho : Harmless op) {a b : Nat}
    (ha : actor op = some a) (hab : a ≠ b) (h : m.step op = .ok m') : m'.view b = m.view b := by
  refine untouched h (fun hb => hab (Option.some.inj (ha.symm.trans hb))) ?_
  rintro ⟨p, -, hp | ⟨q, -, hq⟩⟩
  · cases op <;> first | exact hp | exact ho.elim
  · cases op <;> first | exact hq | exact ho.elim

/-- `RemoveTrack` leaves those alone that do not hold the route. -/
theorem removal_local [GoMath F] {m m' : Memory F} {a b : Nat} {rid tid : String} (hab : a ≠ b)
    (hs : ∀ p ∈ (m.navs b).refs, p ∈ (m.navs a).refs → (m.routes p).body.id ≠ rid)
    (h : m.step (.removeTrack a rid tid) = .ok m') : m'.view b = m.view b := by
  refine untouched h (fun hb => hab (Option.some.inj hb)) ?_
  rintro ⟨p, hp, ⟨h1, h2⟩ | ⟨q, -, hq⟩⟩
  · exact hs p hp h1 h2
  · exact hq

theorem own_routes (m m' : Memory F) (b : Nat) (h : m'.routeView = m.routeView) (op : MemOp F) :
    own m' b op = own m b op := by
  cases op <;> simp only [own, h]

/-- **C77, programs.** In a program of navigator calls without `RemoveTrack` every navigator ends where it would have
ended had it been alone with routes of its own: only its own calls count, and the routes are those of the beginning. -/
theorem as_if_alone_partial [GoMath F] (m m' : Memory F) (ops : List (MemOp F)) (b : Nat) (hd : Distinct m b)
    (ho : ∀ op ∈ ops, Harmless op) (h : m.run ops = .ok m') :
    (m.view b).run (ops.flatMap (own m b)) = .ok (m'.view b) ∧ m'.routeView = m.routeView := by
  induction ops generalizing m with
  | nil => cases h; exact ⟨rfl, rfl⟩
  | cons op ops ih =>
    simp only [Memory.run] at h
    cases hs : m.step op with
    | error e => rw [hs] at h; cases h
    | ok m1 =>
      rw [hs] at h
      have hop := ho op List.mem_cons_self
      have hr := harmless_routes hop hs
      obtain ⟨h2, h3⟩ := ih m1 (distinct_after hs hd) (fun o h => ho o (List.mem_cons_of_mem _ h)) h
      refine ⟨?_, h3.trans hr⟩
      rw [List.flatMap_cons, run_append]
      have h1 : (m.view b).run (own m b op) = .ok (m1.view b) := by
        by_cases hb : actor op = some b
        · exact seen_own hs hd hb
        · have hn : own m b op = [] := by
            cases op <;> simp only [own] <;>
              first
                | exact if_neg fun e => hb (by rw [← e]; rfl)
                | exact if_neg fun e => hb (by rw [← e.1]; rfl)
          rw [hn]
          show Except.ok (m.view b) = _
          congr 1
          cases ha : actor op with
          | none => cases op <;> first | exact hop.elim | cases ha
          | some a =>
            exact (others_unchanged_partial hop ha (fun e => hb (by rw [ha, e])) hs).symm
      rw [h1]
      show (m1.view b).run _ = _
      rw [← h2]
      congr 1
      have : (own m1 b : MemOp F → List (NavOp F)) = own m b := funext fun o => own_routes m m1 b hr o
      rw [this]

/-! ## The exception -/

/-- One route with one track at address 0, held by the navigators 0 and 1. -/
def toyMem (n : Navigator Toy) : Memory Toy :=
  ⟨fun _ => Toy.track, fun p => ⟨Route.restore (if p = 0 then "r" else "s") "#000000" none, []⟩, fun _ => ⟨n, []⟩⟩

/-- Run a program on two new navigators. -/
def toyRun (ops : List (MemOp Toy)) : Option (Memory Toy) :=
  (Navigator.new "e" (fun _ => Toy.of 0) [.skipOffline]).toOption.bind fun n => ((toyMem n).run ops).toOption

/-- The track is added to the route, the route to both navigators. -/
def setUp : List (MemOp Toy) := [.addTrack 0 (some 0), .addRoute 0 [some 0, some 1, some 0], .addRoute 1 [none, some 0]]

/-- The number of tracks, the distance of the routes, the total distance of the navigator, the versions. -/
structure Figures where
  tracks : List Nat
  dists : List Rat
  total : Rat
  versions : Int × Int × Int
  deriving DecidableEq

/-- The figures of a navigator. -/
def figures (n : Navigator Toy) : Figures :=
  ⟨n.routes.map (·.tracks.length), n.routes.map (·.dist.val), n.distance.val, n.sum⟩

/-- Observations of the navigators 0 and 1 after a program. -/
def both (ops : List (MemOp Toy)) : Option (Figures × Figures) :=
  (toyRun ops).map fun m => (figures (m.view 0), figures (m.view 1))

/-- `AddRoute` refuses the second route with the same id, takes the other one, and drives share the route. -/
example : both (setUp ++ [.drive 0 (.nextLocation (Toy.of 1) (Toy.of 2) 0), .drive 0 (.toNextRoute)]) =
    both setUp := by decide +kernel

example : ((toyRun setUp).map fun m => ((m.navs 0).refs, (m.navs 1).refs)) = some ([0, 1], [0]) := by
  decide +kernel

/-- `RemoveTrack` of the navigator 0: the navigator 1 loses its track too. Its version does not change, and its total
distance is still that of the track. -/
theorem removal_seen : ∃ d : Rat, d ≠ 0 ∧
    both setUp = some (⟨[1, 0], [d, 0], d, (1, 1, 0)⟩, ⟨[1], [d], d, (1, 1, 0)⟩) ∧
    both (setUp ++ [.removeTrack 0 "r" "t"]) = some (⟨[0, 0], [0, 0], d, (2, 2, 0)⟩, ⟨[0], [0], d, (1, 2, 0)⟩) := by
  refine ⟨(both setUp).elim 0 fun x => x.2.total, ?_⟩
  decide +kernel

/-- Some program leads to a memory in which the call of the navigator 0 changes the navigator 1. -/
def refutes (ops : List (MemOp Toy)) (op : MemOp Toy) : Bool :=
  match toyRun ops with
  | none => false
  | some m =>
    match m.step op with
    | .error _ => false
    | .ok m' => decide ((m'.view 1).routes ≠ (m.view 1).routes)

example : refutes setUp (.removeTrack 0 "r" "t") = true := by decide +kernel

/-- **C77, the exception.** Any number type, any memory. `RemoveTrack` of the navigator `a` takes the track from the
route that every other navigator which holds the route sees. Their totals stay as they were. -/
theorem removal_everywhere [GoMath F] (m : Memory F) (a p : Nat) (rid tid : String)
    (hl : 0 < goLen rid ∧ goLen rid ≤ 36 ∧ 0 < goLen tid ∧ goLen tid ≤ 36)
    (hp : (m.navs a).refs.find? (fun p => (m.routes p).body.id == rid) = some p)
    (ht : ∃ t ∈ (m.routeView p).tracks, t.id = tid) :
    ∃ m', m.step (.removeTrack a rid tid) = .ok m' ∧
      (m'.routeView p).tracks = (m.routeView p).tracks.eraseP (fun t => t.id == tid) ∧
      (m'.routeView p).tracks.length + 1 = (m.routeView p).tracks.length ∧
      ∀ b, b ≠ a → (m'.view b).distance = (m.view b).distance ∧ (m'.view b).version = (m.view b).version ∧
        ∀ i : Nat, (m.navs b).refs[i]? = some p →
          (m.view b).routes[i]? = some (m.routeView p) ∧ (m'.view b).routes[i]? = some (m'.routeView p) := by
  obtain ⟨t, h1, rfl⟩ := ht
  obtain ⟨q, h2, rfl⟩ := List.mem_map.mp h1
  have hany : (m.routes p).refs.any (fun q' => (m.tracks q').id == (m.tracks q).id) = true :=
    List.any_eq_true.mpr ⟨q, h2, by simp⟩
  generalize hid : (m.tracks q).id = tid at *
  let refs := (m.routes p).refs.eraseP (fun q' => (m.tracks q').id == tid)
  have hstep : m.step (.removeTrack a rid tid) = .ok
      { m with routes := cellSet m.routes p ((m.routes p).withTracks m.tracks refs)
               navs := cellSet m.navs a ⟨(m.navs a).body.nextVersion, (m.navs a).refs⟩ } := by
    simp only [Memory.step]
    rw [if_neg (by omega), hp]
    have hrem : (m.routes p).removeTrack m.tracks tid = ((m.routes p).withTracks m.tracks refs, true) := by
      unfold RouteObj.removeTrack
      rw [if_neg (by omega), removeFirst_eq]
      simp only [hany, if_true]
      rfl
    simp only [hrem, if_true]
  have htr : refs.map m.tracks = (m.routeView p).tracks.eraseP (fun t => t.id == tid) := by
    show ((m.routes p).refs.eraseP _).map m.tracks = ((m.routes p).refs.map m.tracks).eraseP _
    rw [List.eraseP_map]
    rfl
  refine ⟨_, hstep, ?_, ?_, ?_⟩
  · show (cellSet m.routes p _ p).refs.map m.tracks = _
    rw [show ∀ v, cellSet m.routes p v p = v from fun v => if_pos rfl]
    exact htr
  · show ((cellSet m.routes p _ p).refs.map m.tracks).length + 1 = _
    rw [show ∀ v, cellSet m.routes p v p = v from fun v => if_pos rfl]
    show (refs.map m.tracks).length + 1 = _
    rw [htr, List.length_eraseP_of_mem h1 (by simp [hid])]
    have := List.length_pos_of_mem h1
    omega
  · intro b hb
    have hnav : cellSet m.navs a ⟨(m.navs a).body.nextVersion, (m.navs a).refs⟩ b = m.navs b := if_neg hb
    refine ⟨?_, ?_, ?_⟩
    · show (cellSet m.navs a _ b).body.distance = _
      rw [hnav]; rfl
    · show (cellSet m.navs a _ b).body.version = _
      rw [hnav]; rfl
    · intro i hi
      refine ⟨?_, ?_⟩
      · show ((m.navs b).refs.map m.routeView)[i]? = _
        rw [List.getElem?_map, hi]; rfl
      · show ((cellSet m.navs a _ b).refs.map _)[i]? = _
        rw [hnav, List.getElem?_map, hi]; rfl

/-- A track at every address, a route with that track at every address, and navigators that hold the route at address
0. -/
def sharedMem [GoMath F] : Memory F :=
  ⟨fun _ => ⟨"t", [], "", "", none, lit 0, false, 0⟩, fun _ => ⟨⟨"r", lit 0, "", "", [], none, 0⟩, [0]⟩,
    fun _ => ⟨newState ⟨lit 0, lit 0, 0, 0, 0, 4, true⟩ ⟨"", "", lit 0, lit 0, lit 0, lit 0, ⟨[], 0, lit 0, lit 0⟩⟩, [0]⟩⟩

/-- The full claim is false, for every number type. -/
theorem claim_fails (F : Type) [GoMath F] : ¬ Claim F := by
  intro h
  obtain ⟨m', h1, -, h2, h3⟩ := removal_everywhere (F := F) sharedMem 0 0 "r" "t" (by decide) rfl
    ⟨_, List.mem_singleton.mpr rfl, rfl⟩
  have hv := h _ _ _ 0 1 rfl (by decide) h1
  obtain ⟨-, -, h4⟩ := h3 1 (by decide)
  obtain ⟨k1, k2⟩ := h4 0 rfl
  rw [hv, k1] at k2
  rw [← Option.some.inj k2] at h2
  omega

end GpsGen.C77
