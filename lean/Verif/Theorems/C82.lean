import Verif.Model.StateView
import Verif.Theorems.C59
import Verif.Lemmas.Toy
/-!
# C82: every device in a packet is a state of that device

Any number type. `State` hands out a pointer into the device, and the workers encode what it points to without the lock
of the device. With calls on the device meanwhile the parts of a message belong to different moments
(`torn`, `nowhere`). `consistent_partial` covers all calls that do not publish; `id_right` holds always.
-/

namespace GpsGen
namespace C82

variable {F : Type}

/-! ## Specification -/

/-- Calls other than `FromSnapshot`. -/
def NoRestore (ops : List (DevOp F)) : Prop := ∀ m, DevOp.fromSnapshot m ∉ ops

/-- Calls that move the device or change its routes or sensors without publishing. -/
inductive Silent : DevOp F → Prop
  | move (m) : Silent (.move m)
  | onRoute (i op) : Silent (.onRoute i op)
  | sensorNext (i t) : Silent (.sensorNext i t)
  | sensorShuffle (i draws) : Silent (.sensorShuffle i draws)
  | skipTick : Silent .skipTick
  | fromSnapshot (m) : Silent (.fromSnapshot m)

/-- The readings see these views. -/
def During (vs : List (DevState F)) (m : StateMoments F) : Prop := ∀ v ∈ m.all, v ∈ vs

/-- **The claim.** Whatever is called on the device while its state is read, what is read is one of its states. -/
def Claim (F : Type) [GoMath F] : Prop :=
  ∀ (d : Device F) (ops : List (DevOp F)) (vs : List (DevState F)) (m : StateMoments F),
    d.views ops = .ok vs → During vs m → m.read ∈ vs

/-! ## What the pointer shows -/

theorem views_cons [GoMath F] (d : Device F) (op : DevOp F) (ops : List (DevOp F)) (h : ∀ m, op ≠ .fromSnapshot m) :
    d.views (op :: ops) = (do let e ← d.step op; let vs ← e.views ops; return d.state :: vs) := by
  cases op <;> first | rfl | exact absurd rfl (h _)

/-- **C82, a live view.** As long as no snapshot is restored the pointer shows, after each call, the state the device
then publishes: it is not a copy. -/
theorem shows_current [GoMath F] (d : Device F) (ops : List (DevOp F)) (vs : List (DevState F)) (h : d.views ops = .ok vs)
    (hr : NoRestore ops) : vs.length = ops.length + 1 ∧
      ∀ i ≤ ops.length, ∃ e, d.run (ops.take i) = .ok e ∧ vs[i]? = some e.state := by
  induction ops generalizing d vs with
  | nil =>
    cases h
    refine ⟨rfl, fun i hi => ?_⟩
    obtain rfl : i = 0 := Nat.le_zero.mp hi
    exact ⟨d, rfl, rfl⟩
  | cons op ops ih =>
    rw [views_cons d op ops (fun m e => hr m (by rw [e]; exact List.mem_cons_self))] at h
    obtain ⟨e, he, h⟩ := bind_eq_ok h
    obtain ⟨ws, hw, h⟩ := bind_eq_ok h
    cases h
    obtain ⟨h1, h2⟩ := ih e ws hw (fun m hm => hr m (List.mem_cons_of_mem _ hm))
    refine ⟨by simp [h1], fun i hi => ?_⟩
    cases i with
    | zero => exact ⟨d, rfl, rfl⟩
    | succ i =>
      obtain ⟨g, hg, hv⟩ := h2 i (by simpa using hi)
      refine ⟨g, ?_, by simpa using hv⟩
      show d.step op >>= _ = _
      rw [he]
      exact hg

/-- **C82, a stale view.** After `FromSnapshot` the pointer shows what was published before, whatever is called. -/
theorem stale [GoMath F] (d : Device F) (m : SnapMsg F) (ops : List (DevOp F)) (vs : List (DevState F))
    (h : d.views (.fromSnapshot m :: ops) = .ok vs) : ∀ v ∈ vs, v = d.state := by
  unfold Device.views at h
  obtain ⟨e, _, h⟩ := bind_eq_ok h
  obtain ⟨_, _, h⟩ := bind_eq_ok h
  cases h
  intro v hv
  exact (List.mem_replicate.mp hv).2

theorem views_head [GoMath F] (d : Device F) (ops : List (DevOp F)) (vs : List (DevState F)) (h : d.views ops = .ok vs) :
    d.state ∈ vs := by
  cases ops with
  | nil => cases h; exact List.mem_singleton.mpr rfl
  | cons op ops =>
    by_cases hm : ∃ m, op = .fromSnapshot m
    · obtain ⟨m, rfl⟩ := hm
      unfold Device.views at h
      obtain ⟨e, _, h⟩ := bind_eq_ok h
      obtain ⟨_, _, h⟩ := bind_eq_ok h
      cases h
      exact List.mem_replicate.mpr ⟨by omega, rfl⟩
    · rw [views_cons d op ops (fun m e => hm ⟨m, e⟩)] at h
      obtain ⟨e, _, h⟩ := bind_eq_ok h
      obtain ⟨_, _, h⟩ := bind_eq_ok h
      cases h
      exact List.mem_cons_self

/-! ## Consistent readings -/

theorem read_still (v : DevState F) : (StateMoments.still v).read = v := rfl

theorem read_same (m : StateMoments F) (v : DevState F) (h : ∀ w ∈ m.all, w = v) : m.read = v := by
  obtain ⟨a1, a2, a3, a4, a5, a6, a7, a8, a9, a10, a11, a12, a13, a14, a15, a16, a17, a18, a19, a20, a21, a22, a23⟩ := m
  simp only [StateMoments.all, List.mem_cons, List.not_mem_nil, or_false, forall_eq_or_imp, forall_eq] at h
  obtain ⟨rfl, rfl, rfl, rfl, rfl, rfl, rfl, rfl, rfl, rfl, rfl, rfl, rfl, rfl, rfl, rfl, rfl, rfl, rfl, rfl, rfl, rfl,
    rfl⟩ := h
  rfl

theorem silent_state [GoMath F] {d e : Device F} {op : DevOp F} (hs : Silent op) (hr : ∀ m, op ≠ .fromSnapshot m)
    (h : d.step op = .ok e) : e.state = d.state := by
  cases hs with
  | move m =>
    have h : (d.navigator.step m.navOp).map (fun n => ({ d with navigator := n } : Device F)) = .ok e := h
    obtain ⟨n, _, rfl⟩ := map_eq_ok h
    rfl
  | onRoute i op =>
    have h : (d.navigator.step (.onRoute i op)).map (fun n => ({ d with navigator := n } : Device F)) = .ok e := h
    obtain ⟨n, _, rfl⟩ := map_eq_ok h
    rfl
  | sensorNext i t =>
    have h : d.onSensorNext i t = .ok e := h
    unfold Device.onSensorNext at h
    split at h
    · cases h; rfl
    · obtain ⟨s, _, h⟩ := bind_eq_ok h
      cases h
      rfl
  | sensorShuffle => cases h; rfl
  | skipTick => cases h; rfl
  | fromSnapshot m => exact absurd rfl (hr m)

theorem silent_views [GoMath F] (d : Device F) (ops : List (DevOp F)) (vs : List (DevState F)) (h : d.views ops = .ok vs)
    (hs : ∀ op ∈ ops, Silent op) : ∀ v ∈ vs, v = d.state := by
  induction ops generalizing d vs with
  | nil => cases h; intro v hv; exact List.mem_singleton.mp hv
  | cons op ops ih =>
    by_cases hm : ∃ m, op = .fromSnapshot m
    · obtain ⟨m, rfl⟩ := hm
      exact stale d m ops vs h
    · have hm' : ∀ m, op ≠ .fromSnapshot m := fun m e => hm ⟨m, e⟩
      rw [views_cons d op ops hm'] at h
      obtain ⟨e, he, h⟩ := bind_eq_ok h
      obtain ⟨ws, hw, h⟩ := bind_eq_ok h
      cases h
      intro v hv
      rcases List.mem_cons.mp hv with rfl | hv
      · rfl
      · rw [ih e ws hw (fun o ho => hs o (List.mem_cons_of_mem _ ho)) v hv]
        exact silent_state (hs op List.mem_cons_self) hm' he

/-- **C82.** If all calls meanwhile are silent, what is read is the state of the device: the one it had when `State` was
called. Missing for the full property: calls that publish, see `torn`. -/
theorem consistent_partial [GoMath F] (d : Device F) (ops : List (DevOp F)) (vs : List (DevState F))
    (m : StateMoments F) (h : d.views ops = .ok vs) (hm : During vs m) (hs : ∀ op ∈ ops, Silent op) :
    m.read = d.state ∧ m.read ∈ vs := by
  have := read_same m d.state fun w hw => silent_views d ops vs h hs w (hm w hw)
  exact ⟨this, by rw [this]; exact views_head d ops vs h⟩

/-- **C82, identifier.** Whatever is called meanwhile, the identifier read is that of the device. -/
theorem id_right [GoMath F] (d : Device F) (ops : List (DevOp F)) (vs : List (DevState F))
    (m : StateMoments F) (h : d.views ops = .ok vs) (hm : During vs m) : m.read.id = d.state.id := by
  have : ∀ v ∈ vs, v.id = d.state.id := by
    clear hm
    induction ops generalizing d vs with
    | nil => cases h; intro v hv; rw [List.mem_singleton.mp hv]
    | cons op ops ih =>
      by_cases hr : ∃ m, op = .fromSnapshot m
      · obtain ⟨m, rfl⟩ := hr
        intro v hv
        rw [stale d m ops vs h v hv]
      · have hr' : ∀ m, op ≠ .fromSnapshot m := fun m e => hr ⟨m, e⟩
        rw [views_cons d op ops hr'] at h
        obtain ⟨e, he, h⟩ := bind_eq_ok h
        obtain ⟨ws, hw, h⟩ := bind_eq_ok h
        cases h
        intro v hv
        rcases List.mem_cons.mp hv with rfl | hv
        · rfl
        · rw [ih e ws hw v hv]
          exact C59.id_constant d e [op] (by show d.step op >>= _ = _; rw [he]; rfl)
            (fun m hm => hr' m (List.mem_singleton.mp hm).symm)
  exact this m.id (hm m.id List.mem_cons_self)

/-! ## Torn readings -/

theorem two_mem {α : Type} {w u : α} {l : List α} (h1 : w ∈ l) (h2 : u ∈ l) (v : α) (h : v = w ∨ v = u ∨ v = w) : v ∈ l := by
  rcases h with rfl | rfl | rfl <;> assumption

/-- **C82, torn.** On every device two setters suffice: the message has the old user and the new description, a state
the device never had. -/
theorem torn [GoMath F] (d : Device F) (u s : String) (hu : u ≠ d.state.userId) (hs : s ≠ d.state.description) :
    ∃ (vs : List (DevState F)) (m : StateMoments F), d.views [.setUserID u, .setDescription s] = .ok vs ∧ During vs m ∧
      m.read ∉ vs := by
  refine ⟨_, { StateMoments.still d.state with description := ((d.setUserID u).setDescription s).state }, rfl, ?_, ?_⟩
  · intro v hv
    have h1 : d.state ∈ [d.state, (d.setUserID u).state, ((d.setUserID u).setDescription s).state] := by simp
    have h2 : ((d.setUserID u).setDescription s).state ∈
      [d.state, (d.setUserID u).state, ((d.setUserID u).setDescription s).state] := by simp
    exact two_mem (w := d.state) h1 h2 v (by simpa [StateMoments.all, StateMoments.still] using hv)
  · intro h
    rcases List.mem_cons.mp h with h | h
    · exact hs (congrArg DevState.description h)
    · rcases List.mem_cons.mp h with h | h
      · exact hu (congrArg DevState.userId h).symm
      · exact hu (congrArg DevState.userId (List.mem_singleton.mp h)).symm

/-- **C82, full claim fails**, for every number type in which there is a device. -/
theorem claim_fails [GoMath F] (d : Device F) : ¬ Claim F := by
  intro h
  obtain ⟨vs, m, h1, h2, h3⟩ := torn d (d.state.userId ++ "x") (d.state.description ++ "x")
    (fun e => by have := congrArg String.length e; simp at this)
    (fun e => by have := congrArg String.length e; simp at this)
  exact h3 (h d _ vs m h1 h2)

/-- **C82, a place the device never was.** If one call changes both published coordinates, the message may have the
latitude of before and the longitude of after: no view has these coordinates. -/
theorem nowhere [GoMath F] (d e : Device F) (op : DevOp F) (hr : ∀ m, op ≠ .fromSnapshot m) (h : d.step op = .ok e)
    (hlat : e.state.loc.lat ≠ d.state.loc.lat) (hlon : e.state.loc.lon ≠ d.state.loc.lon) :
    ∃ (vs : List (DevState F)) (m : StateMoments F), d.views [op] = .ok vs ∧ During vs m ∧
      m.read.loc.lat = d.state.loc.lat ∧ m.read.loc.lon = e.state.loc.lon ∧
      ∀ v ∈ vs, (v.loc.lat, v.loc.lon) ≠ (m.read.loc.lat, m.read.loc.lon) := by
  have hv : d.views [op] = .ok [d.state, e.state] := by
    rw [views_cons d op [] hr, h]
    rfl
  refine ⟨_, { StateMoments.still d.state with lon := e.state }, hv, ?_, rfl, rfl, ?_⟩
  · intro v hv
    exact two_mem (w := d.state) (u := e.state) (by simp) (by simp) v
      (by simpa [StateMoments.all, StateMoments.still] using hv)
  · intro v hv he
    rcases List.mem_cons.mp hv with rfl | hv
    · exact hlon (Prod.mk.inj he).2.symm
    · obtain rfl := List.mem_singleton.mp hv
      exact hlat (Prod.mk.inj he).1

/-- **C82, not a copy.** A state that was handed out changes with the device. -/
theorem not_a_copy [GoMath F] (d : Device F) (u : String) (hu : u ≠ d.state.userId) :
    ∃ v, d.views [.setUserID u] = .ok [d.state, v] ∧ v ≠ d.state :=
  ⟨_, rfl, fun h => hu (congrArg DevState.userId h)⟩

/-! ## Concrete cases -/

/-- A route that goes north and east. -/
def diagonal : Option (Route Toy) :=
  match Track.restore "t" "#000000" [Toy.pt 0 0, Toy.pt 1 1, Toy.pt 3 4] with
  | .ok t => some (Route.addTrack (Route.restore "r" "#000000" none) (some t))
  | .error _ => none

/-- A device that moved and has not published it, then `Update`. -/
def nowhereTest : Bool :=
  match Toy.dev [.addRoute [diagonal], .next (Toy.of 1) Toy.nextRnd] with
  | none => false
  | some d => match d.step (.move (.destinationTo (Toy.of 100000))) with
    | .error _ => false
    | .ok d => match d.step .update with
      | .error _ => false
      | .ok e => decide (e.state.loc.lat ≠ d.state.loc.lat) && decide (e.state.loc.lon ≠ d.state.loc.lon)

/-- The hypotheses of `nowhere` hold of this device and call. -/
example : nowhereTest = true := by decide +kernel

/-- `consistent_partial` for a device that is moved meanwhile. -/
def silentTest : Bool :=
  match Toy.dev [.addRoute [diagonal], .next (Toy.of 1) Toy.nextRnd] with
  | none => false
  | some d => match d.views [.move (.destinationTo (Toy.of 100000)), .move .resetNavigator, .skipTick] with
    | .error _ => false
    | .ok vs => decide (vs = [d.state, d.state, d.state, d.state])

example : silentTest = true := by decide +kernel

end C82
end GpsGen
