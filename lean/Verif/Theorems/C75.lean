import Verif.Model.Options
import Verif.Model.Generator
import Verif.Lemmas.DeviceNext
import Verif.Lemmas.Toy
import Verif.Model.F64
import Mathlib.Tactic.SplitIfs
import Mathlib.Data.List.Nodup
/-!
# C75: devices get identifiers of their own

As stated the property is false: `NewDevice` writes the generated id into the caller's options, so that all devices
made from the same options share it. The theorems say what is written, that this is the only way two devices come to
the same generated id, and what it means for a generator.
-/

namespace GpsGen
variable {F : Type}

namespace C75

/-! ## Specification -/

/-- The client leaves the identifiers of the options alone: none at the beginning, none set later (a change of other
fields, or an id taken out again, is fine). -/
def NoIds (st : Nat → DeviceOptions F) (ops : List (OptOp F)) : Prop :=
  (∀ p, (st p).id = "") ∧ ∀ p f, .edit p f ∈ ops → ∀ o, (f o).id = o.id ∨ (f o).id = ""

/-- The draws of a history are pairwise different and not empty. -/
def FreshDraws [GoFloat F] (st : Nat → DeviceOptions F) (ops : List (OptOp F)) : Prop :=
  ((makeAll st ops).map Made.uid).Nodup ∧ "" ∉ (makeAll st ops).map Made.uid

/-- The full claim: if the client sets no identifiers, all devices have different ones. -/
def Claim (F : Type) [GoFloat F] : Prop :=
  ∀ (st : Nat → DeviceOptions F) (ops : List (OptOp F)), NoIds st ops → FreshDraws st ops →
    ((makeAll st ops).filterMap Made.id).Nodup

/-! ## One call -/

section
variable [GoFloat F]

omit [GoFloat F] in
theorem named_applyFor (o : DeviceOptions F) (rnd : DeviceRnd F) (s : DevState F) :
    (o.named rnd.uid).applyFor rnd s = o.applyFor rnd s := by
  unfold DeviceOptions.applyFor DeviceOptions.named
  by_cases h : goLen o.id = 0 <;> simp [h]

/-- The device is the one described by the contents of the options. -/
theorem result_eq (st : Nat → DeviceOptions F) (rnd : DeviceRnd F) (p : Option Nat) :
    (newDeviceAt st rnd p).1 = Device.new rnd (p.map st) := by
  cases p with
  | none => rfl
  | some p =>
    simp only [newDeviceAt, Device.new, Option.map_some, Option.getD_some, named_applyFor]
    cases Navigator.new rnd.sensorUid rnd.elevationDraws (st p).navOpts with
    | error e => rfl
    | ok n =>
      cases Speed.new rnd.speedDraws (st p).speedMin (st p).speedMax (st p).speedAmplitude with
      | error e => rfl
      | ok s =>
        cases Battery.new (st p).batteryMin (st p).batteryMax (st p).chargeTime with
        | error e => rfl
        | ok b =>
          cases (st p).applyFor rnd DevState.init with
          | error e => rfl
          | ok x => rfl

/-- Only the options passed can change, only their id, only if they had none, and only to the id drawn. -/
theorem options_after (st : Nat → DeviceOptions F) (rnd : DeviceRnd F) (p : Option Nat) (q : Nat) :
    (newDeviceAt st rnd p).2 q = st q ∨
      p = some q ∧ (st q).id = "" ∧ (newDeviceAt st rnd p).2 q = { st q with id := rnd.uid } := by
  cases p with
  | none => exact .inl rfl
  | some p =>
    unfold newDeviceAt
    dsimp only
    cases Navigator.new rnd.sensorUid rnd.elevationDraws (st p).navOpts with
    | error e => exact .inl rfl
    | ok n =>
      cases Speed.new rnd.speedDraws (st p).speedMin (st p).speedMax (st p).speedAmplitude with
      | error e => exact .inl rfl
      | ok s =>
        cases Battery.new (st p).batteryMin (st p).batteryMax (st p).chargeTime with
        | error e => exact .inl rfl
        | ok b =>
          have key : (if q = p then (st p).named rnd.uid else st q) = st q ∨ some p = some q ∧ (st q).id = "" ∧
              (if q = p then (st p).named rnd.uid else st q) = { st q with id := rnd.uid } := by
            by_cases hq : q = p
            · subst hq
              rw [if_pos rfl]
              unfold DeviceOptions.named
              by_cases h : goLen (st q).id = 0
              · right
                have h0 : (st q).id = "" := by simpa [goLen] using h
                exact ⟨rfl, h0, by simp [h0, goLen]⟩
              · exact .inl (by simp [h])
            · exact .inl (if_neg hq)
          dsimp only
          cases ((st p).named rnd.uid).applyFor rnd DevState.init <;> exact key

/-- A device has the id its options had, or the one drawn; afterwards the options have it. -/
theorem device_id (st : Nat → DeviceOptions F) (rnd : DeviceRnd F) (p : Option Nat) {d : Device F}
    (h : (newDeviceAt st rnd p).1 = .ok d) :
    (d.state.id = match p with
      | none => rnd.uid
      | some q => if (st q).id = "" then rnd.uid else (st q).id) ∧
    ∀ q, p = some q → ((newDeviceAt st rnd p).2 q).id = d.state.id := by
  have hr := h
  rw [result_eq] at hr
  obtain ⟨n, s, b, x, h1, h2, h3, h4, rfl⟩ := Device.new_eq hr
  obtain ⟨model, color, rfl, -, -⟩ := applyFor_eq h4
  have e0 : ∀ t : String, goLen t = 0 ↔ t = "" := fun t => by simp [goLen]
  cases p with
  | none => exact ⟨by simp [DeviceOptions.default, goLen], fun q hq => by cases hq⟩
  | some p =>
    simp only [Option.map_some, Option.getD_some] at h1 h2 h3 h4
    refine ⟨by simp [e0], ?_⟩
    rintro q ⟨⟩
    unfold newDeviceAt
    dsimp only
    rw [h1]; dsimp only
    rw [h2]; dsimp only
    rw [h3]; dsimp only
    rw [named_applyFor, h4]
    simp [DeviceOptions.named]

/-- Two devices made from the same options have the same id, whatever happened to other options in between. -/
theorem reused (st st' : Nat → DeviceOptions F) (rnd rnd' : DeviceRnd F) (p : Nat) {d d' : Device F}
    (h : (newDeviceAt st rnd (some p)).1 = .ok d) (hu : rnd.uid ≠ "")
    (hs : (st' p).id = ((newDeviceAt st rnd (some p)).2 p).id)
    (h' : (newDeviceAt st' rnd' (some p)).1 = .ok d') : d'.state.id = d.state.id := by
  obtain ⟨e, k⟩ := device_id st rnd (some p) h
  obtain ⟨e', -⟩ := device_id st' rnd' (some p) h'
  rw [k p rfl] at hs
  have hne : d.state.id ≠ "" := by
    rw [e]; dsimp only; split_ifs with h0
    · exact hu
    · exact h0
  rw [e']; dsimp only
  rw [hs, if_neg hne]

/-! ## Histories -/

/-- Ids in the options come from earlier calls with the same options. -/
def Explained (old : List Made) (st : Nat → DeviceOptions F) : Prop :=
  ∀ p, (st p).id = "" ∨ ∃ e ∈ old, e.ptr = some p ∧ e.uid = (st p).id

theorem explained_new {old : List Made} {st : Nat → DeviceOptions F} (h : Explained old st) (rnd : DeviceRnd F)
    (p : Option Nat) (i : Option String) :
    Explained (old ++ [⟨p, rnd.uid, i⟩]) (newDeviceAt st rnd p).2 := by
  intro q
  rcases options_after st rnd p q with e | ⟨rfl, -, e⟩
  · rw [e]
    rcases h q with h | ⟨x, hx, h⟩
    · exact .inl h
    · exact .inr ⟨x, List.mem_append_left _ hx, h⟩
  · rw [e]
    exact .inr ⟨_, List.mem_append_right _ (List.mem_singleton_self _), rfl, rfl⟩

/-- Where the id of a device comes from: its own call, or another call with the same options. -/
def Origin (all : List Made) (m : Made) : Prop :=
  ∀ i, m.id = some i → m.uid = i ∨ ∃ e ∈ all, (∃ p, m.ptr = some p) ∧ e.ptr = m.ptr ∧ e.uid = i

theorem origins (st : Nat → DeviceOptions F) (ops : List (OptOp F)) (old : List Made) (h : Explained old st)
    (he : ∀ p f, .edit p f ∈ ops → ∀ o, (f o).id = o.id ∨ (f o).id = "") :
    ∀ m ∈ makeAll st ops, Origin (old ++ makeAll st ops) m := by
  induction ops generalizing st old with
  | nil => simp [makeAll]
  | cons op ops ih =>
    have he' : ∀ p f, OptOp.edit p f ∈ ops → ∀ o, (f o).id = o.id ∨ (f o).id = "" :=
      fun p f hm => he p f (List.mem_cons_of_mem _ hm)
    cases op with
    | edit p f =>
      refine ih _ old ?_ he'
      intro q
      dsimp only
      split_ifs with hq
      · subst hq
        rcases he q f (List.mem_cons_self ..) (st q) with e | e
        · rw [e]; exact h q
        · exact .inl e
      · exact h q
    | create p rnd =>
      intro m hm
      rcases List.mem_cons.mp hm with rfl | hm
      · intro i hi
        cases hd : (newDeviceAt st rnd p).1 with
        | error e => rw [hd] at hi; cases hi
        | ok d =>
          rw [hd] at hi
          have hi : d.state.id = i := by simpa [Except.toOption] using hi
          have := (device_id st rnd p hd).1
          rw [hi] at this
          cases p with
          | none => exact .inl this.symm
          | some q =>
            dsimp only at this
            split_ifs at this with h0
            · exact .inl this.symm
            · right
              rcases h q with h | ⟨e, he, h1, h2⟩
              · exact absurd h h0
              · exact ⟨e, List.mem_append_left _ he, ⟨q, rfl⟩, h1, h2.trans this.symm⟩
      · have := ih _ _ (explained_new h rnd p ((newDeviceAt st rnd p).1.toOption.map (·.state.id))) he' m hm
        rw [List.append_assoc] at this
        exact this

/-- Two devices with the same id were made from the same options. So ids differ as long as every device is made from
options of its own, or from none. -/
theorem same_id_same_options_partial (st : Nat → DeviceOptions F) (ops : List (OptOp F)) (h : NoIds st ops)
    (hf : FreshDraws st ops) (m m' : Made) (hm : m ∈ makeAll st ops) (hm' : m' ∈ makeAll st ops) (hne : m ≠ m')
    (i : String) (hi : m.id = some i) (hi' : m'.id = some i) : ∃ p, m.ptr = some p ∧ m'.ptr = some p := by
  have ho := origins st ops [] (fun p => .inl (h.1 p)) h.2
  have inj : ∀ a ∈ makeAll st ops, ∀ b ∈ makeAll st ops, a.uid = b.uid → a = b := fun a ha b hb =>
    List.inj_on_of_nodup_map hf.1 ha hb
  rw [List.nil_append] at ho
  rcases ho m hm i hi with e | ⟨x, hx, ⟨p, hp⟩, hxp, e⟩ <;>
    rcases ho m' hm' i hi' with e' | ⟨x', hx', ⟨p', hp'⟩, hxp', e'⟩
  · exact absurd (inj m hm m' hm' (e.trans e'.symm)) hne
  · have := inj m hm x' hx' (e.trans e'.symm)
    subst this
    exact ⟨p', hxp'.trans hp', hp'⟩
  · have := inj m' hm' x hx (e'.trans e.symm)
    subst this
    exact ⟨p, hp, hxp.trans hp⟩
  · have := inj x hx x' hx' (e.trans e'.symm)
    subst this
    exact ⟨p, hp, (hxp'.symm.trans hxp).trans hp⟩

/-- In particular: if no options are used twice, the ids are pairwise different. -/
theorem distinct_partial (st : Nat → DeviceOptions F) (ops : List (OptOp F)) (h : NoIds st ops)
    (hf : FreshDraws st ops) (hp : ((makeAll st ops).filterMap Made.ptr).Nodup) :
    ((makeAll st ops).filterMap Made.id).Nodup := by
  have key := same_id_same_options_partial st ops h hf
  have hnd : (makeAll st ops).Nodup := List.Nodup.of_map _ hf.1
  revert key hp hnd
  generalize makeAll st ops = l
  intro hp key hnd
  rw [List.Nodup, List.pairwise_filterMap] at hp ⊢
  refine List.Pairwise.imp_of_mem ?_ (hp.and hnd)
  rintro a b ha hb ⟨hab, hne⟩ i hi j hj rfl
  obtain ⟨p, h1, h2⟩ := key a b ha hb hne i hi hj
  exact hab p h1 p h2 rfl

end

/-! ## The full claim fails -/

/-- Draws with a given id. -/
def toyDraws (uid : String) : DeviceRnd Toy :=
  ⟨uid, "abcdefgh", "#102030", fun s => some s, "sensor", fun _ => Toy.of 0, fun _ => Toy.of 0⟩

/-- Random choices of doubles. -/
def doubleDraws (uid : String) : DeviceRnd F64 :=
  ⟨uid, "abcdefgh", "#102030", fun s => some s, "sensor", fun _ => GoFloat.lit 0, fun _ => GoFloat.lit 0⟩

/-- Two devices made from the default options held by one pointer. -/
def twice : List (OptOp F64) := [.create (some 0) (doubleDraws "u1"), .create (some 0) (doubleDraws "u2")]

theorem twice_same : makeAll (fun _ => DeviceOptions.default) twice =
    [⟨some 0, "u1", some "u1"⟩, ⟨some 0, "u2", some "u1"⟩] := by decide +kernel

/-- The full claim is false, in IEEE doubles. -/
theorem claim_fails : ¬ Claim F64 := by
  intro h
  have := h (fun _ => DeviceOptions.default) twice ⟨fun _ => rfl, by simp [twice]⟩
    (by unfold FreshDraws; rw [twice_same]; decide)
  rw [twice_same] at this
  revert this
  decide

/-- Options of their own, or none: different ids. -/
example : makeAll (fun _ => (DeviceOptions.default : DeviceOptions Toy)) [.create (some 0) (toyDraws "u1"),
    .create (some 1) (toyDraws "u2"), .create none (toyDraws "u3"), .edit 0 (fun o => { o with id := "" }),
    .create (some 0) (toyDraws "u4")] =
    [⟨some 0, "u1", some "u1"⟩, ⟨some 1, "u2", some "u2"⟩, ⟨none, "u3", some "u3"⟩, ⟨some 0, "u4", some "u4"⟩] := by
  decide +kernel

/-- The id is left in the options although no device was made (here the model is too short). -/
example : makeAll (fun _ => { (DeviceOptions.default : DeviceOptions Toy) with model := "x" })
    [.create (some 0) (toyDraws "u1"), .edit 0 (fun o => { o with model := "Model one" }),
      .create (some 0) (toyDraws "u2")] = [⟨some 0, "u1", none⟩, ⟨some 0, "u2", some "u1"⟩] := by
  decide +kernel

/-! ## What it means for a generator -/

theorem deleteLoop_split (devs : Nat → Device F) (id : String) (l pre post : List Nat) (p : Nat)
    (hl : l = pre ++ p :: post) (hp : (devs p).state.id = id) (hpre : ∀ q ∈ pre, (devs q).state.id ≠ id) :
    World.deleteLoop devs id l = some (p, pre ++ post) := by
  subst hl
  induction pre with
  | nil => simp [World.deleteLoop, hp]
  | cons q pre ih =>
    have hq := hpre q (List.mem_cons_self ..)
    have := ih fun x hx => hpre x (List.mem_cons_of_mem _ hx)
    simp [World.deleteLoop, hq, this]

theorem findLoop_isSome (devs : Nat → Device F) (id : String) (l : List Nat) :
    (World.findLoop devs id l).isSome = true ↔ ∃ p ∈ l, (devs p).state.id = id := by
  induction l with
  | nil => simp [World.findLoop]
  | cons q l ih =>
    unfold World.findLoop
    by_cases h : (devs q).state.id = id
    · simp [h]
    · simp [h, ih]

theorem findLoop_split (devs : Nat → Device F) (id : String) (pre post : List Nat) (p : Nat)
    (hp : (devs p).state.id = id) (hpre : ∀ q ∈ pre, (devs q).state.id ≠ id) :
    World.findLoop devs id (pre ++ p :: post) = some p := by
  induction pre with
  | nil => simp [World.findLoop, hp]
  | cons q pre ih =>
    have hq := hpre q (List.mem_cons_self ..)
    have := ih fun x hx => hpre x (List.mem_cons_of_mem _ hx)
    simp [World.findLoop, hq, this]

/-- Of several attached devices with the same id only the first can be looked up. -/
theorem lookup_first (w : World F) (g : Nat) (id : String) (pre post : List Nat) (p : Nat) (hid : id ≠ "")
    (hl : w.gens g = pre ++ p :: post) (hp : (w.devs p).state.id = id)
    (hpre : ∀ q ∈ pre, (w.devs q).state.id ≠ id) : w.lookup g id = some p := by
  unfold World.lookup
  rw [if_neg (by simpa [goLen] using hid), hl]
  exact findLoop_split _ _ _ _ _ hp hpre

theorem unmount_id {d d' : Device F} (h : d.unmount = .ok d') : d'.state.id = d.state.id := by
  unfold Device.unmount at h
  split at h
  · cases h
  · cases h; rfl

/-- `Detach` of an id that several attached devices have leaves the later ones attached: the generator still has a
tracker with that id. -/
theorem detach_leaves (w : World F) (g : Nat) (id : String) (pre mid post : List Nat) (p q : Nat)
    (hid : id ≠ "") (hl : w.gens g = pre ++ p :: mid ++ q :: post) (hp : (w.devs p).state.id = id)
    (hq : (w.devs q).state.id = id) (hpre : ∀ x ∈ pre, (w.devs x).state.id ≠ id) :
    (w.detach g id).1.gens g = pre ++ mid ++ q :: post ∧ (w.detach g id).1.hasTracker g id = true := by
  have hd : World.deleteLoop w.devs id (w.gens g) = some (p, pre ++ (mid ++ q :: post)) :=
    deleteLoop_split _ _ _ pre (mid ++ q :: post) p (by rw [hl]; simp) hp hpre
  unfold World.detach
  rw [if_neg (by simpa [goLen] using hid), hd]
  dsimp only
  cases hu : (w.devs p).unmount with
  | error e =>
    refine ⟨by simp [setAt], ?_⟩
    unfold World.hasTracker
    rw [findLoop_isSome]
    exact ⟨q, by simp [setAt], hq⟩
  | ok d =>
    refine ⟨by simp [setAt], ?_⟩
    unfold World.hasTracker
    rw [findLoop_isSome]
    refine ⟨q, by simp [setAt], ?_⟩
    dsimp only [setAt]
    split_ifs with h
    · rw [unmount_id hu, hp]
    · exact hq

end C75
end GpsGen
