import Verif.Lemmas.DeviceCore
import Verif.Theorems.C23
import Verif.Theorems.C52
import Verif.Theorems.C95
/-!
# C96: saving the devices and restarting the program continues every trajectory

Any number type. A program saves its devices with `EncodeTracker` and ends; another one decodes them, attaches them to a
new generator and goes on. `C23` compares the decoded device with the original after `EncodeTracker`, which calls
`Update`; here it is compared with a device that was never saved.

The full claim is false (`claim_fails`): `Update` writes parts of the published state that `Next` writes only when the
device moves, so until then a restored device may publish a different state. The theorems (`_partial`) are about what
drives the trajectory, and about the published state from the first round on in which the device moves.
-/

namespace GpsGen
namespace C96
open Device Navigator C23 Overlay

variable {F : Type}

/-! ## Specification -/

/-- The same times, `c` nanoseconds later. -/
def later (c : Int) (l : List (Int × NextRnd F)) : List (Int × NextRnd F) := l.map fun x => (x.1 + c, x.2)

/-- Everything that decides where a device goes, what it costs and what it measures. -/
structure SameJourney (f g : Device F) : Prop where
  speed : g.speed = f.speed
  battery : g.battery = f.battery
  sensors : g.sensors = f.sensors
  place : g.navigator.point = f.navigator.point
  cursor : g.navigator.routeIndex = f.navigator.routeIndex ∧ g.navigator.trackIndex = f.navigator.trackIndex ∧
    g.navigator.segmentIndex = f.navigator.segmentIndex
  travelled : g.navigator.currentDistance = f.navigator.currentDistance ∧
    g.navigator.currentRouteDistance = f.navigator.currentRouteDistance ∧
    g.navigator.currentTrackDistance = f.navigator.currentTrackDistance ∧
    g.navigator.currentSegmentDistance = f.navigator.currentSegmentDistance
  routes : g.navigator.routes = f.navigator.routes
  elevation : g.navigator.elevation = f.navigator.elevation
  offline : g.navigator.offlineIndex = f.navigator.offlineIndex
  identity : (g.state.id, g.state.userId, g.state.model, g.state.color, g.state.description) =
    (f.state.id, f.state.userId, f.state.model, f.state.color, f.state.description)
  clock : (g.state.tick, g.state.duration, g.state.speed) = (f.state.tick, f.state.duration, f.state.speed)
  shownRoutes : g.state.routes = f.state.routes

/-! ## Proof -/

section
variable [GoMath F]

omit [GoMath F] in
theorem tickOf_later [GoFloat F] (last t c : Int) : (tickOf (last + c) (t + c) : F) = tickOf last t := by
  unfold tickOf
  rw [show last + c - (t + c) = last - t by omega]

theorem drive_later (d : Device F) (last c : Int) (l : List (Int × NextRnd F)) :
    driveDevice d (last + c) (later c l) = driveDevice d last l := by
  induction l generalizing d last with
  | nil => rfl
  | cons x l ih =>
    obtain ⟨t, r⟩ := x
    show (d.next (tickOf (last + c) (t + c)) r >>= fun y => driveDevice y.1 (t + c) (later c l)) = _
    rw [tickOf_later]
    conv => rhs; unfold driveDevice
    congr 1
    funext y
    exact ih y.1 t

theorem drive_like {o : Option Random} {s : Int} {d : Device F} (h : OffFree o d.navigator) (last : Int)
    (l : List (Int × NextRnd F)) : driveDevice (d.like o s) last l = (driveDevice d last l).map (like o s) := by
  induction l generalizing d last with
  | nil => rfl
  | cons x l ih =>
    obtain ⟨t, r⟩ := x
    unfold driveDevice
    rw [next_like h]
    apply bind_like
    rintro ⟨y, b⟩ hy
    refine ih ?_ t
    have hp : d.perform (.next (tickOf last t) r) = .ok (y, .bool b) := by
      show (d.next _ _).map _ = _
      rw [hy]; rfl
    exact perform_offFree h (by simp) hp

theorem drive_core {d e f : Device F} {last : Int} {l : List (Int × NextRnd F)} (hc : CoreAlike d e)
    (h : driveDevice d last l = .ok f) :
    ∃ g, driveDevice e last l = .ok g ∧ CoreAlike f g ∧ (C95.movedOnce d last l = true → g = f) := by
  induction l generalizing d e last with
  | nil => cases h; exact ⟨e, rfl, hc, nofun⟩
  | cons x l ih =>
    obtain ⟨t, r⟩ := x
    obtain ⟨⟨d1, b⟩, h1, h⟩ := bind_eq_ok h
    obtain ⟨e1, k1, k2, k3⟩ := next_core hc h1
    obtain ⟨g, g1, g2, g3⟩ := ih k2 h
    have hd : driveDevice e last ((t, r) :: l) = .ok g := by
      unfold driveDevice
      rw [k1]
      exact g1
    refine ⟨g, hd, g2, ?_⟩
    have hm : C95.movedOnce d last ((t, r) :: l) = (b || C95.movedOnce d1 t l) := by
      conv => lhs; unfold C95.movedOnce
      rw [h1]
    rw [hm]
    cases b with
    | false => exact g3
    | true =>
      intro _
      rw [k3 rfl, h] at g1
      exact (Except.ok.inj g1).symm

theorem drive_tidy {d f : Device F} {last : Int} {l : List (Int × NextRnd F)} (ht : Tidy d)
    (h : driveDevice d last l = .ok f) : Tidy f := by
  induction l generalizing d last with
  | nil => cases h; exact ht
  | cons x l ih =>
    obtain ⟨t, r⟩ := x
    obtain ⟨⟨d1, b⟩, h1, h⟩ := bind_eq_ok h
    exact ih (next_tidy ht h1) h

omit [GoMath F] in
theorem core_journey {f g : Device F} {o : Option Random} {s : Int} (h : CoreAlike f g) : SameJourney f (g.like o s) := by
  obtain ⟨st, hs, rfl⟩ := h
  exact ⟨rfl, rfl, rfl, rfl, ⟨rfl, rfl, rfl⟩, ⟨rfl, rfl, rfl, rfl⟩, rfl, rfl, rfl,
    by show (st.id, st.userId, st.model, st.color, st.description) = _
       rw [hs.id, hs.userId, hs.model, hs.color, hs.description],
    by show (st.tick, st.duration, st.speed) = _
       rw [hs.tick, hs.duration, hs.speed], hs.routes⟩

theorem drive_append (d : Device F) (start : Int) (l1 l2 : List (Int × NextRnd F)) :
    driveDevice d start (l1 ++ l2) =
      driveDevice d start l1 >>= fun d' => driveDevice d' (C79.lastOf start (l1.map Prod.fst)) l2 := by
  induction l1 generalizing d start with
  | nil => rfl
  | cons x l1 ih =>
    obtain ⟨t, r⟩ := x
    have hlast : C79.lastOf start (List.map Prod.fst ((t, r) :: l1)) = C79.lastOf t (l1.map Prod.fst) := by
      unfold C79.lastOf
      cases l1 with
      | nil => rfl
      | cons a as => simp [List.getLast?_cons]
    rw [hlast]
    show (d.next (tickOf start t) r >>= fun y => driveDevice y.1 t (l1 ++ l2)) = _
    show _ = ((d.next (tickOf start t) r >>= fun y => driveDevice y.1 t l1) >>= _)
    cases d.next (tickOf start t) r with
    | error e => rfl
    | ok y => exact ih y.1 t

theorem drive_lived {p : Prop} {d f : Device F} {last : Int} {l : List (Int × NextRnd F)} (hd : Lived p d)
    (h : driveDevice d last l = .ok f) :
    ∃ q, Lived q f ∧ (p → q) ∧ (l ≠ [] → d.navigator.routes ≠ [] → q) := by
  induction l generalizing p d last with
  | nil => cases h; exact ⟨p, hd, id, fun h => absurd rfl h⟩
  | cons x l ih =>
    obtain ⟨t, r⟩ := x
    obtain ⟨⟨d1, b⟩, h1, h⟩ := bind_eq_ok h
    have hs : d.step (.next (tickOf last t) r) = .ok d1 := by
      show (d.next _ _).map _ = _
      rw [h1]; rfl
    obtain ⟨q, a1, a2, -⟩ := ih (Lived.step hd (op := .next (tickOf last t) r) trivial hs) h
    exact ⟨q, a1, fun hp => a2 (Or.inl hp), fun _ hr => a2 (Or.inr ⟨⟨_, _, rfl⟩, hr⟩)⟩

theorem next_tick {d d' : Device F} {tick : F} {rnd : NextRnd F} {b : Bool} (ht : d.tick = 0)
    (h : d.next tick rnd = .ok (d', b)) : d'.tick = 0 := by
  cases next_outcome h with
  | idle hr => exact ht
  | halted hr n1 n2 speed h1 h2 h3 h4 => rfl
  | lap hr n1 n2 speed d' h1 h2 h3 h4 h5 =>
    obtain ⟨st, -, rfl⟩ := updateState_eq h5
    rfl
  | moved hr n1 n2 n3 speed sensors d2 d' h1 h2 h3 h4 h5 hd2 h6 =>
    obtain ⟨st, -, rfl⟩ := updateState_eq h6
    subst hd2
    simp only [refreshed]
    split <;> rfl

theorem drive_tick {d f : Device F} {last : Int} {l : List (Int × NextRnd F)} (ht : d.tick = 0)
    (h : driveDevice d last l = .ok f) : f.tick = 0 := by
  induction l generalizing d last with
  | nil => cases h; exact ht
  | cons x l ih =>
    obtain ⟨t, r⟩ := x
    obtain ⟨⟨d1, b⟩, h1, h⟩ := bind_eq_ok h
    exact ih (next_tick ht h1) h

/-- After a round in which the device moved no id is stale. -/
theorem moved_noStale {d d' : Device F} {tick : F} {rnd : NextRnd F} (h : d.next tick rnd = .ok (d', true)) :
    NoStale d' := by
  cases next_outcome h with
  | moved hr n1 n2 n3 speed sensors d2 d' h1 h2 h3 h4 h5 hd2 h6 =>
    obtain ⟨c1, c2⟩ := landed_current h3
    obtain ⟨q1, q2, -⟩ := elevation_current h4
    obtain ⟨st, -, rfl⟩ := updateState_eq h6
    have hn : d2.navigator = n3 := by rw [hd2]; rfl
    have none_of : ∀ {α β : Type} {x : Go (Option α)} {u : α → β}, x ≠ .ok none → x.map (Option.map u) ≠ .ok none := by
      intro α β x u hx hc
      obtain ⟨a, ha, hb⟩ := map_eq_ok hc
      cases a with
      | none => exact hx ha
      | some _ => cases hb
    have key : (if d2.navigator.sum ≠ d2.ns then d2.updateRoutes else d2).navigator.currentRoute ≠ .ok none ∧
        (if d2.navigator.sum ≠ d2.ns then d2.updateRoutes else d2).navigator.currentTrack ≠ .ok none := by
      split
      · show (touched d2.navigator).currentRoute ≠ _ ∧ (touched d2.navigator).currentTrack ≠ _
        rw [hn, currentRoute_touched, currentTrack_touched, q1, q2]
        exact ⟨none_of c1, none_of c2⟩
      · rw [hn, q1, q2]; exact ⟨c1, c2⟩
    exact ⟨fun hc => absurd hc key.1, fun hc => absurd hc key.2⟩

end

/-! ## The claim, for one device -/

section
variable [GoMath F]

/-- The device `d` can be saved: it has a history, no call of `Next` was skipped, it has published its speed, no id of a
former route or track is published, and its derived state is up to date. -/
structure Ready (d : Device F) : Prop where
  lived : ∃ q, Lived q d ∧ (q ∨ d.speed.isStatic = false)
  tick : d.tick = 0
  current : NoStale d
  tidy : Tidy d

/-- `r` is a device that was decoded from what was saved of `d`, possibly attached to a generator. -/
def Restored (d r : Device F) : Prop :=
  ∃ e m r0 s, encodeTracker d = .ok (e, m) ∧ decodeTracker m = .ok r0 ∧ r = { r0 with status := s }

/-- **C96, devices.** A device that was saved and restored goes the same way, at the same speeds, with the same battery,
offline periods, elevations and sensor readings, as one that was never saved, for any number of rounds, whenever it is
resumed. From the first round on in which it moves, it publishes exactly the same. -/
theorem continues_partial (d f r : Device F) (hd : Ready d) (hr : Restored d r) (last c : Int)
    (l : List (Int × NextRnd F)) (h : driveDevice d last l = .ok f) :
    ∃ g, driveDevice r (last + c) (later c l) = .ok g ∧ SameJourney f g ∧
      (C95.movedOnce d last l = true → g.state = f.state) := by
  obtain ⟨q, hl, hq⟩ := hd.lived
  obtain ⟨e, m, r0, s, he, hm, rfl⟩ := hr
  obtain ⟨o, ho, hdec⟩ := decode_encode (lived_sound hl) hd.tick (lived_speed hl hq) hd.current he
  rw [hm] at hdec
  cases hdec
  obtain ⟨e', hu, h4⟩ := bind_eq_ok he
  cases h4
  obtain ⟨g, g1, g2, g3⟩ := drive_core (update_core hd.tidy hu) h
  have hlike := drive_like (s := s) ho last l
  rw [g1] at hlike
  refine ⟨g.like o s, ?_, core_journey g2, fun hmv => ?_⟩
  · rw [drive_later]
    exact hlike
  · rw [g3 hmv]; rfl

/-- **C96, in bytes.** The same for the bytes of `EncodeTracker`, given that JSON text is read back as what it was
printed for. -/
theorem continues_bytes_partial [WireFloat F] (print : RawProps F → Bytes) (read : Bytes → RawProps F)
    (hj : ∀ p, read (print p) = p) (d e f : Device F) (m : SnapMsg F) (bs : Bytes) (hd : Ready d)
    (he : encodeTracker d = .ok (e, m)) (hb : encodeTrackerBytes print d = .ok (e, bs)) (hk : OkSnap (m.mapProps print))
    (hl : bs.length < 2 ^ 63) (last c : Int) (l : List (Int × NextRnd F)) (h : driveDevice d last l = .ok f) :
    ∃ r g, decodeTrackerBytes read bs = .ok (some r) ∧ driveDevice r (last + c) (later c l) = .ok g ∧
      SameJourney f g ∧ (C95.movedOnce d last l = true → g.state = f.state) := by
  obtain ⟨q, hlv, hq⟩ := hd.lived
  obtain ⟨o, -, hdec⟩ := decode_encode (lived_sound hlv) hd.tick (lived_speed hlv hq) hd.current he
  obtain ⟨g, g1, g2, g3⟩ := continues_partial d f _ hd ⟨e, m, _, Status.stopped, he, hdec, rfl⟩ last c l h
  refine ⟨_, g, ?_, g1, g2, g3⟩
  rw [C52.tracker_bytes print read hj d e m bs he hb hk hl, hdec]
  rfl

/-! ## Devices that can be saved -/

/-- A new device that was given routes and sensors. -/
def Prepared (d : Device F) : Prop :=
  ∃ rnd o d0 rs d1 ss, Device.new rnd o = .ok d0 ∧ (∀ r, some r ∈ rs → C22.SoundRoute r) ∧
    d0.addRoute rs = (d1, none) ∧ d = d1.addSensor ss

omit [GoMath F] in
theorem addSensors_none (held : List (Sensor F)) (k : Nat) (ss : List (Option (Sensor F))) :
    k ≤ (addSensors held k ss).2 ∧ ((addSensors held k ss).2 = k → (addSensors held k ss).1 = held) := by
  induction ss generalizing held k with
  | nil => exact ⟨Nat.le_refl _, fun _ => rfl⟩
  | cons s ss ih =>
    cases s with
    | none => exact ih held k
    | some s =>
      unfold addSensors
      split
      · exact ih held k
      · have := ih (held ++ [s]) (k + 1)
        exact ⟨by omega, fun h => by omega⟩

theorem prepared_ready {d : Device F} (h : Prepared d) : Lived False d ∧ d.tick = 0 ∧ Tidy d := by
  obtain ⟨rnd, o, d0, rs, d1, ss, h1, h2, h3, rfl⟩ := h
  have a1 : Lived False d0 := .new h1
  have s1 : d0.step (.addRoute rs) = .ok d1 := by show Except.ok (d0.addRoute rs).1 = _; rw [h3]
  have a2 := Lived.step a1 (op := .addRoute rs) h2 s1
  have a3 := Lived.step a2 (op := .addSensor ss) trivial (d' := d1.addSensor ss) rfl
  have t0 : d0.tick = 0 ∧ d0.sensors = [] ∧ d0.state.sensors = [] := by
    obtain ⟨_, _, _, st, -, -, -, h4, rfl⟩ := Device.new_eq h1
    obtain ⟨_, _, rfl, -⟩ := applyFor_eq h4
    exact ⟨rfl, rfl, rfl⟩
  have t1 : d1.tick = 0 ∧ Tidy d1 := by
    unfold Device.addRoute at h3
    generalize d0.navigator.addRoute rs = z at h3
    obtain ⟨n, err⟩ := z
    cases err with
    | some e => cases h3
    | none =>
      simp only [Prod.mk.injEq, and_true] at h3
      subst h3
      refine ⟨t0.1, updateRoutes_idem _, ?_⟩
      show d0.state.sensors.map _ = d0.sensors.map _
      rw [t0.2.1, t0.2.2]; rfl
  have iff : ((False ∨ Ticks d0 (.addRoute rs)) ∨ Ticks d1 (.addSensor ss)) = False := by
    refine eq_false ?_
    rintro ((h | ⟨⟨_, _, h⟩, -⟩) | ⟨⟨_, _, h⟩, -⟩)
    · exact h
    · cases h
    · cases h
  rw [iff] at a3
  refine ⟨a3, ?_⟩
  unfold addSensor
  split
  · exact t1
  · have hk := addSensors_none d1.sensors 0 ss
    revert hk
    rcases addSensors d1.sensors 0 ss with ⟨held, ok⟩
    intro hk
    simp only at hk ⊢
    split
    · refine ⟨t1.1, ?_, ?_⟩
      · have e := tidy_routes t1.2.routes
        exact routes_tidy e.1 e.2.1 e.2.2.1 e.2.2.2
      · show (held.map _).map _ = _
        rw [List.map_map]; rfl
    · have hz : ok = 0 := by omega
      have hh := hk.2 hz
      subst hh
      exact t1

/-- A device that was prepared and driven for at least one round can be saved if no id of a former track is published,
in particular after a round in which it moved. -/
theorem driven_ready {d0 d : Device F} {start : Int} {l : List (Int × NextRnd F)} (h0 : Prepared d0)
    (hr : d0.navigator.routes ≠ []) (hl : l ≠ []) (h : driveDevice d0 start l = .ok d) (hc : NoStale d) : Ready d := by
  obtain ⟨a1, a2, a3⟩ := prepared_ready h0
  obtain ⟨q, b1, -, b3⟩ := drive_lived a1 h
  exact ⟨⟨q, b1, Or.inl (b3 hl hr)⟩, drive_tick a2 h, hc, drive_tidy a3 h⟩

/-- **C96, whole trips.** A device is prepared, driven for some rounds, saved, restored and driven on, or it is driven
all the time. -/
theorem trip_partial (d0 d r f : Device F) (start c : Int) (l1 l2 : List (Int × NextRnd F)) (h0 : Prepared d0)
    (hr : d0.navigator.routes ≠ []) (hl : l1 ≠ []) (h1 : driveDevice d0 start l1 = .ok d) (hc : NoStale d)
    (hs : Restored d r) (h2 : driveDevice d0 start (l1 ++ l2) = .ok f) :
    ∃ g, driveDevice r (C79.lastOf start (l1.map Prod.fst) + c) (later c l2) = .ok g ∧ SameJourney f g ∧
      (C95.movedOnce d (C79.lastOf start (l1.map Prod.fst)) l2 = true → g.state = f.state) := by
  rw [drive_append, h1] at h2
  exact continues_partial d f r (driven_ready h0 hr hl h1 hc) hs _ c l2 h2

/-! ## The claim, for a generator -/

section
open Run

variable {c c2 : Cfg} {rnd : Nat → Nat → NextRnd F} {devs : List Nat} {mem mem2 : Nat → Device F} {start : Int}

omit [GoMath F] in
theorem resumed_rounds (p : Nat) (ts1 ts2 : List Int) (k : Int) :
    ((ts2.map (· + k)).zipIdx.map fun x => (x.1, rnd p (x.2 + ts1.length + 1))) =
      later k ((ts2.zipIdx ts1.length).map fun x => (x.1, rnd p (x.2 + 1))) := by
  apply List.ext_getElem?
  intro i
  unfold later
  simp only [List.getElem?_map, List.getElem?_zipIdx]
  cases ts2[i]? with
  | none => rfl
  | some t => simp only [Option.map_some, Nat.zero_add, Nat.add_comm ts1.length]

/-- **C96, generators.** One generator runs for the rounds `ts1 ++ ts2`. The devices as they are after `ts1` are saved,
restored, and attached to another generator, of any configuration, for which the rounds `ts2` come `k` nanoseconds
later; the devices make the same draws. From the first round on in which a device moves after the restart, a subscriber
of the second generator receives of it exactly what a subscriber of the first one does. -/
theorem restart_partial (hn : 1 ≤ c.numWorkers) (hn2 : 1 ≤ c2.numWorkers) (hd : devs.Nodup)
    (hlen : devs.length < c.packetSize) (hlen2 : devs.length < c2.packetSize) (ts1 ts2 : List Int) (k : Int)
    {L L2 : Live F} (h : C79.Runs c rnd devs mem start L) (ho : L.gs.closed = false) (hi : L.gs.run = .idle)
    (hts : L.rounds = ts1 ++ ts2)
    (h2 : C79.Runs c2 (fun p n => rnd p (n + ts1.length)) devs mem2 (C79.lastOf start ts1 + k) L2)
    (ho2 : L2.gs.closed = false) (hi2 : L2.gs.run = .idle) (hts2 : L2.rounds = ts2.map (· + k))
    (hs : ∀ p ∈ devs, ∀ d, C79.Driven mem rnd start p ts1 d → Ready d ∧ Restored d (mem2 p))
    (p : Nat) (hp : p ∈ devs) (n : Nat) (h1 : 1 ≤ n) (hle : n ≤ ts2.length)
    (hm : ∀ d, C79.Driven mem rnd start p ts1 d → C95.movedOnce d (C79.lastOf start ts1)
      (((ts2.take n).zipIdx ts1.length).map fun x => (x.1, rnd p (x.2 + 1))) = true) :
    (∃ st, (C79.received L2 p)[n - 1]? = some (some st)) ∧
    (C79.received L2 p)[n - 1]? = (C79.received L p)[ts1.length + n - 1]? := by
  obtain ⟨e1, s1⟩ := C79.trajectory hn hd hlen h ho hi p hp
  obtain ⟨e2, s2⟩ := C79.trajectory hn2 hd hlen2 h2 ho2 hi2 p hp
  have i1 : (C79.received L p)[ts1.length + n - 1]? =
      some (C79.stateAfter mem rnd start p L.rounds (ts1.length + n)) := by
    rw [e1, List.getElem?_map, List.getElem?_range (by rw [hts, List.length_append]; omega), Option.map_some,
      Nat.sub_add_cancel (by omega)]
  have i2 : (C79.received L2 p)[n - 1]? = some (C79.stateAfter mem2 (fun p n => rnd p (n + ts1.length))
      (C79.lastOf start ts1 + k) p L2.rounds n) := by
    rw [e2, List.getElem?_map, List.getElem?_range (by rw [hts2, List.length_map]; omega), Option.map_some,
      Nat.sub_add_cancel h1]
  have some1 := s1 _ (List.mem_of_getElem? i1)
  have htake : (ts1 ++ ts2).take (ts1.length + n) = ts1 ++ ts2.take n := by
    rw [List.take_append, List.take_of_length_le (by omega), Nat.add_sub_cancel_left]
  have hfst : (ts1.zipIdx.map fun x => (x.1, rnd p (x.2 + 1))).map Prod.fst = ts1 := by
    rw [List.map_map]
    exact List.zipIdx_map_fst 0 _
  unfold C79.stateAfter at i1 i2 some1
  rw [hts, htake, List.zipIdx_append, List.map_append, drive_append, hfst, Nat.zero_add] at i1 some1
  rw [hts2, ← List.map_take] at i2
  have hrr : ((List.map (· + k) (List.take n ts2)).zipIdx.map
      fun x => (x.1, (fun p n => rnd p (n + ts1.length)) p (x.2 + 1))) =
      later k (((ts2.take n).zipIdx ts1.length).map fun x => (x.1, rnd p (x.2 + 1))) := by
    rw [← resumed_rounds p ts1 (ts2.take n) k]
    apply List.map_congr_left
    intro x _
    show (x.1, rnd p (x.2 + 1 + ts1.length)) = _
    rw [Nat.add_right_comm]
  rw [hrr] at i2
  cases hdr : driveDevice (mem p) start (ts1.zipIdx.map fun x => (x.1, rnd p (x.2 + 1))) with
  | error e => rw [hdr] at some1; cases some1
  | ok d =>
    rw [hdr] at i1 some1
    simp only [ok_bind] at i1 some1
    obtain ⟨r1, r2⟩ := hs p hp d hdr
    cases hf : driveDevice d (C79.lastOf start ts1)
        (((ts2.take n).zipIdx ts1.length).map fun x => (x.1, rnd p (x.2 + 1))) with
    | error e => rw [hf] at some1; cases some1
    | ok f =>
      rw [hf] at i1
      obtain ⟨g, g1, -, g3⟩ := continues_partial d f (mem2 p) r1 r2 _ k _ hf
      rw [g1] at i2
      have hst := g3 (hm d hdr)
      rw [i1, i2]
      refine ⟨⟨g.state, rfl⟩, ?_⟩
      show some (some g.state) = some (some f.state)
      rw [hst]

end
end

/-! ## The full claim is false -/

/-- A track along the equator. -/
def strip (id : String) (a b : Rat) : Track Toy :=
  match Track.restore id "#000000" [Toy.pt 0 a, Toy.pt 0 b] with
  | .ok t => t
  | .error _ => ⟨"", [], "", "", none, Toy.of 0, false, 0⟩

/-- A route with three tracks. -/
def road : Route Toy :=
  Route.addTrack (Route.addTrack (Route.addTrack (Route.restore "r" "#000000" none) (some (strip "a" 0 1)))
    (some (strip "b" 1 2))) (some (strip "c" 2 3))

/-- One second. -/
def sec : Int := 1000000000

/-- The rounds before: a move, and a round so long that the device leaves its first track. -/
def before : List (Int × NextRnd Toy) := [(sec, Toy.nextRnd), (10000001 * sec, Toy.nextRnd)]

/-- The round after, in which it leaves its second track. -/
def after : List (Int × NextRnd Toy) := [(20000001 * sec, Toy.nextRnd)]

/-- What a device driven for the rounds before and after publishes, without and with a restart in between. -/
def compare (l1 l2 : List (Int × NextRnd Toy)) (look : Device Toy → Device Toy → Bool) : Bool :=
  match Device.new Toy.rnd (some Toy.opts) with
  | .error _ => false
  | .ok d0 => match d0.addRoute [some road] with
    | (_, some _) => false
    | (d1, none) => match driveDevice d1 0 l1 with
      | .error _ => false
      | .ok d => match encodeTracker d with
        | .error _ => false
        | .ok (_, m) => match decodeTracker m with
          | .error _ => false
          | .ok r => match driveDevice d (C79.lastOf 0 (l1.map Prod.fst)) l2 with
            | .error _ => false
            | .ok f => match driveDevice r (C79.lastOf 0 (l1.map Prod.fst)) l2 with
              | .error _ => false
              | .ok g => !d1.navigator.routes.isEmpty && decide (d.navigator.currentRoute ≠ .ok none) &&
                  decide (d.navigator.currentTrack ≠ .ok none) && look f g

theorem compare_parts {l1 l2 : List (Int × NextRnd Toy)} {look : Device Toy → Device Toy → Bool} (hl : l1 ≠ [])
    (hsound : C22.SoundRoute road) (h : compare l1 l2 look = true) :
    ∃ d r f g last, Ready d ∧ Restored d r ∧ driveDevice d last l2 = .ok f ∧ driveDevice r last l2 = .ok g ∧
      look f g = true := by
  unfold compare at h
  split at h
  · cases h
  rename_i d0 h0
  split at h
  · cases h
  rename_i d1 h1
  split at h
  · cases h
  rename_i d h2
  split at h
  · cases h
  rename_i e m h3
  split at h
  · cases h
  rename_i r h4
  split at h
  · cases h
  rename_i f h5
  split at h
  · cases h
  rename_i g h6
  simp only [Bool.and_eq_true, Bool.not_eq_true', decide_eq_true_eq] at h
  obtain ⟨⟨⟨a1, a2⟩, a3⟩, a4⟩ := h
  have hp : Prepared d1 := ⟨Toy.rnd, some Toy.opts, d0, [some road], d1, [], h0, by
    intro r hr
    cases List.mem_singleton.mp hr
    exact hsound, h1, rfl⟩
  refine ⟨d, r, f, g, _, driven_ready hp ?_ hl h2 ⟨fun h => absurd h a2, fun h => absurd h a3⟩,
    ⟨e, m, r, r.status, h3, h4, rfl⟩, h5, h6, a4⟩
  intro hc
  rw [hc] at a1
  cases a1

theorem road_sound : C22.SoundRoute road := by
  have h : road.props = none ∧ (∀ t ∈ road.tracks, t.props = none) ∧ road.name = "" := by
    decide +kernel
  refine ⟨Or.inl h.2.2, ?_, ?_⟩
  · intro m hm
    rw [h.1] at hm
    cases hm
  · intro t ht m hm
    rw [h.2.1 t ht] at hm
    cases hm

/-- **The full claim is false.** A device that has just left its first track and leaves the second one in the next round,
without moving, publishes a different state if it was saved and restored in between. -/
theorem claim_fails : ∃ (d r f g : Device Toy) (last : Int) (l : List (Int × NextRnd Toy)), Ready d ∧ Restored d r ∧
    driveDevice d last l = .ok f ∧ driveDevice r last l = .ok g ∧
    (f.state.nav.currentTrackIndex, f.state.nav.currentTrackId) = (0, "a") ∧
    (g.state.nav.currentTrackIndex, g.state.nav.currentTrackId) = (1, "b") ∧ f.navigator.trackIndex = 2 := by
  have h : compare before after (fun f g =>
      decide ((f.state.nav.currentTrackIndex, f.state.nav.currentTrackId) = (0, "a") ∧
        (g.state.nav.currentTrackIndex, g.state.nav.currentTrackId) = (1, "b") ∧ f.navigator.trackIndex = 2)) = true := by
    decide +kernel
  obtain ⟨d, r, f, g, last, h1, h2, h3, h4, h5⟩ := compare_parts (by simp [before]) road_sound h
  exact ⟨d, r, f, g, last, after, h1, h2, h3, h4, of_decide_eq_true h5⟩

/-! Non-vacuity: a device that moves after the restart publishes the same, with a sum of distances that differs from that
at the time it was saved. -/

example : compare [(sec, Toy.nextRnd), (2 * sec, Toy.nextRnd)] [(3 * sec, Toy.nextRnd), (7 * sec, Toy.nextRnd)]
    (fun f g => decide (f.state = g.state ∧ f.state.dist.currentDistance.val = 14 ∧ f.state.duration.val = 7)) = true := by
  decide +kernel

end C96
end GpsGen
