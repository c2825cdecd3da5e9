import Verif.Model.Browser
import Verif.Lemmas.WireMsgs
/-!
# Reading what was written, field by field
-/

namespace GpsGen
variable {F : Type}

/-- Reading the records turns the one message into the other, whatever follows. -/
def Runs {M : Type} (fld : M → Nat → Nat → Bytes → Option (M × Bytes)) (m : M) (rs : List Rec) (m' : M) : Prop :=
  (printRecs rs).length < 2 ^ 32 → ∀ k rest, (printRecs rs ++ rest).length ≤ k → ∃ k', rest.length ≤ k' ∧
    readFields fld k m (printRecs rs ++ rest) = readFields fld k' m' rest

/-- The wire type of a value. -/
def WireVal.wt : WireVal → Nat
  | .varint _ => 0
  | .fixed64 _ => 1
  | .bytes _ => 2
  | .fixed32 _ => 5

/-- The bytes of a value. -/
def WireVal.print : WireVal → Bytes
  | .varint v => putVarint v
  | .fixed64 v => putFixed 8 v
  | .bytes b => putVarint b.length ++ b
  | .fixed32 v => putFixed 4 v

theorem printRec_eq (n : Nat) (v : WireVal) : printRec (n, v) = putVarint (n * 8 + v.wt) ++ v.print := by
  cases v <;> rfl

theorem wt_lt (v : WireVal) : v.wt < 8 := by cases v <;> (simp [WireVal.wt])

namespace Runs
variable {M : Type} {fld : M → Nat → Nat → Bytes → Option (M × Bytes)}

theorem start (fld : M → Nat → Nat → Bytes → Option (M × Bytes)) (m : M) : Runs fld m [] m := fun _ k _ hk => ⟨k, hk, rfl⟩

theorem append {a b : List Rec} {m1 m2 m3 : M} (h1 : Runs fld m1 a m2) (h2 : Runs fld m2 b m3) : Runs fld m1 (a ++ b) m3 := by
  intro hl k rest hk
  rw [printRecs_append] at hl hk ⊢
  rw [List.length_append] at hl
  rw [List.append_assoc] at hk ⊢
  obtain ⟨k', hk', e⟩ := h1 (by omega) k (printRecs b ++ rest) hk
  obtain ⟨k'', hk'', e'⟩ := h2 (by omega) k' rest hk'
  exact ⟨k'', hk'', e.trans e'⟩

/-- One record. -/
theorem one {m m' : M} {n : Nat} {v : WireVal} (hn : n < 2 ^ 29)
    (h : v.print.length < 2 ^ 32 → ∀ rest, fld m n v.wt (v.print ++ rest) = some (m', rest)) : Runs fld m [(n, v)] m' := by
  intro hl k rest hk
  have e : printRecs [(n, v)] = putVarint (n * 8 + v.wt) ++ v.print := by
    unfold printRecs
    rw [List.flatMap_cons, List.flatMap_nil, List.append_nil, printRec_eq]
  rw [e] at hl hk ⊢
  have hw := wt_lt v
  have hp := putVarint_length_pos (n * 8 + v.wt)
  rw [List.append_assoc] at hk ⊢
  rw [List.length_append] at hl hk
  rw [List.length_append] at hk
  obtain ⟨k, rfl⟩ : ∃ j, k = j + 1 := ⟨k - 1, by omega⟩
  refine ⟨k, by omega, ?_⟩
  obtain ⟨b, bs, eb⟩ : ∃ b bs, putVarint (n * 8 + v.wt) ++ (v.print ++ rest) = b :: bs := by
    cases ep : putVarint (n * 8 + v.wt) with
    | nil => rw [ep] at hp; exact absurd hp (by simp)
    | cons b bs => exact ⟨b, _, rfl⟩
  have et : takeU32 (putVarint (n * 8 + v.wt) ++ (v.print ++ rest)) = some (n * 8 + v.wt, v.print ++ rest) := by
    unfold takeU32
    rw [getVarint_put _ _ (by omega)]
    simp only [Option.map_some, Option.some.injEq, Prod.mk.injEq, and_true]
    omega
  rw [eb] at et ⊢
  rw [readFields, et]
  have e1 : (n * 8 + v.wt) / 8 = n := by omega
  have e2 : (n * 8 + v.wt) % 8 = v.wt := by omega
  simp only [bind, Option.bind, e1, e2, h (by omega) rest]

theorem blob_print {b rest : Bytes} (hl : (WireVal.bytes b).print.length < 2 ^ 32) :
    takeBlob ((WireVal.bytes b).print ++ rest) = some (b, rest) := by
  have hb : b.length < 2 ^ 32 := by
    simp only [WireVal.print, List.length_append] at hl
    omega
  unfold takeBlob takeU32
  simp only [WireVal.print, List.append_assoc]
  rw [getVarint_put _ _ (by omega)]
  simp only [Option.map_some, bind, Option.bind]
  rw [Nat.mod_eq_of_lt hb, if_pos (by simp)]
  simp

/-- A string. -/
theorem str {m : M} (n : Nat) (set : M → String → M) (hf : ∀ wt bs, fld m n wt bs = reads takeStr (set m) bs)
    (h0 : set m "" = m) (s : String) (hn : n < 2 ^ 29 := by decide) : Runs fld m (field n (strVals s)) (set m s) := by
  unfold strVals
  by_cases h : s = ""
  · rw [if_pos h, h, h0]; exact start fld m
  · rw [if_neg h]
    refine one hn fun hl rest => ?_
    rw [hf]
    unfold reads takeStr
    rw [blob_print hl]
    simp only [bind, Option.bind, utf8_valid]
    rfl

/-- A double. -/
theorem dbl [WireFloat F] {m : M} (n : Nat) (set : M → F → M) (hf : ∀ wt bs, fld m n wt bs = reads takeDbl (set m) bs)
    (h0 : set m (WireFloat.ofBits 0) = m) (x : F) (hn : n < 2 ^ 29 := by decide) :
    Runs fld m (field n (dblVals x)) (set m x) := by
  unfold dblVals
  by_cases h : WireFloat.bits x = 0
  · have e : set m x = m := by rwa [← h, WireFloat.ofBits_bits] at h0
    rw [if_pos h, e]; exact start fld m
  · rw [if_neg h]
    refine one hn fun hl rest => ?_
    rw [hf]
    unfold reads takeDbl WireVal.print
    rw [getFixed_put _ _ _ (by have := (WireFloat.bits x).toNat_lt; simpa using this)]
    simp only [Option.map_some]
    rw [show (WireFloat.bits x).toNat.toUInt64 = WireFloat.bits x from UInt64.ofNat_toNat, WireFloat.ofBits_bits]

/-- An `int64`. -/
theorem int {R : Runtime} {m : M} (n : Nat) (set : M → Int → M) (hf : ∀ wt bs, fld m n wt bs = reads (takeInt R) (set m) bs)
    (h0 : set m 0 = m) (hR : R.int 0 = 0) (i : Int) (hi : Int64Ok i) (hn : n < 2 ^ 29 := by decide) :
    Runs fld m (field n (intVals i)) (set m (R.int i)) := by
  unfold intVals
  by_cases h : i = 0
  · rw [if_pos h, h, hR, h0]; exact start fld m
  · rw [if_neg h]
    refine one hn fun hl rest => ?_
    obtain ⟨h1, h2⟩ := hi
    have e : (if (i % 2 ^ 64).toNat < 2 ^ 63 then ((i % 2 ^ 64).toNat : Int) else ((i % 2 ^ 64).toNat : Int) - 2 ^ 64) = i := by
      split <;> omega
    rw [hf]
    unfold reads takeInt WireVal.print
    rw [getVarint_put _ _ (by omega)]
    simp only [Option.map_some, e]

/-- A truth value. -/
theorem bool {m : M} (n : Nat) (set : M → Bool → M) (hf : ∀ wt bs, fld m n wt bs = reads takeBool (set m) bs)
    (h0 : set m false = m) (b : Bool) (hn : n < 2 ^ 29 := by decide) : Runs fld m (field n (boolVals b)) (set m b) := by
  cases b with
  | false => rw [h0]; exact start fld m
  | true =>
    refine one hn fun hl rest => ?_
    rw [hf]
    unfold reads takeBool WireVal.print
    rw [getVarint_put _ _ (by decide)]
    rfl

/-- Bytes. -/
theorem blob {m : M} (n : Nat) (set : M → Bytes → M) (hf : ∀ wt bs, fld m n wt bs = reads takeBlob (set m) bs)
    (h0 : set m [] = m) (b : Bytes) (hn : n < 2 ^ 29 := by decide) : Runs fld m (field n (bytesVals b)) (set m b) := by
  unfold bytesVals
  by_cases h : b = []
  · rw [if_pos h, h, h0]; exact start fld m
  · rw [if_neg h]
    refine one hn fun hl rest => ?_
    rw [hf]
    unfold reads
    rw [blob_print hl]
    rfl

/-- Reading the bytes of a whole message. -/
theorem whole {rs : List Rec} {m m' : M} (h : Runs fld m rs m') (hl : (printRecs rs).length < 2 ^ 32) :
    readFields fld (printRecs rs).length m (printRecs rs) = some m' := by
  obtain ⟨k, -, e⟩ := h hl (printRecs rs).length [] (by simp)
  rw [List.append_nil] at e
  rw [e]
  cases k <;> rfl

theorem takeMsg_print {A : Type} {R : Runtime} {sub : A → Nat → Nat → Bytes → Option (A × Bytes)} {new a' : A} {rs : List Rec}
    {rest : Bytes} (h : Runs sub new rs a') (hl : (WireVal.bytes (printRecs rs)).print.length < 2 ^ 32) :
    takeMsg R sub new none ((WireVal.bytes (printRecs rs)).print ++ rest) = some (a', rest) := by
  have hb : (printRecs rs).length < 2 ^ 32 := by
    simp only [WireVal.print, List.length_append] at hl
    omega
  unfold takeMsg
  rw [blob_print hl]
  simp only [bind, Option.bind, Option.getD_none, ite_self, h.whole hb]
  rfl

/-- A sub-message. -/
theorem msg {A : Type} {R : Runtime} {sub : A → Nat → Nat → Bytes → Option (A × Bytes)} {new : A} {old : Option A} {enc : A → List Rec}
    {m : M} (n : Nat) (set : M → Option A → M)
    (hf : ∀ wt bs, fld m n wt bs = reads (takeMsg R sub new old) (fun v => set m (some v)) bs) (ho : old = none)
    (h0 : set m none = m) (g : A → A) (o : Option A) (hs : ∀ a, o = some a → Runs sub new (enc a) (g a))
    (hn : n < 2 ^ 29 := by decide) : Runs fld m (field n (msgVals enc o)) (set m (o.map g)) := by
  cases o with
  | none => rw [Option.map_none, h0]; exact start fld m
  | some a =>
    refine one hn fun hl rest => ?_
    rw [hf, ho]
    unfold reads
    rw [takeMsg_print (hs a rfl) hl]
    rfl

/-- Repeated sub-messages. -/
theorem rep {A : Type} {R : Runtime} {sub : A → Nat → Nat → Bytes → Option (A × Bytes)} {new : A} {enc : A → List Rec}
    {m : M} (n : Nat) (app : M → List A → M)
    (hf : ∀ m wt bs, fld m n wt bs = reads (takeMsg R sub new none) (fun v => app m [v]) bs)
    (h0 : ∀ m, app m [] = m) (h1 : ∀ m a l, app (app m [a]) l = app m (a :: l)) (g : A → A) (l : List A)
    (hs : ∀ a ∈ l, Runs sub new (enc a) (g a)) (hn : n < 2 ^ 29 := by decide) :
    Runs fld m (field n (repVals enc l)) (app m (l.map g)) := by
  induction l generalizing m with
  | nil => rw [List.map_nil, h0]; exact start fld m
  | cons a l ih =>
    rw [List.map_cons, ← h1]
    refine append (a := [(n, .bytes (printRecs (enc a)))]) (m2 := app m [g a]) (one hn fun hl rest => ?_)
      (ih fun x hx => hs x (List.mem_cons_of_mem _ hx))
    rw [hf]
    unfold reads
    rw [takeMsg_print (hs a (List.mem_cons_self ..)) hl]
    rfl

end Runs

/-! ## Integers of messages -/

theorem opt_map_self {A : Type} {g : A → A} {o : Option A} (h : ∀ a, o = some a → g a = a) : o.map g = o := by
  cases o with
  | none => rfl
  | some a => rw [Option.map_some, h a rfl]

theorem list_map_self {A : Type} {g : A → A} {l : List A} (h : ∀ a ∈ l, g a = a) : l.map g = l := by
  conv_rhs => rw [← List.map_id l]
  exact List.map_congr_left h

/-- The integers of a message converted. -/
def BatteryPb.mapInts (f : Int → Int) (m : BatteryPb F) : BatteryPb F :=
  ⟨m.charge, f m.chargeTime⟩
/-- All integers of a message. -/
def BatteryPb.AllInts (P : Int → Prop) (m : BatteryPb F) : Prop :=
  P m.chargeTime

/-- The integers of a message converted. -/
def TrackPb.mapInts (f : Int → Int) (m : TrackPb F) : TrackPb F :=
  ⟨m.trackId, m.distance, f m.numSegments, m.color, m.props, f m.propsCount⟩
/-- All integers of a message. -/
def TrackPb.AllInts (P : Int → Prop) (m : TrackPb F) : Prop :=
  P m.numSegments ∧ P m.propsCount

/-- The integers of a message converted. -/
def RoutePb.mapInts (f : Int → Int) (m : RoutePb F) : RoutePb F :=
  ⟨m.routeId, m.tracks.map (·.mapInts f), m.distance, m.color, m.props, f m.propsCount⟩
/-- All integers of a message. -/
def RoutePb.AllInts (P : Int → Prop) (m : RoutePb F) : Prop :=
  (∀ a ∈ m.tracks, a.AllInts P) ∧ P m.propsCount

/-- The integers of a message converted. -/
def RoutesPb.mapInts (f : Int → Int) (m : RoutesPb F) : RoutesPb F :=
  ⟨m.routes.map (·.mapInts f)⟩
/-- All integers of a message. -/
def RoutesPb.AllInts (P : Int → Prop) (m : RoutesPb F) : Prop :=
  (∀ a ∈ m.routes, a.AllInts P)

/-- The integers of a message converted. -/
def NavigatorPb.mapInts (f : Int → Int) (m : NavigatorPb) : NavigatorPb :=
  ⟨f m.currentRouteIndex, f m.currentTrackIndex, f m.currentSegmentIndex, m.currentRouteId, m.currentTrackId⟩
/-- All integers of a message. -/
def NavigatorPb.AllInts (P : Int → Prop) (m : NavigatorPb) : Prop :=
  P m.currentRouteIndex ∧ P m.currentTrackIndex ∧ P m.currentSegmentIndex

/-- The integers of a message converted. -/
def DmsPb.mapInts (f : Int → Int) (m : DmsPb F) : DmsPb F :=
  ⟨f m.degrees, f m.minutes, m.seconds, m.direction⟩
/-- All integers of a message. -/
def DmsPb.AllInts (P : Int → Prop) (m : DmsPb F) : Prop :=
  P m.degrees ∧ P m.minutes

/-- The integers of a message converted. -/
def UtmPb.mapInts (f : Int → Int) (m : UtmPb F) : UtmPb F :=
  ⟨m.centralMeridian, m.easting, m.northing, f m.longZone, m.latZone, m.hemisphere, f m.srid⟩
/-- All integers of a message. -/
def UtmPb.AllInts (P : Int → Prop) (m : UtmPb F) : Prop :=
  P m.longZone ∧ P m.srid

/-- The integers of a message converted. -/
def LocationPb.mapInts (f : Int → Int) (m : LocationPb F) : LocationPb F :=
  ⟨m.lat, m.lon, m.elevation, m.bearing, m.latDms.map (·.mapInts f), m.lonDms.map (·.mapInts f), m.utm.map (·.mapInts f)⟩
/-- All integers of a message. -/
def LocationPb.AllInts (P : Int → Prop) (m : LocationPb F) : Prop :=
  (∀ a, m.latDms = some a → a.AllInts P) ∧ (∀ a, m.lonDms = some a → a.AllInts P) ∧ (∀ a, m.utm = some a → a.AllInts P)

/-- The integers of a message converted. -/
def DevicePb.mapInts (f : Int → Int) (m : DevicePb F) : DevicePb F :=
  ⟨m.id, m.userId, m.tick, m.duration, m.model, m.speed, m.distance, m.battery.map (·.mapInts f), m.routes.map (·.mapInts f), m.location.map (·.mapInts f), m.navigator.map (·.mapInts f), m.sensors, m.description, m.isOffline, f m.offlineDuration, m.color, m.timeEstimate, m.units⟩
/-- All integers of a message. -/
def DevicePb.AllInts (P : Int → Prop) (m : DevicePb F) : Prop :=
  (∀ a, m.battery = some a → a.AllInts P) ∧ (∀ a, m.routes = some a → a.AllInts P) ∧ (∀ a, m.location = some a → a.AllInts P) ∧ (∀ a, m.navigator = some a → a.AllInts P) ∧ P m.offlineDuration

/-- The integers of a message converted. -/
def PacketPb.mapInts (f : Int → Int) (m : PacketPb F) : PacketPb F :=
  ⟨m.devices.map (·.mapInts f), f m.timestamp⟩
/-- All integers of a message. -/
def PacketPb.AllInts (P : Int → Prop) (m : PacketPb F) : Prop :=
  (∀ a ∈ m.devices, a.AllInts P) ∧ P m.timestamp

theorem BatteryPb.mapInts_self {P : Int → Prop} {f : Int → Int} (hf : ∀ i, P i → f i = i) (m : BatteryPb F) (h : m.AllInts P) :
    m.mapInts f = m := by
  have k2 := h
  unfold BatteryPb.mapInts
  rw [hf _ k2]

theorem BatteryPb.AllInts.mono {P Q : Int → Prop} (hp : ∀ i, P i → Q i) {m : BatteryPb F} (h : m.AllInts P) : m.AllInts Q := by
  have k2 := h
  exact hp _ k2

theorem TrackPb.mapInts_self {P : Int → Prop} {f : Int → Int} (hf : ∀ i, P i → f i = i) (m : TrackPb F) (h : m.AllInts P) :
    m.mapInts f = m := by
  obtain ⟨k3, k6⟩ := h
  unfold TrackPb.mapInts
  rw [hf _ k3, hf _ k6]

theorem TrackPb.AllInts.mono {P Q : Int → Prop} (hp : ∀ i, P i → Q i) {m : TrackPb F} (h : m.AllInts P) : m.AllInts Q := by
  obtain ⟨k3, k6⟩ := h
  exact ⟨hp _ k3, hp _ k6⟩

theorem RoutePb.mapInts_self {P : Int → Prop} {f : Int → Int} (hf : ∀ i, P i → f i = i) (m : RoutePb F) (h : m.AllInts P) :
    m.mapInts f = m := by
  obtain ⟨k2, k6⟩ := h
  unfold RoutePb.mapInts
  rw [list_map_self fun a h => (a.mapInts_self hf (k2 a h)), hf _ k6]

theorem RoutePb.AllInts.mono {P Q : Int → Prop} (hp : ∀ i, P i → Q i) {m : RoutePb F} (h : m.AllInts P) : m.AllInts Q := by
  obtain ⟨k2, k6⟩ := h
  exact ⟨fun a h => (k2 a h).mono hp, hp _ k6⟩

theorem RoutesPb.mapInts_self {P : Int → Prop} {f : Int → Int} (hf : ∀ i, P i → f i = i) (m : RoutesPb F) (h : m.AllInts P) :
    m.mapInts f = m := by
  have k1 := h
  unfold RoutesPb.mapInts
  rw [list_map_self fun a h => (a.mapInts_self hf (k1 a h))]

theorem RoutesPb.AllInts.mono {P Q : Int → Prop} (hp : ∀ i, P i → Q i) {m : RoutesPb F} (h : m.AllInts P) : m.AllInts Q := by
  have k1 := h
  exact fun a h => (k1 a h).mono hp

theorem NavigatorPb.mapInts_self {P : Int → Prop} {f : Int → Int} (hf : ∀ i, P i → f i = i) (m : NavigatorPb) (h : m.AllInts P) :
    m.mapInts f = m := by
  obtain ⟨k1, k2, k3⟩ := h
  unfold NavigatorPb.mapInts
  rw [hf _ k1, hf _ k2, hf _ k3]

theorem NavigatorPb.AllInts.mono {P Q : Int → Prop} (hp : ∀ i, P i → Q i) {m : NavigatorPb} (h : m.AllInts P) : m.AllInts Q := by
  obtain ⟨k1, k2, k3⟩ := h
  exact ⟨hp _ k1, hp _ k2, hp _ k3⟩

theorem DmsPb.mapInts_self {P : Int → Prop} {f : Int → Int} (hf : ∀ i, P i → f i = i) (m : DmsPb F) (h : m.AllInts P) :
    m.mapInts f = m := by
  obtain ⟨k1, k2⟩ := h
  unfold DmsPb.mapInts
  rw [hf _ k1, hf _ k2]

theorem DmsPb.AllInts.mono {P Q : Int → Prop} (hp : ∀ i, P i → Q i) {m : DmsPb F} (h : m.AllInts P) : m.AllInts Q := by
  obtain ⟨k1, k2⟩ := h
  exact ⟨hp _ k1, hp _ k2⟩

theorem UtmPb.mapInts_self {P : Int → Prop} {f : Int → Int} (hf : ∀ i, P i → f i = i) (m : UtmPb F) (h : m.AllInts P) :
    m.mapInts f = m := by
  obtain ⟨k4, k7⟩ := h
  unfold UtmPb.mapInts
  rw [hf _ k4, hf _ k7]

theorem UtmPb.AllInts.mono {P Q : Int → Prop} (hp : ∀ i, P i → Q i) {m : UtmPb F} (h : m.AllInts P) : m.AllInts Q := by
  obtain ⟨k4, k7⟩ := h
  exact ⟨hp _ k4, hp _ k7⟩

theorem LocationPb.mapInts_self {P : Int → Prop} {f : Int → Int} (hf : ∀ i, P i → f i = i) (m : LocationPb F) (h : m.AllInts P) :
    m.mapInts f = m := by
  obtain ⟨k12, k13, k14⟩ := h
  unfold LocationPb.mapInts
  rw [opt_map_self fun a h => (a.mapInts_self hf (k12 a h)), opt_map_self fun a h => (a.mapInts_self hf (k13 a h)), opt_map_self fun a h => (a.mapInts_self hf (k14 a h))]

theorem LocationPb.AllInts.mono {P Q : Int → Prop} (hp : ∀ i, P i → Q i) {m : LocationPb F} (h : m.AllInts P) : m.AllInts Q := by
  obtain ⟨k12, k13, k14⟩ := h
  exact ⟨fun a h => (k12 a h).mono hp, fun a h => (k13 a h).mono hp, fun a h => (k14 a h).mono hp⟩

theorem DevicePb.mapInts_self {P : Int → Prop} {f : Int → Int} (hf : ∀ i, P i → f i = i) (m : DevicePb F) (h : m.AllInts P) :
    m.mapInts f = m := by
  obtain ⟨k8, k9, k10, k11, k16⟩ := h
  unfold DevicePb.mapInts
  rw [opt_map_self fun a h => (a.mapInts_self hf (k8 a h)), opt_map_self fun a h => (a.mapInts_self hf (k9 a h)), opt_map_self fun a h => (a.mapInts_self hf (k10 a h)), opt_map_self fun a h => (a.mapInts_self hf (k11 a h)), hf _ k16]

theorem DevicePb.AllInts.mono {P Q : Int → Prop} (hp : ∀ i, P i → Q i) {m : DevicePb F} (h : m.AllInts P) : m.AllInts Q := by
  obtain ⟨k8, k9, k10, k11, k16⟩ := h
  exact ⟨fun a h => (k8 a h).mono hp, fun a h => (k9 a h).mono hp, fun a h => (k10 a h).mono hp, fun a h => (k11 a h).mono hp, hp _ k16⟩

theorem PacketPb.mapInts_self {P : Int → Prop} {f : Int → Int} (hf : ∀ i, P i → f i = i) (m : PacketPb F) (h : m.AllInts P) :
    m.mapInts f = m := by
  obtain ⟨k1, k2⟩ := h
  unfold PacketPb.mapInts
  rw [list_map_self fun a h => (a.mapInts_self hf (k1 a h)), hf _ k2]

theorem PacketPb.AllInts.mono {P Q : Int → Prop} (hp : ∀ i, P i → Q i) {m : PacketPb F} (h : m.AllInts P) : m.AllInts Q := by
  obtain ⟨k1, k2⟩ := h
  exact ⟨fun a h => (k1 a h).mono hp, hp _ k2⟩

/-! ## Messages -/

theorem readBattery_runs [WireFloat F] (R : Runtime) (h0 : R.int 0 = 0) (m : BatteryPb F) (hm : m.AllInts Int64Ok) :
    Runs (readBatteryField R) newBatteryPb (encBatteryPb m) (m.mapInts R.int) := by
  have k2 := hm
  have h := (Runs.start (readBatteryField R) newBatteryPb)
    |>.append (.dbl 1 (fun m v => { m with charge := v }) (fun _ _ => rfl) rfl m.charge)
    |>.append (.int 2 (fun m v => { m with chargeTime := v }) (fun _ _ => rfl) rfl h0 m.chargeTime k2)
  simp only [List.nil_append] at h
  exact h

theorem readTrack_runs [WireFloat F] (R : Runtime) (h0 : R.int 0 = 0) (m : TrackPb F) (hm : m.AllInts Int64Ok) :
    Runs (readTrackField R) newTrackPb (encTrackPb m) (m.mapInts R.int) := by
  obtain ⟨k3, k6⟩ := hm
  have h := (Runs.start (readTrackField R) newTrackPb)
    |>.append (.str 1 (fun m v => { m with trackId := v }) (fun _ _ => rfl) rfl m.trackId)
    |>.append (.dbl 2 (fun m v => { m with distance := v }) (fun _ _ => rfl) rfl m.distance)
    |>.append (.int 3 (fun m v => { m with numSegments := v }) (fun _ _ => rfl) rfl h0 m.numSegments k3)
    |>.append (.str 4 (fun m v => { m with color := v }) (fun _ _ => rfl) rfl m.color)
    |>.append (.blob 5 (fun m v => { m with props := v }) (fun _ _ => rfl) rfl m.props)
    |>.append (.int 6 (fun m v => { m with propsCount := v }) (fun _ _ => rfl) rfl h0 m.propsCount k6)
  simp only [List.nil_append] at h
  exact h

theorem readRoute_runs [WireFloat F] (R : Runtime) (h0 : R.int 0 = 0) (m : RoutePb F) (hm : m.AllInts Int64Ok) :
    Runs (readRouteField R) newRoutePb (encRoutePb m) (m.mapInts R.int) := by
  obtain ⟨k2, k6⟩ := hm
  have h := (Runs.start (readRouteField R) newRoutePb)
    |>.append (.str 1 (fun m v => { m with routeId := v }) (fun _ _ => rfl) rfl m.routeId)
    |>.append (.rep 2 (fun m v => { m with tracks := m.tracks ++ v }) (fun _ _ _ => rfl) (fun _ => by simp) (fun _ _ _ => by simp) (·.mapInts R.int) m.tracks (fun a h => readTrack_runs R h0 a (k2 a h)))
    |>.append (.dbl 3 (fun m v => { m with distance := v }) (fun _ _ => rfl) rfl m.distance)
    |>.append (.str 4 (fun m v => { m with color := v }) (fun _ _ => rfl) rfl m.color)
    |>.append (.blob 5 (fun m v => { m with props := v }) (fun _ _ => rfl) rfl m.props)
    |>.append (.int 6 (fun m v => { m with propsCount := v }) (fun _ _ => rfl) rfl h0 m.propsCount k6)
  simp only [List.nil_append] at h
  exact h

theorem readRoutes_runs [WireFloat F] (R : Runtime) (h0 : R.int 0 = 0) (m : RoutesPb F) (hm : m.AllInts Int64Ok) :
    Runs (readRoutesField R) newRoutesPb (encRoutesPb m) (m.mapInts R.int) := by
  have k1 := hm
  have h := (Runs.start (readRoutesField R) newRoutesPb)
    |>.append (.rep 1 (fun m v => { m with routes := m.routes ++ v }) (fun _ _ _ => rfl) (fun _ => by simp) (fun _ _ _ => by simp) (·.mapInts R.int) m.routes (fun a h => readRoute_runs R h0 a (k1 a h)))
  simp only [List.nil_append] at h
  exact h

theorem readSensor_runs [WireFloat F] (m : SensorPb F) :
    Runs readSensorField newSensorPb (encSensorPb m) m := by
  have h := (Runs.start readSensorField newSensorPb)
    |>.append (.str 1 (fun m v => { m with id := v }) (fun _ _ => rfl) rfl m.id)
    |>.append (.str 2 (fun m v => { m with name := v }) (fun _ _ => rfl) rfl m.name)
    |>.append (.dbl 3 (fun m v => { m with valX := v }) (fun _ _ => rfl) rfl m.valX)
    |>.append (.dbl 4 (fun m v => { m with valY := v }) (fun _ _ => rfl) rfl m.valY)
  simp only [List.nil_append] at h
  exact h

theorem readNavigator_runs (R : Runtime) (h0 : R.int 0 = 0) (m : NavigatorPb) (hm : m.AllInts Int64Ok) :
    Runs (readNavigatorField R) newNavigatorPb (encNavigatorPb m) (m.mapInts R.int) := by
  obtain ⟨k1, k2, k3⟩ := hm
  have h := (Runs.start (readNavigatorField R) newNavigatorPb)
    |>.append (.int 1 (fun m v => { m with currentRouteIndex := v }) (fun _ _ => rfl) rfl h0 m.currentRouteIndex k1)
    |>.append (.int 2 (fun m v => { m with currentTrackIndex := v }) (fun _ _ => rfl) rfl h0 m.currentTrackIndex k2)
    |>.append (.int 3 (fun m v => { m with currentSegmentIndex := v }) (fun _ _ => rfl) rfl h0 m.currentSegmentIndex k3)
    |>.append (.str 4 (fun m v => { m with currentRouteId := v }) (fun _ _ => rfl) rfl m.currentRouteId)
    |>.append (.str 5 (fun m v => { m with currentTrackId := v }) (fun _ _ => rfl) rfl m.currentTrackId)
  simp only [List.nil_append] at h
  exact h

theorem readDistance_runs [WireFloat F] (m : DistancePb F) :
    Runs readDistanceField newDistancePb (encDistancePb m) m := by
  have h := (Runs.start readDistanceField newDistancePb)
    |>.append (.dbl 1 (fun m v => { m with distance := v }) (fun _ _ => rfl) rfl m.distance)
    |>.append (.dbl 2 (fun m v => { m with currentDistance := v }) (fun _ _ => rfl) rfl m.currentDistance)
    |>.append (.dbl 3 (fun m v => { m with routeDistance := v }) (fun _ _ => rfl) rfl m.routeDistance)
    |>.append (.dbl 4 (fun m v => { m with currentRouteDistance := v }) (fun _ _ => rfl) rfl m.currentRouteDistance)
    |>.append (.dbl 5 (fun m v => { m with trackDistance := v }) (fun _ _ => rfl) rfl m.trackDistance)
    |>.append (.dbl 6 (fun m v => { m with currentTrackDistance := v }) (fun _ _ => rfl) rfl m.currentTrackDistance)
    |>.append (.dbl 7 (fun m v => { m with segmentDistance := v }) (fun _ _ => rfl) rfl m.segmentDistance)
    |>.append (.dbl 8 (fun m v => { m with currentSegmentDistance := v }) (fun _ _ => rfl) rfl m.currentSegmentDistance)
  simp only [List.nil_append] at h
  exact h

theorem readDms_runs [WireFloat F] (R : Runtime) (h0 : R.int 0 = 0) (m : DmsPb F) (hm : m.AllInts Int64Ok) :
    Runs (readDmsField R) newDmsPb (encDmsPb m) (m.mapInts R.int) := by
  obtain ⟨k1, k2⟩ := hm
  have h := (Runs.start (readDmsField R) newDmsPb)
    |>.append (.int 1 (fun m v => { m with degrees := v }) (fun _ _ => rfl) rfl h0 m.degrees k1)
    |>.append (.int 2 (fun m v => { m with minutes := v }) (fun _ _ => rfl) rfl h0 m.minutes k2)
    |>.append (.dbl 3 (fun m v => { m with seconds := v }) (fun _ _ => rfl) rfl m.seconds)
    |>.append (.str 4 (fun m v => { m with direction := v }) (fun _ _ => rfl) rfl m.direction)
  simp only [List.nil_append] at h
  exact h

theorem readUtm_runs [WireFloat F] (R : Runtime) (h0 : R.int 0 = 0) (m : UtmPb F) (hm : m.AllInts Int64Ok) :
    Runs (readUtmField R) newUtmPb (encUtmPb m) (m.mapInts R.int) := by
  obtain ⟨k4, k7⟩ := hm
  have h := (Runs.start (readUtmField R) newUtmPb)
    |>.append (.dbl 1 (fun m v => { m with centralMeridian := v }) (fun _ _ => rfl) rfl m.centralMeridian)
    |>.append (.dbl 2 (fun m v => { m with easting := v }) (fun _ _ => rfl) rfl m.easting)
    |>.append (.dbl 3 (fun m v => { m with northing := v }) (fun _ _ => rfl) rfl m.northing)
    |>.append (.int 4 (fun m v => { m with longZone := v }) (fun _ _ => rfl) rfl h0 m.longZone k4)
    |>.append (.str 5 (fun m v => { m with latZone := v }) (fun _ _ => rfl) rfl m.latZone)
    |>.append (.str 6 (fun m v => { m with hemisphere := v }) (fun _ _ => rfl) rfl m.hemisphere)
    |>.append (.int 7 (fun m v => { m with srid := v }) (fun _ _ => rfl) rfl h0 m.srid k7)
  simp only [List.nil_append] at h
  exact h

theorem readLocation_runs [WireFloat F] (R : Runtime) (h0 : R.int 0 = 0) (m : LocationPb F) (hm : m.AllInts Int64Ok) :
    Runs (readLocationField R) newLocationPb (encLocationPb m) (m.mapInts R.int) := by
  obtain ⟨k12, k13, k14⟩ := hm
  have h := (Runs.start (readLocationField R) newLocationPb)
    |>.append (.dbl 1 (fun m v => { m with lat := v }) (fun _ _ => rfl) rfl m.lat)
    |>.append (.dbl 2 (fun m v => { m with lon := v }) (fun _ _ => rfl) rfl m.lon)
    |>.append (.dbl 3 (fun m v => { m with elevation := v }) (fun _ _ => rfl) rfl m.elevation)
    |>.append (.dbl 4 (fun m v => { m with bearing := v }) (fun _ _ => rfl) rfl m.bearing)
    |>.append (.msg 12 (fun m v => { m with latDms := v }) (fun _ _ => rfl) rfl rfl (·.mapInts R.int) m.latDms (fun a h => readDms_runs R h0 a (k12 a h)))
    |>.append (.msg 13 (fun m v => { m with lonDms := v }) (fun _ _ => rfl) rfl rfl (·.mapInts R.int) m.lonDms (fun a h => readDms_runs R h0 a (k13 a h)))
    |>.append (.msg 14 (fun m v => { m with utm := v }) (fun _ _ => rfl) rfl rfl (·.mapInts R.int) m.utm (fun a h => readUtm_runs R h0 a (k14 a h)))
  simp only [List.nil_append] at h
  exact h

theorem readUnit_runs (m : UnitPb) :
    Runs readUnitField newUnitPb (encUnitPb m) m := by
  have h := (Runs.start readUnitField newUnitPb)
    |>.append (.str 1 (fun m v => { m with distance := v }) (fun _ _ => rfl) rfl m.distance)
    |>.append (.str 2 (fun m v => { m with speed := v }) (fun _ _ => rfl) rfl m.speed)
    |>.append (.str 3 (fun m v => { m with time := v }) (fun _ _ => rfl) rfl m.time)
    |>.append (.str 4 (fun m v => { m with elevation := v }) (fun _ _ => rfl) rfl m.elevation)
  simp only [List.nil_append] at h
  exact h

theorem readDevice_runs [WireFloat F] (R : Runtime) (h0 : R.int 0 = 0) (m : DevicePb F) (hm : m.AllInts Int64Ok) :
    Runs (readDeviceField R) newDevicePb (encDevicePb m) (m.mapInts R.int) := by
  obtain ⟨k8, k9, k10, k11, k16⟩ := hm
  have h := (Runs.start (readDeviceField R) newDevicePb)
    |>.append (.str 1 (fun m v => { m with id := v }) (fun _ _ => rfl) rfl m.id)
    |>.append (.str 2 (fun m v => { m with userId := v }) (fun _ _ => rfl) rfl m.userId)
    |>.append (.dbl 3 (fun m v => { m with tick := v }) (fun _ _ => rfl) rfl m.tick)
    |>.append (.dbl 4 (fun m v => { m with duration := v }) (fun _ _ => rfl) rfl m.duration)
    |>.append (.str 5 (fun m v => { m with model := v }) (fun _ _ => rfl) rfl m.model)
    |>.append (.dbl 6 (fun m v => { m with speed := v }) (fun _ _ => rfl) rfl m.speed)
    |>.append (.msg 7 (fun m v => { m with distance := v }) (fun _ _ => rfl) rfl rfl id m.distance (fun a _ => readDistance_runs a))
    |>.append (.msg 8 (fun m v => { m with battery := v }) (fun _ _ => rfl) rfl rfl (·.mapInts R.int) m.battery (fun a h => readBattery_runs R h0 a (k8 a h)))
    |>.append (.msg 9 (fun m v => { m with routes := v }) (fun _ _ => rfl) rfl rfl (·.mapInts R.int) m.routes (fun a h => readRoutes_runs R h0 a (k9 a h)))
    |>.append (.msg 10 (fun m v => { m with location := v }) (fun _ _ => rfl) rfl rfl (·.mapInts R.int) m.location (fun a h => readLocation_runs R h0 a (k10 a h)))
    |>.append (.msg 11 (fun m v => { m with navigator := v }) (fun _ _ => rfl) rfl rfl (·.mapInts R.int) m.navigator (fun a h => readNavigator_runs R h0 a (k11 a h)))
    |>.append (.rep 12 (fun m v => { m with sensors := m.sensors ++ v }) (fun _ _ _ => rfl) (fun _ => by simp) (fun _ _ _ => by simp) id m.sensors (fun a _ => readSensor_runs a))
    |>.append (.str 14 (fun m v => { m with description := v }) (fun _ _ => rfl) rfl m.description)
    |>.append (.bool 15 (fun m v => { m with isOffline := v }) (fun _ _ => rfl) rfl m.isOffline)
    |>.append (.int 16 (fun m v => { m with offlineDuration := v }) (fun _ _ => rfl) rfl h0 m.offlineDuration k16)
    |>.append (.str 17 (fun m v => { m with color := v }) (fun _ _ => rfl) rfl m.color)
    |>.append (.dbl 18 (fun m v => { m with timeEstimate := v }) (fun _ _ => rfl) rfl m.timeEstimate)
    |>.append (.msg 19 (fun m v => { m with units := v }) (fun _ _ => rfl) rfl rfl id m.units (fun a _ => readUnit_runs a))
  simp only [List.nil_append, Option.map_id, List.map_id, id_eq] at h
  exact h

theorem readPacket_runs [WireFloat F] (R : Runtime) (h0 : R.int 0 = 0) (m : PacketPb F) (hm : m.AllInts Int64Ok) :
    Runs (readPacketField R) newPacketPb (encPacketPb m) (m.mapInts R.int) := by
  obtain ⟨k1, k2⟩ := hm
  have h := (Runs.start (readPacketField R) newPacketPb)
    |>.append (.rep 1 (fun m v => { m with devices := m.devices ++ v }) (fun _ _ _ => rfl) (fun _ => by simp) (fun _ _ _ => by simp) (·.mapInts R.int) m.devices (fun a h => readDevice_runs R h0 a (k1 a h)))
    |>.append (.int 2 (fun m v => { m with timestamp := v }) (fun _ _ => rfl) rfl h0 m.timestamp k2)
  simp only [List.nil_append] at h
  exact h

end GpsGen
