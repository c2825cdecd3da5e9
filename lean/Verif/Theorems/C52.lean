import Verif.Lemmas.WireMsgs
import Verif.Lemmas.Toy
/-!
# C52: snapshots survive the wire format

For every message whose integers are 64-bit integers and whose bytes fit into memory. Serialising and parsing
gives the same message. The entry points refuse the empty byte string, which is what the message with all
fields at their default is written as; for that message the claim is false.
-/

namespace GpsGen
namespace C52

variable {F : Type} [WireFloat F]

/-! ## Varints -/

/-- **C52, varints.** Every 64-bit number comes back, whatever follows it, from one to ten bytes. -/
theorem varint_round (n : Nat) (h : n < 2 ^ 64) (rest : Bytes) :
    getVarint (putVarint n ++ rest) = some (n, rest) := getVarint_put n rest h

theorem varint_length_le (k n : Nat) (h : n < 128 ^ (k + 1)) : (putVarint n).length ≤ k + 1 := by
  induction k generalizing n with
  | zero => rw [putVarint_small (by simpa using h)]; simp
  | succ k ih =>
    by_cases hs : n < 128
    · rw [putVarint_small hs]; simp
    · rw [putVarint_big hs, List.length_cons]
      have := ih (n / 128) (by rw [Nat.div_lt_iff_lt_mul (by decide)]; rwa [pow_succ] at h)
      omega

/-- Between one and ten bytes. -/
theorem varint_length (n : Nat) (h : n < 2 ^ 64) : 1 ≤ (putVarint n).length ∧ (putVarint n).length ≤ 10 :=
  ⟨putVarint_length_pos n, varint_length_le 9 n (by norm_num at h ⊢; omega)⟩

/-! ## Messages -/

theorem unmarshal_print {α : Type} {dec : List Rec → Option α} {rs : List Rec}
    (h : ∀ r ∈ rs, RecOk r) (hl : (printRecs rs).length < 2 ^ 63) : protoUnmarshal dec (printRecs rs) = dec rs := by
  unfold protoUnmarshal
  rw [parseRecs_print _ h hl]
  rfl

theorem unmarshal_marshal {α : Type} {enc : α → List Rec} {dec : List Rec → Option α} {m : α}
    (h1 : ∀ r ∈ enc m, RecOk r) (hl : (protoMarshal enc m).length < 2 ^ 63)
    (h2 : (printRecs (enc m)).length < 2 ^ 63 → dec (enc m) = some m) :
    protoUnmarshal dec (protoMarshal enc m) = some m := by
  unfold protoUnmarshal protoMarshal
  rw [parseRecs_print _ h1 hl]
  exact h2 hl

/-- **C52, snapshots.** -/
theorem snapshot_round (m : SnapMsg F Bytes) (h : OkSnap m) (hl : (protoMarshal encSnap m).length < 2 ^ 63) :
    protoUnmarshal decSnap (protoMarshal encSnap m) = some m :=
  unmarshal_marshal (encSnap_ok m) hl (decSnap_enc m h)

/-- **C52, packets.** -/
theorem packet_round (m : PacketPb F) (h : OkPacketPb m) (hl : (protoMarshal encPacketPb m).length < 2 ^ 63) :
    protoUnmarshal decPacketPb (protoMarshal encPacketPb m) = some m :=
  unmarshal_marshal (encPacketPb_ok m) hl (decPacketPb_enc m h)

/-- **C52, lists of sensors.** -/
theorem sensors_round (m : SensorsMsg F) (h : OkSensors m) (hl : (protoMarshal encSensors m).length < 2 ^ 63) :
    protoUnmarshal decSensors (protoMarshal encSensors m) = some m :=
  unmarshal_marshal (encSensors_ok m) hl (decSensors_enc m h)

/-- **C52, lists of routes.** -/
theorem routes_round (m : RoutesMsg F) (h : OkRoutes m) (hl : (protoMarshal encRoutes m).length < 2 ^ 63) :
    protoUnmarshal decRoutes (protoMarshal encRoutes m) = some m :=
  unmarshal_marshal (encRoutes_ok m) hl (decRoutes_enc m h)

/-- Different packets have different bytes. -/
theorem packet_injective (m m' : PacketPb F) (h : OkPacketPb m) (h' : OkPacketPb m')
    (hl : (protoMarshal encPacketPb m).length < 2 ^ 63) (e : protoMarshal encPacketPb m = protoMarshal encPacketPb m') :
    m = m' := by
  have h1 := packet_round m h hl
  have h2 := packet_round m' h' (e ▸ hl)
  rw [e, h2] at h1
  exact (Option.some.inj h1).symm

/-! ## Other writers -/

/-- The records of a message may come in any order of fields, with unknown fields in between. -/
theorem packet_any_order (m : PacketPb F) (h : OkPacketPb m) (hl : (protoMarshal encPacketPb m).length < 2 ^ 63)
    (rs : List Rec) (h1 : sel 1 rs = sel 1 (encPacketPb m)) (h2 : sel 2 rs = sel 2 (encPacketPb m)) :
    decPacketPb rs = some m := by
  have := decPacketPb_enc m h hl
  unfold decPacketPb at this ⊢
  rw [h1, h2]
  exact this

@[inherit_doc packet_any_order]
theorem snapshot_any_order (m : SnapMsg F Bytes) (h : OkSnap m) (hl : (protoMarshal encSnap m).length < 2 ^ 63)
    (rs : List Rec) (hs : ∀ n, 1 ≤ n → n ≤ 12 → sel n rs = sel n (encSnap m)) : decSnap rs = some m := by
  have := decSnap_enc m h hl
  unfold decSnap at this ⊢
  rw [hs 1 (by decide) (by decide), hs 2 (by decide) (by decide), hs 3 (by decide) (by decide),
    hs 4 (by decide) (by decide), hs 5 (by decide) (by decide), hs 6 (by decide) (by decide),
    hs 7 (by decide) (by decide), hs 8 (by decide) (by decide), hs 9 (by decide) (by decide),
    hs 10 (by decide) (by decide), hs 11 (by decide) (by decide), hs 12 (by decide) (by decide)]
  exact this

theorem sel_none {n : Nat} {rs : List Rec} (h : ∀ r ∈ rs, r.1 ≠ n) : sel n rs = [] := by
  unfold sel
  rw [List.map_eq_nil_iff, List.filter_eq_nil_iff]
  intro r hr
  simpa using h r hr

/-- Fields added by a later version of the format are skipped. -/
theorem snapshot_extended (m : SnapMsg F Bytes) (h : OkSnap m) (extra : List Rec) (hx : ∀ r ∈ extra, RecOk r)
    (hnew : ∀ r ∈ extra, 12 < r.1) (hl : (protoMarshal encSnap m ++ printRecs extra).length < 2 ^ 63) :
    protoUnmarshal decSnap (protoMarshal encSnap m ++ printRecs extra) = some m := by
  have e : protoMarshal encSnap m ++ printRecs extra = printRecs (encSnap m ++ extra) :=
    (printRecs_append _ _).symm
  have hl' : (protoMarshal encSnap m).length < 2 ^ 63 :=
    lt_of_le_of_lt (by rw [List.length_append]; exact Nat.le_add_right _ _) hl
  have hd : decSnap (encSnap m ++ extra) = some m := by
    apply snapshot_any_order m h hl'
    intro n _ hn
    have hx : sel n extra = [] := sel_none (fun r hr => by have := hnew r hr; omega)
    rw [sel_append, hx, List.append_nil]
  rw [e] at hl ⊢
  exact (unmarshal_print (append_ok (encSnap_ok m) hx) hl).trans hd

/-! ## Entry points -/

/-- All fields at their default. -/
def zeroPacket : PacketPb F := ⟨[], 0⟩

@[inherit_doc zeroPacket]
def zeroSnap : SnapMsg F Bytes :=
  ⟨"", "", WireFloat.ofBits 0, WireFloat.ofBits 0, "", "", 0, "", none, none, none, []⟩

theorem zero_of_empty (m : PacketPb F) (h : OkPacketPb m) (he : protoMarshal encPacketPb m = []) : m = zeroPacket := by
  have h1 := packet_round m h (by rw [he]; decide)
  rw [he] at h1
  exact (Option.some.inj h1).symm

theorem zero_of_empty_snap (m : SnapMsg F Bytes) (h : OkSnap m) (he : protoMarshal encSnap m = []) : m = zeroSnap := by
  have h1 := snapshot_round m h (by rw [he]; decide)
  rw [he] at h1
  exact (Option.some.inj h1).symm

/-- **C52, `PacketFromBytes`.** Every packet but the one with all fields at their default comes back. -/
theorem packetFromBytes_partial (m : PacketPb F) (h : OkPacketPb m)
    (hl : (protoMarshal encPacketPb m).length < 2 ^ 63) (hz : m ≠ zeroPacket) :
    packetFromBytes (protoMarshal encPacketPb m) = some m := by
  unfold packetFromBytes
  rw [if_neg (fun e => hz (zero_of_empty m h (List.length_eq_zero_iff.mp e)))]
  exact packet_round m h hl

/-- **C52 fails** for the packet with all fields at their default: it is refused. -/
theorem packetFromBytes_zero : packetFromBytes (F := F) (protoMarshal encPacketPb (zeroPacket : PacketPb F)) = none := rfl

/-- **C52, `UnmarshalBinary`.** Every snapshot but the one with all fields at their default comes back. -/
theorem snapFromBytes_partial (m : SnapMsg F Bytes) (h : OkSnap m) (hl : (protoMarshal encSnap m).length < 2 ^ 63)
    (hz : m ≠ zeroSnap) : snapFromBytes (protoMarshal encSnap m) = some m := by
  unfold snapFromBytes
  rw [if_neg (fun e => hz (zero_of_empty_snap m h (List.length_eq_zero_iff.mp e)))]
  exact snapshot_round m h hl

/-! ## Devices, sensors and routes through bytes -/

omit [WireFloat F] in
theorem track_map {P Q : Type} (f : P → Q) (g : Q → P) (h : ∀ p, g (f p) = p) (m : TrackMsg F P) :
    (m.mapProps f).mapProps g = m := by
  simp only [TrackMsg.mapProps, h]

omit [WireFloat F] in
theorem route_map {P Q : Type} (f : P → Q) (g : Q → P) (h : ∀ p, g (f p) = p) (m : RouteMsg F P) :
    (m.mapProps f).mapProps g = m := by
  simp only [RouteMsg.mapProps, h, List.map_map]
  have : (fun x : TrackMsg F Q => x.mapProps g) ∘ (fun x => x.mapProps f) = id := by
    funext t; exact track_map f g h t
  rw [this, List.map_id]

omit [WireFloat F] in
theorem snap_map {P Q : Type} (f : P → Q) (g : Q → P) (h : ∀ p, g (f p) = p) (m : SnapMsg F P) :
    (m.mapProps f).mapProps g = m := by
  have hr : (fun x : RouteMsg F Q => x.mapProps g) ∘ (fun x => x.mapProps f) = id := by
    funext t; exact route_map f g h t
  have hn : (fun x : NavMsg F Q => x.mapProps g) ∘ (fun x => x.mapProps f) = id := by
    funext n
    simp only [Function.comp_apply, NavMsg.mapProps, List.map_map]
    rw [hr, List.map_id]; rfl
  simp only [SnapMsg.mapProps, Option.map_map]
  rw [hn, Option.map_id]; rfl

/-- The bytes of a device are never refused: the status is written. -/
theorem snapshot_nonzero [GoFloat F] (d : Device F) (print : RawProps F → Bytes) :
    d.snapshot.mapProps print ≠ zeroSnap := by
  intro h
  have := congrArg SnapMsg.status h
  simp [SnapMsg.mapProps, Device.snapshot, zeroSnap, Status.stopped] at this

/-- **C52, devices.** Decoding the bytes of `EncodeTracker` is decoding its message tree (the round trip of C23
and C24), given that JSON text is read back as what it was printed for. -/
theorem tracker_bytes [GoMath F] (print : RawProps F → Bytes) (read : Bytes → RawProps F)
    (hj : ∀ p, read (print p) = p) (d d' : Device F) (m : SnapMsg F) (bs : Bytes) (h : encodeTracker d = .ok (d', m))
    (hb : encodeTrackerBytes print d = .ok (d', bs)) (hk : OkSnap (m.mapProps print)) (hl : bs.length < 2 ^ 63) :
    decodeTrackerBytes read bs = (decodeTracker m).map some := by
  unfold encodeTracker at h
  unfold encodeTrackerBytes at hb
  cases hu : d.update with
  | error e => rw [hu] at h; cases h
  | ok d1 =>
    rw [hu] at h hb
    obtain ⟨rfl, rfl⟩ : d1 = d' ∧ d1.snapshot = m := by simpa [pure, Except.pure, bind, Except.bind] using h
    obtain rfl : d1.marshalBinary print = bs := by simpa [pure, Except.pure, bind, Except.bind] using hb
    unfold Device.marshalBinary at hl ⊢
    unfold decodeTrackerBytes
    rw [snapFromBytes_partial _ hk hl (snapshot_nonzero d1 print)]
    simp only
    rw [snap_map print read hj]

/-- **C52, `MarshalBinary` and `UnmarshalBinary`.** -/
theorem binary_round [GoMath F] (print : RawProps F → Bytes) (read : Bytes → RawProps F)
    (hj : ∀ p, read (print p) = p) (d target : Device F) (hk : OkSnap (d.snapshot.mapProps print))
    (hl : (d.marshalBinary print).length < 2 ^ 63) :
    target.unmarshalBinary read (d.marshalBinary print) = (target.fromSnapshot d.snapshot).map some := by
  unfold Device.marshalBinary at hl ⊢
  unfold Device.unmarshalBinary
  rw [snapFromBytes_partial _ hk hl (snapshot_nonzero d print)]
  simp only
  rw [snap_map print read hj]

/-- **C52, sensors.** -/
theorem sensors_bytes (ss : List (Sensor F)) (bs : Bytes) (h : encodeSensorsBytes ss = .ok bs)
    (hk : ∀ s ∈ ss, OkSensor s.snapshot) (hl : bs.length < 2 ^ 63) :
    decodeSensorsBytes bs = (decodeSensors (ss.map Sensor.snapshot)).map some := by
  unfold encodeSensorsBytes encodeSensors at h
  split at h
  · cases h
  · rename_i hne
    obtain rfl : protoMarshal encSensors ⟨ss.map Sensor.snapshot⟩ = bs := Except.ok.inj h
    have hok : OkSensors (⟨ss.map Sensor.snapshot⟩ : SensorsMsg F) := by
      intro a ha
      obtain ⟨s, hs, rfl⟩ := List.mem_map.mp ha
      exact hk s hs
    have hr := sensors_round _ hok hl
    unfold decodeSensorsBytes sensorsFromBytes
    rw [if_neg, hr]
    intro e
    rw [List.length_eq_zero_iff.mp e] at hr
    have := congrArg SensorsMsg.sensors (Option.some.inj hr)
    exact hne (by simpa using (congrArg List.length this).symm)

/-- **C52, routes.** -/
theorem routes_bytes [GoFloat F] (print : RawProps F → Bytes) (read : Bytes → RawProps F)
    (hj : ∀ p, read (print p) = p) (rs : List (Route F)) (bs : Bytes) (h : encodeRoutesBytes print rs = .ok bs)
    (hk : ∀ r ∈ rs, OkRoute (r.snapshot.mapProps print)) (hl : bs.length < 2 ^ 63) :
    decodeRoutesBytes read bs = (decodeRoutes (rs.map Route.snapshot)).map some := by
  unfold encodeRoutesBytes encodeRoutes at h
  split at h
  · cases h
  · rename_i hne
    obtain rfl : protoMarshal encRoutes ⟨(rs.map Route.snapshot).map (·.mapProps print)⟩ = bs := Except.ok.inj h
    have hok : OkRoutes (⟨(rs.map Route.snapshot).map (·.mapProps print)⟩ : RoutesMsg F) := by
      intro a ha
      rw [List.map_map] at ha
      obtain ⟨s, hs, rfl⟩ := List.mem_map.mp ha
      exact hk s hs
    have hr := routes_round _ hok hl
    have hmap : ((rs.map Route.snapshot).map (·.mapProps print)).map (·.mapProps read) = rs.map Route.snapshot := by
      rw [List.map_map]
      have : (fun x : RouteMsg F Bytes => x.mapProps read) ∘ (fun x => x.mapProps print) = id := by
        funext t; exact route_map print read hj t
      rw [this, List.map_id]
    unfold decodeRoutesBytes routesFromBytes
    rw [if_neg, hr]
    · simp only
      rw [hmap]
    · intro e
      rw [List.length_eq_zero_iff.mp e] at hr
      have := congrArg RoutesMsg.routes (Option.some.inj hr)
      exact hne (by simpa using (congrArg List.length this).symm)

/-! ## Examples -/

instance : WireFloat UInt64 := ⟨id, id, fun _ => rfl⟩

/-- 1.5 is 0x3ff8000000000000. -/
def exPacket : PacketPb UInt64 :=
  ⟨[⟨"dév", "", 0x3ff8000000000000, 0, "m", 0, some ⟨0, 0, 0, 0, 0, 0, 0, 0⟩, some ⟨0, -1⟩, none, none, none,
      [⟨"s", "", 0, 1⟩, ⟨"", "", 0, 0⟩], "", true, 300, "", 0, none⟩], 1700000000⟩

example : protoMarshal encPacketPb exPacket =
    [10, 55, 10, 4, 100, 195, 169, 118, 25, 0, 0, 0, 0, 0, 0, 248, 63, 42, 1, 109, 58, 0, 66, 11, 16, 255, 255, 255, 255,
      255, 255, 255, 255, 255, 1, 98, 12, 10, 1, 115, 33, 1, 0, 0, 0, 0, 0, 0, 0, 98, 0, 120, 1, 128, 1, 172, 2, 16, 128,
      226, 207, 170, 6] := by decide +kernel

example : packetFromBytes (protoMarshal encPacketPb exPacket) = some exPacket := by decide +kernel

example : putVarint 300 = [172, 2] ∧ (putVarint (2 ^ 64 - 1)).length = 10 := by decide +kernel

example : getVarint (List.replicate 10 255) = none := by decide +kernel

/-- Truncated input is refused. -/
example : packetFromBytes (F := UInt64) ((protoMarshal encPacketPb exPacket).take 20) = none := by decide +kernel

end C52
end GpsGen
