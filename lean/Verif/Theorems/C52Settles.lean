import Verif.Theorems.C52
import Verif.Lemmas.WireParsed
/-!
# C52: bytes from anywhere settle after one reading

Bytes not written by this program may have fields in any order, unknown fields, numbers in more bytes than
needed, fields that occur twice and sub-messages in pieces. If they are accepted at all, then writing the
message and reading it again changes nothing: the conditions of the round trips of C52 hold for every message
that was read from bytes. The exception is the message with all fields at their default. It can be read, if it
is written in a roundabout way, but what is written for it is refused.

The library keeps unknown fields beside the message and writes them again; the model drops them (see
`Model/Wire.lean`), so these theorems are about the known fields.
-/

namespace GpsGen
namespace C52

variable {F : Type} [WireFloat F]

theorem unmarshal_read {α : Type} {dec : List Rec → Option α} {bs : Bytes} {m : α} {P : α → Prop}
    (hd : ∀ rs a, (∀ r ∈ rs, ReadOk r.2) → dec rs = some a → P a) (h : protoUnmarshal dec bs = some m) : P m := by
  obtain ⟨rs, hrs, h⟩ := Option.bind_eq_some_iff.mp h
  exact hd _ _ (parseRecs_read hrs) h

/-- Every packet read from bytes has 64-bit integers. -/
theorem packet_read {bs : Bytes} {m : PacketPb F} (h : packetFromBytes bs = some m) : OkPacketPb m := by
  unfold packetFromBytes at h
  split at h
  · cases h
  · exact unmarshal_read decPacketPb_read h

@[inherit_doc packet_read]
theorem snap_read {bs : Bytes} {m : SnapMsg F Bytes} (h : snapFromBytes bs = some m) : OkSnap m := by
  unfold snapFromBytes at h
  split at h
  · cases h
  · exact unmarshal_read decSnap_read h

@[inherit_doc packet_read]
theorem sensors_read {bs : Bytes} {m : SensorsMsg F} (h : sensorsFromBytes bs = some m) : OkSensors m := by
  unfold sensorsFromBytes at h
  split at h
  · cases h
  · exact unmarshal_read decSensors_read h

@[inherit_doc packet_read]
theorem routes_read {bs : Bytes} {m : RoutesMsg F} (h : routesFromBytes bs = some m) : OkRoutes m := by
  unfold routesFromBytes at h
  split at h
  · cases h
  · exact unmarshal_read decRoutes_read h

/-- **C52, packets settle.** -/
theorem packet_settles_partial (bs : Bytes) (m : PacketPb F) (h : packetFromBytes bs = some m)
    (hl : (protoMarshal encPacketPb m).length < 2 ^ 63) (hz : m ≠ zeroPacket) :
    packetFromBytes (protoMarshal encPacketPb m) = some m :=
  packetFromBytes_partial m (packet_read h) hl hz

/-- **C52, snapshots settle.** -/
theorem snap_settles_partial (bs : Bytes) (m : SnapMsg F Bytes) (h : snapFromBytes bs = some m)
    (hl : (protoMarshal encSnap m).length < 2 ^ 63) (hz : m ≠ zeroSnap) :
    snapFromBytes (protoMarshal encSnap m) = some m :=
  snapFromBytes_partial m (snap_read h) hl hz

/-- **C52, lists of sensors settle.** -/
theorem sensors_settle_partial (bs : Bytes) (m : SensorsMsg F) (h : sensorsFromBytes bs = some m)
    (hl : (protoMarshal encSensors m).length < 2 ^ 63) (hz : m.sensors ≠ []) :
    sensorsFromBytes (protoMarshal encSensors m) = some m := by
  have hr := sensors_round m (sensors_read h) hl
  unfold sensorsFromBytes
  rw [if_neg, hr]
  intro e
  rw [List.length_eq_zero_iff.mp e] at hr
  exact hz (congrArg SensorsMsg.sensors (Option.some.inj hr)).symm

/-- **C52, lists of routes settle.** -/
theorem routes_settle_partial (bs : Bytes) (m : RoutesMsg F) (h : routesFromBytes bs = some m)
    (hl : (protoMarshal encRoutes m).length < 2 ^ 63) (hz : m.routes ≠ []) :
    routesFromBytes (protoMarshal encRoutes m) = some m := by
  have hr := routes_round m (routes_read h) hl
  unfold routesFromBytes
  rw [if_neg, hr]
  intro e
  rw [List.length_eq_zero_iff.mp e] at hr
  exact hz (congrArg RoutesMsg.routes (Option.some.inj hr)).symm

/-- Two byte strings that are read as the same packet are rewritten to the same bytes, and only those. -/
theorem same_packet_iff (b b' : Bytes) (m m' : PacketPb F) (h : packetFromBytes b = some m)
    (h' : packetFromBytes b' = some m') (hl : (protoMarshal encPacketPb m).length < 2 ^ 63) :
    protoMarshal encPacketPb m = protoMarshal encPacketPb m' ↔ m = m' :=
  ⟨packet_injective m m' (packet_read h) (packet_read h') hl, fun e => e ▸ rfl⟩

/-- **C52 fails** for accepted bytes whose packet has all fields at their default: what is written for it is
refused. -/
theorem packet_does_not_settle : ∃ bs : Bytes, packetFromBytes (F := F) bs = some zeroPacket ∧
    packetFromBytes (F := F) (protoMarshal encPacketPb (zeroPacket : PacketPb F)) = none :=
  ⟨[16, 0], rfl, packetFromBytes_zero⟩

/-- A packet in pieces: fields in reverse order, an unknown field, a number in three bytes instead of one, the
battery in two pieces. -/
def oddBytes : Bytes :=
  [16, 0x85, 0x80, 0x00,             -- timestamp 5 in three bytes
   0x98, 0x06, 1,                    -- field 99
   10, 13, 66, 2, 16, 7,             -- a device whose battery has charge time 7
     10, 1, 97, 66, 2, 16, 9,        -- then the id, then the battery again with 9
     16,                             -- a varint for field 2, which is a string: skipped
     0,
   16, 6]                            -- timestamp again

example : (packetFromBytes (F := UInt64) oddBytes).map (protoMarshal encPacketPb) =
    some [10, 7, 10, 1, 97, 66, 2, 16, 9, 16, 6] := by decide +kernel

example : ((packetFromBytes (F := UInt64) oddBytes).map (protoMarshal encPacketPb)).bind packetFromBytes =
    packetFromBytes (F := UInt64) oddBytes := by decide +kernel

end C52
end GpsGen
