import Verif.Model.PacketBytes
import Verif.Model.Round64
/-!
# Packets in the browser

The readers that protoc generated for subscribers: proto/gpsgen.ts (protobuf-ts) and proto/gpsgen_pb.js (google-protobuf).
Both go through the bytes field by field and write into a message. Their tables are the same. They differ in the numbers
they make of `int64` (`bigint`, and `number`, which is a double) and in what a second occurrence of a sub-message does
(merged, and replaced); `Runtime` is these two choices. The two runtime libraries are not part of the repository and are
modelled from the wire format specification and their documentation.

Simplifications: a number is given by its integer value. A sub-message that extends beyond the end, groups, invalid UTF-8
and varints above 64 bits are errors. An unexpected wire type is read as if it were the expected one.
-/

namespace GpsGen
variable {F : Type}

/-- What the two readers do differently. -/
structure Runtime where
  /-- The number made of an `int64`. -/
  int : Int → Int
  /-- Whether a sub-message is read into the one that is there. -/
  merge : Bool

/-- A JavaScript `number` made of an integer: the nearest double. -/
def jsNum (i : Int) : Int := (Round64.rndQ i).floor

/-- proto/gpsgen.ts: `reader.int64().toBigInt()`, and sub-messages are read into `message.location` etc. -/
def tsRuntime : Runtime := ⟨id, true⟩

/-- proto/gpsgen_pb.js: `reader.readInt64()`, and `setLocation(new Location)` etc. -/
def jsRuntime : Runtime := ⟨jsNum, false⟩

/-! ## Values -/

/-- A varint of which the lower 32 bits count: tags and lengths. -/
def takeU32 (bs : Bytes) : Option (Nat × Bytes) := (getVarint bs).map fun p => (p.1 % 2 ^ 32, p.2)

/-- `double`. -/
def takeDbl [WireFloat F] (bs : Bytes) : Option (F × Bytes) :=
  (getFixed 8 bs).map fun p => (WireFloat.ofBits p.1.toUInt64, p.2)

/-- `int64`, as the runtime represents it. -/
def takeInt (R : Runtime) (bs : Bytes) : Option (Int × Bytes) :=
  (getVarint bs).map fun p => (R.int (if p.1 < 2 ^ 63 then p.1 else (p.1 : Int) - 2 ^ 64), p.2)

/-- `bool`. -/
def takeBool (bs : Bytes) : Option (Bool × Bytes) := (getVarint bs).map fun p => (p.1 != 0, p.2)

/-- `bytes`: length and content. -/
def takeBlob (bs : Bytes) : Option (Bytes × Bytes) := do
  let (len, rest) ← takeU32 bs
  if len ≤ rest.length then some (rest.take len, rest.drop len) else none

/-- `string`. -/
def takeStr (bs : Bytes) : Option (String × Bytes) := do
  let (b, rest) ← takeBlob bs
  let s ← String.fromUTF8? ⟨b.toArray⟩
  return (s, rest)

/-- The loop `while (reader.pos < end)` of every message, for at most `k` fields: tag, then the field. -/
def readFields {M : Type} (field : M → Nat → Nat → Bytes → Option (M × Bytes)) : Nat → M → Bytes → Option M
  | _, m, [] => some m
  | 0, _, _ :: _ => none
  | k + 1, m, b :: bs => do
    let (tag, rest) ← takeU32 (b :: bs)
    let (m, rest) ← field m (tag / 8) (tag % 8) rest
    readFields field k m rest

/-- A sub-message; `old` is what the field has so far. -/
def takeMsg {M : Type} (R : Runtime) (field : M → Nat → Nat → Bytes → Option (M × Bytes)) (new : M) (old : Option M)
    (bs : Bytes) : Option (M × Bytes) := do
  let (b, rest) ← takeBlob bs
  let m ← readFields field b.length (if R.merge then old.getD new else new) b
  return (m, rest)

/-- A value is read and put into the message. -/
def reads {M V : Type} (take : Bytes → Option (V × Bytes)) (set : V → M) (bs : Bytes) : Option (M × Bytes) :=
  (take bs).map fun p => (set p.1, p.2)

/-- A field that the message does not have is skipped. -/
def skips {M : Type} (wt : Nat) (m : M) (bs : Bytes) : Option (M × Bytes) := (parseVal wt bs).map fun p => (m, p.2)

/-! ## Messages -/

/-- proto/gpsgen.ts class `Device_Battery$Type`, `create`: a new message. -/
def newBatteryPb [WireFloat F] : BatteryPb F := ⟨(WireFloat.ofBits 0), 0⟩

/-- proto/gpsgen.ts:580-601, proto/gpsgen_pb.js:711-732: one field of `Device.Battery`. -/
def readBatteryField [WireFloat F] (R : Runtime) (m : BatteryPb F) (no wt : Nat) : Bytes → Option (BatteryPb F × Bytes) :=
  match no with
  | 1 => reads takeDbl fun v => { m with charge := v }
  | 2 => reads (takeInt R) fun v => { m with chargeTime := v }
  | _ => skips wt m

/-- proto/gpsgen.ts class `Device_Routes_Route_Track$Type`, `create`: a new message. -/
def newTrackPb [WireFloat F] : TrackPb F := ⟨"", (WireFloat.ofBits 0), 0, "", [], 0⟩

/-- proto/gpsgen.ts:767-800, proto/gpsgen_pb.js:1179-1216: one field of `Device.Routes.Route.Track`. -/
def readTrackField [WireFloat F] (R : Runtime) (m : TrackPb F) (no wt : Nat) : Bytes → Option (TrackPb F × Bytes) :=
  match no with
  | 1 => reads takeStr fun v => { m with trackId := v }
  | 2 => reads takeDbl fun v => { m with distance := v }
  | 3 => reads (takeInt R) fun v => { m with numSegments := v }
  | 4 => reads takeStr fun v => { m with color := v }
  | 5 => reads takeBlob fun v => { m with props := v }
  | 6 => reads (takeInt R) fun v => { m with propsCount := v }
  | _ => skips wt m

/-- proto/gpsgen.ts class `Device_Routes_Route$Type`, `create`: a new message. -/
def newRoutePb [WireFloat F] : RoutePb F := ⟨"", [], (WireFloat.ofBits 0), "", [], 0⟩

/-- proto/gpsgen.ts:685-718, proto/gpsgen_pb.js:1005-1043: one field of `Device.Routes.Route`. -/
def readRouteField [WireFloat F] (R : Runtime) (m : RoutePb F) (no wt : Nat) : Bytes → Option (RoutePb F × Bytes) :=
  match no with
  | 1 => reads takeStr fun v => { m with routeId := v }
  | 2 => reads (takeMsg R (readTrackField R) newTrackPb none) fun v => { m with tracks := m.tracks ++ [v] }
  | 3 => reads takeDbl fun v => { m with distance := v }
  | 4 => reads takeStr fun v => { m with color := v }
  | 5 => reads takeBlob fun v => { m with props := v }
  | 6 => reads (takeInt R) fun v => { m with propsCount := v }
  | _ => skips wt m

/-- proto/gpsgen.ts class `Device_Routes$Type`, `create`: a new message. -/
def newRoutesPb [WireFloat F] : RoutesPb F := ⟨[]⟩

/-- proto/gpsgen.ts:633-651, proto/gpsgen_pb.js:878-896: one field of `Device.Routes`. -/
def readRoutesField [WireFloat F] (R : Runtime) (m : RoutesPb F) (no wt : Nat) : Bytes → Option (RoutesPb F × Bytes) :=
  match no with
  | 1 => reads (takeMsg R (readRouteField R) newRoutePb none) fun v => { m with routes := m.routes ++ [v] }
  | _ => skips wt m

/-- proto/gpsgen.ts class `Device_Sensor$Type`, `create`: a new message. -/
def newSensorPb [WireFloat F] : SensorPb F := ⟨"", "", (WireFloat.ofBits 0), (WireFloat.ofBits 0)⟩

/-- proto/gpsgen.ts:847-874, proto/gpsgen_pb.js:1671-1700: one field of `Device.Sensor`. -/
def readSensorField [WireFloat F] (m : SensorPb F) (no wt : Nat) : Bytes → Option (SensorPb F × Bytes) :=
  match no with
  | 1 => reads takeStr fun v => { m with id := v }
  | 2 => reads takeStr fun v => { m with name := v }
  | 3 => reads takeDbl fun v => { m with valX := v }
  | 4 => reads takeDbl fun v => { m with valY := v }
  | _ => skips wt m

/-- proto/gpsgen.ts class `Device_Navigator$Type`, `create`: a new message. -/
def newNavigatorPb : NavigatorPb := ⟨0, 0, 0, "", ""⟩

/-- proto/gpsgen.ts:916-946, proto/gpsgen_pb.js:1892-1925: one field of `Device.Navigator`. -/
def readNavigatorField (R : Runtime) (m : NavigatorPb) (no wt : Nat) : Bytes → Option (NavigatorPb × Bytes) :=
  match no with
  | 1 => reads (takeInt R) fun v => { m with currentRouteIndex := v }
  | 2 => reads (takeInt R) fun v => { m with currentTrackIndex := v }
  | 3 => reads (takeInt R) fun v => { m with currentSegmentIndex := v }
  | 4 => reads takeStr fun v => { m with currentRouteId := v }
  | 5 => reads takeStr fun v => { m with currentTrackId := v }
  | _ => skips wt m

/-- proto/gpsgen.ts class `Device_Distance$Type`, `create`: a new message. -/
def newDistancePb [WireFloat F] : DistancePb F := ⟨(WireFloat.ofBits 0), (WireFloat.ofBits 0), (WireFloat.ofBits 0), (WireFloat.ofBits 0), (WireFloat.ofBits 0), (WireFloat.ofBits 0), (WireFloat.ofBits 0), (WireFloat.ofBits 0)⟩

/-- proto/gpsgen.ts:994-1033, proto/gpsgen_pb.js:2145-2190: one field of `Device.Distance`. -/
def readDistanceField [WireFloat F] (m : DistancePb F) (no wt : Nat) : Bytes → Option (DistancePb F × Bytes) :=
  match no with
  | 1 => reads takeDbl fun v => { m with distance := v }
  | 2 => reads takeDbl fun v => { m with currentDistance := v }
  | 3 => reads takeDbl fun v => { m with routeDistance := v }
  | 4 => reads takeDbl fun v => { m with currentRouteDistance := v }
  | 5 => reads takeDbl fun v => { m with trackDistance := v }
  | 6 => reads takeDbl fun v => { m with currentTrackDistance := v }
  | 7 => reads takeDbl fun v => { m with segmentDistance := v }
  | 8 => reads takeDbl fun v => { m with currentSegmentDistance := v }
  | _ => skips wt m

/-- proto/gpsgen.ts class `Device_Location_DMS$Type`, `create`: a new message. -/
def newDmsPb [WireFloat F] : DmsPb F := ⟨0, 0, (WireFloat.ofBits 0), ""⟩

/-- proto/gpsgen.ts:1175-1202, proto/gpsgen_pb.js:2671-2700: one field of `Device.Location.DMS`. -/
def readDmsField [WireFloat F] (R : Runtime) (m : DmsPb F) (no wt : Nat) : Bytes → Option (DmsPb F × Bytes) :=
  match no with
  | 1 => reads (takeInt R) fun v => { m with degrees := v }
  | 2 => reads (takeInt R) fun v => { m with minutes := v }
  | 3 => reads takeDbl fun v => { m with seconds := v }
  | 4 => reads takeStr fun v => { m with direction := v }
  | _ => skips wt m

/-- proto/gpsgen.ts class `Device_Location_UTM$Type`, `create`: a new message. -/
def newUtmPb [WireFloat F] : UtmPb F := ⟨(WireFloat.ofBits 0), (WireFloat.ofBits 0), (WireFloat.ofBits 0), 0, "", "", 0⟩

/-- proto/gpsgen.ts:1246-1282, proto/gpsgen_pb.js:2894-2935: one field of `Device.Location.UTM`. -/
def readUtmField [WireFloat F] (R : Runtime) (m : UtmPb F) (no wt : Nat) : Bytes → Option (UtmPb F × Bytes) :=
  match no with
  | 1 => reads takeDbl fun v => { m with centralMeridian := v }
  | 2 => reads takeDbl fun v => { m with easting := v }
  | 3 => reads takeDbl fun v => { m with northing := v }
  | 4 => reads (takeInt R) fun v => { m with longZone := v }
  | 5 => reads takeStr fun v => { m with latZone := v }
  | 6 => reads takeStr fun v => { m with hemisphere := v }
  | 7 => reads (takeInt R) fun v => { m with srid := v }
  | _ => skips wt m

/-- proto/gpsgen.ts class `Device_Location$Type`, `create`: a new message. -/
def newLocationPb [WireFloat F] : LocationPb F := ⟨(WireFloat.ofBits 0), (WireFloat.ofBits 0), (WireFloat.ofBits 0), (WireFloat.ofBits 0), none, none, none⟩

/-- proto/gpsgen.ts:1089-1125, proto/gpsgen_pb.js:2484-2528: one field of `Device.Location`. -/
def readLocationField [WireFloat F] (R : Runtime) (m : LocationPb F) (no wt : Nat) : Bytes → Option (LocationPb F × Bytes) :=
  match no with
  | 1 => reads takeDbl fun v => { m with lat := v }
  | 2 => reads takeDbl fun v => { m with lon := v }
  | 3 => reads takeDbl fun v => { m with elevation := v }
  | 4 => reads takeDbl fun v => { m with bearing := v }
  | 12 => reads (takeMsg R (readDmsField R) newDmsPb m.latDms) fun v => { m with latDms := some v }
  | 13 => reads (takeMsg R (readDmsField R) newDmsPb m.lonDms) fun v => { m with lonDms := some v }
  | 14 => reads (takeMsg R (readUtmField R) newUtmPb m.utm) fun v => { m with utm := some v }
  | _ => skips wt m

/-- proto/gpsgen.ts class `Device_Unit$Type`, `create`: a new message. -/
def newUnitPb : UnitPb := ⟨"", "", "", ""⟩

/-- proto/gpsgen.ts:1332-1359, proto/gpsgen_pb.js:3384-3413: one field of `Device.Unit`. -/
def readUnitField (m : UnitPb) (no wt : Nat) : Bytes → Option (UnitPb × Bytes) :=
  match no with
  | 1 => reads takeStr fun v => { m with distance := v }
  | 2 => reads takeStr fun v => { m with speed := v }
  | 3 => reads takeStr fun v => { m with time := v }
  | 4 => reads takeStr fun v => { m with elevation := v }
  | _ => skips wt m

/-- proto/gpsgen.ts class `Device$Type`, `create`: a new message. -/
def newDevicePb [WireFloat F] : DevicePb F := ⟨"", "", (WireFloat.ofBits 0), (WireFloat.ofBits 0), "", (WireFloat.ofBits 0), none, none, none, none, none, [], "", false, 0, "", (WireFloat.ofBits 0), none⟩

/-- proto/gpsgen.ts:430-499, proto/gpsgen_pb.js:397-489: one field of `Device`. -/
def readDeviceField [WireFloat F] (R : Runtime) (m : DevicePb F) (no wt : Nat) : Bytes → Option (DevicePb F × Bytes) :=
  match no with
  | 1 => reads takeStr fun v => { m with id := v }
  | 2 => reads takeStr fun v => { m with userId := v }
  | 3 => reads takeDbl fun v => { m with tick := v }
  | 4 => reads takeDbl fun v => { m with duration := v }
  | 5 => reads takeStr fun v => { m with model := v }
  | 6 => reads takeDbl fun v => { m with speed := v }
  | 7 => reads (takeMsg R readDistanceField newDistancePb m.distance) fun v => { m with distance := some v }
  | 8 => reads (takeMsg R (readBatteryField R) newBatteryPb m.battery) fun v => { m with battery := some v }
  | 9 => reads (takeMsg R (readRoutesField R) newRoutesPb m.routes) fun v => { m with routes := some v }
  | 10 => reads (takeMsg R (readLocationField R) newLocationPb m.location) fun v => { m with location := some v }
  | 11 => reads (takeMsg R (readNavigatorField R) newNavigatorPb m.navigator) fun v => { m with navigator := some v }
  | 12 => reads (takeMsg R readSensorField newSensorPb none) fun v => { m with sensors := m.sensors ++ [v] }
  | 14 => reads takeStr fun v => { m with description := v }
  | 15 => reads takeBool fun v => { m with isOffline := v }
  | 16 => reads (takeInt R) fun v => { m with offlineDuration := v }
  | 17 => reads takeStr fun v => { m with color := v }
  | 18 => reads takeDbl fun v => { m with timeEstimate := v }
  | 19 => reads (takeMsg R readUnitField newUnitPb m.units) fun v => { m with units := some v }
  | _ => skips wt m

/-- proto/gpsgen.ts class `Packet$Type`, `create`: a new message. -/
def newPacketPb [WireFloat F] : PacketPb F := ⟨[], 0⟩

/-- proto/gpsgen.ts:1398-1419, proto/gpsgen_pb.js:4068-4090: one field of `Packet`. -/
def readPacketField [WireFloat F] (R : Runtime) (m : PacketPb F) (no wt : Nat) : Bytes → Option (PacketPb F × Bytes) :=
  match no with
  | 1 => reads (takeMsg R (readDeviceField R) newDevicePb none) fun v => { m with devices := m.devices ++ [v] }
  | 2 => reads (takeInt R) fun v => { m with timestamp := v }
  | _ => skips wt m

/-- `Packet.fromBinary` of proto/gpsgen.ts and `Packet.deserializeBinary` of proto/gpsgen_pb.js; `none` is an exception. -/
def browserPacket [WireFloat F] (R : Runtime) (bs : Bytes) : Option (PacketPb F) :=
  readFields (readPacketField R) bs.length newPacketPb bs

end GpsGen
