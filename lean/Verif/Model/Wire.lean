import Verif.Model.Device
/-!
# Wire format

proto/snapshot.proto, proto/gpsgen.proto and the calls of `proto.Marshal` and `proto.Unmarshal` in io.go,
encoding.go and device.go. The protobuf library (google.golang.org/protobuf v1.30.0) is not part of the
repository; its behaviour is modelled from the wire format specification: varints, 64-bit and 32-bit fixed
values, length-delimited values, tags; fields at their default are not written; unknown fields and known
fields of an unexpected wire type are skipped; the last scalar wins, sub-messages merge, repeated messages
collect. The field numbers and kinds agree with the struct tags of the generated *.pb.go files.

Simplifications: groups (wire types 3 and 4, not used by these messages) are rejected; strings are valid UTF-8
(`proto.Marshal` fails for others); unknown fields are dropped, not kept.
-/

namespace GpsGen

variable {F : Type}

/-- Bytes. -/
abbrev Bytes := List UInt8

/-- `float64` as 64 bits. -/
class WireFloat (F : Type) where
  bits : F → UInt64
  ofBits : UInt64 → F
  ofBits_bits : ∀ x, ofBits (bits x) = x

/-! ## Primitives -/

/-- A base 128 varint, least significant group first. -/
def putVarint (n : Nat) : Bytes :=
  if n < 128 then [n.toUInt8] else (n % 128 + 128).toUInt8 :: putVarint (n / 128)

/-- A varint of at most `k + 1` bytes; with ten bytes the last one is at most 1. -/
def getVarintAux : Nat → Bytes → Option (Nat × Bytes)
  | _, [] => none
  | 0, b :: bs => if b.toNat < 2 then some (b.toNat, bs) else none
  | k + 1, b :: bs =>
    if b.toNat < 128 then some (b.toNat, bs)
    else match getVarintAux k bs with
      | none => none
      | some (n, rest) => some (b.toNat - 128 + 128 * n, rest)

@[inherit_doc getVarintAux] def getVarint (bs : Bytes) : Option (Nat × Bytes) := getVarintAux 9 bs

/-- `k` bytes, least significant first. -/
def putFixed : Nat → Nat → Bytes
  | 0, _ => []
  | k + 1, n => (n % 256).toUInt8 :: putFixed k (n / 256)

@[inherit_doc putFixed] def getFixed : Nat → Bytes → Option (Nat × Bytes)
  | 0, bs => some (0, bs)
  | _ + 1, [] => none
  | k + 1, b :: bs => match getFixed k bs with
    | none => none
    | some (n, rest) => some (b.toNat + 256 * n, rest)

/-- The value of a record. -/
inductive WireVal where
  | varint (n : Nat)
  | fixed64 (n : Nat)
  | bytes (b : Bytes)
  | fixed32 (n : Nat)
  deriving DecidableEq, Repr

/-- Field number and value. -/
abbrev Rec := Nat × WireVal

/-- Tag and value. -/
def printRec : Rec → Bytes
  | (n, .varint v) => putVarint (n * 8) ++ putVarint v
  | (n, .fixed64 v) => putVarint (n * 8 + 1) ++ putFixed 8 v
  | (n, .bytes b) => putVarint (n * 8 + 2) ++ (putVarint b.length ++ b)
  | (n, .fixed32 v) => putVarint (n * 8 + 5) ++ putFixed 4 v

/-- The value after a tag with wire type `wt`. -/
def parseVal (wt : Nat) (bs : Bytes) : Option (WireVal × Bytes) :=
  match wt with
  | 0 => (getVarint bs).map fun (v, rest) => (.varint v, rest)
  | 1 => (getFixed 8 bs).map fun (v, rest) => (.fixed64 v, rest)
  | 2 => match getVarint bs with
    | none => none
    | some (len, rest) => if len ≤ rest.length then some (.bytes (rest.take len), rest.drop len) else none
  | 5 => (getFixed 4 bs).map fun (v, rest) => (.fixed32 v, rest)
  | _ => none

/-- One record. Field numbers are between 1 and 2^29 - 1. -/
def parseRec (bs : Bytes) : Option (Rec × Bytes) :=
  match getVarint bs with
  | none => none
  | some (tag, rest) =>
    if 1 ≤ tag / 8 ∧ tag / 8 < 2 ^ 29 then
      (parseVal (tag % 8) rest).map fun (v, rest) => ((tag / 8, v), rest)
    else none

/-- All records, at most as many as the first argument. -/
def parseAux : Nat → Bytes → Option (List Rec)
  | _, [] => some []
  | 0, _ :: _ => none
  | k + 1, b :: bs => match parseRec (b :: bs) with
    | none => none
    | some (r, rest) => (parseAux k rest).map (r :: ·)

/-- All records; each takes at least one byte. -/
def parseRecs (bs : Bytes) : Option (List Rec) := parseAux bs.length bs

/-- Records one after the other. -/
def printRecs (rs : List Rec) : Bytes := rs.flatMap printRec

/-! ## Fields -/

/-- Records of one field. -/
def field (n : Nat) (vs : List WireVal) : List Rec := vs.map fun v => (n, v)

/-- The values with field number `n`, in order. -/
def sel (n : Nat) (rs : List Rec) : List WireVal := (rs.filter fun r => r.1 == n).map (·.2)

/-- The varint values. -/
def varints (vs : List WireVal) : List Nat := vs.filterMap fun | .varint n => some n | _ => none
/-- The 64-bit values. -/
def fixeds (vs : List WireVal) : List Nat := vs.filterMap fun | .fixed64 n => some n | _ => none
/-- The length-delimited values. -/
def blobs (vs : List WireVal) : List Bytes := vs.filterMap fun | .bytes b => some b | _ => none

/-- `double`; positive zero is not written. -/
def dblVals [WireFloat F] (x : F) : List WireVal :=
  if WireFloat.bits x = 0 then [] else [.fixed64 (WireFloat.bits x).toNat]
@[inherit_doc dblVals] def getDbl [WireFloat F] (vs : List WireVal) : Option F :=
  some (WireFloat.ofBits (((fixeds vs).getLast?.getD 0).toUInt64))

/-- `int64`: two's complement; zero is not written. -/
def intVals (i : Int) : List WireVal := if i = 0 then [] else [.varint (i % 2 ^ 64).toNat]
@[inherit_doc intVals] def getInt (vs : List WireVal) : Option Int :=
  let n := (varints vs).getLast?.getD 0
  some (if n < 2 ^ 63 then n else (n : Int) - 2 ^ 64)

/-- `bool`; false is not written. -/
def boolVals (b : Bool) : List WireVal := if b then [.varint 1] else []
@[inherit_doc boolVals] def getBool (vs : List WireVal) : Option Bool :=
  some (((varints vs).getLast?.getD 0) != 0)

/-- `bytes`; the empty value is not written. -/
def bytesVals (b : Bytes) : List WireVal := if b = [] then [] else [.bytes b]
@[inherit_doc bytesVals] def getBytes (vs : List WireVal) : Option Bytes := some ((blobs vs).getLast?.getD [])

/-- The UTF-8 form of a string. -/
def utf8 (s : String) : Bytes := s.toByteArray.data.toList

/-- `string`; the empty string is not written. Invalid UTF-8 is an error wherever it occurs. -/
def strVals (s : String) : List WireVal := if s = "" then [] else [.bytes (utf8 s)]
@[inherit_doc strVals] def getStr (vs : List WireVal) : Option String :=
  (blobs vs).foldlM (fun _ b => String.fromUTF8? ⟨b.toArray⟩) ""

/-- A sub-message; a present but empty one is written. -/
def msgVals {α : Type} (enc : α → List Rec) : Option α → List WireVal
  | none => []
  | some a => [.bytes (printRecs (enc a))]
@[inherit_doc msgVals]
def getMsg {α : Type} (dec : List Rec → Option α) (vs : List WireVal) : Option (Option α) :=
  match blobs vs with
  | [] => some none
  | b :: bs => do
    let rs ← (b :: bs).mapM parseRecs
    let a ← dec rs.flatten
    return some a

/-- Repeated messages. -/
def repVals {α : Type} (enc : α → List Rec) (l : List α) : List WireVal := l.map fun a => .bytes (printRecs (enc a))
@[inherit_doc repVals]
def getRep {α : Type} (dec : List Rec → Option α) (vs : List WireVal) : Option (List α) :=
  (blobs vs).mapM fun b => do
    let rs ← parseRecs b
    dec rs

/-- `proto.Marshal`, given the fields of the message type. -/
def protoMarshal {α : Type} (enc : α → List Rec) (a : α) : Bytes := printRecs (enc a)

/-- `proto.Unmarshal` into a new message. -/
def protoUnmarshal {α : Type} (dec : List Rec → Option α) (bs : Bytes) : Option α := do
  let rs ← parseRecs bs
  dec rs

/-! ## Messages -/

/-- Fields of `Snapshot.PointLatLon`, proto/snapshot.proto:10-13. -/
def encLatLon [WireFloat F] (m : LatLonMsg F) : List Rec :=
  field 1 (dblVals m.lon) ++ field 2 (dblVals m.lat)

@[inherit_doc encLatLon]
def decLatLon [WireFloat F] (rs : List Rec) : Option (LatLonMsg F) := do
  let lon ← getDbl (sel 1 rs)
  let lat ← getDbl (sel 2 rs)
  return ⟨lon, lat⟩

/-- Fields of `Snapshot.Curve.Point`, proto/snapshot.proto:18-21. -/
def encPoint [WireFloat F] (m : PointMsg F) : List Rec :=
  field 1 (dblVals m.x) ++ field 2 (dblVals m.y)

@[inherit_doc encPoint]
def decPoint [WireFloat F] (rs : List Rec) : Option (PointMsg F) := do
  let x ← getDbl (sel 1 rs)
  let y ← getDbl (sel 2 rs)
  return ⟨x, y⟩

/-- Fields of `Snapshot.Curve.ControlPoint`, proto/snapshot.proto:24-27. -/
def encControlPoint [WireFloat F] (m : ControlPointMsg F) : List Rec :=
  field 1 (msgVals encPoint m.vp) ++ field 2 (msgVals encPoint m.cp)

@[inherit_doc encControlPoint]
def decControlPoint [WireFloat F] (rs : List Rec) : Option (ControlPointMsg F) := do
  let vp ← getMsg decPoint (sel 1 rs)
  let cp ← getMsg decPoint (sel 2 rs)
  return ⟨vp, cp⟩

/-- Fields of `Snapshot.Curve`, proto/snapshot.proto:16-33. -/
def encCurve [WireFloat F] (m : CurveMsg F) : List Rec :=
  field 1 (repVals encControlPoint m.points) ++ field 2 (intVals m.mode) ++ field 3 (dblVals m.min) ++
    field 4 (dblVals m.max)

@[inherit_doc encCurve]
def decCurve [WireFloat F] (rs : List Rec) : Option (CurveMsg F) := do
  let points ← getRep decControlPoint (sel 1 rs)
  let mode ← getInt (sel 2 rs)
  let min ← getDbl (sel 3 rs)
  let max ← getDbl (sel 4 rs)
  return ⟨points, mode, min, max⟩

/-- Fields of `Snapshot.CommonType`, proto/snapshot.proto:36-41. -/
def encCommon [WireFloat F] (m : CommonMsg F) : List Rec :=
  field 1 (dblVals m.min) ++ field 2 (dblVals m.max) ++ field 3 (dblVals m.val) ++
    field 4 (msgVals encCurve m.gen)

@[inherit_doc encCommon]
def decCommon [WireFloat F] (rs : List Rec) : Option (CommonMsg F) := do
  let min ← getDbl (sel 1 rs)
  let max ← getDbl (sel 2 rs)
  let val ← getDbl (sel 3 rs)
  let gen ← getMsg decCurve (sel 4 rs)
  return ⟨min, max, val, gen⟩

/-- Fields of `Snapshot.BatteryType`, proto/snapshot.proto:44-49. -/
def encBattery [WireFloat F] (m : BatteryMsg F) : List Rec :=
  field 1 (dblVals m.min) ++ field 2 (dblVals m.max) ++ field 4 (intVals m.chargeTime) ++
    field 5 (dblVals m.val)

@[inherit_doc encBattery]
def decBattery [WireFloat F] (rs : List Rec) : Option (BatteryMsg F) := do
  let min ← getDbl (sel 1 rs)
  let max ← getDbl (sel 2 rs)
  let chargeTime ← getInt (sel 4 rs)
  let val ← getDbl (sel 5 rs)
  return ⟨min, max, chargeTime, val⟩

/-- Fields of `Snapshot.SensorType`, proto/snapshot.proto:52-60. -/
def encSensor [WireFloat F] (m : SensorMsg F) : List Rec :=
  field 1 (strVals m.id) ++ field 2 (dblVals m.min) ++ field 3 (dblVals m.max) ++ field 4 (dblVals m.valX) ++
    field 5 (dblVals m.valY) ++ field 6 (strVals m.name) ++ field 7 (msgVals encCurve m.gen)

@[inherit_doc encSensor]
def decSensor [WireFloat F] (rs : List Rec) : Option (SensorMsg F) := do
  let id ← getStr (sel 1 rs)
  let min ← getDbl (sel 2 rs)
  let max ← getDbl (sel 3 rs)
  let valX ← getDbl (sel 4 rs)
  let valY ← getDbl (sel 5 rs)
  let name ← getStr (sel 6 rs)
  let gen ← getMsg decCurve (sel 7 rs)
  return ⟨id, min, max, valX, valY, name, gen⟩

/-- Fields of `Snapshot.Navigator.Route.Track.Segment`, proto/snapshot.proto:70-77. -/
def encSegment [WireFloat F] (m : SegmentMsg F) : List Rec :=
  field 1 (msgVals encLatLon m.pointA) ++ field 2 (msgVals encLatLon m.pointB) ++
    field 3 (dblVals m.distance) ++ field 4 (dblVals m.bearing) ++ field 5 (intVals m.index) ++
    field 6 (intVals m.rel)

@[inherit_doc encSegment]
def decSegment [WireFloat F] (rs : List Rec) : Option (SegmentMsg F) := do
  let pointA ← getMsg decLatLon (sel 1 rs)
  let pointB ← getMsg decLatLon (sel 2 rs)
  let distance ← getDbl (sel 3 rs)
  let bearing ← getDbl (sel 4 rs)
  let index ← getInt (sel 5 rs)
  let rel ← getInt (sel 6 rs)
  return ⟨pointA, pointB, distance, bearing, index, rel⟩

/-- Fields of `Snapshot.Navigator.Route.Track`, proto/snapshot.proto:69-87. -/
def encTrack [WireFloat F] (m : TrackMsg F Bytes) : List Rec :=
  field 1 (strVals m.id) ++ field 2 (repVals encSegment m.segments) ++ field 3 (strVals m.color) ++
    field 4 (bytesVals m.props) ++ field 5 (dblVals m.distance) ++ field 6 (boolVals m.isClosed) ++
    field 7 (strVals m.name) ++ field 9 (intVals m.version)

@[inherit_doc encTrack]
def decTrack [WireFloat F] (rs : List Rec) : Option (TrackMsg F Bytes) := do
  let id ← getStr (sel 1 rs)
  let segments ← getRep decSegment (sel 2 rs)
  let color ← getStr (sel 3 rs)
  let props ← getBytes (sel 4 rs)
  let distance ← getDbl (sel 5 rs)
  let isClosed ← getBool (sel 6 rs)
  let name ← getStr (sel 7 rs)
  let version ← getInt (sel 9 rs)
  return ⟨id, segments, color, props, distance, isClosed, name, version⟩

/-- Fields of `Snapshot.Navigator.Route`, proto/snapshot.proto:68-96. -/
def encRoute [WireFloat F] (m : RouteMsg F Bytes) : List Rec :=
  field 1 (strVals m.id) ++ field 2 (dblVals m.distance) ++ field 3 (strVals m.color) ++
    field 4 (repVals encTrack m.tracks) ++ field 5 (bytesVals m.props) ++ field 6 (strVals m.name) ++
    field 7 (intVals m.version)

@[inherit_doc encRoute]
def decRoute [WireFloat F] (rs : List Rec) : Option (RouteMsg F Bytes) := do
  let id ← getStr (sel 1 rs)
  let distance ← getDbl (sel 2 rs)
  let color ← getStr (sel 3 rs)
  let tracks ← getRep decTrack (sel 4 rs)
  let props ← getBytes (sel 5 rs)
  let name ← getStr (sel 6 rs)
  let version ← getInt (sel 7 rs)
  return ⟨id, distance, color, tracks, props, name, version⟩

/-- Fields of `Snapshot.Navigator`, proto/snapshot.proto:67-118. -/
def encNav [WireFloat F] (m : NavMsg F Bytes) : List Rec :=
  field 1 (repVals encRoute m.routes) ++ field 2 (intVals m.routeIndex) ++ field 3 (intVals m.trackIndex) ++
    field 4 (intVals m.segmentIndex) ++ field 5 (dblVals m.currentSegmentDistance) ++
    field 6 (dblVals m.currentRouteDistance) ++ field 7 (dblVals m.currentTrackDistance) ++
    field 8 (dblVals m.currentDistance) ++ field 9 (intVals m.offlineIndex) ++
    field 10 (msgVals encLatLon m.point) ++ field 11 (msgVals encSensor m.elevation) ++
    field 12 (intVals m.offlineMin) ++ field 13 (intVals m.offlineMax) ++ field 14 (dblVals m.distance) ++
    field 15 (boolVals m.skipOffline) ++ field 16 (intVals m.version)

@[inherit_doc encNav]
def decNav [WireFloat F] (rs : List Rec) : Option (NavMsg F Bytes) := do
  let routes ← getRep decRoute (sel 1 rs)
  let routeIndex ← getInt (sel 2 rs)
  let trackIndex ← getInt (sel 3 rs)
  let segmentIndex ← getInt (sel 4 rs)
  let currentSegmentDistance ← getDbl (sel 5 rs)
  let currentRouteDistance ← getDbl (sel 6 rs)
  let currentTrackDistance ← getDbl (sel 7 rs)
  let currentDistance ← getDbl (sel 8 rs)
  let offlineIndex ← getInt (sel 9 rs)
  let point ← getMsg decLatLon (sel 10 rs)
  let elevation ← getMsg decSensor (sel 11 rs)
  let offlineMin ← getInt (sel 12 rs)
  let offlineMax ← getInt (sel 13 rs)
  let distance ← getDbl (sel 14 rs)
  let skipOffline ← getBool (sel 15 rs)
  let version ← getInt (sel 16 rs)
  return ⟨routes, routeIndex, trackIndex, segmentIndex, currentSegmentDistance, currentRouteDistance, currentTrackDistance, currentDistance, offlineIndex, point, elevation, offlineMin, offlineMax, distance, skipOffline, version⟩

/-- Fields of `Snapshot`, proto/snapshot.proto:8-132. -/
def encSnap [WireFloat F] (m : SnapMsg F Bytes) : List Rec :=
  field 1 (strVals m.id) ++ field 2 (strVals m.userId) ++ field 3 (dblVals m.tick) ++
    field 4 (dblVals m.duration) ++ field 5 (strVals m.model) ++ field 6 (strVals m.descr) ++
    field 7 (intVals m.status) ++ field 8 (strVals m.color) ++ field 9 (msgVals encNav m.navigator) ++
    field 10 (msgVals encCommon m.speed) ++ field 11 (msgVals encBattery m.battery) ++
    field 12 (repVals encSensor m.sensors)

@[inherit_doc encSnap]
def decSnap [WireFloat F] (rs : List Rec) : Option (SnapMsg F Bytes) := do
  let id ← getStr (sel 1 rs)
  let userId ← getStr (sel 2 rs)
  let tick ← getDbl (sel 3 rs)
  let duration ← getDbl (sel 4 rs)
  let model ← getStr (sel 5 rs)
  let descr ← getStr (sel 6 rs)
  let status ← getInt (sel 7 rs)
  let color ← getStr (sel 8 rs)
  let navigator ← getMsg decNav (sel 9 rs)
  let speed ← getMsg decCommon (sel 10 rs)
  let battery ← getMsg decBattery (sel 11 rs)
  let sensors ← getRep decSensor (sel 12 rs)
  return ⟨id, userId, tick, duration, model, descr, status, color, navigator, speed, battery, sensors⟩

/-- `Snapshot.Sensors`, proto/snapshot.proto:62-64. -/
structure SensorsMsg (F : Type) where
  sensors : List (SensorMsg F)
  deriving DecidableEq, Repr

/-- Fields of `Snapshot.Sensors`, proto/snapshot.proto:62-64. -/
def encSensors [WireFloat F] (m : SensorsMsg F) : List Rec :=
  field 1 (repVals encSensor m.sensors)

@[inherit_doc encSensors]
def decSensors [WireFloat F] (rs : List Rec) : Option (SensorsMsg F) := do
  let sensors ← getRep decSensor (sel 1 rs)
  return ⟨sensors⟩

/-- `Snapshot.Navigator.Routes`, proto/snapshot.proto:98-100. -/
structure RoutesMsg (F : Type) where
  routes : List (RouteMsg F Bytes)
  deriving DecidableEq, Repr

/-- Fields of `Snapshot.Navigator.Routes`, proto/snapshot.proto:98-100. -/
def encRoutes [WireFloat F] (m : RoutesMsg F) : List Rec :=
  field 1 (repVals encRoute m.routes)

@[inherit_doc encRoutes]
def decRoutes [WireFloat F] (rs : List Rec) : Option (RoutesMsg F) := do
  let routes ← getRep decRoute (sel 1 rs)
  return ⟨routes⟩

/-- `Device.Battery`, proto/gpsgen.proto:10-13. -/
structure BatteryPb (F : Type) where
  charge : F
  chargeTime : Int
  deriving DecidableEq, Repr

/-- Fields of `Device.Battery`, proto/gpsgen.proto:10-13. -/
def encBatteryPb [WireFloat F] (m : BatteryPb F) : List Rec :=
  field 1 (dblVals m.charge) ++ field 2 (intVals m.chargeTime)

@[inherit_doc encBatteryPb]
def decBatteryPb [WireFloat F] (rs : List Rec) : Option (BatteryPb F) := do
  let charge ← getDbl (sel 1 rs)
  let chargeTime ← getInt (sel 2 rs)
  return ⟨charge, chargeTime⟩

/-- `Device.Routes.Route.Track`, proto/gpsgen.proto:20-27. -/
structure TrackPb (F : Type) where
  trackId : String
  distance : F
  numSegments : Int
  color : String
  props : Bytes
  propsCount : Int
  deriving DecidableEq, Repr

/-- Fields of `Device.Routes.Route.Track`, proto/gpsgen.proto:20-27. -/
def encTrackPb [WireFloat F] (m : TrackPb F) : List Rec :=
  field 1 (strVals m.trackId) ++ field 2 (dblVals m.distance) ++ field 3 (intVals m.numSegments) ++
    field 4 (strVals m.color) ++ field 5 (bytesVals m.props) ++ field 6 (intVals m.propsCount)

@[inherit_doc encTrackPb]
def decTrackPb [WireFloat F] (rs : List Rec) : Option (TrackPb F) := do
  let trackId ← getStr (sel 1 rs)
  let distance ← getDbl (sel 2 rs)
  let numSegments ← getInt (sel 3 rs)
  let color ← getStr (sel 4 rs)
  let props ← getBytes (sel 5 rs)
  let propsCount ← getInt (sel 6 rs)
  return ⟨trackId, distance, numSegments, color, props, propsCount⟩

/-- `Device.Routes.Route`, proto/gpsgen.proto:18-35. -/
structure RoutePb (F : Type) where
  routeId : String
  tracks : List (TrackPb F)
  distance : F
  color : String
  props : Bytes
  propsCount : Int
  deriving DecidableEq, Repr

/-- Fields of `Device.Routes.Route`, proto/gpsgen.proto:18-35. -/
def encRoutePb [WireFloat F] (m : RoutePb F) : List Rec :=
  field 1 (strVals m.routeId) ++ field 2 (repVals encTrackPb m.tracks) ++ field 3 (dblVals m.distance) ++
    field 4 (strVals m.color) ++ field 5 (bytesVals m.props) ++ field 6 (intVals m.propsCount)

@[inherit_doc encRoutePb]
def decRoutePb [WireFloat F] (rs : List Rec) : Option (RoutePb F) := do
  let routeId ← getStr (sel 1 rs)
  let tracks ← getRep decTrackPb (sel 2 rs)
  let distance ← getDbl (sel 3 rs)
  let color ← getStr (sel 4 rs)
  let props ← getBytes (sel 5 rs)
  let propsCount ← getInt (sel 6 rs)
  return ⟨routeId, tracks, distance, color, props, propsCount⟩

/-- `Device.Routes`, proto/gpsgen.proto:16-37. -/
structure RoutesPb (F : Type) where
  routes : List (RoutePb F)
  deriving DecidableEq, Repr

/-- Fields of `Device.Routes`, proto/gpsgen.proto:16-37. -/
def encRoutesPb [WireFloat F] (m : RoutesPb F) : List Rec :=
  field 1 (repVals encRoutePb m.routes)

@[inherit_doc encRoutesPb]
def decRoutesPb [WireFloat F] (rs : List Rec) : Option (RoutesPb F) := do
  let routes ← getRep decRoutePb (sel 1 rs)
  return ⟨routes⟩

/-- `Device.Sensor`, proto/gpsgen.proto:40-45. -/
structure SensorPb (F : Type) where
  id : String
  name : String
  valX : F
  valY : F
  deriving DecidableEq, Repr

/-- Fields of `Device.Sensor`, proto/gpsgen.proto:40-45. -/
def encSensorPb [WireFloat F] (m : SensorPb F) : List Rec :=
  field 1 (strVals m.id) ++ field 2 (strVals m.name) ++ field 3 (dblVals m.valX) ++ field 4 (dblVals m.valY)

@[inherit_doc encSensorPb]
def decSensorPb [WireFloat F] (rs : List Rec) : Option (SensorPb F) := do
  let id ← getStr (sel 1 rs)
  let name ← getStr (sel 2 rs)
  let valX ← getDbl (sel 3 rs)
  let valY ← getDbl (sel 4 rs)
  return ⟨id, name, valX, valY⟩

/-- `Device.Navigator`, proto/gpsgen.proto:48-54. -/
structure NavigatorPb where
  currentRouteIndex : Int
  currentTrackIndex : Int
  currentSegmentIndex : Int
  currentRouteId : String
  currentTrackId : String
  deriving DecidableEq, Repr

/-- Fields of `Device.Navigator`, proto/gpsgen.proto:48-54. -/
def encNavigatorPb (m : NavigatorPb) : List Rec :=
  field 1 (intVals m.currentRouteIndex) ++ field 2 (intVals m.currentTrackIndex) ++
    field 3 (intVals m.currentSegmentIndex) ++ field 4 (strVals m.currentRouteId) ++
    field 5 (strVals m.currentTrackId)

@[inherit_doc encNavigatorPb]
def decNavigatorPb (rs : List Rec) : Option NavigatorPb := do
  let currentRouteIndex ← getInt (sel 1 rs)
  let currentTrackIndex ← getInt (sel 2 rs)
  let currentSegmentIndex ← getInt (sel 3 rs)
  let currentRouteId ← getStr (sel 4 rs)
  let currentTrackId ← getStr (sel 5 rs)
  return ⟨currentRouteIndex, currentTrackIndex, currentSegmentIndex, currentRouteId, currentTrackId⟩

/-- `Device.Distance`, proto/gpsgen.proto:57-66. -/
structure DistancePb (F : Type) where
  distance : F
  currentDistance : F
  routeDistance : F
  currentRouteDistance : F
  trackDistance : F
  currentTrackDistance : F
  segmentDistance : F
  currentSegmentDistance : F
  deriving DecidableEq, Repr

/-- Fields of `Device.Distance`, proto/gpsgen.proto:57-66. -/
def encDistancePb [WireFloat F] (m : DistancePb F) : List Rec :=
  field 1 (dblVals m.distance) ++ field 2 (dblVals m.currentDistance) ++ field 3 (dblVals m.routeDistance) ++
    field 4 (dblVals m.currentRouteDistance) ++ field 5 (dblVals m.trackDistance) ++
    field 6 (dblVals m.currentTrackDistance) ++ field 7 (dblVals m.segmentDistance) ++
    field 8 (dblVals m.currentSegmentDistance)

@[inherit_doc encDistancePb]
def decDistancePb [WireFloat F] (rs : List Rec) : Option (DistancePb F) := do
  let distance ← getDbl (sel 1 rs)
  let currentDistance ← getDbl (sel 2 rs)
  let routeDistance ← getDbl (sel 3 rs)
  let currentRouteDistance ← getDbl (sel 4 rs)
  let trackDistance ← getDbl (sel 5 rs)
  let currentTrackDistance ← getDbl (sel 6 rs)
  let segmentDistance ← getDbl (sel 7 rs)
  let currentSegmentDistance ← getDbl (sel 8 rs)
  return ⟨distance, currentDistance, routeDistance, currentRouteDistance, trackDistance, currentTrackDistance, segmentDistance, currentSegmentDistance⟩

/-- `Device.Location.DMS`, proto/gpsgen.proto:71-76. -/
structure DmsPb (F : Type) where
  degrees : Int
  minutes : Int
  seconds : F
  direction : String
  deriving DecidableEq, Repr

/-- Fields of `Device.Location.DMS`, proto/gpsgen.proto:71-76. -/
def encDmsPb [WireFloat F] (m : DmsPb F) : List Rec :=
  field 1 (intVals m.degrees) ++ field 2 (intVals m.minutes) ++ field 3 (dblVals m.seconds) ++
    field 4 (strVals m.direction)

@[inherit_doc encDmsPb]
def decDmsPb [WireFloat F] (rs : List Rec) : Option (DmsPb F) := do
  let degrees ← getInt (sel 1 rs)
  let minutes ← getInt (sel 2 rs)
  let seconds ← getDbl (sel 3 rs)
  let direction ← getStr (sel 4 rs)
  return ⟨degrees, minutes, seconds, direction⟩

/-- `Device.Location.UTM`, proto/gpsgen.proto:79-87. -/
structure UtmPb (F : Type) where
  centralMeridian : F
  easting : F
  northing : F
  longZone : Int
  latZone : String
  hemisphere : String
  srid : Int
  deriving DecidableEq, Repr

/-- Fields of `Device.Location.UTM`, proto/gpsgen.proto:79-87. -/
def encUtmPb [WireFloat F] (m : UtmPb F) : List Rec :=
  field 1 (dblVals m.centralMeridian) ++ field 2 (dblVals m.easting) ++ field 3 (dblVals m.northing) ++
    field 4 (intVals m.longZone) ++ field 5 (strVals m.latZone) ++ field 6 (strVals m.hemisphere) ++
    field 7 (intVals m.srid)

@[inherit_doc encUtmPb]
def decUtmPb [WireFloat F] (rs : List Rec) : Option (UtmPb F) := do
  let centralMeridian ← getDbl (sel 1 rs)
  let easting ← getDbl (sel 2 rs)
  let northing ← getDbl (sel 3 rs)
  let longZone ← getInt (sel 4 rs)
  let latZone ← getStr (sel 5 rs)
  let hemisphere ← getStr (sel 6 rs)
  let srid ← getInt (sel 7 rs)
  return ⟨centralMeridian, easting, northing, longZone, latZone, hemisphere, srid⟩

/-- `Device.Location`, proto/gpsgen.proto:69-96. -/
structure LocationPb (F : Type) where
  lat : F
  lon : F
  elevation : F
  bearing : F
  latDms : Option (DmsPb F)
  lonDms : Option (DmsPb F)
  utm : Option (UtmPb F)
  deriving DecidableEq, Repr

/-- Fields of `Device.Location`, proto/gpsgen.proto:69-96. -/
def encLocationPb [WireFloat F] (m : LocationPb F) : List Rec :=
  field 1 (dblVals m.lat) ++ field 2 (dblVals m.lon) ++ field 3 (dblVals m.elevation) ++
    field 4 (dblVals m.bearing) ++ field 12 (msgVals encDmsPb m.latDms) ++
    field 13 (msgVals encDmsPb m.lonDms) ++ field 14 (msgVals encUtmPb m.utm)

@[inherit_doc encLocationPb]
def decLocationPb [WireFloat F] (rs : List Rec) : Option (LocationPb F) := do
  let lat ← getDbl (sel 1 rs)
  let lon ← getDbl (sel 2 rs)
  let elevation ← getDbl (sel 3 rs)
  let bearing ← getDbl (sel 4 rs)
  let latDms ← getMsg decDmsPb (sel 12 rs)
  let lonDms ← getMsg decDmsPb (sel 13 rs)
  let utm ← getMsg decUtmPb (sel 14 rs)
  return ⟨lat, lon, elevation, bearing, latDms, lonDms, utm⟩

/-- `Device.Unit`, proto/gpsgen.proto:98-103. -/
structure UnitPb where
  distance : String
  speed : String
  time : String
  elevation : String
  deriving DecidableEq, Repr

/-- Fields of `Device.Unit`, proto/gpsgen.proto:98-103. -/
def encUnitPb (m : UnitPb) : List Rec :=
  field 1 (strVals m.distance) ++ field 2 (strVals m.speed) ++ field 3 (strVals m.time) ++
    field 4 (strVals m.elevation)

@[inherit_doc encUnitPb]
def decUnitPb (rs : List Rec) : Option UnitPb := do
  let distance ← getStr (sel 1 rs)
  let speed ← getStr (sel 2 rs)
  let time ← getStr (sel 3 rs)
  let elevation ← getStr (sel 4 rs)
  return ⟨distance, speed, time, elevation⟩

/-- `Device`, proto/gpsgen.proto:8-124. -/
structure DevicePb (F : Type) where
  id : String
  userId : String
  tick : F
  duration : F
  model : String
  speed : F
  distance : Option (DistancePb F)
  battery : Option (BatteryPb F)
  routes : Option (RoutesPb F)
  location : Option (LocationPb F)
  navigator : Option NavigatorPb
  sensors : List (SensorPb F)
  description : String
  isOffline : Bool
  offlineDuration : Int
  color : String
  timeEstimate : F
  units : Option UnitPb
  deriving DecidableEq, Repr

/-- Fields of `Device`, proto/gpsgen.proto:8-124. -/
def encDevicePb [WireFloat F] (m : DevicePb F) : List Rec :=
  field 1 (strVals m.id) ++ field 2 (strVals m.userId) ++ field 3 (dblVals m.tick) ++
    field 4 (dblVals m.duration) ++ field 5 (strVals m.model) ++ field 6 (dblVals m.speed) ++
    field 7 (msgVals encDistancePb m.distance) ++ field 8 (msgVals encBatteryPb m.battery) ++
    field 9 (msgVals encRoutesPb m.routes) ++ field 10 (msgVals encLocationPb m.location) ++
    field 11 (msgVals encNavigatorPb m.navigator) ++ field 12 (repVals encSensorPb m.sensors) ++
    field 14 (strVals m.description) ++ field 15 (boolVals m.isOffline) ++
    field 16 (intVals m.offlineDuration) ++ field 17 (strVals m.color) ++
    field 18 (dblVals m.timeEstimate) ++ field 19 (msgVals encUnitPb m.units)

@[inherit_doc encDevicePb]
def decDevicePb [WireFloat F] (rs : List Rec) : Option (DevicePb F) := do
  let id ← getStr (sel 1 rs)
  let userId ← getStr (sel 2 rs)
  let tick ← getDbl (sel 3 rs)
  let duration ← getDbl (sel 4 rs)
  let model ← getStr (sel 5 rs)
  let speed ← getDbl (sel 6 rs)
  let distance ← getMsg decDistancePb (sel 7 rs)
  let battery ← getMsg decBatteryPb (sel 8 rs)
  let routes ← getMsg decRoutesPb (sel 9 rs)
  let location ← getMsg decLocationPb (sel 10 rs)
  let navigator ← getMsg decNavigatorPb (sel 11 rs)
  let sensors ← getRep decSensorPb (sel 12 rs)
  let description ← getStr (sel 14 rs)
  let isOffline ← getBool (sel 15 rs)
  let offlineDuration ← getInt (sel 16 rs)
  let color ← getStr (sel 17 rs)
  let timeEstimate ← getDbl (sel 18 rs)
  let units ← getMsg decUnitPb (sel 19 rs)
  return ⟨id, userId, tick, duration, model, speed, distance, battery, routes, location, navigator, sensors, description, isOffline, offlineDuration, color, timeEstimate, units⟩

/-- `Packet`, proto/gpsgen.proto:127-130. -/
structure PacketPb (F : Type) where
  devices : List (DevicePb F)
  timestamp : Int
  deriving DecidableEq, Repr

/-- Fields of `Packet`, proto/gpsgen.proto:127-130. -/
def encPacketPb [WireFloat F] (m : PacketPb F) : List Rec :=
  field 1 (repVals encDevicePb m.devices) ++ field 2 (intVals m.timestamp)

@[inherit_doc encPacketPb]
def decPacketPb [WireFloat F] (rs : List Rec) : Option (PacketPb F) := do
  let devices ← getRep decDevicePb (sel 1 rs)
  let timestamp ← getInt (sel 2 rs)
  return ⟨devices, timestamp⟩
/-! ## Entry points -/

/-- encoding.go:12-21 `PacketFromBytes`; `none` is an error. -/
def packetFromBytes [WireFloat F] (data : Bytes) : Option (PacketPb F) :=
  if data.length = 0 then none else protoUnmarshal decPacketPb data

/-- The snapshot read from bytes in `UnmarshalBinary`, device.go:705-712; `none` is an error. -/
def snapFromBytes [WireFloat F] (data : Bytes) : Option (SnapMsg F Bytes) :=
  if data.length = 0 then none else protoUnmarshal decSnap data

/-- The message read from bytes in io.go:51-58 `DecodeSensors`. -/
def sensorsFromBytes [WireFloat F] (data : Bytes) : Option (SensorsMsg F) :=
  if data.length = 0 then none else protoUnmarshal decSensors data

/-- The message read from bytes in io.go:83-90 `DecodeRoutes`. -/
def routesFromBytes [WireFloat F] (data : Bytes) : Option (RoutesMsg F) :=
  if data.length = 0 then none else protoUnmarshal decRoutes data

/-! `print` and `read` below convert between the JSON text of properties and its reading, see `Model/JsonText.lean`. -/

/-- Converts the properties. -/
def TrackMsg.mapProps {P Q : Type} (f : P → Q) (m : TrackMsg F P) : TrackMsg F Q :=
  ⟨m.id, m.segments, m.color, f m.props, m.distance, m.isClosed, m.name, m.version⟩
@[inherit_doc TrackMsg.mapProps]
def RouteMsg.mapProps {P Q : Type} (f : P → Q) (m : RouteMsg F P) : RouteMsg F Q :=
  ⟨m.id, m.distance, m.color, m.tracks.map (·.mapProps f), f m.props, m.name, m.version⟩
@[inherit_doc TrackMsg.mapProps]
def NavMsg.mapProps {P Q : Type} (f : P → Q) (m : NavMsg F P) : NavMsg F Q :=
  ⟨m.routes.map (·.mapProps f), m.routeIndex, m.trackIndex, m.segmentIndex, m.currentSegmentDistance,
    m.currentRouteDistance, m.currentTrackDistance, m.currentDistance, m.offlineIndex, m.point, m.elevation,
    m.offlineMin, m.offlineMax, m.distance, m.skipOffline, m.version⟩
@[inherit_doc TrackMsg.mapProps]
def SnapMsg.mapProps {P Q : Type} (f : P → Q) (m : SnapMsg F P) : SnapMsg F Q :=
  ⟨m.id, m.userId, m.tick, m.duration, m.model, m.descr, m.status, m.color, m.navigator.map (·.mapProps f), m.speed,
    m.battery, m.sensors⟩

/-- device.go:697-700 `MarshalBinary`. -/
def Device.marshalBinary [GoFloat F] [WireFloat F] (print : RawProps F → Bytes) (d : Device F) : Bytes :=
  protoMarshal encSnap (d.snapshot.mapProps print)

/-- device.go:705-715 `UnmarshalBinary`; `none` is an error. -/
def Device.unmarshalBinary [GoMath F] [WireFloat F] (read : Bytes → RawProps F) (d : Device F) (data : Bytes) :
    Go (Option (Device F)) :=
  match snapFromBytes data with
  | none => .ok none
  | some m => (d.fromSnapshot (m.mapProps read)).map some

/-- io.go:15-21 `EncodeTracker` of a device that is not nil. -/
def encodeTrackerBytes [GoMath F] [WireFloat F] (print : RawProps F → Bytes) (d : Device F) : Go (Device F × Bytes) := do
  let d ← d.update
  return (d, d.marshalBinary print)

/-- io.go:24-34 `DecodeTracker`; `none` is an error. -/
def decodeTrackerBytes [GoMath F] [WireFloat F] (read : Bytes → RawProps F) (data : Bytes) : Go (Option (Device F)) :=
  match snapFromBytes data with
  | none => .ok none
  | some m => (decodeTracker (m.mapProps read)).map some

/-- io.go:37-48 `EncodeSensors`. -/
def encodeSensorsBytes [WireFloat F] (ss : List (Sensor F)) : Except Err Bytes :=
  (encodeSensors ss).map fun ms => protoMarshal encSensors ⟨ms⟩

/-- io.go:51-66 `DecodeSensors`; `none` is an error. -/
def decodeSensorsBytes [WireFloat F] (data : Bytes) : Go (Option (List (Sensor F))) :=
  match sensorsFromBytes data with
  | none => .ok none
  | some m => (decodeSensors m.sensors).map some

/-- io.go:69-80 `EncodeRoutes`. -/
def encodeRoutesBytes [GoFloat F] [WireFloat F] (print : RawProps F → Bytes) (rs : List (Route F)) : Except Err Bytes :=
  (encodeRoutes rs).map fun ms => protoMarshal encRoutes ⟨ms.map (·.mapProps print)⟩

/-- io.go:83-98 `DecodeRoutes`; `none` is an error. -/
def decodeRoutesBytes [GoFloat F] [WireFloat F] (read : Bytes → RawProps F) (data : Bytes) :
    Go (Option (List (Route F))) :=
  match routesFromBytes data with
  | none => .ok none
  | some m => (decodeRoutes (m.routes.map (·.mapProps read))).map some

end GpsGen
