import Verif.Lemmas.Wire
/-!
# The messages survive the wire format

For every message type: the fields written have valid numbers and values, and reading them back gives the
message. The only condition on a message is that its integers are 64-bit integers.
-/

namespace GpsGen

variable {F : Type}

theorem encLatLon_ok [WireFloat F] (m : LatLonMsg F) : ∀ r ∈ encLatLon m, RecOk r := by
  unfold encLatLon
  repeat' apply append_ok
  · exact field_ok (by decide) (dblVals_ok _)
  · exact field_ok (by decide) (dblVals_ok _)

theorem decLatLon_enc [WireFloat F] (m : LatLonMsg F) (_ : (printRecs (encLatLon m)).length < 2 ^ 63) :
    decLatLon (encLatLon m) = some m := by
  have e1 : sel 1 (encLatLon m) = dblVals m.lon := by simp [encLatLon]
  have e2 : sel 2 (encLatLon m) = dblVals m.lat := by simp [encLatLon]
  unfold decLatLon
  rw [e1, getDbl_vals, e2, getDbl_vals]
  rfl

theorem encPoint_ok [WireFloat F] (m : PointMsg F) : ∀ r ∈ encPoint m, RecOk r := by
  unfold encPoint
  repeat' apply append_ok
  · exact field_ok (by decide) (dblVals_ok _)
  · exact field_ok (by decide) (dblVals_ok _)

theorem decPoint_enc [WireFloat F] (m : PointMsg F) (_ : (printRecs (encPoint m)).length < 2 ^ 63) :
    decPoint (encPoint m) = some m := by
  have e1 : sel 1 (encPoint m) = dblVals m.x := by simp [encPoint]
  have e2 : sel 2 (encPoint m) = dblVals m.y := by simp [encPoint]
  unfold decPoint
  rw [e1, getDbl_vals, e2, getDbl_vals]
  rfl

theorem encControlPoint_ok [WireFloat F] (m : ControlPointMsg F) : ∀ r ∈ encControlPoint m, RecOk r := by
  unfold encControlPoint
  repeat' apply append_ok
  · exact field_ok (by decide) (msgVals_ok _ _)
  · exact field_ok (by decide) (msgVals_ok _ _)

theorem decControlPoint_enc [WireFloat F] (m : ControlPointMsg F) (hl : (printRecs (encControlPoint m)).length < 2 ^ 63) :
    decControlPoint (encControlPoint m) = some m := by
  have e1 : sel 1 (encControlPoint m) = msgVals encPoint m.vp := by simp [encControlPoint]
  have e2 : sel 2 (encControlPoint m) = msgVals encPoint m.cp := by simp [encControlPoint]
  have g1 := getMsg_vals (enc := encPoint) (dec := decPoint) (fun a _ => encPoint_ok a) (short_of_sel 1 hl e1)
    (fun a _ hl => decPoint_enc a hl)
  have g2 := getMsg_vals (enc := encPoint) (dec := decPoint) (fun a _ => encPoint_ok a) (short_of_sel 2 hl e2)
    (fun a _ hl => decPoint_enc a hl)
  unfold decControlPoint
  rw [e1, g1, e2, g2]
  rfl

/-- The integers of `Snapshot.Curve` are 64-bit integers. -/
def OkCurve (m : CurveMsg F) : Prop :=
  Int64Ok m.mode

theorem encCurve_ok [WireFloat F] (m : CurveMsg F) : ∀ r ∈ encCurve m, RecOk r := by
  unfold encCurve
  repeat' apply append_ok
  · exact field_ok (by decide) (repVals_ok _ _)
  · exact field_ok (by decide) (intVals_ok _)
  · exact field_ok (by decide) (dblVals_ok _)
  · exact field_ok (by decide) (dblVals_ok _)

theorem decCurve_enc [WireFloat F] (m : CurveMsg F) (hk : OkCurve m) (hl : (printRecs (encCurve m)).length < 2 ^ 63) :
    decCurve (encCurve m) = some m := by
  have k2 := hk
  have e1 : sel 1 (encCurve m) = repVals encControlPoint m.points := by simp [encCurve]
  have e2 : sel 2 (encCurve m) = intVals m.mode := by simp [encCurve]
  have e3 : sel 3 (encCurve m) = dblVals m.min := by simp [encCurve]
  have e4 : sel 4 (encCurve m) = dblVals m.max := by simp [encCurve]
  have g1 := getRep_vals (enc := encControlPoint) (dec := decControlPoint) (fun a _ => encControlPoint_ok a) (short_of_sel 1 hl e1)
    (fun a _ hl => decControlPoint_enc a hl)
  unfold decCurve
  rw [e1, g1, e2, getInt_vals _ k2, e3, getDbl_vals, e4, getDbl_vals]
  rfl

/-- The integers of `Snapshot.CommonType` are 64-bit integers. -/
def OkCommon (m : CommonMsg F) : Prop :=
  (∀ a, m.gen = some a → OkCurve a)

theorem encCommon_ok [WireFloat F] (m : CommonMsg F) : ∀ r ∈ encCommon m, RecOk r := by
  unfold encCommon
  repeat' apply append_ok
  · exact field_ok (by decide) (dblVals_ok _)
  · exact field_ok (by decide) (dblVals_ok _)
  · exact field_ok (by decide) (dblVals_ok _)
  · exact field_ok (by decide) (msgVals_ok _ _)

theorem decCommon_enc [WireFloat F] (m : CommonMsg F) (hk : OkCommon m) (hl : (printRecs (encCommon m)).length < 2 ^ 63) :
    decCommon (encCommon m) = some m := by
  have k4 := hk
  have e1 : sel 1 (encCommon m) = dblVals m.min := by simp [encCommon]
  have e2 : sel 2 (encCommon m) = dblVals m.max := by simp [encCommon]
  have e3 : sel 3 (encCommon m) = dblVals m.val := by simp [encCommon]
  have e4 : sel 4 (encCommon m) = msgVals encCurve m.gen := by simp [encCommon]
  have g4 := getMsg_vals (enc := encCurve) (dec := decCurve) (fun a _ => encCurve_ok a) (short_of_sel 4 hl e4)
    (fun a h hl => decCurve_enc a (k4 a h) hl)
  unfold decCommon
  rw [e1, getDbl_vals, e2, getDbl_vals, e3, getDbl_vals, e4, g4]
  rfl

/-- The integers of `Snapshot.BatteryType` are 64-bit integers. -/
def OkBattery (m : BatteryMsg F) : Prop :=
  Int64Ok m.chargeTime

theorem encBattery_ok [WireFloat F] (m : BatteryMsg F) : ∀ r ∈ encBattery m, RecOk r := by
  unfold encBattery
  repeat' apply append_ok
  · exact field_ok (by decide) (dblVals_ok _)
  · exact field_ok (by decide) (dblVals_ok _)
  · exact field_ok (by decide) (intVals_ok _)
  · exact field_ok (by decide) (dblVals_ok _)

theorem decBattery_enc [WireFloat F] (m : BatteryMsg F) (hk : OkBattery m) (_ : (printRecs (encBattery m)).length < 2 ^ 63) :
    decBattery (encBattery m) = some m := by
  have k4 := hk
  have e1 : sel 1 (encBattery m) = dblVals m.min := by simp [encBattery]
  have e2 : sel 2 (encBattery m) = dblVals m.max := by simp [encBattery]
  have e4 : sel 4 (encBattery m) = intVals m.chargeTime := by simp [encBattery]
  have e5 : sel 5 (encBattery m) = dblVals m.val := by simp [encBattery]
  unfold decBattery
  rw [e1, getDbl_vals, e2, getDbl_vals, e4, getInt_vals _ k4, e5, getDbl_vals]
  rfl

/-- The integers of `Snapshot.SensorType` are 64-bit integers. -/
def OkSensor (m : SensorMsg F) : Prop :=
  (∀ a, m.gen = some a → OkCurve a)

theorem encSensor_ok [WireFloat F] (m : SensorMsg F) : ∀ r ∈ encSensor m, RecOk r := by
  unfold encSensor
  repeat' apply append_ok
  · exact field_ok (by decide) (strVals_ok _)
  · exact field_ok (by decide) (dblVals_ok _)
  · exact field_ok (by decide) (dblVals_ok _)
  · exact field_ok (by decide) (dblVals_ok _)
  · exact field_ok (by decide) (dblVals_ok _)
  · exact field_ok (by decide) (strVals_ok _)
  · exact field_ok (by decide) (msgVals_ok _ _)

theorem decSensor_enc [WireFloat F] (m : SensorMsg F) (hk : OkSensor m) (hl : (printRecs (encSensor m)).length < 2 ^ 63) :
    decSensor (encSensor m) = some m := by
  have k7 := hk
  have e1 : sel 1 (encSensor m) = strVals m.id := by simp [encSensor]
  have e2 : sel 2 (encSensor m) = dblVals m.min := by simp [encSensor]
  have e3 : sel 3 (encSensor m) = dblVals m.max := by simp [encSensor]
  have e4 : sel 4 (encSensor m) = dblVals m.valX := by simp [encSensor]
  have e5 : sel 5 (encSensor m) = dblVals m.valY := by simp [encSensor]
  have e6 : sel 6 (encSensor m) = strVals m.name := by simp [encSensor]
  have e7 : sel 7 (encSensor m) = msgVals encCurve m.gen := by simp [encSensor]
  have g7 := getMsg_vals (enc := encCurve) (dec := decCurve) (fun a _ => encCurve_ok a) (short_of_sel 7 hl e7)
    (fun a h hl => decCurve_enc a (k7 a h) hl)
  unfold decSensor
  rw [e1, getStr_vals, e2, getDbl_vals, e3, getDbl_vals, e4, getDbl_vals, e5, getDbl_vals, e6, getStr_vals,
    e7, g7]
  rfl

/-- The integers of `Snapshot.Navigator.Route.Track.Segment` are 64-bit integers. -/
def OkSegment (m : SegmentMsg F) : Prop :=
  Int64Ok m.index ∧ Int64Ok m.rel

theorem encSegment_ok [WireFloat F] (m : SegmentMsg F) : ∀ r ∈ encSegment m, RecOk r := by
  unfold encSegment
  repeat' apply append_ok
  · exact field_ok (by decide) (msgVals_ok _ _)
  · exact field_ok (by decide) (msgVals_ok _ _)
  · exact field_ok (by decide) (dblVals_ok _)
  · exact field_ok (by decide) (dblVals_ok _)
  · exact field_ok (by decide) (intVals_ok _)
  · exact field_ok (by decide) (intVals_ok _)

theorem decSegment_enc [WireFloat F] (m : SegmentMsg F) (hk : OkSegment m) (hl : (printRecs (encSegment m)).length < 2 ^ 63) :
    decSegment (encSegment m) = some m := by
  obtain ⟨k5, k6⟩ := hk
  have e1 : sel 1 (encSegment m) = msgVals encLatLon m.pointA := by simp [encSegment]
  have e2 : sel 2 (encSegment m) = msgVals encLatLon m.pointB := by simp [encSegment]
  have e3 : sel 3 (encSegment m) = dblVals m.distance := by simp [encSegment]
  have e4 : sel 4 (encSegment m) = dblVals m.bearing := by simp [encSegment]
  have e5 : sel 5 (encSegment m) = intVals m.index := by simp [encSegment]
  have e6 : sel 6 (encSegment m) = intVals m.rel := by simp [encSegment]
  have g1 := getMsg_vals (enc := encLatLon) (dec := decLatLon) (fun a _ => encLatLon_ok a) (short_of_sel 1 hl e1)
    (fun a _ hl => decLatLon_enc a hl)
  have g2 := getMsg_vals (enc := encLatLon) (dec := decLatLon) (fun a _ => encLatLon_ok a) (short_of_sel 2 hl e2)
    (fun a _ hl => decLatLon_enc a hl)
  unfold decSegment
  rw [e1, g1, e2, g2, e3, getDbl_vals, e4, getDbl_vals, e5, getInt_vals _ k5, e6, getInt_vals _ k6]
  rfl

/-- The integers of `Snapshot.Navigator.Route.Track` are 64-bit integers. -/
def OkTrack (m : TrackMsg F Bytes) : Prop :=
  (∀ a ∈ m.segments, OkSegment a) ∧ Int64Ok m.version

theorem encTrack_ok [WireFloat F] (m : TrackMsg F Bytes) : ∀ r ∈ encTrack m, RecOk r := by
  unfold encTrack
  repeat' apply append_ok
  · exact field_ok (by decide) (strVals_ok _)
  · exact field_ok (by decide) (repVals_ok _ _)
  · exact field_ok (by decide) (strVals_ok _)
  · exact field_ok (by decide) (bytesVals_ok _)
  · exact field_ok (by decide) (dblVals_ok _)
  · exact field_ok (by decide) (boolVals_ok _)
  · exact field_ok (by decide) (strVals_ok _)
  · exact field_ok (by decide) (intVals_ok _)

theorem decTrack_enc [WireFloat F] (m : TrackMsg F Bytes) (hk : OkTrack m) (hl : (printRecs (encTrack m)).length < 2 ^ 63) :
    decTrack (encTrack m) = some m := by
  obtain ⟨k2, k9⟩ := hk
  have e1 : sel 1 (encTrack m) = strVals m.id := by simp [encTrack]
  have e2 : sel 2 (encTrack m) = repVals encSegment m.segments := by simp [encTrack]
  have e3 : sel 3 (encTrack m) = strVals m.color := by simp [encTrack]
  have e4 : sel 4 (encTrack m) = bytesVals m.props := by simp [encTrack]
  have e5 : sel 5 (encTrack m) = dblVals m.distance := by simp [encTrack]
  have e6 : sel 6 (encTrack m) = boolVals m.isClosed := by simp [encTrack]
  have e7 : sel 7 (encTrack m) = strVals m.name := by simp [encTrack]
  have e9 : sel 9 (encTrack m) = intVals m.version := by simp [encTrack]
  have g2 := getRep_vals (enc := encSegment) (dec := decSegment) (fun a _ => encSegment_ok a) (short_of_sel 2 hl e2)
    (fun a h hl => decSegment_enc a (k2 a h) hl)
  unfold decTrack
  rw [e1, getStr_vals, e2, g2, e3, getStr_vals, e4, getBytes_vals, e5, getDbl_vals, e6, getBool_vals,
    e7, getStr_vals, e9, getInt_vals _ k9]
  rfl

/-- The integers of `Snapshot.Navigator.Route` are 64-bit integers. -/
def OkRoute (m : RouteMsg F Bytes) : Prop :=
  (∀ a ∈ m.tracks, OkTrack a) ∧ Int64Ok m.version

theorem encRoute_ok [WireFloat F] (m : RouteMsg F Bytes) : ∀ r ∈ encRoute m, RecOk r := by
  unfold encRoute
  repeat' apply append_ok
  · exact field_ok (by decide) (strVals_ok _)
  · exact field_ok (by decide) (dblVals_ok _)
  · exact field_ok (by decide) (strVals_ok _)
  · exact field_ok (by decide) (repVals_ok _ _)
  · exact field_ok (by decide) (bytesVals_ok _)
  · exact field_ok (by decide) (strVals_ok _)
  · exact field_ok (by decide) (intVals_ok _)

theorem decRoute_enc [WireFloat F] (m : RouteMsg F Bytes) (hk : OkRoute m) (hl : (printRecs (encRoute m)).length < 2 ^ 63) :
    decRoute (encRoute m) = some m := by
  obtain ⟨k4, k7⟩ := hk
  have e1 : sel 1 (encRoute m) = strVals m.id := by simp [encRoute]
  have e2 : sel 2 (encRoute m) = dblVals m.distance := by simp [encRoute]
  have e3 : sel 3 (encRoute m) = strVals m.color := by simp [encRoute]
  have e4 : sel 4 (encRoute m) = repVals encTrack m.tracks := by simp [encRoute]
  have e5 : sel 5 (encRoute m) = bytesVals m.props := by simp [encRoute]
  have e6 : sel 6 (encRoute m) = strVals m.name := by simp [encRoute]
  have e7 : sel 7 (encRoute m) = intVals m.version := by simp [encRoute]
  have g4 := getRep_vals (enc := encTrack) (dec := decTrack) (fun a _ => encTrack_ok a) (short_of_sel 4 hl e4)
    (fun a h hl => decTrack_enc a (k4 a h) hl)
  unfold decRoute
  rw [e1, getStr_vals, e2, getDbl_vals, e3, getStr_vals, e4, g4, e5, getBytes_vals, e6, getStr_vals,
    e7, getInt_vals _ k7]
  rfl

/-- The integers of `Snapshot.Navigator` are 64-bit integers. -/
def OkNav (m : NavMsg F Bytes) : Prop :=
  (∀ a ∈ m.routes, OkRoute a) ∧ Int64Ok m.routeIndex ∧ Int64Ok m.trackIndex ∧ Int64Ok m.segmentIndex ∧
  Int64Ok m.offlineIndex ∧ (∀ a, m.elevation = some a → OkSensor a) ∧ Int64Ok m.offlineMin ∧
  Int64Ok m.offlineMax ∧ Int64Ok m.version

theorem encNav_ok [WireFloat F] (m : NavMsg F Bytes) : ∀ r ∈ encNav m, RecOk r := by
  unfold encNav
  repeat' apply append_ok
  · exact field_ok (by decide) (repVals_ok _ _)
  · exact field_ok (by decide) (intVals_ok _)
  · exact field_ok (by decide) (intVals_ok _)
  · exact field_ok (by decide) (intVals_ok _)
  · exact field_ok (by decide) (dblVals_ok _)
  · exact field_ok (by decide) (dblVals_ok _)
  · exact field_ok (by decide) (dblVals_ok _)
  · exact field_ok (by decide) (dblVals_ok _)
  · exact field_ok (by decide) (intVals_ok _)
  · exact field_ok (by decide) (msgVals_ok _ _)
  · exact field_ok (by decide) (msgVals_ok _ _)
  · exact field_ok (by decide) (intVals_ok _)
  · exact field_ok (by decide) (intVals_ok _)
  · exact field_ok (by decide) (dblVals_ok _)
  · exact field_ok (by decide) (boolVals_ok _)
  · exact field_ok (by decide) (intVals_ok _)

theorem decNav_enc [WireFloat F] (m : NavMsg F Bytes) (hk : OkNav m) (hl : (printRecs (encNav m)).length < 2 ^ 63) :
    decNav (encNav m) = some m := by
  obtain ⟨k1, k2, k3, k4, k9, k11, k12, k13, k16⟩ := hk
  have e1 : sel 1 (encNav m) = repVals encRoute m.routes := by simp [encNav]
  have e2 : sel 2 (encNav m) = intVals m.routeIndex := by simp [encNav]
  have e3 : sel 3 (encNav m) = intVals m.trackIndex := by simp [encNav]
  have e4 : sel 4 (encNav m) = intVals m.segmentIndex := by simp [encNav]
  have e5 : sel 5 (encNav m) = dblVals m.currentSegmentDistance := by simp [encNav]
  have e6 : sel 6 (encNav m) = dblVals m.currentRouteDistance := by simp [encNav]
  have e7 : sel 7 (encNav m) = dblVals m.currentTrackDistance := by simp [encNav]
  have e8 : sel 8 (encNav m) = dblVals m.currentDistance := by simp [encNav]
  have e9 : sel 9 (encNav m) = intVals m.offlineIndex := by simp [encNav]
  have e10 : sel 10 (encNav m) = msgVals encLatLon m.point := by simp [encNav]
  have e11 : sel 11 (encNav m) = msgVals encSensor m.elevation := by simp [encNav]
  have e12 : sel 12 (encNav m) = intVals m.offlineMin := by simp [encNav]
  have e13 : sel 13 (encNav m) = intVals m.offlineMax := by simp [encNav]
  have e14 : sel 14 (encNav m) = dblVals m.distance := by simp [encNav]
  have e15 : sel 15 (encNav m) = boolVals m.skipOffline := by simp [encNav]
  have e16 : sel 16 (encNav m) = intVals m.version := by simp [encNav]
  have g1 := getRep_vals (enc := encRoute) (dec := decRoute) (fun a _ => encRoute_ok a) (short_of_sel 1 hl e1)
    (fun a h hl => decRoute_enc a (k1 a h) hl)
  have g10 := getMsg_vals (enc := encLatLon) (dec := decLatLon) (fun a _ => encLatLon_ok a) (short_of_sel 10 hl e10)
    (fun a _ hl => decLatLon_enc a hl)
  have g11 := getMsg_vals (enc := encSensor) (dec := decSensor) (fun a _ => encSensor_ok a) (short_of_sel 11 hl e11)
    (fun a h hl => decSensor_enc a (k11 a h) hl)
  unfold decNav
  rw [e1, g1, e2, getInt_vals _ k2, e3, getInt_vals _ k3, e4, getInt_vals _ k4, e5, getDbl_vals,
    e6, getDbl_vals, e7, getDbl_vals, e8, getDbl_vals, e9, getInt_vals _ k9, e10, g10, e11, g11,
    e12, getInt_vals _ k12, e13, getInt_vals _ k13, e14, getDbl_vals, e15, getBool_vals,
    e16, getInt_vals _ k16]
  rfl

/-- The integers of `Snapshot` are 64-bit integers. -/
def OkSnap (m : SnapMsg F Bytes) : Prop :=
  Int64Ok m.status ∧ (∀ a, m.navigator = some a → OkNav a) ∧ (∀ a, m.speed = some a → OkCommon a) ∧
  (∀ a, m.battery = some a → OkBattery a) ∧ (∀ a ∈ m.sensors, OkSensor a)

theorem encSnap_ok [WireFloat F] (m : SnapMsg F Bytes) : ∀ r ∈ encSnap m, RecOk r := by
  unfold encSnap
  repeat' apply append_ok
  · exact field_ok (by decide) (strVals_ok _)
  · exact field_ok (by decide) (strVals_ok _)
  · exact field_ok (by decide) (dblVals_ok _)
  · exact field_ok (by decide) (dblVals_ok _)
  · exact field_ok (by decide) (strVals_ok _)
  · exact field_ok (by decide) (strVals_ok _)
  · exact field_ok (by decide) (intVals_ok _)
  · exact field_ok (by decide) (strVals_ok _)
  · exact field_ok (by decide) (msgVals_ok _ _)
  · exact field_ok (by decide) (msgVals_ok _ _)
  · exact field_ok (by decide) (msgVals_ok _ _)
  · exact field_ok (by decide) (repVals_ok _ _)

theorem decSnap_enc [WireFloat F] (m : SnapMsg F Bytes) (hk : OkSnap m) (hl : (printRecs (encSnap m)).length < 2 ^ 63) :
    decSnap (encSnap m) = some m := by
  obtain ⟨k7, k9, k10, k11, k12⟩ := hk
  have e1 : sel 1 (encSnap m) = strVals m.id := by simp [encSnap]
  have e2 : sel 2 (encSnap m) = strVals m.userId := by simp [encSnap]
  have e3 : sel 3 (encSnap m) = dblVals m.tick := by simp [encSnap]
  have e4 : sel 4 (encSnap m) = dblVals m.duration := by simp [encSnap]
  have e5 : sel 5 (encSnap m) = strVals m.model := by simp [encSnap]
  have e6 : sel 6 (encSnap m) = strVals m.descr := by simp [encSnap]
  have e7 : sel 7 (encSnap m) = intVals m.status := by simp [encSnap]
  have e8 : sel 8 (encSnap m) = strVals m.color := by simp [encSnap]
  have e9 : sel 9 (encSnap m) = msgVals encNav m.navigator := by simp [encSnap]
  have e10 : sel 10 (encSnap m) = msgVals encCommon m.speed := by simp [encSnap]
  have e11 : sel 11 (encSnap m) = msgVals encBattery m.battery := by simp [encSnap]
  have e12 : sel 12 (encSnap m) = repVals encSensor m.sensors := by simp [encSnap]
  have g9 := getMsg_vals (enc := encNav) (dec := decNav) (fun a _ => encNav_ok a) (short_of_sel 9 hl e9)
    (fun a h hl => decNav_enc a (k9 a h) hl)
  have g10 := getMsg_vals (enc := encCommon) (dec := decCommon) (fun a _ => encCommon_ok a) (short_of_sel 10 hl e10)
    (fun a h hl => decCommon_enc a (k10 a h) hl)
  have g11 := getMsg_vals (enc := encBattery) (dec := decBattery) (fun a _ => encBattery_ok a) (short_of_sel 11 hl e11)
    (fun a h hl => decBattery_enc a (k11 a h) hl)
  have g12 := getRep_vals (enc := encSensor) (dec := decSensor) (fun a _ => encSensor_ok a) (short_of_sel 12 hl e12)
    (fun a h hl => decSensor_enc a (k12 a h) hl)
  unfold decSnap
  rw [e1, getStr_vals, e2, getStr_vals, e3, getDbl_vals, e4, getDbl_vals, e5, getStr_vals, e6, getStr_vals,
    e7, getInt_vals _ k7, e8, getStr_vals, e9, g9, e10, g10, e11, g11, e12, g12]
  rfl

/-- The integers of `Snapshot.Sensors` are 64-bit integers. -/
def OkSensors (m : SensorsMsg F) : Prop :=
  (∀ a ∈ m.sensors, OkSensor a)

theorem encSensors_ok [WireFloat F] (m : SensorsMsg F) : ∀ r ∈ encSensors m, RecOk r := by
  unfold encSensors
  exact field_ok (by decide) (repVals_ok _ _)

theorem decSensors_enc [WireFloat F] (m : SensorsMsg F) (hk : OkSensors m) (hl : (printRecs (encSensors m)).length < 2 ^ 63) :
    decSensors (encSensors m) = some m := by
  have k1 := hk
  have e1 : sel 1 (encSensors m) = repVals encSensor m.sensors := by simp [encSensors]
  have g1 := getRep_vals (enc := encSensor) (dec := decSensor) (fun a _ => encSensor_ok a) (short_of_sel 1 hl e1)
    (fun a h hl => decSensor_enc a (k1 a h) hl)
  unfold decSensors
  rw [e1, g1]
  rfl

/-- The integers of `Snapshot.Navigator.Routes` are 64-bit integers. -/
def OkRoutes (m : RoutesMsg F) : Prop :=
  (∀ a ∈ m.routes, OkRoute a)

theorem encRoutes_ok [WireFloat F] (m : RoutesMsg F) : ∀ r ∈ encRoutes m, RecOk r := by
  unfold encRoutes
  exact field_ok (by decide) (repVals_ok _ _)

theorem decRoutes_enc [WireFloat F] (m : RoutesMsg F) (hk : OkRoutes m) (hl : (printRecs (encRoutes m)).length < 2 ^ 63) :
    decRoutes (encRoutes m) = some m := by
  have k1 := hk
  have e1 : sel 1 (encRoutes m) = repVals encRoute m.routes := by simp [encRoutes]
  have g1 := getRep_vals (enc := encRoute) (dec := decRoute) (fun a _ => encRoute_ok a) (short_of_sel 1 hl e1)
    (fun a h hl => decRoute_enc a (k1 a h) hl)
  unfold decRoutes
  rw [e1, g1]
  rfl

/-- The integers of `Device.Battery` are 64-bit integers. -/
def OkBatteryPb (m : BatteryPb F) : Prop :=
  Int64Ok m.chargeTime

theorem encBatteryPb_ok [WireFloat F] (m : BatteryPb F) : ∀ r ∈ encBatteryPb m, RecOk r := by
  unfold encBatteryPb
  repeat' apply append_ok
  · exact field_ok (by decide) (dblVals_ok _)
  · exact field_ok (by decide) (intVals_ok _)

theorem decBatteryPb_enc [WireFloat F] (m : BatteryPb F) (hk : OkBatteryPb m) (_ : (printRecs (encBatteryPb m)).length < 2 ^ 63) :
    decBatteryPb (encBatteryPb m) = some m := by
  have k2 := hk
  have e1 : sel 1 (encBatteryPb m) = dblVals m.charge := by simp [encBatteryPb]
  have e2 : sel 2 (encBatteryPb m) = intVals m.chargeTime := by simp [encBatteryPb]
  unfold decBatteryPb
  rw [e1, getDbl_vals, e2, getInt_vals _ k2]
  rfl

/-- The integers of `Device.Routes.Route.Track` are 64-bit integers. -/
def OkTrackPb (m : TrackPb F) : Prop :=
  Int64Ok m.numSegments ∧ Int64Ok m.propsCount

theorem encTrackPb_ok [WireFloat F] (m : TrackPb F) : ∀ r ∈ encTrackPb m, RecOk r := by
  unfold encTrackPb
  repeat' apply append_ok
  · exact field_ok (by decide) (strVals_ok _)
  · exact field_ok (by decide) (dblVals_ok _)
  · exact field_ok (by decide) (intVals_ok _)
  · exact field_ok (by decide) (strVals_ok _)
  · exact field_ok (by decide) (bytesVals_ok _)
  · exact field_ok (by decide) (intVals_ok _)

theorem decTrackPb_enc [WireFloat F] (m : TrackPb F) (hk : OkTrackPb m) (_ : (printRecs (encTrackPb m)).length < 2 ^ 63) :
    decTrackPb (encTrackPb m) = some m := by
  obtain ⟨k3, k6⟩ := hk
  have e1 : sel 1 (encTrackPb m) = strVals m.trackId := by simp [encTrackPb]
  have e2 : sel 2 (encTrackPb m) = dblVals m.distance := by simp [encTrackPb]
  have e3 : sel 3 (encTrackPb m) = intVals m.numSegments := by simp [encTrackPb]
  have e4 : sel 4 (encTrackPb m) = strVals m.color := by simp [encTrackPb]
  have e5 : sel 5 (encTrackPb m) = bytesVals m.props := by simp [encTrackPb]
  have e6 : sel 6 (encTrackPb m) = intVals m.propsCount := by simp [encTrackPb]
  unfold decTrackPb
  rw [e1, getStr_vals, e2, getDbl_vals, e3, getInt_vals _ k3, e4, getStr_vals, e5, getBytes_vals,
    e6, getInt_vals _ k6]
  rfl

/-- The integers of `Device.Routes.Route` are 64-bit integers. -/
def OkRoutePb (m : RoutePb F) : Prop :=
  (∀ a ∈ m.tracks, OkTrackPb a) ∧ Int64Ok m.propsCount

theorem encRoutePb_ok [WireFloat F] (m : RoutePb F) : ∀ r ∈ encRoutePb m, RecOk r := by
  unfold encRoutePb
  repeat' apply append_ok
  · exact field_ok (by decide) (strVals_ok _)
  · exact field_ok (by decide) (repVals_ok _ _)
  · exact field_ok (by decide) (dblVals_ok _)
  · exact field_ok (by decide) (strVals_ok _)
  · exact field_ok (by decide) (bytesVals_ok _)
  · exact field_ok (by decide) (intVals_ok _)

theorem decRoutePb_enc [WireFloat F] (m : RoutePb F) (hk : OkRoutePb m) (hl : (printRecs (encRoutePb m)).length < 2 ^ 63) :
    decRoutePb (encRoutePb m) = some m := by
  obtain ⟨k2, k6⟩ := hk
  have e1 : sel 1 (encRoutePb m) = strVals m.routeId := by simp [encRoutePb]
  have e2 : sel 2 (encRoutePb m) = repVals encTrackPb m.tracks := by simp [encRoutePb]
  have e3 : sel 3 (encRoutePb m) = dblVals m.distance := by simp [encRoutePb]
  have e4 : sel 4 (encRoutePb m) = strVals m.color := by simp [encRoutePb]
  have e5 : sel 5 (encRoutePb m) = bytesVals m.props := by simp [encRoutePb]
  have e6 : sel 6 (encRoutePb m) = intVals m.propsCount := by simp [encRoutePb]
  have g2 := getRep_vals (enc := encTrackPb) (dec := decTrackPb) (fun a _ => encTrackPb_ok a) (short_of_sel 2 hl e2)
    (fun a h hl => decTrackPb_enc a (k2 a h) hl)
  unfold decRoutePb
  rw [e1, getStr_vals, e2, g2, e3, getDbl_vals, e4, getStr_vals, e5, getBytes_vals, e6, getInt_vals _ k6]
  rfl

/-- The integers of `Device.Routes` are 64-bit integers. -/
def OkRoutesPb (m : RoutesPb F) : Prop :=
  (∀ a ∈ m.routes, OkRoutePb a)

theorem encRoutesPb_ok [WireFloat F] (m : RoutesPb F) : ∀ r ∈ encRoutesPb m, RecOk r := by
  unfold encRoutesPb
  exact field_ok (by decide) (repVals_ok _ _)

theorem decRoutesPb_enc [WireFloat F] (m : RoutesPb F) (hk : OkRoutesPb m) (hl : (printRecs (encRoutesPb m)).length < 2 ^ 63) :
    decRoutesPb (encRoutesPb m) = some m := by
  have k1 := hk
  have e1 : sel 1 (encRoutesPb m) = repVals encRoutePb m.routes := by simp [encRoutesPb]
  have g1 := getRep_vals (enc := encRoutePb) (dec := decRoutePb) (fun a _ => encRoutePb_ok a) (short_of_sel 1 hl e1)
    (fun a h hl => decRoutePb_enc a (k1 a h) hl)
  unfold decRoutesPb
  rw [e1, g1]
  rfl

theorem encSensorPb_ok [WireFloat F] (m : SensorPb F) : ∀ r ∈ encSensorPb m, RecOk r := by
  unfold encSensorPb
  repeat' apply append_ok
  · exact field_ok (by decide) (strVals_ok _)
  · exact field_ok (by decide) (strVals_ok _)
  · exact field_ok (by decide) (dblVals_ok _)
  · exact field_ok (by decide) (dblVals_ok _)

theorem decSensorPb_enc [WireFloat F] (m : SensorPb F) (_ : (printRecs (encSensorPb m)).length < 2 ^ 63) :
    decSensorPb (encSensorPb m) = some m := by
  have e1 : sel 1 (encSensorPb m) = strVals m.id := by simp [encSensorPb]
  have e2 : sel 2 (encSensorPb m) = strVals m.name := by simp [encSensorPb]
  have e3 : sel 3 (encSensorPb m) = dblVals m.valX := by simp [encSensorPb]
  have e4 : sel 4 (encSensorPb m) = dblVals m.valY := by simp [encSensorPb]
  unfold decSensorPb
  rw [e1, getStr_vals, e2, getStr_vals, e3, getDbl_vals, e4, getDbl_vals]
  rfl

/-- The integers of `Device.Navigator` are 64-bit integers. -/
def OkNavigatorPb (m : NavigatorPb) : Prop :=
  Int64Ok m.currentRouteIndex ∧ Int64Ok m.currentTrackIndex ∧ Int64Ok m.currentSegmentIndex

theorem encNavigatorPb_ok (m : NavigatorPb) : ∀ r ∈ encNavigatorPb m, RecOk r := by
  unfold encNavigatorPb
  repeat' apply append_ok
  · exact field_ok (by decide) (intVals_ok _)
  · exact field_ok (by decide) (intVals_ok _)
  · exact field_ok (by decide) (intVals_ok _)
  · exact field_ok (by decide) (strVals_ok _)
  · exact field_ok (by decide) (strVals_ok _)

theorem decNavigatorPb_enc (m : NavigatorPb) (hk : OkNavigatorPb m) (_ : (printRecs (encNavigatorPb m)).length < 2 ^ 63) :
    decNavigatorPb (encNavigatorPb m) = some m := by
  obtain ⟨k1, k2, k3⟩ := hk
  have e1 : sel 1 (encNavigatorPb m) = intVals m.currentRouteIndex := by simp [encNavigatorPb]
  have e2 : sel 2 (encNavigatorPb m) = intVals m.currentTrackIndex := by simp [encNavigatorPb]
  have e3 : sel 3 (encNavigatorPb m) = intVals m.currentSegmentIndex := by simp [encNavigatorPb]
  have e4 : sel 4 (encNavigatorPb m) = strVals m.currentRouteId := by simp [encNavigatorPb]
  have e5 : sel 5 (encNavigatorPb m) = strVals m.currentTrackId := by simp [encNavigatorPb]
  unfold decNavigatorPb
  rw [e1, getInt_vals _ k1, e2, getInt_vals _ k2, e3, getInt_vals _ k3, e4, getStr_vals, e5, getStr_vals]
  rfl

theorem encDistancePb_ok [WireFloat F] (m : DistancePb F) : ∀ r ∈ encDistancePb m, RecOk r := by
  unfold encDistancePb
  repeat' apply append_ok
  · exact field_ok (by decide) (dblVals_ok _)
  · exact field_ok (by decide) (dblVals_ok _)
  · exact field_ok (by decide) (dblVals_ok _)
  · exact field_ok (by decide) (dblVals_ok _)
  · exact field_ok (by decide) (dblVals_ok _)
  · exact field_ok (by decide) (dblVals_ok _)
  · exact field_ok (by decide) (dblVals_ok _)
  · exact field_ok (by decide) (dblVals_ok _)

theorem decDistancePb_enc [WireFloat F] (m : DistancePb F) (_ : (printRecs (encDistancePb m)).length < 2 ^ 63) :
    decDistancePb (encDistancePb m) = some m := by
  have e1 : sel 1 (encDistancePb m) = dblVals m.distance := by simp [encDistancePb]
  have e2 : sel 2 (encDistancePb m) = dblVals m.currentDistance := by simp [encDistancePb]
  have e3 : sel 3 (encDistancePb m) = dblVals m.routeDistance := by simp [encDistancePb]
  have e4 : sel 4 (encDistancePb m) = dblVals m.currentRouteDistance := by simp [encDistancePb]
  have e5 : sel 5 (encDistancePb m) = dblVals m.trackDistance := by simp [encDistancePb]
  have e6 : sel 6 (encDistancePb m) = dblVals m.currentTrackDistance := by simp [encDistancePb]
  have e7 : sel 7 (encDistancePb m) = dblVals m.segmentDistance := by simp [encDistancePb]
  have e8 : sel 8 (encDistancePb m) = dblVals m.currentSegmentDistance := by simp [encDistancePb]
  unfold decDistancePb
  rw [e1, getDbl_vals, e2, getDbl_vals, e3, getDbl_vals, e4, getDbl_vals, e5, getDbl_vals, e6, getDbl_vals,
    e7, getDbl_vals, e8, getDbl_vals]
  rfl

/-- The integers of `Device.Location.DMS` are 64-bit integers. -/
def OkDmsPb (m : DmsPb F) : Prop :=
  Int64Ok m.degrees ∧ Int64Ok m.minutes

theorem encDmsPb_ok [WireFloat F] (m : DmsPb F) : ∀ r ∈ encDmsPb m, RecOk r := by
  unfold encDmsPb
  repeat' apply append_ok
  · exact field_ok (by decide) (intVals_ok _)
  · exact field_ok (by decide) (intVals_ok _)
  · exact field_ok (by decide) (dblVals_ok _)
  · exact field_ok (by decide) (strVals_ok _)

theorem decDmsPb_enc [WireFloat F] (m : DmsPb F) (hk : OkDmsPb m) (_ : (printRecs (encDmsPb m)).length < 2 ^ 63) :
    decDmsPb (encDmsPb m) = some m := by
  obtain ⟨k1, k2⟩ := hk
  have e1 : sel 1 (encDmsPb m) = intVals m.degrees := by simp [encDmsPb]
  have e2 : sel 2 (encDmsPb m) = intVals m.minutes := by simp [encDmsPb]
  have e3 : sel 3 (encDmsPb m) = dblVals m.seconds := by simp [encDmsPb]
  have e4 : sel 4 (encDmsPb m) = strVals m.direction := by simp [encDmsPb]
  unfold decDmsPb
  rw [e1, getInt_vals _ k1, e2, getInt_vals _ k2, e3, getDbl_vals, e4, getStr_vals]
  rfl

/-- The integers of `Device.Location.UTM` are 64-bit integers. -/
def OkUtmPb (m : UtmPb F) : Prop :=
  Int64Ok m.longZone ∧ Int64Ok m.srid

theorem encUtmPb_ok [WireFloat F] (m : UtmPb F) : ∀ r ∈ encUtmPb m, RecOk r := by
  unfold encUtmPb
  repeat' apply append_ok
  · exact field_ok (by decide) (dblVals_ok _)
  · exact field_ok (by decide) (dblVals_ok _)
  · exact field_ok (by decide) (dblVals_ok _)
  · exact field_ok (by decide) (intVals_ok _)
  · exact field_ok (by decide) (strVals_ok _)
  · exact field_ok (by decide) (strVals_ok _)
  · exact field_ok (by decide) (intVals_ok _)

theorem decUtmPb_enc [WireFloat F] (m : UtmPb F) (hk : OkUtmPb m) (_ : (printRecs (encUtmPb m)).length < 2 ^ 63) :
    decUtmPb (encUtmPb m) = some m := by
  obtain ⟨k4, k7⟩ := hk
  have e1 : sel 1 (encUtmPb m) = dblVals m.centralMeridian := by simp [encUtmPb]
  have e2 : sel 2 (encUtmPb m) = dblVals m.easting := by simp [encUtmPb]
  have e3 : sel 3 (encUtmPb m) = dblVals m.northing := by simp [encUtmPb]
  have e4 : sel 4 (encUtmPb m) = intVals m.longZone := by simp [encUtmPb]
  have e5 : sel 5 (encUtmPb m) = strVals m.latZone := by simp [encUtmPb]
  have e6 : sel 6 (encUtmPb m) = strVals m.hemisphere := by simp [encUtmPb]
  have e7 : sel 7 (encUtmPb m) = intVals m.srid := by simp [encUtmPb]
  unfold decUtmPb
  rw [e1, getDbl_vals, e2, getDbl_vals, e3, getDbl_vals, e4, getInt_vals _ k4, e5, getStr_vals,
    e6, getStr_vals, e7, getInt_vals _ k7]
  rfl

/-- The integers of `Device.Location` are 64-bit integers. -/
def OkLocationPb (m : LocationPb F) : Prop :=
  (∀ a, m.latDms = some a → OkDmsPb a) ∧ (∀ a, m.lonDms = some a → OkDmsPb a) ∧
  (∀ a, m.utm = some a → OkUtmPb a)

theorem encLocationPb_ok [WireFloat F] (m : LocationPb F) : ∀ r ∈ encLocationPb m, RecOk r := by
  unfold encLocationPb
  repeat' apply append_ok
  · exact field_ok (by decide) (dblVals_ok _)
  · exact field_ok (by decide) (dblVals_ok _)
  · exact field_ok (by decide) (dblVals_ok _)
  · exact field_ok (by decide) (dblVals_ok _)
  · exact field_ok (by decide) (msgVals_ok _ _)
  · exact field_ok (by decide) (msgVals_ok _ _)
  · exact field_ok (by decide) (msgVals_ok _ _)

theorem decLocationPb_enc [WireFloat F] (m : LocationPb F) (hk : OkLocationPb m) (hl : (printRecs (encLocationPb m)).length < 2 ^ 63) :
    decLocationPb (encLocationPb m) = some m := by
  obtain ⟨k12, k13, k14⟩ := hk
  have e1 : sel 1 (encLocationPb m) = dblVals m.lat := by simp [encLocationPb]
  have e2 : sel 2 (encLocationPb m) = dblVals m.lon := by simp [encLocationPb]
  have e3 : sel 3 (encLocationPb m) = dblVals m.elevation := by simp [encLocationPb]
  have e4 : sel 4 (encLocationPb m) = dblVals m.bearing := by simp [encLocationPb]
  have e12 : sel 12 (encLocationPb m) = msgVals encDmsPb m.latDms := by simp [encLocationPb]
  have e13 : sel 13 (encLocationPb m) = msgVals encDmsPb m.lonDms := by simp [encLocationPb]
  have e14 : sel 14 (encLocationPb m) = msgVals encUtmPb m.utm := by simp [encLocationPb]
  have g12 := getMsg_vals (enc := encDmsPb) (dec := decDmsPb) (fun a _ => encDmsPb_ok a) (short_of_sel 12 hl e12)
    (fun a h hl => decDmsPb_enc a (k12 a h) hl)
  have g13 := getMsg_vals (enc := encDmsPb) (dec := decDmsPb) (fun a _ => encDmsPb_ok a) (short_of_sel 13 hl e13)
    (fun a h hl => decDmsPb_enc a (k13 a h) hl)
  have g14 := getMsg_vals (enc := encUtmPb) (dec := decUtmPb) (fun a _ => encUtmPb_ok a) (short_of_sel 14 hl e14)
    (fun a h hl => decUtmPb_enc a (k14 a h) hl)
  unfold decLocationPb
  rw [e1, getDbl_vals, e2, getDbl_vals, e3, getDbl_vals, e4, getDbl_vals, e12, g12, e13, g13, e14, g14]
  rfl

theorem encUnitPb_ok (m : UnitPb) : ∀ r ∈ encUnitPb m, RecOk r := by
  unfold encUnitPb
  repeat' apply append_ok
  · exact field_ok (by decide) (strVals_ok _)
  · exact field_ok (by decide) (strVals_ok _)
  · exact field_ok (by decide) (strVals_ok _)
  · exact field_ok (by decide) (strVals_ok _)

theorem decUnitPb_enc (m : UnitPb) (_ : (printRecs (encUnitPb m)).length < 2 ^ 63) :
    decUnitPb (encUnitPb m) = some m := by
  have e1 : sel 1 (encUnitPb m) = strVals m.distance := by simp [encUnitPb]
  have e2 : sel 2 (encUnitPb m) = strVals m.speed := by simp [encUnitPb]
  have e3 : sel 3 (encUnitPb m) = strVals m.time := by simp [encUnitPb]
  have e4 : sel 4 (encUnitPb m) = strVals m.elevation := by simp [encUnitPb]
  unfold decUnitPb
  rw [e1, getStr_vals, e2, getStr_vals, e3, getStr_vals, e4, getStr_vals]
  rfl

/-- The integers of `Device` are 64-bit integers. -/
def OkDevicePb (m : DevicePb F) : Prop :=
  (∀ a, m.battery = some a → OkBatteryPb a) ∧ (∀ a, m.routes = some a → OkRoutesPb a) ∧
  (∀ a, m.location = some a → OkLocationPb a) ∧ (∀ a, m.navigator = some a → OkNavigatorPb a) ∧
  Int64Ok m.offlineDuration

theorem encDevicePb_ok [WireFloat F] (m : DevicePb F) : ∀ r ∈ encDevicePb m, RecOk r := by
  unfold encDevicePb
  repeat' apply append_ok
  · exact field_ok (by decide) (strVals_ok _)
  · exact field_ok (by decide) (strVals_ok _)
  · exact field_ok (by decide) (dblVals_ok _)
  · exact field_ok (by decide) (dblVals_ok _)
  · exact field_ok (by decide) (strVals_ok _)
  · exact field_ok (by decide) (dblVals_ok _)
  · exact field_ok (by decide) (msgVals_ok _ _)
  · exact field_ok (by decide) (msgVals_ok _ _)
  · exact field_ok (by decide) (msgVals_ok _ _)
  · exact field_ok (by decide) (msgVals_ok _ _)
  · exact field_ok (by decide) (msgVals_ok _ _)
  · exact field_ok (by decide) (repVals_ok _ _)
  · exact field_ok (by decide) (strVals_ok _)
  · exact field_ok (by decide) (boolVals_ok _)
  · exact field_ok (by decide) (intVals_ok _)
  · exact field_ok (by decide) (strVals_ok _)
  · exact field_ok (by decide) (dblVals_ok _)
  · exact field_ok (by decide) (msgVals_ok _ _)

theorem decDevicePb_enc [WireFloat F] (m : DevicePb F) (hk : OkDevicePb m) (hl : (printRecs (encDevicePb m)).length < 2 ^ 63) :
    decDevicePb (encDevicePb m) = some m := by
  obtain ⟨k8, k9, k10, k11, k16⟩ := hk
  have e1 : sel 1 (encDevicePb m) = strVals m.id := by simp [encDevicePb]
  have e2 : sel 2 (encDevicePb m) = strVals m.userId := by simp [encDevicePb]
  have e3 : sel 3 (encDevicePb m) = dblVals m.tick := by simp [encDevicePb]
  have e4 : sel 4 (encDevicePb m) = dblVals m.duration := by simp [encDevicePb]
  have e5 : sel 5 (encDevicePb m) = strVals m.model := by simp [encDevicePb]
  have e6 : sel 6 (encDevicePb m) = dblVals m.speed := by simp [encDevicePb]
  have e7 : sel 7 (encDevicePb m) = msgVals encDistancePb m.distance := by simp [encDevicePb]
  have e8 : sel 8 (encDevicePb m) = msgVals encBatteryPb m.battery := by simp [encDevicePb]
  have e9 : sel 9 (encDevicePb m) = msgVals encRoutesPb m.routes := by simp [encDevicePb]
  have e10 : sel 10 (encDevicePb m) = msgVals encLocationPb m.location := by simp [encDevicePb]
  have e11 : sel 11 (encDevicePb m) = msgVals encNavigatorPb m.navigator := by simp [encDevicePb]
  have e12 : sel 12 (encDevicePb m) = repVals encSensorPb m.sensors := by simp [encDevicePb]
  have e14 : sel 14 (encDevicePb m) = strVals m.description := by simp [encDevicePb]
  have e15 : sel 15 (encDevicePb m) = boolVals m.isOffline := by simp [encDevicePb]
  have e16 : sel 16 (encDevicePb m) = intVals m.offlineDuration := by simp [encDevicePb]
  have e17 : sel 17 (encDevicePb m) = strVals m.color := by simp [encDevicePb]
  have e18 : sel 18 (encDevicePb m) = dblVals m.timeEstimate := by simp [encDevicePb]
  have e19 : sel 19 (encDevicePb m) = msgVals encUnitPb m.units := by simp [encDevicePb]
  have g7 := getMsg_vals (enc := encDistancePb) (dec := decDistancePb) (fun a _ => encDistancePb_ok a) (short_of_sel 7 hl e7)
    (fun a _ hl => decDistancePb_enc a hl)
  have g8 := getMsg_vals (enc := encBatteryPb) (dec := decBatteryPb) (fun a _ => encBatteryPb_ok a) (short_of_sel 8 hl e8)
    (fun a h hl => decBatteryPb_enc a (k8 a h) hl)
  have g9 := getMsg_vals (enc := encRoutesPb) (dec := decRoutesPb) (fun a _ => encRoutesPb_ok a) (short_of_sel 9 hl e9)
    (fun a h hl => decRoutesPb_enc a (k9 a h) hl)
  have g10 := getMsg_vals (enc := encLocationPb) (dec := decLocationPb) (fun a _ => encLocationPb_ok a) (short_of_sel 10 hl e10)
    (fun a h hl => decLocationPb_enc a (k10 a h) hl)
  have g11 := getMsg_vals (enc := encNavigatorPb) (dec := decNavigatorPb) (fun a _ => encNavigatorPb_ok a) (short_of_sel 11 hl e11)
    (fun a h hl => decNavigatorPb_enc a (k11 a h) hl)
  have g12 := getRep_vals (enc := encSensorPb) (dec := decSensorPb) (fun a _ => encSensorPb_ok a) (short_of_sel 12 hl e12)
    (fun a _ hl => decSensorPb_enc a hl)
  have g19 := getMsg_vals (enc := encUnitPb) (dec := decUnitPb) (fun a _ => encUnitPb_ok a) (short_of_sel 19 hl e19)
    (fun a _ hl => decUnitPb_enc a hl)
  unfold decDevicePb
  rw [e1, getStr_vals, e2, getStr_vals, e3, getDbl_vals, e4, getDbl_vals, e5, getStr_vals, e6, getDbl_vals,
    e7, g7, e8, g8, e9, g9, e10, g10, e11, g11, e12, g12, e14, getStr_vals, e15, getBool_vals,
    e16, getInt_vals _ k16, e17, getStr_vals, e18, getDbl_vals, e19, g19]
  rfl

/-- The integers of `Packet` are 64-bit integers. -/
def OkPacketPb (m : PacketPb F) : Prop :=
  (∀ a ∈ m.devices, OkDevicePb a) ∧ Int64Ok m.timestamp

theorem encPacketPb_ok [WireFloat F] (m : PacketPb F) : ∀ r ∈ encPacketPb m, RecOk r := by
  unfold encPacketPb
  repeat' apply append_ok
  · exact field_ok (by decide) (repVals_ok _ _)
  · exact field_ok (by decide) (intVals_ok _)

theorem decPacketPb_enc [WireFloat F] (m : PacketPb F) (hk : OkPacketPb m) (hl : (printRecs (encPacketPb m)).length < 2 ^ 63) :
    decPacketPb (encPacketPb m) = some m := by
  obtain ⟨k1, k2⟩ := hk
  have e1 : sel 1 (encPacketPb m) = repVals encDevicePb m.devices := by simp [encPacketPb]
  have e2 : sel 2 (encPacketPb m) = intVals m.timestamp := by simp [encPacketPb]
  have g1 := getRep_vals (enc := encDevicePb) (dec := decDevicePb) (fun a _ => encDevicePb_ok a) (short_of_sel 1 hl e1)
    (fun a h hl => decDevicePb_enc a (k1 a h) hl)
  unfold decPacketPb
  rw [e1, g1, e2, getInt_vals _ k2]
  rfl

end GpsGen
