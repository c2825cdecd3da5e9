import Verif.Lemmas.WireMsgs
/-!
# What was read from bytes can be written

Whatever the bytes are, a message read from them has 64-bit integers in all places. So the conditions of the
round trips hold for it.
-/

namespace GpsGen

variable {F : Type}

/-- A varint as it can be read: below 2^64. -/
def ReadOk : WireVal → Prop
  | .varint n => n < 2 ^ 64
  | _ => True

theorem getVarintAux_lt {k : Nat} {bs rest : Bytes} {n : Nat} (h : getVarintAux k bs = some (n, rest)) :
    n < 2 * 128 ^ k := by
  induction k generalizing bs n rest with
  | zero =>
    cases bs with
    | nil => cases h
    | cons b bs =>
      simp only [getVarintAux] at h
      split at h
      · simp only [Option.some.injEq, Prod.mk.injEq] at h
        omega
      · cases h
  | succ k ih =>
    have hp : 1 ≤ 128 ^ k := Nat.one_le_pow _ _ (by decide)
    cases bs with
    | nil => cases h
    | cons b bs =>
      simp only [getVarintAux] at h
      split at h
      · simp only [Option.some.injEq, Prod.mk.injEq] at h
        rw [pow_succ]
        omega
      · split at h
        · cases h
        · rename_i n' rest' e
          have hi := ih e
          have hb : b.toNat < 256 := b.toNat_lt
          simp only [Option.some.injEq, Prod.mk.injEq] at h
          rw [pow_succ]
          omega

theorem getVarint_lt {bs rest : Bytes} {n : Nat} (h : getVarint bs = some (n, rest)) : n < 2 ^ 64 := by
  have := getVarintAux_lt h
  norm_num at this ⊢
  omega

theorem parseVal_read {wt : Nat} {bs rest : Bytes} {v : WireVal} (h : parseVal wt bs = some (v, rest)) : ReadOk v := by
  unfold parseVal at h
  split at h
  · rw [Option.map_eq_some_iff] at h
    obtain ⟨⟨n, r⟩, hg, e⟩ := h
    cases e
    exact getVarint_lt hg
  · rw [Option.map_eq_some_iff] at h
    obtain ⟨⟨n, r⟩, hg, e⟩ := h
    cases e
    trivial
  · split at h
    · cases h
    · split at h
      · cases h
        trivial
      · cases h
  · rw [Option.map_eq_some_iff] at h
    obtain ⟨⟨n, r⟩, hg, e⟩ := h
    cases e
    trivial
  · cases h

theorem parseRec_read {bs rest : Bytes} {r : Rec} (h : parseRec bs = some (r, rest)) : ReadOk r.2 := by
  unfold parseRec at h
  split at h
  · cases h
  · split at h
    · rw [Option.map_eq_some_iff] at h
      obtain ⟨⟨v, r'⟩, hg, e⟩ := h
      cases e
      exact parseVal_read hg
    · cases h

theorem parseAux_read {k : Nat} {bs : Bytes} {rs : List Rec} (h : parseAux k bs = some rs) :
    ∀ r ∈ rs, ReadOk r.2 := by
  induction k generalizing bs rs with
  | zero =>
    cases bs with
    | nil => cases h; intro r hr; cases hr
    | cons b bs => cases h
  | succ k ih =>
    cases bs with
    | nil => cases h; intro r hr; cases hr
    | cons b bs =>
      simp only [parseAux] at h
      split at h
      · cases h
      · rename_i r rest e
        rw [Option.map_eq_some_iff] at h
        obtain ⟨rs', hg, e'⟩ := h
        cases e'
        intro x hx
        rcases List.mem_cons.mp hx with rfl | hx
        · exact parseRec_read e
        · exact ih hg x hx

theorem parseRecs_read {bs : Bytes} {rs : List Rec} (h : parseRecs bs = some rs) : ∀ r ∈ rs, ReadOk r.2 :=
  parseAux_read h

theorem getInt_read {rs : List Rec} {n : Nat} {i : Int} (hr : ∀ r ∈ rs, ReadOk r.2)
    (h : getInt (sel n rs) = some i) : Int64Ok i := by
  have hv : (varints (sel n rs)).getLast?.getD 0 < 2 ^ 64 := by
    cases e : (varints (sel n rs)).getLast? with
    | none => exact (by decide : (0 : Nat) < 2 ^ 64)
    | some x =>
      have hm : x ∈ varints (sel n rs) := List.mem_of_getLast? e
      unfold varints at hm
      obtain ⟨v, hv, hx⟩ := List.mem_filterMap.mp hm
      cases v with
      | varint y => cases hx; exact hr _ (mem_of_sel hv)
      | fixed64 y => cases hx
      | bytes y => cases hx
      | fixed32 y => cases hx
  unfold getInt at h
  simp only [Option.some.injEq] at h
  unfold Int64Ok
  generalize (varints (sel n rs)).getLast?.getD 0 = x at h hv
  split at h <;> omega

theorem mapM_mem {α β : Type} {f : α → Option β} {l : List α} {l' : List β} (h : l.mapM f = some l') :
    ∀ b ∈ l', ∃ a ∈ l, f a = some b := by
  induction l generalizing l' with
  | nil => cases h; intro b hb; cases hb
  | cons a l ih =>
    rw [List.mapM_cons] at h
    obtain ⟨b, hb, h⟩ := Option.bind_eq_some_iff.mp h
    obtain ⟨bs, hbs, h⟩ := Option.bind_eq_some_iff.mp h
    cases h
    intro x hx
    rcases List.mem_cons.mp hx with rfl | hx
    · exact ⟨a, List.mem_cons_self, hb⟩
    · obtain ⟨y, hy, e⟩ := ih hbs x hx
      exact ⟨y, List.mem_cons_of_mem _ hy, e⟩

theorem getMsg_read {α : Type} {dec : List Rec → Option α} {vs : List WireVal} {o : Option α} {P : α → Prop}
    (hd : ∀ rs a, (∀ r ∈ rs, ReadOk r.2) → dec rs = some a → P a) (h : getMsg dec vs = some o) :
    ∀ a, o = some a → P a := by
  intro a ha
  unfold getMsg at h
  split at h
  · cases h; cases ha
  · obtain ⟨rs, hrs, h⟩ := Option.bind_eq_some_iff.mp h
    obtain ⟨a', hdec, h⟩ := Option.bind_eq_some_iff.mp h
    cases h
    cases ha
    refine hd _ _ ?_ hdec
    intro r hr
    obtain ⟨l, hl, hr⟩ := List.mem_flatten.mp hr
    obtain ⟨b, _, hb⟩ := mapM_mem hrs l hl
    exact parseRecs_read hb r hr

theorem getRep_read {α : Type} {dec : List Rec → Option α} {vs : List WireVal} {l : List α} {P : α → Prop}
    (hd : ∀ rs a, (∀ r ∈ rs, ReadOk r.2) → dec rs = some a → P a) (h : getRep dec vs = some l) :
    ∀ a ∈ l, P a := by
  intro a ha
  unfold getRep at h
  obtain ⟨b, _, hb⟩ := mapM_mem h a ha
  obtain ⟨rs, hrs, hb⟩ := Option.bind_eq_some_iff.mp hb
  exact hd _ _ (parseRecs_read hrs) hb

/-- Take a decoder apart into its fields. -/
local macro "fields" h:ident : tactic => `(tactic| (
  repeat (
    replace $h := Option.bind_eq_some_iff.mp $h
    rcases $h:ident with ⟨_, _, $h⟩)
  cases $h:ident))

theorem decCurve_read [WireFloat F] (rs : List Rec) (m : CurveMsg F) (hr : ∀ r ∈ rs, ReadOk r.2) (h : decCurve rs = some m) :
    OkCurve m := by
  unfold decCurve at h
  fields h
  exact getInt_read hr (by assumption)

theorem decCommon_read [WireFloat F] (rs : List Rec) (m : CommonMsg F) (_hr : ∀ r ∈ rs, ReadOk r.2) (h : decCommon rs = some m) :
    OkCommon m := by
  unfold decCommon at h
  fields h
  exact getMsg_read decCurve_read (by assumption)

theorem decBattery_read [WireFloat F] (rs : List Rec) (m : BatteryMsg F) (hr : ∀ r ∈ rs, ReadOk r.2) (h : decBattery rs = some m) :
    OkBattery m := by
  unfold decBattery at h
  fields h
  exact getInt_read hr (by assumption)

theorem decSensor_read [WireFloat F] (rs : List Rec) (m : SensorMsg F) (_hr : ∀ r ∈ rs, ReadOk r.2) (h : decSensor rs = some m) :
    OkSensor m := by
  unfold decSensor at h
  fields h
  exact getMsg_read decCurve_read (by assumption)

theorem decSegment_read [WireFloat F] (rs : List Rec) (m : SegmentMsg F) (hr : ∀ r ∈ rs, ReadOk r.2) (h : decSegment rs = some m) :
    OkSegment m := by
  unfold decSegment at h
  fields h
  exact ⟨getInt_read hr (by assumption), getInt_read hr (by assumption)⟩

theorem decTrack_read [WireFloat F] (rs : List Rec) (m : TrackMsg F Bytes) (hr : ∀ r ∈ rs, ReadOk r.2) (h : decTrack rs = some m) :
    OkTrack m := by
  unfold decTrack at h
  fields h
  exact ⟨getRep_read decSegment_read (by assumption), getInt_read hr (by assumption)⟩

theorem decRoute_read [WireFloat F] (rs : List Rec) (m : RouteMsg F Bytes) (hr : ∀ r ∈ rs, ReadOk r.2) (h : decRoute rs = some m) :
    OkRoute m := by
  unfold decRoute at h
  fields h
  exact ⟨getRep_read decTrack_read (by assumption), getInt_read hr (by assumption)⟩

theorem decNav_read [WireFloat F] (rs : List Rec) (m : NavMsg F Bytes) (hr : ∀ r ∈ rs, ReadOk r.2) (h : decNav rs = some m) :
    OkNav m := by
  unfold decNav at h
  fields h
  exact ⟨getRep_read decRoute_read (by assumption), getInt_read hr (by assumption),
    getInt_read hr (by assumption), getInt_read hr (by assumption), getInt_read hr (by assumption),
    getMsg_read decSensor_read (by assumption), getInt_read hr (by assumption), getInt_read hr (by assumption),
    getInt_read hr (by assumption)⟩

theorem decSnap_read [WireFloat F] (rs : List Rec) (m : SnapMsg F Bytes) (hr : ∀ r ∈ rs, ReadOk r.2) (h : decSnap rs = some m) :
    OkSnap m := by
  unfold decSnap at h
  fields h
  exact ⟨getInt_read hr (by assumption), getMsg_read decNav_read (by assumption),
    getMsg_read decCommon_read (by assumption), getMsg_read decBattery_read (by assumption),
    getRep_read decSensor_read (by assumption)⟩

theorem decSensors_read [WireFloat F] (rs : List Rec) (m : SensorsMsg F) (_hr : ∀ r ∈ rs, ReadOk r.2) (h : decSensors rs = some m) :
    OkSensors m := by
  unfold decSensors at h
  fields h
  exact getRep_read decSensor_read (by assumption)

theorem decRoutes_read [WireFloat F] (rs : List Rec) (m : RoutesMsg F) (_hr : ∀ r ∈ rs, ReadOk r.2) (h : decRoutes rs = some m) :
    OkRoutes m := by
  unfold decRoutes at h
  fields h
  exact getRep_read decRoute_read (by assumption)

theorem decBatteryPb_read [WireFloat F] (rs : List Rec) (m : BatteryPb F) (hr : ∀ r ∈ rs, ReadOk r.2) (h : decBatteryPb rs = some m) :
    OkBatteryPb m := by
  unfold decBatteryPb at h
  fields h
  exact getInt_read hr (by assumption)

theorem decTrackPb_read [WireFloat F] (rs : List Rec) (m : TrackPb F) (hr : ∀ r ∈ rs, ReadOk r.2) (h : decTrackPb rs = some m) :
    OkTrackPb m := by
  unfold decTrackPb at h
  fields h
  exact ⟨getInt_read hr (by assumption), getInt_read hr (by assumption)⟩

theorem decRoutePb_read [WireFloat F] (rs : List Rec) (m : RoutePb F) (hr : ∀ r ∈ rs, ReadOk r.2) (h : decRoutePb rs = some m) :
    OkRoutePb m := by
  unfold decRoutePb at h
  fields h
  exact ⟨getRep_read decTrackPb_read (by assumption), getInt_read hr (by assumption)⟩

theorem decRoutesPb_read [WireFloat F] (rs : List Rec) (m : RoutesPb F) (_hr : ∀ r ∈ rs, ReadOk r.2) (h : decRoutesPb rs = some m) :
    OkRoutesPb m := by
  unfold decRoutesPb at h
  fields h
  exact getRep_read decRoutePb_read (by assumption)

theorem decNavigatorPb_read (rs : List Rec) (m : NavigatorPb) (hr : ∀ r ∈ rs, ReadOk r.2) (h : decNavigatorPb rs = some m) :
    OkNavigatorPb m := by
  unfold decNavigatorPb at h
  fields h
  exact ⟨getInt_read hr (by assumption), getInt_read hr (by assumption), getInt_read hr (by assumption)⟩

theorem decDmsPb_read [WireFloat F] (rs : List Rec) (m : DmsPb F) (hr : ∀ r ∈ rs, ReadOk r.2) (h : decDmsPb rs = some m) :
    OkDmsPb m := by
  unfold decDmsPb at h
  fields h
  exact ⟨getInt_read hr (by assumption), getInt_read hr (by assumption)⟩

theorem decUtmPb_read [WireFloat F] (rs : List Rec) (m : UtmPb F) (hr : ∀ r ∈ rs, ReadOk r.2) (h : decUtmPb rs = some m) :
    OkUtmPb m := by
  unfold decUtmPb at h
  fields h
  exact ⟨getInt_read hr (by assumption), getInt_read hr (by assumption)⟩

theorem decLocationPb_read [WireFloat F] (rs : List Rec) (m : LocationPb F) (_hr : ∀ r ∈ rs, ReadOk r.2) (h : decLocationPb rs = some m) :
    OkLocationPb m := by
  unfold decLocationPb at h
  fields h
  exact ⟨getMsg_read decDmsPb_read (by assumption), getMsg_read decDmsPb_read (by assumption),
    getMsg_read decUtmPb_read (by assumption)⟩

theorem decDevicePb_read [WireFloat F] (rs : List Rec) (m : DevicePb F) (hr : ∀ r ∈ rs, ReadOk r.2) (h : decDevicePb rs = some m) :
    OkDevicePb m := by
  unfold decDevicePb at h
  fields h
  exact ⟨getMsg_read decBatteryPb_read (by assumption), getMsg_read decRoutesPb_read (by assumption),
    getMsg_read decLocationPb_read (by assumption), getMsg_read decNavigatorPb_read (by assumption),
    getInt_read hr (by assumption)⟩

theorem decPacketPb_read [WireFloat F] (rs : List Rec) (m : PacketPb F) (hr : ∀ r ∈ rs, ReadOk r.2) (h : decPacketPb rs = some m) :
    OkPacketPb m := by
  unfold decPacketPb at h
  fields h
  exact ⟨getRep_read decDevicePb_read (by assumption), getInt_read hr (by assumption)⟩

end GpsGen
