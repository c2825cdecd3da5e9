import Verif.Model.PacketBytes
import Verif.Theorems.C35
import Verif.Theorems.C69
import Verif.Lemmas.Toy
/-!
# C70: a subscriber who decodes a packet sees the devices

Any number type. The bytes of a packet, read with `PacketFromBytes`, give for every device of the packet a message that
shows the device as it is after its tick: place, speed, battery, sensors, distances, current route and attributes
(`client_sees`), and the routes with the properties in their JSON text (`routes_seen`). A packet is refused only if it
is empty and without a time stamp.
-/

namespace GpsGen
variable {F : Type}

namespace C70
open C35 Device

/-! ## Specification -/

/-- The device made a successful tick: any constructor options, any history without restored snapshots. -/
def Ticked [GoMath F] (d' : Device F) : Prop :=
  ∃ (rnd : DeviceRnd F) (o : Option (DeviceOptions F)) (d0 d : Device F) (ops : List (DevOp F)) (tick : F)
    (r : NextRnd F), (∀ op ∈ ops, C26.NoRestore op) ∧ Device.new rnd o = .ok d0 ∧ d0.run ops = .ok d ∧
    d.next tick r = .ok (d', true)

/-- The message shows the device. -/
structure Sees [GoFloat F] [UtmLib F] (m : DevicePb F) (d : Device F) : Prop where
  id : m.id = d.state.id
  userId : m.userId = d.state.userId
  model : m.model = d.state.model
  description : m.description = d.state.description
  color : m.color = d.state.color
  place : ∃ l, m.location = some l ∧ l.lat = d.navigator.point.lat ∧ l.lon = d.navigator.point.lon ∧
    l.elevation = d.navigator.elevation.valY
  utm : ∃ l u z, m.location = some l ∧ l.utm = some u ∧
    UtmLib.toUTM d.navigator.point.lat d.navigator.point.lon = (u.easting, u.northing, z) ∧
    u.longZone = z.number ∧ u.latZone.toList = [z.letter] ∧ (u.hemisphere = "N" ↔ z.north = true) ∧
    (u.hemisphere = "S" ↔ z.north = false) ∧ u.centralMeridian = z.centralMeridian ∧ u.srid = z.srid
  speed : m.speed = d.speed.value
  charge : ∃ b, m.battery = some b ∧ b.charge = d.battery.value
  sensors : m.sensors.map (fun p => (p.id, p.name, p.valX, p.valY)) =
    d.sensors.map (fun s => (s.id, s.name, s.valX, s.valY))
  isOffline : m.isOffline = true ↔ 0 < d.navigator.offlineIndex
  offlineDuration : m.offlineDuration = d.navigator.offlineIndex
  distance : ∃ x, m.distance = some x ∧ x.distance = d.navigator.distance ∧
    x.currentDistance = d.navigator.currentDistance ∧ x.currentRouteDistance = d.navigator.currentRouteDistance ∧
    x.currentTrackDistance = d.navigator.currentTrackDistance ∧
    x.currentSegmentDistance = d.navigator.currentSegmentDistance ∧
    (∀ r, theRoute d.navigator = some r → x.routeDistance = r.dist) ∧
    (∀ t, theTrack d.navigator = some t → x.trackDistance = t.dist) ∧
    (∀ s, theSegment d.navigator = some s → (s.dist ==. lit 0) = false → x.segmentDistance = s.dist)
  route : ∃ x, m.navigator = some x ∧ x.currentRouteIndex = d.navigator.routeIndex ∧
    x.currentTrackIndex = d.navigator.trackIndex ∧ x.currentSegmentIndex = d.navigator.segmentIndex ∧
    (∀ r, theRoute d.navigator = some r → x.currentRouteId = r.id) ∧
    (∀ t, theTrack d.navigator = some t → x.currentTrackId = t.id)
  bearing : ∃ l, m.location = some l ∧
    ∀ s, theSegment d.navigator = some s → (s.dist ==. lit 0) = false → l.bearing = s.bearing
  units : m.units = some ⟨"meters", "meter per second", "seconds", "meters"⟩

/-- The messages of devices, each with the routes it was refreshed from. -/
def messages [GoFloat F] [JsonFloat F] [UtmLib F] (xs : List (Device F × List (Route F))) : List (DevicePb F) :=
  xs.map fun x => x.1.state.pb x.2

/-- The object in the bytes of published properties. -/
def readPub [GoFloat F] [JsonFloat F] (bs : Bytes) : Option (JObj F) :=
  match readProps (F := F) bs with
  | .object o => some o
  | _ => none

/-- A published track, its properties read. -/
def readTrack [GoFloat F] [JsonFloat F] (m : TrackPb F) : TrackPub F :=
  ⟨m.trackId, m.distance, m.numSegments, m.color, readPub m.props, m.propsCount⟩

/-- A published route, its properties read. -/
def readRoute [GoFloat F] [JsonFloat F] (m : RoutePb F) : RoutePub F :=
  ⟨m.routeId, m.tracks.map readTrack, m.distance, m.color, readPub m.props, m.propsCount⟩

/-! ## Proof -/

theorem direction [GoMath F] (pos neg : String) (v : F) (h1 : pos ≠ "") (h2 : neg ≠ "") :
    (toDMS pos neg v).direction ≠ "" := by
  unfold toDMS
  simp only
  split
  · exact h1
  · exact h2

/-- After a successful tick the published directions are written. -/
theorem next_direction [GoMath F] {d d' : Device F} {tick : F} {r : NextRnd F}
    (h : d.next tick r = .ok (d', true)) :
    d'.state.loc.latDms.direction ≠ "" := by
  cases Device.next_outcome h with
  | moved _ n1 n2 n3 speed sensors d2 _ h1 h2 h3 h4 h5 hd2 h6 =>
    obtain ⟨st, h7, rfl⟩ := Device.updateState_eq h6
    show st.loc.latDms.direction ≠ ""
    unfold Navigator.update at h7
    obtain ⟨_, _, h7⟩ := bind_eq_ok h7
    obtain ⟨_, _, h7⟩ := bind_eq_ok h7
    obtain ⟨_, _, h7⟩ := bind_eq_ok h7
    obtain ⟨_, _, h7⟩ := bind_eq_ok h7
    obtain ⟨_, _, h7⟩ := bind_eq_ok h7
    obtain ⟨_, _, h7⟩ := bind_eq_ok h7
    cases h7
    exact direction _ _ _ (by decide) (by decide)

theorem setUTM_spec [UtmLib F] (lat lon : F) : ∃ z : UtmZone F,
    UtmLib.toUTM lat lon = ((setUTM lat lon).easting, (setUTM lat lon).northing, z) ∧
    (setUTM lat lon).longZone = z.number ∧ (setUTM lat lon).latZone.toList = [z.letter] ∧
    ((setUTM lat lon).hemisphere = "N" ↔ z.north = true) ∧ ((setUTM lat lon).hemisphere = "S" ↔ z.north = false) ∧
    (setUTM lat lon).centralMeridian = z.centralMeridian ∧ (setUTM lat lon).srid = z.srid := by
  unfold setUTM
  rcases UtmLib.toUTM lat lon with ⟨e, n, ⟨nu, le, no, ce, sr⟩⟩
  refine ⟨_, rfl, rfl, ?_, ?_, ?_, rfl, rfl⟩
  · simp
  · cases no <;> simp
  · cases no <;> simp

/-- The message of a device after a successful tick shows the device. -/
theorem ticked_sees [GoMath F] [JsonFloat F] [UtmLib F] (d : Device F) (h : Ticked d) (rs : List (Route F)) :
    Sees (d.state.pb rs) d := by
  obtain ⟨rnd, o, d0, d1, ops, tick, r, hn, h0, hr, hx⟩ := h
  obtain ⟨a, b, hs, hc, hv⟩ := next_mirrors_partial rnd o d0 d1 d ops hn h0 hr tick r hx
  have hd := next_direction hx
  have hu : d.state.loc.pb.utm = some (setUTM d.navigator.point.lat d.navigator.point.lon) := by
    unfold LocPub.pb
    simp only [if_neg hd, a.lat, a.lon]
  exact {
    id := rfl, userId := rfl, model := rfl, description := rfl, color := rfl
    place := ⟨_, rfl, a.lat, a.lon, a.elevation⟩
    utm := by
      obtain ⟨z, hz⟩ := setUTM_spec d.navigator.point.lat d.navigator.point.lon
      exact ⟨_, _, z, rfl, hu, hz⟩
    speed := hv
    charge := ⟨_, rfl, hc⟩
    sensors := by
      rw [show (d.state.pb rs).sensors = d.state.sensors.map fun p => ⟨p.id, p.name, p.valX, p.valY⟩ from rfl,
        List.map_map]
      exact hs
    isOffline := a.isOffline
    offlineDuration := a.offlineDuration
    distance := ⟨_, rfl, a.distance, a.currentDistance, a.currentRouteDistance, a.currentTrackDistance,
      a.currentSegmentDistance, fun r hr => by rw [show _ = d.state.dist.routeDistance from rfl, a.routeDistance, hr]; rfl,
      fun t ht => by rw [show _ = d.state.dist.trackDistance from rfl, a.trackDistance, ht]; rfl,
      fun s hs h0 => (a.segment s hs h0).1⟩
    route := ⟨_, rfl, a.routeIndex, a.trackIndex, a.segmentIndex, b.1, b.2⟩
    bearing := ⟨_, rfl, fun s hs h0 => (a.segment s hs h0).2⟩
    units := rfl }

/-- **C70.** Decoding the bytes a worker delivers gives, in order, one message for every device of its slice, and
every message shows its device. The integers of messages are 64-bit ones (`OkPacketPb`). -/
theorem client_sees [GoMath F] [JsonFloat F] [UtmLib F] [WireFloat F] (now : Int)
    (xs : List (Device F × List (Route F))) (ht : ∀ x ∈ xs, Ticked x.1)
    (hk : OkPacketPb ⟨messages xs, now⟩)
    (hl : (packetBytes now (messages xs)).length < 2 ^ 63) (hne : xs ≠ []) :
    ∃ p, packetFromBytes (packetBytes now (messages xs)) = some p ∧ p.timestamp = now ∧
      p.devices.length = xs.length ∧
      ∀ (i : Nat) (x : Device F × List (Route F)), xs[i]? = some x → ∃ m, p.devices[i]? = some m ∧ Sees m x.1 := by
  refine ⟨_, C52.packetFromBytes_partial _ hk hl ?_, rfl, List.length_map _, ?_⟩
  · intro hz
    have := congrArg PacketPb.devices hz
    exact hne (by simpa [messages, C52.zeroPacket] using this)
  · intro i x hx
    refine ⟨x.1.state.pb x.2, ?_, ticked_sees _ (ht x (List.mem_of_getElem? hx)) _⟩
    show (messages xs)[i]? = _
    unfold messages
    rw [List.getElem?_map, hx]
    rfl

/-! ## Routes -/

section
variable [GoFloat F] [JsonFloat F]

theorem pub_read (m : PMap F) (h : ∀ e ∈ m, C69.Plain e.2) :
    readPub (F := F) (pubPropsBytes m) = pubProps m.sorted := by
  have hl : m.sorted.length = m.length := (C69.sorted_perm m).length_eq
  unfold pubPropsBytes pubProps
  rw [hl]
  by_cases h0 : m.length > 0
  · rw [if_pos h0, if_pos h0]
    unfold readPub
    rw [C69.props_bytes (some m) (by rintro _ ⟨⟩; exact h)]
    show (match (match m.sorted.marshal with | none => RawProps.empty | some o => .object o) with
      | .object o => some o
      | _ => none) = _
    cases m.sorted.marshal <;> rfl
  · rw [if_neg h0, if_neg h0]
    rfl

theorem track_read (t : Track F) (h : ∀ m, t.props = some m → ∀ e ∈ m, C69.Plain e.2) :
    readTrack (trackPb t) = pubTrack (C69.sortTrack t) := by
  unfold readTrack trackPb pubTrack C69.sortTrack Track.propsOf
  cases hp : t.props with
  | none => rfl
  | some m =>
    have hl : m.sorted.length = m.length := (C69.sorted_perm m).length_eq
    simp only [Option.map_some, pub_read m (h m hp), hl]
    rfl

theorem route_read (r : Route F) (h : C69.PlainRoute r) :
    readRoute (routePb r) = pubRoute (C69.sortRoute r) := by
  have ht : (r.tracks.map trackPb).map readTrack = (r.tracks.map C69.sortTrack).map pubTrack := by
    rw [List.map_map, List.map_map]
    exact List.map_congr_left fun t ht => track_read t (h.tracks t ht)
  unfold readRoute routePb pubRoute C69.sortRoute Route.propsOf
  cases hp : r.props with
  | none => simp only [Option.map_none, ht]; rfl
  | some m =>
    have hl : m.sorted.length = m.length := (C69.sorted_perm m).length_eq
    simp only [Option.map_some, pub_read m (h.own m hp), hl, ht]

end

/-- **C70, routes.** The decoded message of a device that was refreshed from routes `rs` with JSON values as properties
lists these routes: ids, lengths, colours, number of segments and properties. -/
theorem routes_seen [GoFloat F] [JsonFloat F] [UtmLib F] (s : DevState F) (rs : List (Route F))
    (h : ∀ r ∈ rs, C69.PlainRoute r) :
    ∃ q, (s.pb rs).routes = some q ∧ q.routes.map readRoute = (rs.map C69.sortRoute).map pubRoute := by
  refine ⟨_, rfl, ?_⟩
  rw [List.map_map, List.map_map]
  exact List.map_congr_left fun r hr => route_read r (h r hr)

/-! Examples. -/

/-- A library that puts everything into zone 37U. -/
local instance : UtmLib F64 := ⟨fun lat lon => (lat, lon, ⟨37, 'U', true, F64.round false 39, 32637⟩)⟩

/-- A published state with a sensor. -/
def exState : DevState F64 :=
  { DevState.init (F := F64) with
    id := "dev", speed := F64.round false 5, chargeTime := 300
    loc := ⟨F64.round false (111 / 2), F64.round false (75 / 2), F64.round false 100, F64.round false 0,
      ⟨55, 30, F64.round false 0, "N"⟩, ⟨37, 30, F64.round false 0, "E"⟩⟩
    sensors := [⟨"s", "fuel", F64.round false (1 / 4), F64.round false 3⟩] }

example : packetFromBytes (packetBytes 1700000000 [exState.pb [C69.exRoute], exState.pb []]) =
    some (⟨[exState.pb [C69.exRoute], exState.pb []], 1700000000⟩ : PacketPb F64) := by decide +kernel

example : (setUTM exState.loc.lat exState.loc.lon).latZone = "U" ∧
    (setUTM exState.loc.lat exState.loc.lon).hemisphere = "N" := by decide +kernel

example : readRoute (routePb C69.exRoute) = pubRoute (C69.sortRoute C69.exRoute) := by decide +kernel

/-- A device that made a tick, and the place it publishes. -/
def exTick : Option (Device Toy × Bool) :=
  (Toy.dev [.addRoute [some Toy.route], .next (Toy.of 1) Toy.nextRnd]).bind fun d =>
    (d.next (Toy.of 1) Toy.nextRnd).toOption

example : exTick.map (·.2) = some true := by decide +kernel

example : exTick.map (fun x => decide (x.1.state.loc.lat = x.1.navigator.point.lat ∧
    x.1.state.loc.latDms.direction ≠ "" ∧ x.1.navigator.currentSegmentDistance ≠ Toy.of 0)) = some true := by decide +kernel

end C70
end GpsGen
