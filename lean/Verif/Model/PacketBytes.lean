import Verif.Model.JsonText
import Verif.Model.Device
/-!
# The message of a device and the bytes of a packet

The `proto.Device` message that `State()` returns, complete with units, UTM coordinates and the JSON text of properties,
and the bytes a worker hands to `onPacket`.

Simplification: the UTM library (github.com/icholy/utm) is a parameter.
-/

namespace GpsGen
variable {F : Type}

/-- `utm.Zone`, with the answers of its methods `CentralMeridian` and `SRID`. -/
structure UtmZone (F : Type) where
  number : Int
  letter : Char
  north : Bool
  centralMeridian : F
  srid : Int
  deriving DecidableEq, Repr

/-- `utm.ToUTM`: easting, northing and zone of latitude and longitude. -/
class UtmLib (F : Type) where
  toUTM : F → F → F × F × UtmZone F

/-- navigator/location.go:46-59 `setUTM`. -/
def setUTM [UtmLib F] (lat lon : F) : UtmPb F :=
  let (e, n, z) := UtmLib.toUTM lat lon
  let hemisphere := if z.north then "N" else "S"
  ⟨z.centralMeridian, e, n, z.number, String.singleton z.letter, hemisphere, z.srid⟩

/-- device.go:930-935: the units, which are never written again. -/
def deviceUnits : UnitPb := ⟨"meters", "meter per second", "seconds", "meters"⟩

section
variable [GoFloat F] [JsonFloat F]

/-- device.go:862-865 and 869-872: the bytes of published properties. -/
def pubPropsBytes (m : PMap F) : Bytes := if m.length > 0 then writeProps (some m) else []

/-- device.go:866-880: one published track. -/
def trackPb (t : Track F) : TrackPb F :=
  let p := t.propsOf.2
  ⟨t.id, t.dist, t.numSegments, t.color, pubPropsBytes p, p.length⟩

/-- device.go:859-891: one published route. -/
def routePb (r : Route F) : RoutePb F :=
  let p := r.propsOf.2
  ⟨r.id, r.tracks.map trackPb, r.dist, r.color, pubPropsBytes p, p.length⟩

end

/-- A `DMS` message. -/
def DMS.pb (d : DMS F) : DmsPb F := ⟨d.degrees, d.minutes, d.seconds, d.direction⟩

/-- The location message. navigator/navigator.go:357-366 writes all of it at once, and nothing else writes it; before
that it is as device.go:925-929 makes it, without directions. -/
def LocPub.pb [GoFloat F] [UtmLib F] (l : LocPub F) : LocationPb F :=
  ⟨l.lat, l.lon, l.elevation, l.bearing, some l.latDms.pb, some l.lonDms.pb,
    some (if l.latDms.direction = "" then ⟨lit 0, lit 0, lit 0, 0, "", "", 0⟩ else setUTM l.lat l.lon)⟩

/-- The message of a published state; `rs` are the routes from which `updateRoutes` (device.go:857-893) filled it last. -/
def DevState.pb [GoFloat F] [JsonFloat F] [UtmLib F] (s : DevState F) (rs : List (Route F)) : DevicePb F where
  id := s.id
  userId := s.userId
  tick := s.tick
  duration := s.duration
  model := s.model
  speed := s.speed
  distance := some ⟨s.dist.distance, s.dist.currentDistance, s.dist.routeDistance, s.dist.currentRouteDistance,
    s.dist.trackDistance, s.dist.currentTrackDistance, s.dist.segmentDistance, s.dist.currentSegmentDistance⟩
  battery := some ⟨s.charge, s.chargeTime⟩
  routes := some ⟨rs.map routePb⟩
  location := some s.loc.pb
  navigator := some ⟨s.nav.currentRouteIndex, s.nav.currentTrackIndex, s.nav.currentSegmentIndex, s.nav.currentRouteId,
    s.nav.currentTrackId⟩
  sensors := s.sensors.map fun p => ⟨p.id, p.name, p.valX, p.valY⟩
  description := s.description
  isOffline := s.isOffline
  offlineDuration := s.offlineDuration
  color := s.color
  timeEstimate := s.timeEstimate
  units := some deviceUnits

/-- generator.go:288-293: the bytes a worker gives to `onPacket` for the device messages of its slice. -/
def packetBytes [WireFloat F] (now : Int) (ds : List (DevicePb F)) : Bytes := protoMarshal encPacketPb ⟨ds, now⟩

end GpsGen
