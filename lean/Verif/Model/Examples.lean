import Verif.Model.Readme
import Verif.Model.GeoText
import Verif.Model.XmlText
import Verif.Model.DeviceRead
/-!
# The example programs

The five programs of `examples/` that attach one drone to a generator, and `examples/serialize_device`, as functions of
what they draw at random. `examples/generator` is the program of the README (`Readme`) with a callback that prints.
-/

namespace GpsGen
namespace Examples
open Run

variable {F : Type}

/-- `gpsgen.New(nil)` (examples/addroute/default/main.go:15 and the others). -/
def config (cpus : Int) : Cfg := Cfg.new none cpus

/-- `gen.Attach(droneTracker)` (examples/addroute/default/main.go:46 and the others): the drone has address 0. -/
def world (d : Device F) : World F := ((Readme.blank d).attach 0 (some 0)).1

section
variable [GoMath F]

/-- A drone with sensors and routes: `NewDroneTracker`, `AddSensor`, `AddRoute` (examples/addsensor/main.go:28-47; the
programs in examples/addroute have no sensors). `none` if the preset is a nil pointer. -/
def drone (x : DeviceRnd F) (ss : List (Sensor F)) (rs : List (Route F)) : Option (Device F) := do
  let d ← Device.preset x DeviceOptions.drone
  let d := ss.foldl (fun d s => d.addSensor [some s]) d
  return (d.addRoute (rs.map some)).1

/-- The two points of examples/addroute/default/main.go:31-34. -/
def points : List (LatLon F) :=
  [⟨lit (4474332748947083 / 10 ^ 14), lit (6767893291456264 / 10 ^ 14)⟩,
   ⟨lit (48249999904172114 / 10 ^ 15), lit (6486705299207989 / 10 ^ 14)⟩]

/-- examples/addroute/default/main.go:31-38; the strings are generated ids and colours. -/
def byHand (track route : String × String) : Option (List (Route F)) :=
  match Track.new track.1 track.2 points with
  | .ok t => some [Route.fromTracks route.1 route.2 [some t]]
  | .error _ => none

/-- What `RandomRoute` draws. -/
structure RouteDraw (F : Type) where
  uid : String
  color : String
  name : Nat → Nat
  tracks : Nat → TrackRnd F

/-- `RandomRoute(28.31261399982, 53.247483804819666, 2, RouteLevelXL)` (examples/addroute/random/main.go:29,
examples/addsensor/main.go:46, examples/serialize_device/main.go:13); level XL is 300 (route.go:15). -/
def randomly (x : RouteDraw F) : Option (List (Route F)) :=
  (randomRoute (lit (2831261399982 / 10 ^ 11)) (lit (53247483804819666 / 10 ^ 15)) 2 300 x.uid x.color x.name x.tracks).toOption.map
    fun r => [r]

/-- The three sensors of examples/addsensor/main.go:30-44. Modes are bits: default 2^15, start 2^14, end 2^13 (curve/curve.go:11-15). -/
def sensors (uid : Nat → String) (draws : Nat → Nat → F) : Option (List (Sensor F)) := do
  let s1 ← (Sensor.new (uid 0) (draws 0) "s1" (lit 1) (lit 10) 16 57344).toOption
  let s2 ← (Sensor.new (uid 1) (draws 1) "s2" (lit 10) (lit 20) 16 40960).toOption
  let s3 ← (Sensor.new (uid 2) (draws 2) "s3" (lit 20) (lit 30) 16 0).toOption
  return [s1, s2, s3]

end

/-- examples/addroute/geojson/main.go:57-92 `rawRoute`. -/
def geoText : String := "\n{\n\t\"type\": \"FeatureCollection\",\n\t\"features\": [\n\t  {\n\t\t\"type\": \"Feature\",\n\t\t\"properties\": {},\n\t\t\"geometry\": {\n\t\t  \"coordinates\": [\n\t\t\t[\n\t\t\t  -0.6848977007719554,\n\t\t\t  23.766026744995628\n\t\t\t],\n\t\t\t[\n\t\t\t  31.65172140776744,\n\t\t\t  -2.9361412054812916\n\t\t\t],\n\t\t\t[\n\t\t\t  67.67893291456264,\n\t\t\t  44.74332748947083\n\t\t\t],\n\t\t\t[\n\t\t\t  64.86705299207989,\n\t\t\t  48.249999904172114\n\t\t\t],\n\t\t\t[\n\t\t\t  28.31261399982,\n\t\t\t  53.247483804819666\n\t\t\t]\n\t\t  ],\n\t\t  \"type\": \"LineString\"\n\t\t}\n\t  }\n\t]\n  }\n"

/-- examples/addroute/gpx/main.go:57-95 `rawRoute`. -/
def gpxDocument : String := "\n<?xml version=\"1.0\" encoding=\"UTF-8\"?>\n<gpx xmlns:xsi=\"http://www.w3.org/2001/XMLSchema-instance\" xmlns=\"http://www.topografix.com/GPX/1/1\" xsi:schemaLocation=\"http://www.topografix.com/GPX/1/1 http://www.topografix.com/GPX/1/1/gpx.xsd http://www.garmin.com/xmlschemas/GpxExtensions/v3 http://www.garmin.com/xmlschemas/GpxExtensionsv3.xsd http://www.garmin.com/xmlschemas/TrackPointExtension/v1 http://www.garmin.com/xmlschemas/TrackPointExtensionv1.xsd http://www.topografix.com/GPX/gpx_style/0/2 http://www.topografix.com/GPX/gpx_style/0/2/gpx_style.xsd\" xmlns:gpxtpx=\"http://www.garmin.com/xmlschemas/TrackPointExtension/v1\" xmlns:gpxx=\"http://www.garmin.com/xmlschemas/GpxExtensions/v3\" xmlns:gpx_style=\"http://www.topografix.com/GPX/gpx_style/0/2\" version=\"1.1\" creator=\"https://gpx.studio\">\n<metadata>\n    <name>new</name>\n    <author>\n        <name>gpx.studio</name>\n        <link href=\"https://gpx.studio\"></link>\n    </author>\n</metadata>\n<trk>\n    <name>new</name>\n    <type>Cycling</type>\n    <trkseg>\n    <trkpt lat=\"53.830488750300155\" lon=\"35.37857168666637\">\n        <ele>222.3</ele>\n    </trkpt>\n    <trkpt lat=\"54.753350433310544\" lon=\"39.90427062969353\">\n        <ele>0.0</ele>\n    </trkpt>\n    <trkpt lat=\"54.52457211739558\" lon=\"39.90427062969353\">\n        <ele>0.0</ele>\n    </trkpt>\n    <trkpt lat=\"52.19226382198787\" lon=\"43.8148260270665\">\n        <ele>0.0</ele>\n    </trkpt>\n    <trkpt lat=\"54.03735817275171\" lon=\"47.41780965161241\">\n        <ele>0.0</ele>\n    </trkpt>\n    <trkpt lat=\"52.727525690763485\" lon=\"51.67987564650206\">\n        <ele>0.0</ele>\n    </trkpt>\n    <trkpt lat=\"56.09915562942588\" lon=\"56.11769694015005\">\n        <ele>0.0</ele>\n    </trkpt>\n    </trkseg>\n</trk>\n</gpx>\n"

/-- examples/addroute/geojson/main.go:29: `DecodeGeoJSONRoutes` (io.go:106-108). -/
def fromGeo [GoMath F] [JsonFloat F] (gen : Nat → Nat → String × String) : Option (List (Route F)) :=
  match geoDecodeText gen (utf8 geoText) with
  | .ok (some rs) => some rs
  | _ => none

/-- `DecodeGPXRoutes` (io.go:116-118) without the error. -/
def readGpx [GoMath F] (N : XmlText.NameChars) (T : GpxText F) (gen : Nat → Nat → String × String) (cs : List Char) :
    Option (List (Route F)) :=
  match gpxDecodeText N T gen cs with
  | .ok (some (.ok rs)) => some rs
  | _ => none

/-- examples/addroute/gpx/main.go:29. -/
def fromGpx [GoMath F] (N : XmlText.NameChars) (T : GpxText F) (gen : Nat → Nat → String × String) : Option (List (Route F)) :=
  readGpx N T gen gpxDocument.toList

/-- What the callbacks do with a packet (examples/addroute/default/main.go:17-26): they take the first device and read
its location. `false` is a panic: no device, or a device without a location. A nil device is serialised as a message
without fields (C42). -/
def callback (content : Content F) : Bool :=
  match content.head? with
  | some (some _) => true
  | _ => false

/-- What the callback of examples/addsensor/main.go:16-26 does: it takes the first device and reads its sensors, of which
a message without fields has none. -/
def listens (content : Content F) : Bool := content.head?.isSome

end Examples
end GpsGen
