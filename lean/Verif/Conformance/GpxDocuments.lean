import Verif.Conformance.Documents
import Verif.Model.XmlText
/-!
# The tests of GPX documents, replayed

gpx/encoding_test.go `TestDecodeExistingRoutes` and `TestDecodeNewRoutes`: the documents of gpx/testdata, read by the model of the XML
reader and decoded in doubles, with the results that the tests expect. Numbers of at most 64 bits in the notation of JSON are read like
JSON numbers.
-/

namespace GpsGen
namespace Conformance
namespace GpxDocumentTest
open F64 DocumentTest

/-- `strconv.ParseFloat` for decimal numbers. -/
def decimal (s : String) : Option F64 :=
  match readJson (F := F64) s.toList with
  | some (.num x) => some x
  | _ => none

/-- The functions for numbers; only reading is used. -/
def text : GpxText F64 := ⟨decimal, fun _ => "", fun _ => "", fun _ => "", id⟩

/-- `Decode`; no names with characters beyond ASCII are used. -/
def gpx (cs : List Char) : Go (Option (Except Err (List (Route F64)))) :=
  gpxDecodeText ⟨fun _ => false, fun _ => false⟩ text gen cs

/-- An error. -/
def refused (r : Go (Option (Except Err (List (Route F64))))) : Bool :=
  match r with | .ok none => true | .ok (some (.error _)) => true | _ => false
/-- Routes that pass a check. -/
def accepted (r : Go (Option (Except Err (List (Route F64))))) (p : List (Route F64) → Bool) : Bool :=
  match r with | .ok (some (.ok rs)) => p rs | _ => false

/-- No data, and data that is no document. -/
example : refused (gpx []) = true := by decide +kernel
example : refused (gpx ['s', 'o', 'm', 'e', 'd', 'a', 't', 'a']) = true := by decide +kernel

/-- gpx/testdata/restore_no_segments.gpx -/
def restoreNoSegments : String := r##"<?xml version="1.0" encoding="UTF-8"?>
<gpx  xmlns="http://www.topografix.com/GPX/1/1" version="1.1" creator="https://github.com/tkrajina/gpxgo">
        <metadata>
                <author>
                        <name>go-gpsgen</name>
                </author>
        </metadata>
        <trk>
                <trkseg>
                        
                </trkseg>
                <trkseg>
                        
                </trkseg>
                <trkseg>
                        
                </trkseg>
        </trk>
        <trk>
                <trkseg>
                       
                </trkseg>
                <trkseg>
                       
                </trkseg>
        </trk>
        <extensions>
                <gpsgen>
                        <route id="df1d84dc-2516-4384-b477-a271c9b3fadb" color="#b730a1" distance="5300.990639691627" units="meters" foo="1" baz="true" ing="123" val="val">
                                <track color="#c51520" distance="1990.2240332037318">03a902c3-43a4-4f73-9bbe-b82a344e2ddc</track>
                                <track color="#e5a43f" distance="2121.450689846222">e2264223-21a2-473a-943c-7dcd7fc29537</track>
                                <track color="#8011e5" distance="1189.315916641673">7f5451e3-46c8-40ca-8bf4-b10ed4e39819</track>
                        </route>
                        <route id="b979991c-3c75-4636-9aa7-02cadac3a09d" color="#1837d4" distance="3310.766606487895" units="meters">
                                <track color="#8011e5" distance="1189.315916641673">7f5451e3-46c8-40ca-8bf4-b10ed4e39819</track>
                                <track color="#e5a43f" distance="2121.450689846222">e2264223-21a2-473a-943c-7dcd7fc29537</track>
                        </route>
                </gpsgen>
        </extensions>
</gpx>"##

set_option maxRecDepth 100000 in
example : refused (gpx restoreNoSegments.toList) = true := by
  rw [show restoreNoSegments = String.ofList _ from rfl, String.toList_ofList]
  decide +kernel

/-- gpx/testdata/restore_invalid_route_props.gpx -/
def restoreInvalidRouteProps : String := r##"<?xml version="1.0" encoding="UTF-8"?>
<gpx  xmlns="http://www.topografix.com/GPX/1/1" version="1.1" creator="https://github.com/tkrajina/gpxgo">
        <metadata>
                <author>
                        <name>go-gpsgen</name>
                </author>
        </metadata>
        <trk>
                <trkseg>
                        <trkpt lat="29.5336285618" lon="106.4579227646"></trkpt>
                        <trkpt lat="29.5293997918" lon="106.4579227646"></trkpt>
                        <trkpt lat="29.5293997918" lon="106.4633480839"></trkpt>
                        <trkpt lat="29.5336285618" lon="106.4633480839"></trkpt>
                        <trkpt lat="29.5336285618" lon="106.4579227646"></trkpt>
                </trkseg>
                <trkseg>
                        <trkpt lat="29.5336285618" lon="106.4657216611"></trkpt>
                        <trkpt lat="29.5291047548" lon="106.4657216611"></trkpt>
                        <trkpt lat="29.5291047548" lon="106.4714860629"></trkpt>
                        <trkpt lat="29.5336285618" lon="106.4714860629"></trkpt>
                        <trkpt lat="29.5336285618" lon="106.4657216611"></trkpt>
                </trkseg>
                <trkseg>
                        <trkpt lat="29.5282337993" lon="106.4660959904"></trkpt>
                        <trkpt lat="29.5266717342" lon="106.4718512872"></trkpt>
                        <trkpt lat="29.5233178071" lon="106.4669144042"></trkpt>
                </trkseg>
        </trk>
        <trk>
                <trkseg>
                        <trkpt lat="29.5282337993" lon="106.4660959904"></trkpt>
                        <trkpt lat="29.5266717342" lon="106.4718512872"></trkpt>
                        <trkpt lat="29.5233178071" lon="106.4669144042"></trkpt>
                </trkseg>
                <trkseg>
                        <trkpt lat="29.5336285618" lon="106.4657216611"></trkpt>
                        <trkpt lat="29.5291047548" lon="106.4657216611"></trkpt>
                        <trkpt lat="29.5291047548" lon="106.4714860629"></trkpt>
                        <trkpt lat="29.5336285618" lon="106.4714860629"></trkpt>
                        <trkpt lat="29.5336285618" lon="106.4657216611"></trkpt>
                </trkseg>
        </trk>
        <extensions>
                <gpsgen>
                        <route color="#b730a1" distance="5300.990639691627" units="meters" foo="1" baz="true" ing="123" val="val">
                                <track color="#c51520" distance="1990.2240332037318">03a902c3-43a4-4f73-9bbe-b82a344e2ddc</track>
                                <track color="#e5a43f" distance="2121.450689846222">e2264223-21a2-473a-943c-7dcd7fc29537</track>
                                <track color="#8011e5" distance="1189.315916641673">7f5451e3-46c8-40ca-8bf4-b10ed4e39819</track>
                        </route>
                        <route color="#1837d4" distance="3310.766606487895" units="meters">
                                <track color="#8011e5" distance="1189.315916641673">7f5451e3-46c8-40ca-8bf4-b10ed4e39819</track>
                                <track color="#e5a43f" distance="2121.450689846222">e2264223-21a2-473a-943c-7dcd7fc29537</track>
                        </route>
                </gpsgen>
        </extensions>
</gpx>"##

set_option maxRecDepth 100000 in
example : refused (gpx restoreInvalidRouteProps.toList) = true := by
  rw [show restoreInvalidRouteProps = String.ofList _ from rfl, String.toList_ofList]
  decide +kernel

/-- gpx/testdata/restore_no_tracks.gpx -/
def restoreNoTracks : String := r##"<?xml version="1.0" encoding="UTF-8"?>
<gpx  xmlns="http://www.topografix.com/GPX/1/1" version="1.1" creator="https://github.com/tkrajina/gpxgo">
        <metadata>
                <author>
                        <name>go-gpsgen</name>
                </author>
        </metadata>
        <trk>
                
        </trk>
        <trk>
                
        </trk>
        <extensions>
                <gpsgen>
                        <route id="df1d84dc-2516-4384-b477-a271c9b3fadb" color="#b730a1" distance="5300.990639691627" units="meters" foo="1" baz="true" ing="123" val="val">
       
                        </route>
                        <route id="b979991c-3c75-4636-9aa7-02cadac3a09d" color="#1837d4" distance="3310.766606487895" units="meters">

                        </route>
                </gpsgen>
        </extensions>
</gpx>"##

set_option maxRecDepth 100000 in
example : accepted (gpx restoreNoTracks.toList) (fun rs => rs.isEmpty) = true := by
  rw [show restoreNoTracks = String.ofList _ from rfl, String.toList_ofList]
  decide +kernel

/-- gpx/testdata/restore_broken_format.gpx -/
def restoreBrokenFormat : String := r##"<?xml version="1.0" encoding="UTF-8"?>
<gpx  xmlns="http://www.topografix.com/GPX/1/1" version="1.1" creator="https://github.com/tkrajina/gpxgo">
        <metadata>
                <author>
                        <name>go-gpsgen</name>
                </author>
        </metadata>
        <trk>
                <trkseg>
                        <trkpt lat="29.5336285618" lon="106.4579227646"></trkpt>
                        <trkpt lat="29.5293997918" lon="106.4579227646"></trkpt>
                        <trkpt lat="29.5293997918" lon="106.4633480839"></trkpt>
                        <trkpt lat="29.5336285618" lon="106.4633480839"></trkpt>
                        <trkpt lat="29.5336285618" lon="106.4579227646"></trkpt>
                </trkseg>
                <trkseg>
                        <trkpt lat="29.5336285618" lon="106.4657216611"></trkpt>
                        <trkpt lat="29.5291047548" lon="106.4657216611"></trkpt>
                        <trkpt lat="29.5291047548" lon="106.4714860629"></trkpt>
                        <trkpt lat="29.5336285618" lon="106.4714860629"></trkpt>
                        <trkpt lat="29.5336285618" lon="106.4657216611"></trkpt>
                </trkseg>
                <trkseg>
                        <trkpt lat="29.5282337993" lon="106.4660959904"></trkpt>
                        <trkpt lat="29.5266717342" lon="106.4718512872"></trkpt>
                        <trkpt lat="29.5233178071" lon="106.4669144042"></trkpt>
                </trkseg>
        </trk>
        <trk>
                <trkseg>
                        <trkpt lat="29.5282337993" lon="106.4660959904"></trkpt>
                        <trkpt lat="29.5266717342" lon="106.4718512872"></trkpt>
                        <trkpt lat="29.5233178071" lon="106.4669144042"></trkpt>
                </trkseg>
                <trkseg>
                        <trkpt lat="29.5336285618" lon="106.4657216611"></trkpt>
                        <trkpt lat="29.5291047548" lon="106.4657216611"></trkpt>
                        <trkpt lat="29.5291047548" lon="106.4714860629"></trkpt>
                        <trkpt lat="29.5336285618" lon="106.4714860629"></trkpt>
                        <trkpt lat="29.5336285618" lon="106.4657216611"></trkpt>
                </trkseg>
        </trk>
        <extensions>
                <gpsgen></gpsgen>
        </extensions>
</gpx>"##

set_option maxRecDepth 100000 in
example : refused (gpx restoreBrokenFormat.toList) = true := by
  rw [show restoreBrokenFormat = String.ofList _ from rfl, String.toList_ofList]
  decide +kernel

/-- gpx/testdata/restore.gpx -/
def restore : String := r##"<?xml version="1.0" encoding="UTF-8"?>
<gpx  xmlns="http://www.topografix.com/GPX/1/1" version="1.1" creator="https://github.com/tkrajina/gpxgo">
        <metadata>
                <author>
                        <name>go-gpsgen</name>
                </author>
        </metadata>
        <trk>
                <trkseg>
                        <trkpt lat="29.5336285618" lon="106.4579227646"></trkpt>
                        <trkpt lat="29.5293997918" lon="106.4579227646"></trkpt>
                        <trkpt lat="29.5293997918" lon="106.4633480839"></trkpt>
                        <trkpt lat="29.5336285618" lon="106.4633480839"></trkpt>
                        <trkpt lat="29.5336285618" lon="106.4579227646"></trkpt>
                </trkseg>
                <trkseg>
                        <trkpt lat="29.5336285618" lon="106.4657216611"></trkpt>
                        <trkpt lat="29.5291047548" lon="106.4657216611"></trkpt>
                        <trkpt lat="29.5291047548" lon="106.4714860629"></trkpt>
                        <trkpt lat="29.5336285618" lon="106.4714860629"></trkpt>
                        <trkpt lat="29.5336285618" lon="106.4657216611"></trkpt>
                </trkseg>
                <trkseg>
                        <trkpt lat="29.5282337993" lon="106.4660959904"></trkpt>
                        <trkpt lat="29.5266717342" lon="106.4718512872"></trkpt>
                        <trkpt lat="29.5233178071" lon="106.4669144042"></trkpt>
                </trkseg>
        </trk>
        <trk>
                <trkseg>
                        <trkpt lat="29.5282337993" lon="106.4660959904"></trkpt>
                        <trkpt lat="29.5266717342" lon="106.4718512872"></trkpt>
                        <trkpt lat="29.5233178071" lon="106.4669144042"></trkpt>
                </trkseg>
                <trkseg>
                        <trkpt lat="29.5336285618" lon="106.4657216611"></trkpt>
                        <trkpt lat="29.5291047548" lon="106.4657216611"></trkpt>
                        <trkpt lat="29.5291047548" lon="106.4714860629"></trkpt>
                        <trkpt lat="29.5336285618" lon="106.4714860629"></trkpt>
                        <trkpt lat="29.5336285618" lon="106.4657216611"></trkpt>
                </trkseg>
        </trk>
        <extensions>
                <gpsgen>
                        <route name="some" id="df1d84dc-2516-4384-b477-a271c9b3fadb" color="#b730a1" distance="5300.990639691627" units="meters" foo="1" baz="true" ing="123" val="val">
                                <track color="#c51520" distance="1990.2240332037318">03a902c3-43a4-4f73-9bbe-b82a344e2ddc</track>
                                <track color="#e5a43f" distance="2121.450689846222">e2264223-21a2-473a-943c-7dcd7fc29537</track>
                                <track color="#8011e5" distance="1189.315916641673">7f5451e3-46c8-40ca-8bf4-b10ed4e39819</track>
                        </route>
                        <route name="some" id="b979991c-3c75-4636-9aa7-02cadac3a09d" color="#1837d4" distance="3310.766606487895" units="meters">
                                <track color="#8011e5" distance="1189.315916641673">7f5451e3-46c8-40ca-8bf4-b10ed4e39819</track>
                                <track color="#e5a43f" distance="2121.450689846222">e2264223-21a2-473a-943c-7dcd7fc29537</track>
                        </route>
                </gpsgen>
        </extensions>
</gpx>"##

set_option maxRecDepth 100000 in
example : accepted (gpx restore.toList) (fun rs => numTracks rs == [3, 2] && (look rs).head?.map (fun r => (r.1, r.2.1, r.2.2.1)) ==
    some ("df1d84dc-2516-4384-b477-a271c9b3fadb", "#b730a1", 5300) && (look rs).head?.bind (fun r => r.2.2.2.head?) ==
    some ("03a902c3-43a4-4f73-9bbe-b82a344e2ddc", "#c51520", 1990, 4) &&
    (match rs.head? with
      | some r => r.name == "some" && (match r.props with
        | some m => PMap.getInt m "foo" == (1, true) && PMap.getBool m "baz" == (true, true) && PMap.getInt m "ing" == (123, true) &&
          PMap.getString m "val" == ("val", true)
        | none => false)
      | none => false)) = true := by
  rw [show restore = String.ofList _ from rfl, String.toList_ofList]
  decide +kernel

/-- gpx/testdata/new_tracks_without_points.gpx -/
def newTracksWithoutPoints : String := r##"<?xml version="1.0" encoding="UTF-8"?>
<gpx  xmlns="http://www.topografix.com/GPX/1/1" version="1.1" creator="https://github.com/tkrajina/gpxgo">
        <metadata>
                <author>
                        <name>go-gpsgen</name>
                </author>
        </metadata>
        <trk>
                <trkseg>
                        <trkpt lat="29.5336285618" lon="106.4579227646"></trkpt>
                </trkseg>
            
        </trk>
</gpx>"##

set_option maxRecDepth 100000 in
example : refused (gpx newTracksWithoutPoints.toList) = true := by
  rw [show newTracksWithoutPoints = String.ofList _ from rfl, String.toList_ofList]
  decide +kernel

/-- gpx/testdata/tracks.gpx -/
def tracks : String := r##"<?xml version="1.0" encoding="UTF-8"?>
<gpx
xmlns="http://www.topografix.com/GPX/1/1"
version="1.1"
creator="Wikipedia"
xmlns:xsi="http://www.w3.org/2001/XMLSchema-instance"
xsi:schemaLocation="http://www.topografix.com/GPX/1/1 http://www.topografix.com/GPX/1/1/gpx.xsd">
  <time>2011-09-22T18:56:51Z</time>
  <metadata>
    <name>Name</name>
    <desc>Description</desc>
    <author>
     <name>Autor</name>
    </author>
  </metadata>
  <trk>
    <name>exercise</name>
    <trkseg>
      <trkpt lat="55.74966429698134" lon="37.624339525581576"/>
      <trkpt lat="55.748482140161286" lon="37.62444198526788"/>
    </trkseg>
    <trkseg>
      <trkpt lat="55.74966429698134" lon="37.624339525581576"/>
      <trkpt lat="55.748482140161286" lon="37.62444198526788"/>
    </trkseg>
  </trk>
  <trk>
    <name>exercise</name>
    <trkseg>
      <trkpt lat="55.74966429698134" lon="37.624339525581576"/>
      <trkpt lat="55.748482140161286" lon="37.62444198526788"/>
    </trkseg>
    <trkseg>
      <trkpt lat="55.74966429698134" lon="37.624339525581576"/>
      <trkpt lat="55.748482140161286" lon="37.62444198526788"/>
    </trkseg>
  </trk>
</gpx>"##

set_option maxRecDepth 100000 in
example : accepted (gpx tracks.toList) (fun rs => numTracks rs == [2, 2]) = true := by
  rw [show tracks = String.ofList _ from rfl, String.toList_ofList]
  decide +kernel

/-- gpx/testdata/new_routes_without_points.gpx -/
def newRoutesWithoutPoints : String := r##"<?xml version="1.0" encoding="UTF-8"?>
<gpx
xmlns="http://www.topografix.com/GPX/1/1"
version="1.1"
creator="Wikipedia"
xmlns:xsi="http://www.w3.org/2001/XMLSchema-instance"
xsi:schemaLocation="http://www.topografix.com/GPX/1/1 http://www.topografix.com/GPX/1/1/gpx.xsd">
  <time>2011-09-22T18:56:51Z</time>
  <metadata>
    <name>Name</name>
    <desc>Description</desc>
    <author>
     <name>Autor</name>
    </author>
  </metadata>
  <rte>
      <rtept lat="55.74966429698134" lon="37.624339525581576"/>
  </rte>
</gpx>"##

set_option maxRecDepth 100000 in
example : refused (gpx newRoutesWithoutPoints.toList) = true := by
  rw [show newRoutesWithoutPoints = String.ofList _ from rfl, String.toList_ofList]
  decide +kernel

/-- gpx/testdata/new_waypoints_without_points.gpx -/
def newWaypointsWithoutPoints : String := r##"<?xml version="1.0" encoding="UTF-8"?>
<gpx
xmlns="http://www.topografix.com/GPX/1/1"
version="1.1"
creator="Wikipedia"
xmlns:xsi="http://www.w3.org/2001/XMLSchema-instance"
xsi:schemaLocation="http://www.topografix.com/GPX/1/1 http://www.topografix.com/GPX/1/1/gpx.xsd">
  <time>2011-09-22T18:56:51Z</time>
  <metadata>
    <name>Name</name>
    <desc>Description</desc>
    <author>
     <name>Autor</name>
    </author>
  </metadata>
  <wpt lat="55.748482140161286" lon="37.62444198526788"/>
</gpx>"##

set_option maxRecDepth 100000 in
example : refused (gpx newWaypointsWithoutPoints.toList) = true := by
  rw [show newWaypointsWithoutPoints = String.ofList _ from rfl, String.toList_ofList]
  decide +kernel

/-- gpx/testdata/routes.gpx -/
def routes : String := r##"<?xml version="1.0" encoding="UTF-8"?>
<gpx
xmlns="http://www.topografix.com/GPX/1/1"
version="1.1"
creator="Wikipedia"
xmlns:xsi="http://www.w3.org/2001/XMLSchema-instance"
xsi:schemaLocation="http://www.topografix.com/GPX/1/1 http://www.topografix.com/GPX/1/1/gpx.xsd">
  <time>2011-09-22T18:56:51Z</time>
  <metadata>
    <name>Name</name>
    <desc>Description</desc>
    <author>
     <name>Autor</name>
    </author>
  </metadata>
  <rte>
      <rtept lat="55.74966429698134" lon="37.624339525581576"/>
      <rtept lat="55.748482140161286" lon="37.62444198526788"/>
  </rte>
</gpx>"##

set_option maxRecDepth 100000 in
example : accepted (gpx routes.toList) (fun rs => numTracks rs == [1]) = true := by
  rw [show routes = String.ofList _ from rfl, String.toList_ofList]
  decide +kernel

/-- gpx/testdata/waypoints.gpx -/
def waypoints : String := r##"<?xml version="1.0" encoding="UTF-8"?>
<gpx
xmlns="http://www.topografix.com/GPX/1/1"
version="1.1"
creator="Wikipedia"
xmlns:xsi="http://www.w3.org/2001/XMLSchema-instance"
xsi:schemaLocation="http://www.topografix.com/GPX/1/1 http://www.topografix.com/GPX/1/1/gpx.xsd">
  <time>2011-09-22T18:56:51Z</time>
  <metadata>
    <name>Name</name>
    <desc>Description</desc>
    <author>
     <name>Autor</name>
    </author>
  </metadata>
  <wpt lat="55.74966429698134" lon="37.624339525581576"/>
  <wpt lat="55.748482140161286" lon="37.62444198526788"/>
</gpx>"##

set_option maxRecDepth 100000 in
example : accepted (gpx waypoints.toList) (fun rs => numTracks rs == [1]) = true := by
  rw [show waypoints = String.ofList _ from rfl, String.toList_ofList]
  decide +kernel

end GpxDocumentTest
end Conformance
end GpsGen
