{"id": "C01", "title": "A track is exactly its polyline", "statement": "NewTrack(points) succeeds exactly when at least two points are given; the resulting track has len(points)-1 segments, segment i runs from points[i] to points[i+1] (index i), consecutive segments share an end point, and reading the segment end points back yields the original point list. RestoreTrack behaves the same and additionally rejects an empty id.", "quantifier": "every finite list of points of any length, every float64 coordinate including NaN, every id", "why_tests_cant": "Point lists are unbounded; tests try lists of two to eight points.", "anchors": ["navigator/route_track.go:NewTrack", "navigator/route_track.go:RestoreTrack", "navigator/route_track_segment.go:makeSegments", "geojson/feature_collection.go:copyPoints", "gpx/encoding.go:copyPoints"]}
{"id": "C02", "title": "Track and route length are the sum of their parts", "statement": "Track.Distance() always equals the sum of its segments' distances and, after any sequence of AddTrack / RemoveTrack / TrackByID / ChangeName / ChangeColor calls, Route.Distance() equals the sum of the distances of the tracks the route currently holds.", "quantifier": "every point list, every finite history of route operations, every track set", "why_tests_cant": "The sum must survive every interleaving of additions and removals, not a handful of scripted ones.", "anchors": ["navigator/route.go:updateState", "navigator/route.go:AddTrack", "navigator/route.go:RemoveTrack", "navigator/route_track_segment.go:makeSegments"]}
{"id": "C03", "title": "Navigator total distance is the sum of its routes", "statement": "After any history of navigator operations Distance() equals the sum of Distance() over Routes().", "quantifier": "every history of AddRoute, RemoveRoute, ResetRoutes, Reset, RemoveTrack, moves, ticks", "why_tests_cant": "Needs every history; in particular RemoveTrack after AddRoute, which no test follows by a Distance check.", "anchors": ["navigator/navigator.go:calcRouteDistance", "navigator/navigator.go:AddRoute", "navigator/navigator.go:RemoveRoute", "navigator/navigator.go:RemoveTrack"]}
{"id": "C04", "title": "IsClosed means the track returns to its start", "statement": "Track.IsClosed() is true exactly when the track was built from at least three points and its last point equals its first point.", "quantifier": "every point list", "why_tests_cant": "The wrong cases are a measure-zero set of coordinates that random tests never draw.", "anchors": ["navigator/route_track.go:isClosed"]}
{"id": "C05", "title": "Routes behave as an insertion-ordered set keyed by ID", "statement": "For every history of AddRoute / RemoveRoute / ResetRoutes the navigator's Routes() is the insertion-ordered list obtained by skipping nil routes and routes whose ID is already present, and removing the route with a given ID; in particular route IDs are always pairwise distinct, NumRoutes/RouteAt/RouteByID agree with that list.", "quantifier": "every finite history of route operations with arbitrary routes and ids", "why_tests_cant": "Needs induction over unbounded histories.", "anchors": ["navigator/navigator.go:AddRoute", "navigator/navigator.go:RemoveRoute", "navigator/navigator.go:ResetRoutes", "navigator/navigator.go:RouteByID", "navigator/navigator.go:hasRoute"]}
{"id": "C06", "title": "Every held route can be found and removed by its ID", "statement": "If a route is in Routes(), RouteByID(its ID) returns it and RemoveRoute(its ID) removes it and returns true; after removal the lookup fails. The same holds for tracks of a route.", "quantifier": "every navigator state, every route id string", "why_tests_cant": "Tests only use 36-byte UUIDs; the property must hold for every id that AddRoute accepts.", "anchors": ["navigator/navigator.go:RouteByID", "navigator/navigator.go:RemoveRoute", "navigator/route.go:TrackByID", "navigator/route.go:RemoveTrack"]}
{"id": "C07", "title": "Navigation never panics", "statement": "After any history of public navigator operations (adding/removing routes and tracks, moving, jumping, ticking, going offline, mutating a held route) every navigator getter and every further operation returns normally: the route index stays a valid index of Routes() whenever there is a route.", "quantifier": "every finite history of navigator operations, every argument", "why_tests_cant": "A panic needs a particular history (e.g. three routes and a jump into the third).", "anchors": ["navigator/navigator.go:CurrentRoute", "navigator/navigator.go:jump", "navigator/navigator.go:NextLocation", "navigator/navigator.go:ToOffline"]}
{"id": "C08", "title": "NextLocation always terminates", "statement": "NextLocation returns after at most NumSegments(current track)+1 iterations of its internal loop, from every navigator state (also stale or corrupt cursor positions) and for every tick and speed, including NaN and infinities.", "quantifier": "every navigator state, every tick and speed value", "why_tests_cant": "Termination for all states cannot be observed by running some states.", "anchors": ["navigator/navigator.go:NextLocation", "navigator/navigator.go:nextSegment"]}
{"id": "C09", "title": "Position stays within the current segment", "statement": "After every successful NextLocation the distance travelled in the current segment is at most the segment's length, the cursor addresses an existing non-empty segment, and the reported location is the point at that distance (1 m on the very first step of a track) along that segment.", "quantifier": "every navigator state, tick and speed", "why_tests_cant": "Needs every state and every float input.", "anchors": ["navigator/navigator.go:NextLocation", "navigator/navigator.go:isValidDistance", "navigator/navigator.go:updateDist"]}
{"id": "C10", "title": "Progress counters never exceed the totals", "statement": "CurrentTrackDistance <= TrackDistance, CurrentRouteDistance <= RouteDistance and CurrentDistance <= Distance (up to the 0.1 m restart marker), and all counters are non-negative, at all times.", "quantifier": "every history of adding/removing/resetting routes, ticks with non-negative tick*speed, offline switches (and, for the full property, moves)", "why_tests_cant": "Needs an inductive invariant relating four accumulators over unbounded histories.", "anchors": ["navigator/navigator.go:updateDist", "navigator/navigator.go:nextTrack", "navigator/navigator.go:nextRoute", "navigator/navigator.go:MoveToSegment"]}
{"id": "C11", "title": "The cursor visits tracks and routes in order", "statement": "A NextLocation call leaves the cursor in the same track at the same or a later segment, or moves it to the start of the next track of the route, or (from the last track) to the start of the next route, or (from the last track of the last route) to the start of the first route; no track or route is skipped.", "quantifier": "every navigator state with a valid cursor, every tick and speed", "why_tests_cant": "Tests follow one or two scripted switches.", "anchors": ["navigator/navigator.go:NextLocation", "navigator/navigator.go:nextSegment", "navigator/navigator.go:nextTrack", "navigator/navigator.go:nextRoute"]}
{"id": "C12", "title": "Every trip finishes", "statement": "If every call advances by at least some fixed positive distance, then from any state with a route a finite number of NextLocation calls completes the trip: the cursor returns to the first segment and IsFinish() reports true, no matter how offline periods are drawn.", "quantifier": "every navigator state, every sequence of ticks/speeds bounded below, every sequence of random offline draws", "why_tests_cant": "A liveness property over infinite schedules.", "anchors": ["navigator/navigator.go:NextLocation", "navigator/navigator.go:nextOffline", "navigator/navigator.go:IsFinish"]}
{"id": "C13", "title": "Offline periods freeze the device for exactly their duration", "statement": "While OfflineDuration() = k > 0, each NextLocation call returns false, changes nothing but decrements OfflineDuration by one, so that after exactly k calls the navigator is online at the unchanged position.", "quantifier": "every navigator state, every k, every tick and speed", "why_tests_cant": "k and the state range over unbounded sets.", "anchors": ["navigator/navigator.go:nextOffline", "navigator/navigator.go:ToOffline", "navigator/navigator.go:NextLocation"]}
{"id": "C14", "title": "SkipOffline devices never go offline", "statement": "A navigator created with SkipOfflineMode is never offline, after any history of operations.", "quantifier": "every history of navigator operations", "why_tests_cant": "Needs induction over all histories.", "anchors": ["navigator/navigator.go:ToOffline", "navigator/options.go:SkipOfflineMode", "navigator/navigator.go:nextOffline"]}
{"id": "C15", "title": "Offline duration respects the configured bounds", "statement": "If New accepts WithOffline(min,max), every offline period has a duration d with min <= d <= max (for 0<=min<=max), never negative and never above 3600.", "quantifier": "every accepted option pair, every random draw", "why_tests_cant": "The draw is random; tests sample it.", "anchors": ["navigator/options.go:validateOffline", "types/random.go:NewRandom", "types/random.go:Value"]}
{"id": "C16", "title": "IsFinish reports each completed lap exactly once", "statement": "IsFinish() returns true exactly once after each completed lap and false otherwise.", "quantifier": "every history of navigator (and device) operations", "why_tests_cant": "False positives need a particular accumulated distance; false negatives on Device need the interplay with Next.", "anchors": ["navigator/navigator.go:IsFinish", "navigator/navigator.go:nextRoute", "device.go:Next", "device.go:IsFinish"]}
{"id": "C17", "title": "MoveTo* moves exactly to existing targets", "statement": "MoveToSegment(r,t,s) returns true exactly when (r,t,s) addresses an existing segment different from the current position; then the cursor is (r,t,s), the location is that segment's start and the navigator is online; otherwise nothing changes. MoveToRoute, MoveToTrack, MoveToRouteByID, MoveToTrackByID, NextRoute and PrevRoute are the corresponding special cases.", "quantifier": "every navigator state, all integer indices including negative, every id", "why_tests_cant": "Index space is unbounded.", "anchors": ["navigator/navigator.go:MoveToSegment", "navigator/navigator.go:MoveToRoute", "navigator/navigator.go:MoveToTrackByID", "navigator/navigator.go:NextRoute", "navigator/navigator.go:PrevRoute"]}
{"id": "C18", "title": "DestinationTo positions the device at the requested distance", "statement": "For 1 <= x < Distance(), DestinationTo(x) returns true, CurrentDistance() becomes x, and the cursor addresses the route, track and segment that contain the point x metres along the concatenation of all routes, with the location at the remaining distance along that segment; for x >= Distance() the device is at the end of the last route.", "quantifier": "every set of routes, every x", "why_tests_cant": "Tests use one or two routes; the index arithmetic goes wrong from the third on.", "anchors": ["navigator/navigator.go:jump", "navigator/navigator.go:DestinationTo"]}
{"id": "C19", "title": "Structural changes always change the version", "statement": "Every operation that changes the set of routes, the tracks of a route, a name or a colour makes Version()/Sum() different from every earlier value, so a client comparing versions never misses a change.", "quantifier": "every history of route/track mutations", "why_tests_cant": "Different mutations could cancel in a sum of counters; only a proof excludes it for every history.", "anchors": ["navigator/navigator.go:Sum", "navigator/navigator.go:nextVersion", "navigator/route.go:nextVersion", "navigator/route_track.go:nextVersion", "device.go:isNotValidNS"]}
{"id": "C20", "title": "Published routes mirror the navigator", "statement": "After every successful Device.Next (and after Update) State().Routes lists exactly the navigator's current routes and tracks with their ids, distances, segment counts and colours, even when a held route was mutated between ticks.", "quantifier": "every history of device operations and direct mutations of held routes", "why_tests_cant": "Depends on the completeness of the version-sum change detection over all histories.", "anchors": ["device.go:updateRoutes", "device.go:Next", "device.go:isNotValidNS"]}
{"id": "C21", "title": "Routes survive a snapshot round trip", "statement": "Restoring a route, track or segment from its own snapshot yields an identical object (id, colour, name, distance, closedness, version, segments, properties), and DecodeRoutes(EncodeRoutes(routes)) returns routes identical to the input.", "quantifier": "every route reachable through the API", "why_tests_cant": "Unbounded nesting of routes, tracks, segments and property maps.", "anchors": ["navigator/route.go:Snapshot", "navigator/route.go:RouteFromSnapshot", "navigator/route_track.go:TrackFromSnapshot", "navigator/route_track_segment.go:SegmentFromSnapshot", "io.go:EncodeRoutes", "io.go:DecodeRoutes"]}
{"id": "C22", "title": "A navigator survives a snapshot round trip", "statement": "FromSnapshot(Snapshot()) into a new navigator reproduces the navigator: same routes, cursor, counters, location, elevation, offline state; and every subsequent operation with the same random draws returns the same results.", "quantifier": "every reachable navigator state and every continuation", "why_tests_cant": "Needs equality on all states and futures.", "anchors": ["navigator/navigator.go:Snapshot", "navigator/navigator.go:FromSnapshot"]}
{"id": "C23", "title": "A device survives EncodeTracker/DecodeTracker", "statement": "DecodeTracker(EncodeTracker(d)) is a stopped device with the same id, model, colour, description, user, duration, navigator, speed, battery and sensors, publishing the same state as d after Update, and it evolves like d from then on.", "quantifier": "every reachable device and every continuation under the same random draws", "why_tests_cant": "All states, all futures.", "anchors": ["io.go:EncodeTracker", "io.go:DecodeTracker", "device.go:Snapshot", "device.go:FromSnapshot"]}
{"id": "C24", "title": "Decoding never panics", "statement": "DecodeTracker, DecodeSensors, DecodeRoutes and DecodeGeoJSONRoutes return a value or an error on every input; they never panic.", "quantifier": "every byte string / every decoded protobuf or JSON document", "why_tests_cant": "The input space is infinite; negative tests use one malformed string.", "anchors": ["io.go:DecodeTracker", "device.go:FromSnapshot", "navigator/navigator.go:FromSnapshot", "types/speed.go:FromSnapshot", "geojson/encoding.go:parseGeometry"]}
{"id": "C25", "title": "Restoring a snapshot replaces the whole device state", "statement": "After FromSnapshot(s) the device (or navigator) depends only on s: nothing of the previous contents survives, and it remains usable.", "quantifier": "every previous state, every snapshot", "why_tests_cant": "Requires comparing all pairs of previous states.", "anchors": ["device.go:FromSnapshot", "navigator/navigator.go:FromSnapshot"]}
{"id": "C26", "title": "Sensors behave as an insertion-ordered set keyed by ID and are mirrored", "statement": "For every history of AddSensor / RemoveSensor / ResetSensors a device's sensors have pairwise distinct IDs in insertion order, SensorByID/SensorAt/NumSensors agree with that list, and State().Sensors mirrors it after every operation.", "quantifier": "every finite history of sensor operations", "why_tests_cant": "Induction over histories.", "anchors": ["device.go:AddSensor", "device.go:RemoveSensor", "device.go:ResetSensors", "device.go:updateSensors"]}
{"id": "C27", "title": "Speed stays within its bounds", "statement": "After at least one tick the device speed always lies in [min,max]; a constant-speed device always reports exactly min.", "quantifier": "every accepted min/max/amplitude, every random curve, every tick history, every reshuffle", "why_tests_cant": "Needs the convex-hull property of the generated curve for every control polygon and parameter.", "anchors": ["types/speed.go:NewSpeed", "types/speed.go:Next", "curve/curve.go:Point", "curve/curve.go:Shuffle", "device.go:nextT"]}
{"id": "C28", "title": "Sensor and elevation values stay within their bounds", "statement": "Sensor and elevation values always lie between min and max after Next(t) for every t in [0,1], for every random curve and after every Shuffle; with start mode the value at t=0 is min, with end mode the value at t=1 is min; the X value is (amplitude-1)*t.", "quantifier": "every curve size, every random draw, every mode, every t in [0,1]", "why_tests_cant": "A continuum of parameters and random polygons.", "anchors": ["curve/curve.go:New", "curve/curve.go:Shuffle", "curve/curve.go:Point", "types/sensor.go:Next"]}
{"id": "C29", "title": "Evaluating a curve does not change it", "statement": "Curve.Point(t) depends only on t and the curve's control points, not on earlier evaluations: any sequence of evaluations gives the same results in any order and before and after a snapshot.", "quantifier": "every curve, every sequence of evaluations", "why_tests_cant": "Point mutates internal storage; only all sequences show independence.", "anchors": ["curve/curve.go:Point", "curve/curve.go:Snapshot"]}
{"id": "C30", "title": "The curve parameter stays in [0,1]", "statement": "The progress parameter a device feeds to its speed, elevation and sensor curves is always in [0,1].", "quantifier": "every device with routes of positive length, every history of non-negative ticks", "why_tests_cant": "Depends on the accumulated duration over unbounded histories.", "anchors": ["device.go:nextT", "device.go:calcAvgT", "device.go:Next"]}
{"id": "C31", "title": "Battery charge is bounded and monotone between recharges", "statement": "Battery.Value() always lies in [min,max] of the battery, never increases except through Reset, and reaches the low state after a full charge time; after Reset it is full.", "quantifier": "every accepted min/max/chargeTime, every sequence of non-negative Next and Reset", "why_tests_cant": "Unbounded histories of real-valued increments.", "anchors": ["types/battery.go:NewBattery", "types/battery.go:Value", "types/battery.go:Next", "types/battery.go:IsLow", "types/battery.go:Reset"]}
{"id": "C32", "title": "Constructors accept exactly the documented parameter ranges", "statement": "NewSpeed, NewSensor, RestoreSensor, NewBattery, NewModel, ParseName, navigator.New and NewDevice return an error exactly for parameters outside the documented ranges, and an accepted object satisfies the documented ranges.", "quantifier": "all parameter values including NaN and infinities, all strings", "why_tests_cant": "The parameter space is infinite and includes NaN.", "anchors": ["types/speed.go:NewSpeed", "types/sensor.go:NewSensor", "types/sensor.go:RestoreSensor", "types/battery.go:NewBattery", "types/model.go:NewModel", "navigator/types.go:ParseName", "navigator/options.go:validate", "device_options.go:applyFor"]}
{"id": "C33", "title": "Preset trackers are always created", "statement": "NewTracker, NewKidsTracker, NewAnimalTracker, NewBicycleTracker and NewDroneTracker never return nil.", "quantifier": "all random choices made during construction", "why_tests_cant": "Construction is randomised.", "anchors": ["device.go:NewTracker", "device_options.go:DefaultTrackerOptions"]}
{"id": "C34", "title": "Simulated time is conserved", "statement": "The sum of device duration and pending skipped time equals the sum of all ticks passed to Next since the last finish, also when calls are skipped because the device was locked.", "quantifier": "every history of successful, skipped and offline Next calls with arbitrary ticks", "why_tests_cant": "Skipped calls depend on the scheduler.", "anchors": ["device.go:Next", "device.go:incTick", "device.go:resetTick"]}
{"id": "C35", "title": "Published state mirrors the navigator", "statement": "After every successful Device.Next and after Update, State() reports exactly the navigator's distances, indices, current route/track ids, location, bearing, elevation, offline flag and the sensors' values.", "quantifier": "every device state and operation history", "why_tests_cant": "All states.", "anchors": ["navigator/navigator.go:Update", "device.go:updateState", "device.go:updateOfflineState"]}
{"id": "C36", "title": "A device is attached at most once", "statement": "For every history of Attach/Detach over any number of generators, a device is attached to at most one generator and at most once, is Running exactly while attached, and attaching a running device fails without effect.", "quantifier": "every history of Attach/Detach over any set of devices and generators (and, for the full property, restores)", "why_tests_cant": "Induction over histories of several generators.", "anchors": ["generator.go:Attach", "generator.go:Detach", "device.go:mount", "device.go:unmount"]}
{"id": "C37", "title": "Generator lookups agree with attached devices", "statement": "After any history, Lookup(id)/HasTracker(id) succeed exactly when a device with that id is attached, Detach(id) removes exactly one device with that id and keeps the order of the others, NumDevices counts the attached devices.", "quantifier": "every history of Attach/Detach, every id", "why_tests_cant": "Induction over histories.", "anchors": ["generator.go:find", "generator.go:delete", "generator.go:Lookup", "generator.go:HasTracker"]}
{"id": "C38", "title": "Work slices partition the packet", "statement": "For every number of workers, packet size and fill level, the slices handed to the workers in one flush are in bounds, disjoint, in order and together cover exactly the filled part of the packet.", "quantifier": "all numWorkers >= 1, packetSize, index", "why_tests_cant": "Integer division edge cases over three unbounded parameters.", "anchors": ["generator.go:flush", "generator.go:doWorker"]}
{"id": "C39", "title": "Every attached device is delivered exactly once per tick", "statement": "In one tick without concurrent Attach/Detach, every attached device's state appears in exactly one delivered packet, in order.", "quantifier": "every number of devices, packet size and worker count", "why_tests_cant": "The default packet size is 8192; tests use 10 devices and never cross a packet boundary.", "anchors": ["generator.go:run", "generator.go:flush", "generator.go:doWorker"]}
{"id": "C40", "title": "Close always stops Run", "statement": "After Close, Run returns under every scheduling of its goroutines (given that callbacks return): no reachable state is stuck.", "quantifier": "every interleaving of the run loop, the workers, the notifier, Close, Attach and Detach, every number of workers and devices", "why_tests_cant": "The hang needs a particular race between Close and a mid-tick flush.", "anchors": ["generator.go:Close", "generator.go:Run", "generator.go:run", "generator.go:doWorker", "generator.go:doNext", "generator.go:flush"]}
{"id": "C41", "title": "The generator never deadlocks while running", "statement": "Before Close, in every reachable state either some goroutine can take a step or the generator is quiescent waiting for the next tick.", "quantifier": "every interleaving, every number of workers and devices", "why_tests_cant": "Scheduler dependent.", "anchors": ["generator.go:run", "generator.go:flush", "generator.go:doWorker"]}
{"id": "C42", "title": "Packets are serialised only while the run loop waits", "statement": "While the generator is open, a worker serialises device states only while the run loop is waiting for it, so every delivered packet contains the states of the current tick, with no device being advanced or slot overwritten meanwhile.", "quantifier": "every interleaving (and, for the full property, also after Close)", "why_tests_cant": "A race; needs all interleavings.", "anchors": ["generator.go:run", "generator.go:doWorker", "generator.go:flush", "generator.go:resetPacket"]}
{"id": "C43", "title": "OnNext is never called more often than ticks, and no tick goes unannounced", "statement": "The number of OnNext calls never exceeds the number of completed ticks, and while the generator is open, a completed tick is followed by an OnNext call that starts after it (notifications may coalesce).", "quantifier": "every interleaving", "why_tests_cant": "Scheduler dependent.", "anchors": ["generator.go:notifyNextTick", "generator.go:doNext"]}
{"id": "C44", "title": "GeoJSON encode/decode preserves routes", "statement": "DecodeGeoJSONRoutes(EncodeGeoJSONRoutes(routes)) returns the same routes: ids, colours, names, properties, and for every track its id, colour, name, properties and points.", "quantifier": "every list of routes", "why_tests_cant": "Round trip over an unbounded domain; tests compare only counts.", "anchors": ["geojson/feature_collection.go:ToFeatureCollection", "geojson/encoding.go:Decode", "geojson/encoding.go:parseGeometries", "geojson/encoding.go:parseGeometry"]}
{"id": "C45", "title": "GPX encode/decode preserves routes", "statement": "DecodeGPXRoutes(EncodeGPXRoutes(routes)) returns the same routes: ids, colours, names, properties, and for every track its id, colour, name, properties and points.", "quantifier": "every list of routes", "why_tests_cant": "Round trip over an unbounded domain; tests compare only counts.", "anchors": ["gpx/encoding.go:Encode", "gpx/encoding.go:Decode", "gpx/encoding.go:value"]}
{"id": "C46", "title": "Great-circle distance is a sane distance", "statement": "geo.Distance is symmetric, non-negative, at most half the Earth's circumference, zero exactly for coinciding points, and depends on longitudes only through their difference; distance/haversine conversions are mutually inverse.", "quantifier": "all coordinates", "why_tests_cant": "A continuum of inputs.", "anchors": ["geo/distance.go:Distance", "geo/distance.go:Haversine", "geo/distance.go:DistanceToHaversine", "geo/distance.go:DistanceFromHaversine"]}
{"id": "C47", "title": "Destination lies at the requested distance", "statement": "geo.Destination(p, m, bearing) is at great-circle distance m from p for 0 <= m <= half the circumference, has a latitude in [-90,90] and a longitude in [-180,180).", "quantifier": "all start points, bearings and distances", "why_tests_cant": "A continuum of inputs.", "anchors": ["geo/destination.go:Destination"]}
{"id": "C48", "title": "Walking a segment to its end reaches its end point", "statement": "Destination(A, Distance(A,B), Bearing(A,B)) = B (longitude normalised), Bearing is in [0,360); hence a segment's DestinationTo(its distance) is its end point and DestinationTo(0) its start point.", "quantifier": "all pairs of points with latitudes in (-90,90), not antipodal", "why_tests_cant": "A continuum of inputs.", "anchors": ["geo/destination.go:Destination", "geo/bearing.go:Bearing", "navigator/route_track_segment.go:DestinationTo"]}
{"id": "C49", "title": "Degrees-minutes-seconds output is exact", "statement": "The published DMS values satisfy 0 <= minutes < 60, 0 <= seconds < 60, degrees + minutes/60 + seconds/3600 equals the absolute coordinate, and the direction letter is the coordinate's sign.", "quantifier": "all coordinates", "why_tests_cant": "A continuum of inputs.", "anchors": ["navigator/location.go:setDMS"]}
{"id": "C50", "title": "Random geography stays in range", "statement": "LatLon() is a valid coordinate; LatLonByCountry(c) lies in BoundingBox(c) and succeeds for every country of EachCountry (any letter case); random polygons are closed with the requested number of sides; RandomRoute produces the requested number of closed tracks; random strings have the requested length over the charset.", "quantifier": "all random draws, all country codes, all parameters", "why_tests_cant": "Random output; tests sample.", "anchors": ["random/latlon.go:LatLonByCountry", "random/latlon.go:BoundingBox", "random/latlon.go:EachCountry", "random/polygon.go:Polygon", "random/string.go:String", "route.go:RandomRoute"]}
{"id": "C51", "title": "Properties behave as a typed map", "statement": "Set/Remove/Merge/Reset act as on a finite map (last write wins, Merge overrides, other keys untouched) and a typed getter succeeds exactly when the stored value has that type, returning the stored value.", "quantifier": "every map, key and value", "why_tests_cant": "All maps and all sequences of updates.", "anchors": ["properties/properties.go:Merge", "properties/properties.go:Set", "properties/properties.go:Remove", "properties/properties.go:Int"]}
{"id": "C52", "title": "Snapshots survive the wire format", "statement": "Serialising a snapshot or packet to bytes and parsing it back yields the same message, for every message size.", "quantifier": "every snapshot / packet message", "why_tests_cant": "Unbounded messages; varint and length-prefix edge cases.", "anchors": ["io.go:EncodeTracker", "device.go:MarshalBinary", "device.go:UnmarshalBinary", "encoding.go:PacketFromBytes", "proto/snapshot.proto", "proto/gpsgen.proto"]}
{"id": "C53", "title": "Decoding GPX never panics", "statement": "DecodeGPXRoutes returns routes or an error on every document; it never panics.", "quantifier": "every parsed GPX document", "why_tests_cant": "The tests decode a handful of files; mismatched extension nodes and segments are unboundedly many.", "anchors": ["gpx/encoding.go:Decode", "gpx/encoding.go:validateRoutes"]}
{"id": "C54", "title": "Device operations never panic", "statement": "On a device built and driven only through its public API, no operation panics: getters, Next, Update, Move, the route and sensor editing calls, SetTick, Snapshot/FromSnapshot of another such device, EncodeTracker and DecodeTracker all return.", "quantifier": "every reachable device, every operation, every history", "why_tests_cant": "A panic needs a particular sequence of route edits, moves and ticks; histories are unbounded.", "anchors": ["device.go:Next", "device.go:Update", "device.go:DestinationTo", "device.go:FromSnapshot", "io.go:EncodeTracker", "io.go:DecodeTracker"]}
{"id": "C55", "title": "A step covers the distance tick x speed", "statement": "A call of NextLocation with tick t and speed v moves the device by exactly t*v metres along its route, and the odometers count exactly the metres covered, until the end of the track.", "quantifier": "every reachable navigator, tick, speed", "why_tests_cant": "The error shows only at segment boundaries and on the first step; positions depend on real-valued distances.", "anchors": ["navigator/navigator.go:NextLocation", "navigator/navigator.go:nextSegment", "navigator/navigator.go:CurrentDistance"]}
{"id": "C56", "title": "Documents of other programs are imported line by line", "statement": "Decoding a GeoJSON or GPX document that carries no gpsgen data gives one route per feature, GPX track or GPX route, in document order, with one track per line along exactly its points; every line of the document becomes a track; the document is refused exactly if a line has fewer than two points or a geometry type is unsupported.", "quantifier": "every parsed document", "why_tests_cant": "The tests decode a few sample files; mixtures of geometry types and of GPX routes, tracks and way points are unboundedly many.", "anchors": ["geojson/encoding.go:Decode", "geojson/encoding.go:parseGeometries", "geojson/encoding.go:parseGeometry", "gpx/encoding.go:Decode", "gpx/encoding.go:makePoints"]}
{"id": "C57", "title": "Methods that take only the read lock do not change the device", "statement": "A device method that holds the read lock returns the same value to every reader who calls it between two writes, whatever other read-locked methods ran in between and in whatever order, and leaves the device as it was. (The claim fails: IsFinish clears the lap mark while holding only the read lock, so one reader takes the mark from the others, several concurrent readers may all see it, and readings change without a write.)", "quantifier": "all devices, all sequences and interleavings of the 34 read-locked methods", "why_tests_cant": "Tests call one getter at a time on one device; they cannot try all interleavings of concurrent readers.", "anchors": ["device.go:IsFinish", "device.go:Location", "device.go:Sensors", "navigator/navigator.go:IsFinish"]}
{"id": "C58", "title": "A snapshot taken while the device is in use is one of its states", "statement": "If Snapshot runs while other goroutines call operations of the device, it returns the snapshot of a state the device was in between its call and its return. (The claim fails: the state, the navigator, the speed, the battery and the number of sensors are read without the lock. A Next in between gives a snapshot of no state of the device, an added sensor makes Snapshot panic, a removed one gives a snapshot that cannot be decoded.)", "quantifier": "all histories of devices, all moments in them at which the parts are read", "why_tests_cant": "The result depends on the moments at which six parts are read relative to other goroutines; a test sees a few schedules, and the existing ones take snapshots of idle devices only.", "anchors": ["device.go:Snapshot", "device.go:AddSensor", "device.go:RemoveSensor", "io.go:DecodeTracker"]}
{"id": "C59", "title": "Device attributes change only through their setters", "statement": "The id, user id, model, description and colour of a device are at any time those given at creation (generated where the id, model or colour was left empty) as changed by the setters called and the snapshots restored since; each setter changes exactly its own attribute, refuses models outside 3..64 bytes and invalid colours with an error and no change, and no other operation, in particular no Next, Update, route or sensor operation, changes any attribute. The id changes only by restoring a snapshot.", "quantifier": "all options, all devices, all histories of operations, any number type", "why_tests_cant": "Tests set one attribute and read it back at once; that no other of the some thirty operations, in any order, disturbs an attribute needs induction over histories.", "anchors": ["device.go:SetModel", "device.go:SetUserID", "device.go:SetDescription", "device.go:SetColor", "device.go:NewDevice", "device_options.go:applyFor", "types/model.go:NewModel"]}
{"id": "C60", "title": "A device stays within the ranges of its options for its whole life", "statement": "At every moment of the life of a device created with ordered ranges, through any operations with non-negative ticks and restores from snapshots of such devices, the published speed and elevation are 0 (not yet published) or within the configured bounds, the published charge is 0 or between the minimum and 100, the charge time is the configured one in seconds, the number of offline ticks is below the configured maximum, and the device says it is offline exactly while that number is positive. In particular each preset tracker (default, kids, animal, bicycle, drone) stays within its documented ranges.", "quantifier": "all options with ordered ranges, all random draws, all histories of operations and restores, exact arithmetic", "why_tests_cant": "Tests look at a few ticks of one device; the bound must survive every interleaving of ticks, laps, offline periods, resets and restores, and every random draw.", "anchors": ["device.go:NewDevice", "device.go:Next", "device.go:updateState", "device.go:FromSnapshot", "device_options.go:NewDeviceOptions", "device.go:NewTracker", "device.go:NewDroneTracker"]}
{"id": "C61", "title": "The curves of a device follow the elapsed fraction of its trip", "statement": "One Next drains the battery, moves the device and evaluates the speed, elevation and sensor curves for one and the same elapsed time (the tick plus the seconds of missed ticks), and evaluates the curves at elapsed/trip time, at most 1, where the trip time is the total distance at the mean of the speed bounds. (The fraction fails: Next has already added the tick to the duration when nextT adds it again, so the curves run one tick ahead.)", "quantifier": "all devices, all ticks and draws; the first part and the trip time for any number type, the fraction in exact arithmetic for all reachable devices", "why_tests_cant": "The curve parameter is not observable directly and the curves are random, so tests only see plausible speeds; being one tick ahead looks like ordinary noise.", "anchors": ["device.go:Next", "device.go:nextT", "device.go:calcAvgT", "device.go:updateRoutes"]}
{"id": "C62", "title": "A device recharges when its battery is low, and publishes the charge", "statement": "The battery loses charge in proportion to simulated time and only through Next; when it becomes low it is recharged at once and a device that does not skip offline periods goes offline for a drawn number of ticks, during which it does not move; between operations the battery is never low; the published charge is the charge of the battery after every Next. (The last part fails: an offline device uses its battery but does not publish the charge.)", "quantifier": "all devices, all ticks and draws, exact arithmetic; never low: all histories of devices whose minimum is below 100", "why_tests_cant": "A battery lasts hours of simulated time, so tests rarely reach a recharge, and the stale charge shows only during an offline period after it.", "anchors": ["device.go:Next", "device.go:updateState", "device.go:updateOfflineState", "types/battery.go:Next", "types/battery.go:IsLow", "navigator/navigator.go:ToOffline"]}
{"id": "C63", "title": "A device starts a new lap with new curves and reports the finished one", "statement": "The Next that completes a lap puts the device at the start with duration and odometer zero, redraws the curves of speed, elevation and all sensors with their parameters, publishes this and returns false; no other Next redraws a curve or restarts the duration; afterwards IsFinish answers that the lap was finished. (The last part fails: Next itself asks the navigator and uses up the answer, so IsFinish of the device answers false after every lap.)", "quantifier": "all devices, ticks and draws; the two outcomes for any number type, the exact condition in exact arithmetic for all histories with steps longer than 0.1 m", "why_tests_cant": "The redraw is only visible in the control points, which no accessor shows, and the tests drive the navigator, not the device, to the end of a lap before they ask IsFinish.", "anchors": ["device.go:Next", "device.go:IsFinish", "navigator/navigator.go:IsFinish", "navigator/navigator.go:ShuffleElevation", "types/sensor.go:Shuffle", "types/speed.go:Shuffle", "curve/curve.go:Shuffle"]}
{"id": "C64", "title": "The published time estimate is the time to the end of the lap", "statement": "After every refresh the published time estimate is the remaining distance of the lap divided by the published speed, and it is finite. (The claim fails: it is the total distance divided by the speed, too long after every step and the same at the end of the lap as at its beginning; before the first step Update publishes infinity or NaN.)", "quantifier": "all devices and operations; whole-lap estimate for any number type, comparison with the remaining time in exact arithmetic, infinity and NaN in extended arithmetic", "why_tests_cant": "The existing test asks that the estimate is not zero; a number that looks plausible at the start of a lap only shows as wrong near its end.", "anchors": ["device.go:updateState", "device.go:Update", "device.go:Next"]}
{"id": "C65", "title": "The locks of devices and generators never deadlock", "statement": "Whatever methods of devices and generators any number of goroutines call, and however their steps interleave, they never wait for each other's locks forever: every execution ends after a bounded number of steps with all calls returned and no lock held. (The claim fails for callbacks: Each, EachRoute and EachSensor hold the lock during the callback, so a callback that changes the same object stops alone, and one that reads it stops together with a goroutine that wants to change it.)", "quantifier": "all numbers of goroutines, all finite lists of method calls of each, all devices, all interleavings", "why_tests_cant": "A deadlock needs a particular interleaving; the race detector and single runs see only the interleavings that happen to occur.", "anchors": ["generator.go:Attach", "generator.go:Detach", "generator.go:Each", "generator.go:Lookup", "generator.go:HasTracker", "generator.go:run", "generator.go:doWorker", "generator.go:resetPacket", "device.go:Next", "device.go:EachRoute", "device.go:EachSensor", "device.go:Snapshot", "device.go:State"]}
{"id": "C66", "title": "Attaching and detaching while running affects only later ticks", "statement": "While the generator is running, clients may attach and detach devices at any moment: every tick delivers the state of each device attached when the tick began exactly once, and of no other device.", "quantifier": "every interleaving of run loop, workers, notifier and clients; any worker count, packet size, devices and number of ticks", "why_tests_cant": "The outcome depends on whether a client gets the lock in the short window in which a full packet is flushed; a test would need a packet of at least 1024 devices and this exact timing.", "anchors": ["generator.go:Generator.run", "generator.go:Generator.flush", "generator.go:Generator.Attach", "generator.go:Generator.Detach", "generator.go:Generator.delete"]}
{"id": "C67", "title": "Iteration visits every element once, in order, until told to stop", "statement": "EachTrack of a route, EachRoute of a navigator or a device and EachSensor of a device call the callback with index 0, 1, 2, ... and the element TrackAt, RouteAt or SensorAt returns for that index, in order, stop after the first call that answers false, otherwise reach every element, and return.", "quantifier": "every route, navigator or device with any number of elements, every callback with any side effects", "why_tests_cant": "Tests call the iterators with a callback that counts or compares; what a callback does to the state, in particular to the collection being iterated over, has no end of cases.", "anchors": ["navigator/route.go:EachTrack", "navigator/route.go:TrackAt", "navigator/navigator.go:EachRoute", "navigator/navigator.go:RouteAt", "device.go:EachSensor", "device.go:EachRoute", "device.go:SensorAt"]}
{"id": "C68", "title": "Looking up a sensor by index is safe while others change the sensors", "statement": "SensorAt returns, for every index, either nil or a sensor, and the answer is right for the sensors the device had at one moment of the call, whatever other goroutines do with the device meanwhile.", "quantifier": "every device, every index, every sequence of operations of other goroutines between the steps of the call", "why_tests_cant": "The window between the check and the lock is a few instructions wide; tests do not interleave another operation there, and the race detector reports only what happens to run.", "anchors": ["device.go:SensorAt", "device.go:RemoveSensor", "device.go:ResetSensors", "device.go:AddSensor", "device.go:FromSnapshot"]}
{"id": "C69", "title": "Properties survive as JSON text inside the bytes", "statement": "A property map whose values JSON can represent is written as JSON text, with strings escaped and keys sorted, from which every key is read with the value that was stored (an integer as the nearest float); so decoding the bytes of EncodeTracker or EncodeRoutes gives what decoding the message trees gives. A map with a value JSON cannot represent is written as no bytes at all. A text written by another program is read exactly if it is a JSON object of scalars (any white space, escapes and spelling of numbers) or null.", "quantifier": "every property map with any number of keys, any Unicode strings as keys and values, any finite floats and 64-bit integers; every device and every list of routes", "why_tests_cant": "Escaping, surrogate pairs, exponents and digit counts have unboundedly many cases; tests use a few short ASCII strings and small numbers.", "anchors": ["navigator/route.go:Snapshot", "navigator/route.go:RouteFromSnapshot", "navigator/route_track.go:Snapshot", "navigator/route_track.go:TrackFromSnapshot", "io.go:EncodeTracker", "io.go:DecodeTracker", "io.go:EncodeRoutes", "io.go:DecodeRoutes"]}
{"id": "C70", "title": "A subscriber who decodes a packet sees the devices", "statement": "PacketFromBytes applied to the bytes handed to OnPacket returns, in order, one message for every device of the slice, and after a successful tick each message shows its device: position, UTM zone, elevation, speed, battery charge, sensors, distances, current route, track and segment, offline state, attributes and units, and the routes with their properties.", "quantifier": "every number of devices with any options, routes, sensors and histories of operations; every time stamp; every UTM library", "why_tests_cant": "Tests compare a few fields of one packet; a field that is swapped, stale or lost in encoding for some values of some devices is not noticed.", "anchors": ["generator.go:doWorker", "encoding.go:PacketFromBytes", "device.go:State", "device.go:updateRoutes", "device.go:initDeviceState", "navigator/navigator.go:Update", "navigator/location.go:setUTM"]}
{"id": "C71", "title": "Whatever text a device accepts, its packets are delivered", "statement": "No text accepted by SetUserID, SetDescription or SetModel keeps the packets that contain the device from being delivered, and OnPacket is only ever called with complete packets.", "quantifier": "every byte string given as text, every slice of devices, with and without an OnError callback", "why_tests_cant": "Tests use ASCII text; a Go string may hold any bytes, and the failure appears only in the packet, in another goroutine, and for other devices too.", "anchors": ["device.go:SetUserID", "device.go:SetDescription", "device.go:SetModel", "types/model.go:NewModel", "generator.go:doWorker"]}
{"id": "C72", "title": "A track is driven to its end", "statement": "NextLocation takes a device off a track only when the step overshoots all remaining segments of the track, so that every part of a track is driven; points that occur twice in a row do no harm.", "quantifier": "every navigator state, every track, every sequence of ticks and speeds, every random number", "why_tests_cant": "The test tracks have no repeated points; recorded tracks have them wherever a vehicle stood still, and the loss shows only as a lap that ends early.", "anchors": ["navigator/navigator.go:NextLocation", "navigator/navigator.go:nextSegment", "navigator/navigator.go:isValidDistance", "navigator/navigator.go:nextTrack", "navigator/route_track_segment.go:IsEmpty", "navigator/route_track_segment.go:makeSegments"]}
{"id": "C73", "title": "Only changes of the structure change the version", "statement": "An operation that leaves the routes, their tracks, names and colours as they are leaves Sum() as it is; in particular driving, moving, jumping and looking things up never make clients reload the routes.", "quantifier": "every navigator state and every public operation of navigators, routes and tracks", "why_tests_cant": "Tests check that a version grows after a change, not that it stays after everything that is no change.", "anchors": ["navigator/navigator.go:Sum", "navigator/navigator.go:nextVersion", "navigator/route.go:TrackByID", "navigator/route.go:ChangeName", "navigator/route.go:RemoveTrack", "navigator/route_track.go:ChangeColor", "navigator/navigator.go:RemoveTrack"]}
{"id": "C74", "title": "Encoding never panics", "statement": "EncodeTracker, EncodeSensors, EncodeRoutes, EncodeGeoJSONRoutes and EncodeGPXRoutes return data or an error whatever they are given, including slices that hold nil and objects that no constructor made.", "quantifier": "every argument: nil, zero values and constructed objects in any order and number", "why_tests_cant": "Tests pass objects fresh from the constructors; they cannot cover all mixtures of present, missing and blank entries.", "anchors": ["io.go:EncodeTracker", "io.go:EncodeSensors", "io.go:EncodeRoutes", "io.go:EncodeGeoJSONRoutes", "io.go:EncodeGPXRoutes"]}
{"id": "C75", "title": "Devices get identifiers of their own", "statement": "When the client sets no identifier, every device NewDevice makes has an identifier that no other device has, whatever options it is made from and in whatever order.", "quantifier": "every history of device creations and option edits, every number of options objects, every draw of distinct identifiers", "why_tests_cant": "Tests create one device per options object; sharing only shows in histories that reuse an options pointer, and there are infinitely many of those.", "anchors": ["device.go:NewDevice", "device_options.go:applyFor", "generator.go:Detach", "generator.go:Lookup"]}
{"id": "C76", "title": "Simulated time follows the clock", "statement": "The ticks a running generator hands to its devices add up to the time that has passed since the generator was started, and so does the duration of a device that is underway.", "quantifier": "every start time, every sequence of rounds at any times, every device underway", "why_tests_cant": "Tests run a few rounds at the default interval; early rounds, stale rounds and long schedules have no finite list.", "anchors": ["generator.go:run", "generator.go:prepare", "device.go:Next"]}
{"id": "C77", "title": "Navigators do not influence each other", "statement": "A call of one navigator leaves every other navigator as it was, even if they hold the same route objects; and whatever navigators and routes share, each navigator evolves by its own calls and by mutations of the routes it holds.", "quantifier": "every program of calls on any number of navigators, routes and tracks with any sharing of pointers", "why_tests_cant": "Sharing patterns and interleavings of calls are unbounded; tests use one navigator with routes of its own.", "anchors": ["navigator/navigator.go:AddRoute", "navigator/navigator.go:RemoveRoute", "navigator/navigator.go:RemoveTrack", "navigator/navigator.go:ResetRoutes", "navigator/route.go:AddTrack", "navigator/route.go:RemoveTrack"]}
{"id": "C78", "title": "A random route runs around its centre", "statement": "Every track of RandomRoute is a closed line of 16 corners that runs once around the given point, its corners in order of their angle, and keeps a distance of at least level/10000 degrees from it. The same holds for the routes for New York, Moscow and Paris.", "quantifier": "every centre, number of tracks, level and all random draws", "why_tests_cant": "The draws are random and unbounded; tests only look at the number of tracks.", "anchors": ["random/polygon.go:Polygon", "random/polygon.go:randFactor", "geo/normalize.go:NormalizeCoordinates", "route.go:RandomRoute", "route.go:RandomRouteForNewYork", "route.go:RandomRouteForMoscow", "route.go:RandomRouteForParis"]}
{"id": "C79", "title": "A subscriber receives the trajectory of every device", "statement": "As long as fewer devices are attached than a packet holds, what a subscriber of a running generator receives of a device is its state after the first, second, ... round, each exactly once and in order. All states in a packet belong to the same round, and decoding its bytes shows the devices as they were then.", "quantifier": "every interleaving of run loop, workers, notifier and ticker, every number of workers, packet size, set of devices, times and random draws", "why_tests_cant": "Interleavings of goroutines and runs of any length cannot be enumerated; packets hold pointers to states that change in the next round.", "anchors": ["generator.go:run", "generator.go:doWorker", "generator.go:flush", "device.go:Next", "device.go:State", "encoding.go:PacketFromBytes"]}
{"id": "C80", "title": "A moving device is on its line", "statement": "After every successful step a device is on the shortest line between the ends of its current segment, as far from the start of the segment as it has travelled on it. Consecutive positions on one segment are exactly tick x speed metres apart on the ground; across segment ends they are no further apart than the way along the track.", "quantifier": "every history of moves, jumps, offline periods and changes of routes and tracks, all tracks through points away from the poles, all ticks and speeds", "why_tests_cant": "The claim is about the geometry of every position on every segment of the globe; a test can only compare some positions with expected numbers.", "anchors": ["navigator/navigator.go:NextLocation", "navigator/route_track_segment.go:DestinationTo", "geo/destination.go:Destination", "geo/bearing.go:Bearing", "geo/distance.go:Distance"]}
{"id": "C81", "title": "Resetting and changing the routes restart the trip", "statement": "Reset, and every AddRoute, RemoveRoute and ResetRoutes that changes the routes, put the navigator at the beginning of the first route with nothing travelled and the total of the routes; the trip that follows is the trip of a new navigator with the same options and routes, whatever was driven before.", "quantifier": "for every navigator and every history of operations, every routes added, and every sequence of ticks, speeds and random draws after the restart", "why_tests_cant": "Tests compare one trip with fixed numbers. That nothing of the past leaks into a later trip of any length quantifies over all histories and all later trips.", "anchors": ["navigator/navigator.go:Reset", "navigator/navigator.go:resetIndexes", "navigator/navigator.go:AddRoute", "navigator/navigator.go:RemoveRoute", "navigator/navigator.go:ResetRoutes", "navigator/navigator.go:NextLocation", "device.go:ResetNavigator"]}
{"id": "C82", "title": "Every device in a packet is a state of that device", "statement": "The message a worker encodes for a device is one of the states the device published, whatever is called on the device while it is encoded; its identifier is that of the device.", "quantifier": "for every device, every sequence of calls on it after State was called, and every choice of moments at which the fields are read", "why_tests_cant": "A torn message needs a call between two reads of the encoder. Tests run one schedule; the claim is about all moments of all reads.", "anchors": ["device.go:State", "generator.go:run", "generator.go:doWorker", "device.go:Update", "device.go:updateState", "navigator/navigator.go:Update", "device.go:FromSnapshot"]}
{"id": "C83", "title": "Distances are accurate in floating point", "statement": "Distance returns a number that differs from the great-circle distance by less than two metres, and by less than a micrometre for points at most 10 000 km apart, so that points more than a micrometre apart never coincide and the triangle inequality holds up to three micrometres.", "quantifier": "for all double-precision latitudes in [-90, 90] and longitudes in [-180, 180], and every mathematical library with the stated accuracy", "why_tests_cant": "There are about 2^250 quadruples of coordinates; the bad ones (nearly antipodal pairs whose haversine is rounded above 1) are about one in 10^5 of the antipodal pairs and none of all others.", "anchors": ["geo/distance.go:Distance", "geo/distance.go:Haversine", "geo/distance.go:DistanceFromHaversine"]}
{"id": "C84", "title": "In floating point, devices stay close to their line", "statement": "Destination returns a point within a metre of the exact destination (within 20 micrometres away from the poles), and after every successful step of every history a device is within 34 micrometres of the point of the shortest line between the ends of its segment that lies at the travelled distance from its start; between two steps on the same segment it moves by tick times speed up to a tenth of a millimetre.", "quantifier": "for all double-precision points, distances of up to 10 000 km and bearings; for all histories of moves, jumps, offline periods and changes of routes and tracks, and every mathematical library with the stated accuracy", "why_tests_cant": "Every operation rounds, bearings of short segments lose digits, and the error of the bearing is multiplied by the distance; samples cannot bound the error for all pairs of points, and the failing destinations (walks that end at a pole) are rare.", "anchors": ["geo/destination.go:Destination", "geo/bearing.go:Bearing", "navigator/route_track_segment.go:DestinationTo", "navigator/navigator.go:NextLocation"]}
{"id": "C85", "title": "Lengths and odometers are accurate in floating point", "statement": "The length of a track is the length of the line through its points up to 1.2 micrometres per segment; the length of a route and the total of a navigator are the sums of these up to 1.2 micrometres per segment, track and route; the odometer is the sum of tick times speed of the steps since its last restart up to 0.24 micrometres per step.", "quantifier": "for all double-precision points whose neighbours are at most 10 000 km apart, all lines of at most a million kilometres, all histories without changes of the tracks of held routes (totals) and all histories (odometer), and every mathematical library with the stated accuracy", "why_tests_cant": "Rounding errors accumulate with every addition; a test sees one order of additions and one set of coordinates, not the bound over all of them.", "anchors": ["navigator/route_track_segment.go:makeSegments", "navigator/route_track.go:NewTrack", "navigator/route.go:AddTrack", "navigator/navigator.go:AddRoute", "navigator/navigator.go:NextLocation"]}
{"id": "C86", "title": "GeoJSON documents as text", "statement": "Encode returns the UTF-8 text of a GeoJSON FeatureCollection with one feature for each route with tracks: positions are arrays of longitude and latitude in this order, open tracks are LineStrings, closed ones Polygons, several tracks a GeometryCollection. ParseFeatureCollection reads the same features from it, and Decode gives back id, colour, name and properties of each such route and all tracks in order with exactly their points. If any coordinate, length or property of a route has no JSON form (NaN, infinity, channel), Encode returns an error and no document. Texts written by other programs are read exactly if they follow the JSON grammar (any nesting, white space and spelling), the last of several members with the same name counts, documents that stand for the same value are decoded alike, and every other text is an error.", "quantifier": "for all non-empty lists of routes built through the API whose numbers are finite, whose properties have a JSON form and are not named like the encoder's own, and whose tracks have ids; the failure for all routes with a value without a JSON form", "why_tests_cant": "Escaping, nesting, number formats and key order interact over all strings and property maps; swapped coordinates cancel out in a test that only encodes and decodes.", "anchors": ["geojson/encoding.go:Encode", "geojson/encoding.go:Decode", "geojson/encoding.go:toPoints", "geojson/feature_collection.go:ParseFeatureCollection", "geojson/feature_collection.go:ToFeatureCollection", "geojson/feature_collection.go:copyPoints"]}
{"id": "C87", "title": "Decoding reports what it cannot restore", "statement": "DecodeRoutes and DecodeTracker return one route for every route message, in order; without an error every route is the one of its message. (The claim fails: the error of RouteFromSnapshot is dropped, so a route with broken properties or a name of one, two or more than 256 bytes comes back blank, without id and tracks, and a tracker keeps the total distance of the lost route. Broken properties of a track silently become none.)", "quantifier": "every parsed message, any number type", "why_tests_cant": "The tests decode only what was encoded; the inputs that are lost are those of other programs, older versions or damaged files.", "anchors": ["io.go:DecodeRoutes", "io.go:DecodeTracker", "navigator/route.go:RouteFromSnapshot", "navigator/route_track.go:TrackFromSnapshot", "navigator/navigator.go:FromSnapshot"]}
{"id": "C88", "title": "GPX files settle", "statement": "Save routes as GPX, load the file, save what was loaded, and so on: every loaded route is one the API can build; coordinates keep ten decimals, which moves a point by less than 18 micrometres and only the first time, keeps order, ranges and closed tracks, and changes a length by less than 39 micrometres per segment; the second file equals all later ones. (The last part fails: the text property -0.0 is read as a number, written as -0, then read as the integer 0. It is the third file that equals all later ones.)", "quantifier": "every list of API routes with an id that is text and no reserved property, any number of saves, any number type with floats that are read as written; doubles for the coordinates", "why_tests_cant": "The test encodes once and compares a single file; drift over repeated saves and rounding ties between decimal and binary need a proof over all doubles.", "anchors": ["gpx/encoding.go:Encode", "gpx/encoding.go:Decode", "gpx/encoding.go:value", "gpx/encoding.go:makeProps", "gpx/encoding.go:copyPoints", "gpx/encoding.go:makePoints"]}
{"id": "C89", "title": "GPX files as text", "statement": "The text that gpx.Encode writes is well-formed XML that gpx.Decode reads back to the same routes: ids, names, colours, tracks, points as written, and properties, whatever characters they have. Decode does not panic on any text. (The second part of the first sentence fails: property keys are written as attribute names without a check. With the key `max speed` the file cannot be read; the key `a=\"1\" id` adds a property and replaces the id; a prefix before a colon, the empty key and characters that XML does not allow are lost.) A file of another program without comments, CDATA sections and document types is read exactly if it follows the XML grammar, and is an error otherwise; files with the same root element are decoded alike whatever their spelling.", "quantifier": "every non-empty list of API routes with tracks, any text forms of numbers that are read as written, any indentation by blanks and tabs; every text for the absence of panics; the coordinates of all doubles", "why_tests_cant": "The test encodes one fixed pair of routes whose keys are words; escaping, nesting and keys need a proof over all strings.", "anchors": ["gpx/encoding.go:Encode", "gpx/encoding.go:Decode", "gpx/encoding.go:makeAttrs", "gpx/encoding.go:makeProps", "gpx/encoding.go:copyPoints"]}
{"id": "C90", "title": "Navigator.Update into a message of the caller", "statement": "Update of a navigator with a usable route index fills every message it is given: distances, indices, ids, position, UTM and DMS forms, and the offline flag show the navigator, and all other fields are left alone; a second Update changes nothing. (It does not fill every message: normalizeDeviceState makes absent sub-messages but not those of a Location that is there, so a Location without Utm, LatDms or LonDms is a nil dereference after the rest was written. A nil message and an unusable route index panic too.)", "quantifier": "every navigator, every message with any sub-messages present or absent, any number type, any UTM library", "why_tests_cant": "The one test passes an empty message; which of the sub-messages may be absent needs all combinations with all navigator states.", "anchors": ["navigator/navigator.go:Update", "navigator/navigator.go:normalizeDeviceState", "navigator/location.go:setUTM", "navigator/location.go:setDMS"]}
{"id": "C91", "title": "Subscribers in the browser see the devices", "statement": "A packet that Go sends is read in TypeScript (proto/gpsgen.ts) and in JavaScript (proto/gpsgen_pb.js) as it was sent: every field of every device, in order, absent sub-messages absent; fields of a later version are skipped. (In JavaScript it fails for integers above 2^53, which become the nearest double.)", "quantifier": "every packet with 64-bit integers and less than 2^32 bytes, any float64 values, any valid texts; every slice of devices after a tick; every list of unknown fields", "why_tests_cant": "There are no tests of the two readers at all. That three tables with over 60 fields agree, for every combination of present and default values, is not a matter of examples.", "anchors": ["proto/gpsgen.ts:internalBinaryRead", "proto/gpsgen_pb.js:deserializeBinaryFromReader", "generator.go:doWorker"]}
{"id": "C92", "title": "Devices that share sensors do not influence each other", "statement": "A device publishes what it would publish if its sensors were its own, even if other devices hold the same sensor objects. (It fails for the values of the sensors: Update shows the value of whichever device called the sensor last, and a device that ends a lap gives shared sensors new curves. Everything else about a device is independent of the others, and so is what it publishes by a Next that moves it as long as nobody ends a lap.)", "quantifier": "every program of calls on any number of devices and sensors with any sharing of pointers", "why_tests_cant": "Tests use one device with sensors of its own; sharing patterns and interleavings of calls are unbounded.", "anchors": ["device.go:AddSensor", "device.go:RemoveSensor", "device.go:ResetSensors", "device.go:Next", "device.go:FromSnapshot", "device.go:updateState", "types/sensor.go:Next", "types/sensor.go:Shuffle"]}
{"id": "C93", "title": "A decoded device can be used", "statement": "Whatever bytes DecodeTracker (or FromSnapshot) accepted, no later call on the device panics: Next, Update, the getters, encoding it again. (It fails for curves without control points: eighteen bytes are enough for a device whose sensor panics, and a speed without points makes every Next panic once the device has a route. It holds for everything else: indices past the end, negative indices, segments that do not fit together, odometers beyond the end, crossed bounds.)", "quantifier": "every byte string, every later history of calls (DestinationTo only while at most two routes are held, as in C54), any number type", "why_tests_cant": "Tests decode what was encoded before; hostile or damaged snapshots and what is called afterwards are unbounded.", "anchors": ["io.go:DecodeTracker", "device.go:UnmarshalBinary", "device.go:FromSnapshot", "device.go:Next", "curve/curve.go:FromSnapshot", "curve/curve.go:Point", "types/sensor.go:FromSnapshot", "types/speed.go:FromSnapshot", "navigator/navigator.go:FromSnapshot"]}
{"id": "C94", "title": "A trip takes as long as its length divided by the speed", "statement": "A trip driven with steps of tick x speed metres takes as many NextLocation calls as its length divided by the step, up to one call for each track (and the offline periods). (It fails from below: what a step leaves of a segment is not carried over, so the number of calls is the sum over the segments of the whole steps that fit into each, plus one for each track. A track of whatever length whose points are closer together than a step is completed by the first call.)", "quantifier": "every navigator at the beginning of its trip, every sequence of ticks and speeds with steps between two positive bounds, every sequence of random draws", "why_tests_cant": "The number of calls depends on the lengths of all segments; tests use tracks whose points are far apart.", "anchors": ["navigator/navigator.go:NextLocation", "navigator/navigator.go:nextSegment", "navigator/navigator.go:nextTrack", "navigator/navigator.go:nextRoute", "navigator/navigator.go:nextOffline", "navigator/navigator.go:IsFinish"]}
{"id": "C95", "title": "Every position a subscriber receives is on the device's road", "statement": "Every position that the subscribers of a generator receive for a device with routes lies on the shortest line between two neighbouring points of one of the device's tracks. (It fails before the first successful step of the device: until then latitude 0 and longitude 0 are published, and a device whose steps are longer than all its segments never makes one.)", "quantifier": "every history of the devices, every ticker, every number of rounds, every random draw, every interleaving of the generator's goroutines", "why_tests_cant": "The positions depend on the whole history of ticks, draws and laps, and on trigonometry at arbitrary points; tests print a few packets.", "anchors": ["generator.go:run", "device.go:Next", "device.go:updateState", "navigator/navigator.go:NextLocation", "navigator/navigator.go:Update", "navigator/route_track_segment.go:DestinationTo"]}
{"id": "C96", "title": "Saving the devices and restarting the program continues every trajectory", "statement": "A program saves its devices with EncodeTracker and ends; a later one decodes them, attaches them to a new generator and goes on. Given the same ticks and draws, every device goes exactly the way it would have gone without the interruption, and subscribers receive the states they would have received. (It fails for the published state until the device moves again: EncodeTracker refreshes parts of the state that Next refreshes only when the device moves.)", "quantifier": "every history of the devices, every moment of saving between two rounds, every pause, every number of further rounds, every interleaving of both generators", "why_tests_cant": "A round trip test compares one snapshot; whether any later state depends on something that is not saved shows only in continuations of every length, compared with a run without the interruption.", "anchors": ["io.go:EncodeTracker", "io.go:DecodeTracker", "device.go:Snapshot", "device.go:FromSnapshot", "device.go:Update", "device.go:Next", "generator.go:run"]}
{"id": "C97", "title": "An attached device completes lap after lap", "statement": "A device with routes and a positive least speed that stays attached to a running generator completes its lap again and again, for ever: however long it runs, there is a later round before which it is in the last track of its last route and after which it is back on the first segment of the first track of the first route, with the clock of the lap at zero. No round panics. (It fails for batteries that do not outlast the longest offline period: every low battery starts a new period, and the device never moves again.)", "quantifier": "every history of the device, every ticker, every draw, every number of rounds that already went by", "why_tests_cant": "It is about infinitely many rounds: a test sees the first laps of one device, and not whether some battery, offline period, speed and route keep a device standing for ever.", "anchors": ["device.go:Next", "navigator/navigator.go:NextLocation", "navigator/navigator.go:IsFinish", "navigator/navigator.go:ToOffline", "types/battery.go:IsLow", "generator.go:run"]}
{"id": "C98", "title": "The text of an object shows its value", "statement": "The String methods show what the object holds: the text of a speed, a battery, a sensor or a point contains the number that the getter returns, rounded to the nearest number with the written decimals; equal texts mean values at most one unit of the last decimal apart, greater values never look smaller, and the text of a sensor determines its name. Models and names are shown as they were accepted, and a random model is always a valid one. (It fails for constant speeds: Value returns the speed, String always shows 0.00 m/s.)", "quantifier": "every double including infinities and NaN, every number of decimals, every name, every history of a speed, every random draw", "why_tests_cant": "Rounding has to be right for 2^64 values; a test compares a few texts, and none of a constant speed, where the printed field is never written.", "anchors": ["types/speed.go:String", "types/battery.go:String", "types/sensor.go:String", "geo/geo.go:String", "types/model.go:RandomModel", "types/model.go:IsEmpty", "navigator/types.go:IsEmpty"]}
{"id": "C99", "title": "Speed, elevation and sensors change gradually", "statement": "From one step to the next, the speed, the elevation and the sensor values of a device change by at most k * (max - min) times the part of the trip time that passes between the two steps, where k is the number of control points of the curve less one. (It fails at the end of a lap: the curves are drawn anew and all values may jump between their bounds within one tick.)", "quantifier": "every device reachable by any operations, every curve and all random draws, every tick, any steps, offline periods and missed ticks between the two steps", "why_tests_cant": "The tests check that values lie between their bounds; a curve evaluated at the wrong time or drawn anew in the middle of a lap still satisfies them. The jump needs a whole lap with particular draws.", "anchors": ["device.go:Next", "curve/curve.go:Point", "curve/curve.go:Shuffle", "types/speed.go:Next", "types/sensor.go:Next", "navigator/navigator.go:NextElevation"]}
{"id": "C100", "title": "Integers of the machine", "statement": "Integer overflow never changes what a navigator does: with 64-bit integers every history of operations has the same results as with unbounded integers, whatever indices the navigator holds, also invalid ones read from a snapshot, and New accepts and corrects every pair of offline bounds in the same way. The comparison of versions in Next has the same result even if version counters overflow. (It fails for offline bounds near the largest integer, which only a snapshot can contain: the period becomes negative and the device does not go offline.)", "quantifier": "every navigator with any 64-bit integers as indices, every history of operations with any arguments, all offline options, any number type; at most 2^32 routes and tracks, less than 2^63 segments", "why_tests_cant": "An overflow needs values near 2^63 in an index, or 2^63 operations.", "anchors": ["navigator/navigator.go:NextLocation", "navigator/navigator.go:nextSegment", "navigator/navigator.go:nextTrack", "navigator/navigator.go:jump", "navigator/navigator.go:Sum", "navigator/navigator.go:ToOffline", "navigator/options.go:validateOffline", "types/random.go:Value", "device.go:isNotValidNS"]}
{"id": "C101", "title": "The program of the README", "statement": "The program of the README does what it is for, whatever is drawn at random, whatever the schedule of goroutines and ticker: all trackers are created with one random route of three tracks and attached; no tracker makes the program panic; between rounds the packet callback has received one state of every tracker per round; as long as no two rounds are eight minutes apart every tracker completes laps for ever, and the callback sees it with the clock of the lap at zero; after Close the goroutines take a bounded number of steps and Run returns. (It fails with 2053 trackers or more, where the packet is divided: Run may hang after Close.)", "quantifier": "every number of trackers up to 2052 (the README has 1000), all random draws except exponential draws above 1000, exponential draws that all agree and sixteen uniform draws of exactly zero, every ticker, every schedule, any number of processors; exact arithmetic", "why_tests_cant": "The program runs until a signal arrives, in schedules of six goroutines, on random routes.", "anchors": ["generator.go:New", "generator.go:NewOptions", "generator.go:Attach", "generator.go:Run", "generator.go:Close", "generator.go:flush", "device.go:NewTracker", "device.go:SetUserID", "device.go:AddRoute", "device.go:Next", "route.go:RandomRoute", "device_options.go:DefaultTrackerOptions"]}
{"id": "C102", "title": "The example programs", "statement": "The programs in examples/ do what they are for, whatever is drawn at random and whatever the schedule: the drone of each of the five programs with one drone is created, with its sensors and with the route made by hand, drawn at random, or read from the GeoJSON or GPX text in the program, and is attached; it never makes the program panic; every packet, also after Close, has one device; between rounds the callback has got one state per round; the drone completes laps for ever, and the callback sees it with the clock of the lap at zero; the callback does not panic; after Close the goroutines take a bounded number of steps and Run returns. examples/serialize_device prints true: the decoded tracker shows the same state. The callback of examples/generator finds a location in every device. (After Close a callback may get a device without a location; the callbacks that read the location then panic.)", "quantifier": "all random draws except extreme ones (C101; exponential draws of a track at most 300), every ticker, every schedule, any number of processors, readers of numbers that are exact; exact arithmetic", "why_tests_cant": "The programs run until a signal arrives, in schedules of six goroutines, on random routes.", "anchors": ["generator.go:New", "generator.go:Attach", "generator.go:Run", "generator.go:Close", "generator.go:flush", "device.go:NewDroneTracker", "device.go:AddSensor", "device.go:AddRoute", "device.go:NewSensor", "device.go:Next", "route.go:RandomRoute", "io.go:DecodeGeoJSONRoutes", "io.go:DecodeGPXRoutes", "io.go:EncodeTracker", "io.go:DecodeTracker", "device_options.go:DroneTrackerOptions"]}
{"id": "C103", "title": "Recovered panics and locks", "statement": "If a method of a device or generator panics (a bad argument, a callback of Each, EachRoute or EachSensor, a panic inside Next) and the caller recovers, all locks that the method took are free again: goroutines that go on calling methods and recovering never wait for each other forever and end with no lock held. (False for Device.Snapshot, the only method that unlocks without defer: when it panics in its loop over the sensors the read lock of the device is never given back; nobody can write the device any more, Next fails for ever, a setter never returns, and with a setter waiting the generator stops in the middle of a tick.)", "quantifier": "any number of goroutines, any calls, panics at any place of them, every interleaving", "why_tests_cant": "The lock is lost only in a race between Snapshot and AddSensor, and what follows is a wait without end.", "anchors": ["device.go:Snapshot", "device.go:Next", "device.go:EachSensor", "device.go:EachRoute", "device.go:AddSensor", "generator.go:Each", "generator.go:Attach", "generator.go:Detach", "generator.go:Lookup", "generator.go:run"]}
{"id": "C104", "title": "Everything the limits allow can occur", "statement": "The random values fill their limits: every offline period from min to max, every speed from min to max at any place of a track, every sensor and elevation value within the range that the mode leaves free there (also after a shuffle), every coordinate of the world or of a country's box, and every string over the charset is the result of some random draws; the offline periods and strings are spread evenly over the draws. (False at the upper limit only: the configured maximum of offline period, speed and sensor never occurs when it differs from the minimum, nor do the northern and eastern edges of boxes.)", "quantifier": "all limits, modes, amplitudes, positions on the curve and histories; all values", "why_tests_cant": "Tests check that drawn values are within limits; a generator that never leaves the minimum passes, and no finite sample shows that a value cannot occur.", "anchors": ["types/random.go:Value", "navigator/navigator.go:ToOffline", "curve/curve.go:New", "curve/curve.go:Shuffle", "curve/curve.go:Point", "types/speed.go:Next", "types/sensor.go:Next", "random/latlon.go:LatLon", "random/latlon.go:LatLonByCountry", "random/string.go:String"]}
{"id": "C105", "title": "The properties of a route or track are its own", "statement": "The map that Props() of a route or track returns can always be written, shows its properties and stays connected to it: Set, Remove and Merge through a variable that holds it change exactly the properties of that route or track, at any later time, and those of no other; calling Props() changes nothing. Only writing through a nil map, or Props() of no object, panics. Reset empties the variable. (False: RestoreRoute keeps the map of its caller, so two routes restored with one map share their properties; and Reset, documented to clear all pairs, leaves the properties of the route as they are.)", "quantifier": "all programs of any length that create, restore and decode routes and tracks and use any number of variables with property maps", "why_tests_cant": "The tests write and read one map of one object; that maps stay apart, or stay connected to their object, depends on every other statement of the program.", "anchors": ["properties/properties.go:Make", "properties/properties.go:Set", "properties/properties.go:Remove", "properties/properties.go:Merge", "properties/properties.go:Reset", "navigator/route.go:Props", "navigator/route.go:RestoreRoute", "navigator/route.go:RouteFromSnapshot", "navigator/route_track.go:Props", "navigator/route_track.go:TrackFromSnapshot"]}
{"id": "C106", "title": "Goroutines share the random sources", "statement": "Any number of goroutines may use the random sources of the package at the same time. The values they get are those of some order of their calls one after the other: each goroutine makes its calls in its own order, and a call that has returned comes before the calls that start later. So no draw is handed out twice. Whatever has happened so far, also a panic of Intn that was recovered, every goroutine can still finish its calls.", "quantifier": "all generators behind the mutex, numbers of goroutines and sources, calls, and interleavings of any length", "why_tests_cant": "A lost update of the generator shows in no value of its own, only in two goroutines getting the same draw, and only in some interleavings.", "anchors": ["random/random.go:NewRandom", "random/random.go:Intn", "random/random.go:Float64", "random/random.go:ExpFloat64"]}
{"id": "C107", "title": "The getters answer what the device publishes", "statement": "Whoever asks a device through its methods gets what its subscribers get: ID, Model, UserID, Color, Descr and Duration agree with State() at any time; all distances, the indices, CurrentBearing, Location, IsOffline and the ids of CurrentRoute and CurrentTrack agree with State() after every Update and every successful Next, and none of these methods panics or changes the device then; after a Next that does not move the device, IsOffline agrees. (At any time: false. A change of the routes or a move shows in the methods at once, and in State() only after the next Next or Update.)", "quantifier": "all number types, devices, histories and ticks", "why_tests_cant": "The tests compare a few fields after fixed steps; that all methods and all fields agree after every Next and Update is a statement about all devices and histories.", "anchors": ["device.go:ID", "device.go:Model", "device.go:UserID", "device.go:Color", "device.go:Descr", "device.go:Duration", "device.go:State", "device.go:Update", "device.go:Next", "device.go:CurrentBearing", "device.go:Distance", "device.go:CurrentDistance", "device.go:RouteDistance", "device.go:CurrentRouteDistance", "device.go:TrackDistance", "device.go:CurrentTrackDistance", "device.go:SegmentDistance", "device.go:CurrentSegmentDistance", "device.go:CurrentRoute", "device.go:CurrentTrack", "device.go:RouteIndex", "device.go:TrackIndex", "device.go:SegmentIndex", "device.go:IsOffline", "device.go:Location"]}
{"id": "C108", "title": "A device that has lost its position can be repaired", "statement": "Update and EncodeTracker return exactly when the route index denotes a held route or no route is held. Whatever DestinationTo does, and whatever routes, indices, distances and published state are left behind, the device is usable again (no getter, no covered call, no Next, no encoding and no decoding panics) after ResetNavigator, after ResetRoutes, after a RemoveRoute that removes a route, after an AddRoute that brings a route with a new id, after any MoveTo*, ToNextRoute or ToPrevRoute that returns true, and after restoring the snapshot of another device onto it.", "quantifier": "all number types, devices, histories, remaining states with the old curves and offline settings, and repair calls", "why_tests_cant": "The tests never reach a device with a lost position; that every one of these calls repairs every such device is a statement about all remaining states.", "anchors": ["navigator/navigator.go:DestinationTo", "navigator/navigator.go:Reset", "navigator/navigator.go:MoveToSegment", "navigator/navigator.go:AddRoute", "navigator/navigator.go:RemoveRoute", "navigator/navigator.go:ResetRoutes", "device.go:ResetNavigator", "device.go:Update", "device.go:Next", "device.go:FromSnapshot", "io.go:EncodeTracker"]}
{"id": "C109", "title": "Lists handed out do not change behind anybody's back", "statement": "Navigators, routes, devices and generators keep their elements in slices that append and remove in place. Nevertheless every such list behaves like a list of its own: adding leaves out nil and known ids, removing takes out the first element with the id, no list ever holds nil. A slice returned by Routes() or Sensors() shows what it showed when it was returned, whatever is added, removed or reset afterwards, until the client writes into it; and such a write changes no list of the library.", "quantifier": "all programs over any number of lists and client slices, all ids, all ways in which the runtime grows slices", "why_tests_cant": "Whether append writes into a shared array depends on capacities chosen by the runtime; tests see one growth strategy and short histories.", "anchors": ["navigator/navigator.go:Routes", "navigator/navigator.go:AddRoute", "navigator/navigator.go:RemoveRoute", "navigator/navigator.go:ResetRoutes", "navigator/navigator.go:hasRoute", "navigator/route.go:AddTrack", "navigator/route.go:RemoveTrack", "device.go:Routes", "device.go:Sensors", "device.go:AddSensor", "device.go:RemoveSensor", "device.go:ResetSensors", "device.go:hasSensor", "generator.go:Attach", "generator.go:delete"]}
{"id": "C110", "title": "The loops never run out of range and find, remove and add up what they should", "statement": "The index loops of the library, with their counters, bounds, early returns and breaks, never read out of range. hasRoute, hasSensor, indexRoute, indexTrack, RouteByID and SensorByID find the first element with the id exactly when there is one; RemoveRoute, RemoveTrack and RemoveSensor take out exactly this element; Sum, calcRouteDistance and updateState add up all elements in order; isNotValidNS tells whether one of the three version numbers differs; copyPoints returns the start of every segment and the end of the last; the generator's find returns the first device with the id and true, or nil and false, and its delete takes out exactly this device, whether or not it could be unmounted; Each calls the function on the devices in order until it answers false; flush sends the slices that divide the packet, in order; resetPacket empties every slot.", "quantifier": "all lists of routes, tracks, segments, sensors and devices, all ids, all number types", "why_tests_cant": "Tests run the loops on a few short lists; off-by-one errors at the ends and the order of first matches matter for all lengths.", "anchors": ["navigator/navigator.go:Sum", "navigator/navigator.go:hasRoute", "navigator/navigator.go:indexRoute", "navigator/navigator.go:RouteByID", "navigator/navigator.go:calcRouteDistance", "navigator/navigator.go:RemoveRoute", "navigator/route.go:indexTrack", "navigator/route.go:updateState", "navigator/route.go:RemoveTrack", "device.go:isNotValidNS", "device.go:hasSensor", "device.go:SensorByID", "device.go:RemoveSensor", "gpx/encoding.go:copyPoints", "geojson/feature_collection.go:copyPoints", "generator.go:find", "generator.go:delete", "generator.go:Each", "generator.go:flush", "generator.go:resetPacket"]}
