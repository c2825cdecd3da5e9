# Verification design for go-gpsgen

The subject is the Go source in `/repo` (read-only). This file says, for each property in
`properties.jsonl`, what is modelled and how it is proved, and what has to be trusted.

## Method

* The Go functions are transcribed one by one into small total Lean functions under
  `lean/Verif/Model/`. Each definition cites the Go file and lines it models and states its
  simplifications.
* The properties are stated in `lean/Verif/Theorems/` with specifications of their own
  (`lean/Verif/Spec/` or local to the theorem file) that do not use the model's helper functions.
* Where the code violates a property, the file proves the negation on a concrete witness
  (`..._fails`) and a theorem with the suffix `_partial` for the part that does hold.

### Numbers

`float64` appears in four ways:

1. **Any number type.** Navigator control flow, route sets, snapshots, versions and so on are
   modelled over an arbitrary type `F` with uninterpreted operations (class `GoFloat`: `+ - * /`,
   Boolean comparisons, literals; `GoMath` adds sin, cos, ...). A theorem for every `F` holds in
   particular for IEEE doubles with NaN, infinities and rounding. The only laws assumed are fields
   of the class and true for IEEE doubles (`0 == 0`).
2. **Exact arithmetic** (`F = ℝ`): metric statements (sums, bounds, spherical geometry). Rounding is
   not modelled there; the theorem notes say so.
3. **Exact arithmetic with NaN and infinities** (`XNum K`): constructors and the battery/sensor code,
   where division by zero or NaN inputs decide the outcome.
4. **IEEE 754 doubles** (`F64`): binary64 with rounding to nearest even, gradual underflow, overflow,
   infinities, NaN and signed zeros, for statements that rounding could break (theorems in namespaces
   `...Double`). `+ - * /`, comparisons, `Abs`, `Min`, `Mod` are defined; `sin`, `cos`, `sqrt`, ... are
   arbitrary functions (`F64.MathLib`). Where their signs, ranges or accuracy matter, these are hypotheses of the
   theorem (`C46.Double.Library`, `C83.Accurate`, `C83.GoLibrary`, `Arctan` for `math.Atan2`), each met by a library constructed in Lean. `Model/GoTrig` is
   Go's portable `math.Sin` and `math.Cos`, written down from the published algorithm (the sources of `math` were not at
   hand); it serves only the counterexamples of C83 and C84. As a test (not a proof) a C program with the same steps and constants,
   compared with `long double` at 2 * 10^7 random angles in [-7, 7], had errors of at most 0.79 * 2^-52. Fused multiply-add, which Go may use on some machines, is not
   represented. Constant expressions of Go (such as `math.Pi / 180`) are rounded once by the compiler, in the model
   after every operation; for the four constants of the code the results are the same double (computed, not proved).
   As a test (not a proof) `+ - * / < <= == Abs` were compared with Lean's hardware `Float` on 16000 pairs, among them zeros, infinities, NaN, subnormal and huge numbers: no difference.

### Other conventions

* `int`, `uint64` counters and versions are unbounded `Int`/`Nat` (no overflow), except where a
  32-bit value matters. For the navigator C100 proves that 64-bit integers make no difference (with one exception).
  Elsewhere integers are only copied, compared or used as loop counters below the length of a slice; the counter of packets
  and the number of workers are assumed not to overflow.
* A Go run-time panic (index out of range, nil dereference) is `Except.error` in the `Go` monad.
* Random draws, generated UUIDs and colours are explicit arguments, so theorems quantify over them.
* Routes and tracks are held by pointer in Go. The model stores values and represents mutation
  through a retained pointer as an explicit history operation. C77 models pointers shared by several holders
  and proves that every navigator then still evolves by such a history.
* Strings are valid UTF-8 except in C71; `len(s)` is the number of bytes.
* JSON, XML and protobuf documents are modelled as syntax trees; C52 models the protobuf bytes, C86 the text of GeoJSON documents (as far as `orb/geojson` documents it; its source is not part of the repository) and C69 the JSON text of
  properties.

### Replaying the repository's tests

`Verif/Conformance` replays tests of the repository on the model, in IEEE doubles and with Go's algorithms for `atan`, `asin`, `atan2`
and the correctly rounded square root (written from knowledge of package math, whose source is not on hand). They check the transcription; they are tests, not proofs, and no claim rests on them. The tests
are re-expressed by hand, with fixed draws for random numbers, fixed tracks for random routes and fewer iterations of loops.
All of the replayed cases agree with what the Go tests expect. Not replayed:

* TestNavigator_Update (the UTM library), TestDevice_EachRoute;
* TestGenerator_Run, TestGenerator_Close, TestGenerator_Each (goroutines and sleeping).

The tests that decode GeoJSON and GPX are replayed with the documents of geojson/testdata and gpx/testdata (`Conformance/Documents`,
`Conformance/GpxDocuments`), the tests that encode with the tracks of the tests (`Conformance/Encoding`).

## Trusted base

* The Lean 4 kernel. Axioms: at most `propext`, `Classical.choice`, `Quot.sound`
  (checked with `#print axioms`; no own axioms, no `sorry`, no `native_decide`).
* The transcription of Go into Lean, by inspection and by replaying tests of the repository.
* The XML text of GPX files (C89) is modelled after the documentation of encoding/xml and gpxgo and the files in
  gpx/testdata, their sources are not on hand.
* Not modelled: the UTM library (a parameter in C70), go-colorful's
  colour parsing, uuid, the Go memory model (C40-C43 model goroutines as interleaved atomic steps). Of the example programs
  C101 and C102 model what they do with the library, not their output and signal handling.

## Properties

| id | model | proof |
|----|-------|-------|
| C01 | NewTrack, RestoreTrack, makeSegments | induction over the point list; any `F` |
| C02 | Track/Route construction and mutation | invariant by induction over a history; any `F` (same fold) and exact sum over ℝ |
| C03 | navigator histories | invariant for histories without RemoveTrack / route mutation; negation for RemoveTrack |
| C04 | isClosed | negation witness; exact characterisation of what it computes |
| C05 | AddRoute, RemoveRoute, ResetRoutes | refinement to an insertion-ordered set |
| C06 | RouteByID, RemoveRoute, TrackByID | iff for ids of 1..36 bytes; negation for longer ids |
| C07 | all navigator operations in the `Go` panic monad | invariant by induction; negation for DestinationTo with three routes |
| C08 | NextLocation loop with fuel | fuel is never exhausted, any `F` |
| C09 | NextLocation | postcondition of one call, any `F` |
| C10 | NextLocation over ℝ | invariant by induction; negation with MoveToSegment |
| C11 | NextLocation | case analysis against a separate successor relation, any `F` |
| C12 | NextLocation over ℝ and in doubles | well-founded lexicographic measure, for any number type with a count of steps left in a segment that decreases |
| C13, C14 | offline handling | induction on k; invariant |
| C15 | NewRandom, Random.Value | arithmetic on 32-bit draws |
| C16 | IsFinish | positive theorem after a lap; negation witnesses |
| C17 | MoveTo*, NextRoute, PrevRoute | decision logic, iff |
| C18 | jump | correct for the first two routes/tracks; general wrong-index theorem; negations |
| C19, C20 | versions, Device state.Routes | lexicographic monotonicity, invariant over histories |
| C21-C25 | snapshots as message trees | round trip, bisimulation; negations for nil messages and leftovers |
| C26 | sensors | refinement and mirror invariant |
| C27-C30 | curve (Bernstein form), speed, sensor, device parameter | convexity over ℝ; rounding error analysis in IEEE doubles with negations |
| C31 | battery | invariant over histories, exact and in IEEE doubles; negations |
| C32, C33 | constructors | iff over `XNum`; negations where the code deviates |
| C34 | Device.Next time accounting | invariant; negations; whole seconds exact in IEEE doubles |
| C35 | Update, updateState | field by field |
| C36, C37 | Attach/Detach | invariant by induction |
| C38, C39 | flush and the tick loop | arithmetic; exact characterisation and negation |
| C40-C43 | interleaving semantics of the goroutines | inductive invariants, variant function; negation for the hang |
| C44, C45 | GeoJSON/GPX document trees | exact description of what comes back by induction; restricted round trips; negations |
| C46-C48 | geo package over ℝ; C46 also in IEEE doubles for any library with the documented signs and ranges | trigonometric identities from Mathlib; sign and range analysis in doubles, with a negation |
| C49 | setDMS | floor arithmetic; rounding error analysis in IEEE doubles with negation |
| C50 | random package, `EachCountry` for any order of the map | bounds from draws; tables checked in the kernel; in doubles by monotone rounding, with the largest draw checked for every box of the table |
| C51 | Properties | map laws |
| C52 | protobuf wire format | byte-level parser/printer round trip; accepted bytes of any writer settle after one reading |
| C53 | GPX decoding in the `Go` panic monad | induction; indices validated |
| C54 | all device operations in the `Go` panic monad | invariant over histories; negation inherited from C07 |
| C55 | NextLocation odometers (any `F`) and position (ℝ) | ghost odometer over histories; bounds; negations |
| C56 | foreign GeoJSON/GPX document trees | exact acceptance and result by induction; negations |
| C57 | the 34 read-locked methods; IsFinish step by step for several readers | case analysis, induction over readings and schedules; negations |
| C58 | Snapshot with a moment for each part it reads | exact parts, panic and decoding conditions; negations for any device |
| C59 | attributes over all device operations | case analysis of operations, induction over histories |
| C60 | published state over the whole life of a device, presets | invariant over operations and restores, over ℝ; the same up to rounding in IEEE doubles, with a negation |
| C61 | what one Next does with the elapsed time | case analysis of Next; negation for any reachable device |
| C62 | battery and offline period over Next and the whole life | case analysis of Next, invariant; negation for any offline device |
| C63 | new lap in Next, IsFinish over device histories | case analysis of Next, invariant over operations; negation for any device |
| C64 | time estimate at every refresh | case analysis; negation for any moving device, infinity in extended arithmetic |
| C65 | read-write locks, the lock operations of every method, interleaving steps | locks are taken in the order generator, packet, device; measure of steps left; deadlocks of callbacks as reached states |
| C66 | goroutines with clients that attach and detach | C39's invariant with the devices recorded at the beginning of every tick; counterexamples for every packet size by constructing the schedule |
| C67 | `EachTrack`, `EachRoute`, `EachSensor` as loops that read length and element again in every round, with callbacks that act on a state containing the collection (`Model/Iterate.lean`). | Partial (full claim false): for callbacks that keep the collection, by induction over what is left; the log of calls is compared with a specification of iteration. Negations for callbacks that remove (all lists) or add (all routes). |
| C68 | `SensorAt` with the device seen by each of its three readings (`sensorAtMoments`), any operations of others in between. | Partial (full claim false): exact panic condition, right at one moment, safe without removals. Negation on every device with sensors. |
| C69 | JSON text of property maps (`Model/JsonText.lean`: number literals, string escapes, UTF-16 surrogates, white space, objects), the reader of `json.Unmarshal` and the writer of `json.Marshal`; bit layout of doubles (`Model/F64Bits.lean`) | reading back by induction over digits, characters and members; composed with C52; doubles: every finite double is a decimal; for texts of other programs the reader is proved equivalent to the grammar of RFC 8259 (C69Strings, C69Documents) |
| C70 | the complete device message with units, UTM coordinates and JSON text, the bytes of a packet (`Model/PacketBytes.lean`) | C35 and C52 composed; properties by C69 |
| C71 | text as Go strings, the error path of a worker (`Model/RawText.lean`) | case analysis; negations for every text that is not UTF-8 |
| C72 | `NextLocation`, `makeSegments`; any sequence of calls | C11 and the case analysis of the loop; invariant for the negation |
| C73 | all operations of `NavHistory` on versions | case analysis, if and only if; negation by TrackByID |
| C74 | encoders of `io.go` on pointers that may be nil or blank (`Pointers`) | induction over the list, if and only if; devices by C54; negation by a nil route |
| C75 | `NewDevice` on a store of options objects (`Options`) | invariant by induction over histories: every identifier in a store comes from a creation with the same pointer; negation by two creations from one pointer, in doubles |
| C76 | tick of `generator.go:run` and the device driven by it (`Clock`) | tick = max 1 s and the absolute gap; induction over the rounds; exact if and only if; doubles for whole seconds; negation by ten rounds of 100 ms |
| C77 | memory of tracks, routes and navigators that hold addresses (`Shared`) | refinement: what each navigator sees is a history of the value model (`NavHistory`); frame theorem for calls that hit nothing reachable; negation by a shared route, for every memory and number type |
| C78 | `Polygon`, `NormalizeCoordinates`, `RandomRoute` and the three city presets (`Random`), exact arithmetic | closed form of every corner by C50 and C01; negation by equal draws, whose angles are forced up to whole turns |
| C79 | run loop, workers and devices in one memory (`Live`: addresses point to devices, workers copy what their slice points to) | invariant: while a worker holds a slice all devices have made the current round and stand still; order by the clock of packets, completeness by C39, bytes by C70 |
| C80 | `NextLocation`, `DestinationTo` and the formulas of package geo in exact arithmetic, on the unit sphere in three dimensions | `Destination` is a point of the great circle spanned by start and heading, so two destinations are as far apart as their distances differ; C09 for the counters, triangle inequality (C46) across segment ends |
| C81 | Navigators of any number type, all histories. `AtStart` says what a restart is, `Alike` what two trips have in common. | Trips do not depend on location, version and elevation (`loop_mask`, induction over the loop; `same_trip`, induction over the trip); every restarting call leads to `AtStart` (`restart_start`); after any history that ends online the trip after `Reset` is that of a new navigator (`reset_as_new_partial`). Offline periods and the location survive a restart: `trip_fails`, `place_fails`. |
| C82 | The pointer returned by `State` as a view that follows the calls on the device (`Device.views`; `FromSnapshot` leaves it behind), and an encoder that reads every field at a moment of its own (`StateMoments`). Reads of one field and calls are atomic. | Induction over the calls; calls that do not publish leave all views equal (`consistent_partial`); identifiers by C59. The full claim fails on every device: `torn`, `nowhere`. |
| C83 | `Distance` in IEEE doubles against the Earth's radius times the angle of two points of the sphere. The library is any that has the signs and ranges of C46 and the accuracy `Accurate`; for the negation `math.Sin` and `math.Cos` are modelled (`Model/GoTrig`). | Error analysis of every operation (`angle_near`, `diff_near`, `HavErr.hav_error`: the error of the haversine is at most a constant times its root, even at the poles), then of root and inverse sine. The negation is computed by the kernel. |
| C84 | `Destination`, `Bearing`, `DestinationTo` and all histories of a navigator in IEEE doubles; the line is given by great-circle distances (`C83.exact`), the exact destination by the model over the real numbers. | Error analysis of every operation (`Near`), of angles up to full turns (`Turn`) and of `atan2` (`Turn.polar`); the error of the bearing is inversely proportional to the length of the segment (`bearing_near`), which the travelled distance makes up for (`segment_near`). Histories by induction (`Held.reach_held`). The negation is computed by the kernel. |
| C85 | Lengths of tracks, routes and navigators and the odometer in IEEE doubles against exact sums of great-circle distances and of tick times speed; the histories of the odometer are those of C55 with numbers attached (`Driven`). | Error analysis of a sum from left to right (`sum_near`) over the distances of C83; C02, C03 and C55 say for any number type which sums the code computes. |
| C86 | The bytes of GeoJSON documents: a JSON printer and parser for nested values, the layout of FeatureCollection, Feature and Geometry, positions as arrays (`Model/GeoText.lean`) | Mutual induction over values: what is printed is parsed; option-valued equality of the printed geometry with a layout from RFC 7946; permutation of map entries for the key order; composition with the decoder of C44; the failure by contraposition; C83 for the track of length NaN; for texts of other programs an inductive JSON grammar, equivalence with the parser by induction on the recursion depth and on the length (`Theorems/C86Grammar.lean`) |
| C87 | `RouteFromSnapshot` and its callers, which drop its error | exact result for every message; negations for every number type; byte examples in doubles |
| C88 | repeated GPX saves; coordinates written with ten decimals (`Model/GpxCoord`) | induction over the saves for any number type; rounding to decimal and to double is idempotent; IEEE doubles for accuracy, lengths, closed tracks; negation |
| C89 | GPX files as XML text (`Model/XmlText`): escaping, names, indentation, reader | reader inverts writer by induction over the tree, then C45; an unreadable attribute makes all enclosing elements unreadable; equality of texts for forged keys; IEEE doubles for coordinates; for files of other programs an inductive XML grammar (names, references, line ends, attributes, elements, instructions), equivalence with the parser by induction on the recursion depth and on the length (`Theorems/C89Grammar.lean`) |
| C90 | `Navigator.Update` as 22 statements on a message with optional sub-messages (`Model/NavUpdate`), with what was written before a panic | execution of the statement list split at the location parts; C24 for when the getters return, C35 for what they show |
| C91 | the generated readers proto/gpsgen.ts and proto/gpsgen_pb.js (`Model/Browser`): loop over fields, one table per message, two runtimes | reading is a run through the records that Go writes, composed field by field (`Runs`), generated for the 13 message types; rounding of integers from the model of doubles |
| C92 | sensors and devices in a memory, devices hold addresses (`Model/SharedSensors`); calls one after the other | one step seen by each device, on values; two devices that differ only in their sensors stay so under every operation (`Kin`, for any part of a sensor that tells what its calls do); induction over programs |
| C93 | arbitrary bytes through `DecodeTracker` (wire format of C52, JSON of C69) and all later calls | the invariant of C54, established from the message instead of from a constructor; a constant speed needs no points; 18 and 23 concrete bytes for the negations |
| C94 | the number of `NextLocation` calls of a trip, over ℝ | calls left as a natural number that every call decreases by one (two such numbers, for the shortest and the longest step); negation by a track to and fro between two points |
| C95 | positions in the packets of a running generator, over ℝ, over doubles and for any number type | a point of a segment of the device kept from round to round (`round`, `stays`), composed with C79 for all executions; negation by the bicycle preset on a short track |
| C96 | saving between two rounds, restoring, and driving on, compared with driving all the time; any number type | devices that differ only in what `Next` overwrites (`next_core`) or in unused settings (`next_like`) step alike; composed with C23, C52 and C79; negation by a device that leaves two tracks in a row without moving, and in exact arithmetic by the bicycle preset saved before its first round |
| C97 | infinitely many rounds of one device: `Next` with battery, offline periods, navigator and laps | a measure of what is left of the lap, with a rank of offline rounds that takes low batteries into account (`laps`), decreases in every round that does not complete a lap; reals and doubles by their own counts of steps; negation by a battery that is low in every round |
| C98 | the String methods, `%.kf` in doubles, models, names and `RandomModel` | rounding to the nearest with ties to even is at least as near as every other multiple (`fixed_near`); numbers are read back by the reader of C86, texts are taken apart at the last `=` or `:`; negation by a constant speed, whose field `val` is never written |
| C99 | two calls of `Next` within a lap, with anything that does not end the lap between them; exact arithmetic | a curve is the mean of two curves with one point less (de Casteljau), so by induction it changes by at most `k * (max - min)` per unit of its parameter; C61 gives the parameter, C63 that the curve is kept; negation by a run of the bicycle tracker up to its first lap end, which exists by C97 |
| C100 | second copy of the functions with integer arithmetic, every result reduced to 64 bits (Model/Machine.lean) | equal to the unbounded functions: by cases an index that overflows belongs to no segment and is reset in the same call; sums of counters in `jump` stay below 2^63; sums of versions are equal modulo 2^64; negation by a draw |
| C101 | the program of the README as a function of what it draws (Model/Readme.lean), on top of generator, goroutines and devices | random routes have a length (two corners at different distances from the centre are apart); trackers by C97, which does not depend on the status set by `Attach`; packets by C79; no panic by the invariant of C54; the end by C40; negation by C40 with 2053 trackers |
| C102 | the programs in examples/ as functions of what they draw (Model/Examples.lean), with the two documents as they stand in the source | the documents are evaluated by the kernel through the models of the JSON, GeoJSON, XML and GPX readers; laps by C97 without offline; an invariant of the goroutines: with room in an undivided packet all slices are the whole packet, so every packet has one device; serialisation by C23; negation by the race of C42, lifted to an execution with any drone; in doubles (C102Double.lean) the documents are read as the nearest doubles by kernel evaluation, the length of the route is bounded by C83 and C85, laps by C97 in doubles |
| C103 | methods as scripts of locks, defers and computations that may panic (Model/LockPanics.lean), turned into the lock programs of C65 | the scripts stay in the lock order also when they panic, so the argument of C65 applies; negations by explicit executions ending in a state where nobody can go on; the panic itself is that of C58 |
| C104 | Random.value, Curve, Speed, Sensor, latLon, latLonByCountry, randomString as before | equivalences: value occurs for some draws iff it is in the stated set; the curve value is min + (max-min) times a weighted mean of the draws with the Bernstein weights of the free control points, whose sum is the free share; constant draws reach every value; counting the words of Uint32n by an interval of naturals |
| C105 | Maps with addresses, the fields `props` of routes and tracks and the variables of a program (`Model/PropertyMaps.lean`) | invariants over reachable stores: addresses exist, objects have different maps; case analysis per statement; both negations with a witness |
| C106 | Goroutines in steps (lock, read of the state, write of the state, unlock) under any schedule; any generator as a function of its state (`Model/RandomSource.lean`) | invariant: the mutex is held exactly during a call, the state is that after the draws made so far; the order of the draws explains all values; tickets as draws for distinctness; a schedule that finishes is constructed |
| C107 | The read-locked methods (`Model/DeviceRead.lean`) against the published state, method by method (`published`) | from C35 and the totality of the lookups once the current route is found; negation with two witnesses |
| C108 | What may be left of a device (`Left`: only curves and offline settings are fixed), the repairing calls of the model | invariant of C54 split into the position, which each repair re-establishes, and the rest, which `Left` keeps |
| C109 | Arrays, slices, `append`, `copy`, `make` with any growth strategy (`Model/Slices.lean`), the loops that add and remove elements, `Routes`, `Sensors` | refinement of programs on plain lists; invariant: no two slices share an array; then of the list functions of the other models (`C109Model.lean`) |
| C110 | Index loops with counter, bound, `break`, `return` and panicking reads (`Model/Loops.lean`) | refinement: a loop over indices is a loop over the elements; then induction on the list |

"Not applicable" is used only if no executable model can express the property; at present no
property is in that class.

## Findings

Places where the code does not have the property as stated. Each is proved on a concrete witness and
has a `_partial` theorem for what holds.

* C03: RemoveTrack, or AddTrack/RemoveTrack on a held route, leaves the navigator's total distance stale.
* C04: IsClosed compares longitudes only.
* C05, C06: routes whose id is empty or longer than 36 bytes can be added but never found or removed;
  a route accepts duplicate track ids.
* C07, C18: DestinationTo adds up loop counters, so the route and track index are wrong from the third
  route or track on; a jump beyond the end lands at the start of a segment.
* C10: a backward move keeps the track counter, which can exceed the length of the track.
* C12: in doubles a step of less than half a unit in the last place of the distance counter does not move the device. After
  `DestinationTo(1000)` a speed of 2^-50 m/s never completes the lap. Steps of at least 2^-51 of the longest segment are enough.
* C15: the offline range 0..0 is silently replaced by 0..10.
* C16: IsFinish recognises the end of a lap by the current distance being 0.1.
* C20: property changes do not change the version and are not republished.
* C21, C22: properties go through JSON: integers become floats, one unrepresentable value drops all.
* C23: pending skipped ticks are not part of a snapshot; a device with constant speed that never moved
  publishes speed zero, its copy the constant; route ids kept after the last route is removed are lost.
* C24: nil sub-messages and a route index outside the routes panic. DecodeGeoJSONRoutes panics on the document
  `null`, a `null` feature, a feature without geometry, and a restored track without id or with one point.
* C25: FromSnapshot on a used device keeps sensors with other ids and the pending ticks; a navigator made
  to skip offline periods panics on going offline after restoring a snapshot that does not skip them.
* C27: in doubles the published speed can exceed the maximum by one unit in the last place (bounds 0.5 and 1,
  1.0000000000000002).
* C28: in doubles a sensor with minimum and maximum 1 reaches 1.0000000000000002; end mode does not end exactly
  at the minimum; bounds whose difference overflows give NaN.
* C31: Battery ignores its maximum; charge time zero gives NaN.
* C32: NewSpeed accepts NaN and, with max ≤ 0, minima beyond 1000; NewBattery accepts NaN, a negative
  maximum and charge time zero; navigator.New accepts NaN and negative maximal elevation.
* C34: a call to Next that finds the device locked counts one second whatever its tick; without routes the
  tick is lost; the counter wraps at 2^32; a locked call between load and reset of the counter is lost.
  In doubles ten ticks of 0.1 seconds make 0.9999999999999999, and from 2^53 seconds on a second is lost.
* C35: without a current route or track the published ids stay those of the previous one.
* C36: restoring a snapshot overwrites the running status: an attached device can be attached again, a free
  one may never be attachable.
* C37: HasTracker("") is false even if a device with an empty id is attached; Lookup("") finds it.
* C39: the flush in the middle of a tick sends packetSize - 1 slots although packetSize are filled: the devices
  at positions packetSize - 1, 2 packetSize - 1, ... are never delivered.
* C40: Run may never return after Close. With a divided packet the final answers of stopping workers fill the
  wait channel, so a worker still delivering blocks on its answer, and Run waits for it. With one worker and a
  full packet the run loop waits for room in a channel nobody reads. Even when Run returns, a worker goroutine
  may be left blocked for good.
* C42: after Close the packet is cleared while a worker may still hold a slice: it delivers nil devices.
* C44: GeoJSON decoding gives all tracks of a route the id, colour and properties of the first one and never
  restores track names; routes without tracks vanish; a route property named like a reserved key (`routeID`,
  `color`, `name`, ...) replaces the real one; integers become floats.
* C45: GPX encoding does not write track properties; texts that look like numbers or booleans are read as such, so
  that a route with a numeric id is rejected and a numeric name is lost; routes without tracks vanish; a property
  named `id`, `name` or `color` replaces the real one.
* C46: in doubles the squares of very small angles are rounded to zero, so that different points (2^-600 degrees apart)
  have distance zero.
* C47: Destination does not normalise the longitude of start points west of -360 degrees (start points with
  valid coordinates are not affected).
* C49: latitude or longitude zero gets the letter S or W. In doubles the seconds can be negative
  (0.38333333333333325 degrees: 23 minutes, -2e-13 seconds).
* C50: Polygon(0) panics; a polygon whose draws are all zero consists of NaN. `RandomRoute` raises every level below `RouteLevelS` to it, so `RouteLevelXS` has no effect.
* C52: PacketFromBytes and UnmarshalBinary refuse the bytes of a message with all fields at their default (no
  bytes at all).
* C54: after DestinationTo into the third of three routes Next, Update, CurrentRoute and DecodeTracker panic.
* C55: a step that crosses the end of a segment covers the rest of the segment in addition to tick × speed, while
  the odometers count tick × speed only; the first step of a track puts the device at 1 m whatever tick × speed.
* C56: a GPX document with way points loses its tracks and routes, one with tracks its routes; such unused lines
  still cause refusal if shorter than two points; holes of GeoJSON polygons are dropped.
* C57: IsFinish writes under the read lock: it clears the lap mark, so one reader takes it from the next, and
  concurrent readers may all see the same lap.
* C58: Snapshot reads everything but the sensors without the lock. Concurrent changes give a mixture of states, a
  sensor added meanwhile makes it panic, removed ones leave a snapshot that cannot be decoded.
* C60: the published charge time is `int64(Seconds())`; from 2^24 seconds (194 days) on a fraction close to a full second is
  rounded up (16777216.999999999 s is published as 16777217).
* C61: Next adds the tick to the duration and nextT adds it again: all curves run one tick ahead of the elapsed
  fraction of the trip.
* C62: while a device is offline its battery is used but the published charge stays.
* C63: Next uses up the lap mark, so IsFinish of a device answers false after every completed lap. A step that
  brings the odometer to exactly 0.1 m in the first segment is reported as a finished lap.
* C64: the time estimate is that for the whole lap, not for the rest of it; Update before the first step publishes
  infinity, or NaN without routes.
* C65: `Generator.Each`, `Device.EachRoute` and `Device.EachSensor` call the callback with the lock held. A callback that calls a
  setter of the device (or `Attach`, `Detach`, `HasTracker` of the generator) never returns; one that calls a getter stops
  together with any goroutine that asks for the write lock in between.
* C66: `run` gives up the lock to flush a full packet and goes on with the same index. A device detached in this
  window makes it skip one that stays attached; a device detached and attached again is sent twice in one tick.
* C67: `EachTrack`, `EachRoute` and `EachSensor` work on the live slice. A callback that removes the element it is given makes the loop skip the next one, so `EachTrack` with `RemoveTrack` does not empty a route; a callback that adds a track in every call never returns.
* C68: `SensorAt` checks the index before it takes the lock. If another goroutine removes a sensor in between, `SensorAt` panics with an index out of range.
* C69: integers beyond 2^53 come back as the nearest float, which may be a different integer (example in the file); NaN or an infinity among the properties loses the whole map silently.
* C71: a user id, description or model that is not valid UTF-8 is accepted and from then on keeps every device of the same slice from being delivered; without an OnError callback OnPacket is called with what the failed encoding left.
* C72: a point that occurs twice in a row cuts a track short: `CurrentSegment` and `IsEmpty` cannot tell a segment without length from a missing one, so the device leaves the track there, and the rest is never driven although it counts in the distances. A single track that begins with a repeated point is never driven at all: every call answers false.
* C73: `TrackByID` increments the version of the route although it only reads, so every lookup makes devices publish all routes anew.
* C74: the encoders check for a nil device but not for nil entries in slices: `EncodeRoutes([]*Route{nil})`, `EncodeSensors([]*Sensor{nil})` and the text encoders panic. `EncodeTracker(nil)` returns empty data without an error, which `DecodeTracker` refuses.
* C75: `NewDevice` writes the generated identifier into the options of the caller (`applyFor` assigns `o.ID`). Devices made from the same options share it: `Lookup` finds only the first, and `Detach` removes one and leaves the others attached.
* C76: rounds less than a second apart count as a second each, so with an interval of 100 ms devices run ten times too fast. A generator that is run long after `New` receives a stale first tick from its ticker, which lies before the start; the time between it and the start is counted twice.
* C77: `RemoveTrack` of a navigator removes the track from the route object, so every other navigator that holds the route loses it too. Their versions stay and their total distances become stale.
* C78: `Polygon` spreads the corners over `6 * math.Phi`, about 9.7 radians; `math.Pi` may have been meant. A random track goes around its centre more than one and a half times. Exponential draws put no upper bound on the distance of a corner from the centre.
* C80: the first step on a track puts the device 1 m behind its start whatever the step is (navigator/navigator.go:516-517); if the first segment is shorter than 1 m the device leaves its line.
* C81: `ResetNavigator` "clears all navigation-related state and resets the device's position" (device.go:595-597), but `Reset` keeps the location and a running offline period, and the device keeps its duration and speed curve. The location is that of before the reset until the next successful step.
* C82: `State` returns the pointer to the published state, and workers encode it without the lock of the device. Setters, `Update`, `AddRoute` or `AddSensor` called meanwhile give messages that mix two states, for instance the latitude of before and the longitude of after. A state kept by a caller changes with the device until `FromSnapshot`, and never again after it.
* C83: for some antipodal points `Haversine` is 1.0000000000000004, its root exceeds 1 and `Distance` returns NaN, for instance for 44.008 N 66.125 W and 44.008 S 113.875 E (computed with the algorithm of Go's package `math` on amd64; a numeric search found about one in 70 000 of random antipodal pairs). `DistanceFromHaversine` does not clip its argument to 1. A segment between such points has distance NaN.
* C84: walks that end at a pole can have a destination whose latitude is NaN, since the argument of `math.Asin` in `Destination` is rounded above 1, for instance 1436.972 km to the north from 77.077 N (computed with the algorithm of Go's package `math` on amd64).
* C86: A track between two opposite points of the Earth (44.008° N 66.125° W and 44.008° S 113.875° E with Go's sine and cosine) has the length NaN (C83); `NewTrack` accepts it, and `geojson.Encode` of any list of routes that contains it fails (`antipodal_route`).
* C87: `DecodeRoutes` (io.go:94) and `Navigator.FromSnapshot` (navigator.go:584) ignore the error of `RouteFromSnapshot`. A route whose properties are not a JSON object, or whose name has 1, 2 or more than 256 bytes, is replaced by a blank route without an error; a device keeps the total distance of the lost route. Broken properties of a track become an empty map.
* C88: a GPX file keeps ten decimals of coordinates, so a loaded track is not the saved one: points move up to 18 µm, and a track whose ends were that close becomes closed. Saving again changes nothing more in the coordinates; a text property `-0.0` changes on each of the first two loads.
* C89: `gpx.Encode` writes property keys as attribute names without checking them. A key with a blank (`max speed`) makes a file that `Decode` rejects, with all its routes; a key like `a="1" id` forges other attributes, even the id of the route; `a:b` comes back as `b`, and the property with the empty key is lost. Control characters in values become U+FFFD.
* C90: `Navigator.Update` dereferences nil on a message whose `Location` has no `Utm`, `LatDms` or `LonDms`: `normalizeDeviceState` makes those only when the whole `Location` is absent. Unmarshalling a packet of another program can give such a message. The message is left half written.
* C91: proto/gpsgen_pb.js reads `int64` as JavaScript numbers: integers above 2^53 are rounded, up to 1024 off. What devices publish stays below. A second occurrence of a sub-message replaces the first in JavaScript, where Go and TypeScript merge them.
* C92: devices that hold the same sensor object overwrite each other's values: `Update` and the end of a lap publish the value of the device that called the sensor last, and a device that ends a lap shuffles the curves of the sensors it shares. Each device locks only itself, so a generator that runs both devices also has a data race there (not modelled).
* C93: snapshots are not checked for curves without control points. `DecodeTracker` accepts the 18 bytes 4A 06 52 00 5A 02 3A 00 52 02 22 00 5A 00 62 02 3A 00, and the first `Next` of the sensor of that device panics. With an empty speed curve every `Next` panics, in a generator therefore its own goroutine.
* C94: devices arrive too early. The rest of a segment that a step does not fill is skipped, so a trip takes Σ⌊segment / step⌋ calls (plus one for each track) instead of Σ segment / step: with points a little less than a step apart (tracks recorded once a second, as GPX files often are) the whole track is over in a single call, without any position on it being published.
* C95: until a device has made its first successful step it is published at latitude 0 and longitude 0, in the Gulf of Guinea. A device whose slowest speed exceeds the spacing of its track (a bicycle, at least 2 m/s, on points 1.1 m apart) stays there for ever (`bicycle_lost`), lap after lap.
* C96: `EncodeTracker` is not neutral: it calls `Update`, so saving a device that is between two moves changes what it publishes (for instance the current track) even if the program goes on with the same device; the difference disappears with the next move.
* C97: a low battery starts a new offline period even while the device is offline. With a charge time of one second, which `NewBattery` accepts, every tick does that, and a device with offline mode never moves at all.
* C98: `Speed.String` prints the field `val`, which `Next` does not write for constant speeds, instead of `Value()`; every constant speed is shown as `speed: 0.00 m/s`.
* C99: at the end of a lap the curves are shuffled without regard to the last values, so speed, elevation and sensors jump, up to the whole distance of their bounds within one tick (a bicycle from 2 to 8 m/s in a second).
* C100: offline bounds of a snapshot are not checked; with `OfflineMin` near 2^63 the period drawn overflows to a negative number and the device never goes offline.
* C101: the program of the README stops cleanly with up to 2052 trackers; with `numTrackers` of 2053 or more `Run` may hang after `Close` (C40).
* C102: the callbacks of examples/addroute/* and examples/generator read `Location` of every device without checking it. After `Close` the run loop may clear the packet that a worker is serialising (C42); the device in it then has no location and the callback panics in a worker goroutine. The callback of examples/addsensor reads only `Sensors` and is safe.
* C103: `Device.Snapshot` (device.go:736-740) takes the read lock without `defer`. When a sensor is added meanwhile it panics (C58), and if the panic is recovered, as in an HTTP handler, the read lock is never given back: `Next` fails for ever, setters never return, and the first waiting setter also stops the generator in the middle of a tick, with its own locks taken.
* C104: `types.Random.Value` draws with `Uint32n(max-min)`, so the configured maximum offline period never occurs: `WithOffline(1, 2)` always gives 1. Its comment promises a value within the range specified by min and max. Speed and sensor maxima are likewise never reached, since `Float64` is below 1.
* C105: `Properties.Reset` replaces the map in the variable it is called on. After `p := route.Props(); p.Reset()` the route still has all its properties, and `route.Props().Reset()` does not compile. Its comment says that it clears all key-value pairs. `RestoreRoute` stores the map of its caller without copying it: two routes restored with one map share their properties.
* C107: `State()` is documented to return the current device state. After `AddRoute`, `MoveToSegment`, `DestinationTo`, `ToOffline` and the like it still shows distances, place and offline flag from before, until `Next` or `Update` is called; the getters of the device show the change at once.
* C108: a device that panics after `DestinationTo` (C54) need not be thrown away: `ResetNavigator`, a successful move or any successful change of the list of routes brings it back. Changing model or sensors, adding a known route and a failing move do not (examples).

The type `Toy` (rationals with made-up trigonometry) is used only in `example`s and as the witness of the negations `C75.claim_fails` and `C77.claim_fails`, which do not
depend on arithmetic.
