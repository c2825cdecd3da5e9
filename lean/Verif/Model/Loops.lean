import Verif.Model.Device
import Verif.Model.GeoJson
import Verif.Model.GenRun
/-!
# Index loops as they are written

The other models state searches, sums and copies as functions on lists. Here the same functions with the
loops of the Go code: a counter, a bound, reads that panic when out of range, `break` and `return` inside.
C110 shows that nothing is lost by the shorter form.
-/

namespace GpsGen
variable {F : Type}

namespace Loops

/-- How an iteration ends: go on, or leave the loop (`break`, `return`). -/
inductive Step (σ : Type) where
  | next (s : σ)
  | leave (s : σ)

/-- `for i := i; i < i + n; i++ { body }`. -/
def run {σ : Type} (body : Nat → σ → Go (Step σ)) : Nat → Nat → σ → Go σ
  | _, 0, s => .ok s
  | i, n + 1, s => do
    match ← body i s with
    | .next s => run body (i + 1) n s
    | .leave s => return s

/-- `for i := 0; i < len; i++ { body }`. -/
def for' {σ : Type} (len : Nat) (s : σ) (body : Nat → σ → Go (Step σ)) : Go σ := run body 0 len s

/-- navigator/navigator.go:99-110 `Sum`. -/
def sum (n : Navigator F) : Go (Int × Int × Int) := do
  let (a, b) ← for' n.routes.length ((0, 0) : Int × Int) fun i (a, b) => do
    let route ← goIndex n.routes i
    let a := a + route.version
    let b ← for' route.tracks.length b fun j b => do
      let track ← goIndex route.tracks j
      return .next (b + track.version)
    return .next (a, b)
  return (n.version, a, b)

/-- device.go:900-908 `isNotValidNS`, with `d.ns` and `sum` as arrays. -/
def isNotValidNS (ns sum : List Int) : Go Bool :=
  for' 3 false fun i ok => do
    if (← goIndex ns i) ≠ (← goIndex sum i) then return .leave true else return .next ok

/-- navigator/navigator.go:779-786 `hasRoute`. -/
def hasRoute (routes : List (Route F)) (id : String) : Go Bool :=
  for' routes.length false fun i r => do
    if id = (← goIndex routes i).id then return .leave true else return .next r

/-- device.go:910-917 `hasSensor`. -/
def hasSensor (sensors : List (Sensor F)) (id : String) : Go Bool :=
  for' sensors.length false fun i r => do
    if (← goIndex sensors i).id = id then return .leave true else return .next r

/-- navigator/navigator.go:788-798 `indexRoute`. -/
def indexRoute (n : Navigator F) (id : String) : Go Int :=
  if goLen id = 0 then .ok (-1) else
  for' n.routes.length (-1) fun i r => do
    if (← goIndex n.routes i).id = id then return .leave i else return .next r

/-- navigator/route.go:242-249 `indexTrack`. -/
def indexTrack (r : Route F) (id : String) : Go Int :=
  for' r.tracks.length (-1) fun i x => do
    if (← goIndex r.tracks i).id = id then return .leave i else return .next x

/-- device.go:226-236 `SensorByID`. -/
def sensorByID (d : Device F) (id : String) : Go (Option (Sensor F)) :=
  for' d.sensors.length none fun i r => do
    if (← goIndex d.sensors i).id = id then return .leave (some (← goIndex d.sensors i)) else return .next r

/-- navigator/navigator.go:123-134 `RouteByID`. -/
def routeByID (n : Navigator F) (id : String) : Go (Except Err (Route F)) :=
  if goLen id = 0 ∨ goLen id > 36 then .ok (.error .routeNotFound) else
  for' n.routes.length (.error .routeNotFound) fun i r => do
    if (← goIndex n.routes i).id = id then return .leave (.ok (← goIndex n.routes i)) else return .next r

/-- navigator/navigator.go:762-767 `calcRouteDistance`. -/
def calcRouteDistance [GoFloat F] (n : Navigator F) : Go (Navigator F) := do
  let n := { n with distance := lit 0 }
  for' n.routes.length n fun i m => do
    return .next { m with distance := m.distance +. (← goIndex m.routes i).dist }

/-- navigator/route.go:235-240 `updateState`. -/
def updateState [GoFloat F] (r : Route F) : Go (Route F) := do
  let r := { r with dist := lit 0 }
  for' r.tracks.length r fun i q => do
    return .next { q with dist := q.dist +. (← goIndex q.tracks i).dist }

/-- gpx/encoding.go:281-301 and geojson/feature_collection.go:79-89, both named `copyPoints`. -/
def copyPoints (segments : List (Segment F)) : Go (List (LatLon F)) :=
  for' segments.length [] fun i points => do
    let seg ← goIndex segments i
    let points := points ++ [seg.pointA]
    if i = segments.length - 1 then return .next (points ++ [seg.pointB]) else return .next points

/-- navigator/navigator.go:153-159, navigator/route.go:126-134, device.go:249-257: the loop of `RemoveRoute`,
`RemoveTrack` and `RemoveSensor`; `append(s[:i], s[i+1:]...)` and `break`. -/
def removeByID {α : Type} (name : α → String) (l : List α) (id : String) : Go (List α × Bool) :=
  for' l.length (l, false) fun i r => do
    if name (← goIndex l i) = id then return .leave (l.take i ++ l.drop (i + 1), true) else return .next r

/-- generator.go:396-405 `find`: the two results are `nil`, `false` until the device is found. -/
def find (w : World F) (g : Nat) (id : String) : Go (Option Nat × Bool) :=
  for' (w.gens g).length (none, false) fun i r => do
    if (w.devs (← goIndex (w.gens g) i)).state.id = id then return .leave (some (← goIndex (w.gens g) i), true)
    else return .next r

/-- generator.go:385-394 `delete`: the device is unmounted, then taken out whatever `unmount` says. -/
def delete (w : World F) (g : Nat) (id : String) : Go (World F × Option Err) :=
  for' (w.gens g).length (w, none) fun i r => do
    let p ← goIndex (w.gens g) i
    if (w.devs p).state.id = id then
      let rest := (w.gens g).take i ++ (w.gens g).drop (i + 1)
      match (w.devs p).unmount with
      | .error e => return .leave ({ w with gens := setAt w.gens g rest }, some e)
      | .ok d => return .leave ({ devs := setAt w.devs p d, gens := setAt w.gens g rest }, none)
    else return .next r

/-- generator.go:134-142 `Each`: the calls of `fn`, which answers whether to go on. -/
def each (w : World F) (g : Nat) (fn : Nat → Nat → Bool) : Go (List (Nat × Nat)) :=
  for' (w.gens g).length [] fun i calls => do
    let p ← goIndex (w.gens g) i
    let calls := calls ++ [(i, p)]
    if fn i p then return .next calls else return .leave calls

/-- generator.go:337-358 `flush`: the slices sent, while the generator is open. -/
def flush (c : Run.Cfg) (index : Nat) : Go (List Run.Slice) :=
  if index ≤ c.numWorkers + c.workerSize then .ok [⟨0, index⟩] else
  let step := index / c.numWorkers
  let rem := index % c.numWorkers
  for' c.numWorkers [] fun i sent =>
    let s : Run.Slice := ⟨i * step, i * step + step⟩
    let s := if i = c.numWorkers - 1 then { s with hi := s.hi + rem } else s
    .ok (.next (sent ++ [s]))

/-- generator.go:377-383 `resetPacket`. -/
def resetPacket {α : Type} (packet : List (Option α)) : Go (List (Option α)) :=
  for' packet.length packet fun i packet =>
    if i < packet.length then .ok (.next (packet.set i none)) else .error .indexOutOfRange

end Loops
end GpsGen
