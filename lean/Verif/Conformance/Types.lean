import Verif.Conformance.Fixture
import Verif.Model.Snapshot
import Verif.Model.Strings
import Verif.Model.Random
/-!
# The tests of packages types, curve, properties, random and of the names, replayed

Random draws are the middle of their interval, or run through a short cycle where the test needs them to differ. A test that only asks
whether two objects differ from nil is not repeated.
-/

namespace GpsGen
namespace Conformance
namespace TypesTest
open F64

def mid : Nat → F64 := fun _ => lit (1 / 2)

/-- Draws that differ from one to the next. -/
def cycle (k : Nat) : Nat → F64 := fun i => lit (((7 * i + k) % 16 : Nat) / 16)

def zero (x : F64) : Bool := x ==. lit 0

/-! ## types/speed_test.go -/

example : (Speed.new mid (lit 0) (lit 0) 4).map (fun s => (s.min, s.max)) = .ok (lit 1, lit 1) := by decide +kernel
example : failed (Speed.new mid (lit 30) (lit 10) 0) = true := by decide +kernel
example : failed (Speed.new mid (lit 0) (lit 1001) 0) = true := by decide +kernel
example : failed (Speed.new mid (lit (-1)) (lit 0) 0) = true := by decide +kernel
example : failed (Speed.new mid (lit 0) (lit 100) 0) = true := by decide +kernel
example : failed (Speed.new mid (lit 0) (lit 100) 513) = true := by decide +kernel

def speed : Speed F64 := (Speed.new mid (lit 1) (lit 100) 32).toOption.getD default

/-- types/speed_test.go:85-101 for the ticks given: after the first two the speed differs from the second. -/
def speeds (s : Speed F64) (prev : F64) : List Nat → Go Bool
  | [] => .ok true
  | i :: rest => do
    let s ← s.next (lit i /. lit 100)
    if i < 2 then speeds s s.value rest else return !zero (GoFloat.abs (s.value -. prev)) && (← speeds s prev rest)

example : passes (speeds (speed.shuffle (cycle 3)) (lit 0) [0, 1, 2, 50, 99]) = true := by decide +kernel

def speed4 : Speed F64 := (Speed.new mid (lit 1) (lit 3) 4).toOption.getD speed

example : (let s := speed4.snapshot; s.min == speed4.min && s.max == speed4.max && s.val == speed4.value && s.gen.isSome) = true := by
  decide +kernel
example : (passes do
    let s ← speed4.next (lit (1 / 10))
    let r ← Speed.fromSnapshot (some s.snapshot)
    return r.min == s.min && r.max == s.max && r.value == s.value) = true := by decide +kernel

/-! ## types/battery_test.go -/

example : failed (Battery.new (F := F64) (lit (-1)) (lit 1) 0) = true := by decide +kernel
example : failed (Battery.new (F := F64) (lit 0) (lit 101) 0) = true := by decide +kernel
example : (Battery.new (F := F64) (lit 10) (lit 5) 0).map (fun b => (b.min, b.max)) = .ok (lit 5, lit 5) := by decide +kernel
example : (Battery.new (F := F64) (lit 2) (lit 4) 0).map (fun b => (b.min, b.max)) = .ok (lit 2, lit 4) := by decide +kernel

def battery : Battery F64 := (Battery.new (lit 1) (lit 10) (60 * 1000000000)).toOption.getD default

/-- types/battery_test.go:74-87. -/
example : (let b := (List.replicate 61 (lit 1)).foldl Battery.next battery.reset
    b.isLow && b.chargeTime == 60 * 1000000000) = true := by decide +kernel
example : (let s := battery.snapshot
    s.min == battery.min && s.max == battery.max && s.val == lit 0 && s.chargeTime == battery.chargeTime) = true := by decide +kernel
example : (passes do return (← Battery.fromSnapshot (some battery.snapshot)) == battery) = true := by decide +kernel

/-! ## types/sensor_test.go -/

def bounds (r : Except Err (Sensor F64)) : Except Err (F64 × F64 × String) := r.map fun s => (s.min, s.max, s.name)

example : bounds (Sensor.new "id" mid "negative sensors" (lit (-10)) (lit (-5)) 8 0) = .ok (lit (-10), lit (-5), "negative sensors") := by
  decide +kernel
example : bounds (Sensor.new "id" mid "some" (lit 5) (lit 1) 8 0) = .ok (lit 5, lit 1, "some") := by decide +kernel
example : failed (Sensor.new "id" mid "" (lit 0) (lit 0) 8 0) = true := by decide +kernel
example : failed (Sensor.new "id" mid "some" (lit 0) (lit 0) 0 0) = true := by decide +kernel

def sensor (name : String) (min max : F64) (amp : Int) : Sensor F64 :=
  (Sensor.new "id" mid name min max amp 0).toOption.getD default

/-- types/sensor_test.go:86-102 and 104-115 for the ticks given. -/
def moves (s : Sensor F64) (prev : F64) : List Nat → Go Bool
  | [] => .ok true
  | i :: rest => do
    let s ← s.next (lit i /. lit 100)
    if i < 2 then moves s s.valY rest else return !zero (GoFloat.abs (s.valY -. prev)) && (← moves s prev rest)

def notZero (s : Sensor F64) : List Nat → Go Bool
  | [] => .ok true
  | i :: rest => do
    let s ← s.next (lit i /. lit 100)
    return !zero s.valY && (← notZero s rest)

example : passes (moves ((sensor "positive" (lit 1) (lit 100) 32).shuffle (cycle 5)) (lit 0) [0, 1, 2, 99]) = true := by
  decide +kernel
example : passes (notZero ((sensor "nagative" (lit (-1)) (lit (-100)) 32).shuffle (cycle 5)) [0, 1, 2, 99]) = true := by
  decide +kernel

def pressure : Sensor F64 := sensor "pressure" (lit (1 / 10)) (lit 1) 16

example : (let s := pressure.snapshot
    s.id == pressure.id && s.min == pressure.min && s.max == pressure.max && s.valX == pressure.valX && s.valY == pressure.valY &&
    s.name == pressure.name && s.gen.isSome) = true := by decide +kernel
example : (passes do return (← Sensor.fromSnapshot (some pressure.snapshot)) == pressure) = true := by decide +kernel

/-! types/sensor_test.go:150-234; `none` is the result of `uuid.Parse` on the empty string and on `badid`. -/

example : failed (Sensor.restore none mid "" (lit 0) (lit 0) 0 0) = true := by decide +kernel
example : failed (Sensor.restore (some "3caaac65-b01a-4865-8d01-6aba1fbeab69") mid "" (lit 0) (lit 0) 0 0) = true := by decide +kernel
example : failed (Sensor.restore (some "3caaac65-b01a-4865-8d01-6aba1fbeab69") mid "s1" (lit 0) (lit 0) 3 0) = true := by decide +kernel
example : failed (Sensor.restore (some "3caaac65-b01a-4865-8d01-6aba1fbeab69") mid "s1" (lit 1) (lit 2) 4 999) = false := by
  decide +kernel
example : failed (Sensor.restore (some "3caaac65-b01a-4865-8d01-6aba1fbeab69") mid "s1" (lit 0) (lit 100) 5 57344) = false := by
  decide +kernel

/-! ## types/model_test.go and navigator/types_test.go -/

def letters (n : Nat) : String := String.ofList (List.replicate n 'a')

example : failed (newModel "") = true := by decide +kernel
example : failed (newModel (letters 65)) = true := by decide +kernel
example : newModel "model" = .ok "model" := by decide +kernel

example : failed (parseName (letters 2)) = true := by decide +kernel
example : failed (parseName (letters 257)) = true := by decide +kernel
example : parseName "somename" = .ok "somename" := by decide +kernel

/-! ## types/random_test.go -/

example : Random.new 1 100 = ⟨1, 100⟩ := by decide +kernel
example : Random.new (-1) 100 = ⟨0, 100⟩ := by decide +kernel
example : Random.new (-1) (-1) = ⟨0, 1⟩ := by decide +kernel
example : Random.new 0 0 = ⟨0, 1⟩ := by decide +kernel
example : [0, 1, 2 ^ 31, 2 ^ 32 - 1].all (fun x => 1 ≤ (Random.new 1 10).value x && (Random.new 1 10).value x ≤ 10) = true := by
  decide +kernel

/-! ## curve/curve_test.go -/

example : (Curve.new (lit 0) (lit 0) 0 0 mid).points.length = 4 := by decide +kernel
example : (Curve.new (lit 0) (lit 0) (-1) 0 mid).points.length = 4 := by decide +kernel

/-- `ModeMinEnd` and `ModeMinStart`. -/
example : (Curve.new (lit 1) (lit 10) 0 8192 mid).points.getLast?.map (fun p => p.vp.y) = some (lit 1) := by decide +kernel
example : (Curve.new (lit 2) (lit 10) 0 16384 mid).points.head?.map (fun p => p.vp.y) = some (lit 2) := by decide +kernel

/-- curve/curve_test.go:75-115 for the parameters given. -/
def inBounds (c : Curve F64) : List Nat → Go Bool
  | [] => .ok true
  | i :: rest => do
    let (c, p) ← c.point (lit i *. dec 1 (-2))
    return !zero p.x && !zero p.y && lit 1 <=. p.y && p.y <=. lit 2 && (← inBounds c rest)

example : passes (inBounds (Curve.new (lit 1) (lit 2) 8 0 (cycle 1)) [1, 2, 3, 10, 33, 50, 77, 99, 100]) = true := by decide +kernel

def curve16 : Curve F64 := Curve.new (lit 2) (lit 400) 16 16384 (cycle 2)

example : (let s := curve16.snapshot
    s.min == curve16.min && s.max == curve16.max && s.mode == curve16.mode && s.points.length == curve16.points.length) = true := by
  decide +kernel
example : (passes do
    let c := Curve.new (lit 1) (lit 100) 8 modeDefault (cycle 2)
    return (← Curve.fromSnapshot (some c.snapshot)) == c) = true := by decide +kernel

/-- curve/curve_test.go:182-212: with different draws every control point changes. -/
example : (let c := Curve.new (lit 1) (lit 100) 16 modeDefault (cycle 2)
    let d := c.shuffle (cycle 3)
    c.points.length == 16 && d.points.length == 16 && (c.points.zip d.points).all (fun p => p.1.vp.y != p.2.vp.y)) = true := by
  decide +kernel

/-! ## properties/properties_test.go -/

def props : PMap F64 := PMap.make

example : (props.set "key" (.str "value")).getString "key" = ("value", true) := by decide +kernel
example : (props.set "key" (.int 1000)).getInt "key" = (1000, true) := by decide +kernel
example : (props.set "key" (.int32 1000)).getInt "key" = (1000, true) := by decide +kernel
example : (props.set "key" (.int64 1000)).getInt "key" = (1000, true) := by decide +kernel
example : (props.set "key" (.float (lit 1000))).getFloat "key" = (lit 1000, true) := by decide +kernel
example : (props.set "key" (.bool true)).getBool "key" = (true, true) := by decide +kernel
example : (let p := (props.set "bool" (.bool true)).merge [("foo", .str "bar"), ("baz", .int 1)]
    p.getBool "bool" == (true, true) && p.getString "foo" == ("bar", true) && p.getInt "baz" == (1, true)) = true := by decide +kernel
example : props.getBool "" = (false, false) ∧ props.getString "" = ("", false) ∧ props.getInt "" = (0, false) ∧
    props.getFloat "" = (lit 0, false) := by decide +kernel
example : ((props.set "key" (.str "val")).remove "key").getString "key" = ("", false) := by decide +kernel

/-! ## random/latlon_test.go, polygon_test.go and string_test.go -/

example : countryName "" = none ∧ countryName "xy" = none ∧ countryName "zw" = some "Zimbabwe" := by decide +kernel
example : boundingBox (F := F64) "" = none ∧ boundingBox (F := F64) "xy" = none := by decide +kernel
example : (boundingBox "zw").map (fun b : BBox F64 => (b.minLon, b.minLat, b.maxLon, b.maxLat)) =
    some (dec 2526 (-2), dec (-2227) (-2), dec 3285 (-2), dec (-1551) (-2)) := by decide +kernel

/-- random/latlon_test.go:108-166 for three pairs of draws. -/
def inside (code : String) : Bool :=
  [(lit 0, lit 0), (lit (1 / 2), lit (1 / 3)), (lit (9007199254740991 / 2 ^ 53), lit (9007199254740991 / 2 ^ 53))].all fun (u, v) =>
    match boundingBox (F := F64) code, latLonByCountry code u v with
    | some b, some p => b.contains p
    | _, _ => false

example : latLonByCountry (F := F64) "" (lit 0) (lit 0) = none ∧ latLonByCountry (F := F64) "zy" (lit 0) (lit 0) = none := by
  decide +kernel
example : inside "af" = true := by decide +kernel
example : inside "tz" = true := by decide +kernel
example : [(lit 0, lit 0), (lit (1 / 2), lit (1 / 3)), (lit (9007199254740991 / 2 ^ 53), lit (9007199254740991 / 2 ^ 53))].all
    (fun (u, v) => (⟨lit (-180), lit (-90), lit 180, lit 90⟩ : BBox F64).contains (latLon u v)) = true := by decide +kernel

/-- random/latlon_test.go:182-198. -/
example : (⟨dec 1213284 (-6), dec 18600047 (-6), dec 11587763 (-6), dec 25518278 (-6)⟩ : BBox F64).center =
    ⟨dec 220591625 (-7), dec 64005235 (-7)⟩ := by decide +kernel

example : (polygon (F := F64) (-1) (lit 0) mid mid).map List.length = .ok 17 := by decide +kernel
example : (polygon (F := F64) 32 (lit (-1)) mid mid).map List.length = .ok 33 := by decide +kernel
example : (polygon (F := F64) 32 (lit 2000) mid mid).map List.length = .ok 33 := by decide +kernel

example : (randomString 0 id).map String.length = .ok 0 := by decide +kernel
example : (randomString (-1) id).map String.length = .ok 0 := by decide +kernel
example : (randomString 4 id).map String.length = .ok 4 := by decide +kernel
example : (randomString 32 id).map String.length = .ok 32 := by decide +kernel

end TypesTest
end Conformance
end GpsGen
