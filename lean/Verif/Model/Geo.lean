import Verif.Model.Num
/-!
# Package geo
-/

namespace GpsGen
open GoMath

variable {F : Type}

/-- geo/geo.go:16-19 `LatLonPoint`. -/
structure LatLon (F : Type) where
  lat : F
  lon : F
  deriving DecidableEq, Repr, Inhabited

/-- Go's `==` on `LatLonPoint`: field-wise float comparison (false if a field is NaN). -/
def LatLon.goEq [GoFloat F] (a b : LatLon F) : Bool := (a.lat ==. b.lat) && (a.lon ==. b.lon)

variable [GoMath F]

/-- geo/geo.go:9 `earthRadius`. -/
def earthRadius : F := lit 6371000
/-- geo/geo.go:10 `radians`. In Go a constant expression (rounded once). -/
def radians : F := pi /. lit 180
/-- geo/geo.go:11 `degrees`. -/
def degrees : F := lit 180 /. pi
/-- geo/geo.go:12-13 `twoPiR`. -/
def twoPiR : F := lit 2 *. (pi *. earthRadius)

/-- geo/bearing.go:6-14 `Bearing`. -/
def bearing (latA lonA latB lonB : F) : F :=
  let φ1 := latA *. radians
  let φ2 := latB *. radians
  let Δ := (lonB -. lonA) *. radians
  let y := sin Δ *. cos φ2
  let x := cos φ1 *. sin φ2 -. sin φ1 *. cos φ2 *. cos Δ
  let θ := atan2 y x
  fmod (θ *. degrees +. lit 360) (lit 360)

/-- geo/destination.go:6-19 `Destination`. -/
def destination (lat lon meters bearingDegrees : F) : LatLon F :=
  let δ := meters /. earthRadius
  let θ := bearingDegrees *. radians
  let φ1 := lat *. radians
  let l1 := lon *. radians
  let φ2 := asin (sin φ1 *. cos δ +. cos φ1 *. sin δ *. cos θ)
  let l2 := l1 +. atan2 (sin θ *. sin δ *. cos φ1) (cos δ -. sin φ1 *. sin φ2)
  let l2' := fmod (l2 +. lit 3 *. pi) (lit 2 *. pi) -. pi
  ⟨φ2 *. degrees, l2' *. degrees⟩

/-- geo/distance.go:12-22 `Haversine`. -/
def haversine (latA lonA latB lonB : F) : F :=
  let φ1 := latA *. radians
  let l1 := lonA *. radians
  let φ2 := latB *. radians
  let l2 := lonB *. radians
  let Δφ := φ2 -. φ1
  let Δl := l2 -. l1
  let sφ := sin (Δφ /. lit 2)
  let sl := sin (Δl /. lit 2)
  sφ *. sφ +. cos φ1 *. cos φ2 *. sl *. sl

/-- geo/distance.go:36-38 `DistanceFromHaversine`. -/
def distanceFromHaversine (h : F) : F := earthRadius *. lit 2 *. asin (sqrt h)

/-- geo/distance.go:30-33 `DistanceToHaversine`. -/
def distanceToHaversine (meters : F) : F :=
  let s := sin (lit (1/2) *. meters /. earthRadius)
  s *. s

/-- geo/distance.go:25-27 `NormalizeDistance`. -/
def normalizeDistance (meters : F) : F := fmod meters twoPiR

/-- geo/distance.go:6-9 `Distance`. -/
def distance (latA lonA latB lonB : F) : F :=
  distanceFromHaversine (haversine latA lonA latB lonB)

end GpsGen
