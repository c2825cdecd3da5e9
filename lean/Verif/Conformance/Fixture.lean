import Verif.Conformance.Library
import Verif.Model.Navigator
/-!
# The tracks of the tests of package navigator

navigator/navigator_test.go:14-46, in doubles.
-/

namespace GpsGen
namespace Conformance
open F64

instance : Inhabited F64 := ⟨.nan⟩

/-- A point whose coordinates are written with a number of decimals. -/
def at' (lon lat : Int × Int) : LatLon F64 := ⟨dec lat.1 lat.2, dec lon.1 lon.2⟩

/-- `n / 2 ^ k`. -/
def dy (n k : Nat) : F64 := lit ((n : ℚ) / 2 ^ k)

/-- The points of navigator/navigator_test.go:16-19. -/
def pts300m : List (LatLon F64) :=
  [at' (10649331396675268, -14) (295299004724652, -13), at' (10649523863664103, -14) (29532016484207674, -15)]

/-- The points of navigator/navigator_test.go:21-25. -/
def pts1km : List (LatLon F64) :=
  [at' (10646029732125612, -14) (29532477955504234, -15), at' (10646229029469634, -14) (29534568282538686, -15),
   at' (1064659759305107, -13) (2953996017665672, -14)]

/-- The points of navigator/navigator_test.go:26-35. -/
def pts3km : List (LatLon F64) :=
  [at' (10648818494999364, -14) (29526967168711465, -15), at' (10648818494999364, -14) (2953306336155346, -14),
   at' (10649038855444923, -14) (2953586552047419, -14), at' (10649055806248373, -14) (29537291150475014, -15),
   at' (10648007681565423, -14) (2953522643843239, -14), at' (10647905976744477, -14) (29534439870375238, -15),
   at' (10647617813084906, -14) (2953055610091529, -14), at' (1064755283500491, -13) (29529843240954946, -15)]

/-- Segments along the points with the lengths, bearings and relations given. -/
def withSegments : Int → List (LatLon F64) → List (F64 × F64 × Int) → List (Segment F64)
  | i, a :: b :: rest, (d, w, rel) :: more => ⟨a, b, d, w, i, rel⟩ :: withSegments (i + 1) (b :: rest) more
  | _, _, _ => []

/-- `track300m1segment`, evaluated (the comment of the test says 300 m). -/
def track300m : Track F64 := {
  id := "00000000-0000-0000-0000-00000000300m", color := "#000000", name := "", props := none, isClosed := false, version := 0,
  segments := withSegments 0 pts300m [(dy 1319676224944261 42, dy 337400593479729 43, -1)]
  dist := dy 1319676224944261 42 }

/-- `track1km2segment`, evaluated (the comment of the test says 301 m and 697 m). -/
def track1km : Track F64 := {
  id := "00000000-0000-0000-0000-0000000001km", color := "#000000", name := "", props := none, isClosed := false, version := 0,
  segments := withSegments 0 pts1km [(dy 2656403122330945 43, dy 87250113762939 41, 0), (dy 3067925768020021 42, dy 135194273669683 42, 1)]
  dist := dy 8792254658370987 43 }

/-- `track3km7segments`, evaluated. -/
def track3km : Track F64 := {
  id := "00000000-0000-0000-0000-0000000003km", color := "#000000", name := "", props := none, isClosed := false, version := 0,
  segments := withSegments 0 pts3km [(dy 2981284946707815 42, dy 0 0, 0), (dy 830217514047583 41, dy 302407933127475 43, 1),
    (dy 2803645328247385 44, dy 103901197930773 44, 2), (dy 4572510996895543 42, dy 4525502802630591 44, 3),
    (dy 1157990791718275 43, dy 8034939344652133 45, 4), (dy 1130359012275357 41, dy 7488844717650943 45, 5),
    (dy 7119201427771741 46, dy 3842453881775841 44, 6)]
  dist := dy 3299951453351489 40 }

/-- `NewTrack` on the points of the tests gives these tracks. -/
example : Track.new "00000000-0000-0000-0000-00000000300m" "#000000" pts300m = .ok track300m := by decide +kernel
example : Track.new "00000000-0000-0000-0000-0000000001km" "#000000" pts1km = .ok track1km := by decide +kernel
example : Track.new "00000000-0000-0000-0000-0000000003km" "#000000" pts3km = .ok track3km := by decide +kernel

/-- The lengths in the comments: 300 m, 301 m, 697 m. -/
example : (lit 300 <. track300m.dist) = true ∧ (track300m.dist <. lit 301) = true := by decide +kernel
example : (lit 301 <. (track1km.segmentAt 0).dist) = true ∧ ((track1km.segmentAt 0).dist <. lit 302) = true ∧
    (lit 697 <. (track1km.segmentAt 1).dist) = true ∧ ((track1km.segmentAt 1).dist <. lit 698) = true := by decide +kernel

/-- A replayed test passes: it reaches its end, where all its checks hold. -/
def passes (test : Go Bool) : Bool :=
  match test with
  | .ok b => b
  | .error _ => false

/-- What an operation that returns no error left, or the value before it. -/
def orElse {α : Type} (a : α) : Except Err α → α
  | .ok b => b
  | .error _ => a

/-- Whether an operation returned an error. -/
def failed {α : Type} : Except Err α → Bool
  | .ok _ => false
  | .error _ => true

end Conformance
end GpsGen
